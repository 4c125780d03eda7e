/-
C09, exactly: which transports get the bytes of an integer that is written asynchronously.
-/
import Verif.Props.C08_C09

namespace Mybin
open AsyncInt

/-- answers of a transport that are neither `Pending` nor an interruption -/
def AsyncInt.Ans.tells : Ans → Bool
  | .pending | .interrupted => false
  | _ => true

theorem pollWrite_sent (ns : Bytes) (hn : ns ≠ []) (sched : List Ans) : ∀ (wire : Bytes) (write : Nat),
    let (p, w, s) := pollWrite ns wire write sched
    s.length ≤ sched.length ∧ (sched ≠ [] → s.length < sched.length) ∧
    ∃ ks : List Nat, (∀ k ∈ ks, 1 ≤ k ∧ k ≤ ns.length) ∧ w = wire ++ ks.flatMap (ns.take ·) ∧
      ((ks = [] ∧ p ≠ .ready (.ok ()) ∧ (p = .pending → sched.find? Ans.tells = s.find? Ans.tells)) ∨
        ∃ n ks', ks = min (n + 1) ns.length :: ks' ∧ sched.find? Ans.tells = some (.data n)) := by
  have hpos : 0 < ns.length := List.length_pos_iff.2 hn
  induction sched with
  | nil => intro wire write; simp [pollWrite]
  | cons a s ih =>
    intro wire write
    cases a with
    | pending =>
      exact ⟨by simp, fun _ => by simp, [], by simp, by simp, Or.inl ⟨rfl, by simp, fun _ => rfl⟩⟩
    | error => exact ⟨by simp, fun _ => by simp, [], by simp, by simp, Or.inl ⟨rfl, by simp, by simp⟩⟩
    | zero => exact ⟨by simp, fun _ => by simp, [], by simp, by simp, Or.inl ⟨rfl, by simp, by simp⟩⟩
    | interrupted =>
      have := ih wire write
      simp only [pollWrite]
      revert this
      generalize pollWrite ns wire write s = q
      obtain ⟨p, w, s'⟩ := q
      rintro ⟨h1, h2, ks, h3, h4, h5⟩
      exact ⟨by simp; omega, fun _ => by simp; omega, ks, h3, h4, h5⟩
    | data n =>
      simp only [pollWrite]
      split
      · refine ⟨by simp, fun _ => by simp, [min (n + 1) ns.length], ?_, by simp, Or.inr ⟨n, [], rfl, rfl⟩⟩
        intro k hk
        rw [List.mem_singleton] at hk
        omega
      · have := ih (wire ++ ns.take (min (n + 1) ns.length)) (write + min (n + 1) ns.length)
        revert this
        generalize pollWrite ns (wire ++ ns.take (min (n + 1) ns.length)) (write + min (n + 1) ns.length) s = q
        obtain ⟨p, w, s'⟩ := q
        rintro ⟨h1, h2, ks, h3, h4, h5⟩
        refine ⟨by simp; omega, fun _ => by simp; omega, min (n + 1) ns.length :: ks, ?_, ?_, Or.inr ⟨n, ks, rfl, rfl⟩⟩
        · intro k hk
          rcases List.mem_cons.1 hk with rfl | hk
          · omega
          · exact h3 k hk
        · rw [h4, List.flatMap_cons, List.append_assoc]

theorem driveWrite_sent (ns : Bytes) (hn : ns ≠ []) (fuel : Nat) : ∀ (wire : Bytes) (sched : List Ans),
    let (p, w, _) := driveWrite ns fuel wire sched
    ∃ ks : List Nat, (∀ k ∈ ks, 1 ≤ k ∧ k ≤ ns.length) ∧ w = wire ++ ks.flatMap (ns.take ·) ∧
      ((ks = [] ∧ p ≠ .ready (.ok ())) ∨
        ∃ n ks', ks = min (n + 1) ns.length :: ks' ∧ sched.find? Ans.tells = some (.data n)) := by
  induction fuel with
  | zero => intro wire sched; exact ⟨[], by simp, by simp, Or.inl ⟨rfl, by simp⟩⟩
  | succ fuel ih =>
    intro wire sched
    have key := pollWrite_sent ns hn sched wire 0
    simp only [driveWrite]
    revert key
    generalize pollWrite ns wire 0 sched = q
    obtain ⟨p, w, s⟩ := q
    rintro ⟨h1, h2, ks, h3, h4, h5⟩
    cases p with
    | ready r =>
      dsimp only
      refine ⟨ks, h3, h4, ?_⟩
      rcases h5 with ⟨h5, h6, -⟩ | h5
      · exact Or.inl ⟨h5, h6⟩
      · exact Or.inr h5
    | pending =>
      dsimp only
      split
      · refine ⟨ks, h3, h4, ?_⟩
        rcases h5 with ⟨h5, h6, -⟩ | h5
        · exact Or.inl ⟨h5, h6⟩
        · exact Or.inr h5
      · have := ih w s
        revert this
        generalize driveWrite ns fuel w s = q
        obtain ⟨p, w', s'⟩ := q
        rintro ⟨js, g1, g2, g3⟩
        refine ⟨ks ++ js, ?_, ?_, ?_⟩
        · intro k hk
          rcases List.mem_append.1 hk with hk | hk
          · exact h3 k hk
          · exact g1 k hk
        · rw [g2, h4, List.append_assoc, List.flatMap_append]
        · rcases h5 with ⟨rfl, -, h6⟩ | ⟨n, ks', rfl, h6⟩
          · rw [h6 rfl]; simpa using g3
          · exact Or.inr ⟨n, ks' ++ js, rfl, h6⟩

/-- C09, what reaches the transport: whatever it accepts, every call sends the first bytes of the integer again. -/
theorem C09_sent (ns : Bytes) (hn : ns ≠ []) (fuel : Nat) (sched : List Ans) :
    ∃ ks : List Nat, (driveWrite ns fuel [] sched).2.1 = ks.flatMap (ns.take ·) ∧ ∀ k ∈ ks, 1 ≤ k ∧ k ≤ ns.length := by
  have := driveWrite_sent ns hn fuel [] sched
  revert this
  generalize driveWrite ns fuel [] sched = q
  obtain ⟨p, w, s⟩ := q
  rintro ⟨ks, h1, h2, -⟩
  exact ⟨ks, by simpa using h2, h1⟩

theorem whole_poll (ns wire : Bytes) (n : Nat) (hle : ns.length ≤ n + 1) (sched : List Ans)
    (h : sched.find? Ans.tells = some (.data n)) :
    (∃ s, pollWrite ns wire 0 sched = (.ready (.ok ()), wire ++ ns, s)) ∨
    (∃ s, pollWrite ns wire 0 sched = (.pending, wire, s) ∧ s.find? Ans.tells = some (.data n) ∧
      s.length < sched.length) := by
  induction sched with
  | nil => cases h
  | cons a s ih =>
    cases a with
    | pending => exact Or.inr ⟨s, rfl, h, by simp⟩
    | error => cases h
    | zero => cases h
    | interrupted =>
      rcases ih h with ⟨s', h1⟩ | ⟨s', h1, h2, h3⟩
      · exact Or.inl ⟨s', h1⟩
      · exact Or.inr ⟨s', h1, h2, by simp; omega⟩
    | data m =>
      have : m = n := by injection (show some (Ans.data m) = some (.data n) from h) with h; injection h
      subst this
      refine Or.inl ⟨s, ?_⟩
      have hk : min (m + 1) ns.length = ns.length := by omega
      simp [pollWrite, hk]

theorem whole_drive (ns wire : Bytes) (n : Nat) (hle : ns.length ≤ n + 1) (fuel : Nat) : ∀ sched : List Ans,
    sched.length < fuel → sched.find? Ans.tells = some (.data n) →
    ∃ s, driveWrite ns fuel wire sched = (.ready (.ok ()), wire ++ ns, s) := by
  induction fuel with
  | zero => intro sched h; omega
  | succ fuel ih =>
    intro sched hf h
    rcases whole_poll ns wire n hle sched h with ⟨s, h1⟩ | ⟨s, h1, h2, h3⟩
    · exact ⟨s, by simp only [driveWrite, h1]⟩
    · have hs : s ≠ [] := by rintro rfl; cases h2
      simp only [driveWrite, h1, if_neg hs]
      exact ih s (by omega) h2

/-- C09, exactly when: over a given transport every integer of `len` bytes is written as its bytes, once, if and only if
the first answer that is neither `Pending` nor an interruption accepts all of them. -/
theorem C09_iff (len : Nat) (h0 : 0 < len) (h8 : len ≤ 8) (sched : List Ans) (fuel : Nat) (hf : sched.length < fuel) :
    (∀ ns : Bytes, ns.length = len → ∃ s, driveWrite ns fuel [] sched = (.ready (.ok ()), ns, s)) ↔
      ∃ n, sched.find? Ans.tells = some (.data n) ∧ len ≤ n + 1 := by
  constructor
  · intro h
    have hlen : ((List.range len).map UInt8.ofNat).length = len := by simp
    obtain ⟨s, hs⟩ := h ((List.range len).map UInt8.ofNat) hlen
    have hne : (List.range len).map UInt8.ofNat ≠ [] := by
      intro e; rw [e] at hlen; simp at hlen; omega
    have key := driveWrite_sent _ hne fuel [] sched
    rw [hs] at key
    obtain ⟨ks, h1, h2, h3⟩ := key
    rcases h3 with ⟨-, h3⟩ | ⟨n, ks', rfl, h3⟩
    · exact absurd rfl h3
    · refine ⟨n, h3, ?_⟩
      by_contra hlt
      rw [hlen] at h2 h1
      have hk : min (n + 1) len = n + 1 := by omega
      rw [hk, List.nil_append, List.flatMap_cons] at h2
      cases ks' with
      | nil =>
        have := congrArg List.length h2
        simp at this
        omega
      | cons k2 ks' =>
        have h4 := h1 k2 (by simp)
        have h5 := congrArg (fun l : Bytes => l[n + 1]?) h2
        have hlt' : (((List.range len).map UInt8.ofNat).take (n + 1)).length = n + 1 := by simp; omega
        rw [List.getElem?_append_right (by omega), hlt', List.flatMap_cons] at h5
        obtain ⟨j, rfl⟩ : ∃ j, k2 = j + 1 := ⟨k2 - 1, by omega⟩
        obtain ⟨m, rfl⟩ : ∃ m, len = m + 1 := ⟨len - 1, by omega⟩
        rw [List.range_succ_eq_map] at h5
        simp only [Nat.sub_self, List.map_cons, List.take_succ_cons, List.cons_append, List.getElem?_cons_zero,
          List.getElem?_cons_succ, List.map_map] at h5
        rw [List.getElem?_map, List.getElem?_range (by omega)] at h5
        simp only [Option.map_some, Option.some.injEq, Function.comp] at h5
        have := congrArg UInt8.toNat h5
        simp only [UInt8.toNat_ofNat', Nat.succ_eq_add_one] at this
        omega
  · rintro ⟨n, h1, h2⟩ ns rfl
    obtain ⟨s, hs⟩ := whole_drive ns [] n h2 fuel sched hf h1
    exact ⟨s, by rw [hs, List.nil_append]⟩

/-- transports of both kinds -/
example : ([.pending, .interrupted, .data 7] : List Ans).find? Ans.tells = some (.data 7) ∧
    ([.pending, .data 0, .data 7] : List Ans).find? Ans.tells = some (.data 0) := ⟨rfl, rfl⟩

/-- C09: a write whose parts overshoot does not complete at all until the transport is not ready: with a buffer of four
bytes, three accepted and then all of them offered again, the counter passes four and the loop goes on. -/
theorem C09_overshoot_false (sched : List Ans) (h : ∀ a ∈ sched, ∃ n, a = .data n) :
    ∃ w, pollWrite [1, 2, 3, 4] [] 0 (.data 2 :: .data 3 :: sched) = (.pending, w, []) := by
  have go : ∀ (sched : List Ans), (∀ a ∈ sched, ∃ n, a = .data n) → ∀ wire write, 4 < write →
      ∃ w, pollWrite [1, 2, 3, 4] wire write sched = (.pending, w, []) := by
    intro sched
    induction sched with
    | nil => intro _ wire write _; exact ⟨wire, rfl⟩
    | cons a s ih =>
      intro ha wire write hw
      obtain ⟨n, rfl⟩ := ha a (by simp)
      simp only [pollWrite]
      rw [if_neg (by simp; omega)]
      exact ih (fun a hm => ha a (by simp [hm])) _ _ (by omega)
  simp only [pollWrite, List.length_cons, List.length_nil]
  exact go sched h _ _ (by omega)

end Mybin
