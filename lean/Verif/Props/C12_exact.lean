/-
C12 and C76: exactly which messages cannot be sent because the packet number overflows, for the whole-message model and
for every behaviour of the transport.
-/
import Verif.Props.C75_C77

namespace Mybin

open AsyncConn

theorem sendLoop_panic (bs : Bytes) (c : Conn) (hn : 255 ≤ c.pktNr + bs.length / maxPacket) : sendLoop bs c = .panic := by
  induction hl : bs.length using Nat.strong_induction_on generalizing bs c with
  | _ n ih =>
    have hmp : maxPacket = 0xffffff := rfl
    rw [sendLoop]
    by_cases hge : bs.length ≥ maxPacket
    · rw [dif_pos hge, M.bind_apply]
      by_cases h255 : 255 ≤ c.pktNr
      · rw [sendPacket_panic _ _ h255]; rfl
      · have hm : (bs.take maxPacket).length = maxPacket := by simpa using hge
        have hdiv := div_drop bs hge
        rw [sendPacket_ok c _ (by rw [hm, hmp]; norm_num) (by omega), MR.bind_ok,
          ih (bs.drop maxPacket).length (by rw [List.length_drop]; omega) (bs.drop maxPacket) _ (by dsimp only; omega) rfl]
    · have h0 := Nat.div_eq_of_lt (by omega : bs.length < maxPacket)
      rw [dif_neg hge, sendPacket_panic _ _ (by omega)]

/-- C12, exactly: sending a message of `n` bytes panics if and only if the number of its last packet, which is the number
of the first one plus `n / (2^24 - 1)`, is 255 or more; otherwise it succeeds. -/
theorem C12_panic_iff (payload : Bytes) (reset : Bool) (c : Conn) :
    (sendMsg payload reset c = .panic ↔ 255 ≤ (if reset then 0 else c.pktNr) + payload.length / 0xffffff) ∧
    ((∃ c', sendMsg payload reset c = .ok () c') ↔ (if reset then 0 else c.pktNr) + payload.length / 0xffffff < 255) := by
  have hmp : maxPacket = 0xffffff := rfl
  by_cases h : (if reset then 0 else c.pktNr) + payload.length / 0xffffff < 255
  · obtain ⟨ps, -, -, -, e⟩ := C12_sent_packets_partial payload reset c h
    rw [e]
    exact ⟨⟨(fun h => nomatch h), fun h' => (by omega)⟩, ⟨fun _ => h, fun _ => ⟨_, rfl⟩⟩⟩
  · have e : sendMsg payload reset c = .panic := by
      unfold sendMsg
      cases reset
      · exact sendLoop_panic _ _ (by simpa [hmp] using h)
      · exact sendLoop_panic _ _ (by simpa [hmp] using h)
    rw [e]
    exact ⟨⟨fun _ => (by omega), fun _ => rfl⟩, ⟨fun ⟨_, h⟩ => (by cases h), fun h' => absurd h' h⟩⟩

/-- the future will come to packet number 255 -/
def Doomed (f : Send) : Prop :=
  f.todo ≠ [] ∧ 255 ≤ f.pktNr + match f.rest with | none => 0 | some bs => 1 + bs.length / maxPacket

/-- how many bytes the future has before its end -/
def sendLeft (f : Send) : Nat :=
  f.todo.length + match f.rest with | none => 0 | some bs => bs.length + 4 * (bs.length / maxPacket + 1)

theorem start_doomed (bs : Bytes) (n : Nat) (h : 255 ≤ n + bs.length / maxPacket) :
    Doomed (Send.start bs n) ∧ sendLeft (Send.start bs n) = bs.length + 4 * (bs.length / maxPacket + 1) := by
  unfold Send.start
  by_cases hge : bs.length ≥ maxPacket
  · rw [if_pos hge]
    have hdiv := div_drop bs hge
    have hmin : min maxPacket bs.length = maxPacket := by omega
    refine ⟨⟨by simp [packetHeader], by dsimp only; omega⟩, ?_⟩
    unfold sendLeft
    dsimp only
    rw [hdiv, List.length_append, List.length_take, List.length_drop, hmin]
    simp only [packetHeader, List.length_cons, List.length_nil]
    omega
  · rw [if_neg hge]
    have h0 := Nat.div_eq_of_lt (by omega : bs.length < maxPacket)
    refine ⟨⟨by simp [packetHeader], by dsimp only; omega⟩, ?_⟩
    unfold sendLeft
    dsimp only
    rw [h0, List.length_append]
    simp only [packetHeader, List.length_cons, List.length_nil]
    omega

/-- what a poll of a future that comes to packet number 255 does -/
def DoomStep (f : Send) (sched : List AsyncConn.Ans) (out : Poll Unit × Send × Bytes × List AsyncConn.Ans) : Prop :=
  (∀ a ∈ out.2.2.2, a ∈ sched) ∧
  match out with
  | (.pending, f', _, s') => (sched ≠ [] → s'.length < sched.length) ∧ (sched = [] → s' = []) ∧ Doomed f' ∧
      sendLeft f' + movedCount sched ≤ sendLeft f + movedCount s'
  | (.ready _, _, _, _) => False
  | (.failed e, _, _, _) => e = .io ∧ (AsyncConn.Ans.fail ∈ sched ∨ AsyncConn.Ans.zero ∈ sched)
  | (.panicked, _, _, _) => True

theorem pollSend_doomed (sched : List AsyncConn.Ans) : ∀ (f : Send) (wire : Bytes), Doomed f →
    DoomStep f sched (pollSend f wire sched) := by
  induction sched with
  | nil => intro f wire h; exact ⟨by simp [pollSend], by simp, fun _ => rfl, h, Nat.le_refl _⟩
  | cons a s ih =>
    intro f wire h
    have lift : ∀ (f1 : Send) (wire1 : Bytes), Doomed f1 → sendLeft f1 + movedCount (a :: s) ≤ sendLeft f + movedCount s →
        DoomStep f (a :: s) (pollSend f1 wire1 s) := by
      intro f1 wire1 h1 hc
      have := ih f1 wire1 h1
      revert this
      generalize pollSend f1 wire1 s = out
      obtain ⟨p, f', wire', s'⟩ := out
      rintro ⟨u2, u3⟩
      refine ⟨fun a' ha' => by simp [u2 a' ha'], ?_⟩
      cases p with
      | pending =>
        obtain ⟨w2, w3, w4, w6⟩ := u3
        refine ⟨fun _ => ?_, by simp, w4, by omega⟩
        by_cases hs : s = []
        · subst hs; rw [w3 rfl]; simp
        · have := w2 hs; simp; omega
      | ready m => exact u3
      | failed e =>
        obtain ⟨w1, w2⟩ := u3
        refine ⟨w1, ?_⟩
        rcases w2 with w2 | w2
        · exact Or.inl (by simp [w2])
        · exact Or.inr (by simp [w2])
      | panicked => trivial
    cases a with
    | pending => exact ⟨fun a ha => List.mem_cons_of_mem _ ha, fun _ => by simp [pollSend], by simp, h,
        by simp [movedCount]⟩
    | fail => exact ⟨fun a ha => List.mem_cons_of_mem _ ha, rfl, Or.inl (by simp)⟩
    | zero => exact ⟨fun a ha => List.mem_cons_of_mem _ ha, rfl, Or.inr (by simp)⟩
    | moved n =>
      rw [pollSend]
      obtain ⟨h1, h3⟩ := h
      have hpos : 0 < f.todo.length := List.length_pos_iff.2 h1
      generalize hk : min (n + 1) f.todo.length = k
      have hk0 : 0 < k := by omega
      have hmc : movedCount (AsyncConn.Ans.moved n :: s) = movedCount s + 1 := by simp [movedCount]
      by_cases ht : f.todo.drop k ≠ []
      · rw [if_pos ht]
        refine lift _ _ ⟨ht, h3⟩ ?_
        rw [hmc]
        unfold sendLeft
        dsimp only
        rw [List.length_drop]
        omega
      · rw [if_neg ht]
        by_cases h255 : 256 ≤ f.pktNr + 1
        · rw [if_pos h255]
          exact ⟨fun a ha => List.mem_cons_of_mem _ ha, trivial⟩
        · rw [if_neg h255]
          cases hr : f.rest with
          | none => rw [hr] at h3; dsimp only at h3; omega
          | some bs =>
            rw [hr] at h3
            obtain ⟨d1, d2⟩ := start_doomed bs (f.pktNr + 1) (by dsimp only at h3; omega)
            refine lift _ _ d1 ?_
            rw [d2, hmc]
            unfold sendLeft
            rw [hr]
            dsimp only
            omega

theorem driveSend_doomed (fuel : Nat) : ∀ (f : Send) (wire : Bytes) (sched : List AsyncConn.Ans),
    Doomed f → sched.length < fuel →
    DoomStep f sched (driveSend fuel f wire sched) ∧
    ((driveSend fuel f wire sched).1 = .pending → (driveSend fuel f wire sched).2.2.2 = []) := by
  induction fuel with
  | zero => intro f wire sched _ h; omega
  | succ fuel ih =>
    intro f wire sched h hf
    have key := pollSend_doomed sched f wire h
    rw [driveSend]
    revert key
    generalize pollSend f wire sched = out
    obtain ⟨p, f', wire', s'⟩ := out
    intro key
    cases p with
    | ready m => exact ⟨key, fun e => by cases e⟩
    | failed e => exact ⟨key, fun e => by cases e⟩
    | panicked => exact ⟨key, fun e => by cases e⟩
    | pending =>
      dsimp only
      obtain ⟨u2, w2, w3, w4, w6⟩ := key
      have u2 : ∀ a ∈ s', a ∈ sched := u2
      by_cases hs : s' = []
      · subst hs
        rw [if_pos rfl]
        exact ⟨⟨u2, w2, fun _ => rfl, w4, w6⟩, fun _ => rfl⟩
      · rw [if_neg hs]
        have hne : sched ≠ [] := fun e => hs (w3 e)
        obtain ⟨k1, k2⟩ := ih f' wire' s' w4 (by have := w2 hne; omega)
        refine ⟨?_, k2⟩
        revert k1
        generalize driveSend fuel f' wire' s' = out
        obtain ⟨p, f2, wire2, s2⟩ := out
        rintro ⟨v2, v3⟩
        refine ⟨fun a ha => u2 a (v2 a ha), ?_⟩
        cases p with
        | pending =>
          obtain ⟨x2, x3, x4, x6⟩ := v3
          exact ⟨fun _ => by have := w2 hne; have := x2 hs; omega, fun e => (hne e).elim, x4, by omega⟩
        | ready m => exact v3
        | failed e =>
          obtain ⟨x1, x2⟩ := v3
          refine ⟨x1, ?_⟩
          rcases x2 with x2 | x2
          · exact Or.inl (u2 _ x2)
          · exact Or.inr (u2 _ x2)
        | panicked => trivial

/-- C76, beyond the limit of C12: a message whose last packet would have number 255 or more is never sent
successfully, whatever the transport does; it panics once the transport has taken enough bytes without failing. -/
theorem C76_overflow (msg : Bytes) (pktNr : Nat) (h : 255 ≤ pktNr + msg.length / 0xffffff) (wire : Bytes)
    (sched : List AsyncConn.Ans) :
    (transmit pktNr msg wire sched).1 ≠ .ready () ∧
    (AsyncConn.Ans.fail ∉ sched → AsyncConn.Ans.zero ∉ sched →
      msg.length + 4 * (msg.length / 0xffffff + 1) ≤ movedCount sched →
      (transmit pktNr msg wire sched).1 = .panicked) := by
  have h : 255 ≤ pktNr + msg.length / maxPacket := h
  obtain ⟨d1, d2⟩ := start_doomed msg pktNr h
  have key := driveSend_doomed (sched.length + 1) (Send.start msg pktNr) wire sched d1 (by omega)
  unfold transmit
  revert key
  generalize driveSend (sched.length + 1) (Send.start msg pktNr) wire sched = out
  obtain ⟨p, f', wire', s'⟩ := out
  rintro ⟨⟨-, u3⟩, u4⟩
  cases p with
  | ready m => exact u3.elim
  | failed e =>
    refine ⟨by simp, fun hf hz _ => ?_⟩
    rcases u3.2 with e | e
    · exact (hf e).elim
    · exact (hz e).elim
  | panicked => exact ⟨by simp, fun _ _ _ => rfl⟩
  | pending =>
    refine ⟨by simp, fun _ _ hn => ?_⟩
    obtain ⟨-, -, w4, w6⟩ := u3
    have u4 : s' = [] := u4 rfl
    subst u4
    have : movedCount [] = 0 := rfl
    have hpos : 0 < sendLeft f' := by
      have := List.length_pos_iff.2 w4.1
      unfold sendLeft; omega
    rw [d2] at w6
    have hmp : maxPacket = 0xffffff := rfl
    rw [hmp] at w6
    omega

example : (255 : Nat) ≤ 255 + [3, 0x41].length / 0xffffff ∧
    (transmit 255 [3, 0x41] [] (List.replicate 6 (.moved 0))).1 = .panicked ∧
    (transmit 254 [3, 0x41] [] (List.replicate 6 (.moved 0))).1 = .ready () := by decide +kernel

end Mybin
