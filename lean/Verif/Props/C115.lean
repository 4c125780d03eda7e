/-
C115: what is printed for a log, cut off at any byte.
-/
import Verif.Props.C114

namespace Mybin

open Spec (Covers Front logged Lit Ends Stmt strip)

/-! ### what follows later does not change what was read -/

/-- the reader of the item does not look at what comes after the first byte that it leaves -/
def LocalReader {α : Type} (item : Bytes → Option (α × Bytes)) : Prop :=
  ∀ t a rest r, item t = some (a, rest) → rest ≠ [] → item (t ++ r) = some (a, rest ++ r)

theorem strip_local (a t rest r : Bytes) (h : strip a t = some rest) : strip a (t ++ r) = some (rest ++ r) := by
  induction a generalizing t with
  | nil => simp only [strip, Option.some.injEq] at h ⊢; rw [h]
  | cons x a ih =>
    cases t with
    | nil => cases h
    | cons y t =>
      rw [List.cons_append]
      rw [strip] at h ⊢
      split at h
      · rename_i e
        rw [if_pos e]
        exact ih t h
      · cases h

theorem identBody_local (t : Bytes) : ∀ a rest r, Spec.identBody t = some (a, rest) → rest ≠ [] →
    Spec.identBody (t ++ r) = some (a, rest ++ r) := by
  fun_induction Spec.identBody t with
  | case1 => intro a rest r h; cases h
  | case2 => intro a rest r h hne; cases h; exact absurd rfl hne
  | case3 b h => intro a rest r e; cases e
  | case4 t ih =>
    intro a rest r h hne
    obtain ⟨x, hx, e⟩ := Option.map_eq_some_iff.1 h
    cases e
    rw [List.cons_append, List.cons_append, Spec.identBody, if_pos rfl, if_pos rfl, ih x.1 x.2 r hx hne]
    rfl
  | case5 c t hc =>
    intro a rest r h hne
    cases h
    rw [List.cons_append, List.cons_append, Spec.identBody, if_pos rfl, if_neg hc]
  | case6 b c t hb ih =>
    intro a rest r h hne
    obtain ⟨x, hx, e⟩ := Option.map_eq_some_iff.1 h
    cases e
    have := ih x.1 x.2 r hx hne
    rw [List.cons_append] at this
    rw [List.cons_append, List.cons_append, Spec.identBody, if_neg hb, this]
    rfl

theorem ident_local : LocalReader Spec.ident := by
  intro t a rest r h hne
  cases t with
  | nil => cases h
  | cons b t =>
    rw [List.cons_append, Spec.ident]
    rw [Spec.ident] at h
    split at h
    · rename_i hb
      rw [if_pos hb]
      exact identBody_local t a rest r h hne
    · cases h

theorem stringBody_local (t : Bytes) (s rest r : Bytes) (h : Spec.stringBody t = some (s, rest)) (hne : rest ≠ []) :
    Spec.stringBody (t ++ r) = some (s, rest ++ r) := by
  fun_induction Spec.stringBody t generalizing s rest with
  | case1 => cases h
  | case2 => cases h; exact absurd rfl hne
  | case3 b h' => cases h
  | case4 t ih =>
    obtain ⟨x, hx, e⟩ := Option.map_eq_some_iff.1 h
    cases e
    rw [List.cons_append, List.cons_append, Spec.stringBody, if_pos rfl, if_pos rfl, ih x.1 x.2 hx hne]
    rfl
  | case5 c t hc =>
    cases h
    rw [List.cons_append, List.cons_append, Spec.stringBody, if_pos rfl, if_neg hc]
  | case6 c t h1 ih =>
    obtain ⟨x, hx, e⟩ := Option.map_eq_some_iff.1 h
    cases e
    rw [List.cons_append, List.cons_append, Spec.stringBody, if_neg (by decide), if_pos rfl, ih x.1 x.2 hx hne]
    rfl
  | case7 b c t h1 h2 ih =>
    obtain ⟨x, hx, e⟩ := Option.map_eq_some_iff.1 h
    cases e
    have := ih x.1 x.2 hx hne
    rw [List.cons_append] at this
    rw [List.cons_append, List.cons_append, Spec.stringBody, if_neg h1, if_neg h2, this]
    rfl

theorem hexBody_local (t : Bytes) (s rest r : Bytes) (h : Spec.hexBody t = some (s, rest)) :
    Spec.hexBody (t ++ r) = some (s, rest ++ r) := by
  obtain ⟨c, k1, -, -, k4⟩ := hexBody_facts t s rest h
  rw [k1, List.append_assoc, k4]

theorem digits_local (t r : Bytes) (h : t.drop (Spec.digits t).length ≠ []) : Spec.digits (t ++ r) = Spec.digits t := by
  unfold Spec.digits at *
  rw [List.takeWhile_append]
  split
  · rename_i hl
    rw [hl, List.drop_length] at h
    exact absurd rfl h
  · rfl

theorem unsignedNumber_local (t : Bytes) (n sc : Nat) (rest r : Bytes)
    (h : Spec.unsignedNumber t = some (n, sc, rest)) (hne : rest ≠ []) :
    Spec.unsignedNumber (t ++ r) = some (n, sc, rest ++ r) := by
  unfold Spec.unsignedNumber at h ⊢
  dsimp only at h ⊢
  have hd : t.drop (Spec.digits t).length ≠ [] := by
    intro e
    rw [e, if_neg (by simp)] at h
    obtain ⟨x, -, e⟩ := Option.map_eq_some_iff.1 h
    cases e
    exact hne rfl
  rw [digits_local t r hd, List.drop_append_of_le_length (digits_length t)]
  generalize t.drop (Spec.digits t).length = q at *
  cases q with
  | nil => exact absurd rfl hd
  | cons d q =>
    rw [List.cons_append, List.head?_cons, List.tail_cons]
    rw [List.head?_cons, List.tail_cons] at h
    split at h
    · rename_i hdot
      rw [if_pos hdot]
      obtain ⟨x, hx, e⟩ := Option.map_eq_some_iff.1 h
      injection e with e1 e2
      injection e2 with e2 e3
      have hq : q.drop (Spec.digits q).length ≠ [] := by rw [e3]; exact hne
      rw [digits_local q r hq, List.drop_append_of_le_length (digits_length q), hx, e3, ← e1, ← e2]
      rfl
    · rename_i hdot
      rw [if_neg hdot]
      obtain ⟨x, hx, e⟩ := Option.map_eq_some_iff.1 h
      cases e
      rw [hx]
      rfl

theorem strip_isSome (a t : Bytes) : (strip a t).isSome = true ↔ ∃ rest, t = a ++ rest := by
  induction a generalizing t with
  | nil => simp [strip]
  | cons x a ih =>
    cases t with
    | nil => simp [strip]
    | cons y t =>
      rw [strip]
      split
      · rename_i e
        subst e
        rw [ih]
        simp
      · rename_i e
        simp only [Option.isSome_none, Bool.false_eq_true, List.cons_append, List.cons.injEq, false_iff, not_exists,
          not_and]
        intro _ h
        exact absurd h.symm e

/-- a literal that something follows is the same whatever else follows that -/
theorem literal_local : LocalReader Spec.literal := by
  intro t a rest r h hne
  have ht : t ≠ [] := by rintro rfl; cases h
  have hhead : (t ++ r).head? = t.head? := by
    cases t with
    | nil => exact absurd rfl ht
    | cons b t => rfl
  unfold Spec.literal at h ⊢
  rw [hhead]
  split at h
  · rename_i h1
    rw [if_pos h1]
    obtain ⟨⟨s, r'⟩, hx, e⟩ := Option.map_eq_some_iff.1 h
    cases e
    cases t with
    | nil => cases hx
    | cons b t =>
      rw [Spec.stringLiteral] at hx
      rw [List.cons_append, Spec.stringLiteral]
      split at hx
      · rename_i hb
        rw [if_pos hb, stringBody_local t s _ r hx hne]
        rfl
      · cases hx
  · rename_i h1
    rw [if_neg h1]
    split at h
    · rename_i h2
      have h2' : (strip (Spec.ascii "x'") (t ++ r)).isSome = true := by
        obtain ⟨q, hq⟩ := Option.isSome_iff_exists.1 h2
        rw [strip_local _ _ _ r hq]; rfl
      rw [if_pos h2']
      obtain ⟨⟨s, r'⟩, hx, e⟩ := Option.map_eq_some_iff.1 h
      cases e
      rcases t with _ | ⟨b, _ | ⟨c, t⟩⟩
      · cases hx
      · cases hx
      · rw [Spec.hexLiteral] at hx
        rw [List.cons_append, List.cons_append, Spec.hexLiteral]
        split at hx
        · rename_i h3
          rw [if_pos h3, hexBody_local t s _ r hx]
          rfl
        · cases hx
    · rename_i h2
      split at h
      · rename_i h3
        obtain ⟨q, hq⟩ := Option.isSome_iff_exists.1 h3
        have hn : ¬ (strip (Spec.ascii "x'") (t ++ r)).isSome = true := by
          intro hc
          obtain ⟨u, hu⟩ := (strip_isSome _ _).1 hc
          obtain ⟨v, hv⟩ := (strip_isSome _ _).1 h3
          rw [hv] at hu
          cases hu
        rw [if_neg hn, if_pos (by rw [strip_local _ _ _ r hq]; rfl), strip_local _ _ _ r hq]
        rw [hq] at h
        cases h
        rfl
      · rename_i h3
        -- a number: its first byte is a digit, a point or a sign
        have hfirst : ∀ b, t.head? = some b → b ≠ 0x78 ∧ b ≠ 0x6e := by
          intro b hb
          cases t with
          | nil => cases hb
          | cons c t =>
            have : c = b := by simpa using hb
            subst this
            constructor <;>
            · rintro rfl
              split at h
              · rename_i h4
                cases h4
              · obtain ⟨⟨n, sc, r'⟩, hx, e⟩ := Option.map_eq_some_iff.1 h
                unfold Spec.unsignedNumber Spec.digits at hx
                rw [List.takeWhile_cons_of_neg (by decide)] at hx
                cases hx
        have hn : ∀ (k : UInt8) (a : Bytes), (k = 0x78 ∨ k = 0x6e) → ¬ (strip (k :: a) (t ++ r)).isSome = true := by
          intro k a hk hc
          obtain ⟨u, hu⟩ := (strip_isSome _ _).1 hc
          have hh : t.head? = some k := by rw [← hhead, hu]; rfl
          obtain ⟨q1, q2⟩ := hfirst k hh
          rcases hk with rfl | rfl
          · exact q1 rfl
          · exact q2 rfl
        rw [show Spec.ascii "x'" = 0x78 :: [0x27] from rfl, show Spec.ascii "null" = 0x6e :: [0x75, 0x6c, 0x6c] from rfl,
          if_neg (hn _ _ (Or.inl rfl)), if_neg (hn _ _ (Or.inr rfl))]
        split at h
        · rename_i h4
          rw [if_pos h4]
          obtain ⟨⟨n, sc, r'⟩, hx, e⟩ := Option.map_eq_some_iff.1 h
          cases e
          cases t with
          | nil => exact absurd rfl ht
          | cons b t =>
            rw [List.tail_cons] at hx
            rw [List.cons_append, List.tail_cons, unsignedNumber_local t n sc _ r hx hne]
            rfl
        · rename_i h4
          rw [if_neg h4]
          obtain ⟨⟨n, sc, r'⟩, hx, e⟩ := Option.map_eq_some_iff.1 h
          cases e
          rw [unsignedNumber_local t n sc _ r hx hne]
          rfl

theorem sepBy_local {α : Type} (item : Bytes → Option (α × Bytes)) (hi : LocalReader item) (sep : UInt8) (s : String)
    (hs : Spec.ascii s = [sep]) : ∀ (n m : Nat) (t : Bytes) (as : List α) (rest r : Bytes), n ≤ m →
    Spec.sepBy item s n t = some (as, rest) → rest ≠ [] → Spec.sepBy item s m (t ++ r) = some (as, rest ++ r) := by
  intro n
  induction n with
  | zero => intro m t as rest r _ h; cases h
  | succ n ih =>
    intro m t as rest r hm h hne
    obtain ⟨m, rfl⟩ : ∃ k, m = k + 1 := ⟨m - 1, by omega⟩
    rw [Spec.sepBy] at h ⊢
    obtain ⟨⟨a, q⟩, hx, h⟩ := Option.bind_eq_some_iff.1 h
    dsimp only at h
    have hq : q ≠ [] := by
      rintro rfl
      rw [hs] at h
      simp only [strip] at h
      cases h
      exact hne rfl
    rw [hi t a q r hx hq, Option.bind_some]
    dsimp only
    cases hst : strip (Spec.ascii s) q with
    | some u =>
      rw [hst] at h
      dsimp only at h
      obtain ⟨⟨as', rest'⟩, hy, e⟩ := Option.map_eq_some_iff.1 h
      cases e
      rw [strip_local _ _ _ r hst]
      dsimp only
      rw [ih m u as' _ r (by omega) hy hne]
      rfl
    | none =>
      rw [hst] at h
      dsimp only at h
      have : strip (Spec.ascii s) (q ++ r) = none := by
        cases q with
        | nil => exact absurd rfl hq
        | cons d q =>
          rw [hs] at hst ⊢
          rw [List.cons_append, strip.eq_def]
          rw [strip.eq_def] at hst
          dsimp only at hst ⊢
          split
          · rename_i e
            rw [if_pos e] at hst
            cases hst
          · rfl
      rw [this]
      cases h
      rfl

theorem tableName_local : LocalReader Spec.tableName := by
  intro t a rest r h hne
  unfold Spec.tableName at h ⊢
  obtain ⟨⟨d, q⟩, hx, h⟩ := Option.bind_eq_some_iff.1 h
  obtain ⟨u, hu, h⟩ := Option.bind_eq_some_iff.1 h
  obtain ⟨⟨n, v⟩, hv, e⟩ := Option.map_eq_some_iff.1 h
  cases e
  have hq : q ≠ [] := by rintro rfl; cases hu
  rw [ident_local t d q r hx hq, Option.bind_some, strip_local _ _ _ r hu, Option.bind_some, ident_local u n _ r hv hne]
  rfl

/-- a text that is an INSERT is none with anything after it -/
theorem parseInsert_longer (t r : Bytes) (st : Stmt) (h : Spec.parseInsert t = some st) (hr : r ≠ []) :
    Spec.parseInsert (t ++ r) = none := by
  unfold Spec.parseInsert at h ⊢
  obtain ⟨t1, h1, h⟩ := Option.bind_eq_some_iff.1 h
  obtain ⟨⟨nm, t2⟩, h2, h⟩ := Option.bind_eq_some_iff.1 h
  obtain ⟨t3, h3, h⟩ := Option.bind_eq_some_iff.1 h
  obtain ⟨⟨cs, t4⟩, h4, h⟩ := Option.bind_eq_some_iff.1 h
  obtain ⟨t5, h5, h⟩ := Option.bind_eq_some_iff.1 h
  obtain ⟨⟨vs, t6⟩, h6, h⟩ := Option.bind_eq_some_iff.1 h
  dsimp only at h
  split at h
  · rename_i hc
    have n2 : t2 ≠ [] := by rintro rfl; cases h3
    have n4 : t4 ≠ [] := by rintro rfl; cases h5
    have n6 : t6 ≠ [] := by rw [hc.1]; decide
    rw [strip_local _ _ _ r h1, Option.bind_some, tableName_local _ _ _ r h2 n2, Option.bind_some,
      strip_local _ _ _ r h3, Option.bind_some,
      sepBy_local Spec.ident ident_local 0x2c "," rfl _ _ _ _ _ r (by simp) h4 n4, Option.bind_some,
      strip_local _ _ _ r h5, Option.bind_some,
      sepBy_local Spec.literal literal_local 0x2c "," rfl _ _ _ _ _ r (by simp) h6 n6, Option.bind_some]
    dsimp only
    rw [if_neg]
    rintro ⟨e, -⟩
    rw [hc.1] at e
    have := congrArg List.length e
    rw [List.length_append] at this
    exact hr (List.length_eq_zero_iff.1 (by omega))
  · cases h

/-! ### statements cut short -/

/-- what a statement does -/
def Spec.Stmt.kind : Stmt → String
  | .insert .. => "INSERT"
  | .delete .. => "DELETE"
  | .update .. => "UPDATE"

theorem parse_cases (t : Bytes) (st : Stmt) (h : Spec.parse t = some st) :
    Spec.parseInsert t = some st ∨ Spec.parseDelete t = some st ∨ Spec.parseUpdate t = some st := by
  unfold Spec.parse at h
  cases hi : Spec.parseInsert t with
  | some x => rw [hi] at h; exact Or.inl h
  | none =>
    rw [hi] at h
    cases hd : Spec.parseDelete t with
    | some x => rw [hd] at h; exact Or.inr (Or.inl h)
    | none => rw [hd] at h; exact Or.inr (Or.inr h)

theorem strip_head (a : UInt8) (s t rest : Bytes) (h : strip (a :: s) t = some rest) : t.head? = some a := by
  cases t with
  | nil => cases h
  | cons b t =>
    rw [strip] at h
    split at h
    · rename_i e; rw [e]; rfl
    · cases h

theorem parseInsert_shape (t : Bytes) (st : Stmt) (h : Spec.parseInsert t = some st) :
    t.head? = some 0x49 ∧ st.kind = "INSERT" := by
  unfold Spec.parseInsert at h
  obtain ⟨t1, h1, h⟩ := Option.bind_eq_some_iff.1 h
  obtain ⟨_, -, h⟩ := Option.bind_eq_some_iff.1 h
  obtain ⟨_, -, h⟩ := Option.bind_eq_some_iff.1 h
  obtain ⟨_, -, h⟩ := Option.bind_eq_some_iff.1 h
  obtain ⟨_, -, h⟩ := Option.bind_eq_some_iff.1 h
  obtain ⟨_, -, h⟩ := Option.bind_eq_some_iff.1 h
  split at h
  · cases h
    exact ⟨strip_head _ _ _ _ h1, rfl⟩
  · cases h

theorem parseDelete_shape (t : Bytes) (st : Stmt) (h : Spec.parseDelete t = some st) :
    t.head? = some 0x44 ∧ st.kind = "DELETE" ∧ ∃ t1 t2, strip (Spec.ascii "DELETE FROM ") t = some t1 ∧
      Spec.tableName t1 = some (st.table, t2) ∧ t2 ≠ [] := by
  unfold Spec.parseDelete at h
  obtain ⟨t1, h1, h⟩ := Option.bind_eq_some_iff.1 h
  obtain ⟨⟨nm, t2⟩, h2, h⟩ := Option.bind_eq_some_iff.1 h
  obtain ⟨t3, h3, h⟩ := Option.bind_eq_some_iff.1 h
  obtain ⟨_, -, h⟩ := Option.bind_eq_some_iff.1 h
  split at h
  · cases h
    exact ⟨strip_head _ _ _ _ h1, rfl, t1, t2, h1, h2, by rintro rfl; cases h3⟩
  · cases h

theorem parseUpdate_shape (t : Bytes) (st : Stmt) (h : Spec.parseUpdate t = some st) :
    t.head? = some 0x55 ∧ st.kind = "UPDATE" ∧ ∃ t1 t2, strip (Spec.ascii "UPDATE ") t = some t1 ∧
      Spec.tableName t1 = some (st.table, t2) ∧ t2 ≠ [] := by
  unfold Spec.parseUpdate at h
  obtain ⟨t1, h1, h⟩ := Option.bind_eq_some_iff.1 h
  obtain ⟨⟨nm, t2⟩, h2, h⟩ := Option.bind_eq_some_iff.1 h
  obtain ⟨t3, h3, h⟩ := Option.bind_eq_some_iff.1 h
  obtain ⟨_, -, h⟩ := Option.bind_eq_some_iff.1 h
  obtain ⟨_, -, h⟩ := Option.bind_eq_some_iff.1 h
  obtain ⟨_, -, h⟩ := Option.bind_eq_some_iff.1 h
  split at h
  · cases h
    exact ⟨strip_head _ _ _ _ h1, rfl, t1, t2, h1, h2, by rintro rfl; cases h3⟩
  · cases h

theorem head_append (t r : Bytes) (b : UInt8) (h : t.head? = some b) : (t ++ r).head? = some b := by
  cases t with
  | nil => cases h
  | cons c t => exact h

/-- C115 for single statements: the beginning of a statement is refused by a server, or it is a DELETE or an UPDATE too,
of the same table. -/
theorem C115_same_table (t r : Bytes) (st st' : Stmt) (h : Spec.parse (t ++ r) = some st) (hr : r ≠ [])
    (h' : Spec.parse t = some st') :
    (st.kind = "DELETE" ∨ st.kind = "UPDATE") ∧ st'.kind = st.kind ∧ st'.table = st.table := by
  rcases parse_cases t st' h' with k | k | k
  · exfalso
    have hh := head_append t r _ (parseInsert_shape t st' k).1
    rcases parse_cases _ st h with q | q | q
    · rw [parseInsert_longer t r st' k hr] at q; cases q
    · rw [(parseDelete_shape _ _ q).1] at hh; cases hh
    · rw [(parseUpdate_shape _ _ q).1] at hh; cases hh
  · obtain ⟨k1, k2, t1, t2, k3, k4, k5⟩ := parseDelete_shape t st' k
    have hh := head_append t r _ k1
    rcases parse_cases _ st h with q | q | q
    · rw [(parseInsert_shape _ _ q).1] at hh; cases hh
    · obtain ⟨-, q2, u1, u2, q3, q4, -⟩ := parseDelete_shape _ st q
      rw [strip_local _ _ _ r k3] at q3
      cases q3
      rw [tableName_local _ _ _ r k4 k5] at q4
      injection q4 with q4
      injection q4 with q4
      exact ⟨Or.inl q2, by rw [k2, q2], q4⟩
    · rw [(parseUpdate_shape _ _ q).1] at hh; cases hh
  · obtain ⟨k1, k2, t1, t2, k3, k4, k5⟩ := parseUpdate_shape t st' k
    have hh := head_append t r _ k1
    rcases parse_cases _ st h with q | q | q
    · rw [(parseInsert_shape _ _ q).1] at hh; cases hh
    · rw [(parseDelete_shape _ _ q).1] at hh; cases hh
    · obtain ⟨-, q2, u1, u2, q3, q4, -⟩ := parseUpdate_shape _ st q
      rw [strip_local _ _ _ r k3] at q3
      cases q3
      rw [tableName_local _ _ _ r k4 k5] at q4
      injection q4 with q4
      injection q4 with q4
      exact ⟨Or.inr q2, by rw [k2, q2], q4⟩

/-- C115 for a single INSERT: a server refuses every part of it that does not go to its end. -/
theorem C115_insert_cut (t : Bytes) (st : Stmt) (h : Spec.parse t = some st) (hk : st.kind = "INSERT") (n : Nat)
    (hn : n < t.length) : Spec.parse (t.take n) = none := by
  by_contra hc
  obtain ⟨st', h'⟩ := Option.ne_none_iff_exists'.1 hc
  have hr : t.drop n ≠ [] := by
    intro e
    have := List.drop_eq_nil_iff.1 e
    omega
  have := (C115_same_table (t.take n) (t.drop n) st st' (by rw [List.take_append_drop]; exact h) hr h').1
  rw [hk] at this
  simp at this

/-! ### the output cut short -/

theorem readLines_rest (acc t : Bytes) (h : 0x0a ∉ t) :
    Spec.readLines acc t = if acc ++ t = [] then [] else [acc ++ t] := by
  induction t generalizing acc with
  | nil => rw [Spec.readLines, List.append_nil]
  | cons b t ih =>
    have hb : b ≠ 0x0a := by rintro rfl; exact h List.mem_cons_self
    rw [Spec.readLines, if_neg hb, ih _ (fun e => h (List.mem_cons_of_mem _ e))]
    simp

/-- C115 for the output as a whole: cut off at any byte, it is read as the first lines, whole, and maybe the beginning of
the next one. (The lines have no newline in them, see C114.) -/
theorem C115_lines (ls : List DmlLine) (h : ∀ l ∈ ls, 0x0a ∉ l.text) (n : Nat) :
    ∃ k part, Spec.readLines [] ((dmlText ls).take n) = (ls.take k).map DmlLine.text ++ part ∧
      (part = [] ∨ ∃ l t r, ls[k]? = some l ∧ l.text = t ++ r ∧ t ≠ [] ∧ part = [t]) := by
  induction ls generalizing n with
  | nil => exact ⟨0, [], by simp [dmlText, Spec.readLines], Or.inl rfl⟩
  | cons l ls ih =>
    have hl := h l List.mem_cons_self
    rw [dmlText_cons]
    by_cases hn : n ≤ l.text.length
    · refine ⟨0, if l.text.take n = [] then [] else [l.text.take n], ?_, ?_⟩
      · rw [List.take_append_of_le_length hn, readLines_rest _ _ (fun e => hl (List.mem_of_mem_take e))]
        simp
      · split
        · exact Or.inl rfl
        · rename_i hne
          exact Or.inr ⟨l, l.text.take n, l.text.drop n, rfl, (List.take_append_drop n _).symm, hne, rfl⟩
    · obtain ⟨m, rfl⟩ : ∃ m, n = l.text.length + (m + 1) := ⟨n - l.text.length - 1, by omega⟩
      obtain ⟨k, part, h1, h2⟩ := ih (fun x hx => h x (List.mem_cons_of_mem _ hx)) m
      refine ⟨k + 1, part, ?_, ?_⟩
      · rw [List.take_length_add_append, List.take_succ_cons, readLines_cons _ _ _ hl, h1]
        simp
      · simpa using h2

/-- C115 for inserted rows: the output of an event, cut off at any byte, is read as the statements that insert the first
rows, and at most something at its end that a server refuses. (Names and values without newlines and backticks, see
C80 and C114.) -/
theorem C115_insert_partial (ft : FloatText) (db tbl extra bm : Bytes) (n : Nat) (present : List Bool)
    (defs : List ColumnDefinition) (rows : List (List BinlogColumnValue)) (lits : List (List Lit))
    (hc : Covers bm present) (hl : present.length = defs.length) (hf : Front present) (hone : true ∈ present)
    (hr : ∀ row ∈ rows, row.length = defs.length)
    (hdb : 0x60 ∉ db) (htbl : 0x60 ∉ tbl) (hnames : ∀ d ∈ defs, 0x60 ∉ d.name)
    (hw : List.Forall₂ (fun row ls => Written ft (logged present defs row) ls) rows lits)
    (hdb' : 0x0a ∉ db) (htbl' : 0x0a ∉ tbl) (hnames' : ∀ d ∈ defs, 0x0a ∉ d.name)
    (hlits : ∀ ls ∈ lits, ∀ l ∈ ls, l.OneLine) (cut : Nat) :
    ∃ ls k, sqlLines ft (PreparedSql.fromInsert db tbl ⟨extra, n, bm, rows⟩ defs) = .ok ls [] ∧
      ∃ bad, (bad = [] ∨ bad = [none]) ∧ (Spec.readLines [] ((dmlText ls).take cut)).map Spec.parse =
        (lits.take k).map (fun ls => some (.insert db tbl (loggedNames (fun _ => true) present defs) ls)) ++ bad := by
  obtain ⟨p, stmts, h1, h2, h3⟩ := insert_shaped ft db tbl extra bm n present defs rows lits hc hl hf hone hr hdb htbl hnames hw
  have hline : ∀ l ∈ stmts.map DmlLine.stmt, 0x0a ∉ l.text := by
    have hs : ∀ s ∈ lits.map (fun ls => Stmt.insert db tbl (loggedNames (fun _ => true) present defs) ls), s.OneLine := by
      intro s hs
      obtain ⟨ls, hls, rfl⟩ := List.mem_map.1 hs
      exact ⟨hdb', htbl', loggedNames_oneLine _ _ _ hnames', hlits ls hls⟩
    have := (C114_lines_iff (stmts.map .stmt)).1 (by
      rw [(shaped_read _ _ h3).1 hs, List.map_map]
      exact (List.map_id _).symm)
    exact this
  have hp := shaped_parse h3
  obtain ⟨k, part, k1, k2⟩ := C115_lines (stmts.map .stmt) hline cut
  have hm : ∀ k, (((stmts.map DmlLine.stmt).take k).map DmlLine.text).map Spec.parse =
      (lits.take k).map (fun ls => some (Stmt.insert db tbl (loggedNames (fun _ => true) present defs) ls)) := by
    intro k
    rw [List.map_take, List.map_take, List.map_take, List.map_map, ← hp]
    congr 1
    rw [List.map_map]
    rfl
  rcases k2 with rfl | ⟨l, t, r, q1, q2, q3, rfl⟩
  · exact ⟨stmts.map .stmt, k, by rw [h1]; simp [sqlLines, h2], [], Or.inl rfl, by rw [k1, List.map_append, hm]; rfl⟩
  · rw [List.getElem?_map] at q1
    obtain ⟨s, q4, rfl⟩ := Option.map_eq_some_iff.1 q1
    have q5 : (stmts.map Spec.parse)[k]? = some (Spec.parse s) := by rw [List.getElem?_map, q4]; rfl
    rw [hp, List.getElem?_map] at q5
    obtain ⟨ls, q6, q7⟩ := Option.map_eq_some_iff.1 q5
    have q2' : s = t ++ r := q2
    by_cases hr0 : r = []
    · subst hr0
      rw [List.append_nil] at q2'
      subst q2'
      refine ⟨stmts.map .stmt, k + 1, by rw [h1]; simp [sqlLines, h2], [], Or.inl rfl, ?_⟩
      rw [k1, List.map_append, hm, List.take_add_one, q6, List.map_append, List.append_nil, List.map_singleton, ← q7]
      rfl
    · refine ⟨stmts.map .stmt, k, by rw [h1]; simp [sqlLines, h2], [none], Or.inr rfl, ?_⟩
      have : Spec.parse t = none := by
        have hlen : t.length < s.length := by
          rw [q2', List.length_append]
          have := List.length_pos_iff.2 hr0
          omega
        have := C115_insert_cut s _ q7.symm rfl t.length hlen
        rwa [q2', List.take_left] at this
      rw [k1, List.map_append, hm, List.map_singleton, this]

/-- the statements of an event of any kind, cut off: the first ones, and at most a piece of the next at the end -/
theorem shaped_cut (stmts : List Bytes) (ss : List Stmt) (h : List.Forall₂ Shaped stmts ss) (hl : ∀ s ∈ ss, s.OneLine)
    (cut : Nat) :
    ∃ k bad, (Spec.readLines [] ((dmlText (stmts.map .stmt)).take cut)).map Spec.parse = (ss.take k).map some ++ bad ∧
      (bad = [] ∨ bad = [none] ∨ ∃ st st', ss[k]? = some st ∧ bad = [some st'] ∧ st.kind ≠ "INSERT" ∧
        st'.kind = st.kind ∧ st'.table = st.table) := by
  have hline : ∀ l ∈ stmts.map DmlLine.stmt, 0x0a ∉ l.text := (C114_lines_iff (stmts.map .stmt)).1 (by
    rw [(shaped_read _ _ h).1 hl, List.map_map]
    exact (List.map_id _).symm)
  have hp : stmts.map Spec.parse = ss.map some := shaped_parse (f := fun s : Stmt => s) (by rwa [List.map_id'])
  obtain ⟨k, part, k1, k2⟩ := C115_lines (stmts.map .stmt) hline cut
  have hm : (((stmts.map DmlLine.stmt).take k).map DmlLine.text).map Spec.parse = (ss.take k).map some := by
    rw [List.map_take, List.map_take, List.map_take, List.map_map, ← hp]
    congr 1
    rw [List.map_map]
    rfl
  rcases k2 with rfl | ⟨l, t, r, q1, q2, q3, rfl⟩
  · exact ⟨k, [], by rw [k1, List.map_append, hm]; rfl, Or.inl rfl⟩
  · rw [List.getElem?_map] at q1
    obtain ⟨s, q4, rfl⟩ := Option.map_eq_some_iff.1 q1
    have q5 : (stmts.map Spec.parse)[k]? = some (Spec.parse s) := by rw [List.getElem?_map, q4]; rfl
    rw [hp, List.getElem?_map] at q5
    obtain ⟨st, q6, q7⟩ := Option.map_eq_some_iff.1 q5
    have q2' : s = t ++ r := q2
    by_cases hr0 : r = []
    · subst hr0
      rw [List.append_nil] at q2'
      subst q2'
      refine ⟨k + 1, [], ?_, Or.inl rfl⟩
      rw [k1, List.map_append, hm, List.take_add_one, q6, List.map_append, List.append_nil, List.map_singleton, ← q7]
      rfl
    · refine ⟨k, [Spec.parse t], by rw [k1, List.map_append, hm, List.map_singleton], ?_⟩
      cases ht : Spec.parse t with
      | none => exact Or.inr (Or.inl rfl)
      | some st' =>
        obtain ⟨c1, c2, c3⟩ := C115_same_table t r st st' (by rw [← q2', ← q7]) hr0 ht
        refine Or.inr (Or.inr ⟨st, st', q6, rfl, ?_, c2, c3⟩)
        rcases c1 with c1 | c1 <;> rw [c1] <;> decide

/-- C115 for deleted rows: the output of an event, cut off at any byte, is read as the statements that delete the first
rows, and at most one more at its end. That one is refused by a server or deletes from the same table; it may delete
other rows of it, see `C115_delete_false`. -/
theorem C115_delete_partial (ft : FloatText) (db tbl extra bm : Bytes) (n : Nat) (present : List Bool)
    (defs : List ColumnDefinition) (rows : List (List BinlogColumnValue)) (lits : List (List Lit))
    (hc : Covers bm present) (hl : present.length = defs.length) (hf : Front present)
    (hkey : loggedNames IsKey present defs ≠ [])
    (hr : ∀ row ∈ rows, row.length = defs.length)
    (hdb : 0x60 ∉ db) (htbl : 0x60 ∉ tbl) (hnames : ∀ d ∈ defs, 0x60 ∉ d.name)
    (hw : List.Forall₂ (fun row ls => Written ft ((logged present defs row).filter fun x => IsKey x.1) ls) rows lits)
    (hdb' : 0x0a ∉ db) (htbl' : 0x0a ∉ tbl) (hnames' : ∀ d ∈ defs, 0x0a ∉ d.name)
    (hlits : ∀ ls ∈ lits, ∀ l ∈ ls, l.OneLine) (cut : Nat) :
    ∃ ls k bad, sqlLines ft (PreparedSql.fromDelete db tbl ⟨extra, n, bm, rows⟩ defs) = .ok ls [] ∧
      (Spec.readLines [] ((dmlText ls).take cut)).map Spec.parse =
        (lits.take k).map (fun ls => some (.delete db tbl ((loggedNames IsKey present defs).zip ls))) ++ bad ∧
      (bad = [] ∨ bad = [none] ∨ ∃ conds, bad = [some (.delete db tbl conds)]) := by
  obtain ⟨p, stmts, h1, h2, h3⟩ := delete_shaped ft db tbl extra bm n present defs rows lits hc hl hf hkey hr hdb htbl hnames hw
  obtain ⟨k, bad, k1, k2⟩ := shaped_cut stmts _ h3 (by
    intro s hs
    obtain ⟨ls, hls, rfl⟩ := List.mem_map.1 hs
    refine ⟨hdb', htbl', ?_⟩
    rintro ⟨c, l⟩ hm
    have := List.of_mem_zip hm
    exact ⟨loggedNames_oneLine _ _ _ hnames' _ this.1, hlits ls hls _ this.2⟩) cut
  refine ⟨stmts.map .stmt, k, bad, by rw [h1]; simp [sqlLines, h2], ?_, ?_⟩
  · rw [k1, ← List.map_take, List.map_map]
    rfl
  · rcases k2 with k2 | k2 | ⟨st, st', c1, rfl, c2, c3, c4⟩
    · exact Or.inl k2
    · exact Or.inr (Or.inl k2)
    · rw [List.getElem?_map] at c1
      obtain ⟨ls, -, rfl⟩ := Option.map_eq_some_iff.1 c1
      cases st' with
      | insert => simp [Spec.Stmt.kind] at c3
      | update => simp [Spec.Stmt.kind] at c3
      | delete d t conds => cases c4; exact Or.inr (Or.inr ⟨conds, rfl⟩)

/-- C115 for updated rows, likewise. What a piece of the last statement sets is not claimed here, nor which rows it
finds, see `C115_update_false`. -/
theorem C115_update_partial (ft : FloatText) (db tbl extra bb ab : Bytes) (n : Nat) (before after : List Bool)
    (defs : List ColumnDefinition) (rows : List (List BinlogColumnValue × List BinlogColumnValue))
    (lits : List (List Lit × List Lit))
    (hb : Covers bb before) (hbl : before.length = defs.length) (hbf : Front before)
    (ha : Covers ab after) (hal : after.length = defs.length) (haf : Front after)
    (hkey : loggedNames IsKey before defs ≠ []) (hset : loggedNames (fun _ => true) after defs ≠ [])
    (hr : ∀ row ∈ rows, row.1.length = defs.length ∧ row.2.length = defs.length)
    (hdb : 0x60 ∉ db) (htbl : 0x60 ∉ tbl) (hnames : ∀ d ∈ defs, 0x60 ∉ d.name)
    (hw : List.Forall₂ (fun row ls => Written ft ((logged before defs row.1).filter fun x => IsKey x.1) ls.1 ∧
      Written ft (logged after defs row.2) ls.2) rows lits)
    (hdb' : 0x0a ∉ db) (htbl' : 0x0a ∉ tbl) (hnames' : ∀ d ∈ defs, 0x0a ∉ d.name)
    (hlits : ∀ ls ∈ lits, (∀ l ∈ ls.1, l.OneLine) ∧ ∀ l ∈ ls.2, l.OneLine) (cut : Nat) :
    ∃ ls k bad, sqlLines ft (PreparedSql.fromUpdate db tbl ⟨extra, n, bb, ab, rows⟩ defs) = .ok ls [] ∧
      (Spec.readLines [] ((dmlText ls).take cut)).map Spec.parse =
        (lits.take k).map (fun ls => some (.update db tbl ((loggedNames (fun _ => true) after defs).zip ls.2)
          ((loggedNames IsKey before defs).zip ls.1))) ++ bad ∧
      (bad = [] ∨ bad = [none] ∨ ∃ sets conds, bad = [some (.update db tbl sets conds)]) := by
  obtain ⟨p, stmts, h1, h2, h3⟩ := update_shaped ft db tbl extra bb ab n before after defs rows lits hb hbl hbf ha hal haf
    hkey hset hr hdb htbl hnames hw
  obtain ⟨k, bad, k1, k2⟩ := shaped_cut stmts _ h3 (by
    intro s hs
    obtain ⟨ls, hls, rfl⟩ := List.mem_map.1 hs
    refine ⟨hdb', htbl', ?_, ?_⟩
    · rintro ⟨c, l⟩ hm
      have := List.of_mem_zip hm
      exact ⟨loggedNames_oneLine _ _ _ hnames' _ this.1, (hlits ls hls).2 _ this.2⟩
    · rintro ⟨c, l⟩ hm
      have := List.of_mem_zip hm
      exact ⟨loggedNames_oneLine _ _ _ hnames' _ this.1, (hlits ls hls).1 _ this.2⟩) cut
  refine ⟨stmts.map .stmt, k, bad, by rw [h1]; simp [sqlLines, h2], ?_, ?_⟩
  · rw [k1, ← List.map_take, List.map_map]
    rfl
  · rcases k2 with k2 | k2 | ⟨st, st', c1, rfl, c2, c3, c4⟩
    · exact Or.inl k2
    · exact Or.inr (Or.inl k2)
    · rw [List.getElem?_map] at c1
      obtain ⟨ls, -, rfl⟩ := Option.map_eq_some_iff.1 c1
      cases st' with
      | insert => simp [Spec.Stmt.kind] at c3
      | delete => simp [Spec.Stmt.kind] at c3
      | update d t sets conds => cases c4; exact Or.inr (Or.inr ⟨sets, conds, rfl⟩)

/-! ### cases -/

/-- an INSERT, whole and cut short -/
example :
    Spec.parse (asc "INSERT INTO `d`.`t` (`id`,`s`) VALUES (7,'a)')") ≠ none ∧
    Spec.parse (asc "INSERT INTO `d`.`t` (`id`,`s`) VALUES (7,'a)") = none ∧
    (Spec.readLines [] ((dmlText [.stmt (asc "INSERT INTO `d`.`t` (`id`) VALUES (7)"),
      .stmt (asc "INSERT INTO `d`.`t` (`id`) VALUES (8)")]).take 60)).length = 2 := by
  decide +kernel

/-- C115 fails for deleted rows: the statement that deletes the row with the key (12, 5), cut off, is one that deletes
other rows: all with 12, or all with 1. -/
theorem C115_delete_false (ft : FloatText) :
    ∃ ls, sqlLines ft (PreparedSql.fromDelete (asc "d") (asc "t") ⟨[], 2, [3], [[.long 12, .long 5]]⟩
        [exampleCol "a" 2, exampleCol "b" 2]) = .ok ls [] ∧
      (Spec.readLines [] (dmlText ls)).map Spec.parse =
        [some (.delete (asc "d") (asc "t") [(asc "a", .number 12 0), (asc "b", .number 5 0)])] ∧
      (Spec.readLines [] ((dmlText ls).take 34)).map Spec.parse =
        [some (.delete (asc "d") (asc "t") [(asc "a", .number 12 0)])] ∧
      (Spec.readLines [] ((dmlText ls).take 33)).map Spec.parse =
        [some (.delete (asc "d") (asc "t") [(asc "a", .number 1 0)])] :=
  ⟨[.stmt (asc "DELETE FROM `d`.`t` WHERE `a` = 12 AND `b` = 5")], by
    have e : PreparedSql.fromDelete (asc "d") (asc "t") ⟨[], 2, [3], [[.long 12, .long 5]]⟩
        [exampleCol "a" 2, exampleCol "b" 2] = some ⟨asc "d", [asc "DELETE FROM `d`.`t` WHERE `a` = ", asc "?",
          asc " AND `b` = ", asc "?"], [[.newInt 12, .newInt 5]]⟩ := by decide +kernel
    rw [e]; rfl, by decide +kernel, by decide +kernel, by decide +kernel⟩

/-- C115 fails for updated rows in the same way. -/
theorem C115_update_false (ft : FloatText) :
    ∃ ls, sqlLines ft (PreparedSql.fromUpdate (asc "d") (asc "t") ⟨[], 1, [1], [1], [([.long 12], [.long 5])]⟩
        [exampleCol "a" 2]) = .ok ls [] ∧
      (Spec.readLines [] (dmlText ls)).map Spec.parse =
        [some (.update (asc "d") (asc "t") [(asc "a", .number 5 0)] [(asc "a", .number 12 0)])] ∧
      (Spec.readLines [] ((dmlText ls).take ((dmlText ls).length - 2))).map Spec.parse =
        [some (.update (asc "d") (asc "t") [(asc "a", .number 5 0)] [(asc "a", .number 1 0)])] :=
  ⟨[.stmt (asc "UPDATE `d`.`t` SET `a` = 5 WHERE `a` = 12")], by
    have e : PreparedSql.fromUpdate (asc "d") (asc "t") ⟨[], 1, [1], [1], [([.long 12], [.long 5])]⟩
        [exampleCol "a" 2] = some ⟨asc "d", [asc "UPDATE `d`.`t` SET `a` = ", asc "?",
          asc " WHERE `a` = ", asc "?"], [[.newInt 5, .newInt 12]]⟩ := by decide +kernel
    rw [e]; rfl, by decide +kernel, by decide +kernel⟩

end Mybin
