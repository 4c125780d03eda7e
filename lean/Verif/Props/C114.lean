/-
C114: what is printed for a log, given to a reader of lines or to the `mysql` client.
-/
import Verif.Props.C80
import Verif.Spec.Script
import Verif.Model.DmlText

namespace Mybin

open Spec (Covers Front logged Lit Ends Stmt strip pieces ScriptPlace)

/-! ### what a literal is made of -/

/-- the client passes over the text and is outside of quotes after it -/
def Passed (c : Bytes) : Prop := ∀ acc rest, pieces .plain acc (c ++ rest) = pieces .plain (acc ++ c) rest

/-- the client leaves the quotation at the end of the text -/
def Leaves (q : UInt8) (c : Bytes) : Prop := ∀ acc rest, pieces (.quoted q) acc (c ++ rest) = pieces .plain (acc ++ c) rest

theorem Passed.append {a b : Bytes} (ha : Passed a) (hb : Passed b) : Passed (a ++ b) := by
  intro acc rest
  rw [List.append_assoc, ha, hb, List.append_assoc]

theorem passed_nil : Passed [] := by intro acc rest; simp

theorem pieces_quoted (q b : UInt8) (acc t : Bytes) (h : b ≠ q) (h2 : ¬ (b = 0x5c ∧ q ≠ 0x60)) :
    pieces (.quoted q) acc (b :: t) = pieces (.quoted q) (acc ++ [b]) t := by
  rw [pieces, if_neg h, if_neg h2]

theorem pieces_close (q : UInt8) (acc t : Bytes) : pieces (.quoted q) acc (q :: t) = pieces .plain (acc ++ [q]) t := by
  rw [pieces, if_pos rfl]

theorem pieces_open (q : UInt8) (acc t : Bytes) (h : Spec.isQuote q = true) :
    pieces .plain acc (q :: t) = pieces (.quoted q) (acc ++ [q]) t := by
  rw [pieces, if_neg, if_pos h]
  rintro rfl
  cases h

theorem passed_quotation (q : UInt8) (c : Bytes) (h : Spec.isQuote q = true) (hc : Leaves q c) : Passed (q :: c) := by
  intro acc rest
  rw [List.cons_append, pieces_open q acc _ h, hc]
  simp

/-- a byte that neither ends a statement nor begins a quotation or a comment -/
def PlainByte (b : UInt8) : Prop := b ≠ 0x3b ∧ Spec.isQuote b = false ∧ b ≠ 0x23 ∧ b ≠ 0x2d

instance (b : UInt8) : Decidable (PlainByte b) := by unfold PlainByte; infer_instance

theorem strip_dash (b : UInt8) (t : Bytes) (s : List UInt8) (h : b ≠ 0x2d) : strip (0x2d :: s) (b :: t) = none := by
  rw [strip, if_neg (fun e => h e.symm)]

theorem passed_byte (b : UInt8) (h : PlainByte b) : Passed [b] := by
  intro acc rest
  obtain ⟨h1, h2, h3, h4⟩ := h
  rw [List.singleton_append, pieces, if_neg h1, if_neg (by rw [h2]; simp), if_neg]
  unfold Spec.beginsComment
  rw [show Spec.ascii "-- " = 0x2d :: [0x2d, 0x20] from rfl, show Spec.ascii "--\n" = 0x2d :: [0x2d, 0x0a] from rfl,
    strip_dash b rest _ h4, strip_dash b rest _ h4]
  simp [h3]

theorem passed_plain (c : Bytes) (h : ∀ b ∈ c, PlainByte b) : Passed c := by
  induction c with
  | nil => exact passed_nil
  | cons b c ih =>
    exact Passed.append (a := [b]) (passed_byte b (h b List.mem_cons_self)) (ih fun x hx => h x (List.mem_cons_of_mem _ hx))

/-- a dash that is not before another one -/
theorem passed_dash (c : Bytes) (hne : c ≠ []) (h : c.head? ≠ some 0x2d) (hc : Passed c) : Passed (0x2d :: c) := by
  intro acc rest
  cases c with
  | nil => exact absurd rfl hne
  | cons d c =>
    have hd : d ≠ 0x2d := by rintro rfl; exact h rfl
    rw [List.cons_append, pieces, if_neg (by decide), if_neg (by decide), if_neg, hc]
    · simp
    · unfold Spec.beginsComment
      rw [show Spec.ascii "-- " = 0x2d :: 0x2d :: [0x20] from rfl, show Spec.ascii "--\n" = 0x2d :: 0x2d :: [0x0a] from rfl,
        strip, if_pos rfl, strip, if_pos rfl, List.cons_append, strip_dash d _ _ hd, strip_dash d _ _ hd]
      simp

theorem stringBody_facts (b : Bytes) : ∀ s r, Spec.stringBody b = some (s, r) → ∃ c, b = c ++ r ∧ c ≠ [] ∧ Leaves 0x27 c ∧
    (0x0a ∉ s → 0x0a ∉ c) ∧ ∀ rest : Bytes, rest.head? ≠ some 0x27 → Spec.stringBody (c ++ rest) = some (s, rest) := by
  have hend : ∀ rest : Bytes, rest.head? ≠ some 0x27 → Spec.stringBody ([0x27] ++ rest) = some ([], rest) := by
    intro rest hr
    cases rest with
    | nil => rfl
    | cons d rest =>
      rw [List.singleton_append, Spec.stringBody, if_pos rfl, if_neg]
      rintro rfl; exact hr rfl
  have hone : Leaves 0x27 [0x27] := fun acc rest => pieces_close 0x27 acc rest
  fun_induction Spec.stringBody b with
  | case1 => intro s r h; cases h
  | case2 =>
    intro s r e
    cases e
    exact ⟨[0x27], rfl, by simp, hone, by simp, hend⟩
  | case3 b h => intro s r e; cases e
  | case4 t ih =>
    intro s r e
    obtain ⟨x, hx, e⟩ := Option.map_eq_some_iff.1 e
    cases e
    obtain ⟨c', h1, h2, h3, h4, h5⟩ := ih x.1 x.2 hx
    refine ⟨0x27 :: 0x27 :: c', by rw [h1]; simp, by simp, ?_, ?_, ?_⟩
    · intro acc rest
      rw [List.cons_append, List.cons_append, pieces_close, pieces_open _ _ _ rfl, h3]
      simp
    · intro hn
      have := h4 (fun hm => hn (List.mem_cons_of_mem _ hm))
      simp [this]
    · intro rest hr
      rw [List.cons_append, List.cons_append, Spec.stringBody, if_pos rfl, if_pos rfl, h5 rest hr]
      rfl
  | case5 c t hc =>
    intro s r e
    cases e
    exact ⟨[0x27], by simp, by simp, hone, by simp, hend⟩
  | case6 c t h1 ih =>
    intro s r e
    obtain ⟨x, hx, e⟩ := Option.map_eq_some_iff.1 e
    cases e
    obtain ⟨c', k1, k2, k3, k4, k5⟩ := ih x.1 x.2 hx
    refine ⟨0x5c :: c :: c', by rw [k1]; simp, by simp, ?_, ?_, ?_⟩
    · intro acc rest
      rw [List.cons_append, List.cons_append, pieces, if_neg (by decide), if_pos (by decide), pieces, k3]
      simp
    · intro hn
      have q1 := k4 (fun hm => hn (List.mem_append_right _ hm))
      have q2 : c ≠ 0x0a := by
        rintro rfl
        exact hn (List.mem_append_left _ (by decide))
      simp [q1, q2.symm]
    · intro rest hr
      rw [List.cons_append, List.cons_append, Spec.stringBody, if_neg (by decide), if_pos rfl, k5 rest hr]
      rfl
  | case7 b c t h1 h2 ih =>
    intro s r e
    obtain ⟨x, hx, e⟩ := Option.map_eq_some_iff.1 e
    cases e
    obtain ⟨c', k1, k2, k3, k4, k5⟩ := ih x.1 x.2 hx
    refine ⟨b :: c', by rw [k1]; simp, by simp, ?_, ?_, ?_⟩
    · intro acc rest
      rw [List.cons_append, pieces_quoted _ _ _ _ h1 (fun h => h2 h.1), k3]
      simp
    · intro hn
      have q1 := k4 (fun hm => hn (List.mem_cons_of_mem _ hm))
      have q2 : b ≠ 0x0a := by
        rintro rfl
        exact hn List.mem_cons_self
      simp [q1, q2.symm]
    · intro rest hr
      cases c' with
      | nil => exact absurd rfl k2
      | cons d c' =>
        have := k5 rest hr
        rw [List.cons_append] at this
        rw [List.cons_append, List.cons_append, Spec.stringBody, if_neg h1, if_neg h2, this]
        rfl

theorem hexDigit_plain (b : UInt8) (n : Nat) (h : Spec.hexDigit? b = some n) : b ≠ 0x27 ∧ b ≠ 0x5c ∧ b ≠ 0x0a := by
  refine ⟨?_, ?_, ?_⟩ <;> (rintro rfl; exact absurd h (by simp [Spec.hexDigit?]))

theorem hexBody_facts (b : Bytes) : ∀ s r, Spec.hexBody b = some (s, r) → ∃ c, b = c ++ r ∧ Leaves 0x27 c ∧ 0x0a ∉ c ∧
    ∀ rest : Bytes, Spec.hexBody (c ++ rest) = some (s, rest) := by
  have hend : ∀ rest : Bytes, Spec.hexBody ([0x27] ++ rest) = some ([], rest) := by
    intro rest
    cases rest with
    | nil => rfl
    | cons d rest => rw [List.singleton_append, Spec.hexBody, if_pos rfl]
  have hone : Leaves 0x27 [0x27] := fun acc rest => pieces_close 0x27 acc rest
  fun_induction Spec.hexBody b with
  | case1 => intro s r h; cases h
  | case2 =>
    intro s r e
    cases e
    exact ⟨[0x27], rfl, hone, by simp, hend⟩
  | case3 b h => intro s r e; cases e
  | case4 c t =>
    intro s r e
    cases e
    exact ⟨[0x27], rfl, hone, by simp, hend⟩
  | case5 b c t hb h l h2 h1 ih =>
    intro s r e
    obtain ⟨x, hx, e⟩ := Option.map_eq_some_iff.1 e
    cases e
    obtain ⟨c', k1, k2, k3, k4⟩ := ih x.1 x.2 hx
    have q1 := hexDigit_plain b _ h1
    have q2 := hexDigit_plain c _ h2
    refine ⟨b :: c :: c', by rw [k1]; simp, ?_, ?_, ?_⟩
    · intro acc rest
      rw [List.cons_append, List.cons_append, pieces_quoted _ _ _ _ q1.1 (fun h => q1.2.1 h.1),
        pieces_quoted _ _ _ _ q2.1 (fun h => q2.2.1 h.1), k2]
      simp
    · simp [k3, q1.2.2.symm, q2.2.2.symm]
    · intro rest
      rw [List.cons_append, List.cons_append, Spec.hexBody, if_neg q1.1, h1, h2]
      dsimp only
      rw [k4 rest]
      rfl
  | case6 => intro s r e; cases e

theorem strip_newline (a t r : Bytes) (h : 0x0a ∉ a) :
    strip a (t ++ 0x0a :: r) = (strip a t).map (· ++ 0x0a :: r) := by
  induction a generalizing t with
  | nil => simp [strip]
  | cons x a ih =>
    cases t with
    | nil =>
      have hx : x ≠ 0x0a := by rintro rfl; exact h List.mem_cons_self
      rw [List.nil_append, strip.eq_def (x :: a) (0x0a :: r)]
      dsimp only
      rw [if_neg hx]
      rfl
    | cons y t =>
      rw [List.cons_append, strip, strip, ih t (fun e => h (List.mem_cons_of_mem _ e))]
      split <;> rfl

theorem digits_newline (t r : Bytes) : Spec.digits (t ++ 0x0a :: r) = Spec.digits t := by
  unfold Spec.digits
  rw [List.takeWhile_append]
  split
  · rename_i h
    rw [List.takeWhile_cons_of_neg (by decide), List.append_nil]
    exact ((List.takeWhile_sublist _).eq_of_length h).symm
  · rfl

theorem digits_length (t : Bytes) : (Spec.digits t).length ≤ t.length := (List.takeWhile_sublist _).length_le

theorem mem_digits (t : Bytes) (b : UInt8) (h : b ∈ Spec.digits t) : 0x30 ≤ b ∧ b ≤ 0x39 := by
  unfold Spec.digits at h
  induction t with
  | nil => cases h
  | cons c t ih =>
    rw [List.takeWhile_cons] at h
    split at h
    · rename_i hc
      rcases List.mem_cons.1 h with rfl | h
      · simpa using hc
      · exact ih h
    · cases h

theorem digits_all (t : Bytes) (h : t.drop (Spec.digits t).length = []) : ∀ b ∈ t, 0x30 ≤ b ∧ b ≤ 0x39 := by
  have h1 : (Spec.digits t).length = t.length := by
    have := List.drop_eq_nil_iff.1 h
    have := digits_length t
    omega
  have h2 : Spec.digits t = t := (List.takeWhile_sublist _).eq_of_length h1
  intro b hb
  rw [← h2] at hb
  exact mem_digits t b hb

theorem drop_newline (t r : Bytes) (n : Nat) (h : n ≤ t.length) : (t ++ 0x0a :: r).drop n = t.drop n ++ 0x0a :: r := by
  rw [List.drop_append_of_le_length h]

/-- a digit or a point -/
def NumberByte (b : UInt8) : Prop := (0x30 ≤ b ∧ b ≤ 0x39) ∨ b = 0x2e

theorem numberByte_plain (b : UInt8) (h : NumberByte b) : PlainByte b ∧ b ≠ 0x0a := by
  have key : ∀ c : UInt8, ¬ ((0x30 ≤ c ∧ c ≤ 0x39) ∨ c = 0x2e) → b ≠ c := by
    rintro c hc rfl; exact hc h
  refine ⟨⟨key _ (by decide), ?_, key _ (by decide), key _ (by decide)⟩, key _ (by decide)⟩
  unfold Spec.isQuote
  simp [key 0x27 (by decide), key 0x22 (by decide), key 0x60 (by decide)]

theorem unsignedNumber_facts (t : Bytes) (n sc : Nat) (h : Spec.unsignedNumber t = some (n, sc, [])) :
    t ≠ [] ∧ (∀ b ∈ t, NumberByte b) ∧
      ∀ r, Spec.unsignedNumber (t ++ 0x0a :: r) = some (n, sc, 0x0a :: r) := by
  have hne : t ≠ [] := by rintro rfl; cases h
  unfold Spec.unsignedNumber at h
  dsimp only at h
  have happ : t = Spec.digits t ++ t.drop (Spec.digits t).length := by
    have key : ∀ t : Bytes, t = Spec.digits t ++ t.drop (Spec.digits t).length := by
      intro t
      obtain ⟨k, hk⟩ := List.takeWhile_prefix (fun b : UInt8 => decide (0x30 ≤ b ∧ b ≤ 0x39)) (l := t)
      unfold Spec.digits
      generalize List.takeWhile _ t = d at hk
      subst hk
      simp
    exact key t
  have hdig : ∀ b ∈ Spec.digits t, NumberByte b := by
    intro b hb
    exact Or.inl (mem_digits t b hb)
  refine ⟨hne, ?_, ?_⟩
  · intro b hb
    rw [happ] at hb
    rcases List.mem_append.1 hb with hb | hb
    · exact hdig b hb
    · split at h
      · rename_i hd
        obtain ⟨x, -, e⟩ := Option.map_eq_some_iff.1 h
        injection e with e1 e2
        injection e2 with e2 e3
        generalize t.drop (Spec.digits t).length = q at hd hb e3
        cases q with
        | nil => cases hb
        | cons d q =>
          have : d = 0x2e := by simpa using hd
          rcases List.mem_cons.1 hb with rfl | hb
          · exact Or.inr this
          · exact Or.inl (digits_all q e3 b hb)
      · obtain ⟨x, -, e⟩ := Option.map_eq_some_iff.1 h
        injection e with e1 e2
        injection e2 with e2 e3
        rw [e3] at hb
        cases hb
  · intro r
    unfold Spec.unsignedNumber
    dsimp only
    rw [digits_newline, drop_newline _ _ _ (digits_length t)]
    generalize t.drop (Spec.digits t).length = q at h
    cases q with
    | nil =>
      rw [if_neg (by simp)] at h
      rw [if_neg (by simp)]
      obtain ⟨x, hx, e⟩ := Option.map_eq_some_iff.1 h
      rw [hx]
      cases e
      rfl
    | cons d q =>
      rw [List.cons_append, List.head?_cons] at *
      split at h
      · rename_i hd
        rw [if_pos hd]
        rw [List.tail_cons] at *
        rw [digits_newline, drop_newline _ _ _ (digits_length q)]
        obtain ⟨x, hx, e⟩ := Option.map_eq_some_iff.1 h
        rw [hx]
        injection e with e1 e2
        injection e2 with e2 e3
        rw [e3, e1, e2]
        rfl
      · obtain ⟨x, hx, e⟩ := Option.map_eq_some_iff.1 h
        injection e with e1 e2
        injection e2 with e2 e3
        cases e3

/-- what is known of the text of a literal: the client passes over it, it has no newline unless the character string it
stands for has one, and a newline ends it -/
theorem literal_facts (t : Bytes) (l : Lit) (h : Spec.literal t = some (l, [])) : Passed t ∧ (l.OneLine → 0x0a ∉ t) ∧
    ∀ r, Spec.literal (t ++ 0x0a :: r) = some (l, 0x0a :: r) := by
  have hcond : ∀ (a : Bytes) (r : Bytes), 0x0a ∉ a → (strip a (t ++ 0x0a :: r)).isSome = (strip a t).isSome := by
    intro a r ha
    rw [strip_newline a t r ha, Option.isSome_map]
  have hhead : t ≠ [] → ∀ r : Bytes, (t ++ 0x0a :: r).head? = t.head? := by
    intro ht r
    cases t with
    | nil => exact absurd rfl ht
    | cons b t => rfl
  have hne : t ≠ [] := by rintro rfl; cases h
  unfold Spec.literal at h ⊢
  simp only [hcond (Spec.ascii "x'") _ (by decide), hcond (Spec.ascii "null") _ (by decide), hhead hne]
  split at h
  · rename_i h1
    cases t with
    | nil => cases h
    | cons b t =>
      have hb : b = 0x27 := by simpa using h1
      subst hb
      simp only [if_pos h1]
      obtain ⟨x, hx, e⟩ := Option.map_eq_some_iff.1 h
      rw [Spec.stringLiteral, if_pos rfl] at hx
      cases x with
      | mk s r' =>
      cases e
      obtain ⟨c, k1, k2, k3, k4, k5⟩ := stringBody_facts t _ _ hx
      rw [List.append_nil] at k1
      subst k1
      refine ⟨passed_quotation _ _ rfl k3, ?_, ?_⟩
      · intro hl
        have := k4 hl
        simp [this]
      · intro r
        rw [List.cons_append, Spec.stringLiteral, if_pos rfl, k5 _ (by simp)]
        rfl
  · rename_i h1
    simp only [if_neg h1]
    split at h
    · rename_i h2
      simp only [if_pos h2]
      obtain ⟨x, hx, e⟩ := Option.map_eq_some_iff.1 h
      rcases t with _ | ⟨b, _ | ⟨c, t⟩⟩
      · cases hx
      · cases hx
      · rw [Spec.hexLiteral] at hx
        split at hx
        · rename_i h3
          cases x with
          | mk s r' =>
          cases e
          obtain ⟨k, k1, k2, k3, k4⟩ := hexBody_facts t _ _ hx
          rw [List.append_nil] at k1
          subst k1
          have hb : PlainByte b ∧ b ≠ 0x0a := by rcases h3.1 with rfl | rfl <;> decide
          have hc := h3.2
          subst hc
          refine ⟨Passed.append (a := [b]) (passed_byte b hb.1) (passed_quotation _ _ rfl k2), ?_, ?_⟩
          · intro _
            simp [k3, hb.2.symm]
          · intro r
            rw [List.cons_append, List.cons_append, Spec.hexLiteral, if_pos h3, k4]
            rfl
        · cases hx
    · rename_i h2
      simp only [if_neg h2]
      split at h
      · rename_i h3
        simp only [if_pos h3]
        obtain ⟨x, hx, e⟩ := Option.map_eq_some_iff.1 h
        cases e
        have ht : t = Spec.ascii "null" := by
          have key : ∀ a t : Bytes, strip a t = some [] → t = a := by
            intro a
            induction a with
            | nil => intro t h; simpa [strip] using h
            | cons y a ih =>
              intro t h
              cases t with
              | nil => cases h
              | cons z t =>
                rw [strip] at h
                split at h
                · rename_i e
                  rw [ih t h, e]
                · cases h
          exact key _ _ hx
        refine ⟨?_, ?_, ?_⟩
        · rw [ht]; exact passed_plain _ (by decide +kernel)
        · intro _; rw [ht]; decide
        · intro r
          rw [strip_newline _ _ _ (by decide), hx]
          rfl
      · rename_i h3
        simp only [if_neg h3]
        split at h
        · rename_i h4
          simp only [if_pos h4]
          cases t with
          | nil => cases h4
          | cons b t =>
            have hb : b = 0x2d := by simpa using h4
            subst hb
            obtain ⟨⟨n, sc, r'⟩, hx, e⟩ := Option.map_eq_some_iff.1 h
            cases e
            obtain ⟨k1, k2, k3⟩ := unsignedNumber_facts _ _ _ hx
            rw [List.tail_cons] at k1 k2 k3
            refine ⟨passed_dash t k1 ?_ (passed_plain t fun b hb => (numberByte_plain b (k2 b hb)).1), ?_, ?_⟩
            · intro hh
              exact (numberByte_plain _ (k2 _ (List.mem_of_head? hh))).1.2.2.2 rfl
            · intro _ hm
              rcases List.mem_cons.1 hm with e | hm
              · cases e
              · exact (numberByte_plain _ (k2 _ hm)).2 rfl
            · intro r
              rw [List.cons_append, List.tail_cons, k3]
              rfl
        · rename_i h4
          simp only [if_neg h4]
          obtain ⟨⟨n, sc, r'⟩, hx, e⟩ := Option.map_eq_some_iff.1 h
          cases e
          obtain ⟨k1, k2, k3⟩ := unsignedNumber_facts _ _ _ hx
          refine ⟨passed_plain t fun b hb => (numberByte_plain b (k2 b hb)).1, ?_, ?_⟩
          · intro _ hm
            exact (numberByte_plain _ (k2 _ hm)).2 rfl
          · intro r
            rw [k3]
            rfl

theorem stringBody_last (b : Bytes) : ∀ s r, Spec.stringBody b = some (s, r) → ∃ c, b = c ++ [0x27] ++ r := by
  fun_induction Spec.stringBody b with
  | case1 => intro s r h; cases h
  | case2 => intro s r e; cases e; exact ⟨[], rfl⟩
  | case3 b h => intro s r e; cases e
  | case4 t ih =>
    intro s r e
    obtain ⟨x, hx, e⟩ := Option.map_eq_some_iff.1 e
    cases e
    obtain ⟨c, h⟩ := ih x.1 x.2 hx
    exact ⟨0x27 :: 0x27 :: c, by rw [h]; simp⟩
  | case5 c t hc => intro s r e; cases e; exact ⟨[], rfl⟩
  | case6 c t h1 ih =>
    intro s r e
    obtain ⟨x, hx, e⟩ := Option.map_eq_some_iff.1 e
    cases e
    obtain ⟨k, h⟩ := ih x.1 x.2 hx
    exact ⟨0x5c :: c :: k, by rw [h]; simp⟩
  | case7 b c t h1 h2 ih =>
    intro s r e
    obtain ⟨x, hx, e⟩ := Option.map_eq_some_iff.1 e
    cases e
    obtain ⟨k, h⟩ := ih x.1 x.2 hx
    exact ⟨b :: k, by rw [h]; simp⟩

theorem hexBody_last (b : Bytes) : ∀ s r, Spec.hexBody b = some (s, r) → ∃ c, b = c ++ [0x27] ++ r := by
  fun_induction Spec.hexBody b with
  | case1 => intro s r h; cases h
  | case2 => intro s r e; cases e; exact ⟨[], rfl⟩
  | case3 b h => intro s r e; cases e
  | case4 c t => intro s r e; cases e; exact ⟨[], rfl⟩
  | case5 b c t hb h l h2 h1 ih =>
    intro s r e
    obtain ⟨x, hx, e⟩ := Option.map_eq_some_iff.1 e
    cases e
    obtain ⟨k, h⟩ := ih x.1 x.2 hx
    exact ⟨b :: c :: k, by rw [h]; simp⟩
  | case6 => intro s r e; cases e

/-- the text ends with something else than white space -/
def EndsDark (t : Bytes) : Prop := ∃ c b, t = c ++ [b] ∧ Spec.isSpace b = false

theorem EndsDark.append {a b : Bytes} (h : EndsDark b) : EndsDark (a ++ b) := by
  obtain ⟨c, x, rfl, hx⟩ := h
  exact ⟨a ++ c, x, by simp, hx⟩

theorem endsDark_number (t : Bytes) (hne : t ≠ []) (h : ∀ b ∈ t, NumberByte b) : EndsDark t := by
  refine ⟨t.dropLast, t.getLast hne, (List.dropLast_append_getLast hne).symm, ?_⟩
  have hb := h _ (List.getLast_mem hne)
  generalize t.getLast hne = b at hb
  have key : ∀ c : UInt8, ¬ ((0x30 ≤ c ∧ c ≤ 0x39) ∨ c = 0x2e) → b ≠ c := by
    rintro c hc rfl; exact hc hb
  unfold Spec.isSpace
  simp [key 0x20 (by decide), key 0x09 (by decide), key 0x0a (by decide), key 0x0d (by decide)]

theorem literal_dark (t : Bytes) (l : Lit) (h : Spec.literal t = some (l, [])) : EndsDark t := by
  unfold Spec.literal at h
  split at h
  · obtain ⟨⟨s, r⟩, hx, e⟩ := Option.map_eq_some_iff.1 h
    cases e
    cases t with
    | nil => cases hx
    | cons b t =>
      rw [Spec.stringLiteral] at hx
      split at hx
      · obtain ⟨c, hc⟩ := stringBody_last _ _ _ hx
        exact ⟨b :: c, 0x27, by rw [hc]; simp, rfl⟩
      · cases hx
  · split at h
    · obtain ⟨⟨s, r⟩, hx, e⟩ := Option.map_eq_some_iff.1 h
      cases e
      rcases t with _ | ⟨b, _ | ⟨d, t⟩⟩
      · cases hx
      · cases hx
      · rw [Spec.hexLiteral] at hx
        split at hx
        · obtain ⟨c, hc⟩ := hexBody_last _ _ _ hx
          exact ⟨b :: d :: c, 0x27, by rw [hc]; simp, rfl⟩
        · cases hx
    · split at h
      · obtain ⟨x, hx, e⟩ := Option.map_eq_some_iff.1 h
        cases e
        have key : ∀ a t r : Bytes, strip a t = some r → t = a ++ r := by
          intro a
          induction a with
          | nil => intro t r h; simpa [strip] using h
          | cons y a ih =>
            intro t r h
            cases t with
            | nil => cases h
            | cons z t =>
              rw [strip] at h
              split at h
              · rename_i e
                rw [ih t r h, e]
                rfl
              · cases h
        rw [key _ _ _ hx]
        exact ⟨Spec.ascii "nul", 0x6c, by decide, rfl⟩
      · split at h
        · obtain ⟨⟨n, sc, r'⟩, hx, e⟩ := Option.map_eq_some_iff.1 h
          cases e
          obtain ⟨k1, k2, -⟩ := unsignedNumber_facts _ _ _ hx
          cases t with
          | nil => exact absurd rfl k1
          | cons b t => exact EndsDark.append (a := [b]) (endsDark_number t k1 k2)
        · obtain ⟨⟨n, sc, r'⟩, hx, e⟩ := Option.map_eq_some_iff.1 h
          cases e
          obtain ⟨k1, k2, -⟩ := unsignedNumber_facts _ _ _ hx
          exact endsDark_number t k1 k2

/-! ### statements -/

/-- the text is a statement of one of the three shapes, with names that have no backtick and texts of literals -/
inductive Shaped : Bytes → Stmt → Prop
  | insert {db tbl : Bytes} {xs : List (Bytes × Bytes)} {ls : List Lit} (h1 : 0x60 ∉ db) (h2 : 0x60 ∉ tbl)
      (h : Equations xs ls) (hne : xs ≠ []) : Shaped (Spec.insertText db tbl xs) (.insert db tbl (xs.map (·.1)) ls)
  | delete {db tbl : Bytes} {xs : List (Bytes × Bytes)} {ls : List Lit} (h1 : 0x60 ∉ db) (h2 : 0x60 ∉ tbl)
      (h : Equations xs ls) (hne : xs ≠ []) : Shaped (Spec.deleteText db tbl xs) (.delete db tbl ((xs.map (·.1)).zip ls))
  | update {db tbl : Bytes} {xs ks : List (Bytes × Bytes)} {ls ms : List Lit} (h1 : 0x60 ∉ db) (h2 : 0x60 ∉ tbl)
      (h : Equations xs ls) (hne : xs ≠ []) (hk : Equations ks ms) (hkne : ks ≠ []) :
      Shaped (Spec.updateText db tbl xs ks) (.update db tbl ((xs.map (·.1)).zip ls) ((ks.map (·.1)).zip ms))

theorem Shaped.parse {s : Bytes} {st : Stmt} (h : Shaped s st) : Spec.parse s = some st := by
  cases h with
  | insert h1 h2 h hne => exact parse_insert _ _ _ _ h1 h2 h hne
  | delete h1 h2 h hne => exact parse_delete _ _ _ _ h1 h2 h hne
  | update h1 h2 h hne hk hkne => exact parse_update _ _ _ _ _ _ h1 h2 h hne hk hkne

theorem readsAs_literal {t : Bytes} {l : Lit} (h : ReadsAs t l) : Spec.literal t = some (l, []) := by
  have := h [] (Or.inl rfl)
  rwa [List.append_nil] at this

theorem leaves_name (name : Bytes) (h : 0x60 ∉ name) : Leaves 0x60 (name ++ [0x60]) := by
  induction name with
  | nil => exact fun acc rest => pieces_close 0x60 acc rest
  | cons b name ih =>
    intro acc rest
    have hb : b ≠ 0x60 := by rintro rfl; exact h List.mem_cons_self
    rw [List.cons_append, List.cons_append, pieces_quoted _ _ _ _ hb (by simp),
      ih (fun e => h (List.mem_cons_of_mem _ e))]
    simp

theorem passed_tick (name : Bytes) (h : 0x60 ∉ name) : Passed (Spec.tick name) := by
  have : Spec.tick name = 0x60 :: (name ++ [0x60]) := by
    simp only [Spec.tick, List.append_assoc]; rfl
  rw [this]
  exact passed_quotation _ _ rfl (leaves_name name h)

theorem passed_joined (sep : String) (hs : ∀ b ∈ Spec.ascii sep, PlainByte b) (ts : List Bytes) (h : ∀ t ∈ ts, Passed t) :
    Passed (Spec.joined sep ts) := by
  induction ts with
  | nil => exact passed_nil
  | cons t ts ih =>
    cases ts with
    | nil => exact h t List.mem_cons_self
    | cons u us =>
      exact ((h t List.mem_cons_self).append (passed_plain _ hs)).append (ih fun x hx => h x (List.mem_cons_of_mem _ hx))

theorem equations_mem {xs : List (Bytes × Bytes)} {ls : List Lit} (h : Equations xs ls) :
    ∀ x ∈ xs, 0x60 ∉ x.1 ∧ ∃ l ∈ ls, ReadsAs x.2 l ∧ (x.1, l) ∈ (xs.map (·.1)).zip ls := by
  induction h with
  | nil => intro x hx; cases hx
  | cons h1 _ ih =>
    intro x hx
    rcases List.mem_cons.1 hx with rfl | hx
    · exact ⟨h1.1, _, List.mem_cons_self, h1.2, by simp⟩
    · obtain ⟨k1, l, k2, k3, k4⟩ := ih x hx
      exact ⟨k1, l, List.mem_cons_of_mem _ k2, k3, List.mem_cons_of_mem _ k4⟩

theorem passed_equation {xs : List (Bytes × Bytes)} {ls : List Lit} (h : Equations xs ls) :
    ∀ t ∈ xs.map Spec.equation, Passed t := by
  intro t ht
  obtain ⟨x, hx, rfl⟩ := List.mem_map.1 ht
  obtain ⟨k1, l, -, k3, -⟩ := equations_mem h x hx
  exact ((passed_tick _ k1).append (passed_plain _ (by decide +kernel))).append (literal_facts _ _ (readsAs_literal k3)).1

theorem Shaped.passed {s : Bytes} {st : Stmt} (h : Shaped s st) : Passed s := by
  have kw : ∀ k : String, (∀ b ∈ Spec.ascii k, PlainByte b) → Passed (Spec.ascii k) := fun k hk => passed_plain _ hk
  cases h with
  | @insert db tbl xs ls h1 h2 h hne =>
    refine Passed.append (Passed.append (Passed.append (Passed.append (Passed.append (Passed.append (Passed.append
      (Passed.append ?_ ?_) ?_) ?_) ?_) ?_) ?_) ?_) ?_
    · exact kw _ (by decide +kernel)
    · exact passed_tick _ h1
    · exact kw _ (by decide +kernel)
    · exact passed_tick _ h2
    · exact kw _ (by decide +kernel)
    · refine passed_joined _ (by decide +kernel) _ ?_
      intro t ht
      obtain ⟨x, hx, rfl⟩ := List.mem_map.1 ht
      exact passed_tick _ (equations_mem h x hx).1
    · exact kw _ (by decide +kernel)
    · refine passed_joined _ (by decide +kernel) _ ?_
      intro t ht
      obtain ⟨x, hx, rfl⟩ := List.mem_map.1 ht
      obtain ⟨-, l, -, k3, -⟩ := equations_mem h x hx
      exact (literal_facts _ _ (readsAs_literal k3)).1
    · exact kw _ (by decide +kernel)
  | @delete db tbl xs ls h1 h2 h hne =>
    refine Passed.append (Passed.append (Passed.append (Passed.append (Passed.append ?_ ?_) ?_) ?_) ?_) ?_
    · exact kw _ (by decide +kernel)
    · exact passed_tick _ h1
    · exact kw _ (by decide +kernel)
    · exact passed_tick _ h2
    · exact kw _ (by decide +kernel)
    · exact passed_joined _ (by decide +kernel) _ (passed_equation h)
  | @update db tbl xs ks ls ms h1 h2 h hne hk hkne =>
    refine Passed.append (Passed.append (Passed.append (Passed.append (Passed.append (Passed.append (Passed.append
      ?_ ?_) ?_) ?_) ?_) ?_) ?_) ?_
    · exact kw _ (by decide +kernel)
    · exact passed_tick _ h1
    · exact kw _ (by decide +kernel)
    · exact passed_tick _ h2
    · exact kw _ (by decide +kernel)
    · exact passed_joined _ (by decide +kernel) _ (passed_equation h)
    · exact kw _ (by decide +kernel)
    · exact passed_joined _ (by decide +kernel) _ (passed_equation hk)

theorem not_mem_joined (b : UInt8) (sep : String) (hs : b ∉ Spec.ascii sep) (ts : List Bytes) (h : ∀ t ∈ ts, b ∉ t) :
    b ∉ Spec.joined sep ts := by
  induction ts with
  | nil => simp [Spec.joined]
  | cons t ts ih =>
    cases ts with
    | nil => exact h t List.mem_cons_self
    | cons u us =>
      rw [Spec.joined]
      · simp only [List.mem_append, not_or]
        exact ⟨⟨h t List.mem_cons_self, hs⟩, ih fun x hx => h x (List.mem_cons_of_mem _ hx)⟩
      · simp

theorem not_mem_tick (name : Bytes) (h : 0x0a ∉ name) : 0x0a ∉ Spec.tick name := by
  simp only [Spec.tick, List.mem_append, not_or]
  exact ⟨⟨by decide, h⟩, by decide⟩

theorem not_mem_equations {xs : List (Bytes × Bytes)} {ls : List Lit} (h : Equations xs ls)
    (hc : ∀ c ∈ (xs.map (·.1)).zip ls, 0x0a ∉ c.1 ∧ c.2.OneLine) : ∀ t ∈ xs.map Spec.equation, 0x0a ∉ t := by
  intro t ht
  obtain ⟨x, hx, rfl⟩ := List.mem_map.1 ht
  obtain ⟨-, l, -, k3, k4⟩ := equations_mem h x hx
  obtain ⟨q1, q2⟩ := hc _ k4
  simp only [Spec.equation, List.mem_append, not_or]
  exact ⟨⟨not_mem_tick _ q1, by decide⟩, (literal_facts _ _ (readsAs_literal k3)).2.1 q2⟩

/-- a statement whose names and values have no newline is one line -/
theorem Shaped.oneLine {s : Bytes} {st : Stmt} (h : Shaped s st) (hl : st.OneLine) : 0x0a ∉ s := by
  cases h with
  | @insert db tbl xs ls h1 h2 h hne =>
    obtain ⟨q1, q2, q3, q4⟩ := hl
    simp only [Spec.insertText, List.mem_append, not_or]
    refine ⟨⟨⟨⟨⟨⟨⟨⟨by decide, not_mem_tick _ q1⟩, by decide⟩, not_mem_tick _ q2⟩, by decide⟩, ?_⟩, by decide⟩, ?_⟩, by decide⟩
    · refine not_mem_joined _ _ (by decide) _ ?_
      intro t ht
      obtain ⟨x, hx, rfl⟩ := List.mem_map.1 ht
      exact not_mem_tick _ (q3 _ (List.mem_map_of_mem hx))
    · refine not_mem_joined _ _ (by decide) _ ?_
      intro t ht
      obtain ⟨x, hx, rfl⟩ := List.mem_map.1 ht
      obtain ⟨-, l, k2, k3, -⟩ := equations_mem h x hx
      exact (literal_facts _ _ (readsAs_literal k3)).2.1 (q4 l k2)
  | @delete db tbl xs ls h1 h2 h hne =>
    obtain ⟨q1, q2, q3⟩ := hl
    simp only [Spec.deleteText, List.mem_append, not_or]
    exact ⟨⟨⟨⟨⟨by decide, not_mem_tick _ q1⟩, by decide⟩, not_mem_tick _ q2⟩, by decide⟩,
      not_mem_joined _ _ (by decide) _ (not_mem_equations h q3)⟩
  | @update db tbl xs ks ls ms h1 h2 h hne hk hkne =>
    obtain ⟨q1, q2, q3, q4⟩ := hl
    simp only [Spec.updateText, List.mem_append, not_or]
    exact ⟨⟨⟨⟨⟨⟨⟨by decide, not_mem_tick _ q1⟩, by decide⟩, not_mem_tick _ q2⟩, by decide⟩,
      not_mem_joined _ _ (by decide) _ (not_mem_equations h q3)⟩, by decide⟩,
      not_mem_joined _ _ (by decide) _ (not_mem_equations hk q4)⟩

theorem endsDark_joined (sep : String) (ts : List Bytes) (hne : ts ≠ []) (h : ∀ t ∈ ts, EndsDark t) :
    EndsDark (Spec.joined sep ts) := by
  induction ts with
  | nil => exact absurd rfl hne
  | cons t ts ih =>
    cases ts with
    | nil => exact h t List.mem_cons_self
    | cons u us => exact EndsDark.append (ih (by simp) fun x hx => h x (List.mem_cons_of_mem _ hx))

theorem endsDark_equation {xs : List (Bytes × Bytes)} {ls : List Lit} (h : Equations xs ls) :
    ∀ t ∈ xs.map Spec.equation, EndsDark t := by
  intro t ht
  obtain ⟨x, hx, rfl⟩ := List.mem_map.1 ht
  obtain ⟨k1, l, -, k3, -⟩ := equations_mem h x hx
  exact (literal_dark _ _ (readsAs_literal k3)).append

theorem Shaped.dark {s : Bytes} {st : Stmt} (h : Shaped s st) :
    EndsDark s ∧ ∃ b t, s = b :: t ∧ Spec.isSpace b = false := by
  cases h with
  | @insert db tbl xs ls h1 h2 h hne => exact ⟨EndsDark.append ⟨[], 0x29, rfl, rfl⟩, 0x49, _, rfl, rfl⟩
  | @delete db tbl xs ls h1 h2 h hne =>
    exact ⟨(endsDark_joined _ _ (by simpa using hne) (endsDark_equation h)).append, 0x44, _, rfl, rfl⟩
  | @update db tbl xs ks ls ms h1 h2 h hne hk hkne =>
    exact ⟨(endsDark_joined _ _ (by simpa using hkne) (endsDark_equation hk)).append, 0x55, _, rfl, rfl⟩

/-! ### a statement with something after it -/

/-- the end of a value, or of a line -/
def EndsLine (r : Bytes) : Prop := Ends r ∨ ∃ r', r = 0x0a :: r'

theorem literal_line {t : Bytes} {l : Lit} (h : ReadsAs t l) (r : Bytes) (hr : EndsLine r) :
    Spec.literal (t ++ r) = some (l, r) := by
  rcases hr with hr | ⟨r', rfl⟩
  · exact h r hr
  · exact (literal_facts _ _ (readsAs_literal h)).2.2 r'

theorem equality_line (x : Bytes × Bytes) (l : Lit) (hx : 0x60 ∉ x.1) (h : ReadsAs x.2 l) (r : Bytes) (hr : EndsLine r) :
    Spec.equality (Spec.equation x ++ r) = some ((x.1, l), r) := by
  have e : Spec.equation x ++ r = Spec.tick x.1 ++ (Spec.ascii " = " ++ (x.2 ++ r)) := by
    simp only [Spec.equation, List.append_assoc]
  unfold Spec.equality
  rw [e, ident_tick x.1 _ hx (by show some (0x20 : UInt8) ≠ _; decide), Option.bind_some, strip_append, Option.bind_some,
    literal_line h r hr]
  rfl

theorem equations_line (sep : String) (tail : Bytes) (xs : List (Bytes × Bytes)) (ls : List Lit) (h : Equations xs ls)
    (hne : xs ≠ []) (hs : ∀ x, Ends (Spec.ascii sep ++ x)) (ht : EndsLine tail) (hn : strip (Spec.ascii sep) tail = none) :
    Spec.sepBy Spec.equality sep (Spec.joined sep (xs.map Spec.equation) ++ tail).length
      (Spec.joined sep (xs.map Spec.equation) ++ tail) = some ((xs.map (·.1)).zip ls, tail) := by
  have hall : List.Forall₂ (fun t a => ∀ r, EndsLine r → Spec.equality (t ++ r) = some (a, r)) (xs.map Spec.equation)
      ((xs.map (·.1)).zip ls) := by
    clear hne
    induction h with
    | nil => exact .nil
    | cons h1 _ ih => exact .cons (fun r hr => equality_line _ _ h1.1 h1.2 r hr) ih
  refine sepBy_joined Spec.equality sep EndsLine tail (fun x => Or.inl (hs x)) ht hn _ _ hall (by simpa using hne) _ ?_
  have := joined_length sep (xs.map Spec.equation) (by
    intro t ht
    obtain ⟨x, _, rfl⟩ := List.mem_map.1 ht
    simp [Spec.equation, Spec.tick, Spec.ascii])
  rw [List.length_append]; omega

/-- a server refuses a statement that has another line after it -/
theorem Shaped.more {s : Bytes} {st : Stmt} (h : Shaped s st) (r : Bytes) : Spec.parse (s ++ 0x0a :: r) = none := by
  cases h with
  | @insert db tbl xs ls h1 h2 h hne =>
    have e : Spec.insertText db tbl xs ++ 0x0a :: r = Spec.ascii "INSERT INTO " ++ (Spec.tick db ++ (Spec.ascii "." ++
        (Spec.tick tbl ++ (Spec.ascii " (" ++ (Spec.joined "," (xs.map (Spec.tick ·.1)) ++ (Spec.ascii ") VALUES (" ++
        (Spec.joined "," (xs.map (·.2)) ++ (Spec.ascii ")" ++ 0x0a :: r)))))))) := by
      simp only [Spec.insertText, List.append_assoc]
    have n1 : List.Forall₂ (fun t a => ∀ r : Bytes, r.head? ≠ some 0x60 → Spec.ident (t ++ r) = some (a, r))
        (xs.map (Spec.tick ·.1)) (xs.map (·.1)) := by
      clear hne e
      induction h with
      | nil => exact .nil
      | cons ha _ ih => exact .cons (fun r hr => ident_tick _ _ ha.1 hr) ih
    have n2 : List.Forall₂ (fun t a => ∀ r, Ends r → Spec.literal (t ++ r) = some (a, r)) (xs.map (·.2)) ls := by
      clear hne e n1
      induction h with
      | nil => exact .nil
      | cons ha _ ih => exact .cons (fun r hr => ha.2 r hr) ih
    have p1 := sepBy_joined Spec.ident "," (fun r => r.head? ≠ some 0x60) (Spec.ascii ") VALUES (" ++
      (Spec.joined "," (xs.map (·.2)) ++ (Spec.ascii ")" ++ 0x0a :: r))) (fun x => by show some (0x2c : UInt8) ≠ _; decide)
      (by show some (0x29 : UInt8) ≠ _; decide) rfl _ _ n1 (by simpa using hne)
      (Spec.joined "," (xs.map (Spec.tick ·.1)) ++ (Spec.ascii ") VALUES (" ++
          (Spec.joined "," (xs.map (·.2)) ++ (Spec.ascii ")" ++ 0x0a :: r)))).length (by
        have := joined_length "," (xs.map (Spec.tick ·.1)) (by
          intro t ht
          obtain ⟨x, _, rfl⟩ := List.mem_map.1 ht
          simp [Spec.tick, Spec.ascii])
        rw [List.length_append]; omega)
    have p2 := sepBy_joined Spec.literal "," Ends (Spec.ascii ")" ++ 0x0a :: r) ends_comma
      (Or.inr ⟨0x29, _, rfl, Or.inr (Or.inl rfl)⟩) rfl _ _ n2
      (by simpa using hne) (Spec.joined "," (xs.map (·.2)) ++ (Spec.ascii ")" ++ 0x0a :: r)).length (by
        have := joined_length "," (xs.map (·.2)) (by
          intro t ht
          obtain ⟨x, hx, rfl⟩ := List.mem_map.1 ht
          obtain ⟨-, l, -, k, -⟩ := equations_mem h x hx
          exact reads_ne_nil _ _ k)
        rw [List.length_append]; omega)
    have hp : Spec.parseInsert (Spec.insertText db tbl xs ++ 0x0a :: r) = none := by
      unfold Spec.parseInsert
      rw [e, strip_append, Option.bind_some, tableName_text db tbl _ h1 h2 (by show some (0x20 : UInt8) ≠ _; decide),
        Option.bind_some, strip_append, Option.bind_some, p1, Option.bind_some, strip_append, Option.bind_some, p2,
        Option.bind_some]
      dsimp only
      rw [if_neg]
      rintro ⟨hc, -⟩
      cases hc
    rw [Spec.parse, hp, e]; rfl
  | @delete db tbl xs ls h1 h2 h hne =>
    have e : Spec.deleteText db tbl xs ++ 0x0a :: r = Spec.ascii "DELETE FROM " ++ (Spec.tick db ++ (Spec.ascii "." ++
        (Spec.tick tbl ++ (Spec.ascii " WHERE " ++ (Spec.joined " AND " (xs.map Spec.equation) ++ 0x0a :: r))))) := by
      simp only [Spec.deleteText, List.append_assoc]
    have p1 := equations_line " AND " (0x0a :: r) xs ls h hne ends_and (Or.inr ⟨r, rfl⟩) rfl
    have hp : Spec.parseDelete (Spec.deleteText db tbl xs ++ 0x0a :: r) = none := by
      unfold Spec.parseDelete
      rw [e, strip_append, Option.bind_some, tableName_text db tbl _ h1 h2 (by show some (0x20 : UInt8) ≠ _; decide),
        Option.bind_some, strip_append, Option.bind_some, p1, Option.bind_some]
      dsimp only
      rw [if_neg (by simp)]
    rw [Spec.parse, hp, e]; rfl
  | @update db tbl xs ks ls ms h1 h2 h hne hk hkne =>
    have e : Spec.updateText db tbl xs ks ++ 0x0a :: r = Spec.ascii "UPDATE " ++ (Spec.tick db ++ (Spec.ascii "." ++
        (Spec.tick tbl ++ (Spec.ascii " SET " ++ (Spec.joined ", " (xs.map Spec.equation) ++ (Spec.ascii " WHERE " ++
        (Spec.joined " AND " (ks.map Spec.equation) ++ 0x0a :: r))))))) := by
      simp only [Spec.updateText, List.append_assoc]
    have p1 := equations_parse ", " (Spec.ascii " WHERE " ++ (Spec.joined " AND " (ks.map Spec.equation) ++ 0x0a :: r)) xs ls
      h hne ends_commaSpace (ends_where _) rfl
    have p2 := equations_line " AND " (0x0a :: r) ks ms hk hkne ends_and (Or.inr ⟨r, rfl⟩) rfl
    have hp : Spec.parseUpdate (Spec.updateText db tbl xs ks ++ 0x0a :: r) = none := by
      unfold Spec.parseUpdate
      rw [e, strip_append, Option.bind_some, tableName_text db tbl _ h1 h2 (by show some (0x20 : UInt8) ≠ _; decide),
        Option.bind_some, strip_append, Option.bind_some, p1, Option.bind_some, strip_append, Option.bind_some, p2,
        Option.bind_some]
      dsimp only
      rw [if_neg (by simp)]
    rw [Spec.parse, hp, e]; rfl

/-! ### the text as a whole -/

theorem readLines_cons (acc t rest : Bytes) (h : 0x0a ∉ t) :
    Spec.readLines acc (t ++ 0x0a :: rest) = (acc ++ t) :: Spec.readLines [] rest := by
  induction t generalizing acc with
  | nil => rw [List.nil_append, Spec.readLines, if_pos rfl, List.append_nil]
  | cons b t ih =>
    have hb : b ≠ 0x0a := by rintro rfl; exact h List.mem_cons_self
    rw [List.cons_append, Spec.readLines, if_neg hb, ih _ (fun e => h (List.mem_cons_of_mem _ e))]
    simp

theorem readLines_length (t rest : Bytes) : ∀ acc,
    (Spec.readLines acc (t ++ 0x0a :: rest)).length = t.count 0x0a + 1 + (Spec.readLines [] rest).length := by
  induction t with
  | nil =>
    intro acc
    rw [List.nil_append, Spec.readLines, if_pos rfl]
    simp; omega
  | cons b t ih =>
    intro acc
    rw [List.cons_append, Spec.readLines]
    split
    · rename_i hb
      rw [List.length_cons, ih, hb, List.count_cons_self]
      omega
    · rename_i hb
      rw [ih, List.count_cons_of_ne hb]

theorem dmlText_cons (l : DmlLine) (ls : List DmlLine) : dmlText (l :: ls) = l.text ++ 0x0a :: dmlText ls := by
  simp [dmlText]

theorem readLines_ge (ls : List DmlLine) : ls.length ≤ (Spec.readLines [] (dmlText ls)).length := by
  induction ls with
  | nil => simp
  | cons l ls ih =>
    rw [dmlText_cons, readLines_length, List.length_cons]
    omega

/-- C114 for readers of lines: reading the output line by line gives back the statements and notes, one in each line,
exactly if none of them has a newline in it. -/
theorem C114_lines_iff (ls : List DmlLine) :
    Spec.readLines [] (dmlText ls) = ls.map DmlLine.text ↔ ∀ l ∈ ls, 0x0a ∉ l.text := by
  induction ls with
  | nil => simp [dmlText, Spec.readLines]
  | cons l ls ih =>
    constructor
    · intro h
      have hlen := congrArg List.length h
      rw [dmlText_cons, readLines_length, List.map_cons, List.length_cons, List.length_map] at hlen
      have hge := readLines_ge ls
      have hz : List.count 0x0a l.text = 0 := by omega
      have hl := List.count_eq_zero.1 hz
      rw [dmlText_cons, readLines_cons _ _ _ hl, List.map_cons, List.nil_append] at h
      injection h with _ h
      intro x hx
      rcases List.mem_cons.1 hx with rfl | hx
      · exact hl
      · exact ih.1 h x hx
    · intro h
      rw [dmlText_cons, readLines_cons _ _ _ (h l List.mem_cons_self), ih.2 (fun x hx => h x (List.mem_cons_of_mem _ hx))]
      rfl

theorem joined_text (s : Bytes) (stmts : List Bytes) :
    dmlText ((s :: stmts).map .stmt) = Spec.joined "\n" (s :: stmts) ++ [0x0a] := by
  induction stmts generalizing s with
  | nil => simp [dmlText, DmlLine.text, Spec.joined]
  | cons u us ih =>
    have e : Spec.joined "\n" (s :: u :: us) = s ++ Spec.ascii "\n" ++ Spec.joined "\n" (u :: us) := by
      rw [Spec.joined]; simp
    rw [List.map_cons, dmlText_cons, ih, e]
    simp [DmlLine.text, Spec.ascii]

theorem dropWhile_dark (b : UInt8) (t : Bytes) (h : Spec.isSpace b = false) : (b :: t).dropWhile Spec.isSpace = b :: t := by
  rw [List.dropWhile_cons_of_neg (by rw [h]; simp)]

theorem trim_line (t : Bytes) (h : EndsDark t) (hb : ∃ b r, t = b :: r ∧ Spec.isSpace b = false) :
    Spec.trim (t ++ [0x0a]) = t := by
  obtain ⟨b, r, rfl, hb⟩ := hb
  obtain ⟨c, d, e, hd⟩ := h
  unfold Spec.trim
  rw [List.cons_append, dropWhile_dark b _ hb, ← List.cons_append, e]
  simp only [List.reverse_append, List.reverse_cons, List.reverse_nil, List.nil_append, List.singleton_append]
  rw [List.dropWhile_cons_of_pos (by rfl), dropWhile_dark d _ hd]
  simp

theorem sent_whole (stmts : List Bytes) (ss : List Stmt) (h : List.Forall₂ Shaped stmts ss) (hne : stmts ≠ []) :
    Spec.sent (dmlText (stmts.map .stmt)) = [Spec.joined "\n" stmts] := by
  obtain ⟨s, rest, rfl⟩ := List.exists_cons_of_ne_nil hne
  have hall : ∀ t ∈ s :: rest, ∃ st, Shaped t st := forall₂_mem_left h
  have hp : Passed (Spec.joined "\n" (s :: rest)) := passed_joined _ (by decide +kernel) _ fun t ht => by
    obtain ⟨st, h⟩ := hall t ht
    exact h.passed
  have hd : EndsDark (Spec.joined "\n" (s :: rest)) := endsDark_joined _ _ (by simp) fun t ht => by
    obtain ⟨st, h⟩ := hall t ht
    exact h.dark.1
  have hb : ∃ b r, Spec.joined "\n" (s :: rest) = b :: r ∧ Spec.isSpace b = false := by
    obtain ⟨st, h⟩ := hall s List.mem_cons_self
    obtain ⟨-, b, t, rfl, hb⟩ := h.dark
    cases rest with
    | nil => exact ⟨b, t, rfl, hb⟩
    | cons u us => exact ⟨b, _, rfl, hb⟩
  have hne' : Spec.joined "\n" (s :: rest) ≠ [] := by
    obtain ⟨b, r, e, -⟩ := hb
    rw [e]; simp
  unfold Spec.sent
  have := (hp.append (passed_byte 0x0a (by decide))) [] []
  rw [List.append_nil, List.nil_append] at this
  rw [joined_text, this, pieces]
  · rw [List.map_singleton, trim_line _ hd hb]
    simp [hne']

/-- the reader of lines gets the statements if they are single lines; the client gets a single statement -/
theorem shaped_read (stmts : List Bytes) (ss : List Stmt) (h : List.Forall₂ Shaped stmts ss) :
    ((∀ s ∈ ss, s.OneLine) → Spec.readLines [] (dmlText (stmts.map .stmt)) = stmts) ∧
    (stmts.length = 1 → Spec.sent (dmlText (stmts.map .stmt)) = stmts) := by
  constructor
  · intro hl
    rw [(C114_lines_iff _).2]
    · rw [List.map_map]
      exact List.map_id _
    · intro l hm
      obtain ⟨s, hs, rfl⟩ := List.mem_map.1 hm
      have key : ∀ (stmts : List Bytes) (ss : List Stmt), List.Forall₂ Shaped stmts ss → (∀ s ∈ ss, s.OneLine) →
          ∀ s ∈ stmts, 0x0a ∉ s := by
        intro stmts ss h
        induction h with
        | nil => intro _ s hs; cases hs
        | cons h1 _ ih =>
          intro hl s hs
          rcases List.mem_cons.1 hs with rfl | hs
          · exact h1.oneLine (hl _ List.mem_cons_self)
          · exact ih (fun x hx => hl x (List.mem_cons_of_mem _ hx)) s hs
      exact key stmts ss h hl s hs
  · intro hlen
    obtain ⟨s, rfl⟩ := List.length_eq_one_iff.1 hlen
    rw [sent_whole _ ss h (by simp), Spec.joined]

/-- what the client makes of two statements or more: a single one, which a server refuses -/
theorem shaped_refused (stmts : List Bytes) (ss : List Stmt) (h : List.Forall₂ Shaped stmts ss) (hlen : 2 ≤ stmts.length) :
    ∃ u, Spec.sent (dmlText (stmts.map .stmt)) = [u] ∧ Spec.parse u = none := by
  refine ⟨_, sent_whole stmts ss h (by rintro rfl; simp at hlen), ?_⟩
  rcases stmts with _ | ⟨s, _ | ⟨u, us⟩⟩
  · simp at hlen
  · simp at hlen
  · have e : Spec.joined "\n" (s :: u :: us) = s ++ 0x0a :: Spec.joined "\n" (u :: us) := by
      rw [Spec.joined]
      · simp [Spec.ascii]
      · simp
    rw [e]
    cases h with
    | cons h1 _ => exact h1.more _

theorem forall₂_of_map {α β γ δ : Type} {R : α → β → Prop} {S : α → γ → Prop} {T : β → δ → Prop} (g : γ → δ)
    (l : List α) (bs : List β) (cs : List γ) (h1 : List.Forall₂ R l bs) (h2 : List.Forall₂ S l cs)
    (h : ∀ a ∈ l, ∀ b c, R a b → S a c → T b (g c)) : List.Forall₂ T bs (cs.map g) := by
  induction h1 generalizing cs with
  | nil => cases h2; exact .nil
  | cons ha _ ih =>
    cases h2 with
    | cons hb h2 =>
      exact .cons (h _ List.mem_cons_self _ _ ha hb) (ih _ h2 (fun a ha => h a (List.mem_cons_of_mem _ ha)))

theorem insert_shaped (ft : FloatText) (db tbl extra bm : Bytes) (n : Nat) (present : List Bool)
    (defs : List ColumnDefinition) (rows : List (List BinlogColumnValue)) (lits : List (List Lit))
    (hc : Covers bm present) (hl : present.length = defs.length) (hf : Front present) (hone : true ∈ present)
    (hr : ∀ row ∈ rows, row.length = defs.length)
    (hdb : 0x60 ∉ db) (htbl : 0x60 ∉ tbl) (hnames : ∀ d ∈ defs, 0x60 ∉ d.name)
    (hw : List.Forall₂ (fun row ls => Written ft (logged present defs row) ls) rows lits) :
    ∃ p stmts, PreparedSql.fromInsert db tbl ⟨extra, n, bm, rows⟩ defs = some p ∧ p.sqlList ft = some stmts ∧
      List.Forall₂ Shaped stmts (lits.map fun ls => .insert db tbl (loggedNames (fun _ => true) present defs) ls) := by
  obtain ⟨p, stmts, h1, h2⟩ := C40_insert_total ft db tbl extra bm n present defs rows hc hl hf hr (by
    intro row hrow x hx
    obtain ⟨ls, hls⟩ := forall₂_mem_left hw row hrow
    exact written_text ft _ ls hls x hx)
  refine ⟨p, stmts, h1, h2, ?_⟩
  have h3 := C40_insert_partial ft db tbl extra bm n present defs rows p stmts hc hl hf hr h1 h2
  refine forall₂_of_map _ rows _ _ h3 hw ?_
  rintro row hrow stmt ls ⟨ts, ht, rfl⟩ hls
  have hn := logged_names (fun _ => true) present defs row hl (hr row hrow)
  rw [List.filter_eq_self.2 (fun _ _ => rfl)] at hn
  have hne : loggedNames (fun _ => true) present defs ≠ [] := by
    obtain ⟨i, hi, hb⟩ := List.getElem_of_mem hone
    have hm : (true, defs[i]'(by omega)) ∈ (present.zip defs).filter fun x => x.1 && (fun _ => true) x.2 := by
      rw [List.mem_filter]
      refine ⟨?_, rfl⟩
      rw [← hb]
      exact List.mem_iff_getElem.2 ⟨i, by simp; omega, by simp⟩
    intro hc
    have := List.map_eq_nil_iff.1 hc
    rw [this] at hm
    cases hm
  have := Shaped.insert hdb htbl (written_equations ft _ ls hls (fun x hx => hnames _ (logged_fst_mem _ _ _ x hx)) ts ht)
    (named_ne_nil ft _ ts ht (by rw [hn]; exact hne))
  rwa [named_names ft _ ts ht, hn] at this

theorem delete_shaped (ft : FloatText) (db tbl extra bm : Bytes) (n : Nat) (present : List Bool)
    (defs : List ColumnDefinition) (rows : List (List BinlogColumnValue)) (lits : List (List Lit))
    (hc : Covers bm present) (hl : present.length = defs.length) (hf : Front present)
    (hkey : loggedNames IsKey present defs ≠ [])
    (hr : ∀ row ∈ rows, row.length = defs.length)
    (hdb : 0x60 ∉ db) (htbl : 0x60 ∉ tbl) (hnames : ∀ d ∈ defs, 0x60 ∉ d.name)
    (hw : List.Forall₂ (fun row ls => Written ft ((logged present defs row).filter fun x => IsKey x.1) ls) rows lits) :
    ∃ p stmts, PreparedSql.fromDelete db tbl ⟨extra, n, bm, rows⟩ defs = some p ∧ p.sqlList ft = some stmts ∧
      List.Forall₂ Shaped stmts (lits.map fun ls => .delete db tbl ((loggedNames IsKey present defs).zip ls)) := by
  obtain ⟨p, stmts, h1, h2⟩ := C40_delete_total ft db tbl extra bm n present defs rows hc hl hf hr (by
    intro row hrow x hx hk
    obtain ⟨ls, hls⟩ := forall₂_mem_left hw row hrow
    exact written_text ft _ ls hls x (List.mem_filter.2 ⟨hx, hk⟩))
  refine ⟨p, stmts, h1, h2, ?_⟩
  have h3 := C40_delete_partial ft db tbl extra bm n present defs rows p stmts hc hl hf hr h1 h2
  refine forall₂_of_map _ rows _ _ h3 hw ?_
  rintro row hrow stmt ls ⟨ts, ht, rfl⟩ hls
  have hn := logged_names IsKey present defs row hl (hr row hrow)
  have := Shaped.delete hdb htbl (written_equations ft _ ls hls
    (fun x hx => hnames _ (logged_fst_mem _ _ _ x (List.mem_filter.1 hx).1)) ts ht)
    (named_ne_nil ft _ ts ht (by rw [hn]; exact hkey))
  rwa [named_names ft _ ts ht, hn] at this

theorem update_shaped (ft : FloatText) (db tbl extra bb ab : Bytes) (n : Nat) (before after : List Bool)
    (defs : List ColumnDefinition) (rows : List (List BinlogColumnValue × List BinlogColumnValue))
    (lits : List (List Lit × List Lit))
    (hb : Covers bb before) (hbl : before.length = defs.length) (hbf : Front before)
    (ha : Covers ab after) (hal : after.length = defs.length) (haf : Front after)
    (hkey : loggedNames IsKey before defs ≠ []) (hset : loggedNames (fun _ => true) after defs ≠ [])
    (hr : ∀ row ∈ rows, row.1.length = defs.length ∧ row.2.length = defs.length)
    (hdb : 0x60 ∉ db) (htbl : 0x60 ∉ tbl) (hnames : ∀ d ∈ defs, 0x60 ∉ d.name)
    (hw : List.Forall₂ (fun row ls => Written ft ((logged before defs row.1).filter fun x => IsKey x.1) ls.1 ∧
      Written ft (logged after defs row.2) ls.2) rows lits) :
    ∃ p stmts, PreparedSql.fromUpdate db tbl ⟨extra, n, bb, ab, rows⟩ defs = some p ∧ p.sqlList ft = some stmts ∧
      List.Forall₂ Shaped stmts (lits.map fun ls => .update db tbl
        ((loggedNames (fun _ => true) after defs).zip ls.2) ((loggedNames IsKey before defs).zip ls.1)) := by
  obtain ⟨p, stmts, h1, h2⟩ := C40_update_total ft db tbl extra bb ab n before after defs rows hb hbl hbf ha hal haf hr (by
    intro row hrow
    obtain ⟨ls, hls1, hls2⟩ := forall₂_mem_left hw row hrow
    exact ⟨fun x hx hk => written_text ft _ _ hls1 x (List.mem_filter.2 ⟨hx, hk⟩),
      fun x hx => written_text ft _ _ hls2 x hx⟩)
  refine ⟨p, stmts, h1, h2, ?_⟩
  have h3 := C40_update_partial ft db tbl extra bb ab n before after defs rows p stmts hb hbl hbf ha hal haf hr h1 h2
  refine forall₂_of_map _ rows _ _ h3 hw ?_
  rintro row hrow stmt ls ⟨ts, us, ht, hu, rfl⟩ ⟨hls1, hls2⟩
  have hn1 := logged_names IsKey before defs row.1 hbl (hr row hrow).1
  have hn2 := logged_names (fun _ => true) after defs row.2 hal (hr row hrow).2
  rw [List.filter_eq_self.2 (fun _ _ => rfl)] at hn2
  have := Shaped.update hdb htbl
    (written_equations ft _ _ hls2 (fun x hx => hnames _ (logged_fst_mem _ _ _ x hx)) ts ht)
    (named_ne_nil ft _ ts ht (by rw [hn2]; exact hset))
    (written_equations ft _ _ hls1 (fun x hx => hnames _ (logged_fst_mem _ _ _ x (List.mem_filter.1 hx).1)) us hu)
    (named_ne_nil ft _ us hu (by rw [hn1]; exact hkey))
  rwa [named_names ft _ ts ht, named_names ft _ us hu, hn1, hn2] at this

theorem shaped_parse {stmts : List Bytes} {α : Type} {f : α → Stmt} {lits : List α}
    (h : List.Forall₂ Shaped stmts (lits.map f)) : stmts.map Spec.parse = lits.map fun ls => some (f ls) := by
  induction lits generalizing stmts with
  | nil => cases h; rfl
  | cons a lits ih =>
    cases h with
    | cons h1 h2 => rw [List.map_cons, List.map_cons, h1.parse, ih h2]

theorem loggedNames_oneLine (use : ColumnDefinition → Bool) (present : List Bool) (defs : List ColumnDefinition)
    (h : ∀ d ∈ defs, 0x0a ∉ d.name) : ∀ c ∈ loggedNames use present defs, 0x0a ∉ c := by
  intro c hc
  unfold loggedNames at hc
  obtain ⟨x, hx, rfl⟩ := List.mem_map.1 hc
  exact h _ (List.of_mem_zip (List.mem_filter.1 hx).1).2

/-- C114 for inserted rows. The names and the values have no newline: each line printed is a statement, and they are
those that insert the rows, in order. If there is just one row, then the client, too, sends the statement printed.
(Partial: see the `_false` theorems for newlines, and for more rows with the client.) -/
theorem C114_insert_partial (ft : FloatText) (db tbl extra bm : Bytes) (n : Nat) (present : List Bool)
    (defs : List ColumnDefinition) (rows : List (List BinlogColumnValue)) (lits : List (List Lit))
    (hc : Covers bm present) (hl : present.length = defs.length) (hf : Front present) (hone : true ∈ present)
    (hr : ∀ row ∈ rows, row.length = defs.length)
    (hdb : 0x60 ∉ db) (htbl : 0x60 ∉ tbl) (hnames : ∀ d ∈ defs, 0x60 ∉ d.name)
    (hw : List.Forall₂ (fun row ls => Written ft (logged present defs row) ls) rows lits)
    (hdb' : 0x0a ∉ db) (htbl' : 0x0a ∉ tbl) (hnames' : ∀ d ∈ defs, 0x0a ∉ d.name)
    (hlits : ∀ ls ∈ lits, ∀ l ∈ ls, l.OneLine) :
    ∃ ls, sqlLines ft (PreparedSql.fromInsert db tbl ⟨extra, n, bm, rows⟩ defs) = .ok ls [] ∧
      (Spec.readLines [] (dmlText ls)).map Spec.parse =
        lits.map (fun ls => some (.insert db tbl (loggedNames (fun _ => true) present defs) ls)) ∧
      (rows.length = 1 → (Spec.sent (dmlText ls)).map Spec.parse =
        lits.map (fun ls => some (.insert db tbl (loggedNames (fun _ => true) present defs) ls))) := by
  obtain ⟨p, stmts, h1, h2, h3⟩ := insert_shaped ft db tbl extra bm n present defs rows lits hc hl hf hone hr hdb htbl hnames hw
  obtain ⟨k1, k2⟩ := shaped_read _ _ h3
  refine ⟨stmts.map .stmt, by rw [h1]; simp [sqlLines, h2], ?_, ?_⟩
  · rw [k1, shaped_parse h3]
    intro s hs
    obtain ⟨ls, hls, rfl⟩ := List.mem_map.1 hs
    exact ⟨hdb', htbl', loggedNames_oneLine _ _ _ hnames', hlits ls hls⟩
  · intro hlen
    rw [k2 (by rw [h3.length_eq, List.length_map, ← hw.length_eq, hlen]), shaped_parse h3]

/-- C114 for deleted rows -/
theorem C114_delete_partial (ft : FloatText) (db tbl extra bm : Bytes) (n : Nat) (present : List Bool)
    (defs : List ColumnDefinition) (rows : List (List BinlogColumnValue)) (lits : List (List Lit))
    (hc : Covers bm present) (hl : present.length = defs.length) (hf : Front present)
    (hkey : loggedNames IsKey present defs ≠ [])
    (hr : ∀ row ∈ rows, row.length = defs.length)
    (hdb : 0x60 ∉ db) (htbl : 0x60 ∉ tbl) (hnames : ∀ d ∈ defs, 0x60 ∉ d.name)
    (hw : List.Forall₂ (fun row ls => Written ft ((logged present defs row).filter fun x => IsKey x.1) ls) rows lits)
    (hdb' : 0x0a ∉ db) (htbl' : 0x0a ∉ tbl) (hnames' : ∀ d ∈ defs, 0x0a ∉ d.name)
    (hlits : ∀ ls ∈ lits, ∀ l ∈ ls, l.OneLine) :
    ∃ ls, sqlLines ft (PreparedSql.fromDelete db tbl ⟨extra, n, bm, rows⟩ defs) = .ok ls [] ∧
      (Spec.readLines [] (dmlText ls)).map Spec.parse =
        lits.map (fun ls => some (.delete db tbl ((loggedNames IsKey present defs).zip ls))) ∧
      (rows.length = 1 → (Spec.sent (dmlText ls)).map Spec.parse =
        lits.map (fun ls => some (.delete db tbl ((loggedNames IsKey present defs).zip ls)))) := by
  obtain ⟨p, stmts, h1, h2, h3⟩ := delete_shaped ft db tbl extra bm n present defs rows lits hc hl hf hkey hr hdb htbl hnames hw
  obtain ⟨k1, k2⟩ := shaped_read _ _ h3
  refine ⟨stmts.map .stmt, by rw [h1]; simp [sqlLines, h2], ?_, ?_⟩
  · rw [k1, shaped_parse h3]
    intro s hs
    obtain ⟨ls, hls, rfl⟩ := List.mem_map.1 hs
    refine ⟨hdb', htbl', ?_⟩
    rintro ⟨c, l⟩ hm
    have := List.of_mem_zip hm
    exact ⟨loggedNames_oneLine _ _ _ hnames' _ this.1, hlits ls hls _ this.2⟩
  · intro hlen
    rw [k2 (by rw [h3.length_eq, List.length_map, ← hw.length_eq, hlen]), shaped_parse h3]

/-- C114 for updated rows -/
theorem C114_update_partial (ft : FloatText) (db tbl extra bb ab : Bytes) (n : Nat) (before after : List Bool)
    (defs : List ColumnDefinition) (rows : List (List BinlogColumnValue × List BinlogColumnValue))
    (lits : List (List Lit × List Lit))
    (hb : Covers bb before) (hbl : before.length = defs.length) (hbf : Front before)
    (ha : Covers ab after) (hal : after.length = defs.length) (haf : Front after)
    (hkey : loggedNames IsKey before defs ≠ []) (hset : loggedNames (fun _ => true) after defs ≠ [])
    (hr : ∀ row ∈ rows, row.1.length = defs.length ∧ row.2.length = defs.length)
    (hdb : 0x60 ∉ db) (htbl : 0x60 ∉ tbl) (hnames : ∀ d ∈ defs, 0x60 ∉ d.name)
    (hw : List.Forall₂ (fun row ls => Written ft ((logged before defs row.1).filter fun x => IsKey x.1) ls.1 ∧
      Written ft (logged after defs row.2) ls.2) rows lits)
    (hdb' : 0x0a ∉ db) (htbl' : 0x0a ∉ tbl) (hnames' : ∀ d ∈ defs, 0x0a ∉ d.name)
    (hlits : ∀ ls ∈ lits, (∀ l ∈ ls.1, l.OneLine) ∧ ∀ l ∈ ls.2, l.OneLine) :
    ∃ ls, sqlLines ft (PreparedSql.fromUpdate db tbl ⟨extra, n, bb, ab, rows⟩ defs) = .ok ls [] ∧
      (Spec.readLines [] (dmlText ls)).map Spec.parse =
        lits.map (fun ls => some (.update db tbl ((loggedNames (fun _ => true) after defs).zip ls.2)
          ((loggedNames IsKey before defs).zip ls.1))) ∧
      (rows.length = 1 → (Spec.sent (dmlText ls)).map Spec.parse =
        lits.map (fun ls => some (.update db tbl ((loggedNames (fun _ => true) after defs).zip ls.2)
          ((loggedNames IsKey before defs).zip ls.1)))) := by
  obtain ⟨p, stmts, h1, h2, h3⟩ := update_shaped ft db tbl extra bb ab n before after defs rows lits hb hbl hbf ha hal haf
    hkey hset hr hdb htbl hnames hw
  obtain ⟨k1, k2⟩ := shaped_read _ _ h3
  refine ⟨stmts.map .stmt, by rw [h1]; simp [sqlLines, h2], ?_, ?_⟩
  · rw [k1, shaped_parse h3]
    intro s hs
    obtain ⟨ls, hls, rfl⟩ := List.mem_map.1 hs
    refine ⟨hdb', htbl', ?_, ?_⟩
    · rintro ⟨c, l⟩ hm
      have := List.of_mem_zip hm
      exact ⟨loggedNames_oneLine _ _ _ hnames' _ this.1, (hlits ls hls).2 _ this.2⟩
    · rintro ⟨c, l⟩ hm
      have := List.of_mem_zip hm
      exact ⟨loggedNames_oneLine _ _ _ hnames' _ this.1, (hlits ls hls).1 _ this.2⟩
  · intro hlen
    rw [k2 (by rw [h3.length_eq, List.length_map, ← hw.length_eq, hlen]), shaped_parse h3]

/-- C114 fails with the client for every event of two inserted rows or more: nothing printed ends a statement, so the
client sends all of it as a single one, which a server refuses. -/
theorem C114_insert_client_false (ft : FloatText) (db tbl extra bm : Bytes) (n : Nat) (present : List Bool)
    (defs : List ColumnDefinition) (rows : List (List BinlogColumnValue)) (lits : List (List Lit))
    (hc : Covers bm present) (hl : present.length = defs.length) (hf : Front present) (hone : true ∈ present)
    (hr : ∀ row ∈ rows, row.length = defs.length)
    (hdb : 0x60 ∉ db) (htbl : 0x60 ∉ tbl) (hnames : ∀ d ∈ defs, 0x60 ∉ d.name)
    (hw : List.Forall₂ (fun row ls => Written ft (logged present defs row) ls) rows lits) (hlen : 2 ≤ rows.length) :
    ∃ ls u, sqlLines ft (PreparedSql.fromInsert db tbl ⟨extra, n, bm, rows⟩ defs) = .ok ls [] ∧
      Spec.sent (dmlText ls) = [u] ∧ Spec.parse u = none := by
  obtain ⟨p, stmts, h1, h2, h3⟩ := insert_shaped ft db tbl extra bm n present defs rows lits hc hl hf hone hr hdb htbl hnames hw
  obtain ⟨u, k1, k2⟩ := shaped_refused _ _ h3 (by rw [h3.length_eq, List.length_map, ← hw.length_eq]; exact hlen)
  exact ⟨stmts.map .stmt, u, by rw [h1]; simp [sqlLines, h2], k1, k2⟩

/-- the same of every output that consists of two statements or more, of whichever kinds and events -/
theorem C114_client_false (stmts : List Bytes) (ss : List Stmt) (h : List.Forall₂ Shaped stmts ss)
    (hlen : 2 ≤ stmts.length) : ∃ u, Spec.sent (dmlText (stmts.map .stmt)) = [u] ∧ Spec.parse u = none :=
  shaped_refused stmts ss h hlen

/-! ### notes -/

theorem pieces_comment (t acc rest : Bytes) (h : 0x0a ∉ t) :
    pieces .comment acc (t ++ 0x0a :: rest) = pieces .plain (acc ++ [0x0a]) rest := by
  induction t with
  | nil => rw [List.nil_append, pieces, if_pos rfl]
  | cons b t ih =>
    have hb : b ≠ 0x0a := by rintro rfl; exact h List.mem_cons_self
    rw [List.cons_append, pieces, if_neg hb, ih (fun e => h (List.mem_cons_of_mem _ e))]

/-- of a note without a newline in its names nothing is left but the end of its line -/
theorem pieces_note (db tbl : Bytes) (pos : Nat) (hd : 0x0a ∉ db) (ht : 0x0a ∉ tbl) (acc rest : Bytes) :
    pieces .plain acc ((DmlLine.note db tbl pos).text ++ 0x0a :: rest) = pieces .plain (acc ++ [0x0a]) rest := by
  have e : (DmlLine.note db tbl pos).text ++ 0x0a :: rest = 0x2d :: ((asc "- Cannot generate update SQL for table " ++ db ++
      asc "." ++ tbl ++ asc " because no key column found. next_offset=" ++ natText pos) ++ 0x0a :: rest) := by
    simp only [DmlLine.text, List.append_assoc]
    rfl
  rw [e, pieces, if_neg (by decide), if_neg (by decide), if_pos, pieces_comment]
  · simp only [List.mem_append, not_or]
    refine ⟨⟨⟨⟨⟨by decide, hd⟩, by decide⟩, ht⟩, by decide⟩, ?_⟩
    intro hm
    have := natText_digits pos 0x0a hm
    revert this; decide
  · rfl

/-- the names in the notes have no newline -/
def CleanNotes (ls : List DmlLine) : Prop := ∀ db tbl pos, DmlLine.note db tbl pos ∈ ls → 0x0a ∉ db ∧ 0x0a ∉ tbl

theorem pieces_notes (ls : List DmlLine) (h : CleanNotes ls) (hs : statements ls = 0) : ∀ acc rest,
    pieces .plain acc (dmlText ls ++ rest) = pieces .plain (acc ++ List.replicate ls.length 0x0a) rest := by
  induction ls with
  | nil => intro acc rest; simp [dmlText]
  | cons l ls ih =>
    intro acc rest
    cases l with
    | stmt s => simp at hs
    | note db tbl pos =>
      obtain ⟨h1, h2⟩ := h db tbl pos List.mem_cons_self
      rw [dmlText_cons, List.append_assoc, List.cons_append, pieces_note db tbl pos h1 h2,
        ih (fun d t p hm => h d t p (List.mem_cons_of_mem _ hm)) (by simpa using hs)]
      simp [List.replicate_succ]

theorem trim_spaces (n m : Nat) (s : Bytes) (h : EndsDark s) (hb : ∃ b r, s = b :: r ∧ Spec.isSpace b = false) :
    Spec.trim (List.replicate n 0x0a ++ s ++ List.replicate m 0x0a) = s := by
  obtain ⟨b, r, rfl, hb⟩ := hb
  obtain ⟨c, d, e, hd⟩ := h
  have h1 : ∀ (n : Nat) (t : Bytes), (List.replicate n (0x0a : UInt8) ++ t).dropWhile Spec.isSpace = t.dropWhile Spec.isSpace := by
    intro n
    induction n with
    | zero => intro t; rfl
    | succ n ih =>
      intro t
      rw [List.replicate_succ, List.cons_append, List.dropWhile_cons_of_pos (by rfl), ih]
  unfold Spec.trim
  rw [List.append_assoc, h1, List.cons_append, dropWhile_dark b _ hb, ← List.cons_append, e, List.reverse_append,
    List.reverse_replicate, h1]
  simp only [List.reverse_append, List.reverse_cons, List.reverse_nil, List.nil_append, List.singleton_append]
  rw [dropWhile_dark d _ hd]
  simp

/-- C114 for notes: if the names in them have no newline, then the client sends nothing for them: of an output with at
most one statement among the notes it sends that statement, as it was printed. (`C80` says which statements are meant by
`Shaped`, see `insert_shaped`, `delete_shaped` and `update_shaped`.) -/
theorem C114_notes (before after : List DmlLine) (h1 : CleanNotes before) (h2 : CleanNotes after)
    (hb : statements before = 0) (ha : statements after = 0) :
    Spec.sent (dmlText before) = [] ∧
    ∀ s st, Shaped s st → Spec.sent (dmlText (before ++ .stmt s :: after)) = [s] := by
  constructor
  · have := pieces_notes before h1 hb [] []
    rw [List.append_nil, List.nil_append] at this
    unfold Spec.sent
    rw [this, pieces]
    have ht : Spec.trim (List.replicate before.length 0x0a) = [] := by
      generalize before.length = n
      unfold Spec.trim
      have : (List.replicate n (0x0a : UInt8)).dropWhile Spec.isSpace = [] := by
        induction n with
        | zero => rfl
        | succ n ih => rw [List.replicate_succ, List.dropWhile_cons_of_pos (by rfl), ih]
      rw [this]; rfl
    simp [ht]
  · intro s st hs
    have e : dmlText (before ++ .stmt s :: after) = dmlText before ++ (s ++ ([0x0a] ++ (dmlText after ++ []))) := by
      simp [dmlText, DmlLine.text]
    unfold Spec.sent
    rw [e, pieces_notes before h1 hb, hs.passed, passed_byte 0x0a (by decide), pieces_notes after h2 ha, pieces]
    have ht := trim_spaces before.length (after.length + 1) s hs.dark.1 hs.dark.2
    have hne : s ≠ [] := by
      obtain ⟨-, b, t, rfl, -⟩ := hs.dark
      simp
    rw [List.map_singleton]
    have e2 : ([] ++ List.replicate before.length 0x0a ++ s ++ [0x0a] ++ List.replicate after.length 0x0a : Bytes)
        = List.replicate before.length 0x0a ++ s ++ List.replicate (after.length + 1) 0x0a := by
      simp [List.replicate_succ]
    rw [e2, ht]
    simp [hne]

/-- C114: the text of a note: the table and the position it is about -/
theorem C114_note_text (db tbl : Bytes) (pos : Nat) : ∃ t, Spec.Numeral t pos ∧
    (DmlLine.note db tbl pos).text = Spec.ascii "-- Cannot generate update SQL for table " ++ db ++ Spec.ascii "." ++ tbl ++
      Spec.ascii " because no key column found. next_offset=" ++ t :=
  ⟨natText pos, numeral_natText pos, rfl⟩

/-! ### cases -/

/-- the hypotheses hold of two rows with an INT key and an INT -/
example (ft : FloatText) :
    Covers [3] [true, true] ∧ Front [true, true] ∧
    List.Forall₂ (fun row ls => Written ft (logged [true, true] exampleCols row) ls)
      [[.long 7, .long 0xffffffff], [.long 7, .long 0xffffffff]]
      [[.number 7 0, .number (-1) 0], [.number 7 0, .number (-1) 0]] ∧
    (∀ d ∈ exampleCols, (0x60 : UInt8) ∉ d.name) ∧ (∀ d ∈ exampleCols, (0x0a : UInt8) ∉ d.name) ∧
    (∀ l ∈ [Lit.number 7 0, .number (-1) 0], l.OneLine) := by
  have h : Written ft (logged [true, true] exampleCols [.long 7, .long 0xffffffff]) [.number 7 0, .number (-1) 0] := by
    refine .cons ?_ (.cons ?_ .nil)
    · exact ⟨.newInt 7, Spec.ascii "7", false, rfl, rfl,
        fun tail ht => literal_natText 7 tail (apart_of_ends tail ht)⟩
    · exact ⟨.newInt (-1), Spec.ascii "-1", false, rfl, rfl,
        fun tail ht => by
          rw [show Spec.quotedIf false (Spec.ascii "-1") = intText (-1) by decide +kernel]
          exact literal_intText (-1) tail (apart_of_ends tail ht)⟩
  refine ⟨covers_of _ _ rfl (by decide +kernel), ?_, .cons h (.cons h .nil), by decide +kernel, by decide +kernel,
    by simp [Spec.Lit.OneLine]⟩
  intro i j hij hj
  have : j < 2 := by
    by_contra hc
    rw [List.getElem?_eq_none (by simp; omega)] at hj
    cases hj
  obtain rfl : i = 0 := by omega
  rfl

/-- what the two readers make of two statements -/
example :
    let out := dmlText [.stmt (asc "INSERT INTO `d`.`t` (`id`) VALUES (7)"), .stmt (asc "INSERT INTO `d`.`t` (`id`) VALUES (8)")]
    Spec.readLines [] out = [asc "INSERT INTO `d`.`t` (`id`) VALUES (7)", asc "INSERT INTO `d`.`t` (`id`) VALUES (8)"] ∧
    Spec.sent out = [asc "INSERT INTO `d`.`t` (`id`) VALUES (7)\nINSERT INTO `d`.`t` (`id`) VALUES (8)"] ∧
    (Spec.sent out).map Spec.parse = [none] := by
  decide +kernel

/-- the client is not to blame: with a semicolon after each statement it sends them one by one -/
example : Spec.sent (asc "INSERT INTO `d`.`t` (`id`) VALUES (';');\nINSERT INTO `d`.`t` (`id`) VALUES (8);\n")
    = [asc "INSERT INTO `d`.`t` (`id`) VALUES (';')", asc "INSERT INTO `d`.`t` (`id`) VALUES (8)"] := by
  decide +kernel

/-- C114 fails with a reader of lines for a value with a newline: it is printed as such, and neither of the two lines
is a statement. -/
theorem C114_newline_false (ft : FloatText) :
    ∃ ls, sqlLines ft (PreparedSql.fromInsert (asc "d") (asc "t") ⟨[], 1, [1], [[.varString (asc "a\nb")]]⟩ [exampleCol "s" 0])
      = .ok ls [] ∧ Spec.readLines [] (dmlText ls) = [Spec.ascii "INSERT INTO `d`.`t` (`s`) VALUES ('a", Spec.ascii "b')"] ∧
      (Spec.readLines [] (dmlText ls)).map Spec.parse = [none, none] :=
  ⟨[.stmt (asc "INSERT INTO `d`.`t` (`s`) VALUES ('a\nb')")], by
    have e : PreparedSql.fromInsert (asc "d") (asc "t") ⟨[], 1, [1], [[.varString (asc "a\nb")]]⟩ [exampleCol "s" 0]
      = some ⟨asc "d", [asc "INSERT INTO `d`.`t` (`s`) VALUES (", asc "?", asc ")"], [[.newVarstring (asc "a\nb")]]⟩ := by
        decide +kernel
    rw [e]; rfl, by decide +kernel, by decide +kernel⟩

/-- the payload of an update event with one row of one INT column: 1 before and 2 after the change -/
def exampleUpdate : RowsDataV2 := ⟨5, 1, 2, [1, 1, 1, 0, 1, 0, 0, 0, 0, 2, 0, 0, 0]⟩

/-- a table without a key, whose name has a newline in it and a statement after that -/
def trickyTable : TableMeta :=
  ⟨asc "d", asc "t\nDELETE FROM `d`.`u` WHERE `id` = 1;", [.long], [exampleCol "a" 0]⟩

/-- C114 fails for notes: they are to be comments, but the name of a table is printed in them as it is, and the client
sends, and a server executes, what stands after a newline in it. -/
theorem C114_note_false (ft : FloatText) :
    ∃ ls, updateLines ft 4 trickyTable exampleUpdate = .ok ls [] ∧ statements ls = 0 ∧
      (Spec.sent (dmlText ls)).head?.map Spec.parse
        = some (some (.delete (Spec.ascii "d") (Spec.ascii "u") [(Spec.ascii "id", .number 1 0)])) :=
  ⟨[.note (asc "d") (asc "t\nDELETE FROM `d`.`u` WHERE `id` = 1;") 4], by
    have e : UpdateRowsV2.readFrom 2 [.long] [1, 1, 1, 0, 1, 0, 0, 0, 0, 2, 0, 0, 0]
      = .ok ⟨[], 1, [1], [1], [([.long 1], [.long 2])]⟩ [] := by decide +kernel
    simp only [updateLines, exampleUpdate, trickyTable, e]
    rfl, by decide +kernel, by decide +kernel⟩

end Mybin
