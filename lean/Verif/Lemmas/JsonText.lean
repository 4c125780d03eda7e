/-
How the specification's reader of JSON texts reads what the library writes.
-/
import Verif.Model.JsonText
import Verif.Spec.JsonText
import Verif.Lemmas.Literal
import Mathlib.Data.List.TakeWhile

namespace Mybin

open Spec (JValue jsonSpace jsonString jsonChar jsonUnicode jsonAt jsonElements jsonMembers jsonNumber jsonUnsigned
  jsonFraction jsonExponent jsonExpDigits digitsOf hex4 hexFour jsonWord jsonEscape utf8Point)

/-! ### the bound on the number of calls -/

theorem jsonSpace_le (s : Bytes) : (jsonSpace s).length ≤ s.length := by
  induction s with
  | nil => simp [jsonSpace]
  | cons b t ih =>
    unfold jsonSpace
    split
    · simp only [List.length_cons]; omega
    · exact le_refl _

theorem jsonString_shorter : ∀ (n : Nat) (s : Bytes), s.length ≤ n → ∀ x r, jsonString s = some (x, r) → r.length < s.length := by
  intro n
  induction n with
  | zero =>
    intro s hs x r h
    obtain rfl : s = [] := List.length_eq_zero_iff.1 (by omega)
    rw [jsonString] at h
    simp [jsonChar] at h
  | succ n ih =>
    intro s hs x r h
    rw [jsonString] at h
    split at h
    · rename_i h0
      cases h
      cases s with
      | nil => simp at h0
      | cons b t => simp
    · split at h
      · cases h
      · rename_i y t hc
        split at h
        · rename_i hl
          rw [Option.map_eq_some_iff] at h
          obtain ⟨⟨z, r'⟩, h1, h2⟩ := h
          cases h2
          have := ih t (by omega) z r h1
          omega
        · cases h

theorem digitsOf_append (s : Bytes) : s = (digitsOf s).1 ++ (digitsOf s).2 := by
  unfold digitsOf
  rw [List.span_eq_takeWhile_dropWhile]
  exact (List.takeWhile_append_dropWhile).symm

theorem digitsOf_length (s : Bytes) : (digitsOf s).2.length = s.length - (digitsOf s).1.length := by
  have := congrArg List.length (digitsOf_append s)
  rw [List.length_append] at this
  omega

/-- the characters of numbers -/
def NumberChars (t : Bytes) : Prop := ∀ b ∈ t, 0x2b ≤ b ∧ b ≤ 0x65

theorem NumberChars.append {s t : Bytes} (hs : NumberChars s) (ht : NumberChars t) : NumberChars (s ++ t) := by
  intro b hb
  rcases List.mem_append.1 hb with h | h
  · exact hs b h
  · exact ht b h

theorem NumberChars.nil : NumberChars [] := by intro b hb; cases hb

theorem NumberChars.cons {b : UInt8} {t : Bytes} (hb : 0x2b ≤ b ∧ b ≤ 0x65) (ht : NumberChars t) : NumberChars (b :: t) := by
  intro c hc
  rcases List.mem_cons.1 hc with rfl | h
  · exact hb
  · exact ht c h

theorem digitsOf_chars (s : Bytes) : NumberChars (digitsOf s).1 := by
  intro b hb
  unfold digitsOf at hb
  rw [List.span_eq_takeWhile_dropWhile] at hb
  have h := List.mem_takeWhile_imp hb
  simp only [Bool.and_eq_true, decide_eq_true_eq, UInt8.le_iff_toNat_le, UInt8.toNat_ofNat] at h ⊢
  omega

theorem jsonFraction_front (s : Bytes) (f : Option Bytes) (r : Bytes) (h : jsonFraction s = some (f, r)) :
    ∃ t, s = t ++ r ∧ NumberChars t := by
  unfold jsonFraction at h
  split at h
  · rename_i t
    split at h
    · cases h
    · cases h
      refine ⟨0x2e :: (digitsOf t).1, ?_, .cons (by decide) (digitsOf_chars t)⟩
      rw [List.cons_append, ← digitsOf_append]
  · cases h
    exact ⟨[], rfl, .nil⟩

theorem jsonExpDigits_front (neg : Bool) (s : Bytes) (e : Option (Bool × Bytes)) (r : Bytes)
    (h : jsonExpDigits neg s = some (e, r)) : ∃ t, s = t ++ r ∧ NumberChars t := by
  unfold jsonExpDigits at h
  split at h
  · cases h
  · cases h
    exact ⟨(digitsOf s).1, digitsOf_append s, digitsOf_chars s⟩

theorem jsonExponent_front (s : Bytes) (e : Option (Bool × Bytes)) (r : Bytes)
    (h : jsonExponent s = some (e, r)) : ∃ t, s = t ++ r ∧ NumberChars t := by
  unfold jsonExponent at h
  split at h
  · rename_i b t
    split at h
    · rename_i hb
      have hb : 0x2b ≤ b ∧ b ≤ 0x65 := by rcases hb with rfl | rfl <;> decide
      split at h <;> obtain ⟨t, rfl, ht⟩ := jsonExpDigits_front _ _ _ _ h
      · exact ⟨b :: 0x2b :: t, rfl, .cons hb (.cons (by decide) ht)⟩
      · exact ⟨b :: 0x2d :: t, rfl, .cons hb (.cons (by decide) ht)⟩
      · exact ⟨b :: t, rfl, .cons hb ht⟩
    · cases h
      exact ⟨[], rfl, .nil⟩
  · cases h
    exact ⟨[], rfl, .nil⟩

theorem jsonUnsigned_front (neg : Bool) (s : Bytes) (v : JValue) (r : Bytes) (h : jsonUnsigned neg s = some (v, r)) :
    ∃ b t, s = b :: t ++ r ∧ NumberChars (b :: t) ∧ 0x30 ≤ b ∧ b ≤ 0x39 := by
  unfold jsonUnsigned at h
  split at h
  · cases h
  · rename_i hd
    split at h
    · cases h
    · rw [Option.bind_eq_some_iff] at h
      obtain ⟨⟨f, r1⟩, h1, h⟩ := h
      rw [Option.map_eq_some_iff] at h
      obtain ⟨⟨e, r2⟩, h2, h⟩ := h
      cases h
      obtain ⟨t1, e1, c1⟩ := jsonFraction_front _ _ _ h1
      obtain ⟨t2, e2, c2⟩ := jsonExponent_front _ _ _ h2
      have e0 := digitsOf_append s
      have c0 := digitsOf_chars s
      cases hh : (digitsOf s).1 with
      | nil => exact absurd hh hd
      | cons b t =>
        have hb : b ∈ (digitsOf s).1 := by rw [hh]; simp
        rw [e1, e2, hh] at e0
        rw [hh] at c0
        refine ⟨b, t ++ (t1 ++ t2), by rw [e0]; simp, ?_, ?_⟩
        · rw [← List.cons_append]; exact c0.append (c1.append c2)
        · unfold digitsOf at hb
          rw [List.span_eq_takeWhile_dropWhile] at hb
          have h := List.mem_takeWhile_imp hb
          simpa using h

/-- a number begins with a digit or a minus sign, and consists of number characters -/
theorem jsonNumber_front (s : Bytes) (v : JValue) (r : Bytes) (h : jsonNumber s = some (v, r)) :
    ∃ b t, s = b :: t ++ r ∧ NumberChars (b :: t) ∧ (b = 0x2d ∨ (0x30 ≤ b ∧ b ≤ 0x39)) := by
  unfold jsonNumber at h
  split at h
  · obtain ⟨b, t, rfl, hc, -⟩ := jsonUnsigned_front _ _ _ _ h
    exact ⟨0x2d, b :: t, rfl, .cons (by decide) hc, .inl rfl⟩
  · obtain ⟨b, t, rfl, hc, hb⟩ := jsonUnsigned_front _ _ _ _ h
    exact ⟨b, t, rfl, hc, .inr hb⟩

theorem jsonWord_shorter (w : Bytes) (hw : w ≠ []) (x : JValue) (s : Bytes) (v : JValue) (r : Bytes)
    (h : jsonWord w x s = some (v, r)) : r.length < s.length := by
  unfold jsonWord at h
  split at h
  · rename_i he
    cases h
    have := congrArg List.length he
    rw [List.length_take] at this
    have hw : 0 < w.length := List.length_pos_iff.2 hw
    rw [List.length_drop]
    omega
  · cases h

theorem tail_shorter {s : Bytes} {b : UInt8} (h : s.head? = some b) : s.tail.length + 1 = s.length := by
  cases s with
  | nil => cases h
  | cons c t => rfl

theorem json_enough (f : Nat) :
    (∀ s v r, jsonAt f s = some (v, r) → r.length < s.length ∧ ∀ g, 2 * s.length ≤ g → jsonAt g s = some (v, r)) ∧
    (∀ s v r, jsonElements f s = some (v, r) → r.length < s.length ∧
      ∀ g, 2 * s.length + 1 ≤ g → jsonElements g s = some (v, r)) ∧
    (∀ s v r, jsonMembers f s = some (v, r) → r.length < s.length ∧
      ∀ g, 2 * s.length + 1 ≤ g → jsonMembers g s = some (v, r)) := by
  induction f with
  | zero => refine ⟨?_, ?_, ?_⟩ <;> intro s v r h <;> simp [jsonAt, jsonElements, jsonMembers] at h
  | succ f ih =>
    obtain ⟨ihA, ihE, ihM⟩ := ih
    refine ⟨?_, ?_, ?_⟩
    · intro s v r h
      cases s with
      | nil => simp [jsonAt] at h
      | cons b t =>
        have key : r.length < t.length + 1 ∧ ∀ g, 2 * t.length + 1 ≤ g → jsonAt (g + 1) (b :: t) = some (v, r) := by
          have hl := jsonSpace_le t
          rw [jsonAt] at h
          simp only [jsonAt]
          split at h
          · rename_i hb
            rw [Option.map_eq_some_iff] at h
            obtain ⟨⟨x, r'⟩, h1, h2⟩ := h
            cases h2
            have := jsonString_shorter _ t (le_refl _) x r h1
            exact ⟨by omega, fun g hg => by rw [if_pos hb, h1, Option.map_some]⟩
          · rename_i hb0
            simp only [if_neg hb0]
            split at h
            · rename_i hb
              simp only [if_pos hb]
              split at h
              · rename_i hh
                cases h
                have := tail_shorter hh
                exact ⟨by omega, fun g hg => by rw [if_pos hh]⟩
              · rename_i hh
                rw [Option.map_eq_some_iff] at h
                obtain ⟨⟨x, r'⟩, h1, h2⟩ := h
                cases h2
                obtain ⟨h3, h4⟩ := ihE _ _ _ h1
                exact ⟨by omega, fun g hg => by rw [if_neg hh, h4 g (by omega), Option.map_some]⟩
            · rename_i hb1
              simp only [if_neg hb1]
              split at h
              · rename_i hb
                simp only [if_pos hb]
                split at h
                · rename_i hh
                  cases h
                  have := tail_shorter hh
                  exact ⟨by omega, fun g hg => by rw [if_pos hh]⟩
                · rename_i hh
                  rw [Option.map_eq_some_iff] at h
                  obtain ⟨⟨x, r'⟩, h1, h2⟩ := h
                  cases h2
                  obtain ⟨h3, h4⟩ := ihM _ _ _ h1
                  exact ⟨by omega, fun g hg => by rw [if_neg hh, h4 g (by omega), Option.map_some]⟩
              · rename_i hb2
                simp only [if_neg hb2]
                refine ⟨?_, fun g hg => h⟩
                split at h
                · have := jsonWord_shorter _ (by decide) _ _ _ _ h
                  simpa using this
                · split at h
                  · have := jsonWord_shorter _ (by decide) _ _ _ _ h
                    simpa using this
                  · split at h
                    · have := jsonWord_shorter _ (by decide) _ _ _ _ h
                      simpa using this
                    · obtain ⟨c, u, e, -, -⟩ := jsonNumber_front _ _ _ h
                      have := congrArg List.length e
                      simp at this
                      omega
        refine ⟨by simpa using key.1, fun g hg => ?_⟩
        rw [List.length_cons] at hg
        obtain ⟨g, rfl⟩ : ∃ k, g = k + 1 := ⟨g - 1, by omega⟩
        exact key.2 g (by omega)
    · intro s v r h
      rw [jsonElements, Option.bind_eq_some_iff] at h
      obtain ⟨⟨x, r1⟩, h1, h⟩ := h
      obtain ⟨h2, h3⟩ := ihA _ _ _ h1
      have hl := jsonSpace_le r1
      dsimp only at h
      have key : r.length < s.length ∧ ∀ g, 2 * s.length ≤ g → jsonElements (g + 1) s = some (v, r) := by
        split at h
        · rename_i hh
          cases h
          have := tail_shorter hh
          refine ⟨by omega, fun g hg => ?_⟩
          rw [jsonElements, h3 g (by omega), Option.bind_some]
          dsimp only
          rw [if_pos hh]
        · rename_i hh
          split at h
          · rename_i hc
            rw [Option.map_eq_some_iff] at h
            obtain ⟨⟨y, r'⟩, h4, h5⟩ := h
            simp only [Prod.mk.injEq] at h5
            obtain ⟨rfl, rfl⟩ := h5
            obtain ⟨h6, h7⟩ := ihE _ _ _ h4
            have := tail_shorter hc
            have := jsonSpace_le (jsonSpace r1).tail
            refine ⟨by omega, fun g hg => ?_⟩
            rw [jsonElements, h3 g (by omega), Option.bind_some]
            dsimp only
            rw [if_neg hh, if_pos hc, h7 g (by omega), Option.map_some]
          · cases h
      refine ⟨key.1, fun g hg => ?_⟩
      obtain ⟨g, rfl⟩ : ∃ k, g = k + 1 := ⟨g - 1, by omega⟩
      exact key.2 g (by omega)
    · intro s v r h
      rw [jsonMembers] at h
      split at h
      · rename_i hq
        rw [Option.bind_eq_some_iff] at h
        obtain ⟨⟨k, r0⟩, h0, h⟩ := h
        dsimp only at h
        have hs := jsonString_shorter _ _ (le_refl _) _ _ h0
        have hs' := tail_shorter hq
        split at h
        · rename_i hcol
          rw [Option.bind_eq_some_iff] at h
          obtain ⟨⟨x, r1⟩, h1, h⟩ := h
          dsimp only at h
          obtain ⟨h2, h3⟩ := ihA _ _ _ h1
          have hl := jsonSpace_le r1
          have hl0 := jsonSpace_le r0
          have hl1 := tail_shorter hcol
          have hl2 := jsonSpace_le (jsonSpace r0).tail
          have key : r.length < s.length ∧ ∀ g, 2 * s.length ≤ g → jsonMembers (g + 1) s = some (v, r) := by
            split at h
            · rename_i hh
              cases h
              have := tail_shorter hh
              refine ⟨by omega, fun g hg => ?_⟩
              rw [jsonMembers, if_pos hq, h0, Option.bind_some]
              dsimp only
              rw [if_pos hcol, h3 g (by omega), Option.bind_some]
              dsimp only
              rw [if_pos hh]
            · rename_i hh
              split at h
              · rename_i hc
                rw [Option.map_eq_some_iff] at h
                obtain ⟨⟨y, r'⟩, h4, h5⟩ := h
                simp only [Prod.mk.injEq] at h5
                obtain ⟨rfl, rfl⟩ := h5
                obtain ⟨h6, h7⟩ := ihM _ _ _ h4
                have := tail_shorter hc
                have := jsonSpace_le (jsonSpace r1).tail
                refine ⟨by omega, fun g hg => ?_⟩
                rw [jsonMembers, if_pos hq, h0, Option.bind_some]
                dsimp only
                rw [if_pos hcol, h3 g (by omega), Option.bind_some]
                dsimp only
                rw [if_neg hh, if_pos hc, h7 g (by omega), Option.map_some]
              · cases h
          refine ⟨key.1, fun g hg => ?_⟩
          obtain ⟨g, rfl⟩ : ∃ k, g = k + 1 := ⟨g - 1, by omega⟩
          exact key.2 g (by omega)
        · cases h
      · cases h

/-- Any bound that suffices gives the same value, and twice the length suffices. -/
theorem jsonText_of {s r : Bytes} {v : JValue} {f : Nat} (h : jsonAt f s = some (v, r)) (hs : jsonSpace s = s)
    (hr : jsonSpace r = []) : Spec.jsonText s = some v := by
  unfold Spec.jsonText
  rw [hs, ((json_enough f).1 s v r h).2 _ (by omega)]
  dsimp only
  rw [if_pos hr]

/-! ### strings -/

theorem utf8Point_small (b : UInt8) (h : b < 0x80) : utf8Point b.toNat = [b] := by
  have hb : b.toNat < 128 := by simpa [UInt8.lt_iff_toNat_lt] using h
  have hc : (Char.ofNat b.toNat).val.toNat = b.toNat := by
    unfold Char.ofNat
    rw [dif_pos (Or.inl (by omega))]
    rfl
  unfold utf8Point String.utf8EncodeChar
  rw [hc]
  rw [if_pos (by omega), UInt8.ofNat_toNat]

/-- the escape of a byte is read as that byte -/
def escapeReads (n : Nat) : Bool :=
  match serdeEscape (UInt8.ofNat n) with
  | [0x5c, y] => y != 0x75 && jsonEscape y == some (UInt8.ofNat n)
  | [0x5c, 0x75, p, q, r, u] => hex4 p q r u == some n
  | _ => false

/-- one character: what is written for a byte is read as that byte -/
theorem jsonChar_escape (b : UInt8) (t : Bytes) :
    ((serdeEscape b).head? ≠ some 0x22) ∧ (serdeEscape b ≠ []) ∧ jsonChar (serdeEscape b ++ t) = some ([b], t) := by
  by_cases h : b < 0x20 ∨ b = 0x22 ∨ b = 0x5c
  · have low : ∀ b : UInt8, (b < 0x20 ∨ b = 0x22 ∨ b = 0x5c) → ∃ c u, serdeEscape b = 0x5c :: c :: u ∧
        ((c ≠ 0x75 ∧ u = [] ∧ jsonEscape c = some b) ∨
          (c = 0x75 ∧ ∃ w x y z, u = [w, x, y, z] ∧ hex4 w x y z = some b.toNat)) := by
      intro b hb
      have fin : ∀ n < 256, (UInt8.ofNat n < 0x20 ∨ UInt8.ofNat n = 0x22 ∨ UInt8.ofNat n = 0x5c) →
          escapeReads n = true := by decide +kernel
      have hf := fin b.toNat b.toNat_lt (by rw [UInt8.ofNat_toNat]; exact hb)
      unfold escapeReads at hf
      rw [UInt8.ofNat_toNat] at hf
      split at hf
      · rename_i y hs
        simp only [Bool.and_eq_true, bne_iff_ne, ne_eq, beq_iff_eq] at hf
        exact ⟨y, [], hs, .inl ⟨hf.1, rfl, hf.2⟩⟩
      · rename_i p q r u hs
        rw [beq_iff_eq] at hf
        exact ⟨0x75, [p, q, r, u], hs, .inr ⟨rfl, p, q, r, u, rfl, hf⟩⟩
      · cases hf
    obtain ⟨c, u, e, h2⟩ := low b h
    rw [e]
    refine ⟨by simp, by simp, ?_⟩
    rcases h2 with ⟨hc, rfl, hx⟩ | ⟨rfl, w, x, y, z, rfl, hx⟩
    · simp only [List.cons_append, List.nil_append]
      unfold jsonChar
      split
      · rename_i heq
        simp only [List.cons.injEq, true_and] at heq
        exact absurd heq.1 hc
      · rename_i heq
        simp only [List.cons.injEq, true_and] at heq
        obtain ⟨rfl, rfl⟩ := heq
        rw [hx]; rfl
      · rename_i h1 h2 heq
        exact absurd heq (by
          intro heq
          simp only [List.cons.injEq] at heq
          obtain ⟨rfl, rfl⟩ := heq
          exact h2 _ _ rfl rfl)
      · rename_i heq; cases heq
    · simp only [List.cons_append, List.nil_append]
      have hb : b.toNat < 256 := b.toNat_lt
      have hl : b < 0x80 := by
        rcases h with h | rfl | rfl
        · rw [UInt8.lt_iff_toNat_lt] at h ⊢
          simp only [UInt8.toNat_ofNat] at h ⊢
          omega
        · decide
        · decide
      show (jsonUnicode (w :: x :: y :: z :: t)).map _ = _
      have hf : hexFour (w :: x :: y :: z :: t) = some (b.toNat, t) := by rw [hexFour, hx]; rfl
      unfold jsonUnicode
      rw [hf, Option.bind_some]
      dsimp only
      rw [if_neg (by omega), if_neg (by omega), Option.map_some]
      dsimp only
      rw [utf8Point_small b hl]
  · have e : serdeEscape b = [b] := by
      simp only [not_or] at h
      unfold serdeEscape
      rw [if_neg h.2.1, if_neg h.2.2]
      have h1 := h.1
      have ne : ∀ c : UInt8, c < 0x20 → b ≠ c := by rintro c hc rfl; exact h1 hc
      rw [if_neg (ne _ (by decide)), if_neg (ne _ (by decide)), if_neg (ne _ (by decide)), if_neg (ne _ (by decide)),
        if_neg (ne _ (by decide)), if_neg h1]
    rw [e]
    simp only [not_or] at h
    refine ⟨by simpa using h.2.1, by simp, ?_⟩
    rw [List.singleton_append]
    unfold jsonChar
    split
    · rename_i heq; simp only [List.cons.injEq] at heq; exact absurd heq.1 h.2.2
    · rename_i heq; simp only [List.cons.injEq] at heq; exact absurd heq.1 h.2.2
    · rename_i heq
      simp only [List.cons.injEq] at heq
      obtain ⟨rfl, rfl⟩ := heq
      rw [if_neg (by simp only [not_or]; exact ⟨h.1, h.2.2⟩)]
    · rename_i heq; cases heq

theorem jsonString_escape (s rest : Bytes) : jsonString (s.flatMap serdeEscape ++ 0x22 :: rest) = some (s, rest) := by
  induction s with
  | nil => rw [jsonString]; rfl
  | cons b t ih =>
    rw [List.flatMap_cons, List.append_assoc]
    obtain ⟨h1, h2, h3⟩ := jsonChar_escape b (t.flatMap serdeEscape ++ 0x22 :: rest)
    have hh : (serdeEscape b ++ (t.flatMap serdeEscape ++ 0x22 :: rest)).head? ≠ some 0x22 := by
      cases hs : serdeEscape b with
      | nil => exact absurd hs h2
      | cons x u => rw [hs] at h1; exact h1
    rw [jsonString, if_neg hh, h3]
    dsimp only
    rw [if_pos (by
      have : 0 < (serdeEscape b).length := List.length_pos_iff.2 h2
      simp only [List.length_append]; omega), ih]
    rfl

/-! ### numbers -/

/-- what may follow a value in a text -/
def Stop (rest : Bytes) : Prop := rest.head? ∈ [none, some 0x2c, some 0x7d, some 0x5d]

theorem stop_nil : Stop [] := by simp [Stop]

theorem stop_cons (b : UInt8) (t : Bytes) (h : b = 0x2c ∨ b = 0x7d ∨ b = 0x5d) : Stop (b :: t) := by
  rcases h with rfl | rfl | rfl <;> simp [Stop]

theorem Stop.cases {rest : Bytes} (h : Stop rest) :
    rest = [] ∨ ∃ b t, rest = b :: t ∧ (b = 0x2c ∨ b = 0x7d ∨ b = 0x5d) := by
  cases rest with
  | nil => exact .inl rfl
  | cons b t =>
    right
    refine ⟨b, t, rfl, ?_⟩
    simpa [Stop] using h

theorem digitsOf_natText (n : Nat) (rest : Bytes) (h : Stop rest) : digitsOf (natText n ++ rest) = (natText n, rest) := by
  have hd := natText_digits n
  unfold digitsOf
  rw [List.span_eq_takeWhile_dropWhile]
  rw [List.takeWhile_append_of_pos (by simpa [AllDigits] using hd), List.dropWhile_append_of_pos (by simpa [AllDigits] using hd)]
  rcases h.cases with rfl | ⟨b, t, rfl, hb⟩
  · simp
  · have hb : ¬ (0x30 ≤ b ∧ b ≤ 0x39) := by rcases hb with rfl | rfl | rfl <;> decide
    rw [List.takeWhile_cons_of_neg (by simpa using hb), List.dropWhile_cons_of_neg (by simpa using hb), List.append_nil]

theorem natText_zero_front (n : Nat) (h : (natText n).head? = some 0x30) : (natText n).length = 1 := by
  obtain ⟨d, hd, h1, h2⟩ := natText_head n
  rw [h1] at h
  have : d = 0 := by
    have fin : ∀ d < 10, digitByte d = 0x30 → d = 0 := by decide +kernel
    exact fin d hd (by simpa using h)
  rw [h2 this]
  decide +kernel

theorem jsonUnsigned_natText (neg : Bool) (n : Nat) (rest : Bytes) (h : Stop rest) :
    jsonUnsigned neg (natText n ++ rest) = some (.number neg (natText n) none none, rest) := by
  unfold jsonUnsigned
  rw [digitsOf_natText n rest h]
  dsimp only
  rw [if_neg (natText_ne_nil n), if_neg (by rintro ⟨h1, h2⟩; exact h2 (natText_zero_front n h1))]
  have hf : jsonFraction rest = some (none, rest) := by
    rcases h.cases with rfl | ⟨b, t, rfl, hb⟩
    · rfl
    · rcases hb with rfl | rfl | rfl <;> rfl
  have he : jsonExponent rest = some (none, rest) := by
    rcases h.cases with rfl | ⟨b, t, rfl, hb⟩
    · rfl
    · rcases hb with rfl | rfl | rfl <;> rfl
  rw [hf, Option.bind_some]
  dsimp only
  rw [he, Option.map_some]

/-- an integer is read as that integer -/
theorem jsonNumber_intText (i : Int) (rest : Bytes) (h : Stop rest) :
    jsonNumber (intText i ++ rest) = some (.number (decide (i < 0)) (natText i.natAbs) none none, rest) := by
  unfold intText
  by_cases hi : i < 0
  · rw [if_pos hi, List.cons_append]
    show jsonUnsigned true _ = _
    rw [jsonUnsigned_natText true _ rest h, decide_eq_true hi]
  · rw [if_neg hi, decide_eq_false hi, ← jsonUnsigned_natText false _ rest h]
    unfold jsonNumber
    split
    · rename_i t heq
      obtain ⟨b, hb, h1, h2⟩ := head_natText_append i.natAbs rest
      rw [heq] at hb
      simp only [List.head?_cons, Option.some.injEq] at hb
      subst hb
      exact absurd h1 (by decide)
    · rfl

/-- what is read as a number is not read as something else -/
theorem jsonAt_number (f : Nat) (s r : Bytes) (v : JValue) (h : jsonNumber s = some (v, r)) :
    jsonAt (f + 1) s = some (v, r) := by
  obtain ⟨b, t, rfl, -, hb⟩ := jsonNumber_front s v r h
  rw [List.cons_append, jsonAt]
  have ne : ∀ c : UInt8, (c = 0x22 ∨ 0x40 < c) → b ≠ c := by
    rintro c hc rfl
    rcases hb with rfl | hb
    · rcases hc with hc | hc <;> exact absurd hc (by decide)
    · rcases hc with rfl | hc
      · exact absurd hb (by decide)
      · simp only [UInt8.le_iff_toNat_le, UInt8.lt_iff_toNat_lt, UInt8.toNat_ofNat] at hb hc
        omega
  rw [if_neg (ne _ (by decide)), if_neg (ne _ (by decide)), if_neg (ne _ (by decide)), if_neg (ne _ (by decide)),
    if_neg (ne _ (by decide)), if_neg (ne _ (by decide))]
  exact h

/-! ### values -/

/-- no white space in front, and not the end of an array or object -/
def Solid (t : Bytes) : Prop := ∃ b u, t = b :: u ∧ b ∉ [0x20, 0x09, 0x0a, 0x0d, 0x5d, 0x7d]

theorem Solid.space {t : Bytes} (h : Solid t) (rest : Bytes) : jsonSpace (t ++ rest) = t ++ rest := by
  obtain ⟨b, u, rfl, hb⟩ := h
  simp only [List.mem_cons, not_or] at hb
  rw [List.cons_append, jsonSpace, if_neg (by simp only [not_or]; exact ⟨hb.1, hb.2.1, hb.2.2.1, hb.2.2.2.1⟩)]

theorem Solid.head {t : Bytes} (h : Solid t) (rest : Bytes) :
    (t ++ rest).head? ≠ some 0x5d ∧ (t ++ rest).head? ≠ some 0x7d := by
  obtain ⟨b, u, rfl, hb⟩ := h
  simp only [List.mem_cons, not_or] at hb
  simp only [List.cons_append, List.head?_cons, ne_eq, Option.some.injEq]
  exact ⟨hb.2.2.2.2.1, hb.2.2.2.2.2.1⟩

/-- The text is read as the value, whatever follows it; `n` calls suffice. -/
structure Writes (n : Nat) (t : Bytes) (v : JValue) : Prop where
  solid : Solid t
  reads : ∀ f, n ≤ f → ∀ rest, Stop rest → jsonAt f (t ++ rest) = some (v, rest)

theorem Writes.mono {n m : Nat} {t : Bytes} {v : JValue} (h : Writes n t v) (hm : n ≤ m) : Writes m t v :=
  ⟨h.solid, fun f hf rest hr => h.reads f (by omega) rest hr⟩

theorem writes_string (s : Bytes) : Writes 1 (serdeString s) (.string s) where
  solid := ⟨0x22, s.flatMap serdeEscape ++ asc "\"", rfl, by decide⟩
  reads := by
    intro f hf rest hr
    obtain ⟨g, rfl⟩ : ∃ g, f = g + 1 := ⟨f - 1, by omega⟩
    have e : serdeString s ++ rest = 0x22 :: (s.flatMap serdeEscape ++ 0x22 :: rest) := by
      simp [serdeString, asc]
    rw [e, jsonAt, if_pos rfl, jsonString_escape]
    rfl

theorem writes_null : Writes 1 (asc "null") .null where
  solid := ⟨0x6e, asc "ull", rfl, by decide⟩
  reads := by
    intro f hf rest hr
    obtain ⟨g, rfl⟩ : ∃ g, f = g + 1 := ⟨f - 1, by omega⟩
    have e : asc "null" ++ rest = 0x6e :: 0x75 :: 0x6c :: 0x6c :: rest := rfl
    rw [e, jsonAt, if_neg (by decide), if_neg (by decide), if_neg (by decide), if_pos rfl]
    rfl

theorem solid_number {s r : Bytes} {v : JValue} (h : jsonNumber (s ++ r) = some (v, r)) : Solid s := by
  obtain ⟨b, t, e, -, hb⟩ := jsonNumber_front _ _ _ h
  obtain rfl := List.append_cancel_right e
  refine ⟨b, t, rfl, ?_⟩
  rcases hb with rfl | hb
  · decide
  · intro hm
    simp only [List.mem_cons, List.not_mem_nil, or_false] at hm
    rcases hm with rfl | rfl | rfl | rfl | rfl | rfl <;> exact absurd hb (by decide)

theorem writes_number {s : Bytes} {v : JValue} (h : ∀ rest, Stop rest → jsonNumber (s ++ rest) = some (v, rest)) :
    Writes 1 s v where
  solid := solid_number (h [] stop_nil)
  reads := by
    intro f hf rest hr
    obtain ⟨g, rfl⟩ : ∃ g, f = g + 1 := ⟨f - 1, by omega⟩
    exact jsonAt_number g _ _ _ (h rest hr)

/-! ### arrays and objects -/

theorem jsonSpace_stop {rest : Bytes} (h : Stop rest) : jsonSpace rest = rest := by
  rcases h.cases with rfl | ⟨b, t, rfl, hb⟩
  · rfl
  · rcases hb with rfl | rfl | rfl <;> rfl

theorem commas_solid {xs : List Bytes} (hx : xs ≠ []) (h : ∀ t ∈ xs, Solid t) : Solid (commas xs) := by
  match xs, hx with
  | [x], _ => exact h x (by simp)
  | x :: y :: t, _ =>
    obtain ⟨b, u, e, hb⟩ := h x (by simp)
    refine ⟨b, u ++ asc "," ++ commas (y :: t), ?_, hb⟩
    rw [commas, e]
    simp

theorem elements_commas (n : Nat) (xs : List (Bytes × JValue)) (hx : xs ≠ []) (h : ∀ x ∈ xs, Writes n x.1 x.2) :
    ∀ f, n + xs.length ≤ f → ∀ rest,
      jsonElements f (commas (xs.map (·.1)) ++ 0x5d :: rest) = some (xs.map (·.2), rest) := by
  induction xs with
  | nil => exact absurd rfl hx
  | cons x xs ih =>
    intro f hf rest
    obtain ⟨g, rfl⟩ : ∃ g, f = g + 1 := ⟨f - 1, by rw [List.length_cons] at hf; omega⟩
    rw [List.length_cons] at hf
    have hw := h x (by simp)
    cases xs with
    | nil =>
      simp only [List.map_cons, List.map_nil, commas]
      have hs : Stop (0x5d :: rest) := stop_cons _ _ (by simp)
      rw [jsonElements, hw.reads g (by simp at hf; omega) _ hs, Option.bind_some]
      dsimp only
      rw [jsonSpace_stop hs, if_pos List.head?_cons]
      rfl
    | cons y ys =>
      simp only [List.map_cons, commas]
      have e : x.1 ++ asc "," ++ commas (y.1 :: ys.map (·.1)) ++ 0x5d :: rest
          = x.1 ++ 0x2c :: (commas (y.1 :: ys.map (·.1)) ++ 0x5d :: rest) := by
        rw [List.append_assoc, List.append_assoc]; rfl
      have hs : Stop (0x2c :: (commas (y.1 :: ys.map (·.1)) ++ 0x5d :: rest)) := stop_cons _ _ (by simp)
      have hsol : Solid (commas (y.1 :: ys.map (·.1))) := commas_solid (by simp) (by
        intro t ht
        rw [← List.map_cons (f := fun x : Bytes × JValue => x.1), List.mem_map] at ht
        obtain ⟨z, hz, rfl⟩ := ht
        exact (h z (List.mem_cons_of_mem _ hz)).solid)
      have ihh := ih (by simp) (fun z hz => h z (List.mem_cons_of_mem _ hz)) g (by omega) rest
      rw [List.map_cons, List.map_cons] at ihh
      rw [e, jsonElements, hw.reads g (by omega) _ hs, Option.bind_some]
      dsimp only
      rw [jsonSpace_stop hs]
      rw [if_neg (by simp), if_pos List.head?_cons, List.tail_cons, hsol.space, ihh]
      rfl

/-- an array is read as the list of its elements -/
theorem writes_array (n : Nat) (xs : List (Bytes × JValue)) (h : ∀ x ∈ xs, Writes n x.1 x.2) :
    Writes (n + xs.length + 1) (asc "[" ++ commas (xs.map (·.1)) ++ asc "]") (.array (xs.map (·.2))) where
  solid := ⟨0x5b, commas (xs.map (·.1)) ++ asc "]", rfl, by decide⟩
  reads := by
    intro f hf rest hr
    obtain ⟨g, rfl⟩ : ∃ g, f = g + 1 := ⟨f - 1, by omega⟩
    have e : asc "[" ++ commas (xs.map (·.1)) ++ asc "]" ++ rest = 0x5b :: (commas (xs.map (·.1)) ++ 0x5d :: rest) := by
      rw [List.append_assoc, List.append_assoc]; rfl
    rw [e, jsonAt, if_neg (by decide), if_pos rfl]
    cases xs with
    | nil => rfl
    | cons x xs =>
      have hsol : Solid (commas ((x :: xs).map (·.1))) := commas_solid (by simp) (by
        intro t ht
        rw [List.mem_map] at ht
        obtain ⟨z, hz, rfl⟩ := ht
        exact (h z hz).solid)
      rw [hsol.space, if_neg (hsol.head _).1, elements_commas n (x :: xs) (by simp) h g (by omega) rest]
      rfl

/-- one member of an object -/
def memberText (x : Bytes × Bytes × JValue) : Bytes := serdeString x.1 ++ asc ":" ++ x.2.1

theorem memberText_solid (x : Bytes × Bytes × JValue) : Solid (memberText x) :=
  ⟨0x22, x.1.flatMap serdeEscape ++ asc "\"" ++ asc ":" ++ x.2.1, by simp [memberText, serdeString, asc], by decide⟩

theorem member_front (f : Nat) (x : Bytes × Bytes × JValue) (n : Nat) (hx : Writes n x.2.1 x.2.2) (hf : n ≤ f)
    (tail : Bytes) (ht : Stop tail) :
    jsonMembers (f + 1) (memberText x ++ tail) =
      if tail.head? = some 0x7d then some ([(x.1, x.2.2)], tail.tail)
      else if tail.head? = some 0x2c then
        (jsonMembers f (jsonSpace tail.tail)).map fun (ms, r) => ((x.1, x.2.2) :: ms, r)
      else none := by
  have e : memberText x ++ tail = 0x22 :: (x.1.flatMap serdeEscape ++ 0x22 :: 0x3a :: (x.2.1 ++ tail)) := by
    simp [memberText, serdeString, asc]
  rw [e, jsonMembers, if_pos List.head?_cons, List.tail_cons, jsonString_escape, Option.bind_some]
  dsimp only
  have hc : jsonSpace (0x3a :: (x.2.1 ++ tail)) = 0x3a :: (x.2.1 ++ tail) := rfl
  rw [hc, if_pos List.head?_cons, List.tail_cons, hx.solid.space, hx.reads f hf tail ht, Option.bind_some]
  dsimp only
  rw [jsonSpace_stop ht]

theorem members_commas (n : Nat) (xs : List (Bytes × Bytes × JValue)) (hx : xs ≠ []) (h : ∀ x ∈ xs, Writes n x.2.1 x.2.2) :
    ∀ f, n + xs.length ≤ f → ∀ rest,
      jsonMembers f (commas (xs.map memberText) ++ 0x7d :: rest) = some (xs.map fun x => (x.1, x.2.2), rest) := by
  induction xs with
  | nil => exact absurd rfl hx
  | cons x xs ih =>
    intro f hf rest
    obtain ⟨g, rfl⟩ : ∃ g, f = g + 1 := ⟨f - 1, by rw [List.length_cons] at hf; omega⟩
    rw [List.length_cons] at hf
    have hw := h x (by simp)
    cases xs with
    | nil =>
      simp only [List.map_cons, List.map_nil, commas]
      rw [member_front g x n hw (by simp at hf; omega) _ (stop_cons _ _ (by simp)), if_pos List.head?_cons]
      rfl
    | cons y ys =>
      simp only [List.map_cons, commas]
      have e : memberText x ++ asc "," ++ commas (memberText y :: ys.map memberText) ++ 0x7d :: rest
          = memberText x ++ 0x2c :: (commas (memberText y :: ys.map memberText) ++ 0x7d :: rest) := by
        rw [List.append_assoc, List.append_assoc]; rfl
      have hsol : Solid (commas (memberText y :: ys.map memberText)) := commas_solid (by simp) (by
        intro t ht
        rw [← List.map_cons (f := memberText), List.mem_map] at ht
        obtain ⟨z, hz, rfl⟩ := ht
        exact memberText_solid z)
      have ihh := ih (by simp) (fun z hz => h z (List.mem_cons_of_mem _ hz)) g (by omega) rest
      rw [List.map_cons, List.map_cons] at ihh
      rw [e, member_front g x n hw (by omega) _ (stop_cons _ _ (by simp)), if_neg (by simp), if_pos List.head?_cons, List.tail_cons,
        hsol.space, ihh]
      rfl

/-- an object is read as the list of its members -/
theorem writes_object (n : Nat) (xs : List (Bytes × Bytes × JValue)) (h : ∀ x ∈ xs, Writes n x.2.1 x.2.2) :
    Writes (n + xs.length + 1) (asc "{" ++ commas (xs.map memberText) ++ asc "}") (.object (xs.map fun x => (x.1, x.2.2))) where
  solid := ⟨0x7b, commas (xs.map memberText) ++ asc "}", rfl, by decide⟩
  reads := by
    intro f hf rest hr
    obtain ⟨g, rfl⟩ : ∃ g, f = g + 1 := ⟨f - 1, by omega⟩
    have e : asc "{" ++ commas (xs.map memberText) ++ asc "}" ++ rest = 0x7b :: (commas (xs.map memberText) ++ 0x7d :: rest) := by
      rw [List.append_assoc, List.append_assoc]; rfl
    rw [e, jsonAt, if_neg (by decide), if_neg (by decide), if_pos rfl]
    cases xs with
    | nil => rfl
    | cons x xs =>
      have hsol : Solid (commas ((x :: xs).map memberText)) := commas_solid (by simp) (by
        intro t ht
        rw [List.mem_map] at ht
        obtain ⟨z, hz, rfl⟩ := ht
        exact memberText_solid z)
      rw [hsol.space, if_neg (hsol.head _).2, members_commas n (x :: xs) (by simp) h g (by omega) rest]
      rfl

/-- a whole text -/
theorem jsonText_writes {n : Nat} {t : Bytes} {v : JValue} (h : Writes n t v) : Spec.jsonText t = some v := by
  have h1 := h.reads n (le_refl _) [] stop_nil
  have h2 := h.solid.space []
  rw [List.append_nil] at h1 h2
  exact jsonText_of h1 h2 rfl

end Mybin
