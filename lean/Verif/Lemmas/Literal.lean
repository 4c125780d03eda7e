/-
How the specification's reader reads the numbers, dates and times that the library writes.
-/
import Verif.Lemmas.Sql
import Verif.Spec.Replay

namespace Mybin

open Spec (Lit digits readNat strip)

/-- only digits -/
def AllDigits (t : Bytes) : Prop := ∀ b ∈ t, 0x30 ≤ b ∧ b ≤ 0x39

/-- the text does not begin with a digit or a point -/
def Apart (t : Bytes) : Prop := ∀ b, t.head? = some b → ¬ (0x30 ≤ b ∧ b ≤ 0x39) ∧ b ≠ 0x2e

theorem digitByte_digit : ∀ d, d < 10 → 0x30 ≤ digitByte d ∧ digitByte d ≤ 0x39 := by decide +kernel

theorem natText_digits (n : Nat) : AllDigits (natText n) := by
  induction n using Nat.strongRecOn with
  | ind n ih =>
    intro b hb
    by_cases h : n < 10
    · rw [natText_lt n h, List.mem_singleton] at hb
      subst hb; exact digitByte_digit n h
    · rw [natText_ge n (by omega), List.mem_append, List.mem_singleton] at hb
      rcases hb with hb | hb
      · exact ih (n / 10) (by omega) b hb
      · subst hb; exact digitByte_digit _ (by omega)

theorem padText_digits (w n : Nat) : AllDigits (padText w n) := by
  intro b hb
  rw [padText, List.mem_append] at hb
  rcases hb with hb | hb
  · rw [List.eq_of_mem_replicate hb]; decide
  · exact natText_digits n b hb

theorem natText_length (n w : Nat) (hw : 0 < w) (h : n < 10 ^ w) : (natText n).length ≤ w := by
  unfold natText ascChars
  rw [List.length_map]
  exact (Nat.length_toDigits_le_iff (by omega) hw).2 h

theorem padText_length (w n : Nat) (hw : 0 < w) (h : n < 10 ^ w) : (padText w n).length = w := by
  have := natText_length n w hw h
  rw [padText, List.length_append, List.length_replicate]; omega

theorem readDigits_zeros (k : Nat) (t : Bytes) : Spec.readDigits 0 (List.replicate k 0x30 ++ t) = Spec.readDigits 0 t := by
  induction k with
  | zero => rfl
  | succ k ih =>
    rw [List.replicate_succ, List.cons_append]
    exact ih

theorem readNat_padText (w n : Nat) : readNat (padText w n) = some n := by
  have h := readNat_natText n
  unfold readNat at h ⊢
  rw [if_neg (natText_ne_nil n)] at h
  rw [if_neg (by rw [padText]; simp [natText_ne_nil]), padText, readDigits_zeros, h]

theorem digits_append (t rest : Bytes) (h : AllDigits t) (hr : ∀ b, rest.head? = some b → ¬ (0x30 ≤ b ∧ b ≤ 0x39)) :
    digits (t ++ rest) = t := by
  unfold digits
  rw [List.takeWhile_append_of_pos (by simpa [AllDigits] using h)]
  cases rest with
  | nil => simp
  | cons b r => rw [List.takeWhile_cons_of_neg (by simpa using hr b rfl), List.append_nil]

theorem drop_digits (t rest : Bytes) (h : AllDigits t) (hr : ∀ b, rest.head? = some b → ¬ (0x30 ≤ b ∧ b ≤ 0x39)) :
    (t ++ rest).drop (digits (t ++ rest)).length = rest := by
  rw [digits_append t rest h hr, List.drop_left]

/-- a whole number -/
theorem unsignedNumber_whole (t rest : Bytes) (n : Nat) (h : AllDigits t) (hn : readNat t = some n) (hr : Apart rest) :
    Spec.unsignedNumber (t ++ rest) = some (n, 0, rest) := by
  have hr' : ∀ b, rest.head? = some b → ¬ (0x30 ≤ b ∧ b ≤ 0x39) := fun b hb => (hr b hb).1
  unfold Spec.unsignedNumber
  dsimp only
  rw [drop_digits t rest h hr', digits_append t rest h hr', if_neg (fun hc => (hr _ hc).2 rfl), hn]
  rfl

/-- a number with a point -/
theorem unsignedNumber_point (i f rest : Bytes) (n : Nat) (h : AllDigits i) (hf : AllDigits f)
    (hn : readNat (i ++ f) = some n) (hr : Apart rest) :
    Spec.unsignedNumber (i ++ 0x2e :: (f ++ rest)) = some (n, f.length, rest) := by
  have hr' : ∀ b, rest.head? = some b → ¬ (0x30 ≤ b ∧ b ≤ 0x39) := fun b hb => (hr b hb).1
  have hp : ∀ b, (0x2e :: (f ++ rest)).head? = some b → ¬ (0x30 ≤ b ∧ b ≤ 0x39) := by
    intro b hb; injection hb with hb; subst hb; decide
  unfold Spec.unsignedNumber
  dsimp only
  rw [drop_digits i _ h hp, digits_append i _ h hp,
    if_pos (show (0x2e :: (f ++ rest)).head? = some 0x2e from rfl), List.tail_cons, drop_digits f rest hf hr',
    digits_append f rest hf hr', hn]
  rfl

/-- reading a literal that begins with a digit -/
theorem literal_digit (t : Bytes) (b : UInt8) (hb : t.head? = some b) (hd : 0x30 ≤ b ∧ b ≤ 0x39) :
    Spec.literal t = (Spec.unsignedNumber t).map fun r => (Lit.number r.1 r.2.1, r.2.2) := by
  cases t with
  | nil => cases hb
  | cons c t =>
    injection hb with hb
    subst hb
    have h27 : c ≠ 0x27 := by rintro rfl; revert hd; decide
    have h78 : (0x78 : UInt8) ≠ c := by rintro rfl; revert hd; decide
    have h6e : (0x6e : UInt8) ≠ c := by rintro rfl; revert hd; decide
    have h2d : c ≠ 0x2d := by rintro rfl; revert hd; decide
    have e1 : strip (Spec.ascii "x'") (c :: t) = none := by
      show strip (0x78 :: 0x27 :: []) (c :: t) = none
      rw [strip, if_neg h78]
    have e2 : strip (Spec.ascii "null") (c :: t) = none := by
      show strip (0x6e :: _) (c :: t) = none
      rw [strip, if_neg h6e]
    rw [Spec.literal, e1, e2, if_neg (by simpa using h27), if_neg (by simp), if_neg (by simp), if_neg (by simpa using h2d)]

/-- reading a literal that begins with a minus sign -/
theorem literal_minus (t : Bytes) :
    Spec.literal (0x2d :: t) = (Spec.unsignedNumber t).map fun r => (Lit.number (-(r.1 : Int)) r.2.1, r.2.2) := by
  have e1 : strip (Spec.ascii "x'") (0x2d :: t) = none := rfl
  have e2 : strip (Spec.ascii "null") (0x2d :: t) = none := rfl
  rw [Spec.literal, e1, e2, if_neg (by simp), if_neg (by simp), if_neg (by simp), if_pos (by simp)]
  rfl

theorem head_natText_append (n : Nat) (rest : Bytes) : ∃ b, (natText n ++ rest).head? = some b ∧ 0x30 ≤ b ∧ b ≤ 0x39 := by
  obtain ⟨d, h1, h2, _⟩ := natText_head n
  refine ⟨digitByte d, ?_, digitByte_digit d h1⟩
  rw [List.head?_append, h2]; rfl

theorem literal_natText (n : Nat) (rest : Bytes) (hr : Apart rest) :
    Spec.literal (natText n ++ rest) = some (Lit.number n 0, rest) := by
  obtain ⟨b, h1, h2⟩ := head_natText_append n rest
  rw [literal_digit _ b h1 h2, unsignedNumber_whole _ rest n (natText_digits n) (readNat_natText n) hr]
  rfl

theorem literal_intText (i : Int) (rest : Bytes) (hr : Apart rest) :
    Spec.literal (intText i ++ rest) = some (Lit.number i 0, rest) := by
  unfold intText
  by_cases h : i < 0
  · rw [if_pos h, List.cons_append, literal_minus,
      unsignedNumber_whole _ rest i.natAbs (natText_digits _) (readNat_natText _) hr]
    have : -(i.natAbs : Int) = i := by omega
    show some (Lit.number (-(i.natAbs : Int)) 0, rest) = _
    rw [this]
  · rw [if_neg h, literal_natText _ rest hr]
    have : (i.natAbs : Int) = i := by omega
    rw [this]

theorem literal_padText (w n : Nat) (rest : Bytes) (hr : Apart rest) :
    Spec.literal (padText w n ++ rest) = some (Lit.number n 0, rest) := by
  have hne : padText w n ≠ [] := by rw [padText]; simp [natText_ne_nil]
  obtain ⟨b, t, e⟩ := List.exists_cons_of_ne_nil hne
  have hd := padText_digits w n b (by rw [e]; exact List.mem_cons_self)
  rw [literal_digit _ b (by rw [e]; rfl) hd, unsignedNumber_whole _ rest n (padText_digits w n) (readNat_padText w n) hr]
  rfl

/-! ### quoted text -/

theorem literal_quote (s t rest : Bytes) (h : Spec.stringLiteral (0x27 :: t) = some (s, rest)) :
    Spec.literal (0x27 :: t) = some (Lit.text s, rest) := by
  rw [Spec.literal, if_pos (by rfl), h]; rfl

/-! ### dates and times -/

/-- a text that does not begin with a digit -/
def NoDigit (t : Bytes) : Prop := ∀ b, t.head? = some b → ¬ (0x30 ≤ b ∧ b ≤ 0x39)

theorem fieldOf_padText (w n : Nat) (rest : Bytes) (hw : 0 < w) (h : n < 10 ^ w) (hr : NoDigit rest) :
    Spec.fieldOf w (padText w n ++ rest) = some (n, rest) := by
  unfold Spec.fieldOf
  rw [digits_append _ rest (padText_digits w n) hr, if_pos (padText_length w n hw h), readNat_padText,
    List.drop_left' (padText_length w n hw h)]
  rfl

theorem strip_append (a t : Bytes) : strip a (a ++ t) = some t := by
  induction a with
  | nil => rfl
  | cons x a ih => rw [List.cons_append, strip, if_pos rfl, ih]

theorem noDigit_asc (s : String) (t : Bytes) (h : ∃ b r, asc s = b :: r ∧ ¬ (0x30 ≤ b ∧ b ≤ 0x39)) : NoDigit (asc s ++ t) := by
  obtain ⟨b, r, e, hb⟩ := h
  intro c hc
  rw [e] at hc
  injection hc with hc
  subst hc; exact hb

theorem noDigit_nil : NoDigit [] := by intro b hb; cases hb

theorem readYmd_dateText (y m d : Nat) (rest : Bytes) (hy : y < 10 ^ 4) (hm : m < 10 ^ 2) (hd : d < 10 ^ 2) (hr : NoDigit rest) :
    Spec.readYmd (dateText y m d ++ rest) = some ((y, m, d), rest) := by
  unfold Spec.readYmd dateText
  simp only [List.append_assoc]
  rw [fieldOf_padText 4 y _ (by omega) hy (noDigit_asc "-" _ ⟨0x2d, [], rfl, by decide⟩), Option.bind_some, ← asc_eq,
    strip_append, Option.bind_some,
    fieldOf_padText 2 m _ (by omega) hm (noDigit_asc "-" _ ⟨0x2d, [], rfl, by decide⟩), Option.bind_some,
    strip_append, Option.bind_some, fieldOf_padText 2 d _ (by omega) hd hr]
  rfl

theorem readFraction_nil : Spec.readFraction [] = some 0 := by rw [Spec.readFraction, if_pos rfl]

theorem readFraction_micro (us : Nat) (h : us < 10 ^ 6) : Spec.readFraction (asc "." ++ padText 6 us) = some us := by
  have e : digits (padText 6 us) = padText 6 us := by
    have := digits_append (padText 6 us) [] (padText_digits 6 us) noDigit_nil
    simpa using this
  unfold Spec.readFraction
  rw [if_neg (by simp [asc]), ← asc_eq, strip_append, Option.bind_some, e, padText_length 6 us (by omega) h,
    if_pos ⟨rfl, le_refl _⟩, readNat_padText]
  simp

/-- the fraction as the library writes it: nothing, or six decimals -/
def microText (us : Nat) : Bytes := if us = 0 then [] else asc "." ++ padText 6 us

theorem readFraction_microText (us : Nat) (h : us < 10 ^ 6) : Spec.readFraction (microText us) = some us := by
  unfold microText
  by_cases hz : us = 0
  · rw [if_pos hz, readFraction_nil, hz]
  · rw [if_neg hz, readFraction_micro us h]

theorem noDigit_microText (us : Nat) : NoDigit (microText us) := by
  unfold microText
  by_cases hz : us = 0
  · rw [if_pos hz]; exact noDigit_nil
  · rw [if_neg hz]; exact noDigit_asc "." _ ⟨0x2e, [], rfl, by decide⟩

theorem readMinutes_text (m s us : Nat) (hm : m < 60) (hs : s < 60) (h : us < 10 ^ 6) :
    Spec.readMinutes (asc ":" ++ msText m s ++ microText us) = some (m, s, us) := by
  unfold Spec.readMinutes msText
  simp only [List.append_assoc]
  rw [← asc_eq, strip_append, Option.bind_some,
    fieldOf_padText 2 m _ (by omega) (by omega) (noDigit_asc ":" _ ⟨0x3a, [], rfl, by decide⟩), Option.bind_some,
    strip_append, Option.bind_some, fieldOf_padText 2 s _ (by omega) (by omega) (noDigit_microText us),
    Option.bind_some, readFraction_microText us h]
  rfl

theorem readDateTime_text (t : MyDateTime) (us : Nat) (hy : t.year < 10 ^ 4) (hm : t.month < 10 ^ 2) (hd : t.day < 10 ^ 2)
    (hh : t.hour < 24) (hmi : t.minute < 60) (hs : t.second < 60) (hu : us < 10 ^ 6) :
    Spec.readDateTime (dateTimeText t ++ microText us)
      = some ((t.year, t.month, t.day), t.hour, t.minute, t.second, us) := by
  unfold Spec.readDateTime dateTimeText
  rw [show dateText t.year t.month t.day ++ asc " " ++ padText 2 t.hour ++ asc ":" ++ msText t.minute t.second ++ microText us
    = dateText t.year t.month t.day ++ (asc " " ++ (padText 2 t.hour ++ (asc ":" ++ msText t.minute t.second ++ microText us)))
    by simp only [List.append_assoc]]
  rw [readYmd_dateText _ _ _ _ hy hm hd (noDigit_asc " " _ ⟨0x20, [], rfl, by decide⟩), Option.bind_some, ← asc_eq,
    strip_append, Option.bind_some,
    fieldOf_padText 2 _ _ (by omega) (by omega)
      (by rw [List.append_assoc]; exact noDigit_asc ":" _ ⟨0x3a, [], rfl, by decide⟩),
    Option.bind_some, readMinutes_text _ _ _ hmi hs hu]
  rfl

theorem asSigned_small (n : Nat) (h : n < 2 ^ 31) : asSigned 32 n = n := by
  unfold asSigned
  split <;> omega

theorem fieldOf_ne (k : Nat) (t rest : Bytes) (h : AllDigits t) (hr : NoDigit rest) (hl : t.length ≠ k) :
    Spec.fieldOf k (t ++ rest) = none := by
  unfold Spec.fieldOf
  rw [digits_append t rest h hr, if_neg hl]

theorem natText_three (h : Nat) (h1 : 100 ≤ h) (h2 : h < 1000) : (natText h).length = 3 := by
  rw [natText_ge h (by omega), natText_ge (h / 10) (by omega), natText_lt (h / 10 / 10) (by omega)]
  rfl

theorem padText_three (h : Nat) (h1 : 100 ≤ h) (h2 : h < 1000) : padText 3 h = natText h := by
  rw [padText, natText_three h h1 h2]; rfl

theorem padInt_nat (w n : Nat) : padInt w (n : Int) = padText w n := by
  rw [padInt, if_neg (by omega)]; rfl

theorem intText_nat (n : Nat) : intText (n : Int) = natText n := by
  rw [intText, if_neg (by omega)]; rfl

/-- the text of a TIME of less than 1000 hours -/
theorem timeText_eq (neg : Bool) (h m s us : Nat) (hh : h < 1000) :
    timeText ⟨neg, h / 24, h % 24, m, s, us⟩ = some ((if neg then asc "-" else [])
      ++ (padText (if 100 ≤ h then 3 else 2) h ++ (asc ":" ++ msText m s ++ microText us))) := by
  have e : (asSigned 32 (h / 24)) * 24 + ((h % 24 : Nat) : Int) = (h : Int) := by
    rw [asSigned_small _ (by omega)]; omega
  have e2 : asSigned 32 (h / 24) * 24 = ((h / 24 * 24 : Nat) : Int) := by
    rw [asSigned_small _ (by omega)]; omega
  unfold timeText
  dsimp only
  rw [if_neg (by rw [e, e2]; omega), e]
  by_cases h100 : 100 ≤ h
  · rw [if_pos (show (100 : Int) ≤ (h : Int) by omega), if_pos h100, intText_nat, padText_three h h100 hh]
    simp only [List.append_assoc, microText]
  · rw [if_neg (show ¬ (100 : Int) ≤ (h : Int) by omega), if_neg h100, padInt_nat]
    simp only [List.append_assoc, microText]

theorem readTime_text (neg : Bool) (h m s us : Nat) (hh : h < 1000) (hm : m < 60) (hs : s < 60) (hu : us < 10 ^ 6) :
    Spec.readTime ((if neg then asc "-" else [])
      ++ (padText (if 100 ≤ h then 3 else 2) h ++ (asc ":" ++ msText m s ++ microText us)))
      = some (neg, h, m, s, us) := by
  have hno : NoDigit (asc ":" ++ msText m s ++ microText us) := by
    rw [List.append_assoc]; exact noDigit_asc ":" _ ⟨0x3a, [], rfl, by decide⟩
  have core : ((Spec.fieldOf 2 (padText (if 100 ≤ h then 3 else 2) h ++ (asc ":" ++ msText m s ++ microText us))).or
      (Spec.fieldOf 3 (padText (if 100 ≤ h then 3 else 2) h ++ (asc ":" ++ msText m s ++ microText us))))
      = some (h, asc ":" ++ msText m s ++ microText us) := by
    by_cases h100 : 100 ≤ h
    · rw [if_pos h100, fieldOf_ne 2 _ _ (padText_digits 3 h) hno (by rw [padText_length 3 h (by omega) hh]; decide),
        fieldOf_padText 3 h _ (by omega) hh hno]
      rfl
    · rw [if_neg h100, fieldOf_padText 2 h _ (by omega) (by omega) hno]
      rfl
  have hhead : (padText (if 100 ≤ h then 3 else 2) h ++ (asc ":" ++ msText m s ++ microText us)).head? ≠ some 0x2d := by
    obtain ⟨b, t, e⟩ := List.exists_cons_of_ne_nil
      (show padText (if 100 ≤ h then 3 else 2) h ≠ [] by rw [padText]; simp [natText_ne_nil])
    have hd := padText_digits (if 100 ≤ h then 3 else 2) h b (by rw [e]; exact List.mem_cons_self)
    rw [e]
    intro hc
    injection hc with hc
    subst hc
    revert hd; decide
  cases neg with
  | false =>
    rw [if_neg (by decide), List.nil_append]
    unfold Spec.readTime
    dsimp only
    rw [decide_eq_false hhead, if_neg (by decide), core, Option.bind_some, readMinutes_text m s us hm hs hu]
    rfl
  | true =>
    rw [if_pos rfl]
    show Spec.readTime (0x2d :: (padText (if 100 ≤ h then 3 else 2) h ++ (asc ":" ++ msText m s ++ microText us))) = _
    unfold Spec.readTime
    dsimp only
    rw [show decide ((0x2d :: (padText (if 100 ≤ h then 3 else 2) h ++ (asc ":" ++ msText m s ++ microText us))).head?
      = some (0x2d : UInt8)) = true from rfl, if_pos rfl, List.tail_cons, core, Option.bind_some,
      readMinutes_text m s us hm hs hu]
    rfl

end Mybin
