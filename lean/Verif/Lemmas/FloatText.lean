/-
Lemmas on the texts of floats: the digits that are written are between the middles of the intervals around the float, and the
texts are read as those digits.
-/
import Verif.Lemmas.Floats
import Verif.Lemmas.Literal
import Verif.Lemmas.JsonText

namespace Mybin

/-! ### the digits -/

theorem inside_around (f : FloatFmt) (n i s : Nat) (h : f.inside n i s = true) : Around f n ((i : ℚ) / 10 ^ s) := by
  have h10 : (0 : ℚ) < 10 ^ s := by positivity
  have ex : 2 * ((i : ℚ) / 10 ^ s * 2 ^ f.scale) * 10 ^ s = ((i * 2 ^ (f.scale + 1) : Nat) : ℚ) := by
    push_cast; rw [pow_succ]; field_simp
  have elo : ((f.mag (n - 1) : ℚ) + f.mag n) * 10 ^ s = (((f.mag (n - 1) + f.mag n) * 10 ^ s : Nat) : ℚ) := by push_cast; rfl
  have ehi : ((f.mag n : ℚ) + f.mag (n + 1)) * 10 ^ s = (((f.mag n + f.mag (n + 1)) * 10 ^ s : Nat) : ℚ) := by push_cast; rfl
  unfold FloatFmt.inside at h
  dsimp only at h
  unfold Around
  rw [← mul_le_mul_iff_left₀ h10, ← mul_le_mul_iff_left₀ (b := 2 * _) h10, ex, elo, ehi, Nat.cast_le, Nat.cast_le]
  split at h
  · rename_i he
    have h := of_decide_eq_true h
    exact ⟨h, fun ho => by omega⟩
  · have h := of_decide_eq_true h
    refine ⟨⟨h.1.le, h.2.le⟩, fun _ => ⟨fun e => ?_, fun e => ?_⟩⟩
    · rw [← mul_left_inj' h10.ne', ex, elo, Nat.cast_inj] at e; omega
    · rw [← mul_left_inj' h10.ne', ex, ehi, Nat.cast_inj] at e; omega

theorem exact_around (f : FloatFmt) (n : Nat) (h1 : 1 ≤ n) : Around f n ((f.mag n : ℚ) / 2 ^ f.scale) := by
  have hS := scale_pos f
  have ha : (f.mag (n - 1) : ℚ) < f.mag n := (mag_cast_lt f).2 (by omega)
  have hb : (f.mag n : ℚ) < f.mag (n + 1) := (mag_cast_lt f).2 (by omega)
  unfold Around
  rw [div_mul_cancel₀ _ hS.ne']
  exact ⟨⟨by linarith, by linarith⟩, fun _ => ⟨by linarith, by linarith⟩⟩

theorem around_pos (f : FloatFmt) (n : Nat) (x : ℚ) (h1 : 1 ≤ n) (h : Around f n x) : 0 < x := by
  have hS := scale_pos f
  have h0 : (f.mag 0 : ℚ) < f.mag n := (mag_cast_lt f).2 (by omega)
  have ha : (0 : ℚ) ≤ f.mag (n - 1) := Nat.cast_nonneg _
  rw [f.mag_zero, Nat.cast_zero] at h0
  have := h.1.1
  have : 0 < x * 2 ^ f.scale := by linarith
  exact (pos_iff_pos_of_mul_pos this).2 hS

/-- the value of digits and an exponent, and of the same with a point -/
theorem fixed_value (d : Nat) (e : Int) :
    ((FloatFmt.fixed d e).1 : ℚ) / 10 ^ (FloatFmt.fixed d e).2 = d * (10 : ℚ) ^ e := by
  unfold FloatFmt.fixed
  split
  · rename_i h
    obtain ⟨n, rfl⟩ := Int.eq_ofNat_of_zero_le h
    push_cast
    simp
  · rename_i h
    obtain ⟨n, rfl⟩ : ∃ n : Nat, e = -(n : Int) := ⟨(-e).toNat, by omega⟩
    simp [zpow_neg, div_eq_mul_inv]

theorem shortest_around (f : FloatFmt) (n : Nat) (h1 : 1 ≤ n) :
    Around f n ((f.shortest n).1 * (10 : ℚ) ^ (f.shortest n).2) := by
  unfold FloatFmt.shortest
  cases h : ((List.range 17).findSome? fun k => (f.around n (k + 1)).find? fun x =>
      f.inside n (FloatFmt.fixed x.1 x.2).1 (FloatFmt.fixed x.1 x.2).2) with
  | some x =>
    rw [Option.getD_some, ← fixed_value]
    obtain ⟨k, -, hk⟩ := List.exists_of_findSome?_eq_some h
    have := List.find?_some hk
    exact inside_around f n _ _ this
  | none =>
    rw [Option.getD_none]
    have e : ((f.mag n * 5 ^ f.scale : Nat) : ℚ) * (10 : ℚ) ^ (-(f.scale : Int)) = (f.mag n : ℚ) / 2 ^ f.scale := by
      push_cast
      rw [zpow_neg, zpow_natCast, show (10 : ℚ) = 5 * 2 by norm_num, mul_pow]
      field_simp
    dsimp only
    rw [e]
    exact exact_around f n h1

theorem shortest_pos (f : FloatFmt) (n : Nat) (h1 : 1 ≤ n) : 0 < (f.shortest n).1 := by
  have := around_pos f n _ h1 (shortest_around f n h1)
  have h10 : (0 : ℚ) < (10 : ℚ) ^ (f.shortest n).2 := zpow_pos (by norm_num) _
  have := (pos_iff_pos_of_mul_pos this).2 h10
  exact_mod_cast this

/-! ### the text without an exponent -/

theorem take_digits {t : Bytes} (h : AllDigits t) (k : Nat) : AllDigits (t.take k) :=
  fun b hb => h b (List.mem_of_mem_take hb)

theorem drop_allDigits {t : Bytes} (h : AllDigits t) (k : Nat) : AllDigits (t.drop k) :=
  fun b hb => h b (List.mem_of_mem_drop hb)

theorem padText_length_ge (w n : Nat) : w ≤ (padText w n).length := by
  rw [padText, List.length_append, List.length_replicate]; omega

theorem unsignedNumber_pointText (i s : Nat) (tail : Bytes) (h : Apart tail) :
    Spec.unsignedNumber (FloatFmt.pointText i s ++ tail) = some (i, s, tail) := by
  unfold FloatFmt.pointText
  split
  · rename_i hs
    rw [hs]
    exact unsignedNumber_whole _ tail i (natText_digits i) (readNat_natText i) h
  · have hd := padText_digits (s + 1) i
    have hl := padText_length_ge (s + 1) i
    have hr := readNat_padText (s + 1) i
    dsimp only
    generalize padText (s + 1) i = t at *
    have e : t.take (t.length - s) ++ asc "." ++ t.drop (t.length - s) ++ tail
        = t.take (t.length - s) ++ 0x2e :: (t.drop (t.length - s) ++ tail) := by
      rw [List.append_assoc, List.append_assoc]; rfl
    rw [e, unsignedNumber_point _ _ tail i (take_digits hd _) (drop_allDigits hd _)
      (by rw [List.take_append_drop]; exact hr) h]
    rw [List.length_drop]
    congr 3
    omega

theorem pointText_head (i s : Nat) (tail : Bytes) :
    ∃ b, (FloatFmt.pointText i s ++ tail).head? = some b ∧ 0x30 ≤ b ∧ b ≤ 0x39 := by
  unfold FloatFmt.pointText
  split
  · exact head_natText_append i tail
  · have hd := padText_digits (s + 1) i
    have hl := padText_length_ge (s + 1) i
    dsimp only
    generalize padText (s + 1) i = t at *
    obtain ⟨b, t', e⟩ : ∃ b t', t = b :: t' := by
      cases t with
      | nil => simp at hl
      | cons b t' => exact ⟨b, t', rfl⟩
    obtain ⟨k, hk⟩ : ∃ k, t.length - s = k + 1 := ⟨t.length - s - 1, by omega⟩
    refine ⟨b, ?_, hd b (by rw [e]; simp)⟩
    rw [hk, e]
    rfl

theorem literal_pointText (i s : Nat) (tail : Bytes) (h : Apart tail) :
    Spec.literal (FloatFmt.pointText i s ++ tail) = some (.number i s, tail) := by
  obtain ⟨b, h1, h2⟩ := pointText_head i s tail
  rw [literal_digit _ b h1 h2, unsignedNumber_pointText i s tail h]
  rfl

theorem literal_minus_pointText (i s : Nat) (tail : Bytes) (h : Apart tail) :
    Spec.literal (0x2d :: FloatFmt.pointText i s ++ tail) = some (.number (-(i : Int)) s, tail) := by
  rw [List.cons_append, literal_minus, unsignedNumber_pointText i s tail h]
  rfl

/-! ### how many digits there are -/

theorem digitCount_append (a b : Bytes) : Spec.digitCount (a ++ b) = Spec.digitCount a + Spec.digitCount b := by
  unfold Spec.digitCount; rw [List.filter_append, List.length_append]

theorem digitCount_digits {t : Bytes} (h : AllDigits t) : Spec.digitCount t = t.length := by
  unfold Spec.digitCount
  rw [List.filter_eq_self.2 (by simpa [AllDigits] using h)]

theorem lt_of_natText_length (n w : Nat) (hw : 0 < w) (h : (natText n).length ≤ w) : n < 10 ^ w := by
  unfold natText ascChars at h
  rw [List.length_map] at h
  exact (Nat.length_toDigits_le_iff (by omega) hw).1 h

theorem pointText_count (i s : Nat) (h : Spec.digitCount (FloatFmt.pointText i s) ≤ 65) : i < 10 ^ 65 ∧ s ≤ 65 := by
  unfold FloatFmt.pointText at h
  split at h
  · rename_i hs
    rw [digitCount_digits (natText_digits i)] at h
    exact ⟨lt_of_natText_length i 65 (by omega) h, by omega⟩
  · have hd := padText_digits (s + 1) i
    have hl := padText_length_ge (s + 1) i
    have hn : (natText i).length ≤ (padText (s + 1) i).length := by
      rw [padText, List.length_append]; omega
    dsimp only at h
    generalize padText (s + 1) i = t at *
    rw [digitCount_append, digitCount_append, digitCount_digits (take_digits hd _), digitCount_digits (drop_allDigits hd _),
      List.length_take, List.length_drop, show Spec.digitCount (asc ".") = 0 by decide +kernel] at h
    exact ⟨lt_of_natText_length i 65 (by omega) (by omega), by omega⟩

/-! ### floats in SQL literals -/

section

variable {f : FloatFmt} {value : Nat → Option ℚ} {bits : Nat}

/-- a finite float is a magnitude and a sign -/
theorem finite_cases (hf : IsFormat f value bits) {n : Nat} (hn : n < 2 ^ bits) (h : (value n).isSome) :
    ∃ m, m < f.top ∧ n % f.signBit = m ∧ ((n = m ∧ n / f.signBit = 0) ∨ (n = m + f.signBit ∧ n / f.signBit = 1)) := by
  obtain ⟨w, hw⟩ := Option.isSome_iff_exists.1 h
  have ht := hf.top_lt
  obtain ⟨j, hj, ⟨rfl, -⟩ | ⟨rfl, -⟩⟩ := value_cases hf hn hw
  · exact ⟨n, hj, Nat.mod_eq_of_lt (by omega), .inl ⟨rfl, Nat.div_eq_of_lt (by omega)⟩⟩
  · refine ⟨j, hj, ?_, .inr ⟨rfl, ?_⟩⟩
    · rw [Nat.add_mod_right, Nat.mod_eq_of_lt (by omega)]
    · rw [Nat.add_div_right _ (by omega), Nat.div_eq_of_lt (by omega)]

/-- The text of a finite float other than a negative zero is read as a number to which it is the nearest, or it is zero. -/
theorem display_literal (hf : IsFormat f value bits) (z : Bool) {n : Nat} (hn : n < 2 ^ bits) (h : (value n).isSome)
    (hz : n ≠ f.signBit) :
    ∃ (i : Int) (s : Nat), (∀ tail, Apart tail → Spec.literal (f.display z n ++ tail) = some (.number i s, tail)) ∧
      (Spec.digitCount (f.display z n) ≤ 65 → i.natAbs < 10 ^ 65 ∧ s ≤ 65) ∧
      ((n = 0 ∧ i = 0) ∨ (i ≠ 0 ∧ (∃ m, 1 ≤ m ∧ m < f.top ∧ n % f.signBit = m ∧ Around f m |(i : ℚ) / 10 ^ s|) ∧
        ∀ r, Spec.Nearest value bits r ((i : ℚ) / 10 ^ s) → r = n)) := by
  obtain ⟨m, hm, e, hc⟩ := finite_cases hf hn h
  unfold FloatFmt.display
  dsimp only
  rw [e, if_neg (show ¬ f.top < m by omega)]
  by_cases h0 : m = 0
  · subst h0
    have hn0 : n = 0 ∧ n / f.signBit = 0 := by
      rcases hc with hc | hc
      · exact hc
      · exact absurd (by omega) hz
    rw [if_pos rfl, hn0.2, if_neg (by simp)]
    refine ⟨0, 0, fun tail ht => ?_, fun _ => by simp, .inl ⟨hn0.1, rfl⟩⟩
    have := literal_natText 0 tail ht
    rw [show natText 0 = asc "0" by decide +kernel] at this
    exact this
  · rw [if_neg h0, if_neg (show m ≠ f.top by omega)]
    have hA := shortest_around f m (by omega)
    rw [← fixed_value] at hA
    have hp := around_pos f m _ (by omega) hA
    generalize (FloatFmt.fixed (f.shortest m).1 (f.shortest m).2).1 = i at *
    generalize (FloatFmt.fixed (f.shortest m).1 (f.shortest m).2).2 = s at *
    have hi : i ≠ 0 := by rintro rfl; simp at hp
    have habs : |(i : ℚ) / 10 ^ s| = (i : ℚ) / 10 ^ s := abs_of_pos hp
    rcases hc with ⟨rfl, hq⟩ | ⟨rfl, hq⟩
    · rw [hq, if_neg (by omega)]
      refine ⟨i, s, fun tail ht => literal_pointText i s tail ht, fun h => ?_, .inr ⟨by omega, ⟨n, by omega, hm, rfl, ?_⟩, ?_⟩⟩
      · exact pointText_count i s h
      · rw [Int.cast_natCast, habs]; exact hA
      · intro r hr
        exact nearest_eq hf (by omega) hm hA (by simpa using hr)
    · rw [hq, if_pos rfl]
      refine ⟨-(i : Int), s, fun tail ht => ?_, fun h => ?_, .inr ⟨by omega, ⟨m, by omega, hm, rfl, ?_⟩, ?_⟩⟩
      · exact literal_minus_pointText i s tail ht
      · rw [digitCount_append, show Spec.digitCount (asc "-") = 0 by decide +kernel, Nat.zero_add] at h
        rw [Int.natAbs_neg]
        exact pointText_count i s h
      · rw [Int.cast_neg, Int.cast_natCast, neg_div, abs_neg, habs]; exact hA
      · intro r hr
        exact nearest_neg_eq hf (by omega) hm hA (by simpa [neg_div] using hr)

end

/-! ### numbers in JSON -/

theorem digitsOf_apart (t rest : Bytes) (h : AllDigits t) (hr : ∀ b, rest.head? = some b → ¬ (0x30 ≤ b ∧ b ≤ 0x39)) :
    Spec.digitsOf (t ++ rest) = (t, rest) := by
  unfold Spec.digitsOf
  rw [List.span_eq_takeWhile_dropWhile]
  rw [List.takeWhile_append_of_pos (by simpa [AllDigits] using h), List.dropWhile_append_of_pos (by simpa [AllDigits] using h)]
  cases rest with
  | nil => simp
  | cons b t =>
    rw [List.takeWhile_cons_of_neg (by simpa using hr b rfl), List.dropWhile_cons_of_neg (by simpa using hr b rfl), List.append_nil]

theorem stop_apart {rest : Bytes} (h : Stop rest) : ∀ b, rest.head? = some b → ¬ (0x30 ≤ b ∧ b ≤ 0x39) := by
  rcases h.cases with rfl | ⟨b, t, rfl, hb⟩
  · intro b hb; cases hb
  · intro c hc
    injection hc with hc
    subst hc
    rcases hb with rfl | rfl | rfl <;> decide

/-- the text of a fraction -/
def fracPart : Option Bytes → Bytes
  | none => []
  | some f => 0x2e :: f

/-- the text of an exponent -/
def expPart : Option Int → Bytes
  | none => []
  | some e => 0x65 :: intText e

/-- what a reader takes an exponent for -/
def expRead (e : Option Int) : Option (Bool × Bytes) := e.map fun e => (decide (e < 0), natText e.natAbs)

theorem jsonExponent_part (e : Option Int) (rest : Bytes) (h : Stop rest) :
    Spec.jsonExponent (expPart e ++ rest) = some (expRead e, rest) := by
  cases e with
  | none =>
    show Spec.jsonExponent rest = some (none, rest)
    rcases h.cases with rfl | ⟨b, t, rfl, hb⟩
    · rfl
    · rcases hb with rfl | rfl | rfl <;> rfl
  | some e =>
    show Spec.jsonExponent (0x65 :: (intText e ++ rest)) = some (some (decide (e < 0), natText e.natAbs), rest)
    have key : ∀ neg, Spec.jsonExpDigits neg (natText e.natAbs ++ rest) = some (some (neg, natText e.natAbs), rest) := by
      intro neg
      unfold Spec.jsonExpDigits
      rw [digitsOf_natText _ _ h, if_neg (natText_ne_nil _)]
    unfold intText
    by_cases he : e < 0
    · rw [if_pos he, decide_eq_true he, ← key true, List.cons_append]
      rfl
    · rw [if_neg he, decide_eq_false he, ← key false]
      obtain ⟨b, h1, h2⟩ := head_natText_append e.natAbs rest
      generalize natText e.natAbs ++ rest = t at *
      unfold Spec.jsonExponent
      dsimp only
      rw [if_pos (Or.inl rfl)]
      split
      · injection h1 with h1; subst h1; exact absurd h2 (by decide)
      · injection h1 with h1; subst h1; exact absurd h2 (by decide)
      · rfl

theorem jsonUnsigned_parts (neg : Bool) (w : Bytes) (f : Option Bytes) (e : Option Int) (rest : Bytes) (h : Stop rest)
    (hw : AllDigits w) (hne : w ≠ []) (hz : w.head? = some 0x30 → w.length = 1) (hf : ∀ x, f = some x → AllDigits x ∧ x ≠ []) :
    Spec.jsonUnsigned neg (w ++ fracPart f ++ expPart e ++ rest) = some (.number neg w f (expRead e), rest) := by
  have hE : ∀ b, (expPart e ++ rest).head? = some b → ¬ (0x30 ≤ b ∧ b ≤ 0x39) := by
    cases e with
    | none => exact stop_apart h
    | some e => intro b hb; injection hb with hb; subst hb; decide
  have hF : ∀ b, (fracPart f ++ (expPart e ++ rest)).head? = some b → ¬ (0x30 ≤ b ∧ b ≤ 0x39) := by
    cases f with
    | none => exact hE
    | some f => intro b hb; injection hb with hb; subst hb; decide
  have hfr : Spec.jsonFraction (fracPart f ++ (expPart e ++ rest)) = some (f, expPart e ++ rest) := by
    cases f with
    | none =>
      show Spec.jsonFraction (expPart e ++ rest) = some (none, expPart e ++ rest)
      cases e with
      | none =>
        show Spec.jsonFraction rest = some (none, rest)
        rcases h.cases with rfl | ⟨b, t, rfl, hb⟩
        · rfl
        · rcases hb with rfl | rfl | rfl <;> rfl
      | some e => rfl
    | some f =>
      obtain ⟨h1, h2⟩ := hf f rfl
      show Spec.jsonFraction (0x2e :: (f ++ (expPart e ++ rest))) = _
      rw [Spec.jsonFraction, digitsOf_apart f _ h1 hE, if_neg h2]
  unfold Spec.jsonUnsigned
  rw [List.append_assoc, List.append_assoc, digitsOf_apart w _ hw hF]
  dsimp only
  rw [if_neg hne, if_neg (fun hh => hh.2 (hz hh.1)), hfr, Option.bind_some]
  dsimp only
  rw [jsonExponent_part e rest h, Option.map_some]

theorem jsonNumber_parts (neg : Bool) (w : Bytes) (f : Option Bytes) (e : Option Int) (rest : Bytes) (h : Stop rest)
    (hw : AllDigits w) (hne : w ≠ []) (hz : w.head? = some 0x30 → w.length = 1) (hf : ∀ x, f = some x → AllDigits x ∧ x ≠ []) :
    Spec.jsonNumber ((if neg then asc "-" else []) ++ (w ++ fracPart f ++ expPart e) ++ rest)
      = some (.number neg w f (expRead e), rest) := by
  rw [← jsonUnsigned_parts neg w f e rest h hw hne hz hf]
  cases neg with
  | true => rw [if_pos rfl]; rfl
  | false =>
    rw [if_neg (by simp), List.nil_append]
    unfold Spec.jsonNumber
    split
    · rename_i t heq
      cases w with
      | nil => exact absurd rfl hne
      | cons b w =>
        injection heq with hb
        exact absurd (hb ▸ hw b (by simp)) (by decide)
    · rfl

/-- the value of a numeral that is written so -/
theorem numeral_parts (neg : Bool) (w : Bytes) (f : Option Bytes) (e : Option Int) (n : Nat)
    (hn : Spec.readNat (w ++ f.getD []) = some n) :
    Spec.numeral neg w f (expRead e)
      = some ((if neg then -1 else 1) * (n : ℚ) * 10 ^ (e.getD 0 - ((f.getD []).length : Int))) := by
  unfold Spec.numeral
  rw [hn, Option.bind_some]
  cases e with
  | none => rfl
  | some e =>
    simp only [expRead, Option.map_some, Option.getD_some, readNat_natText]
    by_cases he : e < 0
    · simp only [decide_eq_true he, if_true]
      rw [show -(e.natAbs : Int) = e by omega]
    · simp only [decide_eq_false he, Bool.false_eq_true, if_false]
      rw [show (e.natAbs : Int) = e by omega]

theorem readNat_zeros_after (t : Bytes) (n k : Nat) (h : Spec.readNat t = some n) (hne : t ≠ []) :
    Spec.readNat (t ++ List.replicate k 0x30) = some (n * 10 ^ k) := by
  induction k with
  | zero => simpa using h
  | succ k ih =>
    have hne' : t ++ List.replicate k 0x30 ≠ [] := by simp [hne]
    rw [List.replicate_succ', ← List.append_assoc]
    unfold Spec.readNat at ih ⊢
    rw [if_neg hne'] at ih
    rw [if_neg (by simp), readDigits_append, ih, Option.bind_some]
    show some (n * 10 ^ k * 10 + 0) = _
    rw [pow_succ, Nat.mul_assoc, Nat.add_zero]

theorem readNat_zeros_before (k : Nat) (t : Bytes) (n : Nat) (h : Spec.readNat t = some n) (hne : t ≠ []) :
    Spec.readNat (List.replicate k 0x30 ++ t) = some n := by
  unfold Spec.readNat at h ⊢
  rw [if_neg hne] at h
  rw [if_neg (by simp [hne]), readDigits_zeros, h]

theorem zeros_digits (k : Nat) : AllDigits (List.replicate k 0x30) := by
  intro b hb
  rw [List.eq_of_mem_replicate hb]; decide

theorem AllDigits.append {a b : Bytes} (ha : AllDigits a) (hb : AllDigits b) : AllDigits (a ++ b) := by
  intro x hx
  rcases List.mem_append.1 hx with h | h
  · exact ha x h
  · exact hb x h

/-- the parts of the text of a number in JSON: its value is that of the digits and the exponent -/
theorem ryu_body (D : Nat) (k : Int) (hD : 0 < D) :
    ∃ w f e N, (let d := natText D
        let kk := d.length + k
        if 0 ≤ k ∧ kk ≤ 16 then d ++ List.replicate k.toNat 0x30 ++ asc ".0"
        else if 0 < kk ∧ kk ≤ 16 then d.take kk.toNat ++ asc "." ++ d.drop kk.toNat
        else if -5 < kk ∧ kk ≤ 0 then asc "0." ++ List.replicate (-kk).toNat 0x30 ++ d
        else if d.length = 1 then d ++ asc "e" ++ intText (kk - 1)
        else d.take 1 ++ asc "." ++ d.drop 1 ++ asc "e" ++ intText (kk - 1)) = w ++ fracPart f ++ expPart e ∧
      AllDigits w ∧ w ≠ [] ∧ (w.head? = some 0x30 → w.length = 1) ∧ (∀ x, f = some x → AllDigits x ∧ x ≠ []) ∧
      (f ≠ none ∨ e ≠ none) ∧ Spec.readNat (w ++ f.getD []) = some N ∧
      (N : ℚ) * 10 ^ (e.getD 0 - ((f.getD []).length : Int)) = D * (10 : ℚ) ^ k := by
  have hd := natText_digits D
  have hne := natText_ne_nil D
  have hr := readNat_natText D
  have hh : (natText D).head? ≠ some 0x30 := by
    obtain ⟨d, h1, h2, h3⟩ := natText_head D
    rw [h2]
    intro hc
    have fin : ∀ d < 10, digitByte d = 0x30 → d = 0 := by decide +kernel
    have := h3 (fin d h1 (by simpa using hc))
    omega
  have hlen : 1 ≤ (natText D).length := List.length_pos_iff.2 hne
  have ten : (10 : ℚ) ≠ 0 := by norm_num
  dsimp only
  generalize natText D = d at *
  have hw0 : ∀ j, 1 ≤ j → ((d.take j).head? = some 0x30 → (d.take j).length = 1) := by
    intro j hj hc
    rw [List.head?_take, if_neg (by omega)] at hc
    exact absurd hc hh
  have htake : ∀ j, 1 ≤ j → d.take j ≠ [] := by
    intro j hj h
    have := congrArg List.length h
    rw [List.length_take] at this
    simp only [List.length_nil] at this
    omega
  have hdrop : ∀ j, j < d.length → d.drop j ≠ [] := by
    intro j hj h
    have := congrArg List.length h
    rw [List.length_drop] at this
    simp only [List.length_nil] at this
    omega
  split
  · rename_i h
    refine ⟨d ++ List.replicate k.toNat 0x30, some [0x30], none, D * 10 ^ (k.toNat + 1), by simp [fracPart, expPart]; rfl,
      hd.append (zeros_digits _), by simp [hne], ?_, ?_, by simp, ?_, ?_⟩
    · intro hc
      rw [List.head?_append] at hc
      cases hx : d.head? with
      | none => simp only [List.head?_eq_none_iff] at hx; exact absurd hx hne
      | some b => rw [hx] at hc; exact absurd (hx.trans hc) hh
    · rintro x ⟨⟩
      exact ⟨zeros_digits 1, by simp⟩
    · have := readNat_zeros_after d D (k.toNat + 1) hr hne
      rw [List.replicate_succ', ← List.append_assoc] at this
      exact this
    · obtain ⟨j, rfl⟩ := Int.eq_ofNat_of_zero_le h.1
      simp only [Option.getD_none, Option.getD_some, List.length_cons, List.length_nil, Int.toNat_natCast, zpow_natCast]
      push_cast
      rw [pow_succ, zpow_neg, zpow_one]
      field_simp
  · rename_i h1
    split
    · rename_i h
      have hk : k < 0 := by omega
      refine ⟨d.take (d.length + k).toNat, some (d.drop (d.length + k).toNat), none, D, by simp [fracPart, expPart]; rfl,
        take_digits hd _, htake _ (by omega), hw0 _ (by omega), ?_, by simp, ?_, ?_⟩
      · rintro x ⟨⟩
        exact ⟨drop_allDigits hd _, hdrop _ (by omega)⟩
      · rw [Option.getD_some, List.take_append_drop]; exact hr
      · simp only [Option.getD_none, Option.getD_some, List.length_drop]
        congr 2
        omega
    · rename_i h2
      split
      · rename_i h
        refine ⟨[0x30], some (List.replicate (-((d.length : Int) + k)).toNat 0x30 ++ d), none, D,
          by simp [fracPart, expPart]; rfl, zeros_digits 1, by simp, by simp, ?_, by simp, ?_, ?_⟩
        · rintro x ⟨⟩
          exact ⟨(zeros_digits _).append hd, by simp [hne]⟩
        · have := readNat_zeros_before ((-((d.length : Int) + k)).toNat + 1) d D hr hne
          rw [List.replicate_succ] at this
          exact this
        · simp only [Option.getD_none, Option.getD_some, List.length_append, List.length_replicate]
          congr 2
          push_cast
          omega
      · split
        · rename_i h
          refine ⟨d, none, some (d.length + k - 1), D, by simp [fracPart, expPart]; rfl, hd, hne, fun hc => absurd hc hh,
            by simp, by simp, by simpa using hr, ?_⟩
          simp only [Option.getD_none, Option.getD_some, List.length_nil]
          congr 2
          push_cast
          omega
        · rename_i h
          refine ⟨d.take 1, some (d.drop 1), some (d.length + k - 1), D, by simp [fracPart, expPart]; rfl, take_digits hd _,
            htake _ (by omega), hw0 _ (by omega), ?_, by simp, ?_, ?_⟩
          · rintro x ⟨⟩
            exact ⟨drop_allDigits hd _, hdrop _ (by omega)⟩
          · rw [Option.getD_some, List.take_append_drop]; exact hr
          · simp only [Option.getD_some, List.length_drop]
            congr 2
            omega

/-- numbers between the middles around a finite double are not too large for a double -/
theorem around_bound {m : Nat} {x : ℚ} (h1 : 1 ≤ m) (hm : m < f64Fmt.top) (h : Around f64Fmt m x) : x < 2 ^ 1024 - 2 ^ 970 := by
  have ht : f64Fmt.top = 2047 * 2 ^ 52 := by decide +kernel
  have hs : f64Fmt.scale = 1074 := by decide +kernel
  obtain ⟨⟨-, hi⟩, odd⟩ := h
  have e1 : (f64Fmt.mag (f64Fmt.top - 1) : ℚ) = (2 ^ 53 - 1) * 2 ^ 2045 := by
    have : f64Fmt.mag (f64Fmt.top - 1) = (2 ^ 53 - 1) * 2 ^ 2045 := by decide +kernel
    rw [this]; push_cast; norm_num
  have e2 : (f64Fmt.mag f64Fmt.top : ℚ) = 2 ^ 53 * 2 ^ 2045 := by
    have : f64Fmt.mag f64Fmt.top = 2 ^ 53 * 2 ^ 2045 := by decide +kernel
    rw [this]; push_cast; rfl
  have key : 2 * (x * 2 ^ f64Fmt.scale) < (2 ^ 53 - 1) * 2 ^ 2045 + 2 ^ 53 * 2 ^ 2045 := by
    by_cases hl : m = f64Fmt.top - 1
    · have hodd : m % 2 = 1 := by rw [ht] at hl; omega
      have hne := (odd hodd).2
      rw [hl, show f64Fmt.top - 1 + 1 = f64Fmt.top by omega, e1, e2] at hi hne
      exact lt_of_le_of_ne hi hne
    · have a : (f64Fmt.mag m : ℚ) < f64Fmt.mag (f64Fmt.top - 1) := (mag_cast_lt _).2 (by omega)
      have b : (f64Fmt.mag (m + 1) : ℚ) < f64Fmt.mag f64Fmt.top := (mag_cast_lt _).2 (by omega)
      rw [e1] at a
      rw [e2] at b
      linarith
  rw [hs] at key
  have e3 : ((2 : ℚ) ^ 53 - 1) * 2 ^ 2045 + 2 ^ 53 * 2 ^ 2045 = (2 ^ 1024 - 2 ^ 970) * 2 ^ 1075 := by
    rw [show (2 : ℚ) ^ 1024 = 2 ^ 54 * 2 ^ 970 by rw [← pow_add], show (2 : ℚ) ^ 2045 = 2 ^ 970 * 2 ^ 1075 by rw [← pow_add],
      show (2 : ℚ) ^ 54 = 2 * 2 ^ 53 by rw [← pow_succ']]
    ring
  have e4 : 2 * (x * (2 : ℚ) ^ 1074) = x * 2 ^ 1075 := by
    rw [show (2 : ℚ) ^ 1075 = 2 * 2 ^ 1074 by rw [← pow_succ']]
    ring
  rw [e3, e4] at key
  exact lt_of_mul_lt_mul_right key (by positivity)

/-- The text of a finite double in JSON is read as this double. -/
theorem ryu_reads (dr : Spec.DoubleRead) (hdr : Spec.ReadsDoubles dr) (n : Nat) (hn : n < 2 ^ 64) (h : (Spec.double n).isSome) :
    ∃ neg w f e, (f ≠ none ∨ e ≠ none) ∧ dr neg w f e = n ∧
      ∀ rest, Stop rest → Spec.jsonNumber (ryuText n ++ rest) = some (.number neg w f e, rest) := by
  obtain ⟨m, hm, e, hc⟩ := finite_cases isFormat_double hn h
  have hsb : f64Fmt.signBit = 2 ^ 63 := rfl
  rw [hsb] at e hc
  obtain ⟨neg, hneg, hnv⟩ : ∃ neg : Bool, (n / 2 ^ 63 = 1 ↔ neg = true) ∧ n = if neg then m + 2 ^ 63 else m := by
    rcases hc with ⟨h1, h2⟩ | ⟨h1, h2⟩
    · exact ⟨false, by rw [h2]; simp, by rw [h1]; simp⟩
    · exact ⟨true, by rw [h2]; simp, by rw [h1]; simp⟩
  have hsign : (if n / 2 ^ 63 = 1 then asc "-" else []) = (if neg then asc "-" else ([] : Bytes)) := by
    cases neg with
    | true => rw [if_pos (hneg.2 rfl), if_pos rfl]
    | false => rw [if_neg (fun hh => by simpa using hneg.1 hh), if_neg (by simp)]
  by_cases h0 : m = 0
  · subst h0
    refine ⟨neg, [0x30], some [0x30], none, by simp, ?_, fun rest hr => ?_⟩
    · rw [hdr.zero]
      · rw [hnv, Nat.zero_add]
      · have := numeral_parts neg [0x30] (some [0x30]) none 0 rfl
        rw [show Spec.numeral neg [0x30] (some [0x30]) none = Spec.numeral neg [0x30] (some [0x30]) (expRead none) from rfl, this]
        simp
    · have := jsonNumber_parts neg [0x30] (some [0x30]) none rest hr (zeros_digits 1) (by simp) (by simp)
        (by rintro x ⟨⟩; exact ⟨zeros_digits 1, by simp⟩)
      unfold ryuText
      dsimp only
      rw [e, if_pos rfl, hsign]
      exact this
  · have h1 : 1 ≤ m := by omega
    obtain ⟨w, f, ex, N, hb, hw, hne, hz, hf, hfe, hN, hv⟩ := ryu_body (f64Fmt.shortest m).1 (f64Fmt.shortest m).2
      (shortest_pos f64Fmt m h1)
    have hA := shortest_around f64Fmt m h1
    have hpos := around_pos f64Fmt m _ h1 hA
    have hbd := around_bound h1 hm hA
    rw [← hv] at hA hpos hbd
    have hnum := numeral_parts neg w f ex N hN
    refine ⟨neg, w, f, expRead ex, ?_, ?_, fun rest hr => ?_⟩
    · rcases hfe with h | h
      · exact .inl h
      · refine .inr ?_
        unfold expRead
        simpa using h
    · rw [mul_assoc] at hnum
      generalize (N : ℚ) * 10 ^ (ex.getD 0 - ((f.getD []).length : Int)) = x at *
      cases neg with
      | true =>
        rw [if_pos rfl] at hnum hnv
        rw [neg_one_mul] at hnum
        have := hdr.nearest true w f (expRead ex) _ hnum (by linarith) (by rw [abs_neg, abs_of_pos hpos]; exact hbd)
        rw [hnv]
        exact nearest_neg_eq isFormat_double h1 hm hA this
      | false =>
        rw [if_neg (by simp)] at hnum hnv
        rw [one_mul] at hnum
        have := hdr.nearest false w f (expRead ex) _ hnum hpos.ne' (by rw [abs_of_pos hpos]; exact hbd)
        rw [hnv]
        exact nearest_eq isFormat_double h1 hm hA this
    · rw [← jsonNumber_parts neg w f ex rest hr hw hne hz hf, ← hb]
      unfold ryuText
      dsimp only
      rw [e, if_neg h0, hsign]

end Mybin
