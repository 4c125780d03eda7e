/-
Lemmas on reading floats: the float that is found is the nearest, and a number of JSON is read as its value.
-/
import Verif.Lemmas.FloatText

namespace Mybin

/-! ### rounding -/

theorem mag_at (f : FloatFmt) (e a : Nat) (ha : a ≤ 2 ^ (f.frac + 1)) (h : 2 ^ f.frac ≤ a ∨ e = 0) :
    f.mag (e * 2 ^ f.frac + a) = a * 2 ^ e := by
  have hP : 0 < 2 ^ f.frac := Nat.two_pow_pos _
  rw [pow_succ] at ha
  unfold FloatFmt.mag
  generalize 2 ^ f.frac = P at *
  by_cases h1 : a < P
  · have he : e = 0 := by omega
    subst he
    rw [Nat.zero_mul, Nat.zero_add, Nat.div_eq_of_lt h1, if_pos rfl, Nat.mod_eq_of_lt h1, pow_zero, Nat.mul_one]
  · by_cases h2 : a < P * 2
    · obtain ⟨b, rfl⟩ : ∃ b, a = P + b := ⟨a - P, by omega⟩
      have e1 : e * P + (P + b) = P * (e + 1) + b := by ring
      rw [e1, Nat.mul_add_div hP, Nat.div_eq_of_lt (by omega : b < P), Nat.mul_add_mod, Nat.mod_eq_of_lt (by omega : b < P),
        if_neg (by omega), Nat.add_zero, Nat.add_sub_cancel]
    · have : a = P * 2 := by omega
      subst this
      have e1 : e * P + P * 2 = P * (e + 2) := by ring
      rw [e1, Nat.mul_div_cancel_left _ hP, Nat.mul_mod_right, if_neg (by omega), Nat.add_zero,
        show e + 2 - 1 = e + 1 from rfl, pow_succ]
      ring

/-- the float just below a number -/
theorem round_floor (f : FloatFmt) (q : Nat) :
    let e := if q < 2 ^ (f.frac + 1) then 0 else Nat.log2 q - f.frac
    f.mag (e * 2 ^ f.frac + q / 2 ^ e) ≤ q ∧ q < f.mag (e * 2 ^ f.frac + q / 2 ^ e + 1) := by
  intro e
  have key : q / 2 ^ e < 2 ^ (f.frac + 1) ∧ (2 ^ f.frac ≤ q / 2 ^ e ∨ e = 0) := by
    by_cases h : q < 2 ^ (f.frac + 1)
    · have he : e = 0 := if_pos h
      rw [he, pow_zero, Nat.div_one]
      exact ⟨h, .inr rfl⟩
    · have he : e = Nat.log2 q - f.frac := if_neg h
      have hq : q ≠ 0 := by
        have := Nat.two_pow_pos (f.frac + 1)
        omega
      have hl : f.frac + 1 ≤ Nat.log2 q := (Nat.le_log2 hq).2 (by omega)
      have h1 : 2 ^ (f.frac + e) ≤ q := by
        have := Nat.log2_self_le hq
        rwa [show f.frac + e = Nat.log2 q by omega]
      have h2 : q < 2 ^ (f.frac + 1 + e) := by
        have := Nat.lt_log2_self (n := q)
        rwa [show f.frac + 1 + e = Nat.log2 q + 1 by omega]
      rw [pow_add] at h1 h2
      exact ⟨(Nat.div_lt_iff_lt_mul (Nat.two_pow_pos _)).2 h2, .inl ((Nat.le_div_iff_mul_le (Nat.two_pow_pos _)).2 h1)⟩
  obtain ⟨h1, h2⟩ := key
  rw [Nat.add_assoc, mag_at f e _ h1.le h2, mag_at f e _ (by omega) (by omega)]
  refine ⟨Nat.div_mul_le_self _ _, ?_⟩
  exact Nat.lt_mul_of_div_lt (by omega) (Nat.two_pow_pos _)

/-- what rounding gives -/
theorem round_cases (f : FloatFmt) (num den : Nat) (hden : 0 < den) (x : ℚ) (hx : x * 2 ^ f.scale * den = num) :
    (f.round num den = 0 ∧ 2 * (x * 2 ^ f.scale) ≤ f.mag 1) ∨
    (1 ≤ f.round num den ∧ f.round num den < f.top ∧ Around f (f.round num den) x) ∨
    (f.round num den = f.top ∧ (f.mag (f.top - 1) : ℚ) + f.mag f.top ≤ 2 * (x * 2 ^ f.scale)) := by
  have hd : (0 : ℚ) < den := by exact_mod_cast hden
  have fl := round_floor f (num / den)
  unfold FloatFmt.round
  dsimp only at fl ⊢
  generalize (if num / den < 2 ^ (f.frac + 1) then 0 else Nat.log2 (num / den) - f.frac) = e at *
  generalize e * 2 ^ f.frac + num / den / 2 ^ e = n at *
  obtain ⟨fl1, fl2⟩ := fl
  have lo : f.mag n * den ≤ num := (Nat.le_div_iff_mul_le hden).1 fl1
  have hi : num < f.mag (n + 1) * den := (Nat.div_lt_iff_lt_mul hden).1 fl2
  have lo' : (f.mag n : ℚ) ≤ x * 2 ^ f.scale := by
    rw [← mul_le_mul_iff_left₀ hd, hx]; exact_mod_cast lo
  have hi' : x * 2 ^ f.scale < f.mag (n + 1) := by
    rw [← mul_lt_mul_iff_left₀ hd, hx]; exact_mod_cast hi
  split
  · rename_i ht
    refine .inr (.inr ⟨rfl, ?_⟩)
    have a : (f.mag f.top : ℚ) ≤ f.mag n := (mag_cast_le f).2 ht
    have b : (f.mag (f.top - 1) : ℚ) ≤ f.mag f.top := (mag_cast_le f).2 (by omega)
    linarith
  · rename_i ht
    have em : ((f.mag n : ℚ) + f.mag (n + 1)) * den = (((f.mag n + f.mag (n + 1)) * den : Nat) : ℚ) := by push_cast; rfl
    have en : 2 * (x * 2 ^ f.scale) * den = ((2 * num : Nat) : ℚ) := by push_cast; rw [← hx]; ring
    have hs : (f.mag n : ℚ) < f.mag (n + 1) := (mag_cast_lt f).2 (by omega)
    split
    · rename_i hc
      have hle : 2 * (x * 2 ^ f.scale) ≤ f.mag n + f.mag (n + 1) := by
        rw [← mul_le_mul_iff_left₀ hd, em, en, Nat.cast_le]; omega
      by_cases h0 : n = 0
      · subst h0
        rw [f.mag_zero, Nat.cast_zero, zero_add] at hle
        exact .inl ⟨rfl, hle⟩
      · refine .inr (.inl ⟨by omega, by omega, ?_⟩)
        have hp : (f.mag (n - 1) : ℚ) < f.mag n := (mag_cast_lt f).2 (by omega)
        refine ⟨⟨by linarith, hle⟩, fun ho => ⟨by linarith, fun h => ?_⟩⟩
        rw [← mul_left_inj' hd.ne', em, en, Nat.cast_inj] at h
        omega
    · rename_i hc
      have hge : (f.mag n : ℚ) + f.mag (n + 1) ≤ 2 * (x * 2 ^ f.scale) := by
        rw [← mul_le_mul_iff_left₀ hd, em, en, Nat.cast_le]; omega
      by_cases h0 : n + 1 = f.top
      · refine .inr (.inr ⟨h0, ?_⟩)
        rw [← h0, Nat.add_sub_cancel]
        exact hge
      · refine .inr (.inl ⟨by omega, by omega, ?_⟩)
        have hp : (f.mag (n + 1) : ℚ) < f.mag (n + 1 + 1) := (mag_cast_lt f).2 (by omega)
        refine ⟨⟨by rw [Nat.add_sub_cancel]; exact hge, by linarith⟩, fun ho => ⟨fun h => ?_, by linarith⟩⟩
        rw [Nat.add_sub_cancel, ← mul_left_inj' hd.ne', em, en, Nat.cast_inj] at h
        omega

section

variable {f : FloatFmt} {value : Nat → Option ℚ} {bits : Nat}

/-- zero is nearest to the numbers up to half the smallest float -/
theorem zero_nearest (hf : IsFormat f value bits) (ht : 0 < f.top) (x : ℚ) (h0 : 0 ≤ x) (h : 2 * (x * 2 ^ f.scale) ≤ f.mag 1) :
    Spec.Nearest value bits 0 x := by
  have hS := scale_pos f
  have hb : (0 : Nat) < 2 ^ bits := Nat.two_pow_pos _
  refine ⟨hb, 0, ?_, fun m w hm hw hne => ⟨?_, fun _ => rfl⟩⟩
  · rw [value_of_lt hf ht, f.mag_zero]; simp
  · rw [← mul_le_mul_iff_left₀ hS, dist_scaled, dist_scaled, zero_mul, sub_zero]
    have hX : 0 ≤ x * 2 ^ f.scale := mul_nonneg h0 hS.le
    have hW : w * 2 ^ f.scale ≠ 0 := mul_ne_zero hne hS.ne'
    obtain ⟨j, hj, hc⟩ := value_cases hf hm hw
    generalize x * 2 ^ f.scale = X at *
    generalize w * 2 ^ f.scale = W at *
    rw [abs_of_nonneg hX]
    have hj1 : W = f.mag j ∨ W = -(f.mag j : ℚ) := by rcases hc with ⟨-, h⟩ | ⟨-, h⟩ <;> simp [h]
    have hj0 : j ≠ 0 := by
      rintro rfl
      rw [f.mag_zero, Nat.cast_zero, neg_zero, or_self] at hj1
      exact hW hj1
    have h1 : (f.mag 1 : ℚ) ≤ f.mag j := (mag_cast_le f).2 (by omega)
    rcases hj1 with rfl | rfl
    · rcases abs_cases (X - f.mag j) with ⟨e, h2⟩ | ⟨e, h2⟩ <;> rw [e] <;> linarith
    · rcases abs_cases (X - -(f.mag j : ℚ)) with ⟨e, h2⟩ | ⟨e, h2⟩ <;> rw [e] <;> linarith

/-- the middle between the largest finite float and the next -/
def FloatFmt.limit (f : FloatFmt) : ℚ := ((f.mag (f.top - 1) : ℚ) + f.mag f.top) / 2 / 2 ^ f.scale

theorem round_nearest (hf : IsFormat f value bits) (ht : 1 < f.top) (num den : Nat) (hden : 0 < den) (x : ℚ)
    (hx : x * 2 ^ f.scale * den = num) (hlim : x < f.limit) :
    f.round num den < f.top ∧ Spec.Nearest value bits (f.round num den) x ∧ (x = 0 → f.round num den = 0) := by
  have hS := scale_pos f
  have hd : (0 : ℚ) < den := by exact_mod_cast hden
  have h0 : 0 ≤ x := by
    have : (0 : ℚ) ≤ x * (2 ^ f.scale * den) := by rw [← mul_assoc, hx]; exact Nat.cast_nonneg _
    exact nonneg_of_mul_nonneg_left this (by positivity)
  rcases round_cases f num den hden x hx with ⟨e, h⟩ | ⟨h1, h2, h⟩ | ⟨e, h⟩
  · rw [e]
    exact ⟨by omega, zero_nearest hf (by omega) x h0 h, fun _ => rfl⟩
  · refine ⟨h2, around_nearest hf h1 h2 h, fun hx0 => ?_⟩
    have := around_pos f _ x h1 h
    rw [hx0] at this
    exact absurd this (lt_irrefl _)
  · exfalso
    unfold FloatFmt.limit at hlim
    rw [lt_div_iff₀ hS] at hlim
    linarith

theorem round_infinite (ht : 1 < f.top) (num den : Nat) (hden : 0 < den) (x : ℚ)
    (hx : x * 2 ^ f.scale * den = num) (hlim : f.limit ≤ x) (hodd : f.top % 2 = 0) : f.round num den = f.top := by
  have hS := scale_pos f
  unfold FloatFmt.limit at hlim
  rw [div_le_iff₀ hS] at hlim
  have a0 : (f.mag 1 : ℚ) ≤ f.mag (f.top - 1) := (mag_cast_le f).2 (by omega)
  have a1 : (f.mag (f.top - 1) : ℚ) < f.mag f.top := (mag_cast_lt f).2 (by omega)
  rcases round_cases f num den hden x hx with ⟨e, h⟩ | ⟨h1, h2, h⟩ | ⟨e, h⟩
  · exfalso
    have : (0 : ℚ) ≤ f.mag (f.top - 1) := Nat.cast_nonneg _
    linarith
  · exfalso
    by_cases hl : f.round num den = f.top - 1
    · have ho := (h.2 (by omega)).2
      have hi := h.1.2
      rw [hl, show f.top - 1 + 1 = f.top by omega] at ho hi
      exact ho (le_antisymm hi (by linarith))
    · have b1 : (f.mag (f.round num den) : ℚ) < f.mag (f.top - 1) := (mag_cast_lt f).2 (by omega)
      have b2 : (f.mag (f.round num den + 1) : ℚ) ≤ f.mag (f.top - 1) := (mag_cast_le f).2 (by omega)
      have := h.1.2
      linarith
  · exact e

end

/-! ### numerals -/

theorem parseDigits_readDigits (t : Bytes) : ∀ acc, parseDigits acc t = Spec.readDigits acc t := by
  induction t with
  | nil => intro acc; rfl
  | cons b t ih =>
    intro acc
    unfold parseDigits Spec.readDigits Spec.digit?
    by_cases h : 0x30 ≤ b ∧ b ≤ 0x39
    · rw [if_pos h, if_pos h]; exact ih _
    · rw [if_neg h, if_neg h]

theorem readDigits_some {t : Bytes} (h : AllDigits t) : ∀ acc, ∃ n, Spec.readDigits acc t = some n := by
  induction t with
  | nil => intro acc; exact ⟨acc, rfl⟩
  | cons b t ih =>
    intro acc
    unfold Spec.readDigits Spec.digit?
    rw [if_pos (h b (by simp))]
    exact ih (fun x hx => h x (List.mem_cons_of_mem _ hx)) _

theorem digitsOf_allDigits (s : Bytes) : AllDigits (Spec.digitsOf s).1 := by
  unfold Spec.digitsOf
  rw [List.span_eq_takeWhile_dropWhile]
  intro b hb
  have := List.mem_takeWhile_imp hb
  simpa using this

theorem jsonExpDigits_parse (neg : Bool) (u : Bytes) (ex : Option (Bool × Bytes)) (h : Spec.jsonExpDigits neg u = some (ex, [])) :
    u ≠ [] ∧ ∃ k, ex = some (neg, u) ∧ Spec.readNat u = some k ∧ parseDigits 0 u = some k := by
  unfold Spec.jsonExpDigits at h
  split at h
  · cases h
  · rename_i hne
    injection h with h
    injection h with h1 h2
    have e : u = (Spec.digitsOf u).1 := by
      have := digitsOf_append u
      rwa [h2, List.append_nil] at this
    have hd := digitsOf_allDigits u
    rw [← e] at hd hne h1
    obtain ⟨k, hk⟩ := readDigits_some hd 0
    refine ⟨hne, k, h1.symm, ?_, by rw [parseDigits_readDigits, hk]⟩
    unfold Spec.readNat
    rw [if_neg hne, hk]

theorem jsonExponent_parse (s : Bytes) (ex : Option (Bool × Bytes)) (h : Spec.jsonExponent s = some (ex, [])) :
    ∃ k : Int, parseExponent s = some k ∧
      ((ex.map fun x => (Spec.readNat x.2).map fun k : Nat => if x.1 then -(k : Int) else k).getD (some 0)) = some k := by
  cases s with
  | nil =>
    unfold Spec.jsonExponent at h
    injection h with h
    injection h with h1 h2
    subst h1
    exact ⟨0, rfl, rfl⟩
  | cons b t =>
    unfold Spec.jsonExponent at h
    unfold parseExponent
    dsimp only at h ⊢
    split at h
    · rename_i hb
      rw [if_pos hb]
      split at h
      · rename_i u
        obtain ⟨h1, k, rfl, h3, h4⟩ := jsonExpDigits_parse _ _ _ h
        refine ⟨k, ?_, ?_⟩
        · simp [h1, h4]
        · simp [h3]
      · rename_i u
        obtain ⟨h1, k, rfl, h3, h4⟩ := jsonExpDigits_parse _ _ _ h
        refine ⟨-(k : Int), ?_, ?_⟩
        · simp [h1, h4]
        · simp [h3]
      · rename_i hp hm
        obtain ⟨h1, k, rfl, h3, h4⟩ := jsonExpDigits_parse _ _ _ h
        have n1 : t.head? ≠ some 0x2b := by
          intro hc
          cases t with
          | nil => cases hc
          | cons c t => injection hc with hc; exact hp t (by rw [hc])
        have n2 : t.head? ≠ some 0x2d := by
          intro hc
          cases t with
          | nil => cases hc
          | cons c t => injection hc with hc; exact hm t (by rw [hc])
        refine ⟨k, ?_, ?_⟩
        · have e : (if t.head? = some 0x2b ∨ t.head? = some 0x2d then t.tail else t) = t := by
            rw [if_neg (by simp [n1, n2])]
          rw [e, if_neg h1, h4, Option.map_some, if_neg n2]
        · simp [h3]
    · cases h

/-- a number of JSON without its sign: its digits and its exponent -/
theorem jsonUnsigned_parse (neg : Bool) (s w : Bytes) (fr : Option Bytes) (ex : Option (Bool × Bytes))
    (h : Spec.jsonUnsigned neg s = some (.number neg w fr ex, [])) :
    ∃ (n : Nat) (k : Int), parseNumeral s = some (n, k) ∧
      Spec.numeral neg w fr ex = some ((if neg then -1 else 1) * (n : ℚ) * 10 ^ k) := by
  have efd : ∀ s, frontDigits s = Spec.digitsOf s := fun _ => rfl
  unfold Spec.jsonUnsigned at h
  split at h
  · cases h
  · rename_i hne
    split at h
    · cases h
    · rw [Option.bind_eq_some_iff] at h
      obtain ⟨⟨fr', r⟩, h1, h2⟩ := h
      dsimp only at h2
      rw [Option.map_eq_some_iff] at h2
      obtain ⟨⟨ex', r'⟩, h2, h3⟩ := h2
      dsimp only at h3
      injection h3 with h3 h4
      injection h3 with _ h5 h6 h7
      subst h4 h5 h6 h7
      obtain ⟨k, hk1, hk2⟩ := jsonExponent_parse r ex' h2
      have hfr : (if (Spec.digitsOf s).2.head? = some 0x2e then frontDigits (Spec.digitsOf s).2.tail else ([], (Spec.digitsOf s).2))
          = (fr'.getD [], r) ∧ AllDigits (fr'.getD []) := by
        unfold Spec.jsonFraction at h1
        split at h1
        · rename_i t heq
          split at h1
          · cases h1
          · injection h1 with h1
            injection h1 with h1 h8
            subst h1 h8
            rw [heq]
            exact ⟨rfl, digitsOf_allDigits t⟩
        · rename_i hno
          injection h1 with h1
          injection h1 with h1 h8
          subst h1 h8
          refine ⟨?_, by intro b hb; cases hb⟩
          rw [if_neg]
          · rfl
          · intro hc
            cases hs : (Spec.digitsOf s).2 with
            | nil => rw [hs] at hc; cases hc
            | cons c t => rw [hs] at hc; injection hc with hc; exact hno t (by rw [hs, hc])
      obtain ⟨N, hN⟩ := readDigits_some ((digitsOf_allDigits s).append hfr.2) 0
      refine ⟨N, k - (fr'.getD []).length, ?_, ?_⟩
      · unfold parseNumeral
        dsimp only
        rw [efd, hfr.1]
        dsimp only
        rw [if_neg (fun hc => hne hc.1), parseDigits_readDigits, hN, Option.bind_some, hk1]
        rfl
      · have hr : Spec.readNat ((Spec.digitsOf s).1 ++ fr'.getD []) = some N := by
          unfold Spec.readNat
          rw [if_neg (by simp [hne]), hN]
        unfold Spec.numeral
        rw [hr, Option.bind_some, hk2]
        rfl

/-- a number of JSON is read as a sign and the rounded magnitude -/
theorem parseFloat_number (f : FloatFmt) (names : Bytes → Option Nat) (t w : Bytes) (neg : Bool) (fr : Option Bytes)
    (ex : Option (Bool × Bytes)) (h : Spec.jsonNumber t = some (.number neg w fr ex, [])) :
    ∃ (n : Nat) (k : Int), Spec.numeral neg w fr ex = some ((if neg then -1 else 1) * (n : ℚ) * 10 ^ k) ∧
      parseFloat f names t = some (f.round (n * 10 ^ k.toNat * 2 ^ f.scale) (10 ^ (-k).toNat) + if neg then f.signBit else 0) := by
  unfold Spec.jsonNumber at h
  split at h
  · rename_i t
    have hneg : neg = true := by
      unfold Spec.jsonUnsigned at h
      split at h
      · cases h
      · split at h
        · cases h
        · rw [Option.bind_eq_some_iff] at h
          obtain ⟨⟨fr', r⟩, h1, h2⟩ := h
          dsimp only at h2
          rw [Option.map_eq_some_iff] at h2
          obtain ⟨⟨ex', r'⟩, h2, h3⟩ := h2
          injection h3 with h3 h4
          injection h3 with h5
          exact h5.symm
    subst hneg
    obtain ⟨n, k, h1, h2⟩ := jsonUnsigned_parse _ _ _ _ _ h
    refine ⟨n, k, h2, ?_⟩
    unfold parseFloat
    simp [h1]
  · rename_i hm
    have hneg : neg = false := by
      unfold Spec.jsonUnsigned at h
      split at h
      · cases h
      · split at h
        · cases h
        · rw [Option.bind_eq_some_iff] at h
          obtain ⟨⟨fr', r⟩, h1, h2⟩ := h
          dsimp only at h2
          rw [Option.map_eq_some_iff] at h2
          obtain ⟨⟨ex', r'⟩, h2, h3⟩ := h2
          injection h3 with h3 h4
          injection h3 with h5
          exact h5.symm
    subst hneg
    obtain ⟨b, t', e, -, hb⟩ := jsonNumber_front t _ [] (by
      unfold Spec.jsonNumber
      split
      · rename_i t; exact absurd rfl (hm t)
      · exact h)
    obtain ⟨n, k, h1, h2⟩ := jsonUnsigned_parse _ _ _ _ _ h
    have n1 : t.head? ≠ some 0x2d := by
      intro hc
      cases t with
      | nil => cases hc
      | cons c t => injection hc with hc; exact hm t (by rw [hc])
    have n2 : t.head? ≠ some 0x2b := by
      rw [e]
      intro hc
      injection hc with hc
      subst hc
      rcases hb with hb | hb
      · exact absurd hb (by decide)
      · exact absurd hb (by decide)
    refine ⟨n, k, h2, ?_⟩
    unfold parseFloat
    dsimp only
    rw [if_neg (by simp [n1, n2]), h1]
    simp [n1]

end Mybin
