/-
Lemmas on floats: neighbours, rounding, and the texts that are read as a float.
-/
import Verif.Model.Floats
import Verif.Spec.Floats
import Mathlib.Algebra.Order.Ring.Abs
import Mathlib.Tactic.Linarith
import Mathlib.Tactic.FieldSimp
import Mathlib.Tactic.Ring
import Mathlib.Tactic.NormNum

namespace Mybin

namespace FloatFmt

variable (f : FloatFmt)

theorem mag_zero : f.mag 0 = 0 := by simp [mag]

theorem mag_succ (n : Nat) : f.mag n < f.mag (n + 1) := by
  unfold mag
  have hP : 0 < 2 ^ f.frac := Nat.two_pow_pos _
  generalize 2 ^ f.frac = P at hP
  have hn := Nat.div_add_mod n P
  have hr := Nat.mod_lt n hP
  generalize hq : n / P = q at hn
  generalize hm : n % P = r at hn hr
  by_cases h : r + 1 < P
  · have e1 : (n + 1) / P = q := by
      rw [← hn, Nat.add_assoc, Nat.mul_add_div hP, Nat.div_eq_of_lt h, Nat.add_zero]
    have e2 : (n + 1) % P = r + 1 := by
      rw [← hn, Nat.add_assoc, Nat.mul_add_mod, Nat.mod_eq_of_lt h]
    rw [e1, e2]
    by_cases h0 : q = 0
    · rw [if_pos h0, if_pos h0]; omega
    · rw [if_neg h0, if_neg h0]
      exact Nat.mul_lt_mul_of_pos_right (by omega) (Nat.two_pow_pos _)
  · have hr1 : r + 1 = P := by omega
    have e0 : n + 1 = P * (q + 1) := by rw [← hn, Nat.mul_add]; omega
    have e1 : (n + 1) / P = q + 1 := by rw [e0, Nat.mul_div_cancel_left _ hP]
    have e2 : (n + 1) % P = 0 := by rw [e0, Nat.mul_mod_right]
    rw [e1, e2, if_neg (Nat.succ_ne_zero _)]
    by_cases h0 : q = 0
    · rw [if_pos h0, h0]; simp; omega
    · rw [if_neg h0, Nat.add_sub_cancel, Nat.add_zero]
      obtain ⟨p, rfl⟩ := Nat.exists_eq_succ_of_ne_zero h0
      rw [Nat.succ_sub_one, Nat.pow_succ]
      have := Nat.two_pow_pos p
      generalize 2 ^ p = T at *
      nlinarith

theorem mag_strict : StrictMono f.mag := strictMono_nat_of_lt_succ f.mag_succ

end FloatFmt

/-! ### the nearest float -/

/-- a format whose values are the given ones -/
structure IsFormat (f : FloatFmt) (value : Nat → Option ℚ) (bits : Nat) : Prop where
  bits_eq : 2 ^ bits = 2 * f.signBit
  even : f.signBit % 2 = 0
  top_lt : f.top < f.signBit
  pos : ∀ k, k < f.signBit → value k = if k < f.top then some ((f.mag k : ℚ) / 2 ^ f.scale) else none
  neg : ∀ k, k < f.signBit → value (k + f.signBit) = if k < f.top then some (-((f.mag k : ℚ) / 2 ^ f.scale)) else none

theorem isFormat_double : IsFormat f64Fmt Spec.double 64 where
  bits_eq := by decide +kernel
  even := by decide +kernel
  top_lt := by decide +kernel
  pos := by
    intro k hk
    have hk' : k < 2 ^ 63 := hk
    have h1 : k / 2 ^ 52 % 2 ^ 11 = k / 2 ^ 52 := Nat.mod_eq_of_lt (by omega)
    have h2 : k.testBit 63 = false := Nat.testBit_lt_two_pow hk'
    have ht : f64Fmt.top = 2047 * 2 ^ 52 := by decide +kernel
    have hs : f64Fmt.scale = 1074 := by decide +kernel
    rw [ht, hs]
    simp only [Spec.double, Spec.binary64, h1, h2]
    by_cases h : k / 2 ^ 52 = 2 ^ 11 - 1
    · rw [if_pos h, if_neg (show ¬ k < 2047 * 2 ^ 52 by omega)]; rfl
    · rw [if_neg h, if_pos (show k < 2047 * 2 ^ 52 by omega), Option.map_some]
      congr 1
      simp only [Bool.false_eq_true, if_false, one_mul]
      congr 2
  neg := by
    intro k hk
    have hk' : k < 2 ^ 63 := hk
    have e : k + f64Fmt.signBit = k + 2 ^ 63 := rfl
    have h1 : (k + 2 ^ 63) / 2 ^ 52 % 2 ^ 11 = k / 2 ^ 52 := by omega
    have h3 : (k + 2 ^ 63) % 2 ^ 52 = k % 2 ^ 52 := by omega
    have h2 : (k + 2 ^ 63).testBit 63 = true := by
      rw [Nat.add_comm, Nat.testBit_two_pow_add_eq, Nat.testBit_lt_two_pow hk']; rfl
    have ht : f64Fmt.top = 2047 * 2 ^ 52 := by decide +kernel
    have hs : f64Fmt.scale = 1074 := by decide +kernel
    rw [ht, hs, e]
    simp only [Spec.double, Spec.binary64, h1, h2, h3]
    by_cases h : k / 2 ^ 52 = 2 ^ 11 - 1
    · rw [if_pos h, if_neg (show ¬ k < 2047 * 2 ^ 52 by omega)]; rfl
    · rw [if_neg h, if_pos (show k < 2047 * 2 ^ 52 by omega), Option.map_some]
      have e : (if k / 2 ^ 52 = 0 then k % 2 ^ 52 else (2 ^ 52 + k % 2 ^ 52) * 2 ^ (k / 2 ^ 52 - 1)) = f64Fmt.mag k := rfl
      rw [e, if_pos rfl, neg_mul, one_mul, neg_div]

theorem isFormat_single : IsFormat f32Fmt Spec.single 32 where
  bits_eq := by decide +kernel
  even := by decide +kernel
  top_lt := by decide +kernel
  pos := by
    intro k hk
    have hk' : k < 2 ^ 31 := hk
    have h1 : k / 2 ^ 23 % 2 ^ 8 = k / 2 ^ 23 := Nat.mod_eq_of_lt (by omega)
    have h2 : k.testBit 31 = false := Nat.testBit_lt_two_pow hk'
    have ht : f32Fmt.top = 255 * 2 ^ 23 := by decide +kernel
    have hs : f32Fmt.scale = 149 := by decide +kernel
    rw [ht, hs]
    simp only [Spec.single, Spec.binary32, h1, h2]
    by_cases h : k / 2 ^ 23 = 2 ^ 8 - 1
    · rw [if_pos h, if_neg (show ¬ k < 255 * 2 ^ 23 by omega)]; rfl
    · rw [if_neg h, if_pos (show k < 255 * 2 ^ 23 by omega), Option.map_some]
      have e : (if k / 2 ^ 23 = 0 then k % 2 ^ 23 else (2 ^ 23 + k % 2 ^ 23) * 2 ^ (k / 2 ^ 23 - 1)) = f32Fmt.mag k := rfl
      rw [e]
      congr 1
      simp only [Bool.false_eq_true, if_false, one_mul]
      rw [show (1074 : Nat) = 149 + (1074 - 149) from rfl, pow_add, Nat.cast_mul, Nat.cast_pow]
      rw [Nat.cast_ofNat, Nat.add_sub_cancel_left, mul_div_mul_right _ _ (by positivity)]
  neg := by
    intro k hk
    have hk' : k < 2 ^ 31 := hk
    have e : k + f32Fmt.signBit = k + 2 ^ 31 := rfl
    have h1 : (k + 2 ^ 31) / 2 ^ 23 % 2 ^ 8 = k / 2 ^ 23 := by omega
    have h3 : (k + 2 ^ 31) % 2 ^ 23 = k % 2 ^ 23 := by omega
    have h2 : (k + 2 ^ 31).testBit 31 = true := by
      rw [Nat.add_comm, Nat.testBit_two_pow_add_eq, Nat.testBit_lt_two_pow hk']; rfl
    have ht : f32Fmt.top = 255 * 2 ^ 23 := by decide +kernel
    have hs : f32Fmt.scale = 149 := by decide +kernel
    rw [ht, hs, e]
    simp only [Spec.single, Spec.binary32, h1, h2, h3]
    by_cases h : k / 2 ^ 23 = 2 ^ 8 - 1
    · rw [if_pos h, if_neg (show ¬ k < 255 * 2 ^ 23 by omega)]; rfl
    · rw [if_neg h, if_pos (show k < 255 * 2 ^ 23 by omega), Option.map_some]
      have e : (if k / 2 ^ 23 = 0 then k % 2 ^ 23 else (2 ^ 23 + k % 2 ^ 23) * 2 ^ (k / 2 ^ 23 - 1)) = f32Fmt.mag k := rfl
      rw [e]
      rw [if_pos rfl, neg_mul, one_mul, neg_div]
      rw [show (1074 : Nat) = 149 + (1074 - 149) from rfl, pow_add, Nat.cast_mul, Nat.cast_pow]
      rw [Nat.cast_ofNat, Nat.add_sub_cancel_left, mul_div_mul_right _ _ (by positivity)]

/-- `x` is between the middles of the intervals around the number `k`, or at an end when `k` is even -/
def Around (f : FloatFmt) (k : Nat) (x : ℚ) : Prop :=
  ((f.mag (k - 1) : ℚ) + f.mag k ≤ 2 * (x * 2 ^ f.scale) ∧ 2 * (x * 2 ^ f.scale) ≤ f.mag k + f.mag (k + 1)) ∧
  (k % 2 = 1 → (f.mag (k - 1) : ℚ) + f.mag k ≠ 2 * (x * 2 ^ f.scale) ∧ 2 * (x * 2 ^ f.scale) ≠ f.mag k + f.mag (k + 1))

section

variable {f : FloatFmt} {value : Nat → Option ℚ} {bits : Nat}

theorem scale_pos (f : FloatFmt) : (0 : ℚ) < 2 ^ f.scale := by positivity

theorem mag_cast_lt (f : FloatFmt) {a b : Nat} : (f.mag a : ℚ) < f.mag b ↔ a < b := by
  rw [Nat.cast_lt, f.mag_strict.lt_iff_lt]

theorem mag_cast_le (f : FloatFmt) {a b : Nat} : (f.mag a : ℚ) ≤ f.mag b ↔ a ≤ b := by
  rw [Nat.cast_le, f.mag_strict.le_iff_le]

theorem mag_cast_inj (f : FloatFmt) {a b : Nat} (h : (f.mag a : ℚ) = f.mag b) : a = b :=
  f.mag_strict.injective (Nat.cast_injective h)

/-- what the value of a finite float is -/
theorem value_cases (hf : IsFormat f value bits) {m : Nat} {w : ℚ} (hm : m < 2 ^ bits) (h : value m = some w) :
    ∃ j, j < f.top ∧ ((m = j ∧ w * 2 ^ f.scale = f.mag j) ∨ (m = j + f.signBit ∧ w * 2 ^ f.scale = -(f.mag j : ℚ))) := by
  have hS := scale_pos f
  rw [hf.bits_eq] at hm
  by_cases hlt : m < f.signBit
  · rw [hf.pos m hlt] at h
    split at h
    · rename_i hk
      injection h with h
      exact ⟨m, hk, .inl ⟨rfl, by rw [← h, div_mul_cancel₀ _ hS.ne']⟩⟩
    · cases h
  · obtain ⟨j, rfl⟩ : ∃ j, m = j + f.signBit := ⟨m - f.signBit, by omega⟩
    rw [hf.neg j (by omega)] at h
    split at h
    · rename_i hk
      injection h with h
      exact ⟨j, hk, .inr ⟨rfl, by rw [← h, neg_mul, div_mul_cancel₀ _ hS.ne']⟩⟩
    · cases h

theorem value_of_lt (hf : IsFormat f value bits) {k : Nat} (hk : k < f.top) :
    value k = some ((f.mag k : ℚ) / 2 ^ f.scale) := by
  rw [hf.pos k (hk.trans hf.top_lt), if_pos hk]

/-- distances, scaled -/
theorem dist_scaled (f : FloatFmt) (x v : ℚ) : |x - v| * 2 ^ f.scale = |x * 2 ^ f.scale - v * 2 ^ f.scale| := by
  rw [← sub_mul, abs_mul, abs_of_pos (scale_pos f)]

theorem around_near (hf : IsFormat f value bits) {k : Nat} {x : ℚ} (h1 : 1 ≤ k) (hx : Around f k x) {m : Nat} {w : ℚ}
    (hm : m < 2 ^ bits) (hw : value m = some w) (hne : w ≠ (f.mag k : ℚ) / 2 ^ f.scale) :
    |x - (f.mag k : ℚ) / 2 ^ f.scale| ≤ |x - w| ∧
      (|x - (f.mag k : ℚ) / 2 ^ f.scale| = |x - w| → k % 2 = 0 ∧ m % 2 = 1) := by
  have hS := scale_pos f
  have hS' : (2 : ℚ) ^ f.scale ≠ 0 := hS.ne'
  obtain ⟨j, hj, hcase⟩ := value_cases hf hm hw
  have hne' : w * 2 ^ f.scale ≠ f.mag k := by
    intro h; apply hne; rw [← h, mul_div_cancel_right₀ _ hS']
  have ev : (f.mag k : ℚ) / 2 ^ f.scale * 2 ^ f.scale = f.mag k := div_mul_cancel₀ _ hS'
  have d1 := dist_scaled f x ((f.mag k : ℚ) / 2 ^ f.scale)
  have d2 := dist_scaled f x w
  rw [ev] at d1
  rw [← mul_le_mul_iff_left₀ hS, d1, d2]
  have heq : (|x - (f.mag k : ℚ) / 2 ^ f.scale| = |x - w|) →
      |x * 2 ^ f.scale - f.mag k| = |x * 2 ^ f.scale - w * 2 ^ f.scale| := by
    intro h; rw [← d1, ← d2, h]
  suffices H : |x * 2 ^ f.scale - f.mag k| ≤ |x * 2 ^ f.scale - w * 2 ^ f.scale| ∧
      (|x * 2 ^ f.scale - f.mag k| = |x * 2 ^ f.scale - w * 2 ^ f.scale| → k % 2 = 0 ∧ m % 2 = 1) from
    ⟨H.1, fun h => H.2 (heq h)⟩
  clear heq d1 d2 ev hne hw
  obtain ⟨⟨lo, hi⟩, odd⟩ := hx
  generalize x * 2 ^ f.scale = X at *
  generalize w * 2 ^ f.scale = W at *
  have ha : (f.mag (k - 1) : ℚ) < f.mag k := (mag_cast_lt f).2 (by omega)
  have hb : (f.mag k : ℚ) < f.mag (k + 1) := (mag_cast_lt f).2 (by omega)
  have ha0 : (0 : ℚ) ≤ f.mag (k - 1) := Nat.cast_nonneg _
  have low : ∀ {W : ℚ}, W ≤ f.mag (k - 1) → |X - f.mag k| ≤ |X - W| ∧
      (|X - f.mag k| = |X - W| → W = f.mag (k - 1) ∧ (f.mag (k - 1) : ℚ) + f.mag k = 2 * X) := by
    intro W h
    have e : |X - W| = X - W := abs_of_nonneg (by linarith)
    rw [e]
    rcases abs_cases (X - f.mag k) with ⟨e, h0⟩ | ⟨e, h0⟩ <;> rw [e] <;> refine ⟨by linarith, fun h' => ⟨by linarith, by linarith⟩⟩
  have high : ∀ {W : ℚ}, (f.mag (k + 1) : ℚ) ≤ W → |X - f.mag k| ≤ |X - W| ∧
      (|X - f.mag k| = |X - W| → W = f.mag (k + 1) ∧ 2 * X = f.mag k + f.mag (k + 1)) := by
    intro W h
    have e : |X - W| = -(X - W) := abs_of_nonpos (by linarith)
    rw [e]
    rcases abs_cases (X - f.mag k) with ⟨e, h0⟩ | ⟨e, h0⟩ <;> rw [e] <;> refine ⟨by linarith, fun h' => ⟨by linarith, by linarith⟩⟩
  rcases hcase with ⟨rfl, hW⟩ | ⟨rfl, hW⟩
  · rcases Nat.lt_trichotomy m k with h | h | h
    · have hle : W ≤ f.mag (k - 1) := by rw [hW, mag_cast_le]; omega
      refine ⟨(low hle).1, fun h' => ?_⟩
      obtain ⟨e1, e2⟩ := (low hle).2 h'
      have hk : k % 2 ≠ 1 := fun hk => (odd hk).1 e2
      have hm' : m = k - 1 := mag_cast_inj f (by rw [← hW, e1])
      omega
    · exact absurd (h ▸ hW) hne'
    · have hle : (f.mag (k + 1) : ℚ) ≤ W := by rw [hW, mag_cast_le]; omega
      refine ⟨(high hle).1, fun h' => ?_⟩
      obtain ⟨e1, e2⟩ := (high hle).2 h'
      have hk : k % 2 ≠ 1 := fun hk => (odd hk).2 e2
      have hm' : m = k + 1 := mag_cast_inj f (by rw [← hW, e1])
      omega
  · have hj0 : (0 : ℚ) ≤ f.mag j := Nat.cast_nonneg _
    have hle : W ≤ f.mag (k - 1) := by rw [hW]; linarith
    refine ⟨(low hle).1, fun h' => ?_⟩
    obtain ⟨e1, e2⟩ := (low hle).2 h'
    have hk : k % 2 ≠ 1 := fun hk => (odd hk).1 e2
    have h0 : (f.mag (k - 1) : ℚ) = 0 := by linarith
    have : k - 1 = 0 := mag_cast_inj f (by rw [h0, f.mag_zero, Nat.cast_zero])
    omega

/-- the number in the middle is the nearest float … -/
theorem around_nearest (hf : IsFormat f value bits) {k : Nat} {x : ℚ} (h1 : 1 ≤ k) (hk : k < f.top) (hx : Around f k x) :
    Spec.Nearest value bits k x := by
  have hb : k < 2 ^ bits := by have := hf.bits_eq; have := hf.top_lt; omega
  refine ⟨hb, _, value_of_lt hf hk, fun m w hm hw hne => ?_⟩
  have := around_near hf h1 hx hm hw hne
  exact ⟨this.1, fun h => (this.2 h).1⟩

/-- … and no other one is -/
theorem nearest_eq (hf : IsFormat f value bits) {k n : Nat} {x : ℚ} (h1 : 1 ≤ k) (hk : k < f.top) (hx : Around f k x)
    (hn : Spec.Nearest value bits n x) : n = k := by
  obtain ⟨hnb, v, hv, hmin⟩ := hn
  have hb : k < 2 ^ bits := by have := hf.bits_eq; have := hf.top_lt; omega
  by_cases he : v = (f.mag k : ℚ) / 2 ^ f.scale
  · obtain ⟨j, hj, ⟨rfl, hw⟩ | ⟨rfl, hw⟩⟩ := value_cases hf hnb hv
    · rw [he, div_mul_cancel₀ _ (scale_pos f).ne'] at hw
      exact (mag_cast_inj f hw).symm
    · rw [he, div_mul_cancel₀ _ (scale_pos f).ne'] at hw
      have h0 : (f.mag 0 : ℚ) < f.mag k := (mag_cast_lt f).2 (by omega)
      have hj0 : (0 : ℚ) ≤ f.mag j := Nat.cast_nonneg _
      rw [f.mag_zero, Nat.cast_zero] at h0
      linarith
  · have a := around_near hf h1 hx hnb hv he
    have b := hmin k _ hb (value_of_lt hf hk) (fun h => he h.symm)
    have e := le_antisymm a.1 b.1
    have := (a.2 e).2
    have := b.2 e.symm
    omega

/-- the float with the other sign -/
def FloatFmt.flip (f : FloatFmt) (n : Nat) : Nat := if n < f.signBit then n + f.signBit else n - f.signBit

theorem value_flip (hf : IsFormat f value bits) {m : Nat} (hm : m < 2 ^ bits) :
    value (f.flip m) = (value m).map fun w => -w := by
  rw [hf.bits_eq] at hm
  unfold FloatFmt.flip
  split
  · rename_i h
    rw [hf.neg m h, hf.pos m h]
    split <;> rfl
  · rename_i h
    obtain ⟨j, rfl⟩ : ∃ j, m = j + f.signBit := ⟨m - f.signBit, by omega⟩
    rw [Nat.add_sub_cancel, hf.neg j (by omega), hf.pos j (by omega)]
    split
    · rw [Option.map_some, neg_neg]
    · rfl

theorem flip_lt (hf : IsFormat f value bits) {m : Nat} (hm : m < 2 ^ bits) : f.flip m < 2 ^ bits := by
  rw [hf.bits_eq] at *
  unfold FloatFmt.flip
  split <;> omega

theorem nearest_flip (hf : IsFormat f value bits) {n : Nat} {x : ℚ} (hn : Spec.Nearest value bits n x) :
    Spec.Nearest value bits (f.flip n) (-x) := by
  obtain ⟨hnb, v, hv, hmin⟩ := hn
  have he := hf.even
  refine ⟨flip_lt hf hnb, -v, by rw [value_flip hf hnb, hv]; rfl, fun m w hm hw hne => ?_⟩
  have h := hmin (f.flip m) (-w) (flip_lt hf hm) (by rw [value_flip hf hm, hw]; rfl) (fun h => hne (by rw [← h, neg_neg]))
  have e1 : |x - v| = |-x - -v| := by rw [← abs_neg]; congr 1; ring
  have e2 : |x - -w| = |-x - w| := by rw [← abs_neg]; congr 1; ring
  rw [← e1, ← e2]
  refine ⟨h.1, fun h' => ?_⟩
  have := h.2 h'
  unfold FloatFmt.flip
  split <;> omega

theorem nearest_neg_eq (hf : IsFormat f value bits) {k n : Nat} {x : ℚ} (h1 : 1 ≤ k) (hk : k < f.top) (hx : Around f k x)
    (hn : Spec.Nearest value bits n (-x)) : n = k + f.signBit := by
  have h := nearest_eq hf h1 hk hx (by rw [← neg_neg x]; exact nearest_flip hf hn)
  have ht := hf.top_lt
  unfold FloatFmt.flip at h
  split at h <;> omega

end

end Mybin
