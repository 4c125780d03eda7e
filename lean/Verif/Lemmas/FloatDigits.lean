/-
Lemmas on the number of digits of floats: 17 are enough, and how long the text without an exponent is.
-/
import Verif.Lemmas.FloatParse

namespace Mybin

theorem natText_bounds (n : Nat) : n < 10 ^ (natText n).length ∧ (0 < n → 10 ^ ((natText n).length - 1) ≤ n) := by
  have hl : 0 < (natText n).length := List.length_pos_iff.2 (natText_ne_nil n)
  refine ⟨lt_of_natText_length n _ hl le_rfl, fun hn => ?_⟩
  by_contra hc
  by_cases h1 : (natText n).length - 1 = 0
  · rw [h1, pow_zero] at hc; omega
  · have := natText_length n ((natText n).length - 1) (by omega) (by omega)
    omega

theorem ten_zpow_pos (e : Int) : (0 : ℚ) < 10 ^ e := zpow_pos (by norm_num) _

theorem ten_zpow_le {a b : Int} (h : a ≤ b) : (10 : ℚ) ^ a ≤ 10 ^ b := zpow_le_zpow_right₀ (by norm_num) h

/-- the place of the first digit -/
theorem digit_place_bounds (f : FloatFmt) (n : Nat) (h1 : 1 ≤ n) :
    (10 : ℚ) ^ f.place n * 2 ^ f.scale ≤ f.mag n ∧ (f.mag n : ℚ) < 10 ^ (f.place n + 1) * 2 ^ f.scale := by
  have hm : 0 < f.mag n := by
    have := f.mag_strict (show 0 < n by omega)
    rwa [f.mag_zero] at this
  have hU : 0 < 2 ^ f.scale := Nat.two_pow_pos _
  have ten : (10 : ℚ) ≠ 0 := by norm_num
  unfold FloatFmt.place
  dsimp only
  have eU : ((2 ^ f.scale : Nat) : ℚ) = 2 ^ f.scale := by push_cast; rfl
  rw [← eU]
  generalize 2 ^ f.scale = U at *
  generalize f.mag n = v at *
  have hUq : (0 : ℚ) < U := by exact_mod_cast hU
  split
  · rename_i h
    obtain ⟨b1, b2⟩ := natText_bounds (v / U)
    have hl : 0 < (natText (v / U)).length := List.length_pos_iff.2 (natText_ne_nil _)
    have b2 := b2 (Nat.div_pos h hU)
    generalize (natText (v / U)).length = L at *
    have e1 : (10 : ℚ) ^ ((L : Int) - 1) = ((10 ^ (L - 1) : Nat) : ℚ) := by
      rw [show (L : Int) - 1 = ((L - 1 : Nat) : Int) by omega, zpow_natCast]; push_cast; rfl
    have e2 : (10 : ℚ) ^ ((L : Int) - 1 + 1) = ((10 ^ L : Nat) : ℚ) := by
      rw [show (L : Int) - 1 + 1 = (L : Int) by omega, zpow_natCast]; push_cast; rfl
    rw [e1, e2]
    constructor
    · have := (Nat.le_div_iff_mul_le hU).1 b2
      exact_mod_cast this
    · have := (Nat.div_lt_iff_lt_mul hU).1 b1
      exact_mod_cast this
  · rename_i h
    have hv : v < U := by omega
    have hq : 1 ≤ (U + v - 1) / v - 1 := by
      have : 2 ≤ (U + v - 1) / v := (Nat.le_div_iff_mul_le hm).2 (by omega)
      omega
    have c1 : U ≤ (U + v - 1) / v * v := by
      have := Nat.div_add_mod (U + v - 1) v
      have := Nat.mod_lt (U + v - 1) hm
      rw [Nat.mul_comm]
      omega
    have c2 : ((U + v - 1) / v - 1) * v < U := by
      have := Nat.div_mul_le_self (U + v - 1) v
      rw [Nat.sub_mul]
      omega
    obtain ⟨b1, b2⟩ := natText_bounds ((U + v - 1) / v - 1)
    have b2 := b2 (by omega)
    have hl : 0 < (natText ((U + v - 1) / v - 1)).length := List.length_pos_iff.2 (natText_ne_nil _)
    generalize (natText ((U + v - 1) / v - 1)).length = L at *
    generalize (U + v - 1) / v = q at *
    have vq : (0 : ℚ) < v := by exact_mod_cast hm
    constructor
    · rw [zpow_neg, zpow_natCast, inv_mul_le_iff₀ (by positivity)]
      have : U ≤ 10 ^ L * v := c1.trans (Nat.mul_le_mul_right _ (by omega))
      exact_mod_cast this
    · rw [show -(L : Int) + 1 = -((L - 1 : Nat) : Int) by omega, zpow_neg, zpow_natCast, lt_inv_mul_iff₀ (by positivity)]
      have : 10 ^ (L - 1) * v < U := lt_of_le_of_lt (Nat.mul_le_mul_right _ b2) c2
      exact_mod_cast this

/-- the numbers of `k` digits around a float: how far they are, and how many digits they have -/
theorem around_members (f : FloatFmt) (n k : Nat) (h1 : 1 ≤ n) :
    (∀ x ∈ f.around n k, f.place n + 1 - k ≤ x.2 ∧ x.1 ≤ 10 ^ k ∧ (x.1 : ℚ) * 10 ^ x.2 ≤ 10 ^ (f.place n + 1)) ∧
    ∃ x ∈ f.around n k, 2 * |(x.1 : ℚ) * 10 ^ x.2 * 2 ^ f.scale - f.mag n| ≤ 10 ^ (f.place n + 1 - k) * 2 ^ f.scale := by
  obtain ⟨-, pb⟩ := digit_place_bounds f n h1
  have hS := scale_pos f
  have ten : (10 : ℚ) ≠ 0 := by norm_num
  unfold FloatFmt.around
  dsimp only
  have epl : (10 : ℚ) ^ (f.place n + 1) = 10 ^ (f.place n + 1 - k) * 10 ^ k := by
    rw [← zpow_natCast, ← zpow_add₀ ten]; congr 1; omega
  rw [epl] at pb ⊢
  generalize f.place n + 1 - (k : Int) = e at *
  have hE := ten_zpow_pos e
  -- the quotient
  have hden : 0 < 2 ^ f.scale * 10 ^ e.toNat := by positivity
  have hq : ((f.mag n * 10 ^ (-e).toNat : Nat) : ℚ) * (10 ^ e * 2 ^ f.scale) = f.mag n * ((2 ^ f.scale * 10 ^ e.toNat : Nat) : ℚ) := by
    push_cast
    by_cases h : 0 ≤ e
    · obtain ⟨j, rfl⟩ := Int.eq_ofNat_of_zero_le h
      simp only [Int.toNat_natCast, Int.toNat_neg_natCast, zpow_natCast, pow_zero]
      ring
    · obtain ⟨j, rfl⟩ : ∃ j : Nat, e = -(j : Int) := ⟨(-e).toNat, by omega⟩
      simp only [neg_neg, Int.toNat_natCast, Int.toNat_neg_natCast, pow_zero, zpow_neg, zpow_natCast]
      field_simp
  generalize f.mag n * 10 ^ (-e).toNat = num at *
  generalize 2 ^ f.scale * 10 ^ e.toNat = den at *
  have hdq : (0 : ℚ) < den := by exact_mod_cast hden
  have q1 : num / den * den ≤ num := Nat.div_mul_le_self _ _
  have q2 : num < (num / den + 1) * den := (Nat.div_lt_iff_lt_mul hden).1 (Nat.lt_succ_self _)
  generalize num / den = d at *
  generalize hM : (f.mag n : ℚ) = M at *
  generalize hW : (10 : ℚ) ^ e * 2 ^ f.scale = W at *
  have hWp : 0 < W := by rw [← hW]; positivity
  have r1 : (d : ℚ) * W ≤ M := by
    have : (d : ℚ) * den ≤ num := by exact_mod_cast q1
    rw [← mul_le_mul_iff_left₀ hdq, ← hq]
    nlinarith
  have r2 : M < ((d : ℚ) + 1) * W := by
    have : (num : ℚ) < ((d : ℚ) + 1) * den := by exact_mod_cast q2
    rw [← mul_lt_mul_iff_left₀ hdq, ← hq]
    nlinarith
  have hdk : d < 10 ^ k := by
    have : (d : ℚ) * W < 10 ^ k * W := by
      calc (d : ℚ) * W ≤ M := r1
        _ < 10 ^ e * 10 ^ k * 2 ^ f.scale := pb
        _ = 10 ^ k * W := by rw [← hW]; ring
    have := lt_of_mul_lt_mul_right this hWp.le
    exact_mod_cast this
  have hup : ∀ x : Nat × Int, x = (if d + 1 = 10 ^ k then ((1, e + k) : Nat × Int) else (d + 1, e)) →
      e ≤ x.2 ∧ x.1 ≤ 10 ^ k ∧ (x.1 : ℚ) * 10 ^ x.2 = ((d : ℚ) + 1) * 10 ^ e := by
    intro x hx
    split at hx
    · rename_i hd
      subst hx
      refine ⟨by dsimp only; omega, Nat.one_le_pow _ _ (by omega), ?_⟩
      have : ((d : ℚ) + 1) = 10 ^ k := by exact_mod_cast hd
      rw [this]
      dsimp only
      rw [zpow_add₀ ten, zpow_natCast]
      push_cast
      ring
    · subst hx
      exact ⟨le_rfl, by dsimp only; omega, by push_cast; rfl⟩
  have hdk' : ((d : ℚ) + 1) ≤ 10 ^ k := by exact_mod_cast hdk
  generalize (if d + 1 = 10 ^ k then ((1, e + k) : Nat × Int) else (d + 1, e)) = up at *
  obtain ⟨u1, u2, u3⟩ := hup up rfl
  have mem : ∀ x : Nat × Int, x = (d, e) ∨ x = up → e ≤ x.2 ∧ x.1 ≤ 10 ^ k ∧ (x.1 : ℚ) * 10 ^ x.2 ≤ 10 ^ e * 10 ^ k := by
    rintro x (rfl | rfl)
    · refine ⟨le_rfl, hdk.le, ?_⟩
      dsimp only
      nlinarith
    · refine ⟨u1, u2, ?_⟩
      rw [u3]
      nlinarith
  have near : 2 * num ≤ (2 * d + 1) * den → 2 * |(d : ℚ) * 10 ^ e * 2 ^ f.scale - M| ≤ W := by
    intro hh
    have hh : 2 * (num : ℚ) ≤ (2 * d + 1) * den := by exact_mod_cast hh
    have : 2 * M ≤ (2 * d + 1) * W := by
      rw [← mul_le_mul_iff_left₀ hdq]
      nlinarith
    have e0 : (d : ℚ) * 10 ^ e * 2 ^ f.scale = d * W := by rw [← hW]; ring
    rw [e0, abs_of_nonpos (by linarith)]
    linarith
  have far : ¬ 2 * num ≤ (2 * d + 1) * den → 2 * |(up.1 : ℚ) * 10 ^ up.2 * 2 ^ f.scale - M| ≤ W := by
    intro hh
    have hh : (2 * d + 1) * (den : ℚ) < 2 * num := by
      have : (2 * d + 1) * den < 2 * num := by omega
      exact_mod_cast this
    have : (2 * d + 1) * W ≤ 2 * M := by
      rw [← mul_le_mul_iff_left₀ hdq]
      nlinarith
    have e0 : (up.1 : ℚ) * 10 ^ up.2 * 2 ^ f.scale = (d + 1) * W := by rw [u3, ← hW]; ring
    rw [e0, abs_of_nonneg (by linarith)]
    linarith
  split
  · rename_i hh
    refine ⟨fun x hx => mem x (by simpa using hx), (d, e), by simp, near hh⟩
  · rename_i hh
    refine ⟨fun x hx => mem x (by simpa [or_comm] using hx), up, by simp, far hh⟩

/-- the distance to the float before, and to the one after -/
theorem mag_gap (f : FloatFmt) (n : Nat) (h1 : 1 ≤ n) :
    f.mag n ≤ 2 ^ (f.frac + 1) * (f.mag n - f.mag (n - 1)) ∧ f.mag n - f.mag (n - 1) ≤ f.mag (n + 1) - f.mag n := by
  have hP : 0 < 2 ^ f.frac := Nat.two_pow_pos _
  obtain ⟨e, a, rfl, ha, hc⟩ : ∃ e a, n = e * 2 ^ f.frac + a ∧ a < 2 ^ (f.frac + 1) ∧ (2 ^ f.frac < a ∨ (e = 0 ∧ 1 ≤ a) ∨ (a = 2 ^ f.frac ∧ 1 ≤ e)) := by
    have hd := Nat.div_add_mod n (2 ^ f.frac)
    have hr := Nat.mod_lt n hP
    rw [pow_succ]
    generalize 2 ^ f.frac = P at *
    generalize n / P = q at *
    generalize n % P = r at *
    by_cases hq : q = 0
    · subst hq
      exact ⟨0, r, by omega, by omega, .inr (.inl ⟨rfl, by omega⟩)⟩
    · obtain ⟨p, rfl⟩ := Nat.exists_eq_succ_of_ne_zero hq
      refine ⟨p, P + r, by rw [← hd, Nat.succ_eq_add_one]; ring, by omega, ?_⟩
      omega
  rw [Nat.add_assoc, mag_at f e a (by omega) (by omega), mag_at f e (a + 1) (by omega) (by omega)]
  rw [pow_succ] at *
  have hT := Nat.two_pow_pos e
  rcases hc with hc | hc | hc
  · have e1 : e * 2 ^ f.frac + a - 1 = e * 2 ^ f.frac + (a - 1) := by omega
    rw [e1, mag_at f e (a - 1) (by rw [pow_succ]; omega) (by omega)]
    obtain ⟨b, rfl⟩ : ∃ b, a = b + 1 := ⟨a - 1, by omega⟩
    rw [Nat.add_sub_cancel, Nat.add_mul (b + 1), Nat.add_sub_cancel_left, Nat.add_mul b, Nat.add_sub_cancel_left, Nat.one_mul]
    refine ⟨?_, le_rfl⟩
    have : (b + 1) * 2 ^ e ≤ 2 ^ f.frac * 2 * 2 ^ e := Nat.mul_le_mul_right _ (by omega)
    rwa [Nat.add_mul, Nat.one_mul] at this
  · obtain ⟨rfl, hc⟩ := hc
    have e1 : 0 * 2 ^ f.frac + a - 1 = 0 * 2 ^ f.frac + (a - 1) := by omega
    rw [e1, mag_at f 0 (a - 1) (by rw [pow_succ]; omega) (.inr rfl)]
    rw [pow_zero, Nat.mul_one, Nat.mul_one, Nat.mul_one, show a - (a - 1) = 1 by omega, show a + 1 - a = 1 by omega]
    omega
  · obtain ⟨rfl, hc⟩ := hc
    obtain ⟨p, rfl⟩ : ∃ p, e = p + 1 := ⟨e - 1, by omega⟩
    have e1 : (p + 1) * 2 ^ f.frac + 2 ^ f.frac - 1 = p * 2 ^ f.frac + (2 ^ f.frac * 2 - 1) := by
      rw [Nat.add_mul]; omega
    rw [e1, mag_at f p (2 ^ f.frac * 2 - 1) (by rw [pow_succ]; omega) (.inl (by omega)), pow_succ]
    have hT := Nat.two_pow_pos p
    generalize 2 ^ p = T at *
    generalize 2 ^ f.frac = P at *
    have e2 : P * (T * 2) - (P * 2 - 1) * T = T := by
      rw [Nat.sub_mul, Nat.one_mul]
      have : P * (T * 2) = P * 2 * T := by ring
      have : T ≤ P * 2 * T := Nat.le_mul_of_pos_left _ (by omega)
      omega
    have e3 : (P + 1) * (T * 2) - P * (T * 2) = T * 2 := by rw [Nat.add_mul]; omega
    rw [e2, e3]
    refine ⟨?_, by omega⟩
    have : P * (T * 2) = P * 2 * T := by ring
    omega

/-- strictly between the middles -/
theorem inside_of_near (f : FloatFmt) (n : Nat) (x : Nat × Int) (h1 : 1 ≤ n)
    (h : 2 * |(x.1 : ℚ) * 10 ^ x.2 * 2 ^ f.scale - f.mag n| < f.mag n - f.mag (n - 1)) :
    f.inside n (FloatFmt.fixed x.1 x.2).1 (FloatFmt.fixed x.1 x.2).2 = true := by
  have hg : (f.mag n : ℚ) - f.mag (n - 1) ≤ f.mag (n + 1) - f.mag n := by
    have a := (mag_gap f n h1).2
    have b := f.mag_succ n
    have c := f.mag_strict (show n - 1 < n by omega)
    have : f.mag n + f.mag n ≤ f.mag (n + 1) + f.mag (n - 1) := by omega
    have : (f.mag n : ℚ) + f.mag n ≤ f.mag (n + 1) + f.mag (n - 1) := by exact_mod_cast this
    linarith
  rw [← fixed_value] at h
  generalize (FloatFmt.fixed x.1 x.2).1 = i at *
  generalize (FloatFmt.fixed x.1 x.2).2 = s at *
  have hS := scale_pos f
  have hT : (0 : ℚ) < 10 ^ s := by positivity
  have hx : (i : ℚ) / 10 ^ s * 2 ^ f.scale * 2 * 10 ^ s = ((i * 2 ^ (f.scale + 1) : Nat) : ℚ) := by
    push_cast; rw [pow_succ]; field_simp
  have lo : ((f.mag (n - 1) + f.mag n) * 10 ^ s : Nat) < i * 2 ^ (f.scale + 1) := by
    have : ((f.mag (n - 1) : ℚ) + f.mag n) * 10 ^ s < (i : ℚ) / 10 ^ s * 2 ^ f.scale * 2 * 10 ^ s := by
      apply mul_lt_mul_of_pos_right _ hT
      have := neg_abs_le ((i : ℚ) / 10 ^ s * 2 ^ f.scale - f.mag n)
      linarith
    rw [hx] at this
    exact_mod_cast this
  have hi : i * 2 ^ (f.scale + 1) < ((f.mag n + f.mag (n + 1)) * 10 ^ s : Nat) := by
    have : (i : ℚ) / 10 ^ s * 2 ^ f.scale * 2 * 10 ^ s < ((f.mag n : ℚ) + f.mag (n + 1)) * 10 ^ s := by
      apply mul_lt_mul_of_pos_right _ hT
      have := le_abs_self ((i : ℚ) / 10 ^ s * 2 ^ f.scale - f.mag n)
      linarith
    rw [hx] at this
    exact_mod_cast this
  unfold FloatFmt.inside
  dsimp only
  split
  · exact decide_eq_true ⟨lo.le, hi.le⟩
  · exact decide_eq_true ⟨lo, hi⟩

/-- 17 digits are enough -/
theorem shortest_found (f : FloatFmt) (hf : f.frac ≤ 52) (n : Nat) (h1 : 1 ≤ n) :
    ∃ k, 1 ≤ k ∧ k ≤ 17 ∧ f.shortest n ∈ f.around n k := by
  have key : ∃ x ∈ f.around n 17, f.inside n (FloatFmt.fixed x.1 x.2).1 (FloatFmt.fixed x.1 x.2).2 = true := by
    obtain ⟨-, x, hx, h⟩ := around_members f n 17 h1
    refine ⟨x, hx, inside_of_near f n x h1 (lt_of_le_of_lt h ?_)⟩
    have pl := (digit_place_bounds f n h1).1
    have g := (mag_gap f n h1).1
    have c := f.mag_strict (show n - 1 < n by omega)
    have hp : 2 ^ (f.frac + 1) ≤ 2 ^ 53 := Nat.pow_le_pow_right (by omega) (by omega)
    have g : f.mag n ≤ 2 ^ 53 * (f.mag n - f.mag (n - 1)) := g.trans (Nat.mul_le_mul_right _ hp)
    have gq : (f.mag n : ℚ) ≤ 2 ^ 53 * ((f.mag n : ℚ) - f.mag (n - 1)) := by
      have : ((f.mag n : Nat) : ℚ) ≤ ((2 ^ 53 * (f.mag n - f.mag (n - 1)) : Nat) : ℚ) := by exact_mod_cast g
      rw [Nat.cast_mul, Nat.cast_sub c.le] at this
      exact_mod_cast this
    have cq : (f.mag (n - 1) : ℚ) < f.mag n := by exact_mod_cast c
    have e : (10 : ℚ) ^ f.place n = 10 ^ (f.place n + 1 - (17 : Nat)) * 10 ^ 16 := by
      rw [← zpow_natCast, ← zpow_add₀ (by norm_num)]; congr 1
      push_cast; ring
    rw [e] at pl
    generalize (10 : ℚ) ^ (f.place n + 1 - (17 : Nat)) = E at *
    have : E * 2 ^ f.scale * 10 ^ 16 < ((f.mag n : ℚ) - f.mag (n - 1)) * 10 ^ 16 := by
      calc E * 2 ^ f.scale * 10 ^ 16 = E * 10 ^ 16 * 2 ^ f.scale := by ring
        _ ≤ (f.mag n : ℚ) := pl
        _ ≤ 2 ^ 53 * ((f.mag n : ℚ) - f.mag (n - 1)) := gq
        _ < ((f.mag n : ℚ) - f.mag (n - 1)) * 10 ^ 16 := by nlinarith
    exact lt_of_mul_lt_mul_right this (by norm_num)
  unfold FloatFmt.shortest
  cases h : ((List.range 17).findSome? fun k => (f.around n (k + 1)).find? fun x =>
      f.inside n (FloatFmt.fixed x.1 x.2).1 (FloatFmt.fixed x.1 x.2).2) with
  | some x =>
    obtain ⟨k, hk, hx⟩ := List.exists_of_findSome?_eq_some h
    rw [List.mem_range] at hk
    exact ⟨k + 1, by omega, by omega, List.mem_of_find?_eq_some hx⟩
  | none =>
    exfalso
    rw [List.findSome?_eq_none_iff] at h
    have := h 16 (by simp)
    rw [List.find?_eq_none] at this
    obtain ⟨x, hx, hin⟩ := key
    exact this x hx hin

theorem digitCount_pointText (i s : Nat) :
    Spec.digitCount (FloatFmt.pointText i s) = if s = 0 then (natText i).length else max (s + 1) (natText i).length := by
  unfold FloatFmt.pointText
  split
  · exact digitCount_digits (natText_digits i)
  · have hd := padText_digits (s + 1) i
    have hl := padText_length_ge (s + 1) i
    have hn : (padText (s + 1) i).length = max (s + 1) (natText i).length := by
      rw [padText, List.length_append, List.length_replicate]; omega
    dsimp only
    generalize padText (s + 1) i = t at *
    rw [digitCount_append, digitCount_append, digitCount_digits (take_digits hd _), digitCount_digits (drop_allDigits hd _),
      List.length_take, List.length_drop, show Spec.digitCount (asc ".") = 0 by decide +kernel]
    omega

/-- numbers that are neither very small nor very large have at most 65 digits -/
theorem fixed_count (f : FloatFmt) (hf : f.frac ≤ 52) (n : Nat) (h1 : 1 ≤ n)
    (hlo : (10 : ℚ) ^ (-48 : Int) * 2 ^ f.scale ≤ f.mag n) (hhi : (f.mag n : ℚ) < 10 ^ (64 : Int) * 2 ^ f.scale) :
    let x := FloatFmt.fixed (f.shortest n).1 (f.shortest n).2
    Spec.digitCount (FloatFmt.pointText x.1 x.2) ≤ 65 := by
  obtain ⟨k, k1, k2, hm⟩ := shortest_found f hf n h1
  obtain ⟨a1, a2, a3⟩ := (around_members f n k h1).1 _ hm
  obtain ⟨p1, p2⟩ := digit_place_bounds f n h1
  have hS := scale_pos f
  have lt_of : ∀ a b : Int, (10 : ℚ) ^ a * 2 ^ f.scale < 10 ^ b * 2 ^ f.scale → a < b := by
    intro a b h
    have := lt_of_mul_lt_mul_right h hS.le
    exact (zpow_lt_zpow_iff_right₀ (by norm_num)).1 this
  have hp1 : f.place n < 64 := lt_of _ _ (lt_of_le_of_lt p1 hhi)
  have hp2 : -48 < f.place n + 1 := lt_of _ _ (lt_of_le_of_lt hlo p2)
  dsimp only
  rw [digitCount_pointText]
  generalize (f.shortest n).1 = D at *
  generalize (f.shortest n).2 = e at *
  unfold FloatFmt.fixed
  split
  · rename_i he
    obtain ⟨j, rfl⟩ := Int.eq_ofNat_of_zero_le he
    rw [if_pos rfl]
    apply natText_length _ _ (by omega)
    have : ((D * 10 ^ j : Nat) : ℚ) ≤ ((10 ^ 64 : Nat) : ℚ) := by
      push_cast
      calc (D : ℚ) * 10 ^ j = D * 10 ^ (Int.ofNat j) := by simp
        _ ≤ 10 ^ (f.place n + 1) := a3
        _ ≤ 10 ^ (64 : Int) := ten_zpow_le (by omega)
        _ = 10 ^ 64 := by norm_num
    have : D * 10 ^ j ≤ 10 ^ 64 := by exact_mod_cast this
    show D * 10 ^ j < 10 ^ 65
    exact lt_of_le_of_lt this (by norm_num)
  · rename_i he
    have hD : D < 10 ^ 65 := lt_of_le_of_lt (a2.trans (Nat.pow_le_pow_right (by omega) k2)) (by norm_num)
    have := natText_length D 65 (by omega) hD
    dsimp only
    rw [if_neg (by omega)]
    omega

/-- numbers that are very large have more -/
theorem fixed_count_large (f : FloatFmt) (n : Nat) (h1 : 1 ≤ n) (hlo : (10 : ℚ) ^ 66 * 2 ^ f.scale ≤ f.mag n) :
    let x := FloatFmt.fixed (f.shortest n).1 (f.shortest n).2
    (10 : ℚ) ^ 65 ≤ (x.1 : ℚ) / 10 ^ x.2 ∧ 10 ^ 65 ≤ x.1 ∧ 65 < Spec.digitCount (FloatFmt.pointText x.1 x.2) := by
  have hA := shortest_around f n h1
  rw [← fixed_value] at hA
  dsimp only
  generalize (FloatFmt.fixed (f.shortest n).1 (f.shortest n).2).1 = i at *
  generalize (FloatFmt.fixed (f.shortest n).1 (f.shortest n).2).2 = s at *
  have hS := scale_pos f
  have lo := hA.1.1
  have h0 : (0 : ℚ) ≤ f.mag (n - 1) := Nat.cast_nonneg _
  have hv : (10 : ℚ) ^ 65 ≤ (i : ℚ) / 10 ^ s := by
    have : (10 : ℚ) ^ 65 * 2 ^ f.scale ≤ (i : ℚ) / 10 ^ s * 2 ^ f.scale := by
      have : (10 : ℚ) ^ 66 = 10 * 10 ^ 65 := by norm_num
      have : (0 : ℚ) ≤ 10 ^ 65 * 2 ^ f.scale := by positivity
      nlinarith
    exact le_of_mul_le_mul_right this hS
  have hi : 10 ^ 65 ≤ i := by
    have h10 : (1 : ℚ) ≤ 10 ^ s := one_le_pow₀ (by norm_num)
    have : (i : ℚ) / 10 ^ s ≤ i := (div_le_iff₀ (by positivity)).2 (le_mul_of_one_le_right (Nat.cast_nonneg _) h10)
    have : (10 : ℚ) ^ 65 ≤ i := hv.trans this
    exact_mod_cast this
  refine ⟨hv, hi, ?_⟩
  by_contra hc
  have := (pointText_count i s (by omega)).1
  omega

end Mybin
