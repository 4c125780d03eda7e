/-
Big-endian reads and bit-flipping facts for the binlog value decoders.
-/
import Verif.Lemmas.Invert
import Verif.Lemmas.Times
import Verif.Model.BinlogCol
import Verif.Spec.Rows

namespace Mybin

theorem beVal_be (k n : Nat) : beVal (Spec.be k n) = n % 256 ^ k := by
  rw [beVal, Spec.be, List.reverse_reverse, leVal_spec_le]

theorem readBeU16_be (n : Nat) (rest : Bytes) (h : n < 2 ^ 16) :
    readBeU16 (Spec.be 2 n ++ rest) = .ok n rest := by
  rw [readBeU16, (fixedRead_readFixed 2 beVal).append _ _ (by simp), beVal_be, Nat.mod_eq_of_lt (by omega)]

theorem readBeU24_be (n : Nat) (rest : Bytes) (h : n < 2 ^ 24) :
    readBeU24 (Spec.be 3 n ++ rest) = .ok n rest := by
  rw [fixedRead_beU24.append _ _ (by simp), beVal_be, Nat.mod_eq_of_lt (by omega)]

theorem readBeU32_be (n : Nat) (rest : Bytes) (h : n < 2 ^ 32) :
    readBeU32 (Spec.be 4 n ++ rest) = .ok n rest := by
  rw [readBeU32, (fixedRead_readFixed 4 beVal).append _ _ (by simp), beVal_be, Nat.mod_eq_of_lt (by omega)]

theorem readBeU40_be (n : Nat) (rest : Bytes) (h : n < 2 ^ 40) :
    readBeU40 (Spec.be 5 n ++ rest) = .ok n rest := by
  rw [fixedRead_beU40.append _ _ (by simp), beVal_be, Nat.mod_eq_of_lt (by omega)]

theorem beVal_lt (bs : Bytes) : beVal bs < 256 ^ bs.length := by
  have := leVal_lt bs.reverse
  rwa [List.length_reverse] at this

theorem beVal_cons (b : UInt8) (t : Bytes) : beVal (b :: t) = b.toNat * 256 ^ t.length + beVal t := by
  unfold beVal
  rw [List.reverse_cons, leVal_append]
  simp [leVal]
  ring

theorem spec_be_add (j k n : Nat) :
    Spec.be (j + k) n = Spec.be j (n / 256 ^ k) ++ Spec.be k (n % 256 ^ k) := by
  unfold Spec.be
  rw [← List.reverse_append]
  congr 1
  unfold Spec.le
  rw [Nat.add_comm j k, List.range_add, List.map_append, List.map_map]
  congr 1
  · apply List.map_congr_left
    intro i hi
    rw [List.mem_range] at hi
    congr 1
    obtain ⟨d, rfl⟩ : ∃ d, k = i + 1 + d := ⟨k - i - 1, by omega⟩
    rw [← Nat.mod_mod_of_dvd (n / 256 ^ i) (dvd_refl 256)]
    rw [Nat.pow_add, Nat.pow_succ]
    rw [Nat.mul_assoc, Nat.mod_mul_right_div_self]
    rw [Nat.mod_mod_of_dvd _ (dvd_mul_right 256 _), Nat.mod_mod]
  · apply List.map_congr_left
    intro i _
    simp only [Function.comp_apply]
    rw [Nat.pow_add, Nat.div_div_eq_div_mul]

/-! ### bits -/

theorem xor_ones (w v : Nat) (h : v < 2 ^ w) : v ^^^ (2 ^ w - 1) = 2 ^ w - 1 - v := by
  apply Nat.eq_of_testBit_eq
  intro i
  rw [Nat.testBit_xor, Nat.testBit_two_pow_sub_one, Nat.sub_sub, Nat.add_comm 1 v,
    Nat.testBit_two_pow_sub_succ h]
  by_cases hi : i < w
  · simp [hi]
  · have : v.testBit i = false := Nat.testBit_lt_two_pow (lt_of_lt_of_le h (Nat.pow_le_pow_right (by omega) (by omega)))
    simp [hi, this]

theorem xor_top_low (i v : Nat) (h : v < 2 ^ i) : v ^^^ 2 ^ i = v + 2 ^ i := by
  have h1 := Nat.two_pow_add_eq_or_of_lt h 1
  rw [Nat.mul_one] at h1
  rw [Nat.add_comm, h1]
  apply Nat.eq_of_testBit_eq
  intro j
  rw [Nat.testBit_xor, Nat.testBit_or, Nat.testBit_two_pow]
  by_cases hj : i = j
  · subst hj
    simp [Nat.testBit_lt_two_pow h]
  · simp [hj]

theorem xor_top_high (i v : Nat) (h : 2 ^ i ≤ v) (h2 : v < 2 ^ (i + 1)) : v ^^^ 2 ^ i = v - 2 ^ i := by
  have h3 : v - 2 ^ i < 2 ^ i := by rw [Nat.pow_succ] at h2; omega
  have h4 := xor_top_low i _ h3
  rw [Nat.sub_add_cancel h] at h4
  rw [← h4, Nat.xor_assoc, Nat.xor_self, Nat.xor_zero]
  omega

theorem and_top (i v : Nat) (h2 : v < 2 ^ (i + 1)) : (v &&& 2 ^ i != 2 ^ i) = decide (v < 2 ^ i) := by
  have hp : 0 < 2 ^ i := Nat.two_pow_pos i
  by_cases h : v < 2 ^ i
  · have : v &&& 2 ^ i = 0 := by
      apply Nat.eq_of_testBit_eq
      intro j
      rw [Nat.testBit_and, Nat.testBit_two_pow, Nat.zero_testBit]
      by_cases hj : i = j
      · subst hj; simp [Nat.testBit_lt_two_pow h]
      · simp [hj]
    rw [this]; simp [h]; omega
  · have : v &&& 2 ^ i = 2 ^ i := by
      apply Nat.eq_of_testBit_eq
      intro j
      rw [Nat.testBit_and, Nat.testBit_two_pow]
      by_cases hj : i = j
      · subst hj
        have : v.testBit i = true := by
          rw [Nat.testBit_eq_decide_div_mod_eq]
          have : v / 2 ^ i = 1 := by
            rw [Nat.pow_succ] at h2
            rw [Nat.div_eq_iff hp]; omega
          simp [this]
        simp [this]
      · simp [hj]
    rw [this]; simp [h]

end Mybin
