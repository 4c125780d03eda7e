/- Stepping through a decoder on an encoded input. -/
import Verif.Lemmas.MyEnc
import Verif.Model.Flag

namespace Mybin

/-- rewrite the first reader of a `do` block with its known result -/
macro "step " h:term : tactic => `(tactic| rw [P.bind_apply, $h:term, R.bind_ok])

theorem hasFlag_eq_testBit (n k : Nat) : hasFlag n (2 ^ k) = n.testBit k := by
  unfold hasFlag
  rw [Nat.and_two_pow]
  cases h : n.testBit k
  · simp; exact (Nat.two_pow_pos k).ne
  · simp

theorem statusFromBits_ok (s : Nat) (h : s < 2 ^ 15) : statusFromBits s = some s := by
  unfold statusFromBits Status.ALL
  have : s &&& 0x7fff = s % 2 ^ 15 := Nat.and_two_pow_sub_one_eq_mod s 15
  rw [this, Nat.mod_eq_of_lt h, if_pos rfl]

theorem statusFromBits_some {s t : Nat} (h : statusFromBits s = some t) : t = s := by
  unfold statusFromBits at h
  split at h
  · exact (Option.some.inj h).symm
  · cases h

theorem statusFromBits_none (s : Nat) (hs : s < 2 ^ 16) (h : 2 ^ 15 ≤ s) :
    statusFromBits s = none := by
  unfold statusFromBits Status.ALL
  have : s &&& 0x7fff = s % 2 ^ 15 := Nat.and_two_pow_sub_one_eq_mod s 15
  rw [this, if_neg (by omega)]

/-- a `u8` value written in the spec, at the head of the input -/
theorem u8_append (n : Nat) (rest : Bytes) : Spec.u8 n ++ rest = UInt8.ofNat n :: rest := rfl

end Mybin
