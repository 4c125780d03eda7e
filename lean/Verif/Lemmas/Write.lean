/- The writers, in the vocabulary of the specification. -/
import Verif.Lemmas.MyEnc

namespace Mybin

theorem leBytes_one (n : Nat) : leBytes 1 n = Spec.u8 n := by
  simp only [leBytes, Spec.u8, List.cons.injEq, and_true]
  apply UInt8.toNat.inj
  simp [UInt8.toNat_ofNat']

theorem Spec.le_one (n : Nat) : Spec.le 1 n = Spec.u8 n := by
  rw [← leBytes_eq_spec, leBytes_one]

theorem writeBytes_spec (out s : Bytes) : writeBytes out s = (out ++ s, s.length) := rfl
theorem writeU8_spec (out : Bytes) (n : Nat) : writeU8 out n = (out ++ Spec.u8 n, 1) := by
  rw [writeU8, leBytes_one]
theorem writeI8_spec (out : Bytes) (i : Int) :
    writeI8 out i = (out ++ Spec.u8 (Spec.pattern 8 i), 1) := by
  rw [writeI8, leBytes_one, asUnsigned_eq_pattern]
theorem writeLeU16_spec (out : Bytes) (n : Nat) : writeLeU16 out n = (out ++ Spec.le 2 n, 2) := by
  rw [writeLeU16, leBytes_eq_spec]
theorem writeLeI16_spec (out : Bytes) (i : Int) :
    writeLeI16 out i = (out ++ Spec.le 2 (Spec.pattern 16 i), 2) := by
  rw [writeLeI16, leBytes_eq_spec, asUnsigned_eq_pattern]
theorem writeLeU24_spec (out : Bytes) (n : Nat) : writeLeU24 out n = (out ++ Spec.le 3 n, 3) := by
  rw [writeLeU24, leBytes_eq_spec, take_spec_le 3 4 _ (by norm_num)]
theorem writeLeU32_spec (out : Bytes) (n : Nat) : writeLeU32 out n = (out ++ Spec.le 4 n, 4) := by
  rw [writeLeU32, leBytes_eq_spec]
theorem writeLeI32_spec (out : Bytes) (i : Int) :
    writeLeI32 out i = (out ++ Spec.le 4 (Spec.pattern 32 i), 4) := by
  rw [writeLeI32, leBytes_eq_spec, asUnsigned_eq_pattern]
theorem writeLeU48_spec (out : Bytes) (n : Nat) : writeLeU48 out n = (out ++ Spec.le 6 n, 6) := by
  rw [writeLeU48, leBytes_eq_spec, take_spec_le 6 8 _ (by norm_num)]
theorem writeLeU64_spec (out : Bytes) (n : Nat) : writeLeU64 out n = (out ++ Spec.le 8 n, 8) := by
  rw [writeLeU64, leBytes_eq_spec]
theorem writeLeI64_spec (out : Bytes) (i : Int) :
    writeLeI64 out i = (out ++ Spec.le 8 (Spec.pattern 64 i), 8) := by
  rw [writeLeI64, leBytes_eq_spec, asUnsigned_eq_pattern]
theorem writeLeU128_spec (out : Bytes) (n : Nat) : writeLeU128 out n = (out ++ Spec.le 16 n, 16) := by
  rw [writeLeU128, leBytes_eq_spec]
theorem writeLeF32_spec (out : Bytes) (n : Nat) : writeLeF32 out n = (out ++ Spec.le 4 n, 4) := by
  rw [writeLeF32, leBytes_eq_spec]
theorem writeLeF64_spec (out : Bytes) (n : Nat) : writeLeF64 out n = (out ++ Spec.le 8 n, 8) := by
  rw [writeLeF64, leBytes_eq_spec]

theorem writeLenEncStr_spec (out s : Bytes) (h : s.length ≠ 251) :
    (LenEncStr.bytes s).writeTo out = (out ++ Spec.lenEncStr s, (Spec.lenEncStr s).length) := by
  simp [LenEncStr.writeTo, writeLei_spec _ _ h, Spec.lenEncStr]

end Mybin
