/- Lemmas about length-encoded integers and strings. -/
import Verif.Model.MyEnc
import Verif.Lemmas.Prim

namespace Mybin

@[simp] theorem LenEncInt.toU64_len1 (n) : (LenEncInt.len1 n).toU64 = some n := rfl
@[simp] theorem LenEncInt.toU64_len3 (n) : (LenEncInt.len3 n).toU64 = some n := rfl
@[simp] theorem LenEncInt.toU64_len4 (n) : (LenEncInt.len4 n).toU64 = some n := rfl
@[simp] theorem LenEncInt.toU64_len9 (n) : (LenEncInt.len9 n).toU64 = some n := rfl

/-- the shape the decoder returns for the value `n` in its shortest encoding -/
def canonLei (n : Nat) : LenEncInt :=
  if n < 251 then .len1 n else if n < 2 ^ 16 then .len3 n else if n < 2 ^ 24 then .len4 n else .len9 n

@[simp] theorem canonLei_toU64 (n : Nat) : (canonLei n).toU64 = some n := by
  unfold canonLei; split_ifs <;> rfl

theorem canonLei_toU32 (n : Nat) (h : n < 2 ^ 32) : (canonLei n).toU32 = some n := by
  unfold canonLei; split_ifs <;> simp [LenEncInt.toU32]; omega

theorem readLenEncInt_nil : readLenEncInt [] = .err (.incomplete none) [] := rfl

theorem readLenEncInt_cons_len1 (b : UInt8) (t : Bytes) (h : b.toNat < 251) :
    readLenEncInt (b :: t) = .ok (.len1 b.toNat) t := by
  unfold readLenEncInt
  simp only [List.length_cons, P.bind_apply, readU8_cons, R.bind_ok]
  rw [if_neg (by omega), if_neg (by omega), if_neg (by omega), if_neg (by omega),
    if_neg (by omega), if_neg (by omega)]
  rfl

theorem readLenEncInt_fb (t : Bytes) : readLenEncInt (0xfb :: t) = .ok .null t := rfl
theorem readLenEncInt_ff (t : Bytes) : readLenEncInt (0xff :: t) = .ok .err t := rfl
theorem readLenEncInt_fc (t : Bytes) :
    readLenEncInt (0xfc :: t) = (readLeU16 t).bind (fun n => pure (.len3 n)) := rfl
theorem readLenEncInt_fd (t : Bytes) :
    readLenEncInt (0xfd :: t) = (readLeU24 t).bind (fun n => pure (.len4 n)) := rfl
theorem readLenEncInt_fe (t : Bytes) :
    readLenEncInt (0xfe :: t) = (readLeU64 t).bind (fun n => pure (.len9 n)) := rfl

theorem readLenEncInt_spec (n : Nat) (rest : Bytes) (h : n < 2 ^ 64) :
    readLenEncInt (Spec.lenEncInt n ++ rest) = .ok (canonLei n) rest := by
  unfold Spec.lenEncInt canonLei
  split_ifs with h1 h2 h3
  · have e : (UInt8.ofNat n).toNat = n := by simp; omega
    have := readLenEncInt_cons_len1 (UInt8.ofNat n) rest (by rw [e]; exact h1)
    rw [e] at this
    simpa [Spec.u8] using this
  · rw [List.append_assoc]
    show readLenEncInt (0xfc :: (Spec.le 2 n ++ rest)) = _
    rw [readLenEncInt_fc, readLeU16_le n rest h2]; rfl
  · rw [List.append_assoc]
    show readLenEncInt (0xfd :: (Spec.le 3 n ++ rest)) = _
    rw [readLenEncInt_fd, readLeU24_le n rest h3]; rfl
  · rw [List.append_assoc]
    show readLenEncInt (0xfe :: (Spec.le 8 n ++ rest)) = _
    rw [readLenEncInt_fe, readLeU64_le n rest h]; rfl

theorem writeLei_spec (out : Bytes) (n : Nat) (h251 : n ≠ 251) :
    (LenEncInt.ofU64 n).writeTo out = (out ++ Spec.lenEncInt n, (Spec.lenEncInt n).length) := by
  unfold LenEncInt.ofU64 Spec.lenEncInt
  by_cases h1 : n < 251
  · have e : n % 2 ^ 8 = n := Nat.mod_eq_of_lt (by omega)
    have e' : n % 256 = n := by omega
    simp [h1, show n ≤ 251 by omega, LenEncInt.writeTo, leBytes, Spec.u8, e']
  · rw [if_neg (show ¬ n ≤ 0xfb by omega), if_neg h1]
    by_cases h2 : n < 2 ^ 16
    · rw [if_pos (show n ≤ 0xffff by omega), if_pos h2, Nat.mod_eq_of_lt h2]
      simp [LenEncInt.writeTo, leBytes_eq_spec, Spec.u8]
    · rw [if_neg (show ¬ n ≤ 0xffff by omega), if_neg h2]
      by_cases h3 : n < 2 ^ 24
      · rw [if_pos (show n ≤ 0xffffff by omega), if_pos h3, Nat.mod_eq_of_lt (by omega)]
        simp [LenEncInt.writeTo, take_spec_le 3 4, leBytes_eq_spec, Spec.u8]
      · rw [if_neg (show ¬ n ≤ 0xffffff by omega), if_neg h3]
        simp [LenEncInt.writeTo, leBytes_eq_spec, Spec.u8]

theorem readLenEncStr_spec (s rest : Bytes) (h : s.length < 2 ^ 64) :
    readLenEncStr (Spec.lenEncStr s ++ rest) = .ok (.bytes s) rest := by
  unfold readLenEncStr Spec.lenEncStr
  rw [List.append_assoc, P.bind_apply, readLenEncInt_spec _ _ h, R.bind_ok]
  have ht := canonLei_toU64 s.length
  have key : ∀ l : LenEncInt, l.toU64 = some s.length →
      (match l with
        | .err => pure LenEncStr.err
        | .null => pure LenEncStr.null
        | _ => (match l.toU64 with
          | none => P.panic
          | some len => do return LenEncStr.bytes (← readLen len) : P LenEncStr) : P LenEncStr)
        (s ++ rest) = .ok (.bytes s) rest := by
    intro l hl
    cases l <;> simp_all [LenEncInt.toU64]
  exact key _ ht

end Mybin
