/- Lemmas about each primitive reader: exact behaviour, and behaviour on an encoding. -/
import Verif.Lemmas.Parser
import Verif.Spec.Reads
import Mathlib.Data.Nat.Bitwise

namespace Mybin

theorem fixedRead_readFixed (k : Nat) (val : Bytes → Nat) : FixedRead k val (readFixed k val) := by
  intro bs
  constructor
  · intro h; simp [readFixed, Nat.not_lt.mpr h]
  · intro h; simp [readFixed, h]

theorem fixedRead_u8 : FixedRead 1 leVal readU8 := by
  intro bs
  cases bs with
  | nil => simp [readU8]
  | cons b bs => simp [readU8, leVal]

theorem fixedRead_leU24 : FixedRead 3 leVal readLeU24 := by
  intro bs
  match bs with
  | [] => simp [readLeU24]
  | [_] => simp [readLeU24]
  | [_, _] => simp [readLeU24]
  | a :: b :: c :: rest =>
    simp [readLeU24, leVal, Nat.shiftLeft_eq]
    omega

theorem fixedRead_beU24 : FixedRead 3 beVal readBeU24 := by
  intro bs
  match bs with
  | [] => simp [readBeU24]
  | [_] => simp [readBeU24]
  | [_, _] => simp [readBeU24]
  | a :: b :: c :: rest =>
    simp [readBeU24, beVal, leVal, Nat.shiftLeft_eq]
    omega

theorem fixedRead_leU48 : FixedRead 6 leVal readLeU48 := by
  intro bs
  match bs with
  | [] => simp [readLeU48]
  | [_] => simp [readLeU48]
  | [_, _] => simp [readLeU48]
  | [_, _, _] => simp [readLeU48]
  | [_, _, _, _] => simp [readLeU48]
  | [_, _, _, _, _] => simp [readLeU48]
  | a :: b :: c :: d :: e :: f :: rest =>
    simp [readLeU48, leVal, Nat.shiftLeft_eq]
    omega

theorem fixedRead_beU40 : FixedRead 5 beVal readBeU40 := by
  intro bs
  constructor
  · intro h
    match bs, h with
    | a :: b :: c :: d :: e :: rest, _ =>
      simp [readBeU40, readBeU32, readFixed, beVal, leVal, Nat.shiftLeft_eq]
      rw [if_neg (by omega), if_neg (by omega)]
      show R.ok _ _ = _
      congr 1
      simp only [UInt8.toNat]
      omega
  · intro h; simp [readBeU40, h]

theorem FixedRead.map {α β : Type} {k : Nat} {val : Bytes → α} {r : P α} (h : FixedRead k val r)
    (f : α → β) : FixedRead k (fun b => f (val b)) (do return f (← r)) := by
  intro bs
  constructor
  · intro hb; simp [(h bs).1 hb]
  · intro hb; simp [(h bs).2 hb]

theorem FixedRead.congr {α : Type} {k : Nat} {val val' : Bytes → α} {r : P α}
    (h : FixedRead k val r) (e : ∀ b : Bytes, b.length = k → val b = val' b) :
    FixedRead k val' r := by
  intro bs
  refine ⟨fun hb => ?_, (h bs).2⟩
  rw [(h bs).1 hb, e _ (by simp [hb])]

theorem FixedRead.append {α : Type} {k : Nat} {val : Bytes → α} {r : P α} (h : FixedRead k val r)
    (x rest : Bytes) (hx : x.length = k) : r (x ++ rest) = .ok (val x) rest := by
  have := (h (x ++ rest)).1 (by simp [hx])
  simpa [← hx] using this

/-! ### reading an encoding back -/

theorem pow256 (k : Nat) : (256 : Nat) ^ k = 2 ^ (8 * k) := by
  rw [pow_mul]; norm_num

theorem FixedRead.read_le {k : Nat} {r : P Nat} (h : FixedRead k leVal r)
    (n : Nat) (rest : Bytes) (hn : n < 256 ^ k) : r (Spec.le k n ++ rest) = .ok n rest := by
  rw [h.append _ _ (by simp), leVal_spec_le, Nat.mod_eq_of_lt hn]

@[simp] theorem readU8_cons (b : UInt8) (rest : Bytes) : readU8 (b :: rest) = .ok b.toNat rest := rfl
@[simp] theorem readU8_nil : readU8 [] = .err (.incomplete (some 1)) [] := rfl

theorem readU8_u8 (n : Nat) (rest : Bytes) (h : n < 256) :
    readU8 (Spec.u8 n ++ rest) = .ok n rest := by
  simp [Spec.u8]; omega

theorem readLeU16_le (n : Nat) (rest : Bytes) (h : n < 2 ^ 16) :
    readLeU16 (Spec.le 2 n ++ rest) = .ok n rest :=
  (fixedRead_readFixed 2 leVal).read_le n rest (by simpa using h)
theorem readLeU24_le (n : Nat) (rest : Bytes) (h : n < 2 ^ 24) :
    readLeU24 (Spec.le 3 n ++ rest) = .ok n rest :=
  fixedRead_leU24.read_le n rest (by simpa using h)
theorem readLeU32_le (n : Nat) (rest : Bytes) (h : n < 2 ^ 32) :
    readLeU32 (Spec.le 4 n ++ rest) = .ok n rest :=
  (fixedRead_readFixed 4 leVal).read_le n rest (by simpa using h)
theorem readLeU48_le (n : Nat) (rest : Bytes) (h : n < 2 ^ 48) :
    readLeU48 (Spec.le 6 n ++ rest) = .ok n rest :=
  fixedRead_leU48.read_le n rest (by simpa using h)
theorem readLeU64_le (n : Nat) (rest : Bytes) (h : n < 2 ^ 64) :
    readLeU64 (Spec.le 8 n ++ rest) = .ok n rest :=
  (fixedRead_readFixed 8 leVal).read_le n rest (by simpa using h)
theorem readLeU128_le (n : Nat) (rest : Bytes) (h : n < 2 ^ 128) :
    readLeU128 (Spec.le 16 n ++ rest) = .ok n rest :=
  (fixedRead_readFixed 16 leVal).read_le n rest (by simpa using h)
theorem readLeF32_le (n : Nat) (rest : Bytes) (h : n < 2 ^ 32) :
    readLeF32 (Spec.le 4 n ++ rest) = .ok n rest :=
  (fixedRead_readFixed 4 leVal).read_le n rest (by simpa using h)
theorem readLeF64_le (n : Nat) (rest : Bytes) (h : n < 2 ^ 64) :
    readLeF64 (Spec.le 8 n ++ rest) = .ok n rest := by
  have e : leVal (Spec.le 8 n) = n := by
    rw [leVal_spec_le, Nat.mod_eq_of_lt (by simpa using h)]
  have e1 : (Spec.le 8 n ++ rest).take 8 = Spec.le 8 n := by simp
  have e2 : (Spec.le 8 n ++ rest).drop 8 = rest := by simp
  unfold readLeF64
  rw [e1, e2, e]
  simp

@[simp] theorem readLen_append (x rest : Bytes) : readLen x.length (x ++ rest) = .ok x rest := by
  simp [readLen]

theorem readLen_append' (k : Nat) (x rest : Bytes) (h : x.length = k) :
    readLen k (x ++ rest) = .ok x rest := by subst h; simp

@[simp] theorem readLen_zero (rest : Bytes) : readLen 0 rest = .ok [] rest := by
  simp [readLen]

@[simp] theorem readRest_apply (bs : Bytes) : readRest bs = .ok bs [] := rfl
@[simp] theorem hasRemaining_apply (bs : Bytes) : hasRemaining bs = .ok (!bs.isEmpty) bs := rfl
@[simp] theorem remaining_apply (bs : Bytes) : remaining bs = .ok bs.length bs := rfl

theorem findIdx?_append_of_not_mem (b : UInt8) (x rest : Bytes) (h : b ∉ x) :
    (x ++ b :: rest).findIdx? (· == b) = some x.length := by
  induction x with
  | nil => simp [List.findIdx?_cons]
  | cons a x ih =>
    simp only [List.mem_cons, not_or] at h
    have ha : (a == b) = false := by simpa using fun e => h.1 e.symm
    simp [List.findIdx?_cons, ha, ih h.2]

theorem readUntil_append (b : UInt8) (x rest : Bytes) (h : b ∉ x) :
    readUntil b false (x ++ b :: rest) = .ok x rest := by
  simp [readUntil, findIdx?_append_of_not_mem b x rest h]

theorem readUntil_append_incl (b : UInt8) (x rest : Bytes) (h : b ∉ x) :
    readUntil b true (x ++ b :: rest) = .ok (x ++ [b]) rest := by
  simp [readUntil, findIdx?_append_of_not_mem b x rest h, List.take_append, List.drop_append,
    List.take_of_length_le (Nat.le_succ x.length)]

theorem readUntil_none (b : UInt8) (i : Bool) (x : Bytes) (h : b ∉ x) :
    readUntil b i x = .err (.incomplete none) x := by
  have : x.findIdx? (· == b) = none := by
    simp [List.findIdx?_eq_none_iff]
    intro a ha e; exact h (e ▸ ha)
  simp [readUntil, this]

theorem readUntil_nulStr (x rest : Bytes) (h : (0 : UInt8) ∉ x) :
    readUntil 0 false (Spec.nulStr x ++ rest) = .ok x rest := by
  have := readUntil_append 0 x rest h
  simpa [Spec.nulStr, Spec.u8] using this

theorem twos_pattern {w : Nat} {i : Int} (hw : 0 < w) (h : Spec.SignedRange w i) :
    Spec.twos w (Spec.pattern w i) = i := by
  rw [← asUnsigned_eq_pattern, ← asSigned_eq_twos hw (asUnsigned_lt w i), asSigned_asUnsigned hw h]

theorem pattern_lt (w : Nat) (i : Int) : Spec.pattern w i < 2 ^ w := by
  rw [← asUnsigned_eq_pattern]; exact asUnsigned_lt w i

/-- the sign-extension idiom `if n & top != 0 { (n | high) as iW } else { n as iW }` -/
theorem sign_extend (v w n : Nat) (hvw : v + 1 ≤ w) (h : n < 2 ^ (v + 1)) :
    (if n &&& 2 ^ v ≠ 0 then asSigned w (n ||| (2 ^ w - 2 ^ (v + 1))) else asSigned w n)
      = Spec.twos (v + 1) n := by
  rw [← asSigned_eq_twos (by omega) h]
  have h2 : (2 : Nat) ^ (v + 1) = 2 * 2 ^ v := by rw [pow_succ]; ring
  have hw : (2 : Nat) ^ (v + 1) ≤ 2 ^ w := Nat.pow_le_pow_right (by norm_num) hvw
  have hw1 : (2 : Nat) ^ v ≤ 2 ^ (w - 1) := Nat.pow_le_pow_right (by norm_num) (by omega)
  have hww : (2 : Nat) ^ w = 2 * 2 ^ (w - 1) := by
    rw [← pow_succ']; congr 1; omega
  rw [Nat.and_two_pow]
  by_cases c : n < 2 ^ v
  · have : n.testBit v = false := Nat.testBit_lt_two_pow c
    simp [this, asSigned, c, show n < 2 ^ (w - 1) by omega]
  · have : n.testBit v = true := by
      rw [Nat.testBit_eq_decide_div_mod_eq]
      have : n / 2 ^ v = 1 := by
        apply Nat.div_eq_of_lt_le <;> omega
      simp [this]
    have hor : n ||| (2 ^ w - 2 ^ (v + 1)) = n + (2 ^ w - 2 ^ (v + 1)) := by
      have : (2 : Nat) ^ w - 2 ^ (v + 1) = 2 ^ (v + 1) * (2 ^ (w - (v + 1)) - 1) := by
        rw [Nat.mul_sub, ← pow_add, Nat.mul_one]; congr 2; omega
      rw [this, Nat.or_comm, ← Nat.two_pow_add_eq_or_of_lt h]
      omega
    have hge : ¬ (n + (2 ^ w - 2 ^ (v + 1)) < 2 ^ (w - 1)) := by omega
    have e1 : (((2 ^ w - 2 ^ (v + 1) : Nat)) : Int) = (2:Int) ^ w - 2 ^ (v + 1) := by
      rw [Nat.cast_sub hw]; push_cast; rfl
    simp [this, asSigned, c, hor, hge, e1]
    ring

end Mybin
