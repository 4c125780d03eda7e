/- The shift-register CRC computes the polynomial remainder; error detection. -/
import Verif.Model.Crc
import Verif.Spec.Crc
import Mathlib.Data.BitVec
import Mathlib.Tactic.Ring
import Mathlib.Tactic.NormNum

namespace Mybin

/-! ### Linearity -/

theorem crcBit_xor (s t : BitVec 32) (a b : Bool) :
    crcBit (s ^^^ t) (a ^^ b) = crcBit s a ^^^ crcBit t b := by
  unfold crcBit
  have h : ((s ^^^ t).getLsbD 0 ^^ (a ^^ b)) = ((s.getLsbD 0 ^^ a) ^^ (t.getLsbD 0 ^^ b)) := by
    rw [BitVec.getLsbD_xor]
    cases s.getLsbD 0 <;> cases t.getLsbD 0 <;> cases a <;> cases b <;> rfl
  rw [h]
  have e : (s ^^^ t) >>> 1 = (s >>> 1) ^^^ (t >>> 1) := by
    ext i hi; simp
  rw [e]
  generalize s >>> 1 = x, t >>> 1 = y
  generalize (0xEDB88320#32) = g
  have lc : ∀ u v w : BitVec 32, u ^^^ (v ^^^ w) = v ^^^ (u ^^^ w) := by
    intro u v w; rw [← BitVec.xor_assoc, BitVec.xor_comm u v, BitVec.xor_assoc]
  cases (s.getLsbD 0 ^^ a) <;> cases (t.getLsbD 0 ^^ b) <;>
    simp only [Bool.false_eq_true, if_false, if_true, BitVec.xor_zero, Bool.xor_false, Bool.xor_true,
      Bool.not_false, Bool.not_true, BitVec.xor_assoc]
  · rw [BitVec.xor_comm y g, lc x g y]
  · rw [lc g y g, BitVec.xor_self, BitVec.xor_zero]

theorem crc_fold_xor (s t : BitVec 32) (xs ys : List Bool) (h : xs.length = ys.length) :
    (List.zipWith (· ^^ ·) xs ys).foldl crcBit (s ^^^ t)
      = xs.foldl crcBit s ^^^ ys.foldl crcBit t := by
  induction xs generalizing ys s t with
  | nil => cases ys with
    | nil => rfl
    | cons y ys => simp at h
  | cons x xs ih => cases ys with
    | nil => simp at h
    | cons y ys =>
      simp only [List.zipWith_cons_cons, List.foldl_cons, crcBit_xor]
      exact ih _ _ _ (by simpa using h)

theorem crcBit_zero : crcBit 0#32 false = 0#32 := by decide

theorem crc_zeros (n : Nat) : (List.replicate n false).foldl crcBit 0#32 = 0#32 := by
  induction n with
  | zero => rfl
  | succ n ih => rw [List.replicate_succ, List.foldl_cons, crcBit_zero, ih]

/-- a zero bit does not turn a non-zero register into zero -/
theorem crcBit_false_ne_zero (s : BitVec 32) (h : s ≠ 0#32) : crcBit s false ≠ 0#32 := by
  intro e
  apply h
  unfold crcBit at e
  have h31 := congrArg (fun x => x.getLsbD 31) e
  cases hs : s.getLsbD 0 with
  | true => rw [hs] at h31; simp at h31
  | false =>
    rw [hs] at e
    simp only [Bool.xor_false, Bool.false_eq_true, if_false, BitVec.xor_zero] at e
    apply BitVec.eq_of_getLsbD_eq
    intro i hi
    cases i with
    | zero => rw [hs]; simp
    | succ i =>
      have := congrArg (fun x => x.getLsbD i) e
      simp only [BitVec.getLsbD_ushiftRight, BitVec.getLsbD_zero] at this
      rw [Nat.add_comm] at this
      rw [this]; simp

theorem crc_zeros_ne_zero (s : BitVec 32) (h : s ≠ 0#32) (n : Nat) :
    (List.replicate n false).foldl crcBit s ≠ 0#32 := by
  induction n generalizing s with
  | zero => exact h
  | succ n ih =>
    rw [List.replicate_succ, List.foldl_cons]
    exact ih _ (crcBit_false_ne_zero s h)

/-- the bits of a short burst as a register value -/
def burstVal (d : List Bool) : BitVec 32 := BitVec.ofNat 32 (Spec.bitsValue d)

theorem bitsValue_lt (d : List Bool) : Spec.bitsValue d < 2 ^ d.length := by
  induction d with
  | nil => simp [Spec.bitsValue]
  | cons b d ih => cases b <;> simp [Spec.bitsValue, Nat.pow_succ] <;> omega

/-- feeding a burst of at most 32 bits is xoring it into the register and feeding zeros -/
theorem crc_burst (s : BitVec 32) (d : List Bool) (h : d.length ≤ 32) :
    d.foldl crcBit s = (List.replicate d.length false).foldl crcBit (s ^^^ burstVal d) := by
  induction d generalizing s with
  | nil => simp [burstVal, Spec.bitsValue]
  | cons b d ih =>
    simp only [List.length_cons] at h
    have hd := bitsValue_lt d
    have hd31 : Spec.bitsValue d < 2 ^ 31 :=
      Nat.lt_of_lt_of_le hd (Nat.pow_le_pow_right (by norm_num) (by omega))
    simp only [List.foldl_cons, List.length_cons, List.replicate_succ]
    rw [ih _ (by omega)]
    congr 1
    have e1 : burstVal (b :: d) = BitVec.ofNat 32 (if b then 1 else 0)
        ^^^ BitVec.ofNat 32 (2 * Spec.bitsValue d) := by
      apply BitVec.eq_of_toNat_eq
      simp only [burstVal, Spec.bitsValue, BitVec.toNat_xor, BitVec.toNat_ofNat]
      rw [Nat.mod_eq_of_lt (by split <;> omega), Nat.mod_eq_of_lt (by split <;> norm_num),
        Nat.mod_eq_of_lt (by omega)]
      cases b
      · simp
      · simp only [if_true]
        generalize Spec.bitsValue d = n
        apply Nat.eq_of_testBit_eq
        intro i
        rw [Nat.testBit_xor]
        cases i with
        | zero => simp [Nat.testBit_zero]
        | succ i =>
          rw [Nat.testBit_succ, Nat.testBit_succ, Nat.testBit_succ,
            show (1 + 2 * n) / 2 = n by omega, show 2 * n / 2 = n by omega]
          simp
    have e2 : crcBit (BitVec.ofNat 32 (2 * Spec.bitsValue d)) false = burstVal d := by
      unfold crcBit burstVal
      have : (BitVec.ofNat 32 (2 * Spec.bitsValue d)).getLsbD 0 = false := by
        rw [BitVec.getLsbD_ofNat]; simp
      rw [this]
      simp only [Bool.xor_false, Bool.false_eq_true, if_false, BitVec.xor_zero]
      apply BitVec.eq_of_toNat_eq
      simp only [BitVec.toNat_ushiftRight, BitVec.toNat_ofNat]
      rw [Nat.mod_eq_of_lt (by omega), Nat.mod_eq_of_lt (by omega), Nat.shiftRight_one]
      omega
    have e3 : crcBit (BitVec.ofNat 32 (if b then 1 else 0)) false = crcBit 0#32 b := by
      cases b <;> decide
    have e4 := crcBit_xor (s ^^^ BitVec.ofNat 32 (if b then 1 else 0))
      (BitVec.ofNat 32 (2 * Spec.bitsValue d)) false false
    have e5 := crcBit_xor s (BitVec.ofNat 32 (if b then 1 else 0)) false false
    have e6 := crcBit_xor s 0#32 false b
    simp only [Bool.xor_false, Bool.false_xor, BitVec.xor_zero, bne_self_eq_false] at e4 e5 e6
    rw [e1, ← BitVec.xor_assoc, e4, e5, e2, e3, ← e6]

theorem bitsValue_ne_zero (d : List Bool) (h : true ∈ d) : Spec.bitsValue d ≠ 0 := by
  induction d with
  | nil => simp at h
  | cons b d ih =>
    cases b
    · have := ih (by simpa using h)
      simp [Spec.bitsValue]; omega
    · simp [Spec.bitsValue]

/-- a non-zero burst of at most 32 bits, anywhere in an otherwise equal message, changes the register -/
theorem crc_detects (xs ys : List Bool) (a c : Nat) (d : List Bool) (hd : d.length ≤ 32)
    (ht : true ∈ d) (hl : xs.length = ys.length)
    (hx : List.zipWith (· ^^ ·) xs ys = List.replicate a false ++ d ++ List.replicate c false)
    (s : BitVec 32) : xs.foldl crcBit s ≠ ys.foldl crcBit s := by
  intro e
  have h := crc_fold_xor s s xs ys hl
  rw [e, BitVec.xor_self, BitVec.xor_self, hx, List.foldl_append, List.foldl_append, crc_zeros] at h
  refine crc_zeros_ne_zero _ ?_ c h
  rw [crc_burst _ _ hd]
  apply crc_zeros_ne_zero
  rw [BitVec.zero_xor]
  intro hz
  have := congrArg BitVec.toNat hz
  simp only [burstVal, BitVec.toNat_ofNat] at this
  have hlt : Spec.bitsValue d < 2 ^ 32 :=
    Nat.lt_of_lt_of_le (bitsValue_lt d) (Nat.pow_le_pow_right (by norm_num) hd)
  rw [Nat.mod_eq_of_lt hlt] at this
  exact bitsValue_ne_zero d ht (by simpa using this)

/-! ### The register is the polynomial remainder -/

/-- the register as a list, least significant bit (coefficient of x^31) first -/
def regBits (s : BitVec 32) : List Bool := (List.range 32).map (s.getLsbD ·)

theorem xorPrefix_xor (f g : List Bool) (p : List Bool) (h : f.length = g.length)
    (hp : f.length ≤ p.length) :
    Spec.xorPrefix f (Spec.xorPrefix g p) = Spec.xorPrefix (List.zipWith (· ^^ ·) f g) p := by
  induction f generalizing g p with
  | nil => cases g with
    | nil => rfl
    | cons _ _ => simp at h
  | cons a f ih => cases g with
    | nil => simp at h
    | cons b g => cases p with
      | nil => simp at hp
      | cons c p =>
        simp only [Spec.xorPrefix, List.zipWith_cons_cons, Bool.xor_assoc]
        rw [ih g p (by simpa using h) (by simpa using hp)]

theorem xorPrefix_append_false (f p : List Bool) : Spec.xorPrefix (f ++ [false]) p = Spec.xorPrefix f p := by
  induction f generalizing p with
  | nil => cases p <;> simp [Spec.xorPrefix]
  | cons a f ih => cases p with
    | nil => rfl
    | cons b p => simp [Spec.xorPrefix, ih]

theorem regBits_cons (s : BitVec 32) :
    ∃ t, regBits s = s.getLsbD 0 :: t ∧ t ++ [false] = regBits (s >>> 1) := by
  refine ⟨(List.range 31).map (fun i => s.getLsbD (i + 1)), ?_, ?_⟩
  · unfold regBits
    rw [List.range_succ_eq_map]
    simp [Function.comp_def]
  · unfold regBits
    have : List.range 32 = List.range 31 ++ [31] := List.range_succ
    rw [this]
    simp [BitVec.getLsbD_ushiftRight, Nat.add_comm]

theorem regBits_xor (s t : BitVec 32) :
    regBits (s ^^^ t) = List.zipWith (· ^^ ·) (regBits s) (regBits t) := by
  unfold regBits
  rw [List.zipWith_map]
  simp [List.zipWith_self]

theorem generator_tail : Spec.crcGenerator.tail = regBits 0xEDB88320#32 := by decide +kernel

theorem regBits_length (s : BitVec 32) : (regBits s).length = 32 := by simp [regBits]

theorem remainder_spec (m : List Bool) (s : BitVec 32) :
    Spec.remainder (Spec.xorPrefix (regBits s) (m ++ List.replicate 32 false))
      = regBits (m.foldl crcBit s) := by
  induction m generalizing s with
  | nil =>
    have : Spec.xorPrefix (regBits s) (List.replicate 32 false) = regBits s := by
      have aux : ∀ f : List Bool, Spec.xorPrefix f (List.replicate f.length false) = f := by
        intro f
        induction f with
        | nil => rfl
        | cons a f ih => simp [Spec.xorPrefix, List.replicate_succ, ih]
      have := aux (regBits s)
      rwa [regBits_length] at this
    rw [List.nil_append, this]
    obtain ⟨t, ht, _⟩ := regBits_cons s
    have hl := regBits_length s
    rw [ht] at hl
    rw [List.foldl_nil, ht, Spec.remainder, if_pos (by simp at hl; omega)]
  | cons b m ih =>
    obtain ⟨t, ht, hs⟩ := regBits_cons s
    have hl := regBits_length s
    rw [ht] at hl
    simp only [List.length_cons] at hl
    rw [ht, List.cons_append, Spec.xorPrefix, Spec.remainder,
      if_neg (by rw [Spec.xorPrefix_length]; simp)]
    have e : Spec.xorPrefix t (m ++ List.replicate 32 false)
        = Spec.xorPrefix (regBits (s >>> 1)) (m ++ List.replicate 32 false) := by
      rw [← hs, xorPrefix_append_false]
    rw [List.foldl_cons, ← ih, e, generator_tail]
    have hx : ∀ g : BitVec 32, Spec.xorPrefix (regBits g) (Spec.xorPrefix (regBits (s >>> 1))
        (m ++ List.replicate 32 false))
        = Spec.xorPrefix (regBits ((s >>> 1) ^^^ g)) (m ++ List.replicate 32 false) := by
      intro g
      rw [xorPrefix_xor _ _ _ (by simp [regBits_length]) (by simp [regBits_length]), ← regBits_xor,
        BitVec.xor_comm]
    unfold crcBit
    by_cases hc : (s.getLsbD 0 ^^ b) = true
    · rw [if_pos hc, if_pos hc, hx]
    · rw [if_neg hc, if_neg hc, BitVec.xor_zero]

theorem bitsValue_eq_ofBits (d : List Bool) (i : Nat) :
    (Spec.bitsValue d).testBit i = d.getD i false := by
  induction d generalizing i with
  | nil => simp [Spec.bitsValue]
  | cons b d ih =>
    cases i with
    | zero => cases b <;> simp [Spec.bitsValue, Nat.testBit_zero]
    | succ i =>
      rw [Nat.testBit_succ]
      have : Spec.bitsValue (b :: d) / 2 = Spec.bitsValue d := by
        cases b <;> simp [Spec.bitsValue] <;> omega
      rw [this, ih]
      simp

theorem bitsValue_regBits (s : BitVec 32) : Spec.bitsValue (regBits s) = s.toNat := by
  apply Nat.eq_of_testBit_eq
  intro i
  rw [bitsValue_eq_ofBits]
  by_cases h : i < 32
  · simp [regBits, h, BitVec.getLsbD]
  · have : s.toNat < 2 ^ i := Nat.lt_of_lt_of_le s.isLt (Nat.pow_le_pow_right (by norm_num) (by omega))
    rw [Nat.testBit_lt_two_pow this]
    simp [regBits, h]

theorem messageBits_eq (bs : Bytes) : Spec.messageBits bs = bs.flatMap byteBits := by
  unfold Spec.messageBits byteBits
  simp only [Nat.testBit_eq_decide_div_mod_eq]

/-- the checksum function is CRC-32 -/
theorem checksumCrc32_eq (bs : Bytes) : checksumCrc32 bs = Spec.crc32 bs := by
  unfold checksumCrc32 Spec.crc32
  have h1 : List.replicate 32 true = regBits 0xFFFFFFFF#32 := by decide +kernel
  have h2 : ∀ s : BitVec 32, (regBits s).map (!·) = regBits (s ^^^ 0xFFFFFFFF#32) := by
    intro s
    rw [regBits_xor]
    have : regBits 0xFFFFFFFF#32 = List.replicate 32 true := h1.symm
    rw [this]
    have aux : ∀ l : List Bool, l.map (!·) = List.zipWith (· ^^ ·) l (List.replicate l.length true) := by
      intro l
      induction l with
      | nil => rfl
      | cons a l ih => simp [List.replicate_succ, ih]
    have := aux (regBits s)
    rwa [regBits_length] at this
  rw [h1, remainder_spec, h2, bitsValue_regBits, messageBits_eq]

theorem crc32_lt (bs : Bytes) : Spec.crc32 bs < 2 ^ 32 := by
  rw [← checksumCrc32_eq]; exact BitVec.isLt _

end Mybin
