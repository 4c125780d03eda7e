/-
C01 fixed-width integers round-trip; C02 fixed-width reads; C03 signed reads.
-/
import Verif.Lemmas.Prim

namespace Mybin

/-! ### C01 -/

theorem roundTrip_unsigned {k : Nat} {w : Bytes → Nat → Bytes × Nat} {r : P Nat}
    (hw : ∀ out n, w out n = (out ++ leBytes k n, k)) (hr : FixedRead k leVal r) :
    IntRoundTrip k id (U (8 * k)) w r := by
  intro n hn
  refine ⟨_, rfl, by simp, fun out => by simp [hw, leBytes_eq_spec], fun rest => ?_⟩
  exact hr.read_le n rest (by rw [pow256]; exact hn)

theorem roundTrip_signed {k : Nat} (hk : 0 < k) {w : Bytes → Int → Bytes × Nat} {r : P Int}
    (hw : ∀ out i, Spec.SignedRange (8 * k) i →
      w out i = (out ++ leBytes k (Spec.pattern (8 * k) i), k))
    (hr : FixedRead k (fun b => Spec.twos (8 * k) (leVal b)) r) :
    IntRoundTrip k (Spec.pattern (8 * k)) (S (8 * k)) w r := by
  intro i hi
  refine ⟨_, rfl, by simp, fun out => by simp [hw out i hi, leBytes_eq_spec], fun rest => ?_⟩
  rw [hr.append _ _ (by simp), leVal_spec_le,
    Nat.mod_eq_of_lt (by rw [pow256]; exact pattern_lt _ _), twos_pattern (by omega) hi]

/-! reads of signed numbers, used by C01 and C03 -/

theorem signedRead {k : Nat} (hk : 0 < k) {val : Bytes → Nat} {r : P Nat} (h : FixedRead k val r)
    (hv : ∀ b : Bytes, b.length = k → val b < 256 ^ k) :
    FixedRead k (fun b => Spec.twos (8 * k) (val b)) (do return asSigned (8 * k) (← r)) := by
  refine (h.map _).congr fun b hb => ?_
  exact asSigned_eq_twos (by omega) (by rw [← pow256]; exact hv b hb)

theorem leVal_lt' (k : Nat) (b : Bytes) (h : b.length = k) : leVal b < 256 ^ k := h ▸ leVal_lt b
theorem beVal_lt' (k : Nat) (b : Bytes) (h : b.length = k) : beVal b < 256 ^ k := by
  have := leVal_lt b.reverse
  simpa [beVal, h] using this

theorem signedRead24 {val : Bytes → Nat} {r : P Nat} (h : FixedRead 3 val r)
    (hv : ∀ b : Bytes, b.length = 3 → val b < 256 ^ 3) :
    FixedRead 3 (fun b => Spec.twos 24 (val b)) (do return signExtend24 (← r)) := by
  refine (h.map _).congr fun b hb => ?_
  exact sign_extend 23 32 (val b) (by norm_num) (by simpa using hv b hb)

theorem signedRead48 :
    FixedRead 6 (fun b => Spec.twos 48 (leVal b)) readLeI48 := by
  refine (fixedRead_leU48.map _).congr fun b hb => ?_
  exact sign_extend 47 64 (leVal b) (by norm_num) (by simpa using leVal_lt' 6 b hb)

/-- C01: every integer (and float bit pattern) writer/reader pair of the API. -/
theorem C01_fixed_width_round_trip :
    IntRoundTrip 1 id (U 8) writeU8 readU8 ∧
    IntRoundTrip 1 (Spec.pattern 8) (S 8) writeI8 readI8 ∧
    IntRoundTrip 2 id (U 16) writeLeU16 readLeU16 ∧
    IntRoundTrip 2 (Spec.pattern 16) (S 16) writeLeI16 readLeI16 ∧
    IntRoundTrip 3 id (U 24) writeLeU24 readLeU24 ∧
    IntRoundTrip 3 (Spec.pattern 24) (S 24) writeLeI24 readLeI24 ∧
    IntRoundTrip 4 id (U 32) writeLeU32 readLeU32 ∧
    IntRoundTrip 4 (Spec.pattern 32) (S 32) writeLeI32 readLeI32 ∧
    IntRoundTrip 6 id (U 48) writeLeU48 readLeU48 ∧
    IntRoundTrip 6 (Spec.pattern 48) (S 48) writeLeI48 readLeI48 ∧
    IntRoundTrip 8 id (U 64) writeLeU64 readLeU64 ∧
    IntRoundTrip 8 (Spec.pattern 64) (S 64) writeLeI64 readLeI64 ∧
    IntRoundTrip 16 id (U 128) writeLeU128 readLeU128 ∧
    IntRoundTrip 16 (Spec.pattern 128) (S 128) writeLeI128 readLeI128 ∧
    IntRoundTrip 4 id (U 32) writeLeF32 readLeF32 ∧
    IntRoundTrip 8 id (U 64) writeLeF64 readLeF64 := by
  refine ⟨?_, ?_, ?_, ?_, ?_, ?_, ?_, ?_, ?_, ?_, ?_, ?_, ?_, ?_, ?_, ?_⟩
  · exact roundTrip_unsigned (k := 1) (fun _ _ => rfl) fixedRead_u8
  · exact roundTrip_signed (k := 1) (by norm_num)
      (fun _ _ _ => by simp [writeI8, asUnsigned_eq_pattern])
      (signedRead (by norm_num) fixedRead_u8 (leVal_lt' 1))
  · exact roundTrip_unsigned (k := 2) (fun _ _ => rfl) (fixedRead_readFixed 2 leVal)
  · exact roundTrip_signed (k := 2) (by norm_num)
      (fun _ _ _ => by simp [writeLeI16, asUnsigned_eq_pattern])
      (signedRead (by norm_num) (fixedRead_readFixed 2 leVal) (leVal_lt' 2))
  · exact roundTrip_unsigned (k := 3)
      (fun _ _ => by simp [writeLeU24, take_leBytes 3 4]) fixedRead_leU24
  · refine roundTrip_signed (k := 3) (by norm_num) (fun out i hi => ?_)
      (signedRead24 fixedRead_leU24 (leVal_lt' 3))
    have key : ∀ n : Nat, n % 256 ^ 3 = Spec.pattern 24 i →
        (leBytes 4 n).take 3 = leBytes 3 (Spec.pattern 24 i) := by
      intro n hn
      rw [take_leBytes 3 4 _ (by norm_num), ← leBytes_leVal (leBytes 3 n), leVal_leBytes, hn]
      simp
    have hpat : asUnsigned 32 i % 256 ^ 3 = Spec.pattern 24 i := by
      unfold asUnsigned Spec.pattern
      simp only [Nat.reducePow]; omega
    simp only [writeLeI24]
    rw [key]
    split
    · rename_i hneg
      have hlow : asUnsigned 32 i ||| 0xff800000 = asUnsigned 32 i := by
        obtain ⟨h1, h2⟩ := hi
        simp only [Nat.reduceMul, Nat.reduceSub] at h1 h2
        have hge : asUnsigned 32 i = (asUnsigned 32 i - 0xff800000) + 0xff800000 := by
          unfold asUnsigned; norm_num at h1 ⊢; omega
        have hlt : asUnsigned 32 i - 0xff800000 < 2 ^ 23 := by
          have := asUnsigned_lt 32 i; omega
        generalize asUnsigned 32 i - 0xff800000 = m at hge hlt
        rw [hge]
        have e : m + 0xff800000 = m ||| 0xff800000 := by
          have := Nat.two_pow_add_eq_or_of_lt hlt 511
          rw [Nat.or_comm, Nat.add_comm]; simpa using this
        rw [e, Nat.or_assoc, Nat.or_self]
      rw [hlow, hpat]
    · exact hpat
  · exact roundTrip_unsigned (k := 4) (fun _ _ => rfl) (fixedRead_readFixed 4 leVal)
  · exact roundTrip_signed (k := 4) (by norm_num)
      (fun _ _ _ => by simp [writeLeI32, asUnsigned_eq_pattern])
      (signedRead (by norm_num) (fixedRead_readFixed 4 leVal) (leVal_lt' 4))
  · exact roundTrip_unsigned (k := 6)
      (fun _ _ => by simp [writeLeU48, take_leBytes 6 8]) fixedRead_leU48
  · refine roundTrip_signed (k := 6) (by norm_num) (fun out i hi => ?_) signedRead48
    have key : ∀ n : Nat, n % 256 ^ 6 = Spec.pattern 48 i →
        (leBytes 8 n).take 6 = leBytes 6 (Spec.pattern 48 i) := by
      intro n hn
      rw [take_leBytes 6 8 _ (by norm_num), ← leBytes_leVal (leBytes 6 n), leVal_leBytes, hn]
      simp
    have hpat : asUnsigned 64 i % 256 ^ 6 = Spec.pattern 48 i := by
      unfold asUnsigned Spec.pattern
      simp only [Nat.reducePow]; omega
    simp only [writeLeI48]
    rw [key]
    split
    · rename_i hneg
      have hlow : asUnsigned 64 i ||| 0xffff800000000000 = asUnsigned 64 i := by
        obtain ⟨h1, h2⟩ := hi
        simp only [Nat.reduceMul, Nat.reduceSub] at h1 h2
        have hge : asUnsigned 64 i = (asUnsigned 64 i - 0xffff800000000000) + 0xffff800000000000 := by
          unfold asUnsigned; norm_num at h1 ⊢; omega
        have hlt : asUnsigned 64 i - 0xffff800000000000 < 2 ^ 47 := by
          have := asUnsigned_lt 64 i; omega
        generalize asUnsigned 64 i - 0xffff800000000000 = m at hge hlt
        rw [hge]
        have e : m + 0xffff800000000000 = m ||| 0xffff800000000000 := by
          have := Nat.two_pow_add_eq_or_of_lt hlt 131071
          rw [Nat.or_comm, Nat.add_comm]; simpa using this
        rw [e, Nat.or_assoc, Nat.or_self]
      rw [hlow, hpat]
    · exact hpat
  · exact roundTrip_unsigned (k := 8) (fun _ _ => rfl) (fixedRead_readFixed 8 leVal)
  · exact roundTrip_signed (k := 8) (by norm_num)
      (fun _ _ _ => by simp [writeLeI64, asUnsigned_eq_pattern])
      (signedRead (by norm_num) (fixedRead_readFixed 8 leVal) (leVal_lt' 8))
  · exact roundTrip_unsigned (k := 16) (fun _ _ => rfl) (fixedRead_readFixed 16 leVal)
  · exact roundTrip_signed (k := 16) (by norm_num)
      (fun _ _ _ => by simp [writeLeI128, asUnsigned_eq_pattern])
      (signedRead (by norm_num) (fixedRead_readFixed 16 leVal) (leVal_lt' 16))
  · exact roundTrip_unsigned (k := 4) (fun _ _ => rfl) (fixedRead_readFixed 4 leVal)
  · intro n hn
    exact ⟨_, rfl, by simp, fun out => by simp [writeLeF64, leBytes_eq_spec],
      fun rest => readLeF64_le n rest hn⟩

/-- C01, the slice/`Bytes` writer: appends the slice and reports its length. -/
theorem C01_slice_write (out bs rest : Bytes) :
    writeBytes out bs = (out ++ bs, bs.length) ∧ readLen bs.length (bs ++ rest) = .ok bs rest := by
  simp [writeBytes]

-- non-vacuity: a negative 24-bit number is in the domain and is written as three bytes
example : S 24 (-2) := ⟨by decide, by decide⟩
example : writeLeI24 [7] (-2) = ([7, 0xfe, 0xff, 0xff], 3) := by decide
example : readLeI24 [0xfe, 0xff, 0xff, 9] = .ok (-2) [9] := by decide

/-! ### C02 -/

/-- C02: unsigned fixed-width reads (all of them except `read_le_f64`, see below). -/
theorem C02_unsigned_reads :
    FixedRead 1 Spec.leNat readU8 ∧
    FixedRead 2 Spec.leNat readLeU16 ∧ FixedRead 2 Spec.beNat readBeU16 ∧
    FixedRead 3 Spec.leNat readLeU24 ∧ FixedRead 3 Spec.beNat readBeU24 ∧
    FixedRead 4 Spec.leNat readLeU32 ∧ FixedRead 4 Spec.beNat readBeU32 ∧
    FixedRead 5 Spec.beNat readBeU40 ∧
    FixedRead 6 Spec.leNat readLeU48 ∧
    FixedRead 8 Spec.leNat readLeU64 ∧
    FixedRead 16 Spec.leNat readLeU128 ∧
    FixedRead 4 Spec.leNat readLeF32 := by
  rw [show Spec.leNat = leVal from funext fun b => (leVal_eq_spec b).symm,
    show Spec.beNat = beVal from funext fun b => (beVal_eq_spec b).symm]
  exact ⟨fixedRead_u8, fixedRead_readFixed 2 _, fixedRead_readFixed 2 _, fixedRead_leU24,
    fixedRead_beU24, fixedRead_readFixed 4 _, fixedRead_readFixed 4 _, fixedRead_beU40,
    fixedRead_leU48, fixedRead_readFixed 8 _, fixedRead_readFixed 16 _, fixedRead_readFixed 4 _⟩

example : readBeU40 [1, 2, 3, 4, 5, 9] = .ok 0x0102030405 [9] := by decide
example : readBeU40 [1, 2, 3] = .err (.incomplete (some 2)) [1, 2, 3] := by decide

/-- C02 fails for `read_le_f64`: with 5, 6 or 7 bytes left it panics ... -/
theorem C02_f64_short_panics_false (bs : Bytes) (h1 : 4 < bs.length) (h2 : bs.length < 8) :
    readLeF64 bs = .panic := by
  simp [readLeF64, h1, h2]

/-- ... so it is not a fixed-width read of 8 bytes. -/
theorem C02_f64_false : ¬ FixedRead 8 Spec.leNat readLeF64 := by
  intro h
  have := (h [0, 0, 0, 0, 0]).2 (by decide)
  simp [readLeF64] at this

/-- C02, what does hold of `read_le_f64` (missing: the exact shortage report on short input). It
reads correctly from 8 bytes on; with at most 4 bytes it fails without consuming but reports
`4 - remaining` instead of `8 - remaining` missing bytes. -/
theorem C02_f64_partial (bs : Bytes) :
    (8 ≤ bs.length → readLeF64 bs = .ok (Spec.leNat (bs.take 8)) (bs.drop 8)) ∧
    (bs.length ≤ 4 → readLeF64 bs = .err (.incomplete (some (4 - bs.length))) bs) := by
  constructor
  · intro h; simp [readLeF64, Nat.not_lt.mpr h, leVal_eq_spec]
  · intro h; simp [readLeF64, Nat.not_lt.mpr h, show bs.length < 8 by omega]

example : (8 : Nat) ≤ ([1,2,3,4,5,6,7,8,9] : Bytes).length := by decide

/-! ### C03 -/

/-- C03: signed reads whose result is the two's complement value of the bytes in the named order
(all except `read_be_i24` and `read_be_i40`). -/
theorem C03_signed_reads_partial :
    FixedRead 1 (fun b => Spec.twos 8 (Spec.leNat b)) readI8 ∧
    FixedRead 2 (fun b => Spec.twos 16 (Spec.leNat b)) readLeI16 ∧
    FixedRead 2 (fun b => Spec.twos 16 (Spec.beNat b)) readBeI16 ∧
    FixedRead 3 (fun b => Spec.twos 24 (Spec.leNat b)) readLeI24 ∧
    FixedRead 4 (fun b => Spec.twos 32 (Spec.leNat b)) readLeI32 ∧
    FixedRead 4 (fun b => Spec.twos 32 (Spec.beNat b)) readBeI32 ∧
    FixedRead 6 (fun b => Spec.twos 48 (Spec.leNat b)) readLeI48 ∧
    FixedRead 8 (fun b => Spec.twos 64 (Spec.leNat b)) readLeI64 ∧
    FixedRead 16 (fun b => Spec.twos 128 (Spec.leNat b)) readLeI128 := by
  simp only [← leVal_eq_spec, ← beVal_eq_spec]
  exact ⟨signedRead (k := 1) (by norm_num) fixedRead_u8 (leVal_lt' 1),
    signedRead (k := 2) (by norm_num) (fixedRead_readFixed 2 leVal) (leVal_lt' 2),
    signedRead (k := 2) (by norm_num) (fixedRead_readFixed 2 beVal) (beVal_lt' 2),
    signedRead24 fixedRead_leU24 (leVal_lt' 3),
    signedRead (k := 4) (by norm_num) (fixedRead_readFixed 4 leVal) (leVal_lt' 4),
    signedRead (k := 4) (by norm_num) (fixedRead_readFixed 4 beVal) (beVal_lt' 4),
    signedRead48,
    signedRead (k := 8) (by norm_num) (fixedRead_readFixed 8 leVal) (leVal_lt' 8),
    signedRead (k := 16) (by norm_num) (fixedRead_readFixed 16 leVal) (leVal_lt' 16)⟩

example : readLeI24 [0x00, 0x00, 0x80] = .ok (-8388608) [] := by decide
example : readBeI16 [0xff, 0xfe, 1] = .ok (-2) [1] := by decide

/-- C03 fails for `read_be_i24`: it reads little-endian (`00 00 01` big-endian is 1). -/
theorem C03_be_i24_false : ¬ FixedRead 3 (fun b => Spec.twos 24 (Spec.beNat b)) readBeI24 := by
  intro h
  have := (h [0, 0, 1]).1 (by decide)
  revert this; decide

/-- what `read_be_i24` computes instead: the little-endian value -/
theorem C03_be_i24_actual : FixedRead 3 (fun b => Spec.twos 24 (Spec.leNat b)) readBeI24 := by
  simp only [← leVal_eq_spec]
  exact signedRead24 fixedRead_leU24 (leVal_lt' 3)

/-- C03 fails for `read_be_i40`: no sign extension (`ff ff ff ff ff` should be -1). -/
theorem C03_be_i40_false : ¬ FixedRead 5 (fun b => Spec.twos 40 (Spec.beNat b)) readBeI40 := by
  intro h
  have := (h [255, 255, 255, 255, 255]).1 (by decide)
  revert this; decide

/-- `read_be_i40` is right exactly on the non-negative half: it returns the unsigned value. -/
theorem C03_be_i40_partial : FixedRead 5 (fun b => (Spec.beNat b : Int)) readBeI40 := by
  simp only [← beVal_eq_spec]
  refine (fixedRead_beU40.map _).congr fun b hb => ?_
  have := beVal_lt' 5 b hb
  simp only [asSigned, Nat.reduceSub, Nat.reducePow] at *
  rw [if_pos (by omega)]

end Mybin
