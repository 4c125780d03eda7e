/-
C66-C69: typed reading of column values: integers, booleans and strings as text, integers and booleans in the binary
protocol, times as text, dates in the binary protocol.
-/
import Verif.Model.Convert
import Verif.Spec.Values
import Verif.Lemmas.Sql

namespace Mybin

/-! ### C66 -/

theorem parseDigits_eq (t : Bytes) : ∀ acc, parseDigits acc t = Spec.readDigits acc t := by
  induction t with
  | nil => intro acc; rfl
  | cons b t ih =>
    intro acc
    rw [parseDigits, Spec.readDigits, Spec.digit?]
    split
    · exact ih _
    · rfl

theorem digits_ascii (t : Bytes) : ∀ acc n, Spec.readDigits acc t = some n → ∀ b ∈ t, b ≤ 0x7f := by
  induction t with
  | nil => intro _ _ _ b hb; cases hb
  | cons x t ih =>
    intro acc n h b hb
    rw [Spec.readDigits, Spec.digit?] at h
    split at h
    · rename_i d hd
      rcases List.mem_cons.1 hb with rfl | hb
      · split at hd
        · rename_i hx
          have := hx.2
          simp only [UInt8.le_iff_toNat_le] at *
          exact le_trans this (by decide)
        · cases hd
      · exact ih _ n h b hb
    · cases h

theorem validUtf8_ascii (t : Bytes) (h : ∀ b ∈ t, b ≤ 0x7f) : validUtf8 t = true := by
  induction t with
  | nil => rfl
  | cons b t ih =>
    unfold validUtf8
    rw [if_pos (h b (by simp))]
    exact ih fun x hx => h x (by simp [hx])

theorem readNat_ascii {t : Bytes} {n : Nat} (h : Spec.readNat t = some n) : ∀ b ∈ t, b ≤ 0x7f := by
  unfold Spec.readNat at h
  split at h
  · cases h
  · exact digits_ascii t 0 n h

theorem parseUInt_eq (w : Nat) (t : Bytes) :
    parseUInt w t = (Spec.readUnsigned t).bind fun n => if n < 2 ^ w then some n else none := by
  unfold parseUInt Spec.readUnsigned Spec.readNat
  simp only [parseDigits_eq]
  split <;> split <;> first | rfl | skip
  all_goals (cases Spec.readDigits 0 _ <;> rfl)

theorem parseSInt_eq (w : Nat) (t : Bytes) :
    parseSInt w t = (Spec.readSigned t).bind fun i =>
      if -(2 ^ (w - 1)) ≤ i ∧ i < 2 ^ (w - 1) then some i else none := by
  have hp : (0 : Int) < 2 ^ (w - 1) := by positivity
  have hc : ((2 ^ (w - 1) : Nat) : Int) = 2 ^ (w - 1) := by push_cast; rfl
  unfold parseSInt Spec.readSigned Spec.readInt Spec.readNat
  simp only [parseDigits_eq]
  by_cases h1 : t.head? = some 0x2b
  · have h2 : ¬ t.head? = some 0x2d := by rw [h1]; decide
    simp only [h1, true_or, if_true, if_neg (show ¬ (some (0x2b : UInt8) = some 0x2d) by decide)]
    split
    · rfl
    · cases Spec.readDigits 0 t.tail with
      | none => rfl
      | some n =>
        simp only [Option.map_some, Option.bind_some]
        by_cases hn : n < 2 ^ (w - 1)
        · rw [if_pos hn, if_pos ⟨by omega, by rw [← hc]; omega⟩]
        · rw [if_neg hn, if_neg (by rw [← hc]; omega)]
  · by_cases h2 : t.head? = some 0x2d
    · simp only [h2, or_true, if_true, if_neg (show ¬ (some (0x2d : UInt8) = some 0x2b) by decide)]
      split
      · rfl
      · cases Spec.readDigits 0 t.tail with
        | none => rfl
        | some n =>
          simp only [Option.map_some, Option.bind_some]
          by_cases hn : n ≤ 2 ^ (w - 1)
          · rw [if_pos hn, if_pos ⟨by omega, by omega⟩]
          · rw [if_neg hn, if_neg (by rw [← hc]; omega)]
    · simp only [h1, h2, or_self, if_false]
      split
      · rfl
      · cases Spec.readDigits 0 t with
        | none => rfl
        | some n =>
          simp only [Option.map_some, Option.bind_some]
          by_cases hn : n < 2 ^ (w - 1)
          · rw [if_pos hn, if_pos ⟨by omega, by rw [← hc]; omega⟩]
          · rw [if_neg hn, if_neg (by rw [← hc]; omega)]

theorem head_ascii {t : Bytes} {x : UInt8} (hx : x ≤ 0x7f) (h : t.head? = some x) (ht : ∀ b ∈ t.tail, b ≤ 0x7f) :
    ∀ b ∈ t, b ≤ 0x7f := by
  cases t with
  | nil => cases h
  | cons y t =>
    cases h
    intro b hb
    rcases List.mem_cons.1 hb with rfl | hb
    · exact hx
    · exact ht b hb

theorem readUnsigned_ascii {t : Bytes} {n : Nat} (h : Spec.readUnsigned t = some n) : ∀ b ∈ t, b ≤ 0x7f := by
  unfold Spec.readUnsigned at h
  split at h
  · rename_i hh; exact head_ascii (by decide) hh (readNat_ascii h)
  · exact readNat_ascii h

theorem readSigned_ascii {t : Bytes} {i : Int} (h : Spec.readSigned t = some i) : ∀ b ∈ t, b ≤ 0x7f := by
  unfold Spec.readSigned Spec.readInt at h
  split at h
  · rename_i hh
    obtain ⟨n, hn, -⟩ := Option.map_eq_some_iff.1 h
    exact head_ascii (by decide) hh (readNat_ascii hn)
  · split at h
    · rename_i hh
      obtain ⟨n, hn, -⟩ := Option.map_eq_some_iff.1 h
      exact head_ascii (by decide) hh (readNat_ascii hn)
    · obtain ⟨n, hn, -⟩ := Option.map_eq_some_iff.1 h
      exact readNat_ascii hn

/-- C66, unsigned types of any width: the result is the number the text stands for, exactly when it stands for one in
the range of the type; every other text is an error. -/
theorem C66_unsigned (w : Nat) (t : Bytes) :
    (∀ n, uintFromText w (some t) = .ok (some n) ↔ Spec.readUnsigned t = some n ∧ n < 2 ^ w) ∧
    ((¬ ∃ n, Spec.readUnsigned t = some n ∧ n < 2 ^ w) → ∃ e, uintFromText w (some t) = .err e) := by
  unfold uintFromText fromText
  dsimp only
  rw [parseUInt_eq]
  cases h : Spec.readUnsigned t with
  | none =>
    refine ⟨fun n => ⟨fun hh => ?_, fun hh => (by cases hh.1)⟩, fun _ => ?_⟩
    · rw [Option.bind_none] at hh; split at hh <;> cases hh
    · rw [Option.bind_none]; split <;> exact ⟨_, rfl⟩
  | some m =>
    have hu := validUtf8_ascii t (readUnsigned_ascii h)
    simp only [hu, Bool.not_true, Bool.false_eq_true, if_false, Option.bind_some]
    by_cases hm : m < 2 ^ w
    · simp only [if_pos hm]
      refine ⟨fun n => ⟨?_, ?_⟩, fun hn => absurd ⟨m, rfl, hm⟩ hn⟩
      · rintro ⟨⟩; exact ⟨rfl, hm⟩
      · rintro ⟨⟨⟩, -⟩; rfl
    · simp only [if_neg hm]
      refine ⟨fun n => ⟨fun hh => (by cases hh), ?_⟩, fun _ => ⟨_, rfl⟩⟩
      rintro ⟨⟨⟩, h⟩; exact absurd h hm

/-- C66, signed types. -/
theorem C66_signed (w : Nat) (t : Bytes) :
    (∀ i, sintFromText w (some t) = .ok (some i) ↔
      Spec.readSigned t = some i ∧ -(2 ^ (w - 1)) ≤ i ∧ i < 2 ^ (w - 1)) ∧
    ((¬ ∃ i, Spec.readSigned t = some i ∧ -(2 ^ (w - 1)) ≤ i ∧ i < 2 ^ (w - 1)) →
      ∃ e, sintFromText w (some t) = .err e) := by
  unfold sintFromText fromText
  dsimp only
  rw [parseSInt_eq]
  cases h : Spec.readSigned t with
  | none =>
    refine ⟨fun n => ⟨fun hh => ?_, fun hh => (by cases hh.1)⟩, fun _ => ?_⟩
    · rw [Option.bind_none] at hh; split at hh <;> cases hh
    · rw [Option.bind_none]; split <;> exact ⟨_, rfl⟩
  | some m =>
    have hu := validUtf8_ascii t (readSigned_ascii h)
    simp only [hu, Bool.not_true, Bool.false_eq_true, if_false, Option.bind_some]
    by_cases hm : -(2 ^ (w - 1)) ≤ m ∧ m < 2 ^ (w - 1)
    · simp only [if_pos hm]
      refine ⟨fun n => ⟨?_, ?_⟩, fun hn => absurd ⟨m, rfl, hm⟩ hn⟩
      · rintro ⟨⟩; exact ⟨rfl, hm⟩
      · rintro ⟨⟨⟩, -⟩; rfl
    · simp only [if_neg hm]
      refine ⟨fun n => ⟨fun hh => (by cases hh), ?_⟩, fun _ => ⟨_, rfl⟩⟩
      rintro ⟨⟨⟩, h⟩; exact absurd h hm

/-- C66: strings are the text, and an error when it is not UTF-8; bytes are always the text. -/
theorem C66_strings (t : Bytes) :
    (validUtf8 t = true → stringFromText (some t) = .ok (some t)) ∧
    (validUtf8 t = false → stringFromText (some t) = .err .utf8) ∧
    bytesFromText (some t) = .ok (some t) := by
  refine ⟨fun h => ?_, fun h => ?_, rfl⟩
  · unfold stringFromText fromText; simp [h]
  · unfold stringFromText fromText; simp [h]

/-- C66: reading a column of a row as a type converts the value at that index and nothing else; an index beyond the
row is an error. -/
theorem C66_column {γ α : Type} (conv : γ → Res α) (before : List γ) (v : γ) (after : List γ) :
    getColAs conv (before ++ v :: after) before.length = conv v ∧
    ∀ idx, (before ++ v :: after).length ≤ idx → getColAs conv (before ++ v :: after) idx = .err .columnIndex := by
  refine ⟨by simp [getColAs, ColumnExtractor.getCol], fun idx h => ?_⟩
  unfold getColAs ColumnExtractor.getCol
  rw [List.getElem?_eq_none h]

example : getColAs (uintFromText 8).nonNull [some (Spec.ascii "7"), none, some (Spec.ascii "12")] 2 = .ok 12 := by
  decide +kernel

/-- C66: NULL is `None` for an optional type and an error for the type itself; a value is the same for both. -/
theorem C66_null (w : Nat) :
    uintFromText w none = .ok none ∧ sintFromText w none = .ok none ∧ boolFromText none = .ok none ∧
    stringFromText none = .ok none ∧ bytesFromText none = .ok none ∧ timeFromText none = .ok none ∧
    (∀ {γ α : Type} (conv : Conv γ α) (v : γ),
      (conv v = .ok none → conv.nonNull v = .err .nullValue) ∧
      (∀ a, conv v = .ok (some a) → conv.nonNull v = .ok a) ∧
      (∀ e, conv v = .err e → conv.nonNull v = .err e)) := by
  refine ⟨rfl, rfl, rfl, rfl, rfl, rfl, fun conv v => ⟨fun h => ?_, fun a h => ?_, fun e h => ?_⟩⟩ <;>
    · unfold Conv.nonNull; rw [h]

/-- C66: `0` and `1` are false and true. (Full claim: every other number is true, which is false, see below.) -/
theorem C66_bool_partial (t : Bytes) :
    (Spec.readUnsigned t = some 0 → boolFromText (some t) = .ok (some false)) ∧
    (Spec.readUnsigned t = some 1 → boolFromText (some t) = .ok (some true)) := by
  constructor <;> intro h <;>
  · unfold boolFromText fromText
    dsimp only
    rw [validUtf8_ascii t (readUnsigned_ascii h)]
    simp [parseUInt_eq, h]

/-- C66: any other number that fits a byte is false, although MySQL takes it as true; negative and larger numbers are
errors. -/
theorem C66_bool_false (t : Bytes) (n : Nat) (h : Spec.readUnsigned t = some n) (h2 : 2 ≤ n) (h3 : n < 256) :
    boolFromText (some t) = .ok (some false) := by
  unfold boolFromText fromText
  dsimp only
  rw [validUtf8_ascii t (readUnsigned_ascii h)]
  simp only [parseUInt_eq, h, Bool.not_true, Bool.false_eq_true, if_false, Option.bind_some,
    if_pos (show n < 2 ^ 8 by omega), Option.map_some]
  rw [show (n == 1) = false from by simp; omega]

/-- `-128`, `007` and `18446744073709551615` -/
example : Spec.readSigned [0x2d, 0x31, 0x32, 0x38] = some (-128) ∧ Spec.readUnsigned [0x30, 0x30, 0x37] = some 7 ∧
    Spec.readUnsigned (Spec.ascii "18446744073709551615") = some (2 ^ 64 - 1) ∧
    Spec.readSigned [0x2d] = none ∧ Spec.readUnsigned [0x32] = some 2 := by
  refine ⟨by decide, by decide, by decide +kernel, by decide, by decide⟩

/-! ### C67 -/

/-- the binary cell of an integer column of the given width in bits that holds `i`: the two's complement pattern, for
MEDIUMINT (24) in four bytes -/
def Spec.intCell (i : Int) : Nat → BinaryColumnValue
  | 8 => .tiny (Spec.pattern 8 i)
  | 16 => .short (Spec.pattern 16 i)
  | 24 => .int24 (Spec.pattern 32 i)
  | 32 => .long (Spec.pattern 32 i)
  | _ => .longLong (Spec.pattern 64 i)

/-- the values of an integer column -/
def Spec.intRange (w : Nat) (unsigned : Bool) (i : Int) : Prop :=
  if unsigned then 0 ≤ i ∧ i < 2 ^ w else Spec.SignedRange w i

theorem binaryInt_cell (i : Int) (w v : Nat) (hw : w ∈ [8, 16, 32, 64]) (hv : v ∈ [8, 16, 32, 64]) (h : w ≤ v) :
    Spec.intCell i w ≠ .null ∧ binaryInt v (Spec.intCell i w) = some (w, Spec.pattern w i) := by
  simp only [List.mem_cons, List.not_mem_nil, or_false] at hw hv
  refine ⟨?_, ?_⟩
  · rcases hw with rfl | rfl | rfl | rfl <;> simp [Spec.intCell]
  · rcases hw with rfl | rfl | rfl | rfl <;> simp [Spec.intCell, binaryInt, h]

theorem binaryInt_narrow (i : Int) (w v : Nat) (hw : w ∈ [8, 16, 24, 32, 64]) (hv : v ∈ [8, 16, 32, 64])
    (h : v < w ∨ w = 24) :
    Spec.intCell i w ≠ .null ∧ binaryInt v (Spec.intCell i w) = none := by
  simp only [List.mem_cons, List.not_mem_nil, or_false] at hw hv
  refine ⟨?_, ?_⟩
  · rcases hw with rfl | rfl | rfl | rfl | rfl <;> simp [Spec.intCell]
  · rcases hw with rfl | rfl | rfl | rfl | rfl <;> simp [Spec.intCell, binaryInt] <;> omega

theorem pattern_of_nonneg (w : Nat) (i : Int) (h0 : 0 ≤ i) (h1 : i < 2 ^ w) : (Spec.pattern w i : Int) = i := by
  unfold Spec.pattern
  rw [Int.toNat_of_nonneg (Int.emod_nonneg _ (by positivity)), Int.emod_eq_of_lt h0 (by push_cast; exact h1)]

/-- C67, a signed column read as a signed type, and an unsigned column as an unsigned type, of at least its width: the
value of the column. (Full claim: for every column and type, the value of the column or an error; for a mismatch of
signs this is false, see below.) -/
theorem C67_same_sign_partial (i : Int) (w v : Nat) (hw : w ∈ [8, 16, 32, 64]) (hv : v ∈ [8, 16, 32, 64])
    (h : w ≤ v) :
    (Spec.intRange w false i → sintFromBinary v (Spec.intCell i w) = .ok (some i)) ∧
    (Spec.intRange w true i → uintFromBinary v (Spec.intCell i w) = .ok (some i.toNat)) := by
  have hw0 : 0 < w := by
    simp only [List.mem_cons, List.not_mem_nil, or_false] at hw
    omega
  obtain ⟨h1, h2⟩ := binaryInt_cell i w v hw hv h
  constructor
  · intro hr
    unfold sintFromBinary
    rw [if_neg h1, h2]
    dsimp only
    rw [asSigned_eq_twos hw0 (pattern_lt w i), twos_pattern hw0 hr]
  · intro hr
    have hp := pattern_of_nonneg w i hr.1 hr.2
    unfold uintFromBinary
    rw [if_neg h1, h2]
    dsimp only
    rw [Nat.mod_eq_of_lt (pattern_lt w i)]
    congr 2
    omega

/-- C67: a type narrower than the column, and any of these types for MEDIUMINT, is an error. -/
theorem C67_narrow (i : Int) (w v : Nat) (hw : w ∈ [8, 16, 24, 32, 64]) (hv : v ∈ [8, 16, 32, 64])
    (h : v < w ∨ w = 24) :
    sintFromBinary v (Spec.intCell i w) = .err .typeMismatch ∧
    uintFromBinary v (Spec.intCell i w) = .err .typeMismatch := by
  obtain ⟨h1, h2⟩ := binaryInt_narrow i w v hw hv h
  unfold sintFromBinary uintFromBinary
  rw [if_neg h1, if_neg h1, h2]
  exact ⟨rfl, rfl⟩

theorem i24_cell (n : Nat) (h : n < 2 ^ 32) :
    (if n &&& 0x800000 ≠ 0 then asSigned 32 (n ||| 0xff800000) else asSigned 32 n)
      = if n.testBit 23 then asSigned 32 (n ||| 0xff800000) else asSigned 32 n := by
  have := Nat.and_two_pow n 23
  rw [show (0x800000 : Nat) = 2 ^ 23 from rfl, this]
  cases n.testBit 23 <;> simp

theorem or_high (n : Nat) (h1 : 2 ^ 32 - 2 ^ 23 ≤ n) (h2 : n < 2 ^ 32) : n ||| 0xff800000 = n := by
  have hn : n = 2 ^ 23 * 511 + (n - 2 ^ 23 * 511) := by omega
  have hl : n - 2 ^ 23 * 511 < 2 ^ 23 := by omega
  rw [hn, Nat.two_pow_add_eq_or_of_lt hl, show (0xff800000 : Nat) = 2 ^ 23 * 511 from rfl, Nat.or_comm, ← Nat.or_assoc,
    Nat.or_self]

/-- C67: `MyI24` and `MyU24` for columns of at most 24 bits, signed and unsigned. -/
theorem C67_medium_partial (i : Int) (w : Nat) (hw : w ∈ [8, 16, 24]) :
    (Spec.intRange w false i → i24FromBinary (Spec.intCell i w) = .ok (some i)) ∧
    (Spec.intRange w true i → u24FromBinary (Spec.intCell i w) = .ok (some i.toNat)) := by
  simp only [List.mem_cons, List.not_mem_nil, or_false] at hw
  have key : ∀ k, 0 < k → Spec.SignedRange k i → asSigned k (Spec.pattern k i) = i := fun k hk hr => by
    rw [asSigned_eq_twos hk (pattern_lt k i), twos_pattern hk hr]
  constructor
  · intro hr
    rcases hw with rfl | rfl | rfl
    · show Res.ok (some (asSigned 8 _)) = _
      rw [key 8 (by norm_num) hr]
    · show Res.ok (some (asSigned 16 _)) = _
      rw [key 16 (by norm_num) hr]
    · have hr : -(2 ^ 23) ≤ i ∧ i < 2 ^ 23 := hr
      have k32 := key 32 (by norm_num) ⟨by norm_num; omega, by norm_num; omega⟩
      have hlt := pattern_lt 32 i
      show (if _ then _ else _) = _
      have e : ∀ (p : Prop) [Decidable p] (a b : Int),
          (if p then Res.ok (some a) else Res.ok (some b)) = Res.ok (some (if p then a else b)) := by
        intro p _ a b; split <;> rfl
      rw [e, i24_cell _ hlt]
      congr 2
      split
      · rename_i hb
        rw [or_high _ ?_ hlt, k32]
        by_contra hc
        have hp : Spec.pattern 32 i < 2 ^ 23 := by
          unfold Spec.pattern at *
          have := Int.emod_emod_of_dvd i (show (2 ^ 32 : Int) ∣ 2 ^ 32 from dvd_refl _)
          omega
        rw [Nat.testBit_lt_two_pow hp] at hb
        cases hb
      · exact k32
  · intro hr
    rcases hw with rfl | rfl | rfl
    · have := pattern_of_nonneg 8 i hr.1 hr.2
      show Res.ok (some (Spec.pattern 8 i)) = _
      congr 2
      omega
    · have := pattern_of_nonneg 16 i hr.1 hr.2
      show Res.ok (some (Spec.pattern 16 i)) = _
      congr 2
      omega
    · have hr : 0 ≤ i ∧ i < 2 ^ 24 := hr
      have := pattern_of_nonneg 32 i hr.1 (by omega)
      show Res.ok (some (Spec.pattern 32 i)) = _
      congr 2
      omega

/-- C67: an unsigned column read as a signed type gives a wrong negative number for every value with the top bit, in
every type, however wide; a negative value read as an unsigned type gives a wrong positive one. -/
theorem C67_sign_false (i : Int) (w v : Nat) (hw : w ∈ [8, 16, 32, 64]) (hv : v ∈ [8, 16, 32, 64]) (h : w ≤ v) :
    (Spec.intRange w true i → 2 ^ (w - 1) ≤ i → sintFromBinary v (Spec.intCell i w) = .ok (some (i - 2 ^ w))) ∧
    (Spec.intRange w false i → i < 0 → uintFromBinary v (Spec.intCell i w) = .ok (some (i + 2 ^ w).toNat)) := by
  obtain ⟨h1, h2⟩ := binaryInt_cell i w v hw hv h
  constructor
  · intro hr hi
    have hp := pattern_of_nonneg w i hr.1 hr.2
    unfold sintFromBinary
    rw [if_neg h1, h2]
    dsimp only
    unfold asSigned
    have : ¬ Spec.pattern w i < 2 ^ (w - 1) := by
      intro hc
      have : (Spec.pattern w i : Int) < 2 ^ (w - 1) := by exact_mod_cast hc
      omega
    rw [if_neg this, hp]
  · intro hr hi
    unfold uintFromBinary
    rw [if_neg h1, h2]
    dsimp only
    rw [Nat.mod_eq_of_lt (pattern_lt w i)]
    have : Spec.pattern w i = (i + 2 ^ w).toNat := by
      unfold Spec.pattern
      have hw1 : (2 : Int) ^ w = 2 * 2 ^ (w - 1) := by
        simp only [List.mem_cons, List.not_mem_nil, or_false] at hw
        rcases hw with rfl | rfl | rfl | rfl <;> norm_num
      have := hr.1
      have hpos : (0 : Int) < 2 ^ (w - 1) := by positivity
      have := Int.emod_eq_of_lt (a := i + 2 ^ w) (b := 2 ^ w) (by omega) (by omega)
      rw [Int.add_emod_right] at this
      push_cast
      rw [this]
    rw [this]

/-- C67: TINYINT 0 and 1 are false and true. (Full claim: every other value is true.) -/
theorem C67_bool_partial :
    boolFromBinary (Spec.intCell 0 8) = .ok (some false) ∧ boolFromBinary (Spec.intCell 1 8) = .ok (some true) :=
  ⟨rfl, rfl⟩

/-- C67: every other value is false. -/
theorem C67_bool_false (i : Int) (unsigned : Bool) (h : Spec.intRange 8 unsigned i) (h1 : i ≠ 1) :
    boolFromBinary (Spec.intCell i 8) = .ok (some false) := by
  show Res.ok (some (Spec.pattern 8 i == 1)) = _
  have : Spec.pattern 8 i ≠ 1 := by
    intro hc
    cases unsigned
    · have h2 := twos_pattern (w := 8) (by norm_num) h
      rw [hc] at h2
      exact h1 (h2.symm.trans (by decide))
    · have := pattern_of_nonneg 8 i h.1 h.2
      omega
  simp [this]

/-- NULL, strings and bytes of the binary protocol -/
theorem C67_strings (t : Bytes) :
    (validUtf8 t = true → stringFromBinary (.varString t) = .ok (some t) ∧ stringFromBinary (.string t) = .ok (some t) ∧
      stringFromBinary (.blob t) = .ok (some t)) ∧
    (validUtf8 t = false → stringFromBinary (.varString t) = .err .utf8 ∧ stringFromBinary (.string t) = .err .utf8 ∧
      stringFromBinary (.blob t) = .err .utf8) ∧
    bytesFromBinary (.varString t) = .ok (some t) ∧ bytesFromBinary (.string t) = .ok (some t) ∧
    bytesFromBinary (.blob t) = .ok (some t) ∧ bytesFromBinary (.geometry t) = .ok (some t) ∧
    bitFromBinary (.bit t) = .ok (some t) := by
  refine ⟨fun h => ?_, fun h => ?_, rfl, rfl, rfl, rfl, rfl⟩ <;> simp [stringFromBinary, h]

/-- a conversion that gives the values of the columns built by `mk`, `None` for NULL, and an error for any other column -/
def ReadsExactly {α : Type} (conv : Conv BinaryColumnValue α) (mk : α → BinaryColumnValue) : Prop :=
  ∀ v, (∀ a, conv v = .ok (some a) ↔ v = mk a) ∧ (conv v = .ok none ↔ v = .null) ∧
    ((∃ a, v = mk a) ∨ v = .null ∨ conv v = .err .typeMismatch)

/-- C67: YEAR, FLOAT, DOUBLE (as bit patterns), TIME, BIT and TIMESTAMP columns give exactly their values, and nothing else
can be read as these types. -/
theorem C67_own_types :
    ReadsExactly yearFromBinary .year ∧ ReadsExactly f32FromBinary .float ∧ ReadsExactly f64FromBinary .double ∧
    ReadsExactly timeFromBinary .time ∧ ReadsExactly bitFromBinary .bit ∧ ReadsExactly myDateTimeFromBinary .timestamp := by
  refine ⟨fun v => ?_, fun v => ?_, fun v => ?_, fun v => ?_, fun v => ?_, fun v => ?_⟩ <;> cases v <;>
    simp [yearFromBinary, f32FromBinary, f64FromBinary, timeFromBinary, bitFromBinary, myDateTimeFromBinary, eq_comm]

/-- C67: what can be read as bytes and as a string -/
theorem C67_strings_exact (v : BinaryColumnValue) (bs : Bytes) :
    (bytesFromBinary v = .ok (some bs) ↔ v ∈ [.blob bs, .varString bs, .string bs, .geometry bs]) ∧
    (stringFromBinary v = .ok (some bs) ↔ validUtf8 bs = true ∧ v ∈ [.blob bs, .varString bs, .string bs]) := by
  constructor
  · cases v <;> simp [bytesFromBinary]
  · cases v with
    | blob x | varString x | string x =>
      simp only [stringFromBinary]
      by_cases h : validUtf8 x = true
      · simp only [h, if_true, Res.ok.injEq, Option.some.injEq, List.mem_cons, List.not_mem_nil, or_false, reduceCtorEq, false_or,
          BinaryColumnValue.blob.injEq, BinaryColumnValue.varString.injEq, BinaryColumnValue.string.injEq]
        constructor
        · rintro rfl; exact ⟨h, rfl⟩
        · rintro ⟨-, rfl⟩; rfl
      · simp only [h, if_false, List.mem_cons, List.not_mem_nil, or_false, reduceCtorEq, false_or, false_iff, not_and, Bool.false_eq_true,
          BinaryColumnValue.blob.injEq, BinaryColumnValue.varString.injEq, BinaryColumnValue.string.injEq]
        rintro h' rfl
        exact h h'
    | _ => simp [stringFromBinary]

/-- C67: NULL is `None` for every optional type -/
theorem C67_null (w : Nat) :
    uintFromBinary w .null = .ok none ∧ sintFromBinary w .null = .ok none ∧ boolFromBinary .null = .ok none ∧
    i24FromBinary .null = .ok none ∧ u24FromBinary .null = .ok none ∧ bytesFromBinary .null = .ok none ∧
    stringFromBinary .null = .ok none := by
  refine ⟨by simp [uintFromBinary], by simp [sintFromBinary], rfl, rfl, rfl, rfl, rfl⟩

/-- BIGINT -1, SMALLINT UNSIGNED 65535, and TINYINT UNSIGNED 200, which read as `i64` is -56 -/
example : Spec.intRange 64 false (-1) ∧ Spec.intRange 16 true 65535 ∧ Spec.intRange 24 false (-8388608) ∧
    Spec.intRange 8 true 200 ∧ sintFromBinary 64 (Spec.intCell 200 8) = .ok (some (-56)) := by
  refine ⟨⟨by norm_num, by norm_num⟩, ⟨by norm_num, by norm_num⟩, ⟨by norm_num, by norm_num⟩,
    ⟨by norm_num, by norm_num⟩, by decide +kernel⟩

/-! ### C68 -/

theorem splitOn_none (c : UInt8) (a : Bytes) (h : c ∉ a) : splitOn c a = [a] := by
  induction a with
  | nil => rfl
  | cons b a ih =>
    rw [splitOn, if_neg (by rintro rfl; simp at h), ih (by simp at h; exact h.2)]

theorem splitOn_append (c : UInt8) (a t : Bytes) (h : c ∉ a) : splitOn c (a ++ c :: t) = a :: splitOn c t := by
  induction a with
  | nil => simp [splitOn]
  | cons b a ih =>
    rw [List.cons_append, splitOn, if_neg (by rintro rfl; simp at h), ih (by simp at h; exact h.2)]

theorem padded_digits (k : Nat) : ∀ n, ∀ b ∈ Spec.padded k n, 0x30 ≤ b ∧ b ≤ 0x39 := by
  have key : ∀ d, d < 10 → (0x30 : UInt8) ≤ UInt8.ofNat (0x30 + d) ∧ UInt8.ofNat (0x30 + d) ≤ 0x39 := by decide +kernel
  induction k with
  | zero => intro n b hb; cases hb
  | succ k ih =>
    intro n b hb
    rw [Spec.padded, List.mem_append] at hb
    rcases hb with hb | hb
    · exact ih _ b hb
    · rw [List.mem_singleton] at hb
      subst hb
      exact key _ (Nat.mod_lt _ (by norm_num))

theorem padded_length (k : Nat) : ∀ n, (Spec.padded k n).length = k := by
  induction k with
  | zero => intro n; rfl
  | succ k ih => intro n; rw [Spec.padded, List.length_append, ih]; rfl

theorem readDigits_padded (k : Nat) : ∀ n acc, n < 10 ^ k →
    Spec.readDigits acc (Spec.padded k n) = some (acc * 10 ^ k + n) := by
  induction k with
  | zero => intro n acc h; rw [show n = 0 by omega]; simp [Spec.padded, Spec.readDigits]
  | succ k ih =>
    intro n acc h
    have h10 : n / 10 < 10 ^ k := by rw [pow_succ] at h; omega
    rw [Spec.padded, readDigits_append, ih _ _ h10, Option.bind_some]
    simp only [Spec.readDigits]
    rw [show UInt8.ofNat (0x30 + n % 10) = digitByte (n % 10) from rfl, digit?_digitByte _ (Nat.mod_lt _ (by norm_num))]
    simp only [pow_succ, Option.some.injEq]
    rw [← Nat.mul_assoc]
    omega

theorem readNat_padded (k n : Nat) (hk : 0 < k) (h : n < 10 ^ k) : Spec.readNat (Spec.padded k n) = some n := by
  unfold Spec.readNat
  rw [if_neg ?_, readDigits_padded k n 0 h]
  · simp
  · intro hc
    have := padded_length k n
    rw [hc] at this
    simp at this
    omega

theorem padded_head (k n : Nat) (c : UInt8) (h : c < 0x30) : (Spec.padded k n).head? ≠ some c := by
  intro hc
  have := (padded_digits k n c (List.mem_of_mem_head? hc)).1
  simp only [UInt8.lt_iff_toNat_lt, UInt8.le_iff_toNat_le] at *
  omega

theorem parseUInt_padded (w k n : Nat) (hk : 0 < k) (h : n < 10 ^ k) (hw : n < 2 ^ w) :
    parseUInt w (Spec.padded k n) = some n := by
  rw [parseUInt_eq, Spec.readUnsigned, if_neg (padded_head k n 0x2b (by decide)), readNat_padded k n hk h]
  simp [hw]

theorem not_mem_padded (k n : Nat) (c : UInt8) (h : c < 0x30 ∨ 0x39 < c) : c ∉ Spec.padded k n := by
  intro hc
  obtain ⟨h1, h2⟩ := padded_digits k n c hc
  simp only [UInt8.lt_iff_toNat_lt, UInt8.le_iff_toNat_le] at *
  omega

/-- the hours of a time text -/
def hoursText (t : Spec.Time) : Bytes :=
  (if t.negative then Spec.ascii "-" else []) ++ Spec.padded (if t.hours < 100 then 2 else 3) t.hours

/-- the seconds of a time text -/
def secondsText (t : Spec.Time) (fsp : Nat) : Bytes :=
  Spec.padded 2 t.second ++ (if fsp = 0 then [] else Spec.ascii "." ++ Spec.padded fsp (t.micro / 10 ^ (6 - fsp)))

theorem time_text_eq (t : Spec.Time) (fsp : Nat) :
    t.text fsp = hoursText t ++ 0x3a :: (Spec.padded 2 t.minute ++ 0x3a :: secondsText t fsp) := by
  unfold Spec.Time.text hoursText secondsText
  simp [Spec.ascii]

theorem time_split (t : Spec.Time) (fsp : Nat) :
    splitOn 0x3a (t.text fsp) = [hoursText t, Spec.padded 2 t.minute, secondsText t fsp] := by
  have h1 : (0x3a : UInt8) ∉ hoursText t := by
    unfold hoursText
    rw [List.mem_append]
    rintro (h | h)
    · split at h
      · revert h; decide
      · cases h
    · exact not_mem_padded _ _ _ (.inr (by decide)) h
  have h2 : (0x3a : UInt8) ∉ secondsText t fsp := by
    unfold secondsText
    rw [List.mem_append]
    rintro (h | h)
    · exact not_mem_padded _ _ _ (.inr (by decide)) h
    · split at h
      · cases h
      · rw [List.mem_append] at h
        rcases h with h | h
        · revert h; decide
        · exact not_mem_padded _ _ _ (.inr (by decide)) h
  rw [time_text_eq, splitOn_append _ _ _ h1, splitOn_append _ _ _ (not_mem_padded _ _ _ (.inr (by decide))),
    splitOn_none _ _ h2]

theorem time_ascii (t : Spec.Time) (fsp : Nat) : ∀ b ∈ t.text fsp, b ≤ 0x7f := by
  have hp : ∀ k n, ∀ b ∈ Spec.padded k n, b ≤ 0x7f := fun k n b hb => by
    have := (padded_digits k n b hb).2
    simp only [UInt8.le_iff_toNat_le] at *
    exact le_trans this (by decide)
  have h1 : ∀ b ∈ hoursText t, b ≤ 0x7f := by
    intro b hb
    unfold hoursText at hb
    rcases List.mem_append.1 hb with hb | hb
    · split at hb
      · rw [show Spec.ascii "-" = [0x2d] from rfl, List.mem_singleton] at hb; subst hb; decide
      · cases hb
    · exact hp _ _ b hb
  have h2 : ∀ b ∈ secondsText t fsp, b ≤ 0x7f := by
    intro b hb
    unfold secondsText at hb
    rcases List.mem_append.1 hb with hb | hb
    · exact hp _ _ b hb
    · split at hb
      · cases hb
      · rcases List.mem_append.1 hb with hb | hb
        · rw [show Spec.ascii "." = [0x2e] from rfl, List.mem_singleton] at hb; subst hb; decide
        · exact hp _ _ b hb
  rw [time_text_eq]
  intro b hb
  rcases List.mem_append.1 hb with hb | hb
  · exact h1 b hb
  · rcases List.mem_cons.1 hb with rfl | hb
    · decide
    · rcases List.mem_append.1 hb with hb | hb
      · exact hp _ _ b hb
      · rcases List.mem_cons.1 hb with rfl | hb
        · decide
        · exact h2 b hb

theorem trimStart_none {t : Bytes} (h : whiteSpace t = none) : trimStart t = t := by
  rw [trimStart.eq_def]
  split
  · rename_i r hr; rw [h] at hr; cases hr
  · rfl

theorem trimStart_some {t r : Bytes} (h : whiteSpace t = some r) : trimStart t = trimStart r := by
  rw [trimStart.eq_def]
  split
  · rename_i r' hr; rw [h] at hr; cases hr; rfl
  · rename_i hr; rw [h] at hr; cases hr

theorem trimStart_of {t : Bytes} (b : UInt8) (r : Bytes) (h : t = b :: r) (hb : 0x20 < b) (hb' : b < 0x80) :
    trimStart t = t := by
  refine trimStart_none ?_
  subst h
  have n1 : b ≠ 0x20 := by rintro rfl; exact absurd hb (by decide)
  have n2 : ¬ (0x09 ≤ b ∧ b ≤ 0x0d) := by
    rintro ⟨-, h⟩
    rw [UInt8.lt_iff_toNat_lt] at hb
    rw [UInt8.le_iff_toNat_le] at h
    have : (13 : UInt8).toNat = 13 := rfl
    have : (32 : UInt8).toNat = 32 := rfl
    omega
  have n3 : ∀ x : UInt8, 0x80 ≤ x → b ≠ x := by
    rintro x hx rfl
    exact absurd hb' (UInt8.not_lt.2 hx)
  rw [whiteSpace.eq_def]
  dsimp only
  rw [if_neg (by rintro (h | h); exacts [n1 h, n2 h])]
  cases r with
  | nil => rfl
  | cons c r =>
    dsimp only
    rw [if_neg (fun h => n3 0xc2 (by decide) h.1)]
    cases r with
    | nil => rfl
    | cons d r =>
      dsimp only
      rw [if_neg]
      rintro (h | h | h | h)
      · exact n3 _ (by decide) h.1
      · exact n3 _ (by decide) h.1
      · exact n3 _ (by decide) h.1
      · exact n3 _ (by decide) h.1

theorem time_trim (t : Spec.Time) (fsp : Nat) : trimStart (t.text fsp) = t.text fsp := by
  obtain ⟨k, hk⟩ : ∃ k, (if t.hours < 100 then 2 else 3) = k + 1 := by split <;> exact ⟨_, rfl⟩
  cases hn : t.negative with
  | true =>
    refine trimStart_of 0x2d (Spec.padded (if t.hours < 100 then 2 else 3) t.hours ++
      0x3a :: (Spec.padded 2 t.minute ++ 0x3a :: secondsText t fsp)) ?_ (by decide) (by decide)
    rw [time_text_eq, hoursText, hn]
    rfl
  | false =>
    cases hp : Spec.padded (k + 1) t.hours with
    | nil => have := padded_length (k + 1) t.hours; rw [hp] at this; cases this
    | cons b r =>
      obtain ⟨hb, hb'⟩ := padded_digits (k + 1) t.hours b (by rw [hp]; simp)
      refine trimStart_of b (r ++ 0x3a :: (Spec.padded 2 t.minute ++ 0x3a :: secondsText t fsp)) ?_
        (by
          rw [UInt8.lt_iff_toNat_lt]; rw [UInt8.le_iff_toNat_le] at hb
          exact lt_of_lt_of_le (by decide) hb)
        (by
          rw [UInt8.lt_iff_toNat_lt]; rw [UInt8.le_iff_toNat_le] at hb'
          exact lt_of_le_of_lt hb' (by decide))
      rw [time_text_eq, hoursText, hn, hk, hp]
      rfl

theorem hours_read (t : Spec.Time) (h : t.hours ≤ 838) (w : Nat) (hw : (838 : Int) < 2 ^ (w - 1)) :
    parseSInt w (hoursText t) = some (if t.negative then -(t.hours : Int) else t.hours) := by
  obtain ⟨k, hk, hk0, hlt⟩ : ∃ k, (if t.hours < 100 then 2 else 3) = k ∧ 0 < k ∧ t.hours < 10 ^ k := by
    split
    · exact ⟨2, rfl, by norm_num, by omega⟩
    · exact ⟨3, rfl, by norm_num, by omega⟩
  have hr : ∀ i : Int, -838 ≤ i ∧ i ≤ 838 → -(2 ^ (w - 1)) ≤ i ∧ i < 2 ^ (w - 1) := by
    intro i hi
    constructor <;> omega
  rw [parseSInt_eq, hoursText, hk]
  unfold Spec.readSigned Spec.readInt
  cases hn : t.negative with
  | true =>
    simp only [if_true]
    rw [show Spec.ascii "-" = [0x2d] from rfl]
    simp only [List.cons_append, List.nil_append, List.head?_cons, List.tail_cons,
      if_neg (show ¬ some (0x2d : UInt8) = some 0x2b by decide), if_true]
    rw [readNat_padded k _ hk0 hlt]
    simp only [Option.map_some, Option.bind_some]
    rw [if_pos (hr _ (by omega))]
  | false =>
    simp only [Bool.false_eq_true, if_false, List.nil_append]
    rw [if_neg (padded_head _ _ _ (by decide)), if_neg (padded_head _ _ _ (by decide)), readNat_padded k _ hk0 hlt]
    simp only [Option.map_some, Option.bind_some]
    rw [if_pos (hr _ (by omega))]

/-- the microseconds the code computes from the fraction -/
def codeMicro (micro fsp : Nat) : Nat :=
  if fsp = 0 then 0 else if fsp = 3 then micro / 1000 * 1000 else micro / 10 ^ (6 - fsp)

theorem seconds_read (t : Spec.Time) (fsp : Nat) (hs : t.second < 60) (hm : t.micro < 1000000) (hf : fsp ≤ 6) :
    parseSeconds (secondsText t fsp) = .ok (t.second, codeMicro t.micro fsp) := by
  have hsec := parseUInt_padded 8 2 t.second (by norm_num) (by omega) (by omega)
  unfold parseSeconds secondsText
  by_cases h0 : fsp = 0
  · rw [if_pos h0, List.append_nil, splitOn_none _ _ (not_mem_padded _ _ _ (.inl (by decide)))]
    dsimp only
    rw [hsec, codeMicro, if_pos h0]
    rfl
  · rw [if_neg h0, show Spec.ascii "." = [0x2e] from rfl, List.singleton_append,
      splitOn_append _ _ _ (not_mem_padded _ _ _ (.inl (by decide))),
      splitOn_none _ _ (not_mem_padded _ _ _ (.inl (by decide)))]
    have hlt : t.micro / 10 ^ (6 - fsp) < 10 ^ fsp := by
      rw [Nat.div_lt_iff_lt_mul (by positivity), ← pow_add, show fsp + (6 - fsp) = 6 by omega]
      exact hm
    have hlt32 : t.micro / 10 ^ (6 - fsp) < 2 ^ 32 := lt_of_le_of_lt (Nat.div_le_self _ _) (by omega)
    have hfr := parseUInt_padded 32 fsp _ (by omega) hlt hlt32
    dsimp only
    rw [hsec, hfr, padded_length, codeMicro, if_neg h0]
    by_cases h3 : fsp = 3
    · subst h3
      simp only [if_true]
      show (if t.micro / 10 ^ (6 - 3) * 1000 < 2 ^ 32 then _ else _) = _
      rw [if_pos (by omega)]
      rfl
    · simp only [if_neg h3]
      rfl

/-- what the code reads from the text of a TIME value -/
theorem time_read (t : Spec.Time) (fsp : Nat) (h : t.Ok fsp) :
    timeFromText (some (t.text fsp)) = .ok (some ⟨t.negative && decide (t.hours ≠ 0), t.hours / 24, t.hours % 24, t.minute,
      t.second, codeMicro t.micro fsp⟩) := by
  obtain ⟨h1, h2, h3, h4, h5, -⟩ := h
  unfold timeFromText
  dsimp only
  rw [validUtf8_ascii _ (time_ascii t fsp), time_trim, time_split]
  simp only [Bool.not_true, Bool.false_eq_true, if_false]
  rw [hours_read t h1 64 (by norm_num), parseUInt_padded 8 2 t.minute (by norm_num) (by omega) (by omega), seconds_read t fsp h3 h4 h5]
  show (if (if t.negative then -(t.hours : Int) else (t.hours : Int)) = -(2 ^ 63) then Res.panic else _) = _
  have hab : ∀ i : Int, i = (if t.negative then -(t.hours : Int) else (t.hours : Int)) →
      i ≠ -(2 ^ 63) ∧ i.natAbs % 2 ^ 32 = t.hours ∧ decide (i < 0) = (t.negative && decide (t.hours ≠ 0)) := by
    rintro i rfl
    cases t.negative
    · refine ⟨?_, ?_, ?_⟩
      · norm_num; omega
      · simp; omega
      · simp
    · refine ⟨?_, ?_, ?_⟩
      · norm_num; omega
      · simp; omega
      · simp [Nat.pos_iff_ne_zero]
  obtain ⟨a1, a2, a3⟩ := hab _ rfl
  rw [if_neg a1]
  show Res.ok (some (⟨_, _, _, _, _, _⟩ : MyTime)) = _
  rw [a2, a3]
  congr 3
  omega

/-- C68: a TIME value with 0, 3 or 6 digits of fraction is read exactly, if it is not negative with zero hours.
(Full claim: for every TIME value and every number of digits; that is false, see below.) -/
theorem C68_time_text_partial (t : Spec.Time) (fsp : Nat) (h : t.Ok fsp) (hf : fsp = 0 ∨ fsp = 3 ∨ fsp = 6)
    (hn : t.negative = true → t.hours ≠ 0) :
    ∃ m, timeFromText (some (t.text fsp)) = .ok (some m) ∧ m.negative = t.negative ∧
      m.days * 24 + m.hour = t.hours ∧ m.hour < 24 ∧ m.minute = t.minute ∧ m.second = t.second ∧ m.micro = t.micro := by
  refine ⟨_, time_read t fsp h, ?_, ?_, Nat.mod_lt _ (by norm_num), rfl, rfl, ?_⟩
  · cases ht : t.negative with
    | false => rfl
    | true => simp [hn ht]
  · show t.hours / 24 * 24 + t.hours % 24 = t.hours
    omega
  · obtain ⟨-, -, -, h4, -, h6⟩ := h
    show codeMicro t.micro fsp = t.micro
    unfold codeMicro
    rcases hf with rfl | rfl | rfl
    · rw [if_pos rfl]; omega
    · norm_num at h6 ⊢; omega
    · simp

/-- C68: every negative time of less than an hour is read as a positive one. -/
theorem C68_sign_false (t : Spec.Time) (fsp : Nat) (h : t.Ok fsp) (h0 : t.hours = 0) :
    ∃ m, timeFromText (some (t.text fsp)) = .ok (some m) ∧ m.negative = false := by
  refine ⟨_, time_read t fsp h, ?_⟩
  simp [h0]

/-- C68: with 1, 2, 4 or 5 digits every fraction that is not zero is read as a wrong, smaller one. -/
theorem C68_fraction_false (t : Spec.Time) (fsp : Nat) (h : t.Ok fsp) (hf : fsp = 1 ∨ fsp = 2 ∨ fsp = 4 ∨ fsp = 5)
    (hm : t.micro ≠ 0) :
    ∃ m, timeFromText (some (t.text fsp)) = .ok (some m) ∧ m.micro < t.micro := by
  refine ⟨_, time_read t fsp h, ?_⟩
  show codeMicro t.micro fsp < t.micro
  unfold codeMicro
  rcases hf with rfl | rfl | rfl | rfl <;> norm_num <;> omega

/-- `-838:59:59.000000`, `-00:00:01` and `10:00:00.5` -/
example : (⟨true, 838, 59, 59, 0⟩ : Spec.Time).Ok 6 ∧ (⟨true, 0, 0, 1, 0⟩ : Spec.Time).Ok 0 ∧
    (⟨false, 10, 0, 0, 500000⟩ : Spec.Time).Ok 1 ∧
    (⟨false, 10, 0, 0, 500000⟩ : Spec.Time).text 1 = Spec.ascii "10:00:00.5" := by
  refine ⟨?_, ?_, ?_, by decide⟩ <;> unfold Spec.Time.Ok <;> norm_num

/-! ### C69 -/

/-- a day of the Gregorian calendar -/
def Spec.IsDate (y m d : Nat) : Prop :=
  (m ∈ [1, 3, 5, 7, 8, 10, 12] ∧ 1 ≤ d ∧ d ≤ 31) ∨ (m ∈ [4, 6, 9, 11] ∧ 1 ≤ d ∧ d ≤ 30) ∨
  (m = 2 ∧ 1 ≤ d ∧ d ≤ (if 4 ∣ y ∧ (¬ 100 ∣ y ∨ 400 ∣ y) then 29 else 28))

theorem dateExists_iff (y m d : Nat) : dateExists y m d = true ↔ Spec.IsDate y m d := by
  unfold dateExists daysInMonth Spec.IsDate
  simp only [decide_eq_true_eq, List.mem_cons, List.not_mem_nil, or_false, Nat.dvd_iff_mod_eq_zero]
  split <;> split <;> omega

/-- C69: reading a DATE, DATETIME or TIMESTAMP of the binary protocol as a calendar type gives its fields, whenever the
date exists. (Full claim: a value that is no calendar date is an error; it panics, see below.) -/
theorem C69_dates_partial (y m d : Nat) (h : Spec.IsDate y m d) :
    dateFromBinary (.date y m d) = .ok (some (y, m, d)) ∧
    (∀ t : MyDateTime, t.year = y → t.month = m → t.day = d → t.hour < 24 → t.minute < 60 → t.second < 60 →
      t.micro < 1000000 →
      naiveDateTimeFromBinary (.dateTime t) = .ok (some t) ∧ naiveDateTimeFromBinary (.timestamp t) = .ok (some t)) := by
  have hd := (dateExists_iff y m d).2 h
  refine ⟨by show (if _ then _ else _) = _; rw [if_pos hd], ?_⟩
  rintro t rfl rfl rfl h1 h2 h3 h4
  have ht : toNaiveDateTime t = .ok t := by
    unfold toNaiveDateTime timeExists
    rw [hd, if_pos]
    simp only [Bool.true_and, decide_eq_true_eq]
    omega
  unfold naiveDateTimeFromBinary
  simp only [ht, and_self]

/-- C69: every date that is not in the calendar panics; such are the zero date and dates with a zero month or day,
which MySQL stores. -/
theorem C69_zero_date_false (y m d : Nat) (h : ¬ Spec.IsDate y m d) :
    dateFromBinary (.date y m d) = .panic ∧
    (∀ t : MyDateTime, t.year = y → t.month = m → t.day = d →
      naiveDateTimeFromBinary (.dateTime t) = .panic ∧ naiveDateTimeFromBinary (.timestamp t) = .panic) := by
  have hd : dateExists y m d = false := by
    rw [← dateExists_iff] at h
    simpa using h
  refine ⟨by show (if _ then _ else _) = _; rw [hd]; rfl, ?_⟩
  rintro t rfl rfl rfl
  have ht : toNaiveDateTime t = .panic := by
    unfold toNaiveDateTime
    rw [hd]; rfl
  unfold naiveDateTimeFromBinary
  simp only [ht, and_self]

/-- C69, exactly: reading a DATETIME or TIMESTAMP as a calendar type gives its fields if the date exists and the time is
one of the day, where a fraction of up to two seconds is taken (as a leap second); otherwise it panics. -/
theorem C69_datetime_iff (t : MyDateTime) (v : BinaryColumnValue) (hv : v = .dateTime t ∨ v = .timestamp t) :
    (naiveDateTimeFromBinary v = .ok (some t) ↔
      Spec.IsDate t.year t.month t.day ∧ t.hour < 24 ∧ t.minute < 60 ∧ t.second < 60 ∧ t.micro < 2000000) ∧
    (naiveDateTimeFromBinary v = .panic ↔
      ¬ (Spec.IsDate t.year t.month t.day ∧ t.hour < 24 ∧ t.minute < 60 ∧ t.second < 60 ∧ t.micro < 2000000)) := by
  have key : naiveDateTimeFromBinary v = if dateExists t.year t.month t.day && timeExists t.hour t.minute t.second t.micro
      then .ok (some t) else .panic := by
    have : naiveDateTimeFromBinary v = naiveDateTimeFromBinary (.dateTime t) := by
      rcases hv with rfl | rfl <;> rfl
    rw [this, naiveDateTimeFromBinary, toNaiveDateTime]
    by_cases h : (dateExists t.year t.month t.day && timeExists t.hour t.minute t.second t.micro) = true
    · simp only [if_pos h]
    · simp only [if_neg h]
  have hi : (dateExists t.year t.month t.day && timeExists t.hour t.minute t.second t.micro) = true ↔
      Spec.IsDate t.year t.month t.day ∧ t.hour < 24 ∧ t.minute < 60 ∧ t.second < 60 ∧ t.micro < 2000000 := by
    rw [Bool.and_eq_true, dateExists_iff]
    unfold timeExists
    rw [decide_eq_true_eq]
  rw [key, ← hi]
  by_cases h : (dateExists t.year t.month t.day && timeExists t.hour t.minute t.second t.micro) = true
  · rw [if_pos h]; simp [h]
  · rw [if_neg h]; simp [h]

/-- C69: `MyDateTime` takes any TIMESTAMP as it is and no DATETIME. -/
theorem C69_my_date_time (t : MyDateTime) :
    myDateTimeFromBinary (.timestamp t) = .ok (some t) ∧ myDateTimeFromBinary (.dateTime t) = .err .typeMismatch :=
  ⟨rfl, rfl⟩

example : Spec.IsDate 2024 2 29 ∧ ¬ Spec.IsDate 2023 2 29 ∧ ¬ Spec.IsDate 0 0 0 ∧ ¬ Spec.IsDate 2023 1 0 := by
  unfold Spec.IsDate; refine ⟨?_, ?_, ?_, ?_⟩ <;> decide

end Mybin
