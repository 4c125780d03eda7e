/-
Model of the binlog side of `mybin-core/src/col.rs` (column metadata and column values), and of the
binlog decoders of `mybin-core/src/time.rs` and `mybin-core/src/decimal.rs`.
-/
import Verif.Model.Column

namespace Mybin

/-! ### time.rs -/

/-- `(-(packed as i64)) as u64`: two's complement negation; `i64::MIN` overflows -/
def negI64 (n : Nat) : P Nat :=
  if n = 2 ^ 63 then P.panic else pure ((2 ^ 64 - n) % 2 ^ 64)

/-- time.rs:218-244. `int_part` is `u32::overflowing_sub`, widened before the shift. -/
def packedTimeParts (hms frac : Nat) : P Nat :=
  let intPart := (hms + 2 ^ 32 - 0x800000) % 2 ^ 32
  if frac = 0 then pure (intPart <<< 24)
  else if frac = 1 ∨ frac = 2 then do
    let f ← readU8
    return (intPart <<< 24) + f * 10000
  else if frac = 3 ∨ frac = 4 then do
    let f ← readBeU16
    return (intPart <<< 24) + f * 100
  else if frac = 5 ∨ frac = 6 then do
    let f ← readBeU24
    return ((hms <<< 24) + f + 2 ^ 64 - 0x800000000000) % 2 ^ 64
  else P.fail .constraint

/-- time.rs:213-250 -/
def packedFromTimeBinary (frac : Nat) : P (Nat × Bool) := do
  let hms ← readBeU24
  let negative := hms &&& 0x800000 != 0x800000
  let packed ← packedTimeParts hms frac
  let packed ← (if negative then negI64 packed else pure packed : P Nat)
  return (packed, negative)

/-- time.rs:31-44 -/
def MyTime.ofPacked (packed : Nat) (negative : Bool) : MyTime :=
  let hms := (packed >>> 24) &&& 0xffffff
  let hours := (hms >>> 12) % (1 <<< 10)
  let days := hours / 24
  { negative, days, hour := (hours - days * 24) % 256, minute := (hms >>> 6) % (1 <<< 6),
    second := hms % (1 <<< 6), micro := packed &&& 0xffffff }

/-- time.rs:29-45 -/
def MyTime.fromBinlog (frac : Nat) : P MyTime := do
  let (packed, negative) ← packedFromTimeBinary frac
  return MyTime.ofPacked packed negative

/-- time.rs:259-283: the shift drops the bits beyond 64 -/
def packedDateTimeParts (ymdhms frac : Nat) : P Nat :=
  let intPart := (ymdhms + 2 ^ 64 - 0x8000000000) % 2 ^ 64
  let high := (intPart <<< 24) % 2 ^ 64
  if frac = 0 then pure high
  else if frac = 1 ∨ frac = 2 then do
    let f ← readU8
    return high + f * 10000
  else if frac = 3 ∨ frac = 4 then do
    let f ← readBeU16
    return high + f * 100
  else if frac = 5 ∨ frac = 6 then do
    let f ← readBeU24
    return high + f
  else P.fail .constraint

/-- time.rs:253-291 -/
def packedFromDateTimeBinary (frac : Nat) : P Nat := do
  let ymdhms ← readBeU40
  let negative := ymdhms &&& 0x8000000000 != 0x8000000000
  let packed ← packedDateTimeParts ymdhms frac
  (if negative then negI64 packed else pure packed : P Nat)

/-- time.rs:130-149 -/
def MyDateTime.ofPacked (packed : Nat) : MyDateTime :=
  let ymdhms := (packed >>> 24) &&& 0xffffffffff
  let ymd := ymdhms >>> 17
  let ym := ymd >>> 5
  let hms := ymdhms % (1 <<< 17)
  { year := (ym / 13) % 2 ^ 16, month := ym % 13, day := ymd % (1 <<< 5), hour := (hms >>> 12) % 256,
    minute := (hms >>> 6) % (1 <<< 6), second := hms % (1 <<< 6), micro := packed &&& 0xffffff }

/-- time.rs:128-150 -/
def MyDateTime.fromBinlog (frac : Nat) : P MyDateTime := do
  let packed ← packedFromDateTimeBinary frac
  return MyDateTime.ofPacked packed

/-! ### decimal.rs -/

/-- decimal.rs:21-30 -/
structure MyDecimal where
  intg : Nat
  frac : Nat
  negative : Bool
  buf : List Nat
  deriving DecidableEq, Repr

/-- decimal.rs:7 (`DIG_TO_BYTES`), indexed by a remainder modulo 9 -/
def digToBytes (n : Nat) : Nat :=
  match n with
  | 0 => 0 | 1 => 1 | 2 => 1 | 3 => 2 | 4 => 2 | 5 => 3 | 6 => 3 | _ => 4

/-- decimal.rs:141-191 -/
def readExtraFragment (revFirstBit : Bool) (len : Nat) (negative : Bool) : P Nat :=
  match len with
  | 1 => do
    let n ← readU8
    let n := if revFirstBit then n ^^^ 0x80 else n
    return if negative then n ^^^ 0xff else n
  | 2 => do
    let n ← readBeU16
    let n := if revFirstBit then n ^^^ 0x8000 else n
    return if negative then n ^^^ 0xffff else n
  | 3 => do
    let n ← readBeU24
    let n := if revFirstBit then n ^^^ 0x800000 else n
    let n := if negative then n ^^^ 0xffffff else n
    return n &&& 0x00ffffff
  | 4 => do
    let n ← readBeU32
    let n := if revFirstBit then n ^^^ 0x80000000 else n
    return if negative then n ^^^ 0xffffffff else n
  | _ => P.panic

/-- decimal.rs:195-202 -/
def readFragment (negative : Bool) : P Nat := do
  let n ← readBeU32
  return if negative then n ^^^ 0xffffffff else n

/-- `u32 * u32` with overflow check -/
def mulU32 (a b : Nat) : P Nat := if a * b < 2 ^ 32 then pure (a * b) else P.panic

/-- decimal.rs:65-95, the part after the sign has been peeked at -/
def MyDecimal.readDigits (intg frac : Nat) (negative : Bool) : P MyDecimal := do
  let intg0 := intg / 9
  let frac0 := frac / 9
  let intg0x := intg - intg0 * 9
  let frac0x := frac - frac0 * 9
  let first ← (if intg0x > 0 then do
      let f ← readExtraFragment true (digToBytes intg0x) negative
      return [f]
    else pure [] : P (List Nat))
  let ints ← P.times (readFragment negative) intg0
  let fracs ← P.times (readFragment negative) frac0
  let last ← (if frac0x > 0 then do
      let f ← readExtraFragment false (digToBytes frac0x) negative
      let f ← mulU32 f (10 ^ (9 - frac0x))
      return [f]
    else pure [] : P (List Nat))
  return { intg, frac, negative, buf := first ++ ints ++ fracs ++ last }

/-- decimal.rs:42-95 (the debug log is left out) -/
def MyDecimal.readFrom (intg frac : Nat) : P MyDecimal := fun bs =>
  match bs with
  | [] => .ok ⟨intg, frac, false, []⟩ []
  | b :: _ => MyDecimal.readDigits intg frac (b.toNat &&& 0x80 != 0x80) bs

/-- decimal.rs:98-135 (`Display`). `none` is the out-of-bounds panic of `self.buf[i]`. The text is a list
of characters; `{}` on a `u32` is its decimal numeral. -/
def MyDecimal.display (d : MyDecimal) : Option (List Char) :=
  if d.buf = [] then some ['0']
  else
    let intg0 := d.intg / 9
    let intg0x := d.intg - intg0 * 9
    let frac0 := d.frac / 9
    let frac0x := d.frac - frac0 * 9
    let nInt := (if intg0x > 0 then 1 else 0) + intg0
    let sign := if d.negative then ['-'] else []
    let num (l : List Nat) : List Char := (l.map (Nat.toDigits 10)).flatten
    if d.buf.length < nInt then none
    else
      let ip := sign ++ num (d.buf.take nInt)
      if d.frac = 0 then some ip
      else if d.buf.length < nInt + frac0 then none
      else
        let fp := num ((d.buf.drop nInt).take frac0)
        if frac0x > 0 then
          match d.buf[nInt + frac0]? with
          | none => none
          | some l => some (ip ++ ['.'] ++ fp ++ Nat.toDigits 10 (l / 10 ^ (9 - frac0x)))
        else some (ip ++ ['.'] ++ fp)

/-! ### col.rs: column metadata -/

/-- col.rs:213-246 -/
inductive ColumnMeta where
  | decimal | tiny | short | long
  | float (packLen : Nat)
  | double (packLen : Nat)
  | null
  | timestamp (frac : Nat)
  | longLong | int24 | date | time
  | dateTime (frac : Nat)
  | year
  | bit (bits bytes : Nat)
  | time2 (frac : Nat)
  | newDecimal (prec frac : Nat)
  | enum (packLen : Nat)
  | blob (packLen : Nat)
  | varString (maxLen : Nat)
  | string (fromLen : Nat)
  | geometry (packLen : Nat)
  deriving DecidableEq, Repr

/-- col.rs:139-177 -/
def ColumnMeta.colType : ColumnMeta → ColumnType
  | .decimal => .decimal | .tiny => .tiny | .short => .short | .long => .long
  | .float _ => .float | .double _ => .double | .null => .null | .timestamp _ => .timestamp
  | .longLong => .longLong | .int24 => .int24 | .date => .date | .time => .time
  | .dateTime _ => .dateTime | .year => .year | .bit _ _ => .bit | .time2 _ => .time2
  | .newDecimal _ _ => .newDecimal | .enum _ => .string | .blob _ => .blob
  | .varString _ => .varString | .string _ => .string | .geometry _ => .geometry

/-- col.rs:316-334 -/
def readStringMeta : P ColumnMeta := do
  let realType ← readU8
  let fieldLen ← readU8
  if realType ||| 0xf0 = 0xf7 then return .enum fieldLen
  else if realType ||| 0xf0 = 0xfe then
    return .string (((((realType >>> 4) &&& 3) ^^^ 3) <<< 8) + fieldLen)
  else P.panic

/-- col.rs:248-341 -/
def ColumnMeta.readFrom : ColumnType → P ColumnMeta
  | .decimal => pure .decimal
  | .tiny => pure .tiny
  | .short => pure .short
  | .long => pure .long
  | .float => do return .float (← readU8)
  | .double => do return .double (← readU8)
  | .null => pure .null
  | .timestamp => P.panic
  | .timestamp2 => do return .timestamp (← readU8)
  | .longLong => pure .longLong
  | .int24 => pure .int24
  | .date => pure .date
  | .time => P.panic
  | .time2 => do return .time2 (← readU8)
  | .dateTime => P.panic
  | .dateTime2 => do return .dateTime (← readU8)
  | .year => pure .year
  | .bit => do
    let bits ← readU8
    let bytes ← readU8
    return .bit bits bytes
  | .newDecimal => do
    let prec ← readU8
    let frac ← readU8
    return .newDecimal prec frac
  | .tinyBlob | .mediumBlob | .longBlob | .blob => do return .blob (← readU8)
  | .varchar | .varString => do return .varString (← readLeU16)
  | .string => readStringMeta
  | .geometry => do return .geometry (← readU8)

/-- col.rs:186-190: one metadata entry per type byte, in order (`col_defs[i]`; the caller passes exactly
`col_cnt` type bytes, see `TableMap.ofRaw`) -/
def readMetas : List UInt8 → P (List ColumnMeta)
  | [] => pure []
  | b :: t => do
    let ct ← P.orErr (ColumnType.tryFrom b.toNat) .constraint
    let m ← ColumnMeta.readFrom ct
    let ms ← readMetas t
    return m :: ms

/-- col.rs:184-192; `ColumnMeta` is 4 bytes wide. `col_defs[i]` beyond its end panics. -/
def ColumnMetas.readFrom (colCnt : Nat) (colDefs : Bytes) : P (List ColumnMeta) := do
  let _ ← withCapacity colCnt 4
  if colCnt ≤ colDefs.length then readMetas (colDefs.take colCnt)
  else do
    let _ ← readMetas colDefs
    P.panic

/-! ### col.rs: column values -/

/-- col.rs:777-784 -/
inductive MyEnum where
  | pack1 (n : Nat) | pack2 (n : Nat) | pack3 (n : Nat) | pack4 (n : Nat) | pack8 (n : Nat)
  deriving DecidableEq, Repr

/-- col.rs:786-796 -/
def MyEnum.toU64 : MyEnum → Nat
  | .pack1 n | .pack2 n | .pack3 n | .pack4 n | .pack8 n => n

/-- col.rs:749-775. Floats are their bit patterns. -/
inductive BinlogColumnValue where
  | null
  | tiny (n : Nat)
  | short (n : Nat)
  | long (n : Nat)
  | float (n : Nat)
  | double (n : Nat)
  | timestamp (secs : Nat)
  | longLong (n : Nat)
  | int24 (n : Nat)
  | date (year month day : Nat)
  | time (t : MyTime)
  | dateTime (t : MyDateTime)
  | year (n : Nat)
  | bit (bs : Bytes)
  | newDecimal (d : MyDecimal)
  | enum (e : MyEnum)
  | blob (bs : Bytes)
  | varString (bs : Bytes)
  | string (bs : Bytes)
  | geometry (bs : Bytes)
  deriving DecidableEq, Repr

/-- col.rs:829-849: the pre-5.6 TIME, as stored -/
def oldTime (n : Nat) : MyTime :=
  let negative := n &&& 0x800000 == 0x800000
  let n := if negative then 2 ^ 32 - (n ||| 0xff000000) else n
  let hours := n / 10000
  let days := hours / 24
  { negative, days, hour := (hours - days * 24) % 256, minute := (n / 100) % 100, second := n % 100,
    micro := 0 }

/-- col.rs:885-900 -/
def readEnum (packLen : Nat) : P BinlogColumnValue :=
  match packLen with
  | 1 => do return .enum (.pack1 (← readU8))
  | 2 => do return .enum (.pack2 (← readLeU16))
  | 3 => do return .enum (.pack3 (← readLeU24))
  | 4 => do return .enum (.pack4 (← readLeU32))
  | 8 => do return .enum (.pack8 (← readLeU64))
  | _ => P.fail .constraint

/-- col.rs:905-919: the length prefix of a blob -/
def readBlobLen (packLen : Nat) : P Nat :=
  match packLen with
  | 1 => readU8
  | 2 => readLeU16
  | 3 => readLeU24
  | 4 => readLeU32
  | _ => P.panic

/-- col.rs:798-947 -/
def BinlogColumnValue.readFrom : ColumnMeta → P BinlogColumnValue
  | .decimal => P.panic
  | .tiny => do return .tiny (← readU8)
  | .short => do return .short (← readLeU16)
  | .long => do return .long (← readLeU32)
  | .float _ => do return .float (← readLeF32)
  | .double _ => do return .double (← readLeF64)
  | .null => pure .null
  | .timestamp _ => do return .timestamp (← readBeU32)
  | .longLong => do return .longLong (← readLeU64)
  | .int24 => do return .int24 (← readLeU24)
  | .date => do
    let n ← readLeU24
    return .date ((n >>> 9) % 2 ^ 16) ((n >>> 5) &&& 15) (n &&& 31)
  | .time => do
    let n ← readLeU24
    return .time (oldTime n)
  | .time2 frac => do return .time (← MyTime.fromBinlog frac)
  | .dateTime frac => do return .dateTime (← MyDateTime.fromBinlog frac)
  | .year => do
    let n ← readU8
    return .year (if n = 0 then 0 else n + 1900)
  | .bit bits bytes =>
    let len := bytes + (if bits > 0 then 1 else 0)
    if len < 256 then do return .bit (← readLen len) else P.panic
  | .newDecimal prec frac =>
    if prec ≥ frac then do return .newDecimal (← MyDecimal.readFrom (prec - frac) frac)
    else P.panic
  | .enum packLen => readEnum packLen
  | .blob packLen => do
    let len ← readBlobLen packLen
    return .blob (← readLen len)
  | .varString maxLen => do
    let len ← (if maxLen < 256 then readU8 else readLeU16 : P Nat)
    if len ≤ maxLen then do return .varString (← readLen len) else P.panic
  | .string fromLen => do
    let len ← (if fromLen > 0xff then readLeU16 else readU8 : P Nat)
    return .string (← readLen len)
  | .geometry _ => P.panic

end Mybin
