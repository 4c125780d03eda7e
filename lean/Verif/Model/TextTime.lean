/-
Model of the typed conversions of column values that go through the libraries for calendar dates and decimals:
`NaiveDateTime`, `MyDateTime`, `NaiveDate` and `BigDecimal` from text (`mybin-core/src/resultset.rs` 128-142 and 159-165,
`mybin-core/src/time.rs` 152-164 and 190-208) and `BigDecimal` from the binary protocol (resultset.rs:232-243).

The parsers are library code (chrono 0.4, num-bigint and bigdecimal 0.2, mybin-core/Cargo.toml:16-17). They are modelled for
the formats the code uses, after their published source, which is not part of /repo.
-/
import Verif.Model.Convert

namespace Mybin

/-! ### chrono -/

/-- a digit -/
def isDigit (b : UInt8) : Bool := decide (0x30 ≤ b ∧ b ≤ 0x39)

/-- the loop of `scan::number` (library: chrono): at most `k` digits -/
def scanLoop : Nat → Nat → Bytes → Nat × Bytes
  | 0, n, s => (n, s)
  | _ + 1, n, [] => (n, [])
  | k + 1, n, b :: s => if isDigit b then scanLoop k (n * 10 + (b.toNat - 0x30)) s else (n, b :: s)

/-- `scan::number(s, 1, max)` (library: chrono): at least one digit, and an error beyond `i64`. The number only grows, so
that the test is made at its end. -/
def scanNumber (max : Nat) (s : Bytes) : Option (Nat × Bytes) :=
  match s with
  | [] => none
  | b :: _ =>
    if isDigit b then
      let r := scanLoop max 0 s
      if r.1 < 2 ^ 63 then some r else none
    else none

/-- an item `%m`, `%d`, `%H`, `%M` or `%S` (library: chrono, `parse_internal`): white space is skipped, then two digits at most -/
def scanTwo (s : Bytes) : Option (Nat × Bytes) := scanNumber 2 (trimStart s)

/-- the item `%Y` (library: chrono, `parse_internal`): with a sign any number of digits, which must fit `i32` -/
def scanYear (s : Bytes) : Option (Int × Bytes) :=
  match trimStart s with
  | 0x2d :: t => (scanNumber t.length t).bind fun r => if r.1 ≤ 2 ^ 31 then some (-(r.1 : Int), r.2) else none
  | 0x2b :: t => (scanNumber t.length t).bind fun r => if r.1 < 2 ^ 31 then some ((r.1 : Int), r.2) else none
  | t => (scanNumber 4 t).map fun r => ((r.1 : Int), r.2)

/-- a literal character of a format (library: chrono, `parse_internal`) -/
def scanChar (c : UInt8) : Bytes → Option Bytes
  | [] => none
  | b :: s => if b = c then some s else none

/-- a `NaiveDate` -/
structure TextDate where
  year : Int
  month : Nat
  day : Nat
  deriving DecidableEq, Repr

/-- `NaiveDate::from_ymd_opt` (library: chrono): the date if the calendar has it, for the years chrono has -/
def chronoDate (year : Int) (month day : Nat) : Option TextDate :=
  if -262144 ≤ year ∧ year ≤ 262143 ∧ dateExists (year % 400).toNat month day then some ⟨year, month, day⟩ else none

/-- the items of `%Y-%m-%d` -/
def scanDate (s : Bytes) : Option ((Int × Nat × Nat) × Bytes) := do
  let (y, s) ← scanYear s
  let s ← scanChar 0x2d s
  let (m, s) ← scanTwo s
  let s ← scanChar 0x2d s
  let (d, s) ← scanTwo s
  return ((y, m, d), s)

/-- the items of `%H:%M:%S` -/
def scanTime (s : Bytes) : Option ((Nat × Nat × Nat) × Bytes) := do
  let (h, s) ← scanTwo s
  let s ← scanChar 0x3a s
  let (m, s) ← scanTwo s
  let s ← scanChar 0x3a s
  let (sec, s) ← scanTwo s
  return ((h, m, sec), s)

/-- the digits a scan consumed beyond the ninth are skipped -/
def skipDigits : Bytes → Bytes
  | [] => []
  | b :: s => if isDigit b then skipDigits s else b :: s

/-- the item `%.f` (library: chrono, `scan::nanosecond`): nothing, or a point and digits, of which nine count -/
def scanFraction (s : Bytes) : Option (Nat × Bytes) :=
  match s with
  | 0x2e :: t => do
    let (v, r) ← scanNumber 9 t
    return (v * 10 ^ (9 - (t.length - r.length)), skipDigits r)
  | s => some (0, s)

/-- a `NaiveDateTime`: a leap second is second 59 with a billion nanoseconds more -/
structure TextDateTime where
  date : TextDate
  hour : Nat
  minute : Nat
  second : Nat
  nano : Nat
  deriving DecidableEq, Repr

/-- `Parsed::to_naive_datetime_with_offset` (library: chrono) for these fields -/
def chronoFields (y : Int) (mo d h mi s nano : Nat) : Option TextDateTime := do
  let date ← chronoDate y mo d
  if h < 24 ∧ mi < 60 ∧ s ≤ 60 ∧ nano < 10 ^ 9 then
    return if s = 60 then ⟨date, h, mi, 59, nano + 10 ^ 9⟩ else ⟨date, h, mi, s, nano⟩
  else none

/-- `NaiveDateTime::parse_from_str(s, "%Y-%m-%d %H:%M:%S")` (library: chrono) -/
def chronoParse (s : Bytes) : Option TextDateTime := do
  let ((y, mo, d), s) ← scanDate s
  let ((h, mi, sec), s) ← scanTime (trimStart s)
  if s = [] then chronoFields y mo d h mi sec 0 else none

/-- `NaiveDateTime::parse_from_str(s, "%Y-%m-%d %H:%M:%S%.f")` (library: chrono) -/
def chronoParseFraction (s : Bytes) : Option TextDateTime := do
  let ((y, mo, d), s) ← scanDate s
  let ((h, mi, sec), s) ← scanTime (trimStart s)
  let (nano, s) ← scanFraction s
  if s = [] then chronoFields y mo d h mi sec nano else none

/-- `NaiveDate::from_str` (library: chrono): white space is allowed before each sign and at the end -/
def chronoParseDate (s : Bytes) : Option TextDate := do
  let (y, s) ← scanYear s
  let s ← scanChar 0x2d (trimStart s)
  let (m, s) ← scanTwo s
  let s ← scanChar 0x2d (trimStart s)
  let (d, s) ← scanTwo s
  if trimStart s = [] then chronoDate y m d else none

/-! ### Dates -/

/-- resultset.rs:128-140 -/
def naiveDateTimeFromText : Conv (Option Bytes) TextDateTime :=
  fromText fun s => (chronoParse s).orElse fun _ => chronoParseFraction s

/-- resultset.rs:159-161 (`NaiveDate`) -/
def dateFromText : Conv (Option Bytes) TextDate := fromText chronoParseDate

/-- time.rs:153-165 (`From<NaiveDateTime> for MyDateTime`): `as u16` and `as u8` -/
def TextDateTime.toMy (t : TextDateTime) : MyDateTime :=
  { year := (t.date.year % 2 ^ 16).toNat, month := t.date.month % 256, day := t.date.day % 256, hour := t.hour % 256,
    minute := t.minute % 256, second := t.second % 256, micro := t.nano % 1000000000 / 1000 }

/-- time.rs:190-206; the debugging output (196) is left out -/
def myDateTimeFromText : Conv (Option Bytes) MyDateTime :=
  fromText fun s => ((if s.length > 19 then chronoParseFraction s else chronoParse s)).map TextDateTime.toMy

/-! ### Decimals -/

/-- a `BigDecimal`: the number `unscaled / 10 ^ scale` -/
structure BigDec where
  unscaled : Int
  scale : Int
  deriving DecidableEq, Repr

/-- the digit loop of `BigUint::from_str_radix(s, 10)` (library: num-bigint): underscores are skipped -/
def bigDigits : Nat → Bytes → Option Nat
  | acc, [] => some acc
  | acc, b :: s =>
    if b = 0x5f then bigDigits acc s
    else if isDigit b then bigDigits (acc * 10 + (b.toNat - 0x30)) s
    else none

/-- a plus sign is skipped unless another follows (library: num-bigint) -/
def skipPlus (s : Bytes) : Bytes := if s.head? = some 0x2b ∧ s.tail.head? ≠ some 0x2b then s.tail else s

/-- `BigUint::from_str_radix(s, 10)` (library: num-bigint) -/
def bigUint (s : Bytes) : Option Nat :=
  if skipPlus s = [] ∨ (skipPlus s).head? = some 0x5f then none else bigDigits 0 (skipPlus s)

/-- `BigInt::from_str_radix(s, 10)` (library: num-bigint) -/
def bigInt (s : Bytes) : Option Int :=
  if s.head? = some 0x2d then
    (bigUint (if s.tail.head? = some 0x2b then s else s.tail)).map fun n : Nat => -(n : Int)
  else (bigUint s).map fun n : Nat => (n : Int)

/-- `str::find` and the parts before and after the character found; `none` if there is no such character -/
def cutAt (p : UInt8 → Bool) : Bytes → Option (Bytes × Bytes)
  | [] => none
  | b :: s => if p b then some ([], s) else (cutAt p s).map fun r => (b :: r.1, r.2)

/-- `BigDecimal::from_str` (library: bigdecimal): sign, digits with a point, exponent -/
def bigDecimal (s : Bytes) : Res (Option BigDec) :=
  let parts : Option (Bytes × Int) :=
    match cutAt (fun b => b == 0x65 || b == 0x45) s with
    | none => some (s, 0)
    | some (base, exp) =>
      (parseSInt 64 (if exp.head? = some 0x2b then exp.tail else exp)).map fun e => (base, e)
  match parts with
  | none => .ok none
  | some (base, e) =>
    if base = [] then .ok none
    else
      let digits := match cutAt (· == 0x2e) base with
        | none => (base, 0)
        | some (lead, trail) => (lead ++ trail, trail.length)
      let scale : Int := digits.2 - e
      if scale < 2 ^ 63 then .ok ((bigInt digits.1).map fun u => ⟨u, scale⟩) else .panic

/-- `std::str::from_utf8(bs)?` and `s.parse()?` for decimals: util.rs:18-19 and resultset.rs:237-238 -/
def parseDecimal (bs : Bytes) : Res (Option BigDec) :=
  if !validUtf8 bs then .err .utf8
  else
    match bigDecimal bs with
    | .ok (some d) => .ok (some d)
    | .ok none => .err .parseText
    | .err e => .err e
    | .panic => .panic

/-- resultset.rs:159-161 (`BigDecimal`) -/
def decimalFromText : Conv (Option Bytes) BigDec
  | none => .ok none
  | some bs => parseDecimal bs

/-- resultset.rs:232-243 -/
def decimalFromBinary : Conv BinaryColumnValue BigDec
  | .null => .ok none
  | .newDecimal bs => parseDecimal bs
  | _ => .err .typeMismatch

end Mybin
