/-
Model of the typed conversions of column values: `FromColumnValue` (`mybin-core/src/resultset.rs` 128-445,
`mybin-core/src/time.rs` 47-109 and 161-182) and the macros of `mybin-core/src/util.rs` 9-65. Dates and decimals as text are
in Model/TextTime.lean; floats from text (`f32`, `f64`) are in Model/Floats.lean.
-/
import Verif.Model.Column
import Verif.Model.Client
import Verif.Model.Sql

namespace Mybin

/-- the outcome of code that does not read a stream -/
inductive Res (α : Type) where
  | ok (a : α)
  | err (e : Err)
  | panic
  deriving DecidableEq, Repr

def Res.bind {α β : Type} : Res α → (α → Res β) → Res β
  | .ok a, f => f a
  | .err e, _ => .err e
  | .panic, _ => .panic

instance : Monad Res where
  pure := .ok
  bind := Res.bind

/-- `impl FromColumnValue<γ> for Option<α>` -/
abbrev Conv (γ α : Type) : Type := γ → Res (Option α)

/-- util.rs:30-48 (`try_non_null_column_value`): `impl FromColumnValue<γ> for α` -/
def Conv.nonNull {γ α : Type} (conv : Conv γ α) (v : γ) : Res α :=
  match conv v with
  | .ok none => .err .nullValue
  | .ok (some a) => .ok a
  | .err e => .err e
  | .panic => .panic

/-! ### Text values -/

/-- the digit loop of `str::parse` for integers (library): `none` is the `ParseIntError` for an empty text or another
character -/
def parseDigits : Nat → Bytes → Option Nat
  | acc, [] => some acc
  | acc, b :: bs => if 0x30 ≤ b ∧ b ≤ 0x39 then parseDigits (acc * 10 + (b.toNat - 0x30)) bs else none

/-- `str::parse::<uW>` (library): an optional `+`, then at least one digit; too large a number is an error -/
def parseUInt (w : Nat) (s : Bytes) : Option Nat :=
  let digits := if s.head? = some 0x2b then s.tail else s
  if digits = [] then none
  else
    match parseDigits 0 digits with
    | some n => if n < 2 ^ w then some n else none
    | none => none

/-- `str::parse::<iW>` (library): an optional sign, then at least one digit; a number out of range is an error -/
def parseSInt (w : Nat) (s : Bytes) : Option Int :=
  let digits := if s.head? = some 0x2b ∨ s.head? = some 0x2d then s.tail else s
  if digits = [] then none
  else
    match parseDigits 0 digits with
    | some n =>
      if s.head? = some 0x2d then (if n ≤ 2 ^ (w - 1) then some (-(n : Int)) else none)
      else if n < 2 ^ (w - 1) then some (n : Int) else none
    | none => none

/-- util.rs:9-27 (`try_from_text_column_value`) -/
def fromText {α : Type} (parse : Bytes → Option α) : Conv (Option Bytes) α
  | none => .ok none
  | some bs =>
    if !validUtf8 bs then .err .utf8
    else
      match parse bs with
      | some a => .ok (some a)
      | none => .err .parseText

/-- resultset.rs:159-161 for the unsigned types; also `MyU24` (302-313, `u32`) and `MyYear` (332-343, `u16`) -/
def uintFromText (w : Nat) : Conv (Option Bytes) Nat := fromText (parseUInt w)
/-- resultset.rs:159-161 for the signed types; also `MyI24` (270-281, `i32`) -/
def sintFromText (w : Nat) : Conv (Option Bytes) Int := fromText (parseSInt w)
/-- resultset.rs:144-155 -/
def boolFromText : Conv (Option Bytes) Bool := fromText fun bs => (parseUInt 8 bs).map (· == 1)
/-- resultset.rs:182-186; also `MyBit` (394-401) -/
def bytesFromText : Conv (Option Bytes) Bytes := fun v => .ok v
/-- resultset.rs:364-374 -/
def stringFromText : Conv (Option Bytes) Bytes := fromText some

/-- one character of white space at the start (library: `char::is_whitespace`, in UTF-8): what follows it -/
def whiteSpace : Bytes → Option Bytes
  | b :: t =>
    if b = 0x20 ∨ (0x09 ≤ b ∧ b ≤ 0x0d) then some t
    else
      match t with
      | c :: t =>
        if b = 0xc2 ∧ (c = 0x85 ∨ c = 0xa0) then some t
        else
          match t with
          | d :: t =>
            if (b = 0xe1 ∧ c = 0x9a ∧ d = 0x80) ∨
                (b = 0xe2 ∧ c = 0x80 ∧ ((0x80 ≤ d ∧ d ≤ 0x8a) ∨ d = 0xa8 ∨ d = 0xa9 ∨ d = 0xaf)) ∨
                (b = 0xe2 ∧ c = 0x81 ∧ d = 0x9f) ∨ (b = 0xe3 ∧ c = 0x80 ∧ d = 0x80) then some t
            else none
          | [] => none
      | [] => none
  | [] => none

theorem whiteSpace_length {s r : Bytes} (h : whiteSpace s = some r) : r.length < s.length := by
  cases s with
  | nil => cases h
  | cons b t =>
    rw [whiteSpace.eq_def] at h
    dsimp only at h
    split at h
    · cases h; simp
    · cases t with
      | nil => cases h
      | cons c t =>
        dsimp only at h
        split at h
        · cases h; simp; omega
        · cases t with
          | nil => cases h
          | cons d t =>
            dsimp only at h
            split at h
            · cases h; simp; omega
            · cases h

/-- `str::trim_start` (library): removes leading white space -/
def trimStart (s : Bytes) : Bytes :=
  match h : whiteSpace s with
  | some r => trimStart r
  | none => s
termination_by s.length
decreasing_by exact whiteSpace_length h

/-- `s.split(c).collect()` (library) for an ASCII character -/
def splitOn (c : UInt8) : Bytes → List Bytes
  | [] => [[]]
  | b :: bs =>
    if b = c then [] :: splitOn c bs
    else
      match splitOn c bs with
      | [] => [[b]]
      | p :: ps => (b :: p) :: ps

/-- `s.parse()?` -/
def Res.parse {α : Type} (r : Option α) : Res α :=
  match r with
  | some a => .ok a
  | none => .err .parseText

/-- time.rs:79-97: seconds and microseconds -/
def parseSeconds (s : Bytes) : Res (Nat × Nat) :=
  match splitOn 0x2e s with
  | [sec] => do
    let second ← Res.parse (parseUInt 8 sec)
    return (second, 0)
  | [sec, frac] => do
    let second ← Res.parse (parseUInt 8 sec)
    if frac.length = 3 then do
      let ms ← Res.parse (parseUInt 32 frac)
      if ms * 1000 < 2 ^ 32 then return (second, ms * 1000) else Res.panic
    else do
      let us ← Res.parse (parseUInt 32 frac)
      return (second, us)
  | _ => .err .parseText

/-- time.rs:60-109 -/
def timeFromText : Conv (Option Bytes) MyTime
  | none => .ok none
  | some bs =>
    if !validUtf8 bs then .err .utf8
    else
      match splitOn 0x3a (trimStart bs) with
      | [h, m, s] => do
        let hours ← Res.parse (parseSInt 64 h)
        if hours = -(2 ^ 63) then Res.panic
        else do
          let abs := hours.natAbs % 2 ^ 32
          let days := abs / 24
          let minute ← Res.parse (parseUInt 8 m)
          let (second, micro) ← parseSeconds s
          return some { negative := decide (hours < 0), days, hour := (abs - days * 24) % 256, minute, second, micro }
      | _ => .err .parseText

/-! ### Binary values -/

/-- the integer variants a type of `w` bits accepts, with their own width (resultset.rs:429-443) -/
def binaryInt (w : Nat) : BinaryColumnValue → Option (Nat × Nat)
  | .tiny n => some (8, n)
  | .short n => if 16 ≤ w then some (16, n) else none
  | .long n => if 32 ≤ w then some (32, n) else none
  | .longLong n => if 64 ≤ w then some (64, n) else none
  | _ => none

/-- util.rs:50-65 (`try_number_from_binary_column_value`) and resultset.rs:431, 435, 439, 443 -/
def uintFromBinary (w : Nat) : Conv BinaryColumnValue Nat := fun v =>
  if v = .null then .ok none
  else
    match binaryInt w v with
    | some (k, n) => .ok (some (n % 2 ^ k))
    | none => .err .typeMismatch

/-- util.rs:50-65 and resultset.rs:429, 433, 437, 441: the value is cast to the signed type of the variant, then
widened -/
def sintFromBinary (w : Nat) : Conv BinaryColumnValue Int := fun v =>
  if v = .null then .ok none
  else
    match binaryInt w v with
    | some (k, n) => .ok (some (asSigned k n))
    | none => .err .typeMismatch

/-- resultset.rs:190-198 -/
def boolFromBinary : Conv BinaryColumnValue Bool
  | .null => .ok none
  | .tiny v => .ok (some (v == 1))
  | _ => .err .typeMismatch

/-- resultset.rs:250-266; `(v | 0xff80_0000) as i32` -/
def i24FromBinary : Conv BinaryColumnValue Int
  | .null => .ok none
  | .tiny v => .ok (some (asSigned 8 v))
  | .short v => .ok (some (asSigned 16 v))
  | .int24 v =>
    if v &&& 0x800000 ≠ 0 then .ok (some (asSigned 32 (v ||| 0xff800000))) else .ok (some (asSigned 32 v))
  | _ => .err .typeMismatch

/-- resultset.rs:288-298 -/
def u24FromBinary : Conv BinaryColumnValue Nat
  | .null => .ok none
  | .tiny v => .ok (some v)
  | .short v => .ok (some v)
  | .int24 v => .ok (some v)
  | _ => .err .typeMismatch

/-- resultset.rs:320-328 -/
def yearFromBinary : Conv BinaryColumnValue Nat
  | .null => .ok none
  | .year n => .ok (some n)
  | _ => .err .typeMismatch

/-- resultset.rs:167-178 -/
def bytesFromBinary : Conv BinaryColumnValue Bytes
  | .null => .ok none
  | .blob bs | .varString bs | .string bs | .geometry bs => .ok (some bs)
  | _ => .err .typeMismatch

/-- resultset.rs:347-360 -/
def stringFromBinary : Conv BinaryColumnValue Bytes
  | .null => .ok none
  | .blob bs | .varString bs | .string bs => if validUtf8 bs then .ok (some bs) else .err .utf8
  | _ => .err .typeMismatch

/-- resultset.rs:381-389 -/
def bitFromBinary : Conv BinaryColumnValue Bytes
  | .null => .ok none
  | .bit bs => .ok (some bs)
  | _ => .err .typeMismatch

/-- resultset.rs:405-413; floats are bit patterns -/
def f32FromBinary : Conv BinaryColumnValue Nat
  | .null => .ok none
  | .float n => .ok (some n)
  | _ => .err .typeMismatch

/-- resultset.rs:417-425; floats are bit patterns -/
def f64FromBinary : Conv BinaryColumnValue Nat
  | .null => .ok none
  | .double n => .ok (some n)
  | _ => .err .typeMismatch

/-- time.rs:48-56 -/
def timeFromBinary : Conv BinaryColumnValue MyTime
  | .null => .ok none
  | .time t => .ok (some t)
  | _ => .err .typeMismatch

/-- time.rs:178-186: only `Timestamp` values -/
def myDateTimeFromBinary : Conv BinaryColumnValue MyDateTime
  | .null => .ok none
  | .timestamp t => .ok (some t)
  | _ => .err .typeMismatch

/-- `NaiveDate::from_ymd` (library: chrono) panics unless the date exists -/
def dateExists (year month day : Nat) : Bool :=
  decide (1 ≤ month ∧ month ≤ 12 ∧ 1 ≤ day ∧ day ≤ daysInMonth year month)

/-- `and_hms_micro` (library: chrono) panics unless the time exists; a second of microseconds more stands for a leap
second -/
def timeExists (hour minute second micro : Nat) : Bool :=
  decide (hour < 24 ∧ minute < 60 ∧ second < 60 ∧ micro < 2000000)

/-- resultset.rs:202-214 -/
def dateFromBinary : Conv BinaryColumnValue (Nat × Nat × Nat)
  | .null => .ok none
  | .date y m d => if dateExists y m d then .ok (some (y, m, d)) else .panic
  | _ => .err .typeMismatch

/-- time.rs:167-176 (`From<MyDateTime> for NaiveDateTime`); the date and time are kept as their fields -/
def toNaiveDateTime (t : MyDateTime) : Res MyDateTime :=
  if dateExists t.year t.month t.day && timeExists t.hour t.minute t.second t.micro then .ok t else .panic

/-- resultset.rs:218-228 -/
def naiveDateTimeFromBinary : Conv BinaryColumnValue MyDateTime
  | .null => .ok none
  | .dateTime t | .timestamp t =>
    match toNaiveDateTime t with
    | .ok t => .ok (some t)
    | .err e => .err e
    | .panic => .panic
  | _ => .err .typeMismatch

/-- resultset.rs:95-109 (`get_col`) with its conversion -/
def getColAs {γ α : Type} (conv : γ → Res α) (row : List γ) (idx : Nat) : Res α :=
  match ColumnExtractor.getCol row idx with
  | .ok v => conv v
  | .error e => .err e

end Mybin
