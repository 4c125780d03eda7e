/-
Specification: column values in the binary protocol (result rows and statement parameters), from the
protocol documentation ("Binary Protocol Value"). The value types are those of the public API.
-/
import Verif.Spec.Server
import Verif.Spec.Bits
import Verif.Model.Column

namespace Mybin.Spec

/-- date part -/
def ymd (y m d : Nat) : List UInt8 := le 2 y ++ u8 m ++ u8 d
/-- time-of-day part -/
def hms (h m s : Nat) : List UInt8 := u8 h ++ u8 m ++ u8 s

/-- The byte strings that stand for a date and time: a length byte 0, 4, 7 or 11; the parts left out
are zero. -/
def DateTimeEnc (t : MyDateTime) (bs : List UInt8) : Prop :=
  t.InRange ∧
  ((t = ⟨0, 0, 0, 0, 0, 0, 0⟩ ∧ bs = u8 0) ∨
   ((t.hour = 0 ∧ t.minute = 0 ∧ t.second = 0 ∧ t.micro = 0) ∧
      bs = u8 4 ++ ymd t.year t.month t.day) ∨
   (t.micro = 0 ∧ bs = u8 7 ++ ymd t.year t.month t.day ++ hms t.hour t.minute t.second) ∨
   bs = u8 11 ++ ymd t.year t.month t.day ++ hms t.hour t.minute t.second ++ le 4 t.micro)

/-- The byte strings that stand for a signed time: a length byte 0, 8 or 12; the parts left out are
zero. -/
def TimeEnc (t : MyTime) (bs : List UInt8) : Prop :=
  t.InRange ∧
  ((t = ⟨false, 0, 0, 0, 0, 0⟩ ∧ bs = u8 0) ∨
   (t.micro = 0 ∧ bs = u8 8 ++ u8 (if t.negative then 1 else 0) ++ le 4 t.days
      ++ hms t.hour t.minute t.second) ∨
   bs = u8 12 ++ u8 (if t.negative then 1 else 0) ++ le 4 t.days
      ++ hms t.hour t.minute t.second ++ le 4 t.micro)

/-- The byte strings that stand for a value in the binary protocol. NULL takes no bytes (it is marked
in the bitmap). -/
def Encodes (v : BinaryColumnValue) (bs : List UInt8) : Prop :=
  match v with
  | .null => bs = []
  | .tiny n => n < 2 ^ 8 ∧ bs = u8 n
  | .short n | .year n => n < 2 ^ 16 ∧ bs = le 2 n
  | .long n | .int24 n | .float n => n < 2 ^ 32 ∧ bs = le 4 n
  | .longLong n | .double n => n < 2 ^ 64 ∧ bs = le 8 n
  | .date y m d => (y < 2 ^ 16 ∧ m < 2 ^ 8 ∧ d < 2 ^ 8) ∧
      (((y = 0 ∧ m = 0 ∧ d = 0) ∧ bs = u8 0) ∨ bs = u8 4 ++ ymd y m d)
  | .time t => TimeEnc t bs
  | .dateTime t | .timestamp t => DateTimeEnc t bs
  | .bit s | .newDecimal s | .blob s | .varString s | .string s | .geometry s =>
    s.length < 2 ^ 64 ∧ bs = lenEncStr s

/-- The column types whose values are reported in the given form. Nothing is reported as `timestamp`:
timestamps are reported as `dateTime`. -/
def typesOf : BinaryColumnValue → List ColumnType
  | .null => [.null]
  | .tiny _ => [.tiny]
  | .short _ => [.short]
  | .long _ => [.long]
  | .float _ => [.float]
  | .double _ => [.double]
  | .timestamp _ => []
  | .longLong _ => [.longLong]
  | .int24 _ => [.int24]
  | .date _ _ _ => [.date]
  | .time _ => [.time, .time2]
  | .dateTime _ => [.timestamp, .timestamp2, .dateTime, .dateTime2]
  | .year _ => [.year]
  | .bit _ => [.bit]
  | .newDecimal _ => [.decimal, .newDecimal]
  | .blob _ => [.tinyBlob, .mediumBlob, .longBlob, .blob]
  | .varString _ => [.varchar, .varString]
  | .string _ => [.string]
  | .geometry _ => [.geometry]

/-! ### The server reading statement parameters -/

def D.lenEncValue (mk : List UInt8 → BinaryColumnValue) : D BinaryColumnValue := do
  return mk (← D.lenEncStr)

def D.dateValue : D BinaryColumnValue := do
  let len ← D.u8
  if len = 0 then return .date 0 0 0
  else if len = 4 then return .date (← D.le 2) (← D.u8) (← D.u8)
  else D.reject

def D.timeValue : D BinaryColumnValue := do
  let len ← D.u8
  if len = 0 then return .time ⟨false, 0, 0, 0, 0, 0⟩
  else if len = 8 then do
    let neg ← D.u8
    return .time ⟨neg = 1, ← D.le 4, ← D.u8, ← D.u8, ← D.u8, 0⟩
  else if len = 12 then do
    let neg ← D.u8
    return .time ⟨neg = 1, ← D.le 4, ← D.u8, ← D.u8, ← D.u8, ← D.le 4⟩
  else D.reject

def D.dateTimeValue : D BinaryColumnValue := do
  let len ← D.u8
  if len = 0 then return .dateTime ⟨0, 0, 0, 0, 0, 0, 0⟩
  else if len = 4 then return .dateTime ⟨← D.le 2, ← D.u8, ← D.u8, 0, 0, 0, 0⟩
  else if len = 7 then
    return .dateTime ⟨← D.le 2, ← D.u8, ← D.u8, ← D.u8, ← D.u8, ← D.u8, 0⟩
  else if len = 11 then
    return .dateTime ⟨← D.le 2, ← D.u8, ← D.u8, ← D.u8, ← D.u8, ← D.u8, ← D.le 4⟩
  else D.reject

/-- one parameter value, by wire type code -/
def D.paramValue (code : Nat) : D BinaryColumnValue :=
  if code = 0x01 then do return .tiny (← D.u8)
  else if code = 0x02 then do return .short (← D.le 2)
  else if code = 0x03 then do return .long (← D.le 4)
  else if code = 0x04 then do return .float (← D.le 4)
  else if code = 0x05 then do return .double (← D.le 8)
  else if code = 0x06 then D.pure .null
  else if code = 0x08 then do return .longLong (← D.le 8)
  else if code = 0x09 then do return .int24 (← D.le 4)
  else if code = 0x0a then D.dateValue
  else if code = 0x0b ∨ code = 0x13 then D.timeValue
  else if code = 0x07 ∨ code = 0x11 ∨ code = 0x0c ∨ code = 0x12 then D.dateTimeValue
  else if code = 0x0d then do return .year (← D.le 2)
  else if code = 0x10 then D.lenEncValue .bit
  else if code = 0x00 ∨ code = 0xf6 then D.lenEncValue .newDecimal
  else if code = 0xf9 ∨ code = 0xfa ∨ code = 0xfb ∨ code = 0xfc then D.lenEncValue .blob
  else if code = 0x0f ∨ code = 0xfd then D.lenEncValue .varString
  else if code = 0xfe then D.lenEncValue .string
  else if code = 0xff then D.lenEncValue .geometry
  else D.reject

/-- a statement parameter as the server sees it; `none` is NULL -/
structure ServerParam where
  code : Nat
  unsigned : Bool
  value : Option BinaryColumnValue
  deriving DecidableEq

/-- values of the parameters of the given types; bit `i` of the bitmap marks NULL -/
def D.paramValues (bitmap : List UInt8) : List (Nat × Bool) → Nat → D (List ServerParam)
  | [], _ => D.pure []
  | (code, uns) :: ts, i => do
    let null ← D.ofOption (bit? bitmap i)
    let v ← (if null then D.pure none else do return some (← D.paramValue code)
      : D (Option BinaryColumnValue))
    let vs ← D.paramValues bitmap ts (i + 1)
    return ⟨code, uns, v⟩ :: vs

def D.paramType : D (Nat × Bool) := do
  let code ← D.u8
  let sign ← D.u8
  return (code, sign.testBit 7)

/-- an execution request as the server sees it -/
structure ServerExecute where
  stmtId : Nat
  flags : Nat
  iterations : Nat
  params : List ServerParam
  deriving DecidableEq

/-- COM_STMT_EXECUTE for a statement with `n` parameters that are bound for the first time -/
def D.stmtExecute (n : Nat) : D ServerExecute := do
  let code ← D.u8
  let id ← D.le 4
  let flags ← D.u8
  let iterations ← D.le 4
  let params ← (if n = 0 then D.pure [] else do
    let bitmap ← D.bytes ((n + 7) / 8)
    let bound ← D.u8
    if bound = 1 then do
      let types ← D.times D.paramType n
      D.paramValues bitmap types 0
    else D.reject : D (List ServerParam))
  if code = 0x17 then return ⟨id, flags, iterations, params⟩ else D.reject

end Mybin.Spec
