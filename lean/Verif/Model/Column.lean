/-
Model of `mybin-core/src/col.rs` (column types, binary-protocol values, column definitions) and of the
text and binary rows of `mybin-core/src/row.rs`.
-/
import Verif.Model.MyEnc
import Verif.Model.Bitmap
import Verif.Model.Utf8
import Verif.Model.Command

namespace Mybin

/-- col.rs:19-52 -/
inductive ColumnType where
  | decimal | tiny | short | long | float | double | null | timestamp | longLong | int24
  | date | time | dateTime | year | varchar | bit | timestamp2 | dateTime2 | time2
  | newDecimal | tinyBlob | mediumBlob | longBlob | blob | varString | string | geometry
  deriving DecidableEq, Repr

/-- col.rs:54-99 (`TryFrom<u8>`); every other code is the `ConstraintError` -/
def ColumnType.tryFrom (code : Nat) : Option ColumnType :=
  match code with
  | 0x00 => some .decimal | 0x01 => some .tiny | 0x02 => some .short | 0x03 => some .long
  | 0x04 => some .float | 0x05 => some .double | 0x06 => some .null | 0x07 => some .timestamp
  | 0x08 => some .longLong | 0x09 => some .int24 | 0x0a => some .date | 0x0b => some .time
  | 0x0c => some .dateTime | 0x0d => some .year | 0x0f => some .varchar | 0x10 => some .bit
  | 0x11 => some .timestamp2 | 0x12 => some .dateTime2 | 0x13 => some .time2
  | 0xf6 => some .newDecimal | 0xf9 => some .tinyBlob | 0xfa => some .mediumBlob
  | 0xfb => some .longBlob | 0xfc => some .blob | 0xfd => some .varString | 0xfe => some .string
  | 0xff => some .geometry
  | _ => none

/-- col.rs:101-137 (`From<ColumnType> for u8`) -/
def ColumnType.toByte : ColumnType → Nat
  | .decimal => 0x00 | .tiny => 0x01 | .short => 0x02 | .long => 0x03
  | .float => 0x04 | .double => 0x05 | .null => 0x06 | .timestamp => 0x07
  | .longLong => 0x08 | .int24 => 0x09 | .date => 0x0a | .time => 0x0b
  | .dateTime => 0x0c | .year => 0x0d | .varchar => 0x0f | .bit => 0x10
  | .timestamp2 => 0x11 | .dateTime2 => 0x12 | .time2 => 0x13
  | .newDecimal => 0xf6 | .tinyBlob => 0xf9 | .mediumBlob => 0xfa
  | .longBlob => 0xfb | .blob => 0xfc | .varString => 0xfd | .string => 0xfe
  | .geometry => 0xff

/-- time.rs:14-22 -/
structure MyTime where
  negative : Bool
  days : Nat
  hour : Nat
  minute : Nat
  second : Nat
  micro : Nat
  deriving DecidableEq, Repr

/-- time.rs:113-122 -/
structure MyDateTime where
  year : Nat
  month : Nat
  day : Nat
  hour : Nat
  minute : Nat
  second : Nat
  micro : Nat
  deriving DecidableEq, Repr

/-- col.rs:347-371. Floats are their bit patterns. -/
inductive BinaryColumnValue where
  | null
  | tiny (n : Nat)
  | short (n : Nat)
  | long (n : Nat)
  | float (n : Nat)
  | double (n : Nat)
  | timestamp (t : MyDateTime)
  | longLong (n : Nat)
  | int24 (n : Nat)
  | date (year month day : Nat)
  | time (t : MyTime)
  | dateTime (t : MyDateTime)
  | year (n : Nat)
  | bit (bs : Bytes)
  | newDecimal (bs : Bytes)
  | blob (bs : Bytes)
  | varString (bs : Bytes)
  | string (bs : Bytes)
  | geometry (bs : Bytes)
  deriving DecidableEq, Repr

/-- the Rust field types of time.rs:14-22 (`u32, u8, u8, u8, u32`) -/
def MyTime.InRange (t : MyTime) : Prop :=
  t.days < 2 ^ 32 ∧ t.hour < 2 ^ 8 ∧ t.minute < 2 ^ 8 ∧ t.second < 2 ^ 8 ∧ t.micro < 2 ^ 32

/-- the Rust field types of time.rs:113-122 -/
def MyDateTime.InRange (t : MyDateTime) : Prop :=
  t.year < 2 ^ 16 ∧ t.month < 2 ^ 8 ∧ t.day < 2 ^ 8 ∧ t.hour < 2 ^ 8 ∧ t.minute < 2 ^ 8 ∧
  t.second < 2 ^ 8 ∧ t.micro < 2 ^ 32

/-- the Rust payload types of col.rs:347-371; byte buffers hold fewer than 2^64 bytes -/
def BinaryColumnValue.InRange : BinaryColumnValue → Prop
  | .null => True
  | .tiny n => n < 2 ^ 8
  | .short n | .year n => n < 2 ^ 16
  | .long n | .float n | .int24 n => n < 2 ^ 32
  | .double n | .longLong n => n < 2 ^ 64
  | .date y m d => y < 2 ^ 16 ∧ m < 2 ^ 8 ∧ d < 2 ^ 8
  | .timestamp t | .dateTime t => t.InRange
  | .time t => t.InRange
  | .bit bs | .newDecimal bs | .blob bs | .varString bs | .string bs | .geometry bs =>
    bs.length < 2 ^ 64

/-- the repeated `match read_len_enc_str()?` of col.rs:379-387, 549-615 -/
def readStrValue (mk : Bytes → BinaryColumnValue) : P BinaryColumnValue := do
  let v ← readLenEncStr
  match v with
  | .null => return .null
  | .err => P.fail .constraint
  | .bytes bs => return mk bs

/-- col.rs:401-420 -/
def readDateValue : P BinaryColumnValue := do
  let len ← readU8
  if len = 0 then return .date 0 0 0
  else if len = 4 then do
    let year ← readLeU16
    let month ← readU8
    let day ← readU8
    return .date year month day
  else P.fail .constraint

/-- col.rs:423-472 -/
def readTimeValue : P BinaryColumnValue := do
  let len ← readU8
  if len = 0 then return .time ⟨false, 0, 0, 0, 0, 0⟩
  else if len = 8 then do
    let negative ← readU8
    let days ← readLeU32
    let hour ← readU8
    let minute ← readU8
    let second ← readU8
    return .time ⟨negative == 1, days, hour, minute, second, 0⟩
  else if len = 12 then do
    let negative ← readU8
    let days ← readLeU32
    let hour ← readU8
    let minute ← readU8
    let second ← readU8
    let micro ← readLeU32
    return .time ⟨negative == 1, days, hour, minute, second, micro⟩
  else P.fail .constraint

/-- col.rs:478-544 -/
def readDateTimeValue : P BinaryColumnValue := do
  let len ← readU8
  if len = 0 then return .dateTime ⟨0, 0, 0, 0, 0, 0, 0⟩
  else if len = 4 then do
    let year ← readLeU16
    let month ← readU8
    let day ← readU8
    return .dateTime ⟨year, month, day, 0, 0, 0, 0⟩
  else if len = 7 then do
    let year ← readLeU16
    let month ← readU8
    let day ← readU8
    let hour ← readU8
    let minute ← readU8
    let second ← readU8
    return .dateTime ⟨year, month, day, hour, minute, second, 0⟩
  else if len = 11 then do
    let year ← readLeU16
    let month ← readU8
    let day ← readU8
    let hour ← readU8
    let minute ← readU8
    let second ← readU8
    let micro ← readLeU32
    return .dateTime ⟨year, month, day, hour, minute, second, micro⟩
  else P.fail .constraint

/-- col.rs:376-618 -/
def BinaryColumnValue.readFrom : ColumnType → P BinaryColumnValue
  | .decimal => readStrValue .newDecimal
  | .tiny => do return .tiny (← readU8)
  | .short => do return .short (← readLeU16)
  | .long => do return .long (← readLeU32)
  | .float => do return .float (← readLeF32)
  | .double => do return .double (← readLeF64)
  | .null => pure .null
  | .longLong => do return .longLong (← readLeU64)
  | .int24 => do return .int24 (← readLeU32)
  | .date => readDateValue
  | .time | .time2 => readTimeValue
  | .timestamp | .timestamp2 | .dateTime | .dateTime2 => readDateTimeValue
  | .year => do return .year (← readLeU16)
  | .bit => readStrValue .bit
  | .newDecimal => readStrValue .newDecimal
  | .tinyBlob | .mediumBlob | .longBlob | .blob => readStrValue .blob
  | .varchar | .varString => readStrValue .varString
  | .string => readStrValue .string
  | .geometry => readStrValue .geometry

/-- run several writers in sequence, adding up the reported lengths (`len += out.write_x(..)?`) -/
def writeSeq (out : Bytes) (ws : List (Bytes → Bytes × Nat)) : Bytes × Nat :=
  ws.foldl (fun acc w => let r := w acc.1; (r.1, acc.2 + r.2)) (out, 0)

/-- col.rs:621-744 -/
def BinaryColumnValue.writeTo (out : Bytes) : BinaryColumnValue → Bytes × Nat
  | .bit bs | .newDecimal bs | .blob bs | .varString bs | .string bs | .geometry bs =>
    (LenEncStr.bytes bs).writeTo out
  | .tiny n => writeU8 out n
  | .short n => writeLeU16 out n
  | .long n => writeLeU32 out n
  | .float n => writeLeF32 out n
  | .double n => writeLeF64 out n
  | .null => (out, 0)
  | .timestamp t => writeSeq out [(writeU8 · 7), (writeLeU16 · t.year), (writeU8 · t.month),
      (writeU8 · t.day), (writeU8 · t.hour), (writeU8 · t.minute), (writeU8 · t.second)]
  | .longLong n => writeLeU64 out n
  | .int24 n => writeLeU32 out n
  | .date y m d => writeSeq out [(writeU8 · 4), (writeLeU16 · y), (writeU8 · m), (writeU8 · d)]
  | .time t =>
    if t.days ||| t.hour ||| t.minute ||| t.second ||| t.micro = 0 then writeU8 out 0
    else if t.micro = 0 then
      writeSeq out [(writeU8 · 8), (writeU8 · (if t.negative then 1 else 0)), (writeLeU32 · t.days),
        (writeU8 · t.hour), (writeU8 · t.minute), (writeU8 · t.second)]
    else
      writeSeq out [(writeU8 · 12), (writeU8 · (if t.negative then 1 else 0)), (writeLeU32 · t.days),
        (writeU8 · t.hour), (writeU8 · t.minute), (writeU8 · t.second), (writeLeU32 · t.micro)]
  | .dateTime t =>
    if t.year ||| t.month ||| t.day ||| t.hour ||| t.minute ||| t.second ||| t.micro = 0 then
      writeU8 out 0
    else if t.hour ||| t.minute ||| t.second ||| t.micro = 0 then
      writeSeq out [(writeU8 · 4), (writeLeU16 · t.year), (writeU8 · t.month), (writeU8 · t.day)]
    else if t.micro = 0 then
      writeSeq out [(writeU8 · 7), (writeLeU16 · t.year), (writeU8 · t.month), (writeU8 · t.day),
        (writeU8 · t.hour), (writeU8 · t.minute), (writeU8 · t.second)]
    else
      writeSeq out [(writeU8 · 11), (writeLeU16 · t.year), (writeU8 · t.month), (writeU8 · t.day),
        (writeU8 · t.hour), (writeU8 · t.minute), (writeU8 · t.second), (writeLeU32 · t.micro)]
  | .year n => writeLeU16 out n

/-! ### Rows -/

/-- row.rs:15-26, one loop iteration; the value is `Option<Bytes>` (col.rs:747) -/
def readTextValue : P (Option Bytes) := do
  let s ← readLenEncStr
  match s with
  | .null => return none
  | .bytes bs => return some bs
  | .err => P.fail .constraint

/-- row.rs:13-28; `Option<Bytes>` is 32 bytes wide -/
def TextRow.readFrom (colCnt : Nat) : P (List (Option Bytes)) := do
  let _ ← withCapacity colCnt 32
  P.times readTextValue colCnt

/-- row.rs:43-50: the loop over `col_types.iter().zip(bitmap::to_iter(&null_bitmap, 2))`, with the
position of the bitmap iterator as argument -/
def BinaryRow.readCols (bm : Bytes) : List ColumnType → Nat → P (List BinaryColumnValue)
  | [], _ => pure []
  | ct :: cts, i =>
    match Bitmap.next bm i with
    | none => P.panic
    | some (none, _) => pure []
    | some (some null, i') => do
      let col ← (if null then pure BinaryColumnValue.null else BinaryColumnValue.readFrom ct : P _)
      let cols ← BinaryRow.readCols bm cts i'
      return col :: cols

/-- row.rs:36-52 -/
def BinaryRow.readFrom (colTypes : List ColumnType) : P (List BinaryColumnValue) := do
  let _ ← readU8
  let bm ← readLen ((colTypes.length + 7 + 2) >>> 3)
  BinaryRow.readCols bm colTypes 2

/-! ### Column definitions -/

/-- col.rs:952-976. Strings are byte strings that passed the UTF-8 check. -/
structure ColumnDefinition where
  catalog : Bytes
  schema : Bytes
  table : Bytes
  orgTable : Bytes
  name : Bytes
  orgName : Bytes
  charset : Nat
  colLen : Nat
  colType : ColumnType
  flags : Nat
  decimals : Nat
  defaultValues : Bytes
  deriving DecidableEq, Repr

/-- my.rs:211-217 (`into_string`): NULL and ERR give the empty string -/
def LenEncStr.intoString (s : LenEncStr) : P Bytes :=
  match s with
  | .bytes bs => toUtf8 bs
  | _ => pure []

/-- col.rs:978-981 with `UNSIGNED = 0x0020` (col.rs:1045) -/
def ColumnDefinition.unsigned (c : ColumnDefinition) : Bool := hasFlag c.flags 0x20

/-- col.rs:983-1028. All 16 bits are named flags (col.rs:1039-1056), so `from_bits` never fails. -/
def ColumnDefinition.readFrom (fieldList : Bool) : P ColumnDefinition := do
  let catalog ← (← readLenEncStr).intoString
  let schema ← (← readLenEncStr).intoString
  let table ← (← readLenEncStr).intoString
  let orgTable ← (← readLenEncStr).intoString
  let name ← (← readLenEncStr).intoString
  let orgName ← (← readLenEncStr).intoString
  let _ ← readLenEncInt
  let charset ← readLeU16
  let colLen ← readLeU32
  let ct ← readU8
  let colType ← P.orErr (ColumnType.tryFrom ct) .constraint
  let flags ← readLeU16
  let decimals ← readU8
  let _ ← readLen 2
  let defaultValues ← (if fieldList then do (← readLenEncStr).intoString else pure [] : P Bytes)
  return { catalog, schema, table, orgTable, name, orgName, charset, colLen, colType, flags,
           decimals, defaultValues }

/-- cmd/field_list.rs:40-45 -/
inductive ComFieldListResponse where
  | colDef (c : ColumnDefinition)
  | err (p : ErrPacket)
  | eof (p : EofPacket)
  deriving DecidableEq, Repr

/-- cmd/field_list.rs:47-66 -/
def ComFieldListResponse.readFrom (caps : Nat) (sql : Bool) : P ComFieldListResponse := fun bs =>
  match bs with
  | [] => .err (.incomplete none) []
  | b :: _ =>
    (if b = 0xff then do return .err (← ErrPacket.readFrom caps sql)
     else if b = 0xfe then do return .eof (← EofPacket.readFrom caps)
     else do return .colDef (← ColumnDefinition.readFrom true) : P ComFieldListResponse) bs

/-! ### Prepared statement responses -/

/-- cmd/stmt_prepare.rs:39-47 -/
structure StmtPrepareOk where
  status : Nat
  stmtId : Nat
  nCols : Nat
  nParams : Nat
  nWarnings : Nat
  deriving DecidableEq, Repr

/-- cmd/stmt_prepare.rs:49-71 -/
def StmtPrepareOk.readFrom : P StmtPrepareOk := do
  let status ← readU8
  if status ≠ 0 then P.fail .constraint
  else do
    let stmtId ← readLeU32
    let nCols ← readLeU16
    let nParams ← readLeU16
    let _ ← readU8
    let nWarnings ← readLeU16
    return { status, stmtId, nCols, nParams, nWarnings }

/-- cmd/stmt_prepare.rs:76-85 and 90-99 -/
def StmtPrepareDefs.readFrom (cnt : Nat) : P (List ColumnDefinition) :=
  P.times (ColumnDefinition.readFrom false) cnt

end Mybin
