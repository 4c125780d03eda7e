/-
Model of statement parameters: `mybin-core/src/stmt.rs` (constructors) and
`mybin-core/src/cmd/stmt_execute.rs`.
-/
import Verif.Model.Column

namespace Mybin

/-- stmt.rs:106-111 -/
structure StmtColumnValue where
  colType : ColumnType
  unsigned : Bool
  val : BinaryColumnValue
  deriving DecidableEq, Repr

/-- `chrono::NaiveDateTime` / `NaiveDate` / `NaiveTime` as the accessors `year()`, `month()`, ...,
`nanosecond()` show them (`nanosecond()` reaches 1_999_999_999 in a leap second). The calendar
itself (which dates exist) is modelled where the code constructs one. -/
structure NaiveDateTime where
  year : Int
  month : Nat
  day : Nat
  hour : Nat
  minute : Nat
  second : Nat
  nano : Nat
  deriving DecidableEq, Repr

namespace StmtColumnValue

/-- stmt.rs:114-119. NOTE: looks at the declared type, not at the value. -/
def isNull (p : StmtColumnValue) : Bool := p.colType == .null

/-- stmt.rs:269-282 -/
def new (ct : ColumnType) (unsigned : Bool) (val : BinaryColumnValue) : StmtColumnValue :=
  match ct with
  | .decimal | .newDecimal => ⟨.newDecimal, false, val⟩
  | ct => ⟨ct, unsigned, val⟩

/-- stmt.rs:284-290 -/
def newNull : StmtColumnValue := ⟨.null, false, .null⟩
/-- stmt.rs:292-307 (`new_decimal`, `new_mydecimal`): the argument is the text of the decimal -/
def newDecimal (text : Bytes) : StmtColumnValue := ⟨.newDecimal, false, .newDecimal text⟩
/-- stmt.rs:309-315 -/
def newTinyint (i : Int) : StmtColumnValue := ⟨.tiny, false, .tiny (asUnsigned 8 i)⟩
/-- stmt.rs:317-323 -/
def newUnsignedTinyint (n : Nat) : StmtColumnValue := ⟨.tiny, true, .tiny n⟩
/-- stmt.rs:325-331 -/
def newSmallint (i : Int) : StmtColumnValue := ⟨.short, false, .short (asUnsigned 16 i)⟩
/-- stmt.rs:333-339 -/
def newUnsignedSmallint (n : Nat) : StmtColumnValue := ⟨.short, true, .short n⟩
/-- stmt.rs:341-347 -/
def newInt (i : Int) : StmtColumnValue := ⟨.long, false, .long (asUnsigned 32 i)⟩
/-- stmt.rs:349-355 -/
def newUnsignedInt (n : Nat) : StmtColumnValue := ⟨.long, true, .long n⟩
/-- stmt.rs:357-363 -/
def newFloat (n : Nat) : StmtColumnValue := ⟨.float, false, .float n⟩
/-- stmt.rs:365-371 -/
def newDouble (n : Nat) : StmtColumnValue := ⟨.double, false, .double n⟩
/-- stmt.rs:373-387: the sub-second part is dropped -/
def newTimestamp (ts : NaiveDateTime) : StmtColumnValue :=
  ⟨.timestamp, false, .timestamp ⟨asUnsigned 16 ts.year, ts.month % 2 ^ 8, ts.day % 2 ^ 8,
    ts.hour % 2 ^ 8, ts.minute % 2 ^ 8, ts.second % 2 ^ 8, 0⟩⟩
/-- stmt.rs:389-395 -/
def newBigint (i : Int) : StmtColumnValue := ⟨.longLong, false, .longLong (asUnsigned 64 i)⟩
/-- stmt.rs:397-403 -/
def newUnsignedBigint (n : Nat) : StmtColumnValue := ⟨.longLong, true, .longLong n⟩
/-- stmt.rs:405-415; the date is the date part of a `NaiveDateTime` -/
def newDate (dt : NaiveDateTime) : StmtColumnValue :=
  ⟨.date, false, .date (asUnsigned 16 dt.year) (dt.month % 2 ^ 8) (dt.day % 2 ^ 8)⟩
/-- stmt.rs:430-437 -/
def newMyTime (t : MyTime) : StmtColumnValue := ⟨.time, false, .time t⟩
/-- stmt.rs:417-428; the time of day is the time part of a `NaiveDateTime` -/
def newTime (negative : Bool) (days : Nat) (tm : NaiveDateTime) : StmtColumnValue :=
  newMyTime ⟨negative, days, tm.hour % 2 ^ 8, tm.minute % 2 ^ 8, tm.second % 2 ^ 8,
    tm.nano % 1000000000 / 1000⟩
/-- stmt.rs:452-458 -/
def newMyDateTime (t : MyDateTime) : StmtColumnValue := ⟨.dateTime, false, .dateTime t⟩
/-- stmt.rs:439-450 -/
def newDateTime (ts : NaiveDateTime) : StmtColumnValue :=
  newMyDateTime ⟨asUnsigned 16 ts.year, ts.month % 2 ^ 8, ts.day % 2 ^ 8, ts.hour % 2 ^ 8,
    ts.minute % 2 ^ 8, ts.second % 2 ^ 8, ts.nano % 1000000000 / 1000⟩
/-- stmt.rs:460-467 -/
def newYear (n : Nat) : StmtColumnValue := ⟨.short, true, .short n⟩
/-- stmt.rs:469-475 -/
def newMyYear (n : Nat) : StmtColumnValue := ⟨.year, true, .year n⟩
/-- stmt.rs:477-483 -/
def newVarstring (bs : Bytes) : StmtColumnValue := ⟨.varString, false, .varString bs⟩
/-- stmt.rs:486-492 -/
def newString (bs : Bytes) : StmtColumnValue := ⟨.string, false, .string bs⟩
/-- stmt.rs:494-500 -/
def newText (bs : Bytes) : StmtColumnValue := ⟨.blob, false, .blob bs⟩
/-- stmt.rs:502-512 (`new_bit`, `new_mybit`) -/
def newBit (bs : Bytes) : StmtColumnValue := ⟨.bit, false, .bit bs⟩
/-- stmt.rs:514-520 -/
def newBlob (bs : Bytes) : StmtColumnValue := ⟨.blob, false, .blob bs⟩
/-- stmt.rs:522-528 -/
def newGeometry (bs : Bytes) : StmtColumnValue := ⟨.geometry, false, .geometry bs⟩
/-- stmt.rs:530-536 -/
def newBool (b : Bool) : StmtColumnValue := ⟨.tiny, false, .tiny (if b then 1 else 0)⟩

end StmtColumnValue

/-- cmd/stmt_execute.rs:10-21; `iter_cnt` and `null_bitmap` are kept but not used by the writer -/
structure ComStmtExecute where
  cmd : Command
  stmtId : Nat
  flags : Nat
  iterCnt : Nat
  nullBitmap : Bytes
  newParamsBound : Bool
  params : List StmtColumnValue

/-- cmd/stmt_execute.rs:24-36; `none` is a panic of `bitmap::from_iter` -/
def ComStmtExecute.single (stmtId : Nat) (params : List StmtColumnValue) : Option ComStmtExecute :=
  match Bitmap.fromIter (params.map (·.isNull)) 0 with
  | none => none
  | some bm => some ⟨.stmtExecute, stmtId, 0, 1, bm, true, params⟩

/-- cmd/stmt_execute.rs:51-54 -/
def writeParamType (out : Bytes) (p : StmtColumnValue) : Bytes × Nat :=
  writeSeq out [(writeU8 · p.colType.toByte), (writeU8 · (if p.unsigned then 0x80 else 0x00))]

/-- cmd/stmt_execute.rs:39-62; `none` is a panic of `bitmap::from_iter` -/
def ComStmtExecute.writeTo (out : Bytes) (c : ComStmtExecute) : Option (Bytes × Nat) :=
  let head : List (Bytes → Bytes × Nat) :=
    [(writeU8 · c.cmd.toByte), (writeLeU32 · c.stmtId), (writeU8 · c.flags), (writeLeU32 · 1)]
  if c.params.isEmpty then some (writeSeq out head)
  else
    match Bitmap.fromIter (c.params.map (·.isNull)) 0 with
    | none => none
    | some bm =>
      some (writeSeq out (head
        ++ [(writeBytes · bm), (writeU8 · (if c.newParamsBound then 0x01 else 0x00))]
        ++ (if c.newParamsBound then c.params.map (fun p out => writeParamType out p) else [])
        ++ c.params.map (fun p out => p.val.writeTo out)))

end Mybin
