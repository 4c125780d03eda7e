/-
Model of the SQL text made from row events: `mybin-core/src/stmt.rs` (`to_sql_literal`, the conversion from
binlog values) and `mybin-core/src/binlog/transform/{mod,sql}.rs`.

A Rust `String` is its bytes, as elsewhere. `none` is a panic. The text `f32`/`f64` `to_string`
gives for a float is a parameter here; Model/Floats.lean models it. `chrono` is modelled where the code calls it.
-/
import Verif.Model.Stmt
import Verif.Model.Rows
import Verif.Model.Utf8

namespace Mybin

/-! ### text -/

/-- an ASCII string literal of the source -/
def asc (s : String) : Bytes := s.toList.map fun c => UInt8.ofNat c.toNat

/-- characters that are all ASCII, as bytes -/
def ascChars (l : List Char) : Bytes := l.map fun c => UInt8.ofNat c.toNat

/-- `to_string()` and `{}` of an unsigned integer: its decimal numeral (library) -/
def natText (n : Nat) : Bytes := ascChars (Nat.toDigits 10 n)

/-- `to_string()` and `{}` of a signed integer (library) -/
def intText (i : Int) : Bytes := if i < 0 then 0x2d :: natText i.natAbs else natText i.natAbs

/-- `{:0w}` of an unsigned integer: zeros to the left up to width `w` (library) -/
def padText (w n : Nat) : Bytes := List.replicate (w - (natText n).length) 0x30 ++ natText n

/-- `{:0w}` of a signed integer: the zeros go between the sign and the digits (library) -/
def padInt (w : Nat) (i : Int) : Bytes :=
  if i < 0 then 0x2d :: padText (w - 1) i.natAbs else padText w i.natAbs

/-- `b as char` pushed to a `String`: the code point `b`, one or two bytes of UTF-8 (library) -/
def latin1Char (b : UInt8) : Bytes :=
  if b < 0x80 then [b] else [(0xc0 : UInt8) ||| (b >>> 6), (0x80 : UInt8) ||| (b &&& 0x3f)]

/-- `std::str::from_utf8(bs).unwrap()` -/
def utf8Unwrap (bs : Bytes) : Option Bytes := if validUtf8 bs then some bs else none

/-- `hex::encode_to_slice`: two lower-case hexadecimal digits per byte (library) -/
def hexDigit (n : Nat) : UInt8 := if n < 10 then UInt8.ofNat (0x30 + n) else UInt8.ofNat (0x57 + n)
def hexText (bs : Bytes) : Bytes :=
  (bs.map fun b => [hexDigit (b.toNat / 16), hexDigit (b.toNat % 16)]).flatten

/-- `to_string()` of an `f32` and of an `f64`, by bit pattern: a parameter here, `rustFloats` in
Model/Floats.lean -/
structure FloatText where
  f32 : Nat → Bytes
  f64 : Nat → Bytes

/-- `"{:04}-{:02}-{:02}"` -/
def dateText (y m d : Nat) : Bytes := padText 4 y ++ asc "-" ++ padText 2 m ++ asc "-" ++ padText 2 d

/-- `"{:02}:{:02}"` -/
def msText (m s : Nat) : Bytes := padText 2 m ++ asc ":" ++ padText 2 s

/-! ### stmt.rs: literals -/

/-- stmt.rs:239-247 (the same as json.rs:205-212): `n += (b as u64) << (i * 8)`. The shift panics from the ninth
byte on; the sum cannot overflow before. -/
def bitSum : Nat → Bytes → Option Nat
  | _, [] => some 0
  | i, b :: bs => if 64 ≤ i * 8 then none else (bitSum (i + 1) bs).map (b.toNat * 2 ^ (i * 8) + ·)

/-- stmt.rs:227-236: the text of a string with a quote in it -/
def quoteText (bs : Bytes) : Bytes :=
  (bs.map fun b => if b = 0x27 then [0x27, 0x27] else latin1Char b).flatten

/-- stmt.rs:177-200. `i32` arithmetic: `days as i32 * 24 + hour as i32` panics when out of range. -/
def timeText (t : MyTime) : Option Bytes :=
  let d24 := asSigned 32 t.days * 24
  let hour := d24 + t.hour
  if d24 < -2 ^ 31 ∨ 2 ^ 31 ≤ d24 ∨ 2 ^ 31 ≤ hour then none
  else some ((if t.negative then asc "-" else [])
    ++ (if 100 ≤ hour then intText hour else padInt 2 hour)
    ++ asc ":" ++ msText t.minute t.second
    ++ (if t.micro = 0 then [] else asc "." ++ padText 6 t.micro))

/-- stmt.rs:201-213 without the fraction (also 151-165) -/
def dateTimeText (t : MyDateTime) : Bytes :=
  dateText t.year t.month t.day ++ asc " " ++ padText 2 t.hour ++ asc ":" ++ msText t.minute t.second

/-- stmt.rs:121-267 (`to_sql_literal`): the text, and whether it is to be quoted -/
def StmtColumnValue.toSqlLiteral (ft : FloatText) (p : StmtColumnValue) : Option (Bytes × Bool) :=
  match p.val with
  | .null => some (asc "null", false)
  | .newDecimal bs => (utf8Unwrap bs).map (·, false)
  | .tiny n => some (if p.unsigned then natText n else intText (asSigned 8 n), false)
  | .short n => some (if p.unsigned then natText n else intText (asSigned 16 n), false)
  | .long n => some (if p.unsigned then natText n else intText (asSigned 32 n), false)
  | .float n => some (ft.f32 n, false)
  | .double n => some (ft.f64 n, false)
  | .timestamp t => some (dateTimeText t, true)
  | .longLong n => some (if p.unsigned then natText n else intText (asSigned 64 n), false)
  | .date y m d => some (dateText y m d, true)
  | .time t => (timeText t).map (·, true)
  | .dateTime t =>
    some (dateTimeText t ++ (if t.micro = 0 then [] else asc "." ++ padText 6 t.micro), true)
  | .year n => some (padText 4 n, false)
  | .varString bs | .string bs =>
    if ¬ bs.contains 0x27 then (utf8Unwrap bs).map (·, true) else some (quoteText bs, true)
  | .bit bs => (bitSum 0 bs).map fun n => (natText n, false)
  | .blob bs | .geometry bs => some (asc "x'" ++ hexText bs ++ asc "'", false)
  | .int24 n =>
    some (if p.unsigned ∨ n &&& 0x800000 = 0 then natText n else intText (asSigned 32 (n ||| 0xff800000)),
      false)

/-! ### stmt.rs: from binlog values -/

/-- `chrono`: the length of a month of the (proleptic) Gregorian calendar -/
def daysInMonth (y m : Nat) : Nat :=
  if m = 2 then (if y % 4 = 0 ∧ (y % 100 ≠ 0 ∨ y % 400 = 0) then 29 else 28)
  else if m = 4 ∨ m = 6 ∨ m = 9 ∨ m = 11 then 30 else 31

/-- `NaiveDate::from_ymd(y, m, d).and_hms_micro(h, mi, s, us)`: panics when there is no such date or time -/
def chronoDateTime (y m d h mi s us : Nat) : Option NaiveDateTime :=
  if (1 ≤ m ∧ m ≤ 12) ∧ (1 ≤ d ∧ d ≤ daysInMonth y m) ∧ h < 24 ∧ mi < 60 ∧ s < 60 ∧ us < 2000000
  then some ⟨y, m, d, h, mi, s, us * 1000⟩ else none

/-- `NaiveDateTime::from_timestamp(secs, 0)`: the date `secs / 86400` days after 1970-01-01, by the usual
computation over 400-year periods starting on 0000-03-01 -/
def chronoTimestamp (secs : Nat) : NaiveDateTime :=
  let z := secs / 86400 + 719468
  let era := z / 146097
  let doe := z % 146097
  let yoe := (doe - doe / 1460 + doe / 36524 - doe / 146096) / 365
  let doy := doe - (365 * yoe + yoe / 4 - yoe / 100)
  let mp := (5 * doy + 2) / 153
  let d := doy - (153 * mp + 2) / 5 + 1
  let m := if mp < 10 then mp + 3 else mp - 9
  let y := yoe + era * 400 + (if m ≤ 2 then 1 else 0)
  ⟨y, m, d, secs % 86400 / 3600, secs % 3600 / 60, secs % 60, 0⟩

open StmtColumnValue in
/-- stmt.rs:539-616 (`From<(BinlogColumnValue, bool)>`). The decimal's text is its `Display` form. -/
def StmtColumnValue.ofBinlog (v : BinlogColumnValue) (unsigned : Bool) : Option StmtColumnValue :=
  match v with
  | .null => some newNull
  | .tiny n => some (if unsigned then newUnsignedTinyint n else newTinyint (asSigned 8 n))
  | .short n => some (if unsigned then newUnsignedSmallint n else newSmallint (asSigned 16 n))
  | .long n => some (if unsigned then newUnsignedInt n else newInt (asSigned 32 n))
  | .float n => some (newFloat n)
  | .double n => some (newDouble n)
  | .timestamp secs => some (newTimestamp (chronoTimestamp secs))
  | .longLong n => some (if unsigned then newUnsignedBigint n else newBigint (asSigned 64 n))
  | .int24 n =>
    some (if unsigned then newUnsignedInt n
      else if n &&& 0x800000 = 0x800000 then newInt (asSigned 32 (n ||| 0xff000000))
      else newInt (asSigned 32 n))
  | .date y m d => (chronoDateTime y m d 0 0 0 0).map newDate
  | .time t => some (newMyTime t)
  | .dateTime t =>
    (chronoDateTime t.year t.month t.day t.hour t.minute t.second t.micro).map newTimestamp
  | .year n => some (newYear n)
  | .bit bs => some (newBit bs)
  | .newDecimal d => d.display.map fun s => newDecimal (ascChars s)
  | .enum e => some (newUnsignedBigint e.toU64)
  | .blob bs => some (newBlob bs)
  | .varString bs => some (newVarstring bs)
  | .string bs => some (newVarstring bs)
  | .geometry _ => none

/-! ### transform/mod.rs -/

/-- transform/mod.rs:48-54 -/
structure ColDef where
  name : Bytes
  colType : ColumnType
  unsigned : Bool
  key : Bool
  deriving DecidableEq, Repr

/-- transform/mod.rs:38-44 -/
def ColDef.of (d : ColumnDefinition) : ColDef :=
  ⟨d.name, d.colType, hasFlag d.flags 0x20, hasFlag d.flags 0x02 || hasFlag d.flags 0x04⟩

/-- transform/mod.rs:34-46; the iterator never panics from offset 0 -/
def filterColDefs (presentBm : Bytes) (defs : List ColumnDefinition) : List ColDef :=
  ((((Bitmap.toIter presentBm 0).getD []).zip defs).filter (·.1)).map fun x => ColDef.of x.2

/-! ### transform/sql.rs -/

/-- sql.rs:41-46 -/
structure PreparedSql where
  dbname : Bytes
  sqlFragments : List Bytes
  params : List (List StmtColumnValue)
  deriving DecidableEq, Repr

/-- sql.rs:61-63 -/
def PreparedSql.sqlStmt (p : PreparedSql) : Bytes := p.sqlFragments.flatten

/-- `` `{}` `` -/
def ticked (name : Bytes) : Bytes := asc "`" ++ name ++ asc "`"

/-- `` `{}`.`{}` `` -/
def tableText (db tbl : Bytes) : Bytes := ticked db ++ asc "." ++ ticked tbl

/-- sql.rs:224-231: the column names, from index `idx` on -/
def insertNames : Nat → List ColDef → Bytes
  | _, [] => []
  | idx, c :: cs => (if idx > 0 then asc "," else []) ++ ticked c.name ++ insertNames (idx + 1) cs

/-- sql.rs:234-239: the placeholders, from index `idx` on -/
def insertMarks : Nat → List ColDef → List Bytes
  | _, [] => []
  | idx, _ :: cs => (if idx > 0 then [asc ","] else []) ++ [asc "?"] ++ insertMarks (idx + 1) cs

/-- sql.rs:221-242 -/
def insertFragments (db tbl : Bytes) (cs : List ColDef) : List Bytes :=
  [asc "INSERT INTO " ++ tableText db tbl ++ asc " (" ++ insertNames 0 cs ++ asc ") VALUES ("]
    ++ insertMarks 0 cs ++ [asc ")"]

/-- `fragments.last_mut().unwrap().push_str(s)`: panics on an empty list -/
def pushLast : List Bytes → Bytes → Option (List Bytes)
  | [], _ => none
  | [l], s => some [l ++ s]
  | l :: ls, s => (pushLast ls s).map (l :: ·)

/-- sql.rs:166-179 (and 191-201, 204-217): `` `name` = `` followed by a placeholder, for the columns that pass
`use`; `idx` columns have been written before, `sep` goes before all but the first -/
def assignFragments (sep : Bytes) (use : ColDef → Bool) :
    Nat → List ColDef → List Bytes → Option (List Bytes)
  | _, [], out => some out
  | idx, c :: cs, out =>
    if use c then
      if idx > 0 then
        assignFragments sep use (idx + 1) cs (out ++ [sep ++ ticked c.name ++ asc " = "] ++ [asc "?"])
      else
        match pushLast out (ticked c.name ++ asc " = ") with
        | none => none
        | some out => assignFragments sep use (idx + 1) cs (out ++ [asc "?"])
    else assignFragments sep use idx cs out

/-- sql.rs:162-181 -/
def deleteFragments (db tbl : Bytes) (cs : List ColDef) : Option (List Bytes) :=
  assignFragments (asc " AND ") (·.key) 0 cs [asc "DELETE FROM " ++ tableText db tbl ++ asc " WHERE "]

/-- sql.rs:183-219 -/
def updateFragments (db tbl : Bytes) (before after : List ColDef) : Option (List Bytes) :=
  match assignFragments (asc ", ") (fun _ => true) 0 after
      [asc "UPDATE " ++ tableText db tbl ++ asc " SET "] with
  | none => none
  | some out => assignFragments (asc " AND ") (·.key) 0 before (out ++ [asc " WHERE "])

/-- a vector of conversions, the first panic of which is the panic of all -/
def allSome {α : Type} : List (Option α) → Option (List α)
  | [] => some []
  | none :: _ => none
  | some a :: l => (allSome l).map (a :: ·)

/-- sql.rs:77-81, 97-102, 120-127: the columns that pass `use`, converted -/
def rowParams (use : ColDef → Bool) (cs : List ColDef) (row : List BinlogColumnValue) :
    Option (List StmtColumnValue) :=
  allSome (((cs.zip row).filter fun x => use x.1).map fun x => StmtColumnValue.ofBinlog x.2 x.1.unsigned)

/-- sql.rs:67-85 -/
def PreparedSql.fromInsert (db tbl : Bytes) (r : RowsV2) (defs : List ColumnDefinition) :
    Option PreparedSql :=
  let cs := filterColDefs r.presentBitmap defs
  (allSome (r.rows.map (rowParams (fun _ => true) cs))).map
    fun params => ⟨db, insertFragments db tbl cs, params⟩

/-- sql.rs:87-106 -/
def PreparedSql.fromDelete (db tbl : Bytes) (r : RowsV2) (defs : List ColumnDefinition) :
    Option PreparedSql :=
  let cs := filterColDefs r.presentBitmap defs
  match deleteFragments db tbl cs with
  | none => none
  | some frags => (allSome (r.rows.map (rowParams (·.key) cs))).map fun params => ⟨db, frags, params⟩

/-- sql.rs:119-128: the parameters of one row of an update -/
def updateParams (before after : List ColDef) (row : List BinlogColumnValue × List BinlogColumnValue) :
    Option (List StmtColumnValue) :=
  match rowParams (fun _ => true) after row.2 with
  | none => none
  | some ps => (rowParams (·.key) before row.1).map (ps ++ ·)

/-- sql.rs:108-131 -/
def PreparedSql.fromUpdate (db tbl : Bytes) (r : UpdateRowsV2) (defs : List ColumnDefinition) :
    Option PreparedSql :=
  let before := filterColDefs r.beforeBitmap defs
  let after := filterColDefs r.afterBitmap defs
  match updateFragments db tbl before after with
  | none => none
  | some frags =>
    (allSome (r.rows.map (updateParams before after))).map fun params => ⟨db, frags, params⟩

/-- sql.rs:143-150: a literal with its quotes -/
def quotedLiteral (ft : FloatText) (p : StmtColumnValue) : Option Bytes :=
  (p.toSqlLiteral ft).map fun (lit, quote) =>
    (if quote then asc "'" else []) ++ lit ++ (if quote then asc "'" else [])

/-- sql.rs:138-156: one statement; `ps` are the parameters not used yet -/
def fillFragments (ft : FloatText) : List Bytes → List StmtColumnValue → Option Bytes
  | [], _ => some []
  | f :: fs, ps =>
    if f = asc "?" then
      match ps with
      | [] => fillFragments ft fs []
      | p :: ps =>
        match quotedLiteral ft p with
        | none => none
        | some lit => (fillFragments ft fs ps).map (lit ++ ·)
    else (fillFragments ft fs ps).map (f ++ ·)

/-- sql.rs:135-159 -/
def PreparedSql.sqlList (ft : FloatText) (p : PreparedSql) : Option (List Bytes) :=
  allSome (p.params.map (fillFragments ft p.sqlFragments))

/-- sql.rs:19-23 -/
structure PlainSql where
  dbname : Bytes
  sql : Bytes
  ddl : Bool

/-- sql.rs:35-39 -/
def PlainSql.sqlList (p : PlainSql) : List Bytes := [p.sql]

end Mybin
