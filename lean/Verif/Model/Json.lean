/-
Model of the JSON records made from row events: `mybin-core/src/binlog/transform/json.rs`.

`serde_json::Value` is modelled by the constructors the code uses. An object is a list of name/value pairs with
distinct names, in the order in which they were inserted. Serialization is in Model/JsonText.lean. `none` is a panic.
-/
import Verif.Model.Sql

namespace Mybin

/-- `serde_json::Value` -/
inductive Json where
  | null
  | int (i : Int)
  | float (bits : Nat)
  | str (s : Bytes)
  deriving DecidableEq, Repr

/-- library functions: widening an `f32` to `f64` (bit patterns), `base64::encode`; see `jsonLib` in Model/JsonText.lean -/
structure JsonLib where
  widen : Nat → Nat
  base64 : Bytes → Bytes

/-- `Number::from_f64(v).unwrap()`: infinities and NaN panic. (`bits` is an `f64`: it has 64 bits.) -/
def jsonFloat (bits : Nat) : Option Json :=
  if bits / 2 ^ 52 % 2 ^ 11 = 2 ^ 11 - 1 then none else some (.float (bits % 2 ^ 64))

/-- json.rs:147-159 -/
def jsonDateTime (t : MyDateTime) : Bytes :=
  if t.micro = 0 then dateText t.year t.month t.day ++ asc " " ++ padText 2 t.hour ++ asc ":" ++ msText t.minute t.second
  else dateText t.year t.month t.day ++ asc " " ++ padText 2 t.hour ++ asc ":" ++ msText t.minute t.second
    ++ asc "." ++ padText 6 t.micro

/-- json.rs:177-204: `tm.days * 24 + tm.hour as u32` panics when it overflows -/
def jsonTime (t : MyTime) : Option Bytes :=
  let hours := t.days * 24 + t.hour
  if 2 ^ 32 ≤ hours then none
  else some (
    match t.negative, t.micro == 0 with
    | true, true => asc "-" ++ padText 2 hours ++ asc ":" ++ msText t.minute t.second
    | true, false =>
      asc "-" ++ padText 2 hours ++ asc ":" ++ msText t.minute t.second ++ asc "." ++ padText 6 t.micro
    | false, true => padText 2 hours ++ asc ":" ++ msText t.minute t.second
    | false, false => padText 2 hours ++ asc ":" ++ msText t.minute t.second ++ asc "." ++ padText 6 t.micro)

/-- json.rs:121-222 (`to_json_value`): the value, and whether it is encoded in base64 -/
def toJsonValue (lib : JsonLib) (sv : StmtColumnValue) : Option (Json × Bool) :=
  match sv.val with
  | .tiny n => some (.int (if sv.unsigned then n else asSigned 8 n), false)
  | .short n | .year n => some (.int (if sv.unsigned then n else asSigned 16 n), false)
  | .long n => some (.int (if sv.unsigned then n else asSigned 32 n), false)
  | .float n => (jsonFloat (lib.widen n)).map (·, false)
  | .double n => (jsonFloat n).map (·, false)
  | .null => some (.null, false)
  | .timestamp t | .dateTime t => some (.str (jsonDateTime t), false)
  | .longLong n => some (.int (if sv.unsigned then n else asSigned 64 n), false)
  | .int24 n => some (.int (if sv.unsigned then n else asSigned 32 n), false)
  | .date y m d => some (.str (dateText y m d), false)
  | .time t => (jsonTime t).map fun s => (.str s, false)
  | .bit bs => (bitSum 0 bs).map fun n => (.int n, false)
  | .newDecimal bs | .varString bs | .string bs => (utf8Unwrap bs).map fun s => (.str s, false)
  | .blob bs | .geometry bs => some (.str (lib.base64 bs), true)

/-- json.rs:225-235 -/
structure JsonRow where
  ty : Bytes
  base64Encoded : List Bytes
  db : Bytes
  tbl : Bytes
  before : Option (List (Bytes × Json))
  after : Option (List (Bytes × Json))
  deriving DecidableEq, Repr

/-- `Map::insert`: replaces the value of a name that is there already -/
def jsonInsert (m : List (Bytes × Json)) (k : Bytes) (v : Json) : List (Bytes × Json) :=
  if m.any (·.1 == k) then m.map fun x => if x.1 = k then (k, v) else x else m ++ [(k, v)]

/-- json.rs:25-32, 57-64, 91-106: one image of a row. `dedup`: a name is listed once only (the second image of an
update). -/
def jsonImage (lib : JsonLib) (dedup : Bool) :
    List (ColDef × BinlogColumnValue) → List (Bytes × Json) × List Bytes → Option (List (Bytes × Json) × List Bytes)
  | [], acc => some acc
  | (c, v) :: xs, (m, enc) =>
    match StmtColumnValue.ofBinlog v c.unsigned with
    | none => none
    | some sv =>
      match toJsonValue lib sv with
      | none => none
      | some (jv, e) =>
        jsonImage lib dedup xs
          (jsonInsert m c.name jv, if e && !(dedup && enc.contains c.name) then enc ++ [c.name] else enc)

/-- json.rs:14-44 -/
def JsonRows.fromInsert (lib : JsonLib) (db tbl : Bytes) (r : RowsV2) (defs : List ColumnDefinition) :
    Option (List JsonRow) :=
  let cs := filterColDefs r.presentBitmap defs
  allSome (r.rows.map fun row => (jsonImage lib false (cs.zip row) ([], [])).map fun (m, enc) =>
    ⟨asc "insert", enc, db, tbl, none, some m⟩)

/-- json.rs:46-76 -/
def JsonRows.fromDelete (lib : JsonLib) (db tbl : Bytes) (r : RowsV2) (defs : List ColumnDefinition) :
    Option (List JsonRow) :=
  let cs := filterColDefs r.presentBitmap defs
  allSome (r.rows.map fun row => (jsonImage lib false (cs.zip row) ([], [])).map fun (m, enc) =>
    ⟨asc "delete", enc, db, tbl, some m, none⟩)

/-- json.rs:87-116: one row of an update -/
def jsonUpdateRow (lib : JsonLib) (db tbl : Bytes) (before after : List ColDef)
    (row : List BinlogColumnValue × List BinlogColumnValue) : Option JsonRow :=
  match jsonImage lib false (before.zip row.1) ([], []) with
  | none => none
  | some (bm, enc) => (jsonImage lib true (after.zip row.2) ([], enc)).map fun (am, enc) =>
    ⟨asc "update", enc, db, tbl, some bm, some am⟩

/-- json.rs:78-118 -/
def JsonRows.fromUpdate (lib : JsonLib) (db tbl : Bytes) (r : UpdateRowsV2) (defs : List ColumnDefinition) :
    Option (List JsonRow) :=
  let before := filterColDefs r.beforeBitmap defs
  let after := filterColDefs r.afterBitmap defs
  allSome (r.rows.map (jsonUpdateRow lib db tbl before after))

end Mybin
