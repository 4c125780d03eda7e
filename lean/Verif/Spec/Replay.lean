/-
Specification of what a server does with the statements made from row events: how it reads the text of a statement
(default `sql_mode`), what a literal becomes in a column of a given kind, and how a statement changes the rows of a
table. Written from the MySQL reference manual; independent of the code that makes the statements.

Simplifications: the time zone of the session is UTC; the key columns compare like their stored values (binary
collations); rounding of numbers to FLOAT and DOUBLE is a parameter; a statement that leaves a column to its default is
not given a meaning.
-/
import Verif.Spec.Sql
import Verif.Spec.Rows

namespace Mybin.Spec

deriving instance DecidableEq for Val

/-! ### literals -/

/-- what a literal stands for: NULL, a number (`units` times ten to the power `-scale`), a character string, a byte
string -/
inductive Lit where
  | null
  | number (units : Int) (scale : Nat)
  | text (s : List UInt8)
  | bytes (b : List UInt8)
  deriving DecidableEq

/-- the text after a given beginning -/
def strip : List UInt8 → List UInt8 → Option (List UInt8)
  | [], t => some t
  | _ :: _, [] => none
  | a :: as, b :: t => if a = b then strip as t else none

/-- the digits a text begins with -/
def digits (t : List UInt8) : List UInt8 := t.takeWhile fun b => decide (0x30 ≤ b ∧ b ≤ 0x39)

/-- a number without sign: its units and scale, and the text after it -/
def unsignedNumber (t : List UInt8) : Option (Nat × Nat × List UInt8) :=
  let i := digits t
  let r := t.drop i.length
  if r.head? = some 0x2e then
    let f := digits r.tail
    (readNat (i ++ f)).map fun n => (n, f.length, r.tail.drop f.length)
  else (readNat i).map fun n => (n, 0, r)

/-- a literal at the start of a text, and the text after it -/
def literal (t : List UInt8) : Option (Lit × List UInt8) :=
  if t.head? = some 0x27 then (stringLiteral t).map fun r => (.text r.1, r.2)
  else if (strip (ascii "x'") t).isSome then (hexLiteral t).map fun r => (.bytes r.1, r.2)
  else if (strip (ascii "null") t).isSome then (strip (ascii "null") t).map fun r => (.null, r)
  else if t.head? = some 0x2d then (unsignedNumber t.tail).map fun r => (.number (-(r.1 : Int)) r.2.1, r.2.2)
  else (unsignedNumber t).map fun r => (.number r.1 r.2.1, r.2.2)

/-- the end of the text, or one of the characters that stand after a value in a statement -/
def Ends (t : List UInt8) : Prop := t = [] ∨ ∃ b r, t = b :: r ∧ (b = 0x2c ∨ b = 0x29 ∨ b = 0x20)

/-! ### statements -/

/-- the inside of a quoted identifier, up to and including the closing backtick -/
def identBody : List UInt8 → Option (List UInt8 × List UInt8)
  | [] => none
  | [b] => if b = 0x60 then some ([], []) else none
  | b :: c :: t =>
    if b = 0x60 then
      if c = 0x60 then (identBody t).map fun r => (0x60 :: r.1, r.2) else some ([], c :: t)
    else (identBody (c :: t)).map fun r => (b :: r.1, r.2)

/-- a quoted identifier at the start of a text -/
def ident : List UInt8 → Option (List UInt8 × List UInt8)
  | [] => none
  | b :: t => if b = 0x60 then identBody t else none

/-- `` `name` = literal `` -/
def equality (t : List UInt8) : Option ((List UInt8 × Lit) × List UInt8) :=
  (ident t).bind fun n => (strip (ascii " = ") n.2).bind fun r => (literal r).map fun l => ((n.1, l.1), l.2)

/-- one or more items with a separator between them; at most as many as the first argument says -/
def sepBy {α : Type} (item : List UInt8 → Option (α × List UInt8)) (sep : String) : Nat → List UInt8 →
    Option (List α × List UInt8)
  | 0, _ => none
  | n + 1, t =>
    (item t).bind fun a =>
      match strip (ascii sep) a.2 with
      | some r => (sepBy item sep n r).map fun l => (a.1 :: l.1, l.2)
      | none => some ([a.1], a.2)

inductive Stmt where
  | insert (db tbl : List UInt8) (cols : List (List UInt8)) (vals : List Lit)
  | delete (db tbl : List UInt8) (cond : List (List UInt8 × Lit))
  | update (db tbl : List UInt8) (set cond : List (List UInt8 × Lit))
  deriving DecidableEq

/-- `` `db`.`table` `` -/
def tableName (t : List UInt8) : Option ((List UInt8 × List UInt8) × List UInt8) :=
  (ident t).bind fun d => (strip (ascii ".") d.2).bind fun r => (ident r).map fun n => ((d.1, n.1), n.2)

def parseInsert (t : List UInt8) : Option Stmt :=
  (strip (ascii "INSERT INTO ") t).bind fun t => (tableName t).bind fun n =>
    (strip (ascii " (") n.2).bind fun t => (sepBy ident "," t.length t).bind fun cs =>
      (strip (ascii ") VALUES (") cs.2).bind fun t => (sepBy literal "," t.length t).bind fun vs =>
        if vs.2 = ascii ")" ∧ vs.1.length = cs.1.length then some (.insert n.1.1 n.1.2 cs.1 vs.1) else none

def parseDelete (t : List UInt8) : Option Stmt :=
  (strip (ascii "DELETE FROM ") t).bind fun t => (tableName t).bind fun n =>
    (strip (ascii " WHERE ") n.2).bind fun t => (sepBy equality " AND " t.length t).bind fun es =>
      if es.2 = [] then some (.delete n.1.1 n.1.2 es.1) else none

def parseUpdate (t : List UInt8) : Option Stmt :=
  (strip (ascii "UPDATE ") t).bind fun t => (tableName t).bind fun n =>
    (strip (ascii " SET ") n.2).bind fun t => (sepBy equality ", " t.length t).bind fun ss =>
      (strip (ascii " WHERE ") ss.2).bind fun t => (sepBy equality " AND " t.length t).bind fun es =>
        if es.2 = [] then some (.update n.1.1 n.1.2 ss.1 es.1) else none

/-- the statement a text is; `none` for a syntax error -/
def parse (t : List UInt8) : Option Stmt :=
  ((parseInsert t).or (parseDelete t)).or (parseUpdate t)

/-! ### dates and times in text -/

/-- a number of exactly `k` digits -/
def fieldOf (k : Nat) (t : List UInt8) : Option (Nat × List UInt8) :=
  if (digits t).length = k then (readNat (digits t)).map fun n => (n, t.drop k) else none

/-- `YYYY-MM-DD` -/
def readYmd (t : List UInt8) : Option ((Nat × Nat × Nat) × List UInt8) :=
  (fieldOf 4 t).bind fun y => (strip (ascii "-") y.2).bind fun t => (fieldOf 2 t).bind fun m =>
    (strip (ascii "-") m.2).bind fun t => (fieldOf 2 t).map fun d => ((y.1, m.1, d.1), d.2)

/-- nothing, or a point and one to six digits: microseconds -/
def readFraction (t : List UInt8) : Option Nat :=
  if t = [] then some 0
  else (strip (ascii ".") t).bind fun f =>
    if digits f = f ∧ f.length ≤ 6 then (readNat f).map fun n => n * 10 ^ (6 - f.length) else none

/-- `:MM:SS` with an optional fraction -/
def readMinutes (t : List UInt8) : Option (Nat × Nat × Nat) :=
  (strip (ascii ":") t).bind fun t => (fieldOf 2 t).bind fun m => (strip (ascii ":") m.2).bind fun t =>
    (fieldOf 2 t).bind fun s => (readFraction s.2).map fun us => (m.1, s.1, us)

/-- `YYYY-MM-DD HH:MM:SS` with an optional fraction -/
def readDateTime (t : List UInt8) : Option ((Nat × Nat × Nat) × Nat × Nat × Nat × Nat) :=
  (readYmd t).bind fun d => (strip (ascii " ") d.2).bind fun t => (fieldOf 2 t).bind fun h =>
    (readMinutes h.2).map fun r => (d.1, h.1, r.1, r.2.1, r.2.2)

/-- `HH:MM:SS` or `HHH:MM:SS` with an optional sign and an optional fraction -/
def readTime (t : List UInt8) : Option (Bool × Nat × Nat × Nat × Nat) :=
  let neg := decide (t.head? = some 0x2d)
  let t := if neg then t.tail else t
  ((fieldOf 2 t).or (fieldOf 3 t)).bind fun h => (readMinutes h.2).map fun r => (neg, h.1, r.1, r.2.1, r.2.2)

def leapYear (y : Nat) : Bool := decide (y % 4 = 0 ∧ (y % 100 ≠ 0 ∨ y % 400 = 0))

/-- the number of days of a year -/
def yearDays (y : Nat) : Nat := if leapYear y then 366 else 365

/-- the number of days of a month -/
def monthDays (y m : Nat) : Nat :=
  if m = 2 then (if leapYear y then 29 else 28) else if m ∈ [4, 6, 9, 11] then 30 else 31

/-- days from 0000-01-01 to the date -/
def dayNumber (y m d : Nat) : Nat :=
  ((List.range y).map yearDays).sum + ((List.range (m - 1)).map fun i => monthDays y (i + 1)).sum + (d - 1)

/-- there is such a date -/
def dateOk (y m d : Nat) : Bool := decide (1 ≤ m ∧ m ≤ 12 ∧ 1 ≤ d ∧ d ≤ monthDays y m)

/-- seconds since 1970-01-01 00:00:00 -/
def epochSeconds (y m d h mi s : Nat) : Nat := (dayNumber y m d - dayNumber 1970 1 1) * 86400 + h * 3600 + mi * 60 + s

/-! ### assignment -/

/-- rounding of an exact number to the bit pattern of a FLOAT and a DOUBLE -/
structure FloatRead where
  f32 : Int → Nat → Nat
  f64 : Int → Nat → Nat

/-- an integer in a column of `w` bits -/
def storeInt (w : Nat) (unsigned : Bool) (i : Int) : Option Val :=
  if (if unsigned then 0 ≤ i ∧ i < 2 ^ w else -2 ^ (w - 1) ≤ i ∧ i < 2 ^ (w - 1)) then some (.num (pattern w i)) else none

/-- What a literal becomes in a column; `none` when it is refused or changed. -/
def assign (fl : FloatRead) (unsigned : Bool) : ColKind → Lit → Option Val
  | .tiny, .number i 0 => storeInt 8 unsigned i
  | .short, .number i 0 => storeInt 16 unsigned i
  | .int24, .number i 0 => storeInt 24 unsigned i
  | .long, .number i 0 => storeInt 32 unsigned i
  | .longLong, .number i 0 => storeInt 64 unsigned i
  | .float, .number i s => some (.num (fl.f32 i s))
  | .double, .number i s => some (.num (fl.f64 i s))
  | .year, .number i 0 => if i = 0 ∨ (1901 ≤ i ∧ i ≤ 2155) then some (.year i.toNat) else none
  | .date, .text t =>
    (readYmd t).bind fun r => if r.2 = [] ∧ dateOk r.1.1 r.1.2.1 r.1.2.2 then some (.date r.1.1 r.1.2.1 r.1.2.2) else none
  | .timestamp2 f, .text t => (readDateTime t).bind fun r =>
    if dateOk r.1.1 r.1.2.1 r.1.2.2 ∧ r.2.1 < 24 ∧ r.2.2.1 < 60 ∧ r.2.2.2.1 < 60 ∧ 1970 ≤ r.1.1 ∧
        r.2.2.2.2 % 10 ^ (6 - f) = 0 then
      some (.timestamp (epochSeconds r.1.1 r.1.2.1 r.1.2.2 r.2.1 r.2.2.1 r.2.2.2.1) r.2.2.2.2) else none
  | .datetime2 f, .text t => (readDateTime t).bind fun r =>
    if dateOk r.1.1 r.1.2.1 r.1.2.2 ∧ r.2.1 < 24 ∧ r.2.2.1 < 60 ∧ r.2.2.2.1 < 60 ∧ r.2.2.2.2 % 10 ^ (6 - f) = 0 then
      some (.datetime r.1.1 r.1.2.1 r.1.2.2 r.2.1 r.2.2.1 r.2.2.2.1 r.2.2.2.2) else none
  | .time2 f, .text t => (readTime t).bind fun r =>
    if r.2.1 ≤ 838 ∧ r.2.2.1 < 60 ∧ r.2.2.2.1 < 60 ∧ r.2.2.2.2 % 10 ^ (6 - f) = 0 then
      some (.time r.1 r.2.1 r.2.2.1 r.2.2.2.1 r.2.2.2.2) else none
  | .bit n, .number i 0 => if 0 ≤ i ∧ i < 2 ^ n then some (.bytes (be ((n + 7) / 8) i.toNat)) else none
  | .decimal p s, .number i sc =>
    if sc ≤ s ∧ i.natAbs * 10 ^ (s - sc) < 10 ^ p then some (.decimal (decide (i < 0)) (i.natAbs * 10 ^ (s - sc))) else none
  | .enum p, .number i 0 => if 0 ≤ i ∧ i < 256 ^ p then some (.num i.toNat) else none
  | .blob p, .bytes b => if b.length < 256 ^ p then some (.bytes b) else none
  | .varchar m, .text s => if s.length ≤ m then some (.bytes s) else none
  | .char m, .text s => if s.length ≤ m then some (.bytes s) else none
  | _, _ => none

/-! ### rows -/

structure Column where
  name : List UInt8
  kind : ColKind
  unsigned : Bool
  key : Bool

/-- a row: for each column of the table NULL (`none`) or a value -/
abbrev Row := List (Option Val)

/-- what a column gets: NULL stays NULL -/
def Column.take (fl : FloatRead) (c : Column) : Lit → Option (Option Val)
  | .null => some none
  | l => (assign fl c.unsigned c.kind l).map some

/-- `column = literal` in a row: never for NULL on either side -/
def Column.equals (fl : FloatRead) (c : Column) (x : Option Val) (l : Lit) : Bool :=
  match x with
  | none => false
  | some v => decide (c.take fl l = some (some v))

/-- all equations hold in the row -/
def satisfies (fl : FloatRead) (cols : List Column) (cond : List (List UInt8 × Lit)) (row : Row) : Bool :=
  cond.all fun e => (cols.zip row).any fun x => decide (x.1.name = e.1) && x.1.equals fl x.2 e.2

/-- the value a column gets in a list of assignments -/
def valueFor (fl : FloatRead) (xs : List (List UInt8 × Lit)) (c : Column) : Option (Option Val) :=
  (xs.find? fun x => decide (x.1 = c.name)).bind fun x => c.take fl x.2

/-- the new value of each column: the assigned one, or the old one of a column that is not assigned -/
def updated (fl : FloatRead) (xs : List (List UInt8 × Lit)) : List Column → Row → Option Row
  | c :: cs, v :: vs =>
    (if xs.any fun x => decide (x.1 = c.name) then valueFor fl xs c else some v).bind fun w =>
      (updated fl xs cs vs).map (w :: ·)
  | _, _ => some []

/-- the row made of assignments to all columns -/
def inserted (fl : FloatRead) (xs : List (List UInt8 × Lit)) : List Column → Option Row
  | [] => some []
  | c :: cs => (valueFor fl xs c).bind fun w => (inserted fl xs cs).map (w :: ·)

/-- all names are names of columns -/
def known (cols : List Column) (names : List (List UInt8)) : Bool := names.all fun n => cols.any fun c => decide (c.name = n)

structure Target where
  db : List UInt8
  tbl : List UInt8
  cols : List Column

/-- the rows of the table after a statement; `none` when the statement is refused or not about the table -/
def Target.exec (t : Target) (fl : FloatRead) (rows : List Row) : Stmt → Option (List Row)
  | .insert db tbl names vals =>
    if db = t.db ∧ tbl = t.tbl ∧ known t.cols names then (inserted fl (names.zip vals) t.cols).map fun r => rows ++ [r] else none
  | .delete db tbl cond =>
    if db = t.db ∧ tbl = t.tbl ∧ known t.cols (cond.map (·.1)) then some (rows.filter fun r => ! satisfies fl t.cols cond r) else none
  | .update db tbl set cond =>
    if db = t.db ∧ tbl = t.tbl ∧ known t.cols (cond.map (·.1)) ∧ known t.cols (set.map (·.1)) then
      rows.mapM fun r => if satisfies fl t.cols cond r then updated fl set t.cols r else some r
    else none

/-! ### what a row event says -/

inductive Change where
  | insert (row : Row)
  | delete (row : Row)
  | update (before after : Row)

/-- the rows after the change -/
def Change.apply (rows : List Row) : Change → List Row
  | .insert r => rows ++ [r]
  | .delete b => rows.filter fun r => decide (r ≠ b)
  | .update b a => rows.map fun r => if r = b then a else r

/-- the values of the key columns of a row -/
def keyOf (cols : List Column) (r : Row) : Row := ((cols.zip r).filter (·.1.key)).map (·.2)

/-- The changed row is known by its key: no NULL in the key, and no other row with the same key. -/
def Change.Keyed (cols : List Column) (rows : List Row) : Change → Prop
  | .insert _ => True
  | .delete b | .update b _ => none ∉ keyOf cols b ∧ ∀ r ∈ rows, keyOf cols r = keyOf cols b → r = b

/-! ### several tables -/

abbrev TableId := List UInt8 × List UInt8

def Stmt.table : Stmt → TableId
  | .insert db tbl _ _ | .delete db tbl _ | .update db tbl _ _ => (db, tbl)

/-- the tables of a server; `none` for names that are not a table -/
abbrev Schema := TableId → Option (List Column)

/-- the rows of the tables -/
abbrev Contents := TableId → List Row

def Contents.set (rows : Contents) (t : TableId) (r : List Row) : Contents := fun u => if u = t then r else rows u

/-- the rows after a statement -/
def Schema.exec (schema : Schema) (fl : FloatRead) (rows : Contents) (st : Stmt) : Option Contents :=
  (schema st.table).bind fun cols =>
    (Target.exec ⟨st.table.1, st.table.2, cols⟩ fl (rows st.table) st).map (rows.set st.table)

/-- the rows after running texts one after the other -/
def Schema.run (schema : Schema) (fl : FloatRead) : Contents → List (List UInt8) → Option Contents
  | rows, [] => some rows
  | rows, s :: ss => (parse s).bind fun st => (schema.exec fl rows st).bind fun rows' => schema.run fl rows' ss

/-- the rows after a change of a table -/
def Contents.apply (rows : Contents) (ch : TableId × Change) : Contents := rows.set ch.1 (ch.2.apply (rows ch.1))

/-- every row changed is known by its key at that time -/
def Schema.Keyed (schema : Schema) : Contents → List (TableId × Change) → Prop
  | _, [] => True
  | rows, ch :: chs => (∃ cols, schema ch.1 = some cols ∧ ch.2.Keyed cols (rows ch.1)) ∧
      schema.Keyed (rows.apply ch) chs

/-- every row has a value or NULL for each column -/
def Schema.RowsOk (schema : Schema) (rows : Contents) : Prop :=
  ∀ t cols, schema t = some cols → ∀ r ∈ rows t, r.length = cols.length

end Mybin.Spec
