/-
Specification of what a consumer of the JSON change records reads in them. The consumer knows the columns of the tables.
Numbers are values, dates and times are text as in SQL, DECIMALs are text with a numeral, values of the columns listed in
`base64_encoded` are base64 (RFC 4648, with padding). Independent of the code that makes the records; `Json` and
`JsonRow` are the data types of the records.
-/
import Verif.Spec.Replay
import Verif.Model.Json

namespace Mybin.Spec

/-! ### base64 -/

/-- the alphabet -/
def base64Alphabet : List UInt8 := ascii "ABCDEFGHIJKLMNOPQRSTUVWXYZabcdefghijklmnopqrstuvwxyz0123456789+/"

/-- the character of six bits -/
def base64Char (n : Nat) : UInt8 := base64Alphabet.getD (n % 64) 0

/-- three bytes are four characters; one or two bytes at the end are padded -/
def base64 : List UInt8 → List UInt8
  | [] => []
  | [a] => [base64Char (a.toNat / 4), base64Char (a.toNat % 4 * 16), 0x3d, 0x3d]
  | [a, b] =>
    [base64Char (a.toNat / 4), base64Char (a.toNat % 4 * 16 + b.toNat / 16), base64Char (b.toNat % 16 * 4), 0x3d]
  | a :: b :: c :: t =>
    base64Char (a.toNat / 4) :: base64Char (a.toNat % 4 * 16 + b.toNat / 16)
      :: base64Char (b.toNat % 16 * 4 + c.toNat / 64) :: base64Char (c.toNat % 64) :: base64 t

/-- the six bits of a character -/
def base64Index (c : UInt8) : Option Nat := base64Alphabet.findIdx? (· = c)

/-- the bytes of a base64 text -/
def unbase64 : List UInt8 → Option (List UInt8)
  | [] => some []
  | a :: b :: c :: d :: t =>
    (base64Index a).bind fun i => (base64Index b).bind fun j =>
      if c = 0x3d then
        if d = 0x3d ∧ t = [] ∧ j % 16 = 0 then some [UInt8.ofNat (i * 4 + j / 16)] else none
      else (base64Index c).bind fun k =>
        if d = 0x3d then
          if t = [] ∧ k % 4 = 0 then some [UInt8.ofNat (i * 4 + j / 16), UInt8.ofNat (j % 16 * 16 + k / 4)] else none
        else (base64Index d).bind fun l => (unbase64 t).map fun r =>
          UInt8.ofNat (i * 4 + j / 16) :: UInt8.ofNat (j % 16 * 16 + k / 4) :: UInt8.ofNat (k % 4 * 64 + l) :: r
  | _ => none

/-! ### values -/

/-- what a consumer does with numbers: rounding of integers to floats, and of a double to a float (bit patterns) -/
structure JsonNumbers where
  round : FloatRead
  narrow : Nat → Nat

/-- the value of a column, from the JSON value under its name; `enc`: the column is listed as base64 -/
def jsonValue (jn : JsonNumbers) (c : Column) (enc : Bool) : Json → Option (Option Val)
  | .null => some none
  | .int i => (assign jn.round c.unsigned c.kind (.number i 0)).map some
  | .float bits =>
    match c.kind with
    | .double => some (some (.num bits))
    | .float => some (some (.num (jn.narrow bits)))
    | _ => none
  | .str s =>
    if enc then (unbase64 s).bind fun b => (assign jn.round c.unsigned c.kind (.bytes b)).map some
    else match c.kind with
      | .decimal _ _ => (literal s).bind fun l =>
        if l.2 = [] then (assign jn.round c.unsigned c.kind l.1).map some else none
      | _ => (assign jn.round c.unsigned c.kind (.text s)).map some

/-- a row from the fields of a record; `none` when a column is missing or its value is not readable -/
def jsonRow (jn : JsonNumbers) (enc : List (List UInt8)) (fields : List (List UInt8 × Json)) : List Column → Option Row
  | [] => some []
  | c :: cs => (fields.find? fun f => decide (f.1 = c.name)).bind fun f =>
    (jsonValue jn c (decide (c.name ∈ enc)) f.2).bind fun v => (jsonRow jn enc fields cs).map (v :: ·)

/-- the change a record tells -/
def jsonChange (jn : JsonNumbers) (schema : Schema) (r : JsonRow) : Option (TableId × Change) :=
  (schema (r.db, r.tbl)).bind fun cols =>
    if r.ty = ascii "insert" then
      match r.before, r.after with
      | none, some fs => (jsonRow jn r.base64Encoded fs cols).map fun x => ((r.db, r.tbl), .insert x)
      | _, _ => none
    else if r.ty = ascii "delete" then
      match r.before, r.after with
      | some fs, none => (jsonRow jn r.base64Encoded fs cols).map fun x => ((r.db, r.tbl), .delete x)
      | _, _ => none
    else if r.ty = ascii "update" then
      match r.before, r.after with
      | some fs, some gs => (jsonRow jn r.base64Encoded fs cols).bind fun x =>
        (jsonRow jn r.base64Encoded gs cols).map fun y => ((r.db, r.tbl), .update x y)
      | _, _ => none
    else none

end Mybin.Spec
