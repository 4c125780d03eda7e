/-
Model of the text of the JSON records: `mybin-core/src/binlog/transform/json.rs` (`#[derive(Serialize)]` on `JsonRows` and
`JsonRow`) written by `serde_json::to_string`, and of the two library functions that `to_json_value` calls: `f32 as f64` and
`base64::encode`. The fields of the records are private to the crate, so the text is what an application gets.

The text of a double (`ryu`) is a parameter here: Model/Floats.lean models it. Library code is modelled from its documentation: `serde_json`
1.0 without the features `preserve_order` and `arbitrary_precision` (mybin-core/Cargo.toml:22), `base64` 0.13 with its
standard configuration (Cargo.toml:23).
-/
import Verif.Model.Json

namespace Mybin

/-! ### `f32 as f64` -/

/-- json.rs:144 (`v as f64`), bit patterns. A subnormal float is a normal double; the payload of a NaN keeps its high bits
and is made quiet. -/
def f32ToF64 (n : Nat) : Nat :=
  let sign := n / 2 ^ 31
  let e := n / 2 ^ 23 % 2 ^ 8
  let m := n % 2 ^ 23
  if e = 2 ^ 8 - 1 then
    sign * 2 ^ 63 + (2 ^ 11 - 1) * 2 ^ 52 + (if m = 0 then 0 else (m ||| 2 ^ 22) * 2 ^ 29)
  else if e = 0 then
    if m = 0 then sign * 2 ^ 63
    else sign * 2 ^ 63 + (Nat.log2 m + 874) * 2 ^ 52 + (m - 2 ^ Nat.log2 m) * 2 ^ (52 - Nat.log2 m)
  else sign * 2 ^ 63 + (e + 896) * 2 ^ 52 + m * 2 ^ 29

/-! ### `base64::encode` -/

/-- the character of six bits: `A-Z`, `a-z`, `0-9`, `+`, `/` -/
def base64Digit (n : Nat) : UInt8 :=
  if n < 26 then UInt8.ofNat (0x41 + n)
  else if n < 52 then UInt8.ofNat (0x61 + (n - 26))
  else if n < 62 then UInt8.ofNat (0x30 + (n - 52))
  else if n = 62 then 0x2b
  else 0x2f

/-- json.rs:218: `base64::encode`: groups of 24 bits; the last group is filled with zeros and `=` -/
def base64Encode : Bytes → Bytes
  | [] => []
  | [a] =>
    let n := a.toNat * 2 ^ 16
    [base64Digit (n / 2 ^ 18), base64Digit (n / 2 ^ 12 % 64), 0x3d, 0x3d]
  | [a, b] =>
    let n := a.toNat * 2 ^ 16 + b.toNat * 2 ^ 8
    [base64Digit (n / 2 ^ 18), base64Digit (n / 2 ^ 12 % 64), base64Digit (n / 2 ^ 6 % 64), 0x3d]
  | a :: b :: c :: t =>
    let n := a.toNat * 2 ^ 16 + b.toNat * 2 ^ 8 + c.toNat
    base64Digit (n / 2 ^ 18) :: base64Digit (n / 2 ^ 12 % 64) :: base64Digit (n / 2 ^ 6 % 64) :: base64Digit (n % 64)
      :: base64Encode t

/-- the library functions, modelled -/
def jsonLib : JsonLib := ⟨f32ToF64, base64Encode⟩

/-! ### `serde_json::to_string` -/

/-- a lower-case hexadecimal digit -/
def hexLower (n : Nat) : UInt8 := if n < 10 then UInt8.ofNat (0x30 + n) else UInt8.ofNat (0x61 + (n - 10))

/-- `serde_json`: `ESCAPE`, `CharEscape` and `write_char_escape` -/
def serdeEscape (b : UInt8) : Bytes :=
  if b = 0x22 then asc "\\\""
  else if b = 0x5c then asc "\\\\"
  else if b = 0x08 then asc "\\b"
  else if b = 0x09 then asc "\\t"
  else if b = 0x0a then asc "\\n"
  else if b = 0x0c then asc "\\f"
  else if b = 0x0d then asc "\\r"
  else if b < 0x20 then asc "\\u00" ++ [hexLower (b.toNat / 16), hexLower (b.toNat % 16)]
  else [b]

/-- `serialize_str` -/
def serdeString (s : Bytes) : Bytes := asc "\"" ++ s.flatMap serdeEscape ++ asc "\""

/-- `Serialize for Value`, scalars; `fl`: the text of a double -/
def serdeValue (fl : Nat → Bytes) : Json → Bytes
  | .null => asc "null"
  | .int i => intText i
  | .float bits => fl bits
  | .str s => serdeString s

/-- elements with commas between them -/
def commas : List Bytes → Bytes
  | [] => []
  | [x] => x
  | x :: y :: t => x ++ asc "," ++ commas (y :: t)

/-- the order of `String`: that of the bytes -/
def bytesLe : Bytes → Bytes → Bool
  | [], _ => true
  | _ :: _, [] => false
  | a :: s, b :: t => if a = b then bytesLe s t else decide (a < b)

/-- a member in its place -/
def insertField (x : Bytes × Json) : List (Bytes × Json) → List (Bytes × Json)
  | [] => [x]
  | y :: t => if bytesLe x.1 y.1 then x :: y :: t else y :: insertField x t

/-- `serde_json::Map` is a `BTreeMap`: the names in their order -/
def sortedFields (m : List (Bytes × Json)) : List (Bytes × Json) := m.foldr insertField []

/-- `Serialize for Map<String, Value>` -/
def serdeMap (fl : Nat → Bytes) (m : List (Bytes × Json)) : Bytes :=
  asc "{" ++ commas ((sortedFields m).map fun x => serdeString x.1 ++ asc ":" ++ serdeValue fl x.2) ++ asc "}"

/-- `Option<Value>`: json.rs:233-234 -/
def serdeImage (fl : Nat → Bytes) : Option (List (Bytes × Json)) → Bytes
  | none => asc "null"
  | some m => serdeMap fl m

/-- json.rs:224-235: the fields in the order of their declaration; `ty` is renamed `type` -/
def JsonRow.serialize (fl : Nat → Bytes) (r : JsonRow) : Bytes :=
  asc "{" ++ commas [
    serdeString (asc "type") ++ asc ":" ++ serdeString r.ty,
    serdeString (asc "base64_encoded") ++ asc ":" ++ (asc "[" ++ commas (r.base64Encoded.map serdeString) ++ asc "]"),
    serdeString (asc "db") ++ asc ":" ++ serdeString r.db,
    serdeString (asc "tbl") ++ asc ":" ++ serdeString r.tbl,
    serdeString (asc "before") ++ asc ":" ++ serdeImage fl r.before,
    serdeString (asc "after") ++ asc ":" ++ serdeImage fl r.after] ++ asc "}"

/-- json.rs:10-11: a newtype is written as what it wraps -/
def JsonRows.serialize (fl : Nat → Bytes) (rs : List JsonRow) : Bytes :=
  asc "[" ++ commas (rs.map (JsonRow.serialize fl)) ++ asc "]"

end Mybin
