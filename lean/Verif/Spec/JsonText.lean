/-
Specification of JSON texts (RFC 8259) and of what a consumer finds in the text of change records. Written from the RFC,
independent of the code: white space, all escapes, surrogate pairs and all forms of numbers are read. The text of a JSON
document is bytes; that they are UTF-8 is a separate condition.
-/
import Verif.Spec.JsonRead
import Mathlib.Data.List.Forall2

namespace Mybin.Spec

/-- A JSON value. A number keeps its sign and digits: RFC 8259 does not say what a consumer makes of them. -/
inductive JValue where
  | null
  | bool (b : Bool)
  | number (neg : Bool) (whole : List UInt8) (frac : Option (List UInt8)) (exp : Option (Bool × List UInt8))
  | string (s : List UInt8)
  | array (xs : List JValue)
  | object (ms : List (List UInt8 × JValue))

/-- RFC 8259, section 2: white space -/
def jsonSpace : List UInt8 → List UInt8
  | [] => []
  | b :: t => if b = 0x20 ∨ b = 0x09 ∨ b = 0x0a ∨ b = 0x0d then jsonSpace t else b :: t

/-- a hexadecimal digit, of either case -/
def hexDigit (b : UInt8) : Option Nat :=
  if 0x30 ≤ b ∧ b ≤ 0x39 then some (b.toNat - 0x30)
  else if 0x41 ≤ b ∧ b ≤ 0x46 then some (b.toNat - 0x41 + 10)
  else if 0x61 ≤ b ∧ b ≤ 0x66 then some (b.toNat - 0x61 + 10)
  else none

/-- four hexadecimal digits -/
def hex4 (a b c d : UInt8) : Option Nat :=
  (hexDigit a).bind fun a => (hexDigit b).bind fun b => (hexDigit c).bind fun c => (hexDigit d).map fun d =>
    ((a * 16 + b) * 16 + c) * 16 + d

/-- the UTF-8 form of a code point -/
def utf8Point (n : Nat) : List UInt8 := String.utf8EncodeChar (Char.ofNat n)

/-- RFC 8259, section 7: the character after a backslash, other than `u` -/
def jsonEscape (b : UInt8) : Option UInt8 :=
  if b = 0x22 then some 0x22 else if b = 0x5c then some 0x5c else if b = 0x2f then some 0x2f
  else if b = 0x62 then some 0x08 else if b = 0x66 then some 0x0c else if b = 0x6e then some 0x0a
  else if b = 0x72 then some 0x0d else if b = 0x74 then some 0x09 else none

/-- four hexadecimal digits at the front -/
def hexFour : List UInt8 → Option (Nat × List UInt8)
  | a :: b :: c :: d :: t => (hex4 a b c d).map fun n => (n, t)
  | _ => none

/-- RFC 8259, section 7: what follows `\u`: the code point, and the rest. A surrogate must be one of a pair. -/
def jsonUnicode (s : List UInt8) : Option (Nat × List UInt8) :=
  (hexFour s).bind fun (m, t) =>
    if 0xd800 ≤ m ∧ m < 0xdc00 then
      match t with
      | 0x5c :: 0x75 :: u => (hexFour u).bind fun (n, r) =>
        if 0xdc00 ≤ n ∧ n < 0xe000 then some (0x10000 + (m - 0xd800) * 0x400 + (n - 0xdc00), r) else none
      | _ => none
    else if 0xdc00 ≤ m ∧ m < 0xe000 then none
    else some (m, t)

/-- RFC 8259, section 7: one character of a string, or one byte of one that is not escaped. Control characters must be
escaped. -/
def jsonChar : List UInt8 → Option (List UInt8 × List UInt8)
  | 0x5c :: 0x75 :: t => (jsonUnicode t).map fun (n, r) => (utf8Point n, r)
  | 0x5c :: b :: t => (jsonEscape b).map fun x => ([x], t)
  | b :: t => if b < 0x20 ∨ b = 0x5c then none else some ([b], t)
  | [] => none

/-- RFC 8259, section 7: a string after its opening quotation mark: the string, and what follows the closing one -/
def jsonString (s : List UInt8) : Option (List UInt8 × List UInt8) :=
  if s.head? = some 0x22 then some ([], s.tail)
  else match jsonChar s with
    | none => none
    | some (x, r) => if r.length < s.length then (jsonString r).map fun (y, r) => (x ++ y, r) else none
termination_by s.length

/-- the digits at the front -/
def digitsOf (s : List UInt8) : List UInt8 × List UInt8 := s.span fun b => decide (0x30 ≤ b) && decide (b ≤ 0x39)

/-- RFC 8259, section 6: the fraction -/
def jsonFraction : List UInt8 → Option (Option (List UInt8) × List UInt8)
  | 0x2e :: t => if (digitsOf t).1 = [] then none else some (some (digitsOf t).1, (digitsOf t).2)
  | s => some (none, s)

/-- the digits of an exponent -/
def jsonExpDigits (neg : Bool) (s : List UInt8) : Option (Option (Bool × List UInt8) × List UInt8) :=
  if (digitsOf s).1 = [] then none else some (some (neg, (digitsOf s).1), (digitsOf s).2)

/-- RFC 8259, section 6: the exponent -/
def jsonExponent : List UInt8 → Option (Option (Bool × List UInt8) × List UInt8)
  | b :: t =>
    if b = 0x65 ∨ b = 0x45 then
      match t with
      | 0x2b :: u => jsonExpDigits false u
      | 0x2d :: u => jsonExpDigits true u
      | u => jsonExpDigits false u
    else some (none, b :: t)
  | [] => some (none, [])

/-- RFC 8259, section 6: a number without its sign: no leading zeros -/
def jsonUnsigned (neg : Bool) (s : List UInt8) : Option (JValue × List UInt8) :=
  if (digitsOf s).1 = [] then none
  else if (digitsOf s).1.head? = some 0x30 ∧ (digitsOf s).1.length ≠ 1 then none
  else (jsonFraction (digitsOf s).2).bind fun (fr, r) => (jsonExponent r).map fun (ex, r) =>
    (.number neg (digitsOf s).1 fr ex, r)

/-- RFC 8259, section 6: numbers -/
def jsonNumber : List UInt8 → Option (JValue × List UInt8)
  | 0x2d :: t => jsonUnsigned true t
  | s => jsonUnsigned false s

/-- a literal name -/
def jsonWord (w : List UInt8) (v : JValue) (s : List UInt8) : Option (JValue × List UInt8) :=
  if s.take w.length = w then some (v, s.drop w.length) else none

mutual
/-- RFC 8259, section 3: a value (no white space in front). The number bounds the number of calls. -/
def jsonAt : Nat → List UInt8 → Option (JValue × List UInt8)
  | 0, _ => none
  | _ + 1, [] => none
  | f + 1, b :: t =>
    if b = 0x22 then (jsonString t).map fun (x, r) => (.string x, r)
    else if b = 0x5b then
      if (jsonSpace t).head? = some 0x5d then some (.array [], (jsonSpace t).tail)
      else (jsonElements f (jsonSpace t)).map fun (xs, r) => (.array xs, r)
    else if b = 0x7b then
      if (jsonSpace t).head? = some 0x7d then some (.object [], (jsonSpace t).tail)
      else (jsonMembers f (jsonSpace t)).map fun (ms, r) => (.object ms, r)
    else if b = 0x6e then jsonWord (ascii "null") .null (b :: t)
    else if b = 0x74 then jsonWord (ascii "true") (.bool true) (b :: t)
    else if b = 0x66 then jsonWord (ascii "false") (.bool false) (b :: t)
    else jsonNumber (b :: t)
/-- RFC 8259, section 5: the elements of an array that has one, up to the closing bracket -/
def jsonElements : Nat → List UInt8 → Option (List JValue × List UInt8)
  | 0, _ => none
  | f + 1, s => (jsonAt f s).bind fun (v, r) =>
    if (jsonSpace r).head? = some 0x5d then some ([v], (jsonSpace r).tail)
    else if (jsonSpace r).head? = some 0x2c then
      (jsonElements f (jsonSpace (jsonSpace r).tail)).map fun (vs, r) => (v :: vs, r)
    else none
/-- RFC 8259, section 4: the members of an object that has one, up to the closing brace -/
def jsonMembers : Nat → List UInt8 → Option (List (List UInt8 × JValue) × List UInt8)
  | 0, _ => none
  | f + 1, s =>
    if s.head? = some 0x22 then
      (jsonString s.tail).bind fun (k, r) =>
        if (jsonSpace r).head? = some 0x3a then
          (jsonAt f (jsonSpace (jsonSpace r).tail)).bind fun (v, r) =>
            if (jsonSpace r).head? = some 0x7d then some ([(k, v)], (jsonSpace r).tail)
            else if (jsonSpace r).head? = some 0x2c then
              (jsonMembers f (jsonSpace (jsonSpace r).tail)).map fun (ms, r) => ((k, v) :: ms, r)
            else none
        else none
    else none
end

/-- RFC 8259, section 2: the value of a JSON text. Twice the length bounds the number of calls, see
`jsonAt_enough`. -/
def jsonText (s : List UInt8) : Option JValue :=
  match jsonAt (2 * s.length + 2) (jsonSpace s) with
  | some (v, r) => if jsonSpace r = [] then some v else none
  | none => none

/-! ### the change records -/

/-- what a consumer makes of numbers with a fraction or an exponent: the bits of a double -/
def DoubleRead := Bool → List UInt8 → Option (List UInt8) → Option (Bool × List UInt8) → Nat

/-- a number, a string or null -/
def JValue.scalar (dr : DoubleRead) : JValue → Option Json
  | .null => some .null
  | .number neg w none none => (readNat w).map fun n : Nat => .int (if neg then -(n : Int) else n)
  | .number neg w f e => some (.float (dr neg w f e))
  | .string s => some (.str s)
  | _ => none

/-- the value under a name; none when the name is not there, or more than once -/
def JValue.member (k : List UInt8) : JValue → Option JValue
  | .object ms =>
    match ms.filter fun m => decide (m.1 = k) with
    | [m] => some m.2
    | _ => none
  | _ => none

/-- a string -/
def JValue.text : JValue → Option (List UInt8)
  | .string s => some s
  | _ => none

/-- all or nothing -/
def allOf {α β : Type} (f : α → Option β) : List α → Option (List β)
  | [] => some []
  | a :: t => (f a).bind fun b => (allOf f t).map (b :: ·)

/-- a list of strings -/
def JValue.texts : JValue → Option (List (List UInt8))
  | .array xs => allOf JValue.text xs
  | _ => none

/-- the image of a row: null, or an object with different names and scalars as values -/
def JValue.image (dr : DoubleRead) : JValue → Option (Option (List (List UInt8 × Json)))
  | .null => some none
  | .object ms =>
    if (ms.map (·.1)).Nodup then
      (allOf (fun m => (JValue.scalar dr m.2).map fun j => (m.1, j)) ms).map some
    else none
  | _ => none

/-- a change record -/
def JValue.record (dr : DoubleRead) (v : JValue) : Option JsonRow :=
  ((JValue.member (ascii "type") v).bind JValue.text).bind fun ty =>
  ((JValue.member (ascii "base64_encoded") v).bind JValue.texts).bind fun enc =>
  ((JValue.member (ascii "db") v).bind JValue.text).bind fun db =>
  ((JValue.member (ascii "tbl") v).bind JValue.text).bind fun tbl =>
  ((JValue.member (ascii "before") v).bind (JValue.image dr)).bind fun before =>
  ((JValue.member (ascii "after") v).bind (JValue.image dr)).map fun after =>
    ⟨ty, enc, db, tbl, before, after⟩

/-- the change records of a JSON text -/
def changeRecords (dr : DoubleRead) (s : List UInt8) : Option (List JsonRow) :=
  match jsonText s with
  | some (.array xs) => allOf (JValue.record dr) xs
  | _ => none

/-! ### numbers -/

/-- The value of a finite double (IEEE 754 binary64): sign, and magnitude in units of 2^-1074 -/
def binary64 (n : Nat) : Option (Bool × Nat) :=
  let e := n / 2 ^ 52 % 2 ^ 11
  let m := n % 2 ^ 52
  if e = 2 ^ 11 - 1 then none
  else some (n.testBit 63, if e = 0 then m else (2 ^ 52 + m) * 2 ^ (e - 1))

/-- The value of a finite float (IEEE 754 binary32): sign, and magnitude in units of 2^-1074. The smallest positive float
is 2^-149. -/
def binary32 (n : Nat) : Option (Bool × Nat) :=
  let e := n / 2 ^ 23 % 2 ^ 8
  let m := n % 2 ^ 23
  if e = 2 ^ 8 - 1 then none
  else some (n.testBit 31, (if e = 0 then m else (2 ^ 23 + m) * 2 ^ (e - 1)) * 2 ^ (1074 - 149))

/-- The consumer makes a float of a double that has the value of a float. -/
def NarrowsExactly (jn : JsonNumbers) : Prop :=
  ∀ n b, n < 2 ^ 32 → b < 2 ^ 64 → (binary32 n).isSome → binary64 b = binary32 n → jn.narrow b = n

/-- The writer writes finite doubles as numbers with a fraction or an exponent, and the consumer reads them as the same
doubles. -/
def DoublesReadBack (write : Nat → List UInt8) (dr : DoubleRead) : Prop :=
  ∀ bits, bits < 2 ^ 64 → (binary64 bits).isSome → ∃ neg w f e, (f ≠ none ∨ e ≠ none) ∧ dr neg w f e = bits ∧
    ∀ rest, rest.head? ∈ [none, some 0x2c, some 0x7d, some 0x5d] →
      jsonNumber (write bits ++ rest) = some (.number neg w f e, rest)

/-! ### what the text of change records is to be -/

/-- the same record; the order of the members of an object does not matter -/
structure SameRecord (r s : JsonRow) : Prop where
  ty : s.ty = r.ty
  enc : s.base64Encoded = r.base64Encoded
  db : s.db = r.db
  tbl : s.tbl = r.tbl
  before : Option.Rel List.Perm r.before s.before
  after : Option.Rel List.Perm r.after s.after

/-- The text of change records: one line, and a consumer reads in it these records, in this order. -/
def TextOfRecords (dr : DoubleRead) (recs : List JsonRow) (t : List UInt8) : Prop :=
  (∃ chars : List Char, t = chars.flatMap String.utf8EncodeChar) ∧ (∀ b ∈ t, 0x20 ≤ b) ∧
    ∃ read, changeRecords dr t = some read ∧ List.Forall₂ SameRecord recs read

end Mybin.Spec
