/-
Specification of the SQL made from row events: numerals, string and hexadecimal literals as MySQL reads them
(default `sql_mode`), the shape of the statements, and which value belongs to which column. Independent of the
code that generates them.
-/
import Verif.Spec.Wire
import Verif.Spec.Grammar

namespace Mybin.Spec

/-- an ASCII text -/
def ascii (s : String) : List UInt8 := s.toList.map fun c => UInt8.ofNat c.toNat

/-! ### numerals -/

def digit? (b : UInt8) : Option Nat := if 0x30 ≤ b ∧ b ≤ 0x39 then some (b.toNat - 0x30) else none

/-- the number that digits stand for, after the digits read so far stand for `acc` -/
def readDigits : Nat → List UInt8 → Option Nat
  | acc, [] => some acc
  | acc, b :: bs =>
    match digit? b with
    | some d => readDigits (acc * 10 + d) bs
    | none => none

/-- the number a digit string stands for -/
def readNat (t : List UInt8) : Option Nat := if t = [] then none else readDigits 0 t

/-- the number an optionally signed digit string stands for -/
def readInt (t : List UInt8) : Option Int :=
  if t.head? = some 0x2d then (readNat t.tail).map (fun n : Nat => -(n : Int))
  else (readNat t).map (fun n : Nat => (n : Int))

/-- no sign on zero, no leading zeros -/
def Plain (t : List UInt8) : Prop :=
  t = ascii "0" ∨ (t.head? ≠ some 0x30 ∧ (t.head? = some 0x2d → t.tail.head? ≠ some 0x30))

/-- `t` is the decimal numeral of `i` -/
def Numeral (t : List UInt8) (i : Int) : Prop := readInt t = some i ∧ Plain t

/-- the value of the `w`-bit pattern `n` in a column of the given signedness -/
def intValue (w : Nat) (unsigned : Bool) (n : Nat) : Int := if unsigned then n else twos w n

/-! ### literals -/

/-- the character an escape sequence `\c` stands for -/
def escaped (c : UInt8) : List UInt8 :=
  if c = 0x30 then [0] else if c = 0x62 then [8] else if c = 0x6e then [10] else if c = 0x72 then [13]
  else if c = 0x74 then [9] else if c = 0x5a then [26]
  else if c = 0x25 ∨ c = 0x5f then [0x5c, c] else [c]

/-- the inside of a string literal, up to and including the closing quote: its value and the text after it -/
def stringBody : List UInt8 → Option (List UInt8 × List UInt8)
  | [] => none
  | [b] => if b = 0x27 then some ([], []) else none
  | b :: c :: t =>
    if b = 0x27 then
      if c = 0x27 then (stringBody t).map fun r => (0x27 :: r.1, r.2) else some ([], c :: t)
    else if b = 0x5c then (stringBody t).map fun r => (escaped c ++ r.1, r.2)
    else (stringBody (c :: t)).map fun r => (b :: r.1, r.2)

/-- a string literal at the start of a text: its value and the text after it -/
def stringLiteral : List UInt8 → Option (List UInt8 × List UInt8)
  | [] => none
  | b :: t => if b = 0x27 then stringBody t else none

def hexDigit? (b : UInt8) : Option Nat :=
  if 0x30 ≤ b ∧ b ≤ 0x39 then some (b.toNat - 0x30)
  else if 0x41 ≤ b ∧ b ≤ 0x46 then some (b.toNat - 0x41 + 10)
  else if 0x61 ≤ b ∧ b ≤ 0x66 then some (b.toNat - 0x61 + 10) else none

/-- pairs of hexadecimal digits up to and including the closing quote -/
def hexBody : List UInt8 → Option (List UInt8 × List UInt8)
  | [] => none
  | [b] => if b = 0x27 then some ([], []) else none
  | b :: c :: t =>
    if b = 0x27 then some ([], c :: t)
    else match hexDigit? b, hexDigit? c with
      | some h, some l => (hexBody t).map fun r => (UInt8.ofNat (h * 16 + l) :: r.1, r.2)
      | _, _ => none

/-- a literal `x'…'` at the start of a text -/
def hexLiteral : List UInt8 → Option (List UInt8 × List UInt8)
  | b :: c :: t => if (b = 0x78 ∨ b = 0x58) ∧ c = 0x27 then hexBody t else none
  | _ => none

/-! ### statements -/

/-- texts with a separator between them -/
def joined (sep : String) : List (List UInt8) → List UInt8
  | [] => []
  | [t] => t
  | t :: ts => t ++ ascii sep ++ joined sep ts

/-- a name as an identifier -/
def tick (name : List UInt8) : List UInt8 := ascii "`" ++ name ++ ascii "`"

/-- `` `name` = value `` -/
def equation (x : List UInt8 × List UInt8) : List UInt8 := tick x.1 ++ ascii " = " ++ x.2

/-- INSERT of one row; `cols` are pairs of column name and value text -/
def insertText (db tbl : List UInt8) (cols : List (List UInt8 × List UInt8)) : List UInt8 :=
  ascii "INSERT INTO " ++ tick db ++ ascii "." ++ tick tbl ++ ascii " (" ++ joined "," (cols.map (tick ·.1))
    ++ ascii ") VALUES (" ++ joined "," (cols.map (·.2)) ++ ascii ")"

/-- DELETE of the rows in which the given columns have the given values -/
def deleteText (db tbl : List UInt8) (cond : List (List UInt8 × List UInt8)) : List UInt8 :=
  ascii "DELETE FROM " ++ tick db ++ ascii "." ++ tick tbl ++ ascii " WHERE "
    ++ joined " AND " (cond.map equation)

/-- UPDATE of the rows in which the given columns have the given values -/
def updateText (db tbl : List UInt8) (set cond : List (List UInt8 × List UInt8)) : List UInt8 :=
  ascii "UPDATE " ++ tick db ++ ascii "." ++ tick tbl ++ ascii " SET " ++ joined ", " (set.map equation)
    ++ ascii " WHERE " ++ joined " AND " (cond.map equation)

/-- A text with placeholders (`none`), the `i`-th of which is replaced by the `i`-th value. A placeholder without
a value is left out. -/
def fill : List (Option (List UInt8)) → List (List UInt8) → List UInt8
  | [], _ => []
  | some t :: ts, vs => t ++ fill ts vs
  | none :: ts, v :: vs => v ++ fill ts vs
  | none :: ts, [] => fill ts []

/-- a value as it stands in a statement -/
def quotedIf (quote : Bool) (t : List UInt8) : List UInt8 :=
  if quote then ascii "'" ++ t ++ ascii "'" else t

/-! ### columns and values -/

/-- The logged columns of a row, each with its own value: column `i` of the table belongs to the `i`-th bit of
the bitmap and to the `i`-th value of the row. -/
def logged {α β : Type} (present : List Bool) (cols : List α) (row : List β) : List (α × β) :=
  ((present.zip (cols.zip row)).filter (·.1)).map (·.2)

/-- the logged columns come first: none that is logged follows one that is not -/
def Front (present : List Bool) : Prop :=
  ∀ i j : Nat, i < j → present[j]? = some true → present[i]? = some true

end Mybin.Spec
