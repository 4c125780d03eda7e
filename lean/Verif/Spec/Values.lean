/-
Specification of column values as text, from the MySQL reference manual: integers and times.
-/
import Verif.Spec.Sql

namespace Mybin.Spec

/-- the number that digits with an optional sign, `+` or `-`, stand for -/
def readSigned (t : List UInt8) : Option Int :=
  if t.head? = some 0x2b then (readNat t.tail).map (fun n : Nat => (n : Int)) else readInt t

/-- the number that digits with an optional `+` stand for -/
def readUnsigned (t : List UInt8) : Option Nat :=
  if t.head? = some 0x2b then readNat t.tail else readNat t

/-- the last `k` decimal digits of `n` -/
def padded : Nat → Nat → List UInt8
  | 0, _ => []
  | k + 1, n => padded k (n / 10) ++ [UInt8.ofNat (0x30 + n % 10)]

/-- a value of a TIME column with `fsp` digits after the point -/
structure Time where
  negative : Bool
  hours : Nat
  minute : Nat
  second : Nat
  micro : Nat

/-- `-838:59:59` to `838:59:59`, with a fraction that `fsp` digits can hold -/
def Time.Ok (t : Time) (fsp : Nat) : Prop :=
  t.hours ≤ 838 ∧ t.minute < 60 ∧ t.second < 60 ∧ t.micro < 1000000 ∧ fsp ≤ 6 ∧ t.micro % 10 ^ (6 - fsp) = 0

/-- the text of a TIME value: hours with two or more digits, minutes, seconds, `fsp` digits of the fraction -/
def Time.text (t : Time) (fsp : Nat) : List UInt8 :=
  (if t.negative then ascii "-" else []) ++ padded (if t.hours < 100 then 2 else 3) t.hours ++ ascii ":"
    ++ padded 2 t.minute ++ ascii ":" ++ padded 2 t.second
    ++ (if fsp = 0 then [] else ascii "." ++ padded fsp (t.micro / 10 ^ (6 - fsp)))

end Mybin.Spec
