/-
Specification of dates, datetimes and decimals as text, from the MySQL reference manual.
-/
import Verif.Spec.Values
import Verif.Spec.Replay

namespace Mybin.Spec

/-- a value of a DATE column, of which MySQL also has some that are not in the calendar, such as `0000-00-00` -/
structure Date where
  year : Nat
  month : Nat
  day : Nat

/-- the calendar has the date -/
def Date.Exists (d : Date) : Prop := 1 ≤ d.month ∧ d.month ≤ 12 ∧ 1 ≤ d.day ∧ d.day ≤ monthDays d.year d.month

/-- the dates MySQL can send: four digits for the year, two for month and day -/
def Date.Sendable (d : Date) : Prop := d.year < 10000 ∧ d.month < 100 ∧ d.day < 100

/-- `YYYY-MM-DD` -/
def Date.text (d : Date) : List UInt8 := padded 4 d.year ++ ascii "-" ++ padded 2 d.month ++ ascii "-" ++ padded 2 d.day

/-- a value of a DATETIME or TIMESTAMP column -/
structure DateTime where
  date : Date
  hour : Nat
  minute : Nat
  second : Nat
  micro : Nat

/-- a time of the day, with a fraction that `fsp` digits can hold -/
def DateTime.TimeOk (t : DateTime) (fsp : Nat) : Prop :=
  t.hour < 24 ∧ t.minute < 60 ∧ t.second < 60 ∧ t.micro < 1000000 ∧ fsp ≤ 6 ∧ t.micro % 10 ^ (6 - fsp) = 0

/-- `YYYY-MM-DD hh:mm:ss` and `fsp` digits of the fraction -/
def DateTime.text (t : DateTime) (fsp : Nat) : List UInt8 :=
  t.date.text ++ ascii " " ++ padded 2 t.hour ++ ascii ":" ++ padded 2 t.minute ++ ascii ":" ++ padded 2 t.second
    ++ (if fsp = 0 then [] else ascii "." ++ padded fsp (t.micro / 10 ^ (6 - fsp)))

/-- the text of a DECIMAL: an optional minus, digits, and, for a column with a scale, a point and more digits -/
structure DecText where
  negative : Bool
  int : List UInt8
  frac : List UInt8

/-- the text of a DECIMAL -/
def DecText.text (d : DecText) : List UInt8 :=
  (if d.negative then ascii "-" else []) ++ d.int ++ (if d.frac = [] then [] else ascii "." ++ d.frac)

/-- the digits are `n`: the number is `n / 10 ^ frac.length`, or its negative -/
def DecText.Digits (d : DecText) (n : Nat) : Prop := readNat (d.int ++ d.frac) = some n

end Mybin.Spec
