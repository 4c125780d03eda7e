/-
Specification of reading numbers as floats (IEEE 754, rounding to nearest, ties to even), and what a server and a consumer of
JSON make of numerals. Values are rational numbers.
-/
import Verif.Spec.JsonText
import Mathlib.Algebra.Order.Field.Rat

namespace Mybin.Spec

/-- the value of a finite double -/
def double (n : Nat) : Option ℚ := (binary64 n).map fun x => (if x.1 then -1 else 1) * (x.2 : ℚ) / 2 ^ 1074

/-- the value of a finite float -/
def single (n : Nat) : Option ℚ := (binary32 n).map fun x => (if x.1 then -1 else 1) * (x.2 : ℚ) / 2 ^ 1074

/-- Of the finite floats (of `bits` bits) `n` is the one nearest to `x`; of two that are equally near, the even one. -/
def Nearest (value : Nat → Option ℚ) (bits n : Nat) (x : ℚ) : Prop :=
  n < 2 ^ bits ∧ ∃ v, value n = some v ∧ ∀ m w, m < 2 ^ bits → value m = some w → w ≠ v →
    |x - v| ≤ |x - w| ∧ (|x - v| = |x - w| → n % 2 = 0)

/-- the number of digits in a text -/
def digitCount (t : List UInt8) : Nat := (t.filter fun b => decide (0x30 ≤ b) && decide (b ≤ 0x39)).length

/-- What a server makes of an exact number `i / 10 ^ s` in a FLOAT or DOUBLE column: the nearest float. Exact numeric
literals have at most 65 digits (MySQL manual, precision math); nothing is said about longer ones, nor about numbers beyond the
largest FLOAT. (A server reads the literal for a FLOAT column as a DOUBLE first: that rounding twice gives the nearest float is
part of this.) -/
structure ReadsFloats (fl : FloatRead) : Prop where
  zero : ∀ s, fl.f32 0 s = 0 ∧ fl.f64 0 s = 0
  float : ∀ (i : Int) (s : Nat), i ≠ 0 → i.natAbs < 10 ^ 65 → s ≤ 65 → |(i : ℚ) / 10 ^ s| ≤ 2 ^ 128 - 2 ^ 104 →
    Nearest single 32 (fl.f32 i s) (i / 10 ^ s)
  double : ∀ (i : Int) (s : Nat), i ≠ 0 → i.natAbs < 10 ^ 65 → s ≤ 65 → Nearest double 64 (fl.f64 i s) (i / 10 ^ s)

/-- the value of a numeral: its digits, its fraction and its exponent -/
def numeral (neg : Bool) (w : List UInt8) (f : Option (List UInt8)) (e : Option (Bool × List UInt8)) : Option ℚ :=
  (readNat (w ++ f.getD [])).bind fun n =>
    ((e.map fun x => (readNat x.2).map fun k : Nat => if x.1 then -(k : Int) else k).getD (some 0)).map fun k =>
      (if neg then -1 else 1) * (n : ℚ) * 10 ^ (k - ((f.getD []).length : Int))

/-- What a consumer of JSON makes of numerals with a fraction or an exponent: the nearest double, unless the number is too
large for one. Zero keeps its sign. -/
structure ReadsDoubles (dr : DoubleRead) : Prop where
  zero : ∀ neg w f e, numeral neg w f e = some 0 → dr neg w f e = if neg then 2 ^ 63 else 0
  nearest : ∀ neg w f e x, numeral neg w f e = some x → x ≠ 0 → |x| < 2 ^ 1024 - 2 ^ 970 →
    Nearest double 64 (dr neg w f e) x

end Mybin.Spec
