/-
Specification of CRC-32 (ISO 3309, as used by zlib and MySQL) by polynomial long division over GF(2).
Polynomials are lists of coefficients, highest degree first. Independent of the model's shift register.
-/
import Mathlib.Data.List.Basic

namespace Mybin.Spec

/-- x^32 + x^26 + x^23 + x^22 + x^16 + x^12 + x^11 + x^10 + x^8 + x^7 + x^5 + x^4 + x^2 + x + 1 -/
def crcGenerator : List Bool :=
  (List.range 33).map fun i => decide (32 - i ∈ [32, 26, 23, 22, 16, 12, 11, 10, 8, 7, 5, 4, 2, 1, 0])

/-- add (xor) the polynomial `g` to the leading coefficients of `p` -/
def xorPrefix : List Bool → List Bool → List Bool
  | [], p => p
  | _, [] => []
  | a :: g, b :: p => (a ^^ b) :: xorPrefix g p

theorem xorPrefix_length (g p : List Bool) : (xorPrefix g p).length = p.length := by
  induction g generalizing p with
  | nil => cases p <;> rfl
  | cons a g ih => cases p with
    | nil => rfl
    | cons b p => simp [xorPrefix, ih]

/-- remainder of long division by the generator: while there are more than 32 coefficients, cancel the
leading one -/
def remainder : List Bool → List Bool
  | [] => []
  | b :: p =>
    if p.length < 32 then b :: p
    else if b then remainder (xorPrefix crcGenerator.tail p)
    else remainder p
termination_by p => p.length
decreasing_by all_goals simp [xorPrefix_length]

/-- the message polynomial: bytes in order, the least significant bit of each byte first -/
def messageBits (bs : List UInt8) : List Bool :=
  bs.flatMap fun b => (List.range 8).map fun i => b.toNat / 2 ^ i % 2 = 1

/-- the number whose `i`-th binary digit is the `i`-th element -/
def bitsValue : List Bool → Nat
  | [] => 0
  | b :: bs => (if b then 1 else 0) + 2 * bitsValue bs

/-- CRC-32: append 32 zero coefficients, complement the leading 32, divide, complement the remainder;
the coefficient of x^31 is the least significant bit of the result. -/
def crc32 (bs : List UInt8) : Nat :=
  bitsValue ((remainder (xorPrefix (List.replicate 32 true)
    (messageBits bs ++ List.replicate 32 false))).map (!·))

end Mybin.Spec
