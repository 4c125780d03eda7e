/-
Specification vocabulary for MySQL wire data, written from the protocol documentation and not from the
Rust code: positional values, fixed-width encodings, two's complement, length-encoded data.
Nothing in this file refers to the model.
-/
namespace Mybin.Spec

/-- value of a byte string, least significant byte first -/
def leNat (bs : List UInt8) : Nat := bs.foldr (fun b acc => b.toNat + 256 * acc) 0

/-- value of a byte string, most significant byte first -/
def beNat (bs : List UInt8) : Nat := bs.foldl (fun acc b => acc * 256 + b.toNat) 0

/-- `n` as exactly `k` bytes, least significant first: byte `i` is digit `i` of `n` in base 256 -/
def le (k n : Nat) : List UInt8 := (List.range k).map fun i => UInt8.ofNat (n / 256 ^ i % 256)

/-- `n` as exactly `k` bytes, most significant first -/
def be (k n : Nat) : List UInt8 := (le k n).reverse

/-- one byte -/
def u8 (n : Nat) : List UInt8 := [UInt8.ofNat n]

/-- The `w`-bit two's complement reading of `n`: the representative of `n` modulo `2^w` in
`[-2^(w-1), 2^(w-1))` (`Int.bmod` is the balanced remainder of the Lean library). -/
def twos (w n : Nat) : Int := Int.bmod n (2 ^ w)

/-- The `w`-bit two's complement bit pattern of `i`, as an unsigned number. -/
def pattern (w : Nat) (i : Int) : Nat := (i % (2 ^ w : Nat)).toNat

/-- range of a signed `w`-bit integer -/
def SignedRange (w : Nat) (i : Int) : Prop := -(2 ^ (w - 1) : Int) ≤ i ∧ i < 2 ^ (w - 1)

/-- Protocol::LengthEncodedInteger of a 64-bit number -/
def lenEncInt (n : Nat) : List UInt8 :=
  if n < 251 then u8 n
  else if n < 2 ^ 16 then u8 0xfc ++ le 2 n
  else if n < 2 ^ 24 then u8 0xfd ++ le 3 n
  else u8 0xfe ++ le 8 n

/-- Protocol::LengthEncodedString -/
def lenEncStr (s : List UInt8) : List UInt8 := lenEncInt s.length ++ s

/-- Protocol::NulTerminatedString -/
def nulStr (s : List UInt8) : List UInt8 := s ++ u8 0

end Mybin.Spec
