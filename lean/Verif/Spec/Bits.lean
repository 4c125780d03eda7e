/-
Specification vocabulary for bitmaps: bit `i` of a byte string is bit `i % 8` (counted from the least
significant) of byte `i / 8`. Nothing here refers to the model.
-/
namespace Mybin.Spec

/-- bit `i`, or `none` when the byte string has no such bit -/
def bit? (bm : List UInt8) (i : Nat) : Option Bool :=
  bm[i / 8]?.map fun b => b.toNat.testBit (i % 8)

end Mybin.Spec
