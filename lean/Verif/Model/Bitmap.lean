/-
Model of `mybin-core/src/bitmap.rs`.
-/
import Verif.Model.Parser
import Mathlib.Tactic.ByContra

namespace Mybin.Bitmap

/-- bitmap.rs:3-8. `none` is the out-of-bounds panic of `bitmap[bucket]`. -/
def index (bitmap : Bytes) (idx : Nat) : Option Bool :=
  let bucket := idx >>> 3
  let offset := idx &&& 7
  let bit : UInt8 := 1 <<< UInt8.ofNat offset
  match bitmap[bucket]? with
  | none => none
  | some b => some (bit &&& b == bit)

/-- bitmap.rs:11-22. `none` is the out-of-bounds panic. -/
def mark (bitmap : Bytes) (idx : Nat) (m : Bool) : Option Bytes :=
  let bucket := idx >>> 3
  let offset := idx &&& 7
  let bit : UInt8 := 1 <<< UInt8.ofNat offset
  match bitmap[bucket]? with
  | none => none
  | some b => some (bitmap.set bucket (if m then b ||| bit else b &&& ~~~bit))

/-- One iteration of the loop at bitmap.rs:41-49. `none` is the panic of `last_mut().unwrap()`. -/
def fromIterStep (st : Bytes × Nat) (b : Bool) : Option (Bytes × Nat) :=
  let (bm, offset) := st
  let bm := if offset >>> 3 = bm.length then bm ++ [0] else bm
  if b then
    match bm.getLast? with
    | none => none
    | some l => some (bm.set (bm.length - 1) (l ||| (1 <<< UInt8.ofNat (offset &&& 7))), offset + 1)
  else some (bm, offset + 1)

/-- bitmap.rs:33-51 -/
def fromIter (bits : List Bool) (offset : Nat) : Option Bytes :=
  (bits.foldlM fromIterStep (List.replicate ((offset >>> 3) + 1) 0, offset)).map Prod.fst

/-- bitmap.rs:58-71, one call of `next` on the iterator state `idx`: outer `none` is the panic of
`self.bits[bucket]`, inner `none` the end of iteration. -/
def next (bits : Bytes) (idx : Nat) : Option (Option Bool × Nat) :=
  if bits.length <<< 3 = idx then some (none, idx)
  else match bits[idx >>> 3]? with
    | none => none
    | some b => some (some (b &&& (1 <<< UInt8.ofNat (idx &&& 7)) != 0), idx + 1)

/-- bitmap.rs:25-27 driven to the end (`collect`): all items from `idx` on, `none` if a call panics. -/
def toIter (bits : Bytes) (idx : Nat) : Option (List Bool) :=
  if bits.length <<< 3 = idx then some []
  else match h : bits[idx >>> 3]? with
    | none => none
    | some b => (toIter bits (idx + 1)).map
        ((b &&& (1 <<< UInt8.ofNat (idx &&& 7)) != 0) :: ·)
termination_by 8 * bits.length - idx
decreasing_by
  have : idx >>> 3 < bits.length := by
    by_contra hc
    rw [List.getElem?_eq_none (Nat.not_lt.mp hc)] at h
    cases h
  rw [Nat.shiftRight_eq_div_pow] at this
  omega

end Mybin.Bitmap
