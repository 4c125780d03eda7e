/-
Specification predicates for fixed-width reads and writes: what "reads exactly k bytes" and
"round-trips" mean for a reader/writer of the modelled API.
-/
import Verif.Model.Parser
import Verif.Spec.Wire

namespace Mybin

/-- what a fixed-width unsigned read of `k` bytes does on every input -/
def FixedRead {α : Type} (k : Nat) (val : Bytes → α) (r : P α) : Prop :=
  ∀ bs : Bytes,
    (k ≤ bs.length → r bs = .ok (val (bs.take k)) (bs.drop k)) ∧
    (bs.length < k → r bs = .err (.incomplete (some (k - bs.length))) bs)

/-- `write` appends the `k`-byte little-endian encoding of `pat a` to whatever is in the buffer and
returns `k`; `read` on those bytes followed by anything returns `a` and leaves what followed. -/
def IntRoundTrip {α : Type} (k : Nat) (pat : α → Nat) (dom : α → Prop)
    (write : Bytes → α → Bytes × Nat) (read : P α) : Prop :=
  ∀ a, dom a → ∃ enc : Bytes, enc = Spec.le k (pat a) ∧ enc.length = k ∧
    (∀ out, write out a = (out ++ enc, k)) ∧ (∀ rest, read (enc ++ rest) = .ok a rest)

/-- a signed `w`-bit number in Rust's range -/
abbrev S (w : Nat) : Int → Prop := Spec.SignedRange w
/-- an unsigned `w`-bit number in Rust's range -/
abbrev U (w : Nat) : Nat → Prop := fun n => n < 2 ^ w

end Mybin
