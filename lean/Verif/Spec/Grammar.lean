/-
Specification: how the other side reads wire data. A grammar reader takes bytes and either rejects them
or returns a value and the bytes that follow. Written from the protocol documentation; independent of
the model.
-/
import Verif.Spec.Wire

namespace Mybin.Spec

/-- a grammar reader -/
def D (α : Type) : Type := List UInt8 → Option (α × List UInt8)

namespace D

def pure {α : Type} (a : α) : D α := fun bs => some (a, bs)
def bind {α β : Type} (x : D α) (f : α → D β) : D β := fun bs =>
  match x bs with
  | none => none
  | some (a, t) => f a t
instance : Monad D where
  pure := pure
  bind := bind

/-- reject -/
def reject {α : Type} : D α := fun _ => none

/-- lift a partial result -/
def ofOption {α : Type} : Option α → D α
  | some a => pure a
  | none => reject

/-- one byte -/
def u8 : D Nat
  | [] => none
  | b :: t => some (b.toNat, t)

/-- exactly `k` bytes -/
def bytes (k : Nat) : D (List UInt8) := fun bs =>
  if k ≤ bs.length then some (bs.take k, bs.drop k) else none

/-- a `k`-byte little-endian unsigned integer -/
def le (k : Nat) : D Nat := fun bs =>
  if k ≤ bs.length then some (leNat (bs.take k), bs.drop k) else none

/-- a NUL-terminated string -/
def nulStr : D (List UInt8) := fun bs =>
  if (0 : UInt8) ∈ bs then
    some (bs.takeWhile (fun b => b != 0), (bs.dropWhile (fun b => b != 0)).tail)
  else none

/-- everything to the end of the packet -/
def rest : D (List UInt8) := fun bs => some (bs, [])

/-- a length-encoded integer (NULL and ERR markers are rejected) -/
def lenEncInt : D Nat := fun bs =>
  match bs with
  | [] => none
  | b :: t =>
    if b.toNat < 251 then some (b.toNat, t)
    else if b.toNat = 0xfc then le 2 t
    else if b.toNat = 0xfd then le 3 t
    else if b.toNat = 0xfe then le 8 t
    else none

/-- a length-encoded string -/
def lenEncStr : D (List UInt8) := do
  let n ← lenEncInt
  bytes n

/-- `n` items in a row -/
def times {α : Type} (p : D α) : Nat → D (List α)
  | 0 => pure []
  | n + 1 => do
    let a ← p
    let as ← times p n
    return a :: as

/-- items until the input is used up (`fuel` bounds the number of items; an item takes at least one
byte, so the input length is always enough) -/
def manyFuel {α : Type} (p : D α) : Nat → List UInt8 → Option (List α)
  | _, [] => some []
  | 0, _ :: _ => none
  | fuel + 1, b :: t =>
    match p (b :: t) with
    | none => none
    | some (a, t') => (manyFuel p fuel t').map (a :: ·)

def many {α : Type} (p : D α) (bs : List UInt8) : Option (List α) := manyFuel p bs.length bs

/-- the whole input, nothing left over -/
def all {α : Type} (p : D α) (bs : List UInt8) : Option α :=
  match p bs with
  | some (a, []) => some a
  | _ => none

end D
end Mybin.Spec
