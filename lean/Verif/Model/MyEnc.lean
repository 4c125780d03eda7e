/-
Model of `bytes-parser/src/my.rs`: MySQL length-encoded integers and strings.
-/
import Verif.Model.Parser

namespace Mybin

/-- my.rs:57-66 -/
inductive LenEncInt where
  | null
  | err
  | len1 (n : Nat)
  | len3 (n : Nat)
  | len4 (n : Nat)
  | len9 (n : Nat)
  deriving DecidableEq, Repr

/-- the Rust payload types `u8, u16, u32, u64` of my.rs:62-65 -/
def LenEncInt.InRange : LenEncInt → Prop
  | .null | .err => True
  | .len1 n => n < 2 ^ 8
  | .len3 n => n < 2 ^ 16
  | .len4 n => n < 2 ^ 32
  | .len9 n => n < 2 ^ 64

/-- my.rs:69-77 -/
def LenEncInt.toU64 : LenEncInt → Option Nat
  | .len1 n | .len3 n | .len4 n | .len9 n => some n
  | _ => none

/-- my.rs:79-87; `Len9(n)` is truncated by `as u32` -/
def LenEncInt.toU32 : LenEncInt → Option Nat
  | .len1 n | .len3 n | .len4 n => some n
  | .len9 n => some (n % 2 ^ 32)
  | _ => none

/-- my.rs:13-35 -/
def readLenEncInt : P LenEncInt := fun bs =>
  if bs.length < 1 then .err (.incomplete none) bs
  else (do
    let len ← readU8
    if len = 0xfb then return .null
    else if len = 0xfc then let n ← readLeU16; return .len3 n
    else if len = 0xfd then let n ← readLeU24; return .len4 n
    else if len = 0xfe then let n ← readLeU64; return .len9 n
    else if len = 0xff then return .err
    else return .len1 len : P LenEncInt) bs

/-- my.rs:96-129 -/
def LenEncInt.writeTo (out : Bytes) : LenEncInt → Bytes × Nat
  | .null => (out ++ [0xfb], 1)
  | .err => (out ++ [0xff], 1)
  | .len1 n => (out ++ leBytes 1 n, 1)
  | .len3 n => (out ++ [0xfc] ++ leBytes 2 n, 3)
  | .len4 n => (out ++ [0xfd] ++ (leBytes 4 n).take 3, 4)
  | .len9 n => (out ++ [0xfe] ++ leBytes 8 n, 9)

/-- my.rs:132-144 (`From<u8>`, `From<u16>`, `From<u32>` at 147-165 go through this one).
NOTE: the first bound really is `0xfb`. -/
def LenEncInt.ofU64 (src : Nat) : LenEncInt :=
  if src ≤ 0xfb then .len1 (src % 2 ^ 8)
  else if src ≤ 0xffff then .len3 (src % 2 ^ 16)
  else if src ≤ 0xffffff then .len4 (src % 2 ^ 32)
  else .len9 src

/-- my.rs:167-172 -/
inductive LenEncStr where
  | null
  | err
  | bytes (bs : Bytes)
  deriving DecidableEq, Repr

/-- my.rs:37-54 -/
def readLenEncStr : P LenEncStr := do
  let lei ← readLenEncInt
  match lei with
  | .err => return .err
  | .null => return .null
  | _ => do
    match lei.toU64 with
    | none => P.panic
    | some len => return .bytes (← readLen len)

/-- my.rs:226-247 -/
def LenEncStr.writeTo (out : Bytes) : LenEncStr → Bytes × Nat
  | .null => (out ++ [0xfb], 1)
  | .err => (out ++ [0xff], 1)
  | .bytes bs =>
    let (out, leiLen) := (LenEncInt.ofU64 bs.length).writeTo out
    (out ++ bs, leiLen + bs.length)

/-- my.rs:196-201 -/
def LenEncStr.intoBytes : LenEncStr → Option Bytes
  | .bytes bs => some bs
  | _ => none

end Mybin
