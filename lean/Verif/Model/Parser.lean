/-
Model of `bytes-parser/src/lib.rs` and `bytes-parser/src/error.rs`: the byte buffer, the primitive
readers (`ReadBytesExt for Bytes`) and the primitive writers (`WriteBytesExt for BytesMut`).
-/
namespace Mybin

/-- `bytes::Bytes` / `BytesMut` / `&[u8]`: the unread (resp. already written) bytes.
Models the views `remaining()`/`chunk()` of bytes-parser/src/lib.rs:122-290. Reference counting and
sharing of the buffer are not modelled. -/
abbrev Bytes := List UInt8

/-- bytes-parser/src/error.rs:6-26 and mybin-core/src/error.rs:6-46, mybin-async/src/error.rs:5-31.
Message texts are not modelled. `incomplete n` is `InputIncomplete(_, Needed::Size(n))`,
`incomplete none` is `Needed::Unknown`. -/
inductive Err where
  | incomplete (need : Option Nat)
  | constraint
  | utf8
  | checksumMismatch (expected actual : Nat)
  | binlogFormat
  | binlogEvent
  | invalidCommand (code : Nat)
  | invalidColumnType (code : Nat)
  | packet
  | sql (code : Nat) (state : Bytes) (msg : Bytes)
  | io
  | custom
  | columnIndex
  | columnName
  | typeMismatch
  | nullValue
  | parseText
  | emptyResultSet
  deriving DecidableEq, Repr

/-- Outcome of a reader. `rest` is what the caller's `&mut Bytes` holds afterwards (also after an
error: Rust readers may leave the input partially consumed). `panic` is a Rust panic: index/slice out
of bounds, `unwrap` on `None`, `unimplemented!`/`unreachable!`, or integer overflow in a build with
overflow checks. `hang` is a loop that repeats forever. -/
inductive R (α : Type) where
  | ok (a : α) (rest : Bytes)
  | err (e : Err) (rest : Bytes)
  | panic
  | hang
  deriving DecidableEq, Repr

/-- A reader `fn f(input: &mut Bytes) -> Result<α>`. -/
def P (α : Type) : Type := Bytes → R α

/-- the `?` operator: continue on `Ok`, return early otherwise -/
def R.bind {α β : Type} : R α → (α → P β) → R β
  | .ok a r, f => f a r
  | .err e r, _ => .err e r
  | .panic, _ => .panic
  | .hang, _ => .hang

instance : Monad P where
  pure a := fun bs => .ok a bs
  bind x f := fun bs => (x bs).bind f

/-- `return Err(e)` -/
def P.fail {α : Type} (e : Err) : P α := fun bs => .err e bs

/-- any panicking expression -/
def P.panic {α : Type} : P α := fun _ => .panic

/-- `Option::ok_or(e)?` -/
def P.orErr {α : Type} (o : Option α) (e : Err) : P α :=
  match o with
  | some a => pure a
  | none => P.fail e

/-- run a reader on a separate buffer (`sub.read_x()?` where `sub` is a local `Bytes`): its leftover
is dropped, an error leaves the outer input where it is. -/
def P.onSub {α : Type} (sub : Bytes) (p : P α) : P α := fun bs =>
  match p sub with
  | .ok a _ => .ok a bs
  | .err e _ => .err e bs
  | .panic => .panic
  | .hang => .hang

/-- little-endian positional value (`u16::from_le_bytes` ... `u128::from_le_bytes`, the meaning of
`Buf::get_uN_le` used at lib.rs:137,183,233,243) -/
def leVal : Bytes → Nat
  | [] => 0
  | b :: bs => b.toNat + 256 * leVal bs

/-- big-endian positional value (`Buf::get_u16`, `get_u32`, lib.rs:147,193) -/
def beVal (bs : Bytes) : Nat := leVal bs.reverse

/-- the `k` low bytes of `n`, least significant first (`n.to_le_bytes()[..k]`) -/
def leBytes : Nat → Nat → Bytes
  | 0, _ => []
  | k + 1, n => UInt8.ofNat (n % 256) :: leBytes k (n / 256)

/-- `n as iW` for an unsigned `W`-bit `n` (two's complement reinterpretation) -/
def asSigned (w : Nat) (n : Nat) : Int :=
  if n < 2 ^ (w - 1) then (n : Int) else (n : Int) - 2 ^ w

/-- `i as uW`, also the two's complement bit pattern written by `put_iW_le` -/
def asUnsigned (w : Nat) (i : Int) : Nat := (i % 2 ^ w).toNat

/-! ### Readers -/

/-- shape shared by the readers that delegate to `Buf::get_*`: check the length first, then consume -/
def readFixed (k : Nat) (val : Bytes → Nat) : P Nat := fun bs =>
  if bs.length < k then .err (.incomplete (some (k - bs.length))) bs
  else .ok (val (bs.take k)) (bs.drop k)

/-- lib.rs:123-128 -/
def readU8 : P Nat := fun bs =>
  match bs with
  | [] => .err (.incomplete (some 1)) bs
  | b :: rest => .ok b.toNat rest

/-- lib.rs:31-33 -/
def readI8 : P Int := do return asSigned 8 (← readU8)

/-- lib.rs:130-138 -/
def readLeU16 : P Nat := readFixed 2 leVal
/-- lib.rs:37-39 -/
def readLeI16 : P Int := do return asSigned 16 (← readLeU16)
/-- lib.rs:140-148 -/
def readBeU16 : P Nat := readFixed 2 beVal
/-- lib.rs:43-45 -/
def readBeI16 : P Int := do return asSigned 16 (← readBeU16)

/-- lib.rs:150-161 -/
def readLeU24 : P Nat := fun bs =>
  match bs with
  | b0 :: b1 :: b2 :: rest => .ok (b0.toNat + (b1.toNat <<< 8) + (b2.toNat <<< 16)) rest
  | _ => .err (.incomplete (some (3 - bs.length))) bs

/-- lib.rs:163-174 -/
def readBeU24 : P Nat := fun bs =>
  match bs with
  | b0 :: b1 :: b2 :: rest => .ok (b2.toNat + (b1.toNat <<< 8) + (b0.toNat <<< 16)) rest
  | _ => .err (.incomplete (some (3 - bs.length))) bs

/-- the closure of lib.rs:50-56 and 62-68 -/
def signExtend24 (n : Nat) : Int :=
  if n &&& 0x800000 ≠ 0 then asSigned 32 (n ||| 0xff000000) else asSigned 32 n

/-- lib.rs:49-57 -/
def readLeI24 : P Int := do return signExtend24 (← readLeU24)
/-- lib.rs:61-69. NOTE: the code really calls `read_le_u24` here. -/
def readBeI24 : P Int := do return signExtend24 (← readLeU24)

/-- lib.rs:176-184 -/
def readLeU32 : P Nat := readFixed 4 leVal
/-- lib.rs:73-75 -/
def readLeI32 : P Int := do return asSigned 32 (← readLeU32)
/-- lib.rs:186-194 -/
def readBeU32 : P Nat := readFixed 4 beVal
/-- lib.rs:79-81 -/
def readBeI32 : P Int := do return asSigned 32 (← readBeU32)

/-- lib.rs:196-206 -/
def readBeU40 : P Nat := fun bs =>
  if bs.length < 5 then .err (.incomplete (some (5 - bs.length))) bs
  else (do let n4 ← readBeU32; let n1 ← readU8; return (n4 <<< 8) + n1 : P Nat) bs

/-- lib.rs:85-87: `n as i64` of a 40-bit value, no sign extension -/
def readBeI40 : P Int := do return asSigned 64 (← readBeU40)

/-- lib.rs:208-224 -/
def readLeU48 : P Nat := fun bs =>
  match bs with
  | b0 :: b1 :: b2 :: b3 :: b4 :: b5 :: rest =>
    .ok (b0.toNat + (b1.toNat <<< 8) + (b2.toNat <<< 16) + (b3.toNat <<< 24)
      + (b4.toNat <<< 32) + (b5.toNat <<< 40)) rest
  | _ => .err (.incomplete (some (6 - bs.length))) bs

/-- lib.rs:91-99 -/
def readLeI48 : P Int := do
  let n ← readLeU48
  return if n &&& 0x800000000000 ≠ 0 then asSigned 64 (n ||| 0xffff000000000000) else asSigned 64 n

/-- lib.rs:226-234 -/
def readLeU64 : P Nat := readFixed 8 leVal
/-- lib.rs:103-105 -/
def readLeI64 : P Int := do return asSigned 64 (← readLeU64)
/-- lib.rs:236-244 -/
def readLeU128 : P Nat := readFixed 16 leVal
/-- lib.rs:109-111 -/
def readLeI128 : P Int := do return asSigned 128 (← readLeU128)

/-- lib.rs:246-254; the float is modelled by its IEEE-754 bit pattern -/
def readLeF32 : P Nat := readFixed 4 leVal

/-- lib.rs:256-264; bit pattern again. The error path computes `4 - self.remaining()` in `usize`,
which overflows (panics) when 5, 6 or 7 bytes remain. -/
def readLeF64 : P Nat := fun bs =>
  if bs.length < 8 then
    if 4 < bs.length then .panic else .err (.incomplete (some (4 - bs.length))) bs
  else .ok (leVal (bs.take 8)) (bs.drop 8)

/-- lib.rs:266-274 -/
def readLen (len : Nat) : P Bytes := fun bs =>
  if bs.length < len then .err (.incomplete (some (len - bs.length))) bs
  else .ok (bs.take len) (bs.drop len)

/-- lib.rs:276-289 -/
def readUntil (b : UInt8) (inclusive : Bool) : P Bytes := fun bs =>
  match bs.findIdx? (· == b) with
  | some pos =>
    if inclusive then .ok (bs.take (pos + 1)) (bs.drop (pos + 1))
    else .ok (bs.take pos) ((bs.drop pos).drop 1)
  | none => .err (.incomplete none) bs

/-- `input.split_to(input.remaining())`: take everything left -/
def readRest : P Bytes := fun bs => .ok bs []

/-- `input.has_remaining()` -/
def hasRemaining : P Bool := fun bs => .ok (!bs.isEmpty) bs

/-- `input.remaining()` -/
def remaining : P Nat := fun bs => .ok bs.length bs

/-! ### Writers

A writer takes the bytes already in the buffer and returns the new buffer and the `usize` it reports. -/

/-- lib.rs:296-310 and 447-452: append a slice / `Bytes` -/
def writeBytes (out : Bytes) (bs : Bytes) : Bytes × Nat := (out ++ bs, bs.length)
/-- lib.rs:357-360 -/
def writeU8 (out : Bytes) (n : Nat) : Bytes × Nat := (out ++ leBytes 1 n, 1)
/-- lib.rs:362-365 -/
def writeI8 (out : Bytes) (i : Int) : Bytes × Nat := (out ++ leBytes 1 (asUnsigned 8 i), 1)
/-- lib.rs:367-370 -/
def writeLeU16 (out : Bytes) (n : Nat) : Bytes × Nat := (out ++ leBytes 2 n, 2)
/-- lib.rs:372-375 -/
def writeLeI16 (out : Bytes) (i : Int) : Bytes × Nat := (out ++ leBytes 2 (asUnsigned 16 i), 2)
/-- lib.rs:377-380 -/
def writeLeU24 (out : Bytes) (n : Nat) : Bytes × Nat := (out ++ (leBytes 4 n).take 3, 3)
/-- lib.rs:382-390 -/
def writeLeI24 (out : Bytes) (i : Int) : Bytes × Nat :=
  let n := if i < 0 then asUnsigned 32 i ||| 0xff800000 else asUnsigned 32 i
  (out ++ (leBytes 4 n).take 3, 3)
/-- lib.rs:392-395 -/
def writeLeU32 (out : Bytes) (n : Nat) : Bytes × Nat := (out ++ leBytes 4 n, 4)
/-- lib.rs:397-400 -/
def writeLeI32 (out : Bytes) (i : Int) : Bytes × Nat := (out ++ leBytes 4 (asUnsigned 32 i), 4)
/-- lib.rs:402-405 -/
def writeLeU48 (out : Bytes) (n : Nat) : Bytes × Nat := (out ++ (leBytes 8 n).take 6, 6)
/-- lib.rs:407-415 -/
def writeLeI48 (out : Bytes) (i : Int) : Bytes × Nat :=
  let n := if i < 0 then asUnsigned 64 i ||| 0xffff800000000000 else asUnsigned 64 i
  (out ++ (leBytes 8 n).take 6, 6)
/-- lib.rs:417-420 -/
def writeLeU64 (out : Bytes) (n : Nat) : Bytes × Nat := (out ++ leBytes 8 n, 8)
/-- lib.rs:422-425 -/
def writeLeI64 (out : Bytes) (i : Int) : Bytes × Nat := (out ++ leBytes 8 (asUnsigned 64 i), 8)
/-- lib.rs:427-430 -/
def writeLeU128 (out : Bytes) (n : Nat) : Bytes × Nat := (out ++ leBytes 16 n, 16)
/-- lib.rs:432-435 -/
def writeLeI128 (out : Bytes) (i : Int) : Bytes × Nat := (out ++ leBytes 16 (asUnsigned 128 i), 16)
/-- lib.rs:437-440, bit pattern -/
def writeLeF32 (out : Bytes) (n : Nat) : Bytes × Nat := (out ++ leBytes 4 n, 4)
/-- lib.rs:442-445, bit pattern -/
def writeLeF64 (out : Bytes) (n : Nat) : Bytes × Nat := (out ++ leBytes 8 n, 8)

end Mybin
