/-
Model of the packet layer of `mybin-async/src/conn.rs` (lines 25-128): a connection over a byte stream,
`recv_msg`, `send_msg`, `send_packet`, `reset_pkt_nr`.

The stream is modelled by the bytes still to be received (`inp`) and the bytes sent so far (`out`).
`AsyncReadExt::read_exact` (crate `futures`) is taken to deliver the next `n` bytes or, when the stream
ends first, an `UnexpectedEof` io error; `write_all` is taken to append all bytes. A transport error in
the middle of a message is not modelled. Writes never fail in the model; Model/WriteFail.lean has a model in which they do.
-/
import Verif.Model.Parser

namespace Mybin

/-- conn.rs:25-31. `caps`/`status` are the bits of `CapabilityFlags`/`StatusFlags`. -/
structure Conn where
  inp : Bytes
  out : Bytes := []
  pktNr : Nat := 0
  caps : Nat := 0
  status : Nat := 0
  deriving DecidableEq, Repr

/-- outcome of an async operation on a connection -/
inductive MR (α : Type) where
  | ok (a : α) (c : Conn)
  | err (e : Err) (c : Conn)
  | panic
  | hang
  deriving DecidableEq, Repr

/-- `async fn f(&mut self, ...) -> Result<α>` -/
def M (α : Type) : Type := Conn → MR α

/-- the `?` operator on async results -/
def MR.bind {α β : Type} : MR α → (α → M β) → MR β
  | .ok a c, f => f a c
  | .err e c, _ => .err e c
  | .panic, _ => .panic
  | .hang, _ => .hang

instance : Monad M where
  pure a := fun c => .ok a c
  bind x f := fun c => (x c).bind f

/-- `return Err(e)` -/
def M.fail {α : Type} (e : Err) : M α := fun c => .err e c

/-- any panicking expression -/
def M.panic {α : Type} : M α := fun _ => .panic

/-- run a byte reader on a received message (`X::read_from(&mut msg)?`), dropping the leftover -/
def M.parse {α : Type} (msg : Bytes) (p : P α) : M α := fun c =>
  match p msg with
  | .ok a _ => .ok a c
  | .err e _ => .err e c
  | .panic => .panic
  | .hang => .hang

/-- conn.rs:75,101: largest packet payload -/
def maxPacket : Nat := 0xffffff

/-- the loop of conn.rs:50-79, as a function of the bytes collected so far (`bs`), the unread stream
and `self.pkt_nr`. On end of stream inside a packet the stream is exhausted. -/
def recvLoop (bs : Bytes) : (inp : Bytes) → (nr : Nat) → Except Nat (Bytes × Bytes × Nat)
  | l0 :: l1 :: l2 :: seq :: rest, _ =>
    let len := l0.toNat + (l1.toNat <<< 8) + (l2.toNat <<< 16)
    let nr := if seq = 0xff then 0 else seq.toNat + 1
    if rest.length < len then .error nr
    else if len < maxPacket then .ok (bs ++ rest.take len, rest.drop len, nr)
    else recvLoop (bs ++ rest.take len) (rest.drop len) nr
  | _, nr => .error nr
termination_by inp => inp.length
decreasing_by simp [List.length_drop]; omega

/-- conn.rs:49-80 -/
def recvMsg : M Bytes := fun c =>
  match recvLoop [] c.inp c.pktNr with
  | .ok (msg, rest, nr) => .ok msg { c with inp := rest, pktNr := nr }
  | .error nr => .err .io { c with inp := [], pktNr := nr }

/-- conn.rs:110-127. `self.pkt_nr += 1` on a `u8` panics at 255 (overflow checks on). -/
def sendPacket (payload : Bytes) : M Unit := fun c =>
  let len := payload.length
  let out := c.out ++ [UInt8.ofNat (len &&& 0xff), UInt8.ofNat ((len >>> 8) &&& 0xff),
    UInt8.ofNat ((len >>> 16) &&& 0xff)] ++ [UInt8.ofNat c.pktNr] ++ payload
  if c.pktNr + 1 < 256 then .ok () { c with out := out, pktNr := c.pktNr + 1 }
  else .panic

/-- the loop of conn.rs:101-107 -/
def sendLoop (bs : Bytes) : M Unit :=
  if h : bs.length ≥ maxPacket then do
    sendPacket (bs.take maxPacket)
    sendLoop (bs.drop maxPacket)
  else sendPacket bs
termination_by bs.length
decreasing_by simp only [List.length_drop, maxPacket] at *; omega

/-- conn.rs:90-108; `msg` is the serialised message. -/
def sendMsg (msg : Bytes) (resetPktNr : Bool) : M Unit := fun c =>
  let c := if resetPktNr then { c with pktNr := 0 } else c
  sendLoop msg c

end Mybin
