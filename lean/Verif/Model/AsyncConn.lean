/-
Model of `recv_msg` and `send_msg` (`mybin-async/src/conn.rs`, lines 46-128) at the level of polls: the futures run
against a transport that hands over any number of bytes at a time, is not ready, or fails.

`AsyncReadExt::read_exact` and `AsyncWriteExt::write_all` come from the crate `futures`; what is modelled is their
documented behaviour: they go on until the buffer is full (written), `Pending` leaves what was transferred in place,
zero bytes are the error `UnexpectedEof` (`WriteZero`), and every io error, `Interrupted` as well, is returned.
-/
import Verif.Model.Conn

namespace Mybin.AsyncConn

/-- one answer of the transport to `poll_read` or `poll_write`: not ready; up to `n + 1` bytes; an io error; no byte
accepted (`poll_write` only: a read returns zero bytes exactly at the end of the stream) -/
inductive Ans where
  | pending
  | moved (n : Nat)
  | fail
  | zero
  deriving DecidableEq, Repr

/-- the outcome of a poll -/
inductive Poll (α : Type) where
  | pending
  | ready (a : α)
  | failed (e : Err)
  | panicked
  deriving DecidableEq, Repr

/-- the payload length in a packet header (conn.rs:54) -/
def packetLen : Bytes → Nat
  | l0 :: l1 :: l2 :: _ => l0.toNat + (l1.toNat <<< 8) + (l2.toNat <<< 16)
  | _ => 0

/-- the state of a `recv_msg` future. The buffers `len`, `seq` and the new part of `bs` (conn.rs:52-73) are one list:
the bytes of the current packet read so far (`cur`). `bs` holds the payloads of the packets before it. `pktNr` is
`self.pkt_nr`. -/
structure Recv where
  bs : Bytes
  cur : Bytes
  pktNr : Nat
  deriving DecidableEq, Repr

/-- how many bytes the current `read_exact` still waits for (conn.rs:53, 57-60, 73) -/
def Recv.need (r : Recv) : Nat :=
  if r.cur.length < 3 then 3 - r.cur.length
  else if r.cur.length = 3 then 1
  else 4 + packetLen r.cur - r.cur.length

/-- conn.rs:61-65: the packet number once the fourth byte is there -/
def Recv.number (cur : Bytes) (pktNr : Nat) : Nat :=
  match cur with
  | _ :: _ :: _ :: seq :: _ => if seq = 0xff then 0 else seq.toNat + 1
  | _ => pktNr

/-- the code between two reads: `Sum.inl` with the state before the next read, `Sum.inr` with the message
(conn.rs:54-56, 61-72, 74-79) -/
def Recv.advance (r : Recv) (bytes : Bytes) : Recv ⊕ (Bytes × Nat) :=
  let cur := r.cur ++ bytes
  let nr := Recv.number cur r.pktNr
  if 4 ≤ cur.length ∧ cur.length = 4 + packetLen cur then
    let bs := r.bs ++ cur.drop 4
    if packetLen cur < maxPacket then .inr (bs, nr) else .inl ⟨bs, [], nr⟩
  else .inl ⟨r.bs, cur, nr⟩

/-- one `poll` of `recv_msg` (conn.rs:49-80): the outcome, the state of the future, the bytes not read and the answers
not used; with the last answer used up the transport is not ready -/
def pollRecv (r : Recv) (stream : Bytes) : List Ans → Poll Bytes × Recv × Bytes × List Ans
  | [] => (.pending, r, stream, [])
  | .pending :: s => (.pending, r, stream, s)
  | .fail :: s => (.failed .io, r, stream, s)
  | .zero :: s => pollRecv r stream s
  | .moved n :: s =>
    if stream = [] then (.failed .io, r, [], s)
    else
      let k := min (n + 1) r.need
      match r.advance (stream.take k) with
      | .inl r' => pollRecv r' (stream.drop k) s
      | .inr (msg, nr) => (.ready msg, ⟨[], [], nr⟩, stream.drop k, s)

/-- an executor: poll again after every `Pending`, at most `fuel` times -/
def driveRecv : Nat → Recv → Bytes → List Ans → Poll Bytes × Recv × Bytes × List Ans
  | 0, r, stream, s => (.pending, r, stream, s)
  | fuel + 1, r, stream, s =>
    match pollRecv r stream s with
    | (.pending, r', stream', s') => if s' = [] then (.pending, r', stream', []) else driveRecv fuel r' stream' s'
    | done => done

/-- the state of a `send_msg` future: the bytes of the current packet not yet accepted, the message after it (`none`
for the last packet), `self.pkt_nr`. The three `write_all` calls of a packet are one buffer: an answer that would stop
at the end of one of them is a smaller answer here. -/
structure Send where
  todo : Bytes
  rest : Option Bytes
  pktNr : Nat
  deriving DecidableEq, Repr

/-- conn.rs:112-118 -/
def packetHeader (len nr : Nat) : Bytes :=
  [UInt8.ofNat (len &&& 0xff), UInt8.ofNat ((len >>> 8) &&& 0xff), UInt8.ofNat ((len >>> 16) &&& 0xff), UInt8.ofNat nr]

/-- conn.rs:101-106: the next packet of a message -/
def Send.start (bs : Bytes) (nr : Nat) : Send :=
  if bs.length ≥ maxPacket then
    ⟨packetHeader (bs.take maxPacket).length nr ++ bs.take maxPacket, some (bs.drop maxPacket), nr⟩
  else ⟨packetHeader bs.length nr ++ bs, none, nr⟩

/-- one `poll` of `send_msg` (conn.rs:90-128): the outcome, the state of the future, what the transport accepted in all
and the answers not used; `self.pkt_nr += 1` (125) panics at 255 (overflow checks on) -/
def pollSend (f : Send) (wire : Bytes) : List Ans → Poll Unit × Send × Bytes × List Ans
  | [] => (.pending, f, wire, [])
  | .pending :: s => (.pending, f, wire, s)
  | .fail :: s => (.failed .io, f, wire, s)
  | .zero :: s => (.failed .io, f, wire, s)
  | .moved n :: s =>
    let k := min (n + 1) f.todo.length
    let wire := wire ++ f.todo.take k
    let todo := f.todo.drop k
    if todo ≠ [] then pollSend { f with todo } wire s
    else if 256 ≤ f.pktNr + 1 then (.panicked, { f with todo }, wire, s)
    else
      match f.rest with
      | none => (.ready (), { f with todo, pktNr := f.pktNr + 1 }, wire, s)
      | some bs => pollSend (Send.start bs (f.pktNr + 1)) wire s

/-- an executor: poll again after every `Pending`, at most `fuel` times -/
def driveSend : Nat → Send → Bytes → List Ans → Poll Unit × Send × Bytes × List Ans
  | 0, f, wire, s => (.pending, f, wire, s)
  | fuel + 1, f, wire, s =>
    match pollSend f wire s with
    | (.pending, f', wire', s') => if s' = [] then (.pending, f', wire', []) else driveSend fuel f' wire' s'
    | done => done

end Mybin.AsyncConn
