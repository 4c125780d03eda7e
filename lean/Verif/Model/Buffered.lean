/-
Model of sending over a transport with a write buffer of its own. `Conn<S>` takes any `S: AsyncWrite` (conn.rs:83-86);
one with a buffer (`futures::io::BufWriter`) passes bytes on when the buffer is full, when a write is as long as the
buffer, or on `flush`, which this library calls nowhere.
-/
import Verif.Model.Conn

namespace Mybin.Buffered

/-- the calls of `write_all` for one packet (conn.rs:110-124), in order -/
def packetWrites (payload : Bytes) (nr : Nat) : List Bytes :=
  let len := payload.length
  [[UInt8.ofNat (len &&& 0xff), UInt8.ofNat ((len >>> 8) &&& 0xff), UInt8.ofNat ((len >>> 16) &&& 0xff)],
    [UInt8.ofNat nr], payload]

/-- the calls of `write_all` for a message (conn.rs:98-108) whose first packet has number `nr` -/
def messageWrites (bs : Bytes) (nr : Nat) : List Bytes :=
  if h : bs.length ≥ maxPacket then
    packetWrites (bs.take maxPacket) nr ++ messageWrites (bs.drop maxPacket) (nr + 1)
  else packetWrites bs nr
termination_by bs.length
decreasing_by simp only [List.length_drop, maxPacket] at *; omega

/-- a transport with a write buffer: its capacity, what is in the buffer, what has been passed on to the server -/
structure Transport where
  cap : Nat
  held : Bytes := []
  passed : Bytes := []
  deriving DecidableEq, Repr

/-- `write_all(data)` on such a transport: nothing for no bytes; otherwise `BufWriter::poll_write`, which first empties
the buffer if the data do not fit, and then passes data as long as the buffer directly on. Simplified: the transport
below accepts all bytes it is given at once. -/
def Transport.writeAll (t : Transport) (data : Bytes) : Transport :=
  if data = [] then t
  else
    let t := if t.held.length + data.length > t.cap then { t with held := [], passed := t.passed ++ t.held } else t
    if data.length ≥ t.cap then { t with passed := t.passed ++ data } else { t with held := t.held ++ data }

/-- `send_msg` on such a transport (conn.rs:90-109), with packet number 0 first -/
def Transport.sendMsg (t : Transport) (msg : Bytes) : Transport := (messageWrites msg 0).foldl Transport.writeAll t

end Mybin.Buffered
