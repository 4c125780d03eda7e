/-
Specification of MySQL packet framing (protocol documentation, "MySQL Packets"): a packet is a 3-byte
little-endian payload length, a sequence byte and the payload; a message is a run of packets in which
all but the last carry exactly 0xffffff bytes and the last carries fewer. Independent of the model.
-/
import Verif.Spec.Wire

namespace Mybin.Spec

structure Packet where
  seq : Nat
  body : List UInt8
  deriving DecidableEq

/-- bytes of one packet on the wire -/
def Packet.wire (p : Packet) : List UInt8 := le 3 p.body.length ++ u8 p.seq ++ p.body

/-- bytes of a run of packets on the wire -/
def wire (ps : List Packet) : List UInt8 := (ps.map Packet.wire).flatten

/-- payload carried by a run of packets -/
def payload (ps : List Packet) : List UInt8 := (ps.map Packet.body).flatten

/-- one complete message: full packets followed by one that is not full; sequence bytes are bytes -/
def IsMessage (ps : List Packet) : Prop :=
  ∃ init last, ps = init ++ [last] ∧ (∀ p ∈ init, p.body.length = 0xffffff) ∧
    last.body.length < 0xffffff ∧ ∀ p ∈ ps, p.seq < 256

/-- sequence numbers are `n`, `n+1`, ... -/
def Numbered (n : Nat) (ps : List Packet) : Prop := ∀ i p, ps[i]? = some p → p.seq = n + i

end Mybin.Spec
