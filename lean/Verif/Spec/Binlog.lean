/-
Specification of the binary log format (v4): events, format description, checksums. Written from the
MySQL documentation; independent of the model.
-/
import Verif.Spec.Wire
import Verif.Spec.Crc

namespace Mybin.Spec

/-- the codes of the event types the parser returns; all others are skipped -/
def supportedCodes : List Nat :=
  [1, 2, 3, 4, 5, 6, 8, 9, 10, 11, 12, 13, 14, 15, 16, 17, 18, 19, 23, 24, 25, 26, 27, 30, 31, 32, 33,
    34, 35]

/-- an event: header fields and payload -/
structure LogEvent where
  timestamp : Nat
  code : Nat
  serverId : Nat
  nextPos : Nat
  flags : Nat
  payload : List UInt8

/-- field widths; 38 is the last event code, 0x3ff all flags in use -/
def LogEvent.InRange (e : LogEvent) : Prop :=
  e.timestamp < 2 ^ 32 ∧ e.code ≤ 38 ∧ e.serverId < 2 ^ 32 ∧ e.nextPos < 2 ^ 32 ∧ e.flags < 2 ^ 10 ∧
    e.payload.length + 23 < 2 ^ 32

/-- length of the event on disk -/
def LogEvent.len (crc : Bool) (e : LogEvent) : Nat := 19 + e.payload.length + (if crc then 4 else 0)

/-- header and payload -/
def LogEvent.body (crc : Bool) (e : LogEvent) : List UInt8 :=
  le 4 e.timestamp ++ u8 e.code ++ le 4 e.serverId ++ le 4 (e.len crc) ++ le 4 e.nextPos
    ++ le 2 e.flags ++ e.payload

/-- the event on disk; with checksums, CRC-32 of everything before it follows -/
def LogEvent.encode (crc : Bool) (e : LogEvent) : List UInt8 :=
  e.body crc ++ (if crc then le 4 (crc32 (e.body crc)) else [])

/-- a format description: `lens` holds the post-header lengths of the event types 1, 2, 3, ...; the one
of the format description itself (type 15) is 57 plus their number -/
structure Fde where
  version : Nat
  server : List UInt8
  junk : List UInt8
  timestamp : Nat
  headerLen : Nat
  lens : List UInt8

def Fde.Ok (f : Fde) : Prop :=
  f.version < 2 ^ 16 ∧ (0 : UInt8) ∉ f.server ∧ f.server.length + 1 + f.junk.length = 50 ∧
    f.timestamp < 2 ^ 32 ∧ f.headerLen < 2 ^ 8 ∧
    ∃ b, f.lens[14]? = some b ∧ b.toNat = 57 + f.lens.length

/-- payload up to the post-header lengths -/
def Fde.encode (f : Fde) : List UInt8 :=
  le 2 f.version ++ (f.server ++ [0] ++ f.junk) ++ le 4 f.timestamp ++ u8 f.headerLen ++ f.lens

/-- the first bytes of every binlog file -/
def magic : List UInt8 := [0xfe, 0x62, 0x69, 0x6e]

/-- `a` and `b` have the same length, differ, and all differing bits lie within 32 consecutive bits -/
def Burst (a b : List UInt8) : Prop :=
  a.length = b.length ∧ a ≠ b ∧
    ∃ pos, ∀ i, (messageBits a)[i]? ≠ (messageBits b)[i]? → pos ≤ i ∧ i < pos + 32

end Mybin.Spec
