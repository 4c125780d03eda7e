/-
Model of `checksum_crc32` (mybin-core/src/util.rs:3-7), which calls `crc_any::CRCu32::crc32()`. The crate
is a dependency and not part of /repo; what is modelled is its documented algorithm CRC-32/ISO-HDLC
(reflected polynomial 0xEDB88320, initial value and final xor 0xFFFFFFFF), one bit at a time.
-/
import Verif.Model.Parser

namespace Mybin

/-- shift one input bit into the register -/
def crcBit (s : BitVec 32) (b : Bool) : BitVec 32 :=
  (s >>> 1) ^^^ (if s.getLsbD 0 ^^ b then 0xEDB88320#32 else 0#32)

/-- the bits of a byte, least significant first -/
def byteBits (b : UInt8) : List Bool := (List.range 8).map (b.toNat.testBit ·)

/-- util.rs:3-7 -/
def checksumCrc32 (bs : Bytes) : Nat :=
  ((bs.flatMap byteBits).foldl crcBit 0xFFFFFFFF#32 ^^^ 0xFFFFFFFF#32).toNat

end Mybin
