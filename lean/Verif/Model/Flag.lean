/-
Model of `mybin-core/src/flag.rs`. A `bitflags` value is its bits.
-/
import Verif.Model.Parser

namespace Mybin

/-- `bitflags`' `contains` -/
def hasFlag (bits flag : Nat) : Bool := bits &&& flag == flag

namespace Cap
/-- flag.rs:8 -/
def LONG_PASSWORD : Nat := 0x00000001
/-- flag.rs:11 -/
def CONNECT_WITH_DB : Nat := 0x00000008
/-- flag.rs:17 -/
def PROTOCOL_41 : Nat := 0x00000200
/-- flag.rs:19 -/
def SSL : Nat := 0x00000800
/-- flag.rs:21 -/
def TRANSACTIONS : Nat := 0x00002000
/-- flag.rs:23 -/
def SECURE_CONNECTION : Nat := 0x00008000
/-- flag.rs:24 -/
def MULTI_STATEMENTS : Nat := 0x00010000
/-- flag.rs:25 -/
def MULTI_RESULTS : Nat := 0x00020000
/-- flag.rs:26 -/
def PS_MULTI_RESULTS : Nat := 0x00040000
/-- flag.rs:27 -/
def PLUGIN_AUTH : Nat := 0x00080000
/-- flag.rs:28 -/
def CONNECT_ATTRS : Nat := 0x00100000
/-- flag.rs:29 -/
def PLUGIN_AUTH_LENENC_CLIENT_DATA : Nat := 0x00200000
/-- flag.rs:31 -/
def SESSION_TRACK : Nat := 0x00800000
/-- flag.rs:32 -/
def DEPRECATE_EOF : Nat := 0x01000000
/-- flag.rs:7-35: union of all defined flags, the mask of `from_bits_truncate` -/
def ALL : Nat := 0xc1ffffff
end Cap

namespace Status
/-- flag.rs:84 -/
def MORE_RESULTS_EXISTS : Nat := 0x0008
/-- flag.rs:95 -/
def SESSION_STATE_CHANGED : Nat := 0x4000
/-- flag.rs:79-96: union of all defined flags -/
def ALL : Nat := 0x7fff
end Status

/-- `StatusFlags::from_bits(bits)`: `None` if an undefined bit is set -/
def statusFromBits (bits : Nat) : Option Nat :=
  if bits &&& Status.ALL = bits then some bits else none

/-- flag.rs:71-76 -/
def writeCapFlags (out : Bytes) (bits : Nat) : Bytes × Nat := writeLeU32 out bits

end Mybin
