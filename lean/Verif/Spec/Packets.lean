/-
Specification: layout of the generic response packets and the connection-phase packets, transcribed
from the MySQL client/server protocol documentation. Flags are given by bit number. Independent of the
model.
-/
import Verif.Spec.Wire

namespace Mybin.Spec

/-- bit number of a capability flag -/
abbrev CONNECT_WITH_DB : Nat := 3
abbrev PROTOCOL_41 : Nat := 9
abbrev TRANSACTIONS : Nat := 13
abbrev SECURE_CONNECTION : Nat := 15
abbrev PLUGIN_AUTH : Nat := 19
abbrev CONNECT_ATTRS : Nat := 20
abbrev PLUGIN_AUTH_LENENC : Nat := 21
abbrev SESSION_TRACK : Nat := 23
abbrev DEPRECATE_EOF : Nat := 24
/-- bit number of a status flag -/
abbrev MORE_RESULTS : Nat := 3
abbrev SESSION_STATE_CHANGED : Nat := 14

/-- bytes present only if a condition holds -/
def opt (c : Bool) (bs : List UInt8) : List UInt8 := if c then bs else []

/-- fields of an OK packet -/
structure OkFields where
  affectedRows : Nat
  lastInsertId : Nat
  status : Nat
  warnings : Nat
  info : List UInt8
  sessionState : List UInt8

/-- the status word is on the wire -/
def hasStatus (caps : Nat) : Bool := caps.testBit PROTOCOL_41 || caps.testBit TRANSACTIONS

/-- the session-state field is on the wire -/
def hasSessionState (caps status : Nat) : Bool :=
  caps.testBit SESSION_TRACK && hasStatus caps && status.testBit SESSION_STATE_CHANGED

/-- Protocol::OK_Packet (`header` is 0x00, or 0xfe when it replaces EOF) -/
def okPacket (caps header : Nat) (f : OkFields) : List UInt8 :=
  u8 header ++ lenEncInt f.affectedRows ++ lenEncInt f.lastInsertId
    ++ opt (hasStatus caps) (le 2 f.status)
    ++ opt (caps.testBit PROTOCOL_41) (le 2 f.warnings)
    ++ (if caps.testBit SESSION_TRACK then lenEncStr f.info else f.info)
    ++ opt (hasSessionState caps f.status) (lenEncStr f.sessionState)

/-- Protocol::ERR_Packet; `withState` says whether the server includes the SQL state -/
def errPacket (withState : Bool) (code : Nat) (state : List UInt8) (msg : List UInt8) : List UInt8 :=
  u8 0xff ++ le 2 code ++ opt withState (u8 0x23 ++ state) ++ msg

/-- Protocol::EOF_Packet -/
def eofPacket (caps warnings status : Nat) : List UInt8 :=
  u8 0xfe ++ opt (caps.testBit PROTOCOL_41) (le 2 warnings ++ le 2 status)

/-- Protocol::AuthSwitchRequest -/
def authSwitch (plugin data : List UInt8) : List UInt8 := u8 0xfe ++ nulStr plugin ++ data

/-- Protocol::AuthMoreData -/
def authMoreData (data : List UInt8) : List UInt8 := u8 0x01 ++ data

/-- fields of the initial handshake -/
structure HandshakeFields where
  version : Nat
  serverVersion : List UInt8
  connectionId : Nat
  data1 : List UInt8
  filler : Nat
  charset : Nat
  status : Nat
  caps : Nat
  authLen : Nat
  reserved : List UInt8
  data2 : List UInt8
  pluginName : List UInt8

/-- Protocol::HandshakeV10 -/
def handshakeV10 (f : HandshakeFields) : List UInt8 :=
  u8 f.version ++ nulStr f.serverVersion ++ le 4 f.connectionId ++ f.data1 ++ u8 f.filler
    ++ le 2 (f.caps % 65536) ++ u8 f.charset ++ le 2 f.status ++ le 2 (f.caps / 65536)
    ++ u8 f.authLen ++ f.reserved
    ++ opt (f.caps.testBit SECURE_CONNECTION) f.data2
    ++ opt (f.caps.testBit PLUGIN_AUTH) (nulStr f.pluginName)

/-- the protocol's length of auth-plugin-data-part-2 -/
def data2Len (authLen : Nat) : Nat := max 13 (authLen - 8)

/-- fields of the client's handshake response -/
structure ResponseFields where
  caps : Nat
  maxPacket : Nat
  charset : Nat
  user : List UInt8
  auth : List UInt8
  db : List UInt8
  plugin : List UInt8
  attrs : List (List UInt8 × List UInt8)

/-- connection attributes: a length-prefixed sequence of key/value pairs -/
def attrBytes (attrs : List (List UInt8 × List UInt8)) : List UInt8 :=
  (attrs.map fun (k, v) => lenEncStr k ++ lenEncStr v).flatten

/-- Protocol::HandshakeResponse41. The auth response is length-encoded if both sides agreed on
PLUGIN_AUTH_LENENC_CLIENT_DATA, otherwise one length byte (SECURE_CONNECTION), otherwise NUL-terminated. -/
def handshakeResponse41 (f : ResponseFields) : List UInt8 :=
  le 4 f.caps ++ le 4 f.maxPacket ++ u8 f.charset ++ List.replicate 23 0 ++ nulStr f.user
    ++ (if f.caps.testBit PLUGIN_AUTH_LENENC then lenEncStr f.auth
        else if f.caps.testBit SECURE_CONNECTION then u8 f.auth.length ++ f.auth
        else nulStr f.auth)
    ++ opt (f.caps.testBit CONNECT_WITH_DB) (nulStr f.db)
    ++ opt (f.caps.testBit PLUGIN_AUTH) (nulStr f.plugin)
    ++ opt (f.caps.testBit CONNECT_ATTRS) (lenEncStr (attrBytes f.attrs))

end Mybin.Spec
