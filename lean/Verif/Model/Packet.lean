/-
Model of `mybin-core/src/packet.rs`, `resp.rs`, `quit.rs` and the decoders of `handshake.rs`.
-/
import Verif.Model.MyEnc
import Verif.Model.Utf8
import Verif.Model.Flag

namespace Mybin

/-- packet.rs:11-16 -/
structure RawPacket where
  payloadLen : Nat
  seqId : Nat
  payload : Bytes
  deriving DecidableEq, Repr

/-- packet.rs:18-29 -/
def RawPacket.readFrom : P RawPacket := do
  let payloadLen ← readLeU24
  let seqId ← readU8
  let payload ← readLen payloadLen
  return ⟨payloadLen, seqId, payload⟩

/-- packet.rs:78-94 -/
structure OkPacket where
  header : Nat
  affectedRows : Nat
  lastInsertId : Nat
  statusFlags : Nat
  warnings : Nat
  info : Bytes
  sessionStateChanges : Bytes
  deriving DecidableEq, Repr

/-- packet.rs:97-149 -/
def OkPacket.readFrom (caps : Nat) : P OkPacket := do
  let header ← readU8
  let affectedRows ← readLenEncInt
  let affectedRows ← P.orErr affectedRows.toU64 .constraint
  let lastInsertId ← readLenEncInt
  let lastInsertId ← P.orErr lastInsertId.toU64 .constraint
  let statusFlags ←
    (if hasFlag caps Cap.PROTOCOL_41 || hasFlag caps Cap.TRANSACTIONS then do
      let s ← readLeU16
      P.orErr (statusFromBits s) .constraint
    else pure 0 : P Nat)
  let warnings ← (if hasFlag caps Cap.PROTOCOL_41 then readLeU16 else pure 0 : P Nat)
  let info ←
    (if hasFlag caps Cap.SESSION_TRACK then do
      let i ← readLenEncStr
      P.orErr i.intoBytes .constraint
    else readRest : P Bytes)
  let sessionStateChanges ←
    (if hasFlag caps Cap.SESSION_TRACK && hasFlag statusFlags Status.SESSION_STATE_CHANGED then do
      let s ← readLenEncStr
      P.orErr s.intoBytes .constraint
    else pure [] : P Bytes)
  return ⟨header, affectedRows, lastInsertId, statusFlags, warnings, info, sessionStateChanges⟩

/-- packet.rs:155-165 -/
structure ErrPacket where
  header : Nat
  errorCode : Nat
  sqlStateMarker : Nat
  sqlState : Bytes
  errorMessage : Bytes
  deriving DecidableEq, Repr

/-- packet.rs:168-191 -/
def ErrPacket.readFrom (caps : Nat) (sql : Bool) : P ErrPacket := do
  let header ← readU8
  let errorCode ← readLeU16
  let (marker, state) ←
    (if sql && hasFlag caps Cap.PROTOCOL_41 then do
      let m ← readU8
      let s ← readLen 5
      pure (m, s)
    else pure (0, []) : P (Nat × Bytes))
  let errorMessage ← readRest
  return ⟨header, errorCode, marker, state, errorMessage⟩

/-- packet.rs:197-204 -/
structure EofPacket where
  header : Nat
  warnings : Nat
  statusFlags : Nat
  deriving DecidableEq, Repr

/-- packet.rs:207-224 -/
def EofPacket.readFrom (caps : Nat) : P EofPacket := do
  let header ← readU8
  let (warnings, statusFlags) ←
    (if hasFlag caps Cap.PROTOCOL_41 then do
      let w ← readLeU16
      let s ← readLeU16
      let s ← P.orErr (statusFromBits s) .constraint
      pure (w, s)
    else pure (0, 0) : P (Nat × Nat))
  return ⟨header, warnings, statusFlags⟩

/-- handshake.rs:168-175 -/
structure AuthSwitchRequest where
  header : Nat
  pluginName : Bytes
  authPluginData : Bytes
  deriving DecidableEq, Repr

/-- handshake.rs:177-194 -/
def AuthSwitchRequest.readFrom : P AuthSwitchRequest := do
  let header ← readU8
  if header ≠ 0xfe then P.fail .constraint
  else do
    let pluginName ← readUntil 0 false
    let data ← readRest
    let pluginName ← toUtf8 pluginName
    return ⟨header, pluginName, data⟩

/-- handshake.rs:196-200 -/
structure AuthMoreData where
  header : Nat
  pluginData : Bytes
  deriving DecidableEq, Repr

/-- handshake.rs:202-217 -/
def AuthMoreData.readFrom : P AuthMoreData := do
  let header ← readU8
  if header ≠ 0x01 then P.fail .constraint
  else do
    let data ← readRest
    return ⟨header, data⟩

/-- packet.rs:40-46 -/
inductive HandshakeMessage where
  | ok (p : OkPacket)
  | err (p : ErrPacket)
  | switch (p : AuthSwitchRequest)
  | moreData (p : AuthMoreData)
  deriving DecidableEq, Repr

/-- packet.rs:49-72 -/
def HandshakeMessage.readFrom (caps : Nat) : P HandshakeMessage := fun bs =>
  match bs with
  | [] => .err (.incomplete none) bs
  | b :: _ =>
    (if b = 0x00 then do return .ok (← OkPacket.readFrom caps)
     else if b = 0x01 then do return .moreData (← AuthMoreData.readFrom)
     else if b = 0xff then do return .err (← ErrPacket.readFrom caps false)
     else if b = 0xfe then do return .switch (← AuthSwitchRequest.readFrom)
     else P.fail .constraint : P HandshakeMessage) bs

/-- resp.rs:6-10 -/
inductive ComResponse where
  | ok (p : OkPacket)
  | err (p : ErrPacket)
  deriving DecidableEq, Repr

/-- resp.rs:13-28 -/
def ComResponse.readFrom (caps : Nat) : P ComResponse := fun bs =>
  match bs with
  | [] => .err (.incomplete none) bs
  | b :: _ =>
    (if b = 0x00 then do return .ok (← OkPacket.readFrom caps)
     else if b = 0xff then do return .err (← ErrPacket.readFrom caps true)
     else P.fail .constraint : P ComResponse) bs

/-- handshake.rs:7-23 -/
structure InitialHandshake where
  protocolVersion : Nat
  serverVersion : Bytes
  connectionId : Nat
  authPluginData1 : Bytes
  charset : Nat
  statusFlags : Nat
  capabilityFlags : Nat
  authPluginDataLength : Nat
  authPluginData2 : Bytes
  authPluginName : Bytes
  deriving DecidableEq, Repr

/-- handshake.rs:26-66. `auth_plugin_data_length - 8` (line 43) is a `u8` subtraction: it panics below
8 in a build with overflow checks. -/
def InitialHandshake.readFrom : P InitialHandshake := do
  let protocolVersion ← readU8
  let serverVersion ← readUntil 0 false
  let connectionId ← readLeU32
  let authPluginData1 ← readLen 8
  let _ ← readLen 1
  let lower ← readLeU16
  let charset ← readU8
  let statusFlags ← readLeU16
  let upper ← readLeU16
  let authPluginDataLength ← readU8
  let _ ← readLen 10
  let capabilityFlags := lower ||| (upper <<< 16)
  let capFlags := capabilityFlags &&& Cap.ALL
  let authPluginData2 ←
    (if hasFlag capFlags Cap.SECURE_CONNECTION then
      if authPluginDataLength < 8 then P.panic
      else readLen (max 13 (authPluginDataLength - 8))
    else pure [] : P Bytes)
  let authPluginName ←
    (if hasFlag capFlags Cap.PLUGIN_AUTH then do
      let apn ← readUntil 0 false
      toUtf8 apn
    else pure [] : P Bytes)
  return ⟨protocolVersion, serverVersion, connectionId, authPluginData1, charset, statusFlags,
    capabilityFlags, authPluginDataLength, authPluginData2, authPluginName⟩

/-- handshake.rs:162-166 -/
structure ConnectAttr where
  key : Bytes
  value : Bytes
  deriving DecidableEq, Repr

/-- handshake.rs:74-89 -/
structure HandshakeResponse41 where
  capabilityFlags : Nat
  maxPacketSize : Nat := 0xffffff
  charset : Nat := 33
  username : Bytes := []
  authResponse : Bytes := []
  database : Bytes := []
  authPluginName : Bytes := []
  connectAttrs : List ConnectAttr := []
  deriving DecidableEq, Repr

/-- handshake.rs:128-135: the attribute loop, appending to `lb` -/
def writeConnectAttrs (lb : Bytes) : List ConnectAttr → Bytes
  | [] => lb
  | a :: as =>
    let lb := ((LenEncInt.ofU64 a.key.length).writeTo lb).1
    let lb := (writeBytes lb a.key).1
    let lb := ((LenEncInt.ofU64 a.value.length).writeTo lb).1
    let lb := (writeBytes lb a.value).1
    writeConnectAttrs lb as

/-- handshake.rs:93-142; returns the new buffer and the reported length -/
def HandshakeResponse41.writeTo (out : Bytes) (r : HandshakeResponse41) : Bytes × Nat :=
  let len := 0
  let (out, n) := writeLeU32 out r.capabilityFlags; let len := len + n
  let (out, n) := writeLeU32 out r.maxPacketSize; let len := len + n
  let (out, n) := writeU8 out r.charset; let len := len + n
  let (out, n) := writeBytes out (List.replicate 23 0); let len := len + n
  let (out, n) := writeBytes out r.username; let len := len + n
  let (out, n) := writeU8 out 0; let len := len + n
  let (out, n) := (LenEncInt.ofU64 r.authResponse.length).writeTo out; let len := len + n
  let (out, n) := writeBytes out r.authResponse; let len := len + n
  let (out, len) :=
    if hasFlag r.capabilityFlags Cap.CONNECT_WITH_DB then
      let (out, n) := writeBytes out r.database; let len := len + n
      let (out, n) := writeU8 out 0; (out, len + n)
    else (out, len)
  let (out, len) :=
    if hasFlag r.capabilityFlags Cap.PLUGIN_AUTH then
      let (out, n) := writeBytes out r.authPluginName; let len := len + n
      let (out, n) := writeU8 out 0; (out, len + n)
    else (out, len)
  if hasFlag r.capabilityFlags Cap.CONNECT_ATTRS then
    let lb := writeConnectAttrs [] r.connectAttrs
    let (out, n) := (LenEncInt.ofU64 lb.length).writeTo out; let len := len + n
    let (out, n) := writeBytes out lb; (out, len + n)
  else (out, len)

end Mybin
