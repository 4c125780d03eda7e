/-
Specification: how the server reads what the client sends (connection phase and commands), from the
protocol documentation. Independent of the model.
-/
import Verif.Spec.Grammar
import Verif.Spec.Packets

namespace Mybin.Spec

/-- read only if a flag is set, otherwise a default -/
def D.when {α : Type} (c : Bool) (p : D α) (dflt : α) : D α := if c then p else pure dflt

/-- one connection attribute -/
def D.attr : D (List UInt8 × List UInt8) := do
  let k ← D.lenEncStr
  let v ← D.lenEncStr
  return (k, v)

/-- connection attributes: one length-encoded string holding key/value pairs -/
def D.attrs : D (List (List UInt8 × List UInt8)) := do
  let s ← D.lenEncStr
  D.ofOption (D.many D.attr s)

/-- server side of Protocol::HandshakeResponse41 -/
def D.handshakeResponse41 : D ResponseFields := do
  let caps ← D.le 4
  let maxPacket ← D.le 4
  let charset ← D.u8
  let _ ← D.bytes 23
  let user ← D.nulStr
  let auth ← (if caps.testBit PLUGIN_AUTH_LENENC then D.lenEncStr
    else if caps.testBit SECURE_CONNECTION then (do let n ← D.u8; D.bytes n)
    else D.nulStr : D (List UInt8))
  let db ← D.when (caps.testBit CONNECT_WITH_DB) D.nulStr []
  let plugin ← D.when (caps.testBit PLUGIN_AUTH) D.nulStr []
  let attrs ← D.when (caps.testBit CONNECT_ATTRS) D.attrs []
  return ⟨caps, maxPacket, charset, user, auth, db, plugin, attrs⟩

/-- commands as the server understands them -/
inductive ServerCmd where
  | quit
  | initDb (schema : List UInt8)
  | query (q : List UInt8)
  | fieldList (table wildcard : List UInt8)
  | createDb (schema : List UInt8)
  | dropDb (schema : List UInt8)
  | refresh (flags : Nat)
  | statistics
  | processInfo
  | processKill (id : Nat)
  | debug
  | ping
  | changeUser (user auth schema : List UInt8) (charset : Nat) (plugin : List UInt8)
      (attrs : List (List UInt8 × List UInt8))
  | binlogDump (pos flags serverId : Nat) (file : List UInt8)
  | tableDump (db table : List UInt8)
  | registerSlave (serverId : Nat) (host user password : List UInt8) (port rank master : Nat)
  | stmtPrepare (q : List UInt8)
  | stmtClose (id : Nat)
  | stmtReset (id : Nat)
  | setOption (op : Nat)
  | stmtFetch (id rows : Nat)
  | binlogDumpGtid (flags serverId : Nat) (file : List UInt8) (pos : Nat) (data : List UInt8)
  | resetConnection

/-- a string prefixed by one length byte -/
def D.shortStr : D (List UInt8) := do
  let n ← D.u8
  D.bytes n

/-- COM_* packets, read under the negotiated capability flags -/
def D.command (caps : Nat) : D ServerCmd := do
  let code ← D.u8
  if code = 0x01 then return .quit
  else if code = 0x02 then return .initDb (← D.rest)
  else if code = 0x03 then return .query (← D.rest)
  else if code = 0x04 then return .fieldList (← D.nulStr) (← D.rest)
  else if code = 0x05 then return .createDb (← D.rest)
  else if code = 0x06 then return .dropDb (← D.rest)
  else if code = 0x07 then return .refresh (← D.u8)
  else if code = 0x09 then return .statistics
  else if code = 0x0a then return .processInfo
  else if code = 0x0c then return .processKill (← D.le 4)
  else if code = 0x0d then return .debug
  else if code = 0x0e then return .ping
  else if code = 0x11 then do
    let user ← D.nulStr
    let auth ← (if caps.testBit SECURE_CONNECTION then D.shortStr else D.nulStr : D (List UInt8))
    let schema ← D.nulStr
    let charset ← D.le 2
    let plugin ← D.when (caps.testBit PLUGIN_AUTH) D.nulStr []
    let attrs ← D.when (caps.testBit CONNECT_ATTRS) D.attrs []
    return .changeUser user auth schema charset plugin attrs
  else if code = 0x12 then return .binlogDump (← D.le 4) (← D.le 2) (← D.le 4) (← D.rest)
  else if code = 0x13 then return .tableDump (← D.shortStr) (← D.shortStr)
  else if code = 0x15 then
    return .registerSlave (← D.le 4) (← D.shortStr) (← D.shortStr) (← D.shortStr) (← D.le 2)
      (← D.le 4) (← D.le 4)
  else if code = 0x16 then return .stmtPrepare (← D.rest)
  else if code = 0x19 then return .stmtClose (← D.le 4)
  else if code = 0x1a then return .stmtReset (← D.le 4)
  else if code = 0x1b then return .setOption (← D.le 2)
  else if code = 0x1c then return .stmtFetch (← D.le 4) (← D.le 4)
  else if code = 0x1e then do
    let flags ← D.le 2
    let serverId ← D.le 4
    let n ← D.le 4
    let file ← D.bytes n
    let pos ← D.le 8
    let m ← D.le 4
    let data ← D.bytes m
    return .binlogDumpGtid flags serverId file pos data
  else if code = 0x1f then return .resetConnection
  else D.reject

end Mybin.Spec
