/-
Model of the command table in `mybin-core/src/lib.rs` and of the command writers/readers in
`mybin-core/src/cmd/*.rs` and `quit.rs`. A Rust `String` is modelled by its UTF-8 bytes.
-/
import Verif.Model.Packet

namespace Mybin

/-- lib.rs:25-59 -/
inductive Command where
  | sleep | quit | initDB | query | fieldList | createDB | dropDB | refresh | shutdown | statistics
  | processInfo | connect | processKill | debug | ping | time | delayedInsert | changeUser | binlogDump
  | tableDump | connectOut | registerSlave | stmtPrepare | stmtExecute | stmtSendLongData | stmtClose
  | stmtReset | setOption | stmtFetch | daemon | binlogDumpGtid | resetConnection
  deriving DecidableEq, Repr

/-- lib.rs:62-97 -/
def Command.toByte : Command → Nat
  | sleep => 0x00 | quit => 0x01 | initDB => 0x02 | query => 0x03 | fieldList => 0x04
  | createDB => 0x05 | dropDB => 0x06 | refresh => 0x07 | shutdown => 0x08 | statistics => 0x09
  | processInfo => 0x0a | connect => 0x0b | processKill => 0x0c | debug => 0x0d | ping => 0x0e
  | time => 0x0f | delayedInsert => 0x10 | changeUser => 0x11 | binlogDump => 0x12
  | tableDump => 0x13 | connectOut => 0x14 | registerSlave => 0x15 | stmtPrepare => 0x16
  | stmtExecute => 0x17 | stmtSendLongData => 0x18 | stmtClose => 0x19 | stmtReset => 0x1a
  | setOption => 0x1b | stmtFetch => 0x1c | daemon => 0x1d | binlogDumpGtid => 0x1e
  | resetConnection => 0x1f

/-- lib.rs:102-139; `none` is `Err(InvalidCommandCode)` -/
def Command.tryFrom : Nat → Option Command
  | 0x00 => some sleep | 0x01 => some quit | 0x02 => some initDB | 0x03 => some query
  | 0x04 => some fieldList | 0x05 => some createDB | 0x06 => some dropDB | 0x07 => some refresh
  | 0x08 => some shutdown | 0x09 => some statistics | 0x0a => some processInfo | 0x0b => some connect
  | 0x0c => some processKill | 0x0d => some debug | 0x0e => some ping | 0x0f => some time
  | 0x10 => some delayedInsert | 0x11 => some changeUser | 0x12 => some binlogDump
  | 0x13 => some tableDump | 0x14 => some connectOut | 0x15 => some registerSlave
  | 0x16 => some stmtPrepare | 0x17 => some stmtExecute | 0x18 => some stmtSendLongData
  | 0x19 => some stmtClose | 0x1a => some stmtReset | 0x1b => some setOption | 0x1c => some stmtFetch
  | 0x1d => some daemon | 0x1e => some binlogDumpGtid | 0x1f => some resetConnection
  | _ => none

/-- util.rs:67-96 (`single_byte_cmd!`) and quit.rs:17-21: ComQuit, ComStatistics, ComProcessInfo,
ComDebug, ComPing, ComResetConnection -/
def writeSingleByteCmd (out : Bytes) (cmd : Command) : Bytes × Nat := writeU8 out cmd.toByte

/-- cmd/query.rs:24-31, init_db.rs:21-28, create_db.rs:22-29, drop_db.rs:22-29, stmt_prepare.rs:22-29:
command byte followed by a string to the end of the packet -/
def writeStrCmd (out : Bytes) (cmd : Command) (s : Bytes) : Bytes × Nat :=
  let len := 0
  let (out, n) := writeU8 out cmd.toByte; let len := len + n
  let (out, n) := writeBytes out s; let len := len + n
  (out, len)

/-- cmd/query.rs:10-14 -/
def ComQuery.writeTo (out : Bytes) (query : Bytes) : Bytes × Nat := writeStrCmd out .query query
/-- cmd/init_db.rs:12-18 -/
def ComInitDB.writeTo (out : Bytes) (schema : Bytes) : Bytes × Nat := writeStrCmd out .initDB schema
/-- cmd/create_db.rs:14-20 -/
def ComCreateDB.writeTo (out : Bytes) (schema : Bytes) : Bytes × Nat := writeStrCmd out .createDB schema
/-- cmd/drop_db.rs:14-20 -/
def ComDropDB.writeTo (out : Bytes) (schema : Bytes) : Bytes × Nat := writeStrCmd out .dropDB schema
/-- cmd/stmt_prepare.rs:14-20 -/
def ComStmtPrepare.writeTo (out : Bytes) (query : Bytes) : Bytes × Nat := writeStrCmd out .stmtPrepare query

/-- cmd/field_list.rs:29-38 -/
def ComFieldList.writeTo (out : Bytes) (table wildcard : Bytes) : Bytes × Nat :=
  let len := 0
  let (out, n) := writeU8 out Command.fieldList.toByte; let len := len + n
  let (out, n) := writeBytes out table; let len := len + n
  let (out, n) := writeU8 out 0; let len := len + n
  let (out, n) := writeBytes out wildcard; let len := len + n
  (out, len)

/-- cmd/process_kill.rs:22-28 -/
def ComProcessKill.writeTo (out : Bytes) (connId : Nat) : Bytes × Nat :=
  let (out, _) := writeU8 out Command.processKill.toByte
  let (out, _) := writeLeU32 out connId
  (out, 5)

/-- cmd/refresh.rs:23-29 -/
def ComRefresh.writeTo (out : Bytes) (flags : Nat) : Bytes × Nat :=
  let (out, _) := writeU8 out Command.refresh.toByte
  let (out, _) := writeU8 out flags
  (out, 2)

/-- cmd/set_option.rs:23-29 -/
def ComSetOption.writeTo (out : Bytes) (multiStmts : Bool) : Bytes × Nat :=
  let (out, _) := writeU8 out Command.setOption.toByte
  let (out, _) := writeLeU16 out (if multiStmts then 0x0001 else 0x0000)
  (out, 3)

/-- cmd/stmt_close.rs:21-27 -/
def ComStmtClose.writeTo (out : Bytes) (stmtId : Nat) : Bytes × Nat :=
  let (out, _) := writeU8 out Command.stmtClose.toByte
  let (out, _) := writeLeU32 out stmtId
  (out, 5)

/-- cmd/stmt_reset.rs:21-27 -/
def ComStmtReset.writeTo (out : Bytes) (stmtId : Nat) : Bytes × Nat :=
  let (out, _) := writeU8 out Command.stmtReset.toByte
  let (out, _) := writeLeU32 out stmtId
  (out, 5)

/-- cmd/stmt_fetch.rs:24-31 -/
def ComStmtFetch.writeTo (out : Bytes) (stmtId nRows : Nat) : Bytes × Nat :=
  let (out, _) := writeU8 out Command.stmtFetch.toByte
  let (out, _) := writeLeU32 out stmtId
  let (out, _) := writeLeU32 out nRows
  (out, 9)

/-- cmd/table_dump.rs:27-37; `len() as u8` truncates, the string is written whole -/
def ComTableDump.writeTo (out : Bytes) (db table : Bytes) : Bytes × Nat :=
  let len := 0
  let (out, n) := writeU8 out Command.tableDump.toByte; let len := len + n
  let (out, n) := writeU8 out (db.length % 256); let len := len + n
  let (out, n) := writeBytes out db; let len := len + n
  let (out, n) := writeU8 out (table.length % 256); let len := len + n
  let (out, n) := writeBytes out table; let len := len + n
  (out, len)

/-- cmd/register_slave.rs:8-17 -/
structure ComRegisterSlave where
  serverId : Nat
  slaveHostname : Bytes
  slaveUser : Bytes
  slavePassword : Bytes
  slavePort : Nat
  replicationRank : Nat
  masterId : Nat
  deriving DecidableEq, Repr

/-- cmd/register_slave.rs:47-66; strings are cut to their length modulo 256 -/
def ComRegisterSlave.writeTo (out : Bytes) (c : ComRegisterSlave) : Bytes × Nat :=
  let len := 0
  let (out, n) := writeU8 out Command.registerSlave.toByte; let len := len + n
  let (out, n) := writeLeU32 out c.serverId; let len := len + n
  let hlen := c.slaveHostname.length % 256
  let (out, n) := writeU8 out hlen; let len := len + n
  let (out, n) := writeBytes out (c.slaveHostname.take hlen); let len := len + n
  let ulen := c.slaveUser.length % 256
  let (out, n) := writeU8 out ulen; let len := len + n
  let (out, n) := writeBytes out (c.slaveUser.take ulen); let len := len + n
  let plen := c.slavePassword.length % 256
  let (out, n) := writeU8 out plen; let len := len + n
  let (out, n) := writeBytes out (c.slavePassword.take plen); let len := len + n
  let (out, n) := writeLeU16 out c.slavePort; let len := len + n
  let (out, n) := writeLeU32 out c.replicationRank; let len := len + n
  let (out, n) := writeLeU32 out c.masterId; let len := len + n
  (out, len)

/-- cmd/change_user.rs:12-20 -/
structure ComChangeUser where
  user : Bytes
  authResponse : Bytes
  schemaName : Bytes
  charset : Nat := 33
  authPluginName : Bytes
  connectAttrs : List ConnectAttr
  deriving DecidableEq, Repr

/-- cmd/change_user.rs:71-77: the attribute loop -/
def writeChangeUserAttrs (buf : Bytes) : List ConnectAttr → Bytes
  | [] => buf
  | a :: as =>
    let buf := ((LenEncStr.bytes a.key).writeTo buf).1
    let buf := ((LenEncStr.bytes a.value).writeTo buf).1
    writeChangeUserAttrs buf as

/-- cmd/change_user.rs:50-82; `len() as u8` truncates, the auth response is written whole -/
def ComChangeUser.writeTo (out : Bytes) (caps : Nat) (c : ComChangeUser) : Bytes × Nat :=
  let len := 0
  let (out, n) := writeU8 out Command.changeUser.toByte; let len := len + n
  let (out, n) := writeBytes out c.user; let len := len + n
  let (out, n) := writeU8 out 0; let len := len + n
  let (out, len) :=
    if hasFlag caps Cap.SECURE_CONNECTION then
      let (out, n) := writeU8 out (c.authResponse.length % 256); let len := len + n
      let (out, n) := writeBytes out c.authResponse; (out, len + n)
    else
      let (out, n) := writeBytes out c.authResponse; let len := len + n
      let (out, n) := writeU8 out 0; (out, len + n)
  let (out, n) := writeBytes out c.schemaName; let len := len + n
  let (out, n) := writeU8 out 0; let len := len + n
  let (out, n) := writeLeU16 out c.charset; let len := len + n
  let (out, len) :=
    if hasFlag caps Cap.PLUGIN_AUTH then
      let (out, n) := writeBytes out c.authPluginName; let len := len + n
      let (out, n) := writeU8 out 0; (out, len + n)
    else (out, len)
  if hasFlag caps Cap.CONNECT_ATTRS then
    let buf := writeChangeUserAttrs [] c.connectAttrs
    let (out, n) := (LenEncStr.bytes buf).writeTo out; (out, len + n)
  else (out, len)

/-- cmd/change_user.rs:85-91 -/
abbrev ComChangeUserResponse := HandshakeMessage

/-- cmd/change_user.rs:94-120: like the handshake answer, but ERR is read with its SQL state -/
def ComChangeUserResponse.readFrom (caps : Nat) : P ComChangeUserResponse := fun bs =>
  match bs with
  | [] => .err (.incomplete none) bs
  | b :: _ =>
    (if b = 0xff then do return .err (← ErrPacket.readFrom caps true)
     else if b = 0x00 then do return .ok (← OkPacket.readFrom caps)
     else if b = 0x01 then do return .moreData (← AuthMoreData.readFrom)
     else if b = 0xfe then do return .switch (← AuthSwitchRequest.readFrom)
     else P.fail .constraint : P HandshakeMessage) bs

/-- cmd/simple.rs:15-18 and cmd/set_option.rs:31-35 -/
inductive EofResponse where
  | eof (p : EofPacket)
  | err (p : ErrPacket)
  deriving DecidableEq, Repr

/-- cmd/simple.rs:21-39 (ComDebugResponse) and cmd/set_option.rs:38-58 (ComSetOptionResponse) -/
def EofResponse.readFrom (caps : Nat) : P EofResponse := fun bs =>
  match bs with
  | [] => .err (.incomplete none) bs
  | b :: _ =>
    (if b = 0xfe then do return .eof (← EofPacket.readFrom caps)
     else if b = 0xff then do return .err (← ErrPacket.readFrom caps true)
     else P.fail .constraint : P EofResponse) bs

/-- `Vec::with_capacity(n)` for elements of `sz` bytes: panics ("capacity overflow") when the size
exceeds `isize::MAX`. The abort when the allocator cannot serve a smaller request is not modelled. -/
def withCapacity (n sz : Nat) : P Unit := if n * sz < 2 ^ 63 then pure () else P.panic

/-- `for _ in 0..n { v.push(p(input)?) }` -/
def P.times {α : Type} (p : P α) : Nat → P (List α)
  | 0 => pure []
  | n + 1 => do
    let a ← p
    let as ← P.times p n
    return a :: as

/-- cmd/binlog_dump.rs:10-16 -/
structure ComBinlogDump where
  cmd : Command := .binlogDump
  binlogPos : Nat := 4
  flags : Nat := 0
  serverId : Nat := 0
  binlogFilename : Bytes := []
  deriving DecidableEq, Repr

/-- cmd/binlog_dump.rs:60-82 -/
def ComBinlogDump.readFrom : P ComBinlogDump := do
  let cmd ← readU8
  let cmd ← P.orErr (Command.tryFrom cmd) .constraint
  let binlogPos ← readLeU32
  let flags ← readLeU16
  let serverId ← readLeU32
  let file ← readRest
  let file ← toUtf8 file
  return ⟨cmd, binlogPos, flags, serverId, file⟩

/-- cmd/binlog_dump.rs:85-95 -/
def ComBinlogDump.writeTo (out : Bytes) (c : ComBinlogDump) : Bytes × Nat :=
  let len := 0
  let (out, n) := writeU8 out c.cmd.toByte; let len := len + n
  let (out, n) := writeLeU32 out c.binlogPos; let len := len + n
  let (out, n) := writeLeU16 out c.flags; let len := len + n
  let (out, n) := writeLeU32 out c.serverId; let len := len + n
  let (out, n) := writeBytes out c.binlogFilename; let len := len + n
  (out, len)

/-- cmd/binlog_dump.rs:275-280 -/
structure SidRange where
  sid : Nat
  intervals : List (Int × Int)
  deriving DecidableEq, Repr

/-- cmd/binlog_dump.rs:282-286 -/
def SidRange.bytesLen (s : SidRange) : Nat := 16 + 8 + 16 * s.intervals.length

/-- cmd/binlog_dump.rs:293-297: one interval -/
def readInterval : P (Int × Int) := do
  let start ← readLeI64
  let stop ← readLeI64
  return (start, stop)

/-- cmd/binlog_dump.rs:288-300 -/
def SidRange.readFrom : P SidRange := do
  let sid ← readLeU128
  let n ← readLeU64
  let _ ← withCapacity n 16
  let intervals ← P.times readInterval n
  return ⟨sid, intervals⟩

/-- cmd/binlog_dump.rs:309-312: the interval loop, with the running length -/
def writeIntervals (out : Bytes) (len : Nat) : List (Int × Int) → Bytes × Nat
  | [] => (out, len)
  | (s, e) :: t =>
    let (out, n) := writeLeI64 out s; let len := len + n
    let (out, n) := writeLeI64 out e; let len := len + n
    writeIntervals out len t

/-- cmd/binlog_dump.rs:303-314 -/
def SidRange.writeTo (out : Bytes) (s : SidRange) : Bytes × Nat :=
  let len := 0
  let (out, n) := writeLeU128 out s.sid; let len := len + n
  let (out, n) := writeLeU64 out s.intervals.length; let len := len + n
  writeIntervals out len s.intervals

/-- cmd/binlog_dump.rs:244-246 -/
def SidData.bytesLen (d : List SidRange) : Nat := (d.map SidRange.bytesLen).sum + 8

/-- cmd/binlog_dump.rs:249-259; a `SidRange` takes 48 bytes (a 16-byte aligned u128 and a Vec) -/
def SidData.readFrom : P (List SidRange) := do
  let n ← readLeU64
  let _ ← withCapacity n 48
  P.times SidRange.readFrom n

/-- cmd/binlog_dump.rs:268-270: the loop, with the running length -/
def writeSids (out : Bytes) (len : Nat) : List SidRange → Bytes × Nat
  | [] => (out, len)
  | s :: t =>
    let (out, n) := s.writeTo out; let len := len + n
    writeSids out len t

/-- cmd/binlog_dump.rs:262-272 -/
def SidData.writeTo (out : Bytes) (d : List SidRange) : Bytes × Nat :=
  let len := 0
  let (out, n) := writeLeU64 out d.length; let len := len + n
  writeSids out len d

/-- cmd/binlog_dump.rs:99-109 -/
structure ComBinlogDumpGtid where
  cmd : Command := .binlogDumpGtid
  flags : Nat := 2
  serverId : Nat := 0
  binlogFilename : Bytes := []
  binlogPos : Nat := 4
  sidData : List SidRange := []
  deriving DecidableEq, Repr

/-- cmd/binlog_dump.rs:227-233, `from_bits` -/
def gtidFlagsFromBits (n : Nat) : Option Nat := if n &&& 7 = n then some n else none

/-- cmd/binlog_dump.rs:137-146 -/
def ComBinlogDumpGtid.useGtid (c : ComBinlogDumpGtid) (use : Bool) : ComBinlogDumpGtid :=
  if use then { c with flags := (c.flags &&& 5) ||| 4 } else { c with flags := (c.flags ||| 2) &&& 3 }

/-- cmd/binlog_dump.rs:151-158 -/
def ComBinlogDumpGtid.nonBlock (c : ComBinlogDumpGtid) (nb : Bool) : ComBinlogDumpGtid :=
  if nb then { c with flags := c.flags ||| 1 } else { c with flags := c.flags &&& 6 }

/-- cmd/binlog_dump.rs:175-206 -/
def ComBinlogDumpGtid.readFrom : P ComBinlogDumpGtid := do
  let cmd ← readU8
  let cmd ← P.orErr (Command.tryFrom cmd) .constraint
  let flags ← readLeU16
  let flags ← P.orErr (gtidFlagsFromBits flags) .constraint
  let serverId ← readLeU32
  let flen ← readLeU32
  let file ← readLen flen
  let file ← toUtf8 file
  let pos ← readLeU64
  let dlen ← readLeU32
  let raw ← readLen dlen
  let sidData ← P.onSub raw SidData.readFrom
  return ⟨cmd, flags, serverId, file, pos, sidData⟩

/-- cmd/binlog_dump.rs:210-224 -/
def ComBinlogDumpGtid.writeTo (out : Bytes) (c : ComBinlogDumpGtid) : Bytes × Nat :=
  let len := 0
  let (out, n) := writeU8 out c.cmd.toByte; let len := len + n
  let (out, n) := writeLeU16 out c.flags; let len := len + n
  let (out, n) := writeLeU32 out c.serverId; let len := len + n
  let (out, n) := writeLeU32 out (c.binlogFilename.length % 2 ^ 32); let len := len + n
  let (out, n) := writeBytes out c.binlogFilename; let len := len + n
  let (out, n) := writeLeU64 out c.binlogPos; let len := len + n
  let (out, n) := writeLeU32 out (SidData.bytesLen c.sidData % 2 ^ 32); let len := len + n
  let (out, n) := SidData.writeTo out c.sidData; let len := len + n
  (out, len)

end Mybin
