/-
Model of `Binlog::request_stream` (`mybin-async/src/binlog.rs`, lines 19-249): the setup before a binlog stream and the
first two events. Log output is left out. The random UUID (binlog.rs:146-150) and the random server id
(binlog.rs:155-159) are parameters.
-/
import Verif.Model.Stream
import Verif.Model.ConnCmd
import Verif.Model.EventData

namespace Mybin

/-- binlog.rs:20-29 (without the borrowed connection); the heartbeat interval in nanoseconds -/
structure BinlogRequest where
  binlogFilename : Bytes
  binlogPos : Nat
  serverId : Nat
  sids : List SidRange
  nonBlock : Bool
  validateChecksum : Bool
  heartbeatNanos : Nat

/-- cmd/binlog_dump.rs:37-45 -/
def ComBinlogDump.nonBlock (c : ComBinlogDump) (nb : Bool) : ComBinlogDump :=
  { c with flags := if nb then 1 else 0 }

/-- `.ok_or_else(|| e)?` -/
def M.someOr {α : Type} (e : Err) : Option α → M α
  | some a => pure a
  | none => M.fail e

namespace BinlogRequest

/-- binlog.rs:169-187: the dump command; the position is cut to 32 bits (`as u32`) without GTIDs -/
def dumpBytes (r : BinlogRequest) (slaveId : Nat) (gtidMode : Bytes) : Bytes :=
  if gtidMode = Cmd.str "ON" then
    (ComBinlogDumpGtid.writeTo [] (ComBinlogDumpGtid.nonBlock (ComBinlogDumpGtid.useGtid
      { serverId := slaveId, binlogFilename := r.binlogFilename, binlogPos := r.binlogPos, sidData := r.sids }
      (!r.sids.isEmpty)) r.nonBlock)).1
  else
    (ComBinlogDump.writeTo [] (ComBinlogDump.nonBlock
      { serverId := slaveId, binlogFilename := r.binlogFilename, binlogPos := r.binlogPos % 2 ^ 32 }
      r.nonBlock)).1

/-- binlog.rs:208-225: the fake rotate event; `msg.remaining() - 4` (219) underflows on fewer than four bytes -/
def firstRotate (checksum : Bool) : P RotateData := do
  let _ ← readU8
  let h ← EventHeader.readFrom
  if h.typeCode ≠ .rotate then P.fail .custom
  else if checksum then do
    let rem ← remaining
    if rem < 4 then P.panic
    else do
      let body ← readLen (rem - 4)
      let _ ← readLeU32
      P.onSub body RotateData.readFrom
  else RotateData.readFrom

/-- binlog.rs:236-240: the marker byte and the format description event -/
def firstFde : P (ParserV4 × Option Nat) := do
  let _ ← readU8
  ParserV4.fromFdeBytes

/-- binlog.rs:188-248: from the dump command's answer on -/
def firstEvents (r : BinlogRequest) (checksum : Bool) : M BinlogStream := do
  let msg ← recvMsg
  match msg with
  | [] => M.fail (.incomplete none)
  | b :: _ =>
    if b = 0xff then failWithErrPacket msg
    else if b = 0xfe then do
      let caps ← getCaps
      let _ ← M.parse msg (EofPacket.readFrom caps)
      return ⟨⟨[], false⟩, r.validateChecksum, true, r.nonBlock⟩
    else if b = 0x00 then do
      let _ ← M.parse msg (firstRotate checksum)
      let msg ← recvMsg
      let f ← M.parse msg firstFde
      return ⟨f.1, r.validateChecksum, false, r.nonBlock⟩
    else M.fail .packet

/-- binlog.rs:93-167: the variables and the registration; the checksum setting, the GTID mode and the id used -/
def setup (r : BinlogRequest) (uuid : Bytes) (random : Nat) : M (Bytes × Bytes × Nat) := do
  let masterId ← Cmd.getVar (uintFromText 32).nonNull (Cmd.str "SERVER_ID") true
  let masterId ← M.someOr .emptyResultSet masterId
  Cmd.setUserVar (Cmd.str "MASTER_HEARTBEAT_PERIOD") (.newUnsignedBigint (r.heartbeatNanos % 2 ^ 64))
  let checksum ← Cmd.getVar stringFromText.nonNull (Cmd.str "BINLOG_CHECKSUM") true
  let checksum ← M.someOr .custom checksum
  Cmd.setUserVar (Cmd.str "MASTER_BINLOG_CHECKSUM") (.newVarstring checksum)
  let gtidMode ← Cmd.getVar stringFromText.nonNull (Cmd.str "GTID_MODE") true
  let gtidMode ← M.someOr .custom gtidMode
  let serverUuid ← Cmd.getVar stringFromText.nonNull (Cmd.str "SERVER_UUID") true
  let _ ← M.someOr .custom serverUuid
  Cmd.setUserVar (Cmd.str "SLAVE_UUID") (.newVarstring uuid)
  let slaveId := if r.serverId ≠ 0 then r.serverId else random
  okCommand (ComRegisterSlave.writeTo [] ⟨slaveId, [], [], [], 0, 0, masterId⟩).1
  return (checksum, gtidMode, slaveId)

/-- binlog.rs:90-249 -/
def requestStream (r : BinlogRequest) (uuid : Bytes) (random : Nat) : M BinlogStream := do
  let s ← r.setup uuid random
  sendMsg (r.dumpBytes s.2.2 s.2.1) true
  r.firstEvents (decide (s.1 = Cmd.str "CRC32"))

end BinlogRequest
end Mybin
