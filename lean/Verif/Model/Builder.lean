/-
Model of the methods that set up a request for a binlog stream (`mybin-async/src/binlog.rs`, lines 31-84) and the dump
commands (`mybin-core/src/cmd/binlog_dump.rs`, lines 18-56 and 111-172). A chain of calls is a list of calls.
-/
import Verif.Model.Program

namespace Mybin

/-- the setting methods of `Binlog` -/
inductive RequestCall where
  | binlogPos (n : Nat)
  | binlogFilename (s : Bytes)
  | serverId (n : Nat)
  | sid (s : SidRange)
  | sids (s : List SidRange)
  | nonBlock (b : Bool)
  | validateChecksum (b : Bool)
  | heartbeatInterval (nanos : Nat)

/-- binlog.rs:45-83 -/
def BinlogRequest.call (r : BinlogRequest) : RequestCall → BinlogRequest
  | .binlogPos n => { r with binlogPos := n }
  | .binlogFilename s => { r with binlogFilename := s }
  | .serverId n => { r with serverId := n }
  | .sid s => { r with sids := r.sids ++ [s] }
  | .sids s => { r with sids := r.sids ++ s }
  | .nonBlock b => { r with nonBlock := b }
  | .validateChecksum b => { r with validateChecksum := b }
  | .heartbeatInterval n => { r with heartbeatNanos := n }

/-- `conn.binlog().a(..).b(..)`: binlog.rs:32-43 and 45-83 -/
def BinlogRequest.build (calls : List RequestCall) : BinlogRequest := calls.foldl BinlogRequest.call defaultRequest

/-- the setting methods of `ComBinlogDump` -/
inductive DumpCall where
  | binlogPos (n : Nat)
  | binlogFilename (s : Bytes)
  | serverId (n : Nat)
  | nonBlock (b : Bool)

/-- cmd/binlog_dump.rs:19-45 -/
def ComBinlogDump.call (c : ComBinlogDump) : DumpCall → ComBinlogDump
  | .binlogPos n => { c with binlogPos := n }
  | .binlogFilename s => { c with binlogFilename := s }
  | .serverId n => { c with serverId := n }
  | .nonBlock b => c.nonBlock b

/-- `ComBinlogDump::default().a(..).b(..)`: cmd/binlog_dump.rs:19-56 -/
def ComBinlogDump.build (calls : List DumpCall) : ComBinlogDump := calls.foldl ComBinlogDump.call {}

/-- the setting methods of `ComBinlogDumpGtid` -/
inductive DumpGtidCall where
  | binlogPos (n : Nat)
  | binlogFilename (s : Bytes)
  | serverId (n : Nat)
  | sid (s : SidRange)
  | sids (s : List SidRange)
  | useGtid (b : Bool)
  | nonBlock (b : Bool)

/-- cmd/binlog_dump.rs:112-158 -/
def ComBinlogDumpGtid.call (c : ComBinlogDumpGtid) : DumpGtidCall → ComBinlogDumpGtid
  | .binlogPos n => { c with binlogPos := n }
  | .binlogFilename s => { c with binlogFilename := s }
  | .serverId n => { c with serverId := n }
  | .sid s => { c with sidData := c.sidData ++ [s] }
  | .sids s => { c with sidData := c.sidData ++ s }
  | .useGtid b => c.useGtid b
  | .nonBlock b => c.nonBlock b

/-- `ComBinlogDumpGtid::default().a(..).b(..)`: cmd/binlog_dump.rs:112-172 -/
def ComBinlogDumpGtid.build (calls : List DumpGtidCall) : ComBinlogDumpGtid := calls.foldl ComBinlogDumpGtid.call {}

end Mybin
