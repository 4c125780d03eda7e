/-
The messages `mybinmsg/src/mybinmsg.rs` logs: `{:?}` of a `BinlogFile` and of an `Event`, with the derived `Debug` of
binlog.rs:252-256, binlog/mod.rs:42-82, 225-231, 332-391 and header.rs:60-68. The formatting itself is code of the standard
library and of the libraries `bytes` and `bitflags`, modelled here from their documentation. What the libraries of this
project log themselves, and what `env_logger` puts before a message (time, level, module), is left out.
-/
import Verif.Model.ListText

namespace Mybin

/-- binlog/mod.rs:42-82: `Debug` of an event type, which is also the name of the variant of `Event` (332-391) -/
def LogEventType.name : LogEventType → String
  | .unknown => "Unknown" | .startV3 => "StartEventV3" | .query => "QueryEvent" | .stop => "StopEvent"
  | .rotate => "RotateEvent" | .intvar => "IntvarEvent" | .load => "LoadEvent" | .slave => "SlaveEvent"
  | .createFile => "CreateFileEvent" | .appendBlock => "AppendBlockEvent" | .execLoad => "ExecLoadEvent"
  | .deleteFile => "DeleteFileEvent" | .newLoad => "NewLoadEvent" | .rand => "RandEvent" | .userVar => "UserVarEvent"
  | .formatDescription => "FormatDescriptionEvent" | .xid => "XidEvent" | .beginLoadQuery => "BeginLoadQueryEvent"
  | .executeLoadQuery => "ExecuteLoadQueryEvent" | .tableMap => "TableMapEvent" | .writeRowsV0 => "WriteRowsEventV0"
  | .updateRowsV0 => "UpdateRowsEventV0" | .deleteRowsV0 => "DeleteRowsEventV0" | .writeRowsV1 => "WriteRowsEventV1"
  | .updateRowsV1 => "UpdateRowsEventV1" | .deleteRowsV1 => "DeleteRowsEventV1" | .incident => "IncidentEvent"
  | .heartbeat => "HeartbeatLogEvent" | .ignorable => "IgnorableLogEvent" | .rowsQuery => "RowsQueryLogEvent"
  | .writeRowsV2 => "WriteRowsEventV2" | .updateRowsV2 => "UpdateRowsEventV2" | .deleteRowsV2 => "DeleteRowsEventV2"
  | .gtid => "GtidLogEvent" | .anonymousGtid => "AnonymousGtidLogEvent" | .previousGtids => "PreviousGtidsLogEvent"
  | .transactionContext => "TransactionContextEvent" | .viewChange => "ViewChangeEvent" | .xaPrepare => "XaPrepareLogEvent"

/-- library (`bytes`): a byte in the `Debug` of `Bytes` -/
def debugByte (b : UInt8) : List Char :=
  if b = 0x0a then ['\\', 'n']
  else if b = 0x0d then ['\\', 'r']
  else if b = 0x09 then ['\\', 't']
  else if b = 0x5c then ['\\', '\\']
  else if b = 0x22 then ['\\', '"']
  else if b = 0x00 then ['\\', '0']
  else if 0x20 ≤ b.toNat ∧ b.toNat < 0x7f then [Char.ofNat b.toNat]
  else ['\\', 'x', Nat.digitChar (b.toNat / 16), Nat.digitChar (b.toNat % 16)]

/-- header.rs:45-58: the names of the flags, from the lowest bit -/
def flagName : Nat → String
  | 0 => "BINLOG_IN_USE" | 1 => "FORCED_ROTATE" | 2 => "THREAD_SPECIFIC" | 3 => "SUPRESS_USE"
  | 4 => "UPDATE_TABLE_MAP_VERSION" | 5 => "ARTIFICIAL" | 6 => "RELAY_LOG" | 7 => "IGNORABLE" | 8 => "NO_FILTER"
  | _ => "MTS_ISOLATE"

/-- the names with a bar between them -/
def barred : List Nat → List Char
  | [] => []
  | [i] => (flagName i).toList
  | i :: is => (flagName i).toList ++ " | ".toList ++ barred is

/-- library (`bitflags`): `Debug` of the flags, of which there are no others -/
def flagsText (flags : Nat) : List Char :=
  if flags = 0 then "(empty)".toList else barred ((List.range 10).filter fun i => flags.testBit i)

/-- header.rs:60-68: `{:?}` of a header -/
def headerText (h : EventHeader) : List Char :=
  "EventHeader { timestamp: ".toList ++ Nat.toDigits 10 h.timestamp ++ ", type_code: ".toList ++ h.typeCode.name.toList
    ++ ", server_id: ".toList ++ Nat.toDigits 10 h.serverId ++ ", event_len: ".toList ++ Nat.toDigits 10 h.eventLen
    ++ ", next_pos: ".toList ++ Nat.toDigits 10 h.nextPos ++ ", flags: ".toList ++ flagsText h.flags ++ " }".toList

/-- binlog/mod.rs:225-231, 332-391: `{:?}` of an event. What `PhantomData` prints after its name depends on the version of
the standard library (nothing, or the name of the type of the data): a parameter. -/
def eventText (marker : LogEventType → List Char) (e : Event) : List Char :=
  e.kind.name.toList ++ "(RawEvent { header: ".toList ++ headerText e.header ++ ", data: b\"".toList
    ++ e.data.flatMap debugByte ++ "\", _marker: PhantomData".toList ++ marker e.kind ++ " })".toList

/-- binlog.rs:252-256: `{:?}` of a file -/
def fileLineText (printable : Char → Bool) (f : Cmd.BinlogFile) : List Char :=
  "BinlogFile { filename: ".toList ++ debugStr printable (charsOf f.filename) ++ ", size: ".toList
    ++ Nat.toDigits 10 f.size ++ " }".toList

/-- mybinmsg.rs:27-29, 33-35: the message for a file and for an event -/
def MsgLine.text (marker : LogEventType → List Char) (printable : Char → Bool) : MsgLine → List Char
  | .file f => fileLineText printable f
  | .event e => eventText marker e

/-- mybinmsg.rs:23-36: the messages the program logs, in the order of the calls (compare `mybinmsg`) -/
def mybinmsgLog (marker : LogEventType → List Char) (printable : Char → Bool) (w : World) (conf : MsgConnect) :
    List (List Char) :=
  match conf with
  | .unixSocket => []
  | .tcp host port username password =>
    match connect w 0 host port username password with
    | .ok _ conn =>
      match Cmd.binlogFiles conn with
      | .ok files c =>
        ["list of binlog files: ".toList ++ Nat.toDigits 10 files.length] ++ files.map (fileLineText printable)
          ++ ["requesting binlog stream".toList] ++
        match defaultRequest.requestStream w.uuid w.random c with
        | .ok s c => "binlog stream requested".toList :: (msgLoop s c).1.map (MsgLine.text marker printable)
        | _ => []
      | _ => []
    | _ => []

end Mybin
