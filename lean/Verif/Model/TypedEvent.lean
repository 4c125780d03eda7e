/-
Model of the typed events of `mybin-core/src/binlog/mod.rs` (lines 223-330): the types `RawEvent<D>`, the conversions
from `Event` (`try_from_event!`, `mybin-core/src/binlog/util.rs`) and `into_data`.
-/
import Verif.Model.Rows

namespace Mybin

/-- binlog/mod.rs:250-330: the types `RawEvent<D>` with a conversion from `Event`, by the type `D` -/
inductive RawKind where
  | start | formatDescription | query | rotate | intvar | load | createFile | appendBlock | execLoad | deleteFile
  | newLoad | beginLoadQuery | executeLoadQuery | rand | xid | userVar | incident | tableMap | writeRowsV1
  | updateRowsV1 | deleteRowsV1 | writeRowsV2 | updateRowsV2 | deleteRowsV2 | gtid | anonymousGtid | previousGtids
  deriving DecidableEq, Repr

/-- the type `D` of `RawEvent<D>`; data of the same layout share a type -/
def RawKind.Data : RawKind → Type
  | .start => StartData
  | .formatDescription => FormatDescriptionData
  | .query => QueryData
  | .rotate => RotateData
  | .intvar => IntvarData
  | .load => LoadData
  | .createFile => FileBlockData
  | .appendBlock => FileBlockData
  | .execLoad => Nat
  | .deleteFile => Nat
  | .newLoad => NewLoadData
  | .beginLoadQuery => FileBlockData
  | .executeLoadQuery => ExecuteLoadQueryData
  | .rand => RandData
  | .xid => Nat
  | .userVar => UserVarData
  | .incident => IncidentData
  | .tableMap => TableMapData
  | .writeRowsV1 => TableMapData
  | .updateRowsV1 => TableMapData
  | .deleteRowsV1 => TableMapData
  | .writeRowsV2 => RowsDataV2
  | .updateRowsV2 => RowsDataV2
  | .deleteRowsV2 => RowsDataV2
  | .gtid => GtidLogData
  | .anonymousGtid => GtidLogData
  | .previousGtids => Bytes

/-- the variant of `Event` a conversion accepts: the first argument of `try_from_event!` (binlog/mod.rs:250-330) -/
def RawKind.variant : RawKind → LogEventType
  | .start => .startV3
  | .formatDescription => .formatDescription
  | .query => .query
  | .rotate => .rotate
  | .intvar => .intvar
  | .load => .load
  | .createFile => .createFile
  | .appendBlock => .appendBlock
  | .execLoad => .execLoad
  | .deleteFile => .deleteFile
  | .newLoad => .newLoad
  | .beginLoadQuery => .beginLoadQuery
  | .executeLoadQuery => .executeLoadQuery
  | .rand => .rand
  | .xid => .xid
  | .userVar => .userVar
  | .incident => .incident
  | .tableMap => .tableMap
  | .writeRowsV1 => .writeRowsV1
  | .updateRowsV1 => .updateRowsV1
  | .deleteRowsV1 => .deleteRowsV1
  | .writeRowsV2 => .writeRowsV2
  | .updateRowsV2 => .updateRowsV2
  | .deleteRowsV2 => .deleteRowsV2
  | .gtid => .gtid
  | .anonymousGtid => .anonymousGtid
  | .previousGtids => .previousGtids

/-- `D::read_from`: the second argument of `try_from_event!` (binlog/mod.rs:250-330) -/
def RawKind.read : (k : RawKind) → P k.Data
  | .start => StartData.readFrom
  | .formatDescription => FormatDescriptionData.readFrom
  | .query => QueryData.readFrom
  | .rotate => RotateData.readFrom
  | .intvar => IntvarData.readFrom
  | .load => LoadData.readFrom
  | .createFile => CreateFileData.readFrom
  | .appendBlock => AppendBlockData.readFrom
  | .execLoad => ExecLoadData.readFrom
  | .deleteFile => DeleteFileData.readFrom
  | .newLoad => NewLoadData.readFrom
  | .beginLoadQuery => BeginLoadQueryData.readFrom
  | .executeLoadQuery => ExecuteLoadQueryData.readFrom
  | .rand => RandData.readFrom
  | .xid => XidData.readFrom
  | .userVar => UserVarData.readFrom
  | .incident => IncidentData.readFrom
  | .tableMap => TableMapData.readFrom
  | .writeRowsV1 => RowsDataV1.readFrom
  | .updateRowsV1 => RowsDataV1.readFrom
  | .deleteRowsV1 => RowsDataV1.readFrom
  | .writeRowsV2 => RowsDataV2.readFrom
  | .updateRowsV2 => RowsDataV2.readFrom
  | .deleteRowsV2 => RowsDataV2.readFrom
  | .gtid => GtidLogData.readFrom
  | .anonymousGtid => GtidLogData.readFrom
  | .previousGtids => PreviousGtidsLogData.readFrom

/-- binlog/mod.rs:224-230 -/
structure RawEvent (k : RawKind) where
  header : EventHeader
  data : Bytes
  deriving DecidableEq, Repr

/-- util.rs:1-18 (`TryFrom<Event>`): another variant is a `BinlogEventError` -/
def RawEvent.tryFrom (k : RawKind) (e : Event) : Except Err (RawEvent k) :=
  if e.kind = k.variant then .ok ⟨e.header, e.data⟩ else .error .binlogEvent

/-- binlog/mod.rs:241-243; bytes after the data are dropped with the event -/
def RawEvent.intoData {k : RawKind} (r : RawEvent k) : R k.Data := k.read r.data

end Mybin
