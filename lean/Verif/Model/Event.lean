/-
Model of `mybin-core/src/binlog/mod.rs` (event types, raw events), `header.rs`, `fde.rs` and
`parser.rs`.
-/
import Verif.Model.Crc
import Verif.Model.Utf8
import Verif.Model.Command

namespace Mybin

/-- run a reader on `&mut input.clone()`: the input itself is not consumed -/
def P.peek {α : Type} (p : P α) : P α := fun bs =>
  match p bs with
  | .ok a _ => .ok a bs
  | .err e _ => .err e bs
  | .panic => .panic
  | .hang => .hang

/-- binlog/mod.rs:42-82 -/
inductive LogEventType where
  | unknown | startV3 | query | stop | rotate | intvar | load | slave | createFile | appendBlock
  | execLoad | deleteFile | newLoad | rand | userVar | formatDescription | xid | beginLoadQuery
  | executeLoadQuery | tableMap | writeRowsV0 | updateRowsV0 | deleteRowsV0 | writeRowsV1
  | updateRowsV1 | deleteRowsV1 | incident | heartbeat | ignorable | rowsQuery | writeRowsV2
  | updateRowsV2 | deleteRowsV2 | gtid | anonymousGtid | previousGtids | transactionContext
  | viewChange | xaPrepare
  deriving DecidableEq, Repr

namespace LogEventType

/-- binlog/mod.rs:84-142; every other code is the `ConstraintError` -/
def tryFrom (code : Nat) : Option LogEventType :=
  match code with
  | 0 => some .unknown | 1 => some .startV3 | 2 => some .query | 3 => some .stop | 4 => some .rotate
  | 5 => some .intvar | 6 => some .load | 7 => some .slave | 8 => some .createFile
  | 9 => some .appendBlock | 10 => some .execLoad | 11 => some .deleteFile | 12 => some .newLoad
  | 13 => some .rand | 14 => some .userVar | 15 => some .formatDescription | 16 => some .xid
  | 17 => some .beginLoadQuery | 18 => some .executeLoadQuery | 19 => some .tableMap
  | 20 => some .writeRowsV0 | 21 => some .updateRowsV0 | 22 => some .deleteRowsV0
  | 23 => some .writeRowsV1 | 24 => some .updateRowsV1 | 25 => some .deleteRowsV1
  | 26 => some .incident | 27 => some .heartbeat | 28 => some .ignorable | 29 => some .rowsQuery
  | 30 => some .writeRowsV2 | 31 => some .updateRowsV2 | 32 => some .deleteRowsV2
  | 33 => some .gtid | 34 => some .anonymousGtid | 35 => some .previousGtids
  | 36 => some .transactionContext | 37 => some .viewChange | 38 => some .xaPrepare
  | _ => none

/-- binlog/mod.rs:144-188 -/
def toByte : LogEventType → Nat
  | .unknown => 0 | .startV3 => 1 | .query => 2 | .stop => 3 | .rotate => 4 | .intvar => 5
  | .load => 6 | .slave => 7 | .createFile => 8 | .appendBlock => 9 | .execLoad => 10
  | .deleteFile => 11 | .newLoad => 12 | .rand => 13 | .userVar => 14 | .formatDescription => 15
  | .xid => 16 | .beginLoadQuery => 17 | .executeLoadQuery => 18 | .tableMap => 19
  | .writeRowsV0 => 20 | .updateRowsV0 => 21 | .deleteRowsV0 => 22 | .writeRowsV1 => 23
  | .updateRowsV1 => 24 | .deleteRowsV1 => 25 | .incident => 26 | .heartbeat => 27
  | .ignorable => 28 | .rowsQuery => 29 | .writeRowsV2 => 30 | .updateRowsV2 => 31
  | .deleteRowsV2 => 32 | .gtid => 33 | .anonymousGtid => 34 | .previousGtids => 35
  | .transactionContext => 36 | .viewChange => 37 | .xaPrepare => 38

/-- binlog/mod.rs:193-199 -/
def readFrom : P LogEventType := do
  let _ ← readLen 4
  let code ← readU8
  P.orErr (tryFrom code) .constraint

/-- parser.rs:136-196: the event types `parse_event` has a variant for -/
def supported : LogEventType → Bool
  | .startV3 | .query | .stop | .rotate | .intvar | .load | .createFile | .appendBlock | .execLoad
  | .deleteFile | .newLoad | .rand | .userVar | .formatDescription | .xid | .beginLoadQuery
  | .executeLoadQuery | .tableMap | .writeRowsV1 | .updateRowsV1 | .deleteRowsV1 | .incident
  | .heartbeat | .writeRowsV2 | .updateRowsV2 | .deleteRowsV2 | .gtid | .anonymousGtid
  | .previousGtids => true
  | _ => false

end LogEventType

/-- binlog/mod.rs:207-213 -/
def EventLength.readFrom : P Nat := do
  let _ ← readLen 9
  readLeU32

/-- header.rs:8-14 -/
structure EventHeaderV1 where
  timestamp : Nat
  typeCode : LogEventType
  serverId : Nat
  eventLen : Nat
  deriving DecidableEq, Repr

/-- header.rs:30-43 -/
def EventHeaderV1.readFrom : P EventHeaderV1 := do
  let timestamp ← readLeU32
  let code ← readU8
  let serverId ← readLeU32
  let eventLen ← readLeU32
  let typeCode ← P.orErr (LogEventType.tryFrom code) .constraint
  return ⟨timestamp, typeCode, serverId, eventLen⟩

/-- header.rs:60-68; `flags` are the bits of the `EventHeaderFlags` -/
structure EventHeader where
  timestamp : Nat
  typeCode : LogEventType
  serverId : Nat
  eventLen : Nat
  nextPos : Nat
  flags : Nat
  deriving DecidableEq, Repr

/-- header.rs:72-74: the subtraction overflows (panics) below 19 -/
def EventHeader.dataLen (h : EventHeader) : P Nat :=
  if h.eventLen < 19 then P.panic else pure (h.eventLen - 19)

/-- header.rs:82-101 (`from_bits_truncate` with the flags of 45-58) -/
def EventHeader.readFrom : P EventHeader := do
  let v1 ← EventHeaderV1.readFrom
  let nextPos ← readLeU32
  let flags ← readLeU16
  return ⟨v1.timestamp, v1.typeCode, v1.serverId, v1.eventLen, nextPos, flags &&& 0x03ff⟩

/-- binlog/mod.rs:226-239 and the `Event` enum, 332-391: the variant is `kind` -/
structure Event where
  kind : LogEventType
  header : EventHeader
  data : Bytes
  deriving DecidableEq, Repr

/-- fde.rs:10-15 -/
structure StartData where
  binlogVersion : Nat
  serverVersion : Bytes
  createTimestamp : Nat
  deriving DecidableEq, Repr

/-- fde.rs:17-31 -/
def StartData.readFrom : P StartData := do
  let binlogVersion ← readLeU16
  let field ← readLen 50
  let sv ← P.onSub field (readUntil 0 false)
  let sv ← toUtf8 sv
  let createTimestamp ← readLeU32
  return ⟨binlogVersion, sv, createTimestamp⟩

/-- fde.rs:36-46 -/
structure FormatDescriptionData where
  binlogVersion : Nat
  serverVersion : Bytes
  createTimestamp : Nat
  headerLength : Nat
  postHeaderLengths : Bytes
  checksumFlag : Nat
  deriving DecidableEq, Repr

/-- fde.rs:66-70: the number of post-header lengths, from the one of the format description event -/
def fdeCount : P Nat := fun bs =>
  match bs[LogEventType.formatDescription.toByte - 1]? with
  | none => .panic
  | some b => if b.toNat < 57 then .panic else .ok (b.toNat - 57) bs

/-- fde.rs:51-98. Panics: indexing beyond the input (70), the subtraction below 57 (70), `split_to`
beyond the input (85). -/
def FormatDescriptionData.readFrom : P FormatDescriptionData := do
  let s ← StartData.readFrom
  let headerLength ← readU8
  let n ← fdeCount
  let rem ← remaining
  if rem = n then do
    let lens ← readRest
    return ⟨s.binlogVersion, s.serverVersion, s.createTimestamp, headerLength, lens, 0⟩
  else if rem < n then P.panic
  else do
    let lens ← readLen n
    let flag ← readU8
    return ⟨s.binlogVersion, s.serverVersion, s.createTimestamp, headerLength, lens, flag⟩

/-- parser.rs:9-14 -/
inductive BinlogVersion where
  | v1 | v3 | v4
  deriving DecidableEq, Repr

/-- parser.rs:22-48 -/
def BinlogVersion.readFrom : P BinlogVersion := do
  let magic ← readLen 4
  if magic ≠ [0xfe, 0x62, 0x69, 0x6e] then P.fail .constraint
  else do
    let h ← P.peek EventHeader.readFrom
    match h.typeCode with
    | .startV3 => if h.eventLen < 75 then return .v1 else return .v3
    | .formatDescription => return .v4
    | _ => P.fail .constraint

/-- parser.rs:50-57 -/
structure ParserV4 where
  postHeaderLengths : Bytes
  checksum : Bool
  deriving DecidableEq, Repr

namespace ParserV4

/-- parser.rs:70-74 and 228-233 -/
def fromFde (fde : FormatDescriptionData) : ParserV4 :=
  ⟨0 :: fde.postHeaderLengths, fde.checksumFlag == 1⟩

/-- parser.rs:94-110 -/
def fromFdeBytes : P (ParserV4 × Option Nat) := do
  let h ← EventHeader.readFrom
  let n ← h.dataLen
  let raw ← readLen n
  let r ← P.onSub raw (do
    let data ← FormatDescriptionData.readFrom
    let crc ← (if data.checksumFlag = 1 then do
        let rem ← remaining
        if rem < 4 then P.fail .binlogEvent
        else do return some (← readLeU32)
      else return none : P (Option Nat))
    return (data, crc))
  return (fromFde r.1, r.2)

/-- parser.rs:79-89 -/
def fromBinlogFile : P ParserV4 := do
  let v ← BinlogVersion.readFrom
  if v ≠ .v4 then P.fail .binlogFormat
  else do
    let r ← fromFdeBytes
    return r.1

/-- parser.rs:118-126 and 212-220: nothing is consumed; the subtraction (121, 215) overflows when
`event_len` is below 4 -/
def verifyChecksum : P Unit := do
  let h ← P.peek EventHeader.readFrom
  let raw ← P.peek (readLen h.eventLen)
  if raw.length < 4 then P.panic
  else
    let body := raw.take (raw.length - 4)
    let expected := leVal (raw.drop (raw.length - 4))
    let actual := checksumCrc32 body
    if expected ≠ actual then P.fail (.checksumMismatch expected actual) else return ()

/-- parser.rs:116-198 -/
def parseEvent (p : ParserV4) (validate : Bool) : P (Option Event) := do
  let _ ← (if p.checksum && validate then verifyChecksum else return () : P Unit)
  let h ← EventHeader.readFrom
  let n ← h.dataLen
  let data ← readLen n
  let data ← (if p.checksum then
      if data.length < 4 then P.panic else return data.take (data.length - 4)
    else return data : P Bytes)
  if h.typeCode.supported then return some ⟨h.typeCode, h, data⟩ else return none

/-- parser.rs:200-204 -/
def skipEvent (_p : ParserV4) : P Unit := do
  let h ← EventHeader.readFrom
  let n ← h.dataLen
  let _ ← readLen n
  return ()

/-- parser.rs:206-222. Takes `&Bytes`: the caller's input is untouched. -/
def checksumEvent (p : ParserV4) : P Unit :=
  if p.checksum then P.peek verifyChecksum else P.fail .binlogFormat

end ParserV4
end Mybin
