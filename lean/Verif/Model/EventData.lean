/-
Model of the event payload decoders in `mybin-core/src/binlog`: gtid.rs, query.rs, rotate.rs, intvar.rs,
rand.rs, xid.rs, user_var.rs, incident.rs, load.rs.
-/
import Verif.Model.Event

namespace Mybin

/-- `while input.has_remaining() { v.push(p(input)?) }`. An iteration that consumes nothing would be
repeated forever. -/
def P.whileRemaining {α : Type} (p : P α) (bs : Bytes) : R (List α) :=
  if bs = [] then .ok [] []
  else
    match p bs with
    | .ok a r =>
      if _h : r.length < bs.length then
        match P.whileRemaining p r with
        | .ok as r' => .ok (a :: as) r'
        | .err e r' => .err e r'
        | .panic => .panic
        | .hang => .hang
      else .hang
    | .err e r => .err e r
    | .panic => .panic
    | .hang => .hang
termination_by bs.length

/-! ### gtid.rs -/

/-- gtid.rs:10-21 -/
structure GtidLogData where
  gtidFlags : Nat
  encodedSid : Nat
  encodedGno : Nat
  tsType : Nat
  lastCommitted : Nat
  seqNum : Nat
  deriving DecidableEq, Repr

/-- gtid.rs:72-77 -/
structure LogicalTs where
  tsType : Nat
  lastCommitted : Nat
  seqNum : Nat
  deriving DecidableEq, Repr

/-- gtid.rs:79-97 -/
def LogicalTs.readFrom : P LogicalTs := do
  let rem ← remaining
  if rem < 17 then return ⟨0, 0, 0⟩
  else do
    let tsType ← readU8
    let lastCommitted ← readLeU64
    let seqNum ← readLeU64
    return ⟨tsType, lastCommitted, seqNum⟩

/-- gtid.rs:23-43; `AnonymousGtidLogData` (45-70) is the same -/
def GtidLogData.readFrom : P GtidLogData := do
  let gtidFlags ← readU8
  let encodedSid ← readLeU128
  let encodedGno ← readLeU64
  let l ← LogicalTs.readFrom
  return ⟨gtidFlags, encodedSid, encodedGno, l.tsType, l.lastCommitted, l.seqNum⟩

/-- gtid.rs:130-141; an interval is (start, inclusive end) -/
structure GtidRange where
  sid : Nat
  intervals : List (Nat × Nat)
  deriving DecidableEq, Repr

/-- gtid.rs:165-180: the interval loop, with `last` -/
def readGtidIntervals : (n last : Nat) → P (List (Nat × Nat))
  | 0, _ => pure []
  | n + 1, last => do
    let start ← readLeU64
    let stop ← readLeU64
    if start ≤ last ∨ stop ≤ start then P.fail .constraint
    else do
      let more ← readGtidIntervals n stop
      return (start, stop - 1) :: more

/-- gtid.rs:159-183 -/
def GtidRange.readFrom : P GtidRange := do
  let sid ← readLeU128
  let n ← readLeU64
  let _ ← withCapacity n 16
  let intervals ← readGtidIntervals n 0
  return ⟨sid, intervals⟩

/-- `LinkedHashMap::insert`: a key already present is removed first; the new entry goes to the back -/
def gtidInsert (m : List GtidRange) (r : GtidRange) : List GtidRange :=
  m.filter (fun x => x.sid ≠ r.sid) ++ [r]

/-- gtid.rs:150-154: the loop -/
def readGtidRanges : (n : Nat) → List GtidRange → P (List GtidRange)
  | 0, m => pure m
  | n + 1, m => do
    let r ← GtidRange.readFrom
    readGtidRanges n (gtidInsert m r)

/-- gtid.rs:146-157. The map is an association list in insertion order. `LinkedHashMap::with_capacity`
panics when its table would exceed `isize::MAX` bytes; the table takes at most 40 bytes per entry asked
for, so the model panics a little earlier than the code (simplification). -/
def GtidSet.readFrom : P (List GtidRange) := do
  let n ← readLeU64
  let _ ← withCapacity n 40
  readGtidRanges n []

/-- gtid.rs:107-112 and 118-123: the payload is kept, the set decoded on demand from a clone -/
def PreviousGtidsLogData.readFrom : P Bytes := readRest

/-! ### query.rs -/

/-- query.rs:11-23 -/
structure QueryData where
  slaveProxyId : Nat
  execTime : Nat
  schemaLen : Nat
  errorCode : Nat
  statusVarsLen : Nat
  statusVars : Bytes
  schema : Bytes
  query : Bytes
  deriving DecidableEq, Repr

/-- query.rs:25-49 -/
def QueryData.readFrom : P QueryData := do
  let slaveProxyId ← readLeU32
  let execTime ← readLeU32
  let schemaLen ← readU8
  let errorCode ← readLeU16
  let statusVarsLen ← readLeU16
  let statusVars ← readLen statusVarsLen
  let schema ← readLen schemaLen
  let _ ← readLen 1
  let query ← readRest
  return ⟨slaveProxyId, execTime, schemaLen, errorCode, statusVarsLen, statusVars, schema, query⟩

/-- query.rs:51-69 -/
inductive QueryStatusVar where
  | flags2Code (n : Nat)
  | sqlModeCode (n : Nat)
  | catalog (s : Bytes)
  | autoIncrement (inc offset : Nat)
  | charsetCode (client conn server : Nat)
  | timeZoneCode (s : Bytes)
  | catalogNzCode (s : Bytes)
  | lcTimeNamesCode (n : Nat)
  | charsetDatabaseCode (n : Nat)
  | tableMapForUpdateCode (n : Nat)
  | masterDataWrittenCode (n : Nat)
  | invokers (username hostname : Bytes)
  | updatedDbNames (names : List Bytes)
  | microSeconds (n : Nat)
  deriving DecidableEq, Repr

/-- query.rs:87-177: the variable announced by a key -/
def QueryStatusVar.readValue (key : Nat) : P QueryStatusVar :=
  match key with
  | 0x00 => do return .flags2Code (← readLeU32)
  | 0x01 => do return .sqlModeCode (← readLeU64)
  | 0x02 => do
    let len ← readU8
    let s ← readLen len
    let _ ← readLen 1
    return .catalog s
  | 0x03 => do
    let inc ← readLeU16
    let offset ← readLeU16
    return .autoIncrement inc offset
  | 0x04 => do
    let client ← readLeU16
    let conn ← readLeU16
    let server ← readLeU16
    return .charsetCode client conn server
  | 0x05 => do
    let len ← readU8
    let s ← readLen len
    return .timeZoneCode s
  | 0x06 => do
    let len ← readU8
    let s ← readLen len
    return .catalogNzCode s
  | 0x07 => do return .lcTimeNamesCode (← readLeU16)
  | 0x08 => do return .charsetDatabaseCode (← readLeU16)
  | 0x09 => do return .tableMapForUpdateCode (← readLeU64)
  | 0x0a => do return .masterDataWrittenCode (← readLeU32)
  | 0x0b => do
    let lun ← readU8
    let username ← readLen lun
    let lhn ← readU8
    let hostname ← readLen lhn
    return .invokers username hostname
  | 0x0c => do
    let cnt ← readU8
    let names ← P.times (readUntil 0 false) cnt
    return .updatedDbNames names
  | 0x0d => do return .microSeconds (← readLeU24)
  | _ => P.fail .constraint

/-- query.rs:86-177: one iteration -/
def QueryStatusVar.readFrom : P QueryStatusVar := do
  let key ← readU8
  QueryStatusVar.readValue key

/-- query.rs:82-182 -/
def QueryStatusVars.readFrom : P (List QueryStatusVar) := P.whileRemaining QueryStatusVar.readFrom

/-! ### rotate.rs, intvar.rs, rand.rs, xid.rs, user_var.rs, incident.rs -/

/-- rotate.rs:8-13 -/
structure RotateData where
  position : Nat
  nextBinlogFilename : Bytes
  deriving DecidableEq, Repr

/-- rotate.rs:15-24 -/
def RotateData.readFrom : P RotateData := do
  let position ← readLeU64
  let f ← readRest
  return ⟨position, f⟩

/-- intvar.rs:9-13 -/
structure IntvarData where
  key : Nat
  value : Nat
  deriving DecidableEq, Repr

/-- intvar.rs:15-23 with the flags 1 and 2 of 25-30 (`from_bits` accepts any union of them) -/
def IntvarData.readFrom : P IntvarData := do
  let key ← readU8
  let key ← P.orErr (if key &&& 3 = key then some key else none) .constraint
  let value ← readLeU64
  return ⟨key, value⟩

/-- rand.rs:8-12 -/
structure RandData where
  seed1 : Nat
  seed2 : Nat
  deriving DecidableEq, Repr

/-- rand.rs:14-20 -/
def RandData.readFrom : P RandData := do
  let seed1 ← readLeU64
  let seed2 ← readLeU64
  return ⟨seed1, seed2⟩

/-- xid.rs:13-18 -/
def XidData.readFrom : P Nat := readLeU64

/-- user_var.rs:9-16 -/
structure UserVarData where
  nameLength : Nat
  name : Bytes
  isNull : Nat
  value : Bytes
  deriving DecidableEq, Repr

/-- user_var.rs:18-31 -/
def UserVarData.readFrom : P UserVarData := do
  let nameLength ← readLeU32
  let name ← readLen nameLength
  let isNull ← readU8
  let value ← readRest
  return ⟨nameLength, name, isNull, value⟩

/-- user_var.rs:36-42; `flags` is the bits -/
structure UserVarValue where
  valueType : Nat
  charsetNum : Nat
  value : Bytes
  flags : Nat
  deriving DecidableEq, Repr

/-- user_var.rs:45-66, with the single flag 0x01 of 68-72 -/
def UserVarValue.readFrom : P UserVarValue := do
  let valueType ← readU8
  let charsetNum ← readLeU32
  let valueLen ← readLeU32
  let value ← readLen valueLen
  let more ← hasRemaining
  let flags ← (if more then readU8 else pure 0 : P Nat)
  let flags ← P.orErr (if flags &&& 1 = flags then some flags else none) .constraint
  return ⟨valueType, charsetNum, value, flags⟩

/-- incident.rs:8-15 -/
structure IncidentData where
  incidentType : Nat
  msgLen : Nat
  msg : Bytes
  deriving DecidableEq, Repr

/-- incident.rs:17-28 -/
def IncidentData.readFrom : P IncidentData := do
  let incidentType ← readLeU16
  let msgLen ← readU8
  let msg ← readLen msgLen
  return ⟨incidentType, msgLen, msg⟩

/-! ### load.rs -/

/-- load.rs:48-49 and 205-206: `sum::<u32>() + num_fields`, which panics on overflow -/
def fieldNameTotal (lens : Bytes) (numFields : Nat) : P Nat :=
  let t := (lens.map (·.toNat)).sum + numFields
  if t < 2 ^ 32 then pure t else P.panic

/-- load.rs:47-56 and 204-213: the part shared by `LoadData` and `NewLoadData`: field-name lengths and
names, table, schema and file name -/
structure LoadNames where
  fieldNameLengths : Bytes
  fieldNames : Bytes
  tableName : Bytes
  schemaName : Bytes
  fileName : Bytes
  deriving DecidableEq, Repr

/-- load.rs:47-56, 204-213 -/
def LoadNames.readFrom (numFields tableNameLen schemaLen : Nat) : P LoadNames := do
  let lens ← readLen numFields
  let total ← fieldNameTotal lens numFields
  let names ← readLen total
  let t ← readLen (tableNameLen + 1)
  let table ← P.onSub t (readUntil 0 false)
  let s ← readLen (schemaLen + 1)
  let schema ← P.onSub s (readUntil 0 false)
  let f ← readRest
  let file ← P.onSub f (readUntil 0 false)
  return ⟨lens, names, table, schema, file⟩

/-- load.rs:8-29 -/
structure LoadData where
  slaveProxyId : Nat
  execTime : Nat
  skipLines : Nat
  tableNameLen : Nat
  schemaLen : Nat
  numFields : Nat
  fieldTerm : Nat
  enclosedBy : Nat
  lineTerm : Nat
  lineStart : Nat
  escapedBy : Nat
  optFlags : Nat
  emptyFlags : Nat
  names : LoadNames
  deriving DecidableEq, Repr

/-- load.rs:31-78 -/
def LoadData.readFrom : P LoadData := do
  let slaveProxyId ← readLeU32
  let execTime ← readLeU32
  let skipLines ← readLeU32
  let tableNameLen ← readU8
  let schemaLen ← readU8
  let numFields ← readLeU32
  let fieldTerm ← readU8
  let enclosedBy ← readU8
  let lineTerm ← readU8
  let lineStart ← readU8
  let escapedBy ← readU8
  let optFlags ← readU8
  let emptyFlags ← readU8
  let names ← LoadNames.readFrom numFields tableNameLen schemaLen
  return ⟨slaveProxyId, execTime, skipLines, tableNameLen, schemaLen, numFields, fieldTerm, enclosedBy,
    lineTerm, lineStart, escapedBy, optFlags, emptyFlags, names⟩

/-- load.rs:83-88 (`CreateFileData`), 105-110 (`AppendBlockData`), 244-249 (`BeginLoadQueryData`) -/
structure FileBlockData where
  fileId : Nat
  blockData : Bytes
  deriving DecidableEq, Repr

/-- load.rs:90-100; NOTE: the block really is cut at its first NUL, and must have one -/
def CreateFileData.readFrom : P FileBlockData := do
  let fileId ← readLeU32
  let block ← readRest
  let block ← P.onSub block (readUntil 0 false)
  return ⟨fileId, block⟩

/-- load.rs:112-122; the same -/
def AppendBlockData.readFrom : P FileBlockData := do
  let fileId ← readLeU32
  let block ← readRest
  let block ← P.onSub block (readUntil 0 false)
  return ⟨fileId, block⟩

/-- load.rs:132-137 -/
def ExecLoadData.readFrom : P Nat := readLeU32
/-- load.rs:147-152 -/
def DeleteFileData.readFrom : P Nat := readLeU32

/-- load.rs:157-182; the `*_len` fields are the lengths of the strings next to them -/
structure NewLoadData where
  slaveProxyId : Nat
  execTime : Nat
  skipLines : Nat
  tableNameLen : Nat
  schemaLen : Nat
  numFields : Nat
  fieldTerm : Bytes
  enclosedBy : Bytes
  lineTerm : Bytes
  lineStart : Bytes
  escapedBy : Bytes
  optFlags : Nat
  names : LoadNames
  deriving DecidableEq, Repr

/-- `let n = read_u8()?; read_len(n)?` -/
def readLen8Str : P Bytes := do
  let n ← readU8
  readLen n

/-- load.rs:184-239 -/
def NewLoadData.readFrom : P NewLoadData := do
  let slaveProxyId ← readLeU32
  let execTime ← readLeU32
  let skipLines ← readLeU32
  let tableNameLen ← readU8
  let schemaLen ← readU8
  let numFields ← readLeU32
  let fieldTerm ← readLen8Str
  let enclosedBy ← readLen8Str
  let lineTerm ← readLen8Str
  let lineStart ← readLen8Str
  let escapedBy ← readLen8Str
  let optFlags ← readU8
  let names ← LoadNames.readFrom numFields tableNameLen schemaLen
  return ⟨slaveProxyId, execTime, skipLines, tableNameLen, schemaLen, numFields, fieldTerm, enclosedBy,
    lineTerm, lineStart, escapedBy, optFlags, names⟩

/-- load.rs:251-260 -/
def BeginLoadQueryData.readFrom : P FileBlockData := do
  let fileId ← readLeU32
  let block ← readRest
  return ⟨fileId, block⟩

/-- load.rs:269-282 -/
structure ExecuteLoadQueryData where
  slaveProxyId : Nat
  executionTime : Nat
  schemaLength : Nat
  errorCode : Nat
  statusVarsLength : Nat
  fileId : Nat
  startPos : Nat
  endPos : Nat
  dupHandlingFlags : Nat
  payload : Bytes
  deriving DecidableEq, Repr

/-- load.rs:284-309 -/
def ExecuteLoadQueryData.readFrom : P ExecuteLoadQueryData := do
  let slaveProxyId ← readLeU32
  let executionTime ← readLeU32
  let schemaLength ← readU8
  let errorCode ← readLeU16
  let statusVarsLength ← readLeU16
  let fileId ← readLeU32
  let startPos ← readLeU32
  let endPos ← readLeU32
  let dupHandlingFlags ← readU8
  let payload ← readRest
  return ⟨slaveProxyId, executionTime, schemaLength, errorCode, statusVarsLength, fileId, startPos,
    endPos, dupHandlingFlags, payload⟩

end Mybin
