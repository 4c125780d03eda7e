/-
Model of a build WITHOUT overflow checks and without `debug_assert!` (`cargo build --release`; no profile in /repo
says otherwise). Integer arithmetic wraps, and the two debug assertions of col.rs:880, 929 are gone. Everything else
that panics (indexing, `split_to`/`split_off` beyond the end, `unwrap`, `unreachable!`, `unimplemented!`) still does.

The rest of the model is that of a build with the checks. The functions here are those of the code that contain
arithmetic which can overflow, and those that call them; those of the client and the programs that call them are in
`ReleaseProgram.lean`. A function that is in neither has no such arithmetic, and is the same in both builds.
-/
import Verif.Model.TypedEvent
import Verif.Model.Rows
import Verif.Model.Json
import Verif.Model.Convert
import Verif.Model.Conn
import Verif.Model.Packet

namespace Mybin.Release

/-! ### bytes-parser -/

/-- lib.rs:256-264: `4 - self.remaining()` in `usize` -/
def readLeF64 : P Nat := fun bs =>
  if bs.length < 8 then .err (.incomplete (some ((2 ^ 64 + 4 - bs.length) % 2 ^ 64))) bs
  else .ok (leVal (bs.take 8)) (bs.drop 8)

/-! ### conn.rs: sending -/

/-- conn.rs:110-127: `self.pkt_nr += 1` on a `u8` -/
def sendPacket (payload : Bytes) : M Unit := fun c =>
  let len := payload.length
  let out := c.out ++ [UInt8.ofNat (len &&& 0xff), UInt8.ofNat ((len >>> 8) &&& 0xff),
    UInt8.ofNat ((len >>> 16) &&& 0xff)] ++ [UInt8.ofNat c.pktNr] ++ payload
  .ok () { c with out := out, pktNr := (c.pktNr + 1) % 256 }

/-- the loop of conn.rs:101-107 -/
def sendLoop (bs : Bytes) : M Unit :=
  if h : bs.length ≥ maxPacket then do
    sendPacket (bs.take maxPacket)
    sendLoop (bs.drop maxPacket)
  else sendPacket bs
termination_by bs.length
decreasing_by simp only [List.length_drop, maxPacket] at *; omega

/-- conn.rs:90-108 -/
def sendMsg (msg : Bytes) (resetPktNr : Bool) : M Unit := fun c =>
  let c := if resetPktNr then { c with pktNr := 0 } else c
  sendLoop msg c

/-! ### handshake.rs -/

/-- handshake.rs:26-66: `auth_plugin_data_length - 8` on a `u8` (line 43) -/
def InitialHandshake.readFrom : P InitialHandshake := do
  let protocolVersion ← readU8
  let serverVersion ← readUntil 0 false
  let connectionId ← readLeU32
  let authPluginData1 ← readLen 8
  let _ ← readLen 1
  let lower ← readLeU16
  let charset ← readU8
  let statusFlags ← readLeU16
  let upper ← readLeU16
  let authPluginDataLength ← readU8
  let _ ← readLen 10
  let capabilityFlags := lower ||| (upper <<< 16)
  let capFlags := capabilityFlags &&& Cap.ALL
  let authPluginData2 ←
    (if hasFlag capFlags Cap.SECURE_CONNECTION then
      readLen (max 13 ((256 + authPluginDataLength - 8) % 256))
    else pure [] : P Bytes)
  let authPluginName ←
    (if hasFlag capFlags Cap.PLUGIN_AUTH then do
      let apn ← readUntil 0 false
      toUtf8 apn
    else pure [] : P Bytes)
  return ⟨protocolVersion, serverVersion, connectionId, authPluginData1, charset, statusFlags,
    capabilityFlags, authPluginDataLength, authPluginData2, authPluginName⟩

/-! ### binlog: events -/

/-- header.rs:72-74: `event_len - 19` on a `u32` -/
def dataLen (h : EventHeader) : P Nat := pure ((2 ^ 32 + h.eventLen - 19) % 2 ^ 32)

/-- fde.rs:66-70: `- 57` on a `u8` -/
def fdeCount : P Nat := fun bs =>
  match bs[LogEventType.formatDescription.toByte - 1]? with
  | none => .panic
  | some b => .ok ((256 + b.toNat - 57) % 256) bs

/-- fde.rs:51-98 -/
def FormatDescriptionData.readFrom : P FormatDescriptionData := do
  let s ← StartData.readFrom
  let headerLength ← readU8
  let n ← fdeCount
  let rem ← remaining
  if rem = n then do
    let lens ← readRest
    return ⟨s.binlogVersion, s.serverVersion, s.createTimestamp, headerLength, lens, 0⟩
  else if rem < n then P.panic
  else do
    let lens ← readLen n
    let flag ← readU8
    return ⟨s.binlogVersion, s.serverVersion, s.createTimestamp, headerLength, lens, flag⟩

/-- parser.rs:94-110 -/
def fromFdeBytes : P (ParserV4 × Option Nat) := do
  let h ← EventHeader.readFrom
  let n ← dataLen h
  let raw ← readLen n
  let r ← P.onSub raw (do
    let data ← FormatDescriptionData.readFrom
    let crc ← (if data.checksumFlag = 1 then do
        let rem ← remaining
        if rem < 4 then P.fail .binlogEvent
        else do return some (← readLeU32)
      else return none : P (Option Nat))
    return (data, crc))
  return (ParserV4.fromFde r.1, r.2)

/-- parser.rs:79-89 -/
def fromBinlogFile : P ParserV4 := do
  let v ← BinlogVersion.readFrom
  if v ≠ .v4 then P.fail .binlogFormat
  else do
    let r ← fromFdeBytes
    return r.1

/-- parser.rs:116-198. The check of the checksum is that of the other build: `remaining() - 4` (121) wraps, and
`split_off` beyond the end panics. `truncate(remaining() - 4)` (134) with a wrapped length keeps everything. -/
def parseEvent (p : ParserV4) (validate : Bool) : P (Option Event) := do
  let _ ← (if p.checksum && validate then ParserV4.verifyChecksum else return () : P Unit)
  let h ← EventHeader.readFrom
  let n ← dataLen h
  let data ← readLen n
  let data ← (if p.checksum then return data.take ((2 ^ 64 + data.length - 4) % 2 ^ 64)
    else return data : P Bytes)
  if h.typeCode.supported then return some ⟨h.typeCode, h, data⟩ else return none

/-- parser.rs:200-204 -/
def skipEvent (_p : ParserV4) : P Unit := do
  let h ← EventHeader.readFrom
  let n ← dataLen h
  let _ ← readLen n
  return ()

/-- load.rs:48-49 and 205-206: the sum is a `u32` -/
def fieldNameTotal (lens : Bytes) (numFields : Nat) : P Nat :=
  pure (((lens.map (·.toNat)).sum + numFields) % 2 ^ 32)

/-- load.rs:47-56, 204-213 -/
def LoadNames.readFrom (numFields tableNameLen schemaLen : Nat) : P LoadNames := do
  let lens ← readLen numFields
  let total ← fieldNameTotal lens numFields
  let names ← readLen total
  let t ← readLen (tableNameLen + 1)
  let table ← P.onSub t (readUntil 0 false)
  let s ← readLen (schemaLen + 1)
  let schema ← P.onSub s (readUntil 0 false)
  let f ← readRest
  let file ← P.onSub f (readUntil 0 false)
  return ⟨lens, names, table, schema, file⟩

/-- load.rs:31-78 -/
def LoadData.readFrom : P LoadData := do
  let slaveProxyId ← readLeU32
  let execTime ← readLeU32
  let skipLines ← readLeU32
  let tableNameLen ← readU8
  let schemaLen ← readU8
  let numFields ← readLeU32
  let fieldTerm ← readU8
  let enclosedBy ← readU8
  let lineTerm ← readU8
  let lineStart ← readU8
  let escapedBy ← readU8
  let optFlags ← readU8
  let emptyFlags ← readU8
  let names ← LoadNames.readFrom numFields tableNameLen schemaLen
  return ⟨slaveProxyId, execTime, skipLines, tableNameLen, schemaLen, numFields, fieldTerm, enclosedBy,
    lineTerm, lineStart, escapedBy, optFlags, emptyFlags, names⟩

/-- load.rs:184-239 -/
def NewLoadData.readFrom : P NewLoadData := do
  let slaveProxyId ← readLeU32
  let execTime ← readLeU32
  let skipLines ← readLeU32
  let tableNameLen ← readU8
  let schemaLen ← readU8
  let numFields ← readLeU32
  let fieldTerm ← readLen8Str
  let enclosedBy ← readLen8Str
  let lineTerm ← readLen8Str
  let lineStart ← readLen8Str
  let escapedBy ← readLen8Str
  let optFlags ← readU8
  let names ← LoadNames.readFrom numFields tableNameLen schemaLen
  return ⟨slaveProxyId, execTime, skipLines, tableNameLen, schemaLen, numFields, fieldTerm, enclosedBy,
    lineTerm, lineStart, escapedBy, optFlags, names⟩

/-- `D::read_from` (binlog/mod.rs:250-330): three of the kinds differ -/
def readKind : (k : RawKind) → P k.Data
  | .formatDescription => FormatDescriptionData.readFrom
  | .load => LoadData.readFrom
  | .newLoad => NewLoadData.readFrom
  | k => k.read

/-! ### Column values -/

/-- decimal.rs:65-95: the product (87) is a `u32` -/
def MyDecimal.readDigits (intg frac : Nat) (negative : Bool) : P MyDecimal := do
  let intg0 := intg / 9
  let frac0 := frac / 9
  let intg0x := intg - intg0 * 9
  let frac0x := frac - frac0 * 9
  let first ← (if intg0x > 0 then do
      let f ← readExtraFragment true (digToBytes intg0x) negative
      return [f]
    else pure [] : P (List Nat))
  let ints ← P.times (readFragment negative) intg0
  let fracs ← P.times (readFragment negative) frac0
  let last ← (if frac0x > 0 then do
      let f ← readExtraFragment false (digToBytes frac0x) negative
      return [f * 10 ^ (9 - frac0x) % 2 ^ 32]
    else pure [] : P (List Nat))
  return { intg, frac, negative, buf := first ++ ints ++ fracs ++ last }

/-- decimal.rs:42-95 -/
def MyDecimal.readFrom (intg frac : Nat) : P MyDecimal := fun bs =>
  match bs with
  | [] => .ok ⟨intg, frac, false, []⟩ []
  | b :: _ => MyDecimal.readDigits intg frac (b.toNat &&& 0x80 != 0x80) bs

/-- col.rs:376-618 -/
def BinaryColumnValue.readFrom (ct : ColumnType) : P BinaryColumnValue :=
  if ct = .double then do return .double (← readLeF64) else Mybin.BinaryColumnValue.readFrom ct

/-- row.rs:43-50 -/
def BinaryRow.readCols (bm : Bytes) : List ColumnType → Nat → P (List BinaryColumnValue)
  | [], _ => pure []
  | ct :: cts, i =>
    match Bitmap.next bm i with
    | none => P.panic
    | some (none, _) => pure []
    | some (some null, i') => do
      let col ← (if null then pure BinaryColumnValue.null else BinaryColumnValue.readFrom ct : P _)
      let cols ← BinaryRow.readCols bm cts i'
      return col :: cols

/-- row.rs:36-52 -/
def BinaryRow.readFrom (colTypes : List ColumnType) : P (List BinaryColumnValue) := do
  let _ ← readU8
  let bm ← readLen ((colTypes.length + 7 + 2) >>> 3)
  BinaryRow.readCols bm colTypes 2

/-- col.rs:798-947. The length of a BIT value (870) and the digits of a DECIMAL value (881) are `u8`; the assertions
of 880 and 929 are not there. -/
def BinlogColumnValue.readFrom : ColumnMeta → P BinlogColumnValue
  | .double _ => do return .double (← readLeF64)
  | .bit bits bytes => do return .bit (← readLen ((bytes + (if bits > 0 then 1 else 0)) % 256))
  | .newDecimal prec frac => do
    return .newDecimal (← MyDecimal.readFrom ((256 + prec - frac) % 256) frac)
  | .varString maxLen => do
    let len ← (if maxLen < 256 then readU8 else readLeU16 : P Nat)
    return .varString (← readLen len)
  | m => Mybin.BinlogColumnValue.readFrom m

/-- row.rs:66-75 -/
def LogRow.readCols (bm : Bytes) : Nat → Nat → List ColumnMeta → P (List BinlogColumnValue)
  | 0, _, _ => pure []
  | n + 1, i, metas =>
    match Bitmap.index bm i with
    | none => P.panic
    | some true =>
      match metas with
      | [] => P.panic
      | m :: ms => do
        let v ← BinlogColumnValue.readFrom m
        let vs ← LogRow.readCols bm n (i + 1) ms
        return v :: vs
    | some false => do
      let vs ← LogRow.readCols bm n (i + 1) metas.tail
      return .null :: vs

/-- row.rs:59-78 -/
def LogRow.readFrom (nCols : Nat) (bm : Bytes) (metas : List ColumnMeta) :
    P (List BinlogColumnValue) := do
  let _ ← withCapacity nCols 40
  LogRow.readCols bm nCols 0 metas

/-- rows_v2.rs:156, 159-174 -/
def readImage (nCols presentCols : Nat) (presentBm : Bytes) (metas : List ColumnMeta) :
    P (List BinlogColumnValue) := do
  let nullBm ← readLen ((presentCols + 7) >>> 3)
  match markNulls nullBm presentCols 0 0 presentBm with
  | none => P.panic
  | some colBm => LogRow.readFrom nCols colBm metas

/-- rows_v2.rs:143-149, 201-207: `extra_data_len - 2` is a `usize`, `n_cols + 7` a `u32`. The result is the extra
data, the number of columns and the length of a bitmap. -/
def readRowsHeader (extraDataLen : Nat) : P (Bytes × Nat × Nat) := do
  let extra ← readLen ((2 ^ 64 + extraDataLen - 2) % 2 ^ 64)
  let n ← readLenEncInt
  let n ← P.orErr n.toU32 .constraint
  return (extra, n, ((n + 7) % 2 ^ 32) >>> 3)

/-- rows_v2.rs:137-184 -/
def RowsV2.readFrom (extraDataLen : Nat) (metas : List ColumnMeta) : P RowsV2 := do
  let (extraData, nCols, bmLen) ← readRowsHeader extraDataLen
  let presentBm ← readLen bmLen
  let rows ← P.whileRemaining (readImage nCols (countPresent presentBm nCols) presentBm metas)
  return ⟨extraData, nCols, presentBm, rows⟩

/-- rows_v2.rs:222-261 -/
def readUpdateRow (nCols : Nat) (beforeBm afterBm : Bytes) (metas : List ColumnMeta) :
    P (List BinlogColumnValue × List BinlogColumnValue) := do
  let before ← readImage nCols (countPresent beforeBm nCols) beforeBm metas
  let after ← readImage nCols (countPresent afterBm nCols) afterBm metas
  return (before, after)

/-- rows_v2.rs:195-270 -/
def UpdateRowsV2.readFrom (extraDataLen : Nat) (metas : List ColumnMeta) : P UpdateRowsV2 := do
  let (extraData, nCols, bmLen) ← readRowsHeader extraDataLen
  let beforeBm ← readLen bmLen
  let afterBm ← readLen bmLen
  let rows ← P.whileRemaining (readUpdateRow nCols beforeBm afterBm metas)
  return ⟨extraData, nCols, beforeBm, afterBm, rows⟩

/-- time.rs:60-109: `i64::abs` of the least value is itself, and its low 32 bits are zero. (The product of 91 has at
most six digits and cannot overflow.) -/
def timeFromText : Conv (Option Bytes) MyTime
  | none => .ok none
  | some bs =>
    if !validUtf8 bs then .err .utf8
    else
      match splitOn 0x3a (trimStart bs) with
      | [h, m, s] => do
        let hours ← Res.parse (parseSInt 64 h)
        let abs := hours.natAbs % 2 ^ 32
        let days := abs / 24
        let minute ← Res.parse (parseUInt 8 m)
        let (second, micro) ← parseSeconds s
        return some { negative := decide (hours < 0), days, hour := (abs - days * 24) % 256, minute, second, micro }
      | _ => .err .parseText

/-! ### Literals and JSON values -/

/-- stmt.rs:239-247, json.rs:205-212: the distance of the shift is taken modulo 64, bits shifted out are lost and the
sum is modulo 2^64 -/
def bitSum : Nat → Bytes → Nat
  | _, [] => 0
  | i, b :: bs => (b.toNat * 2 ^ (i * 8 % 64) % 2 ^ 64 + bitSum (i + 1) bs) % 2 ^ 64

/-- stmt.rs:177-200: `days as i32 * 24 + hour as i32` -/
def timeText (t : MyTime) : Bytes :=
  let hour := asSigned 32 (asUnsigned 32 (asSigned 32 t.days * 24 + t.hour))
  (if t.negative then asc "-" else [])
    ++ (if 100 ≤ hour then intText hour else padInt 2 hour)
    ++ asc ":" ++ msText t.minute t.second
    ++ (if t.micro = 0 then [] else asc "." ++ padText 6 t.micro)

/-- stmt.rs:121-267 -/
def toSqlLiteral (ft : FloatText) (p : StmtColumnValue) : Option (Bytes × Bool) :=
  match p.val with
  | .time t => some (timeText t, true)
  | .bit bs => some (natText (bitSum 0 bs), false)
  | _ => p.toSqlLiteral ft

/-- json.rs:177-204 -/
def jsonTime (t : MyTime) : Bytes :=
  let hours := (t.days * 24 + t.hour) % 2 ^ 32
  match t.negative, t.micro == 0 with
  | true, true => asc "-" ++ padText 2 hours ++ asc ":" ++ msText t.minute t.second
  | true, false =>
    asc "-" ++ padText 2 hours ++ asc ":" ++ msText t.minute t.second ++ asc "." ++ padText 6 t.micro
  | false, true => padText 2 hours ++ asc ":" ++ msText t.minute t.second
  | false, false => padText 2 hours ++ asc ":" ++ msText t.minute t.second ++ asc "." ++ padText 6 t.micro

/-- json.rs:121-222 -/
def toJsonValue (lib : JsonLib) (sv : StmtColumnValue) : Option (Json × Bool) :=
  match sv.val with
  | .time t => some (.str (jsonTime t), false)
  | .bit bs => some (.int (bitSum 0 bs), false)
  | _ => Mybin.toJsonValue lib sv

end Mybin.Release
