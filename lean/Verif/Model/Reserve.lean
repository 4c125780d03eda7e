/-
Model of the room the decoders ask for in advance: the readers once more, each together with the sizes it passes to
`Vec::with_capacity`, `LinkedHashMap::with_capacity` and `Vec::reserve`, in the order of the calls. A size counts elements
(bytes, for the buffer of a message). Room that is taken bit by bit, as elements are appended, is not counted: it is at most
twice what the elements need.
-/
import Verif.Model.Client
import Verif.Model.Rows

namespace Mybin

/-- a reader, with the sizes it asks for -/
def Q (α : Type) : Type := Bytes → R α × List Nat

/-- the `?` operator; nothing is asked for after an error -/
def Q.next {α β : Type} : R α × List Nat → (α → Q β) → R β × List Nat
  | (.ok a r, l), f => ((f a r).1, l ++ (f a r).2)
  | (.err e r, l), _ => (.err e r, l)
  | (.panic, l), _ => (.panic, l)
  | (.hang, l), _ => (.hang, l)

instance : Monad Q where
  pure a := fun bs => (.ok a bs, [])
  bind x f := fun bs => Q.next (x bs) f

/-- a reader that asks for nothing -/
def Q.of {α : Type} (p : P α) : Q α := fun bs => (p bs, [])

/-- `Vec::with_capacity(n)`, elements of `sz` bytes: a capacity overflow panics before anything is asked for -/
def Q.capacity (n sz : Nat) : Q Unit := fun bs => (withCapacity n sz bs, if n * sz < 2 ^ 63 then [n] else [])

/-- `for _ in 0..n` -/
def Q.times {α : Type} (q : Q α) : Nat → Q (List α)
  | 0 => pure []
  | n + 1 => do
    let a ← q
    let as ← Q.times q n
    return a :: as

/-- `while input.has_remaining()` -/
def Q.whileRemaining {α : Type} (q : Q α) (bs : Bytes) : R (List α) × List Nat :=
  if bs = [] then (.ok [] [], [])
  else
    match q bs with
    | (.ok a r, l) =>
      if _h : r.length < bs.length then
        match Q.whileRemaining q r with
        | (.ok as r', l') => (.ok (a :: as) r', l ++ l')
        | (.err e r', l') => (.err e r', l ++ l')
        | (.panic, l') => (.panic, l ++ l')
        | (.hang, l') => (.hang, l ++ l')
      else (.hang, l)
    | (.err e r, l) => (.err e r, l)
    | (.panic, l) => (.panic, l)
    | (.hang, l) => (.hang, l)
termination_by bs.length

/-- a reader on a separate buffer -/
def Q.onSub {α : Type} (sub : Bytes) (q : Q α) : Q α := fun bs =>
  match q sub with
  | (.ok a _, l) => (.ok a bs, l)
  | (.err e _, l) => (.err e bs, l)
  | (.panic, l) => (.panic, l)
  | (.hang, l) => (.hang, l)

/-! ### GTID sets -/

/-- binlog/gtid.rs:159-183 -/
def GtidRange.reserving : Q GtidRange := do
  let sid ← Q.of readLeU128
  let n ← Q.of readLeU64
  let _ ← Q.capacity n 16
  let intervals ← Q.of (readGtidIntervals n 0)
  return ⟨sid, intervals⟩

/-- binlog/gtid.rs:150-154 -/
def readGtidRanges.reserving : (n : Nat) → List GtidRange → Q (List GtidRange)
  | 0, m => pure m
  | n + 1, m => do
    let r ← GtidRange.reserving
    readGtidRanges.reserving n (gtidInsert m r)

/-- binlog/gtid.rs:146-157 -/
def GtidSet.reserving : Q (List GtidRange) := do
  let n ← Q.of readLeU64
  let _ ← Q.capacity n 40
  readGtidRanges.reserving n []

/-- cmd/binlog_dump.rs:288-300 -/
def SidRange.reserving : Q SidRange := do
  let sid ← Q.of readLeU128
  let n ← Q.of readLeU64
  let _ ← Q.capacity n 16
  let intervals ← Q.of (P.times readInterval n)
  return ⟨sid, intervals⟩

/-- cmd/binlog_dump.rs:249-259 -/
def SidData.reserving : Q (List SidRange) := do
  let n ← Q.of readLeU64
  let _ ← Q.capacity n 48
  Q.times SidRange.reserving n

/-! ### Tables and rows of a log -/

/-- col.rs:184-192 -/
def ColumnMetas.reserving (colCnt : Nat) (colDefs : Bytes) : Q (List ColumnMeta) := do
  let _ ← Q.capacity colCnt 4
  if colCnt ≤ colDefs.length then Q.of (readMetas (colDefs.take colCnt))
  else do
    let _ ← Q.of (readMetas colDefs)
    Q.of P.panic

/-- table_map.rs:107-125 -/
def TableMap.ofRaw.reserving (raw : RawTableMap) : Q TableMap := do
  let schemaName ← Q.of (toUtf8 raw.schemaName)
  let tableName ← Q.of (toUtf8 raw.tableName)
  let colMetas ← Q.onSub raw.colMetaDefs (ColumnMetas.reserving raw.colCnt raw.colDefs)
  return ⟨schemaName, tableName, colMetas, raw.nullBitmap⟩

/-- table_map.rs:37-51 -/
def TableMapData.reserving : Q TableMap := do
  let raw ← Q.of RawTableMap.readFrom
  TableMap.ofRaw.reserving raw

/-- row.rs:59-78 -/
def LogRow.reserving (nCols : Nat) (bm : Bytes) (metas : List ColumnMeta) : Q (List BinlogColumnValue) := do
  let _ ← Q.capacity nCols 40
  Q.of (LogRow.readCols bm nCols 0 metas)

/-- rows_v2.rs:156, 159-174 (and 223-240, 242-259) -/
def readImage.reserving (nCols presentCols : Nat) (presentBm : Bytes) (metas : List ColumnMeta) :
    Q (List BinlogColumnValue) := do
  let nullBm ← Q.of (readLen ((presentCols + 7) >>> 3))
  match markNulls nullBm presentCols 0 0 presentBm with
  | none => Q.of P.panic
  | some colBm => LogRow.reserving nCols colBm metas

/-- rows_v2.rs:137-184 -/
def RowsV2.reserving (extraDataLen : Nat) (metas : List ColumnMeta) : Q RowsV2 := do
  let (extraData, nCols) ← Q.of (readRowsHeader extraDataLen)
  let presentBm ← Q.of (readLen ((nCols + 7) >>> 3))
  let rows ← Q.whileRemaining (readImage.reserving nCols (countPresent presentBm nCols) presentBm metas)
  return ⟨extraData, nCols, presentBm, rows⟩

/-- rows_v2.rs:222-261 -/
def readUpdateRow.reserving (nCols : Nat) (beforeBm afterBm : Bytes) (metas : List ColumnMeta) :
    Q (List BinlogColumnValue × List BinlogColumnValue) := do
  let before ← readImage.reserving nCols (countPresent beforeBm nCols) beforeBm metas
  let after ← readImage.reserving nCols (countPresent afterBm nCols) afterBm metas
  return (before, after)

/-- rows_v2.rs:195-270 -/
def UpdateRowsV2.reserving (extraDataLen : Nat) (metas : List ColumnMeta) : Q UpdateRowsV2 := do
  let (extraData, nCols) ← Q.of (readRowsHeader extraDataLen)
  let beforeBm ← Q.of (readLen ((nCols + 7) >>> 3))
  let afterBm ← Q.of (readLen ((nCols + 7) >>> 3))
  let rows ← Q.whileRemaining (readUpdateRow.reserving nCols beforeBm afterBm metas)
  return ⟨extraData, nCols, beforeBm, afterBm, rows⟩

/-! ### Rows of a result set -/

/-- row.rs:13-28 -/
def TextRow.reserving (colCnt : Nat) : Q (List (Option Bytes)) := do
  let _ ← Q.capacity colCnt 32
  Q.of (P.times readTextValue colCnt)

/-- row.rs:36-52; `with_capacity` (42) cannot overflow: the list of types is at least as long -/
def BinaryRow.reserving (colTypes : List ColumnType) : Q (List BinaryColumnValue) := do
  let _ ← Q.of readU8
  let bm ← Q.of (readLen ((colTypes.length + 7 + 2) >>> 3))
  let cols ← (fun bs => (BinaryRow.readCols bm colTypes 2 bs, [colTypes.length]) : Q _)
  return cols

/-! ### Messages and definitions -/

/-- conn.rs:49-80: `bs.reserve(len)` (70) for every packet whose header has arrived -/
def recvLoop.reserving : (inp : Bytes) → List Nat
  | l0 :: l1 :: l2 :: _ :: rest =>
    let len := l0.toNat + (l1.toNat <<< 8) + (l2.toNat <<< 16)
    if rest.length < len then [len]
    else if len < maxPacket then [len]
    else len :: recvLoop.reserving (rest.drop len)
  | _ => []
termination_by inp => inp.length
decreasing_by simp [List.length_drop]; omega

/-- resultset.rs:20-46: `Vec::with_capacity(col_cnt)` (32), once the message with the number of columns has been read -/
def newResultSet.reserving (c : Conn) : List Nat :=
  match recvMsg c with
  | .ok msg c' =>
    match parseColCnt msg c' with
    | .ok n _ => if n = 0 then [] else [n]
    | _ => []
  | _ => []

end Mybin
