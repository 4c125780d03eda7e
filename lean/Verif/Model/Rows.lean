/-
Model of `mybin-core/src/binlog/table_map.rs`, `rows_v1.rs`, `rows_v2.rs` and of the binlog row of
`mybin-core/src/row.rs`.
-/
import Verif.Model.BinlogCol
import Verif.Model.EventData

namespace Mybin

/-! ### Table map -/

/-- table_map.rs:13-22 -/
structure TableMapData where
  tableId : Nat
  flags : Nat
  payload : Bytes
  deriving DecidableEq, Repr

/-- table_map.rs:24-35 -/
def TableMapData.readFrom : P TableMapData := do
  let tableId ← readLeU48
  let flags ← readLeU16
  let payload ← readRest
  return ⟨tableId, flags, payload⟩

/-- table_map.rs:53-61 -/
structure RawTableMap where
  schemaName : Bytes
  tableName : Bytes
  colCnt : Nat
  colDefs : Bytes
  colMetaDefs : Bytes
  nullBitmap : Bytes
  deriving DecidableEq, Repr

/-- table_map.rs:64-97. `col_cnt + 7` cannot overflow: `col_cnt` bytes have just been read. -/
def RawTableMap.readFrom : P RawTableMap := do
  let schemaLen ← readU8
  let schemaName ← readLen schemaLen
  let _ ← readLen 1
  let tableLen ← readU8
  let tableName ← readLen tableLen
  let _ ← readLen 1
  let colCnt ← readLenEncInt
  let colCnt ← P.orErr colCnt.toU64 .constraint
  let colDefs ← readLen colCnt
  let metaLen ← readLenEncInt
  let metaLen ← P.orErr metaLen.toU64 .constraint
  let colMetaDefs ← readLen metaLen
  let nullBitmap ← readLen ((colCnt + 7) / 8)
  return ⟨schemaName, tableName, colCnt, colDefs, colMetaDefs, nullBitmap⟩

/-- table_map.rs:99-105 -/
structure TableMap where
  schemaName : Bytes
  tableName : Bytes
  colMetas : List ColumnMeta
  nullBitmap : Bytes
  deriving DecidableEq, Repr

/-- table_map.rs:107-125 -/
def TableMap.ofRaw (raw : RawTableMap) : P TableMap := do
  let schemaName ← toUtf8 raw.schemaName
  let tableName ← toUtf8 raw.tableName
  let colMetas ← P.onSub raw.colMetaDefs (ColumnMetas.readFrom raw.colCnt raw.colDefs)
  return ⟨schemaName, tableName, colMetas, raw.nullBitmap⟩

/-- table_map.rs:37-51 (`table_map`, `into_table_map`): run on the payload; trailing bytes are ignored -/
def TableMapData.tableMap : P TableMap := do
  let raw ← RawTableMap.readFrom
  TableMap.ofRaw raw

/-! ### Rows, version 1 -/

/-- rows_v1.rs:11-32 and, with the same layout, the update and delete data of 34-75 -/
def RowsDataV1.readFrom : P TableMapData := TableMapData.readFrom

/-! ### Rows, version 2 -/

/-- rows_v2.rs:15-23 and, with the same layout, the update and delete data of 55-63, 92-100 -/
structure RowsDataV2 where
  tableId : Nat
  flags : Nat
  extraDataLen : Nat
  payload : Bytes
  deriving DecidableEq, Repr

/-- rows_v2.rs:39-53, 79-90, 116-126 -/
def RowsDataV2.readFrom : P RowsDataV2 := do
  let tableId ← readLeU48
  let flags ← readLeU16
  let extraDataLen ← readLeU16
  let payload ← readRest
  return ⟨tableId, flags, extraDataLen, payload⟩

/-- row.rs:66-75, iterations from column `i` on. `metas` is `col_metas[i..]`; indexing past its end
panics, as does indexing past the bitmap. -/
def LogRow.readCols (bm : Bytes) : Nat → Nat → List ColumnMeta → P (List BinlogColumnValue)
  | 0, _, _ => pure []
  | n + 1, i, metas =>
    match Bitmap.index bm i with
    | none => P.panic
    | some true =>
      match metas with
      | [] => P.panic
      | m :: ms => do
        let v ← BinlogColumnValue.readFrom m
        let vs ← LogRow.readCols bm n (i + 1) ms
        return v :: vs
    | some false => do
      let vs ← LogRow.readCols bm n (i + 1) metas.tail
      return .null :: vs

/-- row.rs:59-78; `BinlogColumnValue` is 40 bytes wide -/
def LogRow.readFrom (nCols : Nat) (bm : Bytes) (metas : List ColumnMeta) :
    P (List BinlogColumnValue) := do
  let _ ← withCapacity nCols 40
  LogRow.readCols bm nCols 0 metas

/-- rows_v2.rs:164-166, 229-231, 248-250: `while !bitmap::index(&col_bitmap, j) { j += 1; }`. `none` is
the out-of-bounds panic. -/
def nextSet (bm : Bytes) (j : Nat) : Option Nat :=
  match h : Bitmap.index bm j with
  | none => none
  | some true => some j
  | some false => nextSet bm (j + 1)
termination_by 8 * bm.length - j
decreasing_by
  have : j >>> 3 < bm.length := by
    by_contra hc
    unfold Bitmap.index at h
    dsimp only at h
    rw [List.getElem?_eq_none (Nat.not_lt.mp hc)] at h
    cases h
  rw [Nat.shiftRight_eq_div_pow] at this
  omega

/-- rows_v2.rs:162-173 (and 227-238, 246-257): iterations `i, i+1, …` of the loop over the present columns (`k` of them left).
`none` is a panic. -/
def markNulls (nullBm : Bytes) : Nat → Nat → Nat → Bytes → Option Bytes
  | 0, _, _, bm => some bm
  | k + 1, i, j, bm =>
    match nextSet bm j with
    | none => none
    | some j =>
      match Bitmap.index nullBm i with
      | none => none
      | some isNull =>
        match Bitmap.mark bm j (!isNull) with
        | none => none
        | some bm => markNulls nullBm k (i + 1) (j + 1) bm

/-- rows_v2.rs:152-155, 211-219: `to_iter(bm, 0).take(n)` counted (an `i32`, taken not to overflow). The iterator never panics from offset 0. -/
def countPresent (bm : Bytes) (n : Nat) : Nat :=
  (((Bitmap.toIter bm 0).getD []).take n).count true

/-- rows_v2.rs:156, 159-174 (and 223-240, 242-259): the null bitmap and values of one row image -/
def readImage (nCols presentCols : Nat) (presentBm : Bytes) (metas : List ColumnMeta) :
    P (List BinlogColumnValue) := do
  let nullBm ← readLen ((presentCols + 7) >>> 3)
  match markNulls nullBm presentCols 0 0 presentBm with
  | none => P.panic
  | some colBm => LogRow.readFrom nCols colBm metas

/-- rows_v2.rs:128-135 -/
structure RowsV2 where
  extraData : Bytes
  nCols : Nat
  presentBitmap : Bytes
  rows : List (List BinlogColumnValue)
  deriving DecidableEq, Repr

/-- rows_v2.rs:143-149, 201-207: `extra_data_len - 2` underflows below 2; `n_cols + 7` is `u32` -/
def readRowsHeader (extraDataLen : Nat) : P (Bytes × Nat) := do
  if extraDataLen < 2 then P.panic
  else do
    let extra ← readLen (extraDataLen - 2)
    let n ← readLenEncInt
    let n ← P.orErr n.toU32 .constraint
    if n + 7 < 2 ^ 32 then return (extra, n) else P.panic

/-- rows_v2.rs:137-184 (also `rows`/`into_rows` of the write and delete events, 25-37, 102-114) -/
def RowsV2.readFrom (extraDataLen : Nat) (metas : List ColumnMeta) : P RowsV2 := do
  let (extraData, nCols) ← readRowsHeader extraDataLen
  let presentBm ← readLen ((nCols + 7) >>> 3)
  let rows ← P.whileRemaining (readImage nCols (countPresent presentBm nCols) presentBm metas)
  return ⟨extraData, nCols, presentBm, rows⟩

/-- rows_v2.rs:186-193 -/
structure UpdateRowsV2 where
  extraData : Bytes
  nCols : Nat
  beforeBitmap : Bytes
  afterBitmap : Bytes
  rows : List (List BinlogColumnValue × List BinlogColumnValue)
  deriving DecidableEq, Repr

/-- rows_v2.rs:222-261: before and after image of one row -/
def readUpdateRow (nCols : Nat) (beforeBm afterBm : Bytes) (metas : List ColumnMeta) :
    P (List BinlogColumnValue × List BinlogColumnValue) := do
  let before ← readImage nCols (countPresent beforeBm nCols) beforeBm metas
  let after ← readImage nCols (countPresent afterBm nCols) afterBm metas
  return (before, after)

/-- rows_v2.rs:195-270 (also `rows`/`into_rows` of the update event, 65-77) -/
def UpdateRowsV2.readFrom (extraDataLen : Nat) (metas : List ColumnMeta) : P UpdateRowsV2 := do
  let (extraData, nCols) ← readRowsHeader extraDataLen
  let beforeBm ← readLen ((nCols + 7) >>> 3)
  let afterBm ← readLen ((nCols + 7) >>> 3)
  let rows ← P.whileRemaining (readUpdateRow nCols beforeBm afterBm metas)
  return ⟨extraData, nCols, beforeBm, afterBm, rows⟩

end Mybin
