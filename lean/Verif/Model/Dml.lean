/-
Model of the `dml` command of `mybinlog/src/mybinlog.rs` (lines 81-233). Printed lines are collected in a list, so that
they are there also when the run fails later. The regular expressions are predicates on names (library). Log output and
the heartbeats printed to stderr (212-214) are left out. A `HashMap` is an association list, a `HashSet` a list. The
counter of printed statements is a natural number (`usize` in the code: overflow after 2^64 lines is left out).
-/
import Verif.Model.Request
import Verif.Model.Sql

namespace Mybin

/-- a line of the output: a statement, or the note about a missing key (mybinlog.rs:163) -/
inductive DmlLine where
  | stmt (s : Bytes)
  | note (db tbl : Bytes) (nextPos : Nat)
  deriving DecidableEq, Repr

/-- mybinlog.rs:227-233 -/
structure TableMeta where
  db : Bytes
  tbl : Bytes
  colMetas : List ColumnMeta
  colDefs : List ColumnDefinition

/-- mybinlog.rs:81-90: the parameters besides the connections -/
structure DmlOpts where
  filename : Bytes
  untilNow : Bool
  databaseFilter : Option (Bytes → Bool)
  tableFilter : Option (Bytes → Bool)
  nonBlock : Bool
  limit : Nat

/-- mybinlog.rs:99-101 and the helper connection -/
structure DmlState where
  tbls : List (Nat × TableMeta)
  skip : List Nat
  nRows : Nat
  helper : Conn

/-- what happens after an event: the next one, the end of the loop, an error, a panic, or an endless loop -/
inductive DmlNext where
  | go (st : DmlState)
  | stop
  | err (e : Err)
  | panic
  | hang

/-- the end of a run -/
inductive DmlEnd where
  | done
  | err (e : Err)
  | panic
  | hang
  deriving DecidableEq, Repr

/-- mybinlog.rs:221-226 -/
def keyExists (defs : List ColumnDefinition) : Bool :=
  defs.any fun d => hasFlag d.flags 0x02 && hasFlag d.flags 0x04

/-- the filters of mybinlog.rs:109-120: `re.is_match` -/
def filterOk (f : Option (Bytes → Bool)) (name : Bytes) : Bool := match f with | none => true | some re => re name

/-- `sql_list()` of a transformed event; `none` is a panic -/
def sqlLines (ft : FloatText) : Option PreparedSql → R (List DmlLine)
  | none => .panic
  | some p =>
    match p.sqlList ft with
    | none => .panic
    | some l => .ok (l.map .stmt) []

/-- mybinlog.rs:141-144 and 187-190: the lines of a delete and of a write event -/
def rowLines (ft : FloatText) (make : Bytes → Bytes → RowsV2 → List ColumnDefinition → Option PreparedSql)
    (tm : TableMeta) (d : RowsDataV2) : R (List DmlLine) :=
  match RowsV2.readFrom d.extraDataLen tm.colMetas d.payload with
  | .ok rows _ => sqlLines ft (make tm.db tm.tbl rows tm.colDefs)
  | .err e r => .err e r
  | .panic => .panic
  | .hang => .hang

/-- mybinlog.rs:161-171: the lines of an update event -/
def updateLines (ft : FloatText) (nextPos : Nat) (tm : TableMeta) (d : RowsDataV2) : R (List DmlLine) :=
  match UpdateRowsV2.readFrom d.extraDataLen tm.colMetas d.payload with
  | .ok rows _ =>
    if keyExists tm.colDefs then sqlLines ft (PreparedSql.fromUpdate tm.db tm.tbl rows tm.colDefs)
    else .ok [.note tm.db tm.tbl nextPos] []
  | .err e r => .err e r
  | .panic => .panic
  | .hang => .hang

/-- the loops of mybinlog.rs:145-151, 172-178, 191-197: the lines printed, and the counter, or `none` after the limit -/
def printLines (limit : Nat) : Nat → List DmlLine → List DmlLine × Option Nat
  | n, [] => ([], some n)
  | n, .note d t p :: ls => let r := printLines limit n ls; (.note d t p :: r.1, r.2)
  | n, .stmt s :: ls =>
    if limit ≠ 0 ∧ limit ≤ n + 1 then ([.stmt s], none)
    else let r := printLines limit (n + 1) ls; (.stmt s :: r.1, r.2)

/-- mybinlog.rs:134-152 (delete), 153-180 (update), 181-199 (write) -/
def onRows (limit : Nat) (lines : TableMeta → RowsDataV2 → R (List DmlLine)) (st : DmlState) (data : Bytes) :
    List DmlLine × DmlNext :=
  match RowsDataV2.readFrom data with
  | .ok d _ =>
    if d.tableId ∈ st.skip then ([], .go st)
    else
      match st.tbls.lookup d.tableId with
      | none => ([], .go st)
      | some tm =>
        match lines tm d with
        | .ok ls _ =>
          match printLines limit st.nRows ls with
          | (out, some n) => (out, .go { st with nRows := n })
          | (out, none) => (out, .stop)
        | .err e _ => ([], .err e)
        | .panic => ([], .panic)
        | .hang => ([], .hang)
  | .err e _ => ([], .err e)
  | .panic => ([], .panic)
  | .hang => ([], .hang)

/-- mybinlog.rs:121-122: the columns of a table, from the helper connection -/
def fetchColumns (db tbl : Bytes) : M (List ColumnDefinition) := do
  Cmd.initDb db
  Cmd.fieldList tbl (Cmd.str "%")

/-- mybinlog.rs:104-133 -/
def onTableMap (o : DmlOpts) (st : DmlState) (data : Bytes) : DmlNext :=
  match TableMapData.readFrom data with
  | .ok d _ =>
    if (st.tbls.lookup d.tableId).isSome ∨ d.tableId ∈ st.skip then .go st
    else
      match TableMapData.tableMap d.payload with
      | .ok tm _ =>
        if ¬ filterOk o.databaseFilter tm.schemaName then .go { st with skip := d.tableId :: st.skip }
        else if ¬ filterOk o.tableFilter tm.tableName then .go { st with skip := d.tableId :: st.skip }
        else
          match fetchColumns tm.schemaName tm.tableName st.helper with
          | .ok defs h =>
            .go { st with
              tbls := (d.tableId, ⟨tm.schemaName, tm.tableName, tm.colMetas, defs⟩) :: st.tbls
              helper := h }
          | .err e _ => .err e
          | .panic => .panic
          | .hang => .hang
      | .err e _ => .err e
      | .panic => .panic
      | .hang => .hang
  | .err e _ => .err e
  | .panic => .panic
  | .hang => .hang

/-- mybinlog.rs:103-216: one event -/
def onEvent (ft : FloatText) (o : DmlOpts) (st : DmlState) (ev : Event) : List DmlLine × DmlNext :=
  match ev.kind with
  | .tableMap => ([], onTableMap o st ev.data)
  | .deleteRowsV2 => onRows o.limit (rowLines ft PreparedSql.fromDelete) st ev.data
  | .updateRowsV2 => onRows o.limit (updateLines ft ev.header.nextPos) st ev.data
  | .writeRowsV2 => onRows o.limit (rowLines ft PreparedSql.fromInsert) st ev.data
  | .rotate => if o.untilNow then ([], .go { st with tbls := [], skip := [] }) else ([], .stop)
  | _ => ([], .go st)

/-- mybinlog.rs:102-218. Every event consumes input, so the `hang` branch of the length test is never taken. -/
def dmlLoop (ft : FloatText) (o : DmlOpts) (s : BinlogStream) (st : DmlState) (c : Conn) : List DmlLine × DmlEnd :=
  match s.nextEvent c with
  | .ok (none, _) _ => ([], .done)
  | .ok (some ev, s') c' =>
    match onEvent ft o st ev with
    | (out, .go st') =>
      if c'.inp.length < c.inp.length then
        let r := dmlLoop ft o s' st' c'
        (out ++ r.1, r.2)
      else (out, .hang)
    | (out, .stop) => (out, .done)
    | (out, .err e) => (out, .err e)
    | (out, .panic) => (out, .panic)
    | (out, .hang) => (out, .hang)
  | .err e _ => ([], .err e)
  | .panic => ([], .panic)
  | .hang => ([], .hang)
termination_by c.inp.length

/-- mybinlog.rs:91-98 with the defaults of binlog.rs:32-43 -/
def DmlOpts.request (o : DmlOpts) : BinlogRequest := ⟨o.filename, 4, 0, [], o.nonBlock, false, 30 * 10 ^ 9⟩

/-- mybinlog.rs:81-219, with the random values of the request as parameters -/
def printDmls (ft : FloatText) (o : DmlOpts) (uuid : Bytes) (random : Nat) (conn helper : Conn) : List DmlLine × DmlEnd :=
  match o.request.requestStream uuid random conn with
  | .ok s c => dmlLoop ft o s ⟨[], [], 0, helper⟩ c
  | .err e _ => ([], .err e)
  | .panic => ([], .panic)
  | .hang => ([], .hang)

end Mybin
