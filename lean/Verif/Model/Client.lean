/-
Model of the command side of the client: result sets (`mybin-async/src/resultset.rs`), text queries
(`query.rs`), prepared statements (`stmt.rs`), and column lookup (`mybin-core/src/resultset.rs`).

Log output is left out. A result set and a prepared statement borrow the connection: the functions below
take the connection from the monad `M`. When a stream ends the model reports the io error; a real client
whose server keeps the connection open waits instead.
-/
import Verif.Model.Conn
import Verif.Model.Stmt

namespace Mybin

/-- mybin-async/src/error.rs:33-52: `From<ErrPacket> for Error`; the marker before the state is left out -/
def sqlError (p : ErrPacket) : Err :=
  if !validUtf8 p.sqlState then .utf8
  else if !validUtf8 p.errorMessage then .utf8
  else .sql p.errorCode p.sqlState p.errorMessage

/-- the negotiated flags (`&conn.cap_flags`) -/
def getCaps : M Nat := fun c => .ok c.caps c

/-- `ErrPacket::read_from(&mut msg, &conn.cap_flags, true)?` followed by `return Err(err.into())` -/
def failWithErrPacket {α : Type} (msg : Bytes) : M α := do
  let caps ← getCaps
  let p ← M.parse msg (ErrPacket.readFrom caps true)
  M.fail (sqlError p)

/-- the `n` column definition messages of resultset.rs:33-38, stmt.rs:46-50 and 64-68 -/
def recvColDefs : Nat → M (List ColumnDefinition)
  | 0 => pure []
  | n + 1 => do
    let msg ← recvMsg
    let d ← M.parse msg (ColumnDefinition.readFrom false)
    let ds ← recvColDefs n
    return d :: ds

/-- the EOF packet after definitions: resultset.rs:39-43, stmt.rs:52-55 and 70-73 -/
def recvDefsEof : M Unit := do
  let caps ← getCaps
  if !hasFlag caps Cap.DEPRECATE_EOF then
    let msg ← recvMsg
    let _ ← M.parse msg (EofPacket.readFrom caps)
    return ()
  else return ()

/-! ### Result sets -/

/-- resultset.rs:57-66: the column count itself. The error message of the last case indexes the rest of the
message. -/
def readColCnt (msg : Bytes) : M Nat := fun c =>
  match readLenEncInt msg with
  | .ok lei rest =>
    match lei.toU32 with
    | some n => .ok n c
    | none => if rest.isEmpty then .panic else .err .packet c
  | .err e _ => .err e c
  | .panic => .panic
  | .hang => .hang

/-- resultset.rs:50-67 -/
def parseColCnt (msg : Bytes) : M Nat :=
  match msg with
  | [] => M.panic
  | b :: _ => do
    let caps ← getCaps
    if b = 0xff then failWithErrPacket msg
    else if b = 0x00 then
      let _ ← M.parse msg (OkPacket.readFrom caps)
      return 0
    else readColCnt msg

/-- resultset.rs:72-81; `col_types` is the types of `col_defs` (99) -/
structure ResultSet where
  colDefs : List ColumnDefinition
  completed : Bool
  stmtId : Option Nat
  deriving DecidableEq, Repr

/-- resultset.rs:20-46 with 86-109 -/
def newResultSet (stmtId : Option Nat) : M ResultSet := do
  let msg ← recvMsg
  let n ← parseColCnt msg
  if n = 0 then return ⟨[], true, stmtId⟩
  else do
    let defs ← recvColDefs n
    recvDefsEof
    return ⟨defs, false, stmtId⟩

/-- resultset.rs:238-244 -/
def ResultSet.textRow (rs : ResultSet) : P (List (Option Bytes)) := TextRow.readFrom rs.colDefs.length

/-- resultset.rs:230-236 -/
def ResultSet.binaryRow (rs : ResultSet) : P (List BinaryColumnValue) :=
  BinaryRow.readFrom (rs.colDefs.map (·.colType))

/-- the terminator of resultset.rs:180-201: any parse error becomes `PacketError` -/
def readTerminator (caps : Nat) (msg : Bytes) : M Unit := fun c =>
  if hasFlag caps Cap.DEPRECATE_EOF then
    match OkPacket.readFrom caps msg with
    | .ok _ _ => .ok () c
    | .err _ _ => .err .packet c
    | .panic => .panic
    | .hang => .hang
  else
    match EofPacket.readFrom caps msg with
    | .ok _ _ => .ok () c
    | .err _ _ => .err .packet c
    | .panic => .panic
    | .hang => .hang

/-- resultset.rs:168-208, with the row reader (`read_row`) as argument; also returns the new result set.
After an error the result set is unchanged. -/
def ResultSet.nextRow {ρ : Type} (read : P ρ) (rs : ResultSet) : M (Option ρ × ResultSet) :=
  if rs.completed then return (none, rs)
  else do
    let msg ← recvMsg
    let caps ← getCaps
    match msg with
    | [] => M.fail .packet
    | b :: _ =>
      if b = 0xfe ∧ msg.length ≤ 0xffffff then do
        readTerminator caps msg
        return (none, { rs with completed := true })
      else do
        let r ← M.parse msg read
        return (some r, rs)

/-- the loop `while let Some(row) = self.next_row().await? { body }` of `all`, `first_or_none` and `count`
(resultset.rs:136-166 and 258-288): `f` is the body, on the local variables `s`. A row always consumes
input, so the `hang` branch is never taken. -/
def ResultSet.foldRows {ρ σ : Type} (read : P ρ) (f : σ → ρ → σ) (s : σ) (rs : ResultSet) (c : Conn) : MR σ :=
  match rs.nextRow read c with
  | .ok (some r, rs') c' =>
    if c'.inp.length < c.inp.length then ResultSet.foldRows read f (f s r) rs' c' else .hang
  | .ok (none, _) c' => .ok s c'
  | .err e c' => .err e c'
  | .panic => .panic
  | .hang => .hang
termination_by c.inp.length

/-- resultset.rs:136-142 -/
def ResultSet.all {ρ : Type} (read : P ρ) (rs : ResultSet) : M (List ρ) :=
  rs.foldRows read (fun rows r => rows ++ [r]) []

/-- resultset.rs:150-158 -/
def ResultSet.firstOrNone {ρ : Type} (read : P ρ) (rs : ResultSet) : M (Option ρ) :=
  rs.foldRows read (fun first r => if first.isNone then some r else first) none

/-- resultset.rs:144-148 -/
def ResultSet.first {ρ : Type} (read : P ρ) (rs : ResultSet) : M ρ := do
  match ← rs.firstOrNone read with
  | some r => return r
  | none => M.fail .emptyResultSet

/-- resultset.rs:160-166 -/
def ResultSet.count {ρ : Type} (read : P ρ) (rs : ResultSet) : M Nat :=
  rs.foldRows read (fun cnt _ => cnt + 1) 0

/-- resultset.rs:290-297: a mapped result set reads rows and applies the mapper to each -/
def mapRow {ρ τ : Type} (read : P ρ) (mapper : ρ → τ) : P τ := do return mapper (← read)

/-- resultset.rs:215-221 -/
def ResultSet.close (rs : ResultSet) : M ResultSet :=
  match rs.stmtId with
  | some id => do
    sendMsg (ComStmtClose.writeTo [] id).1 true
    return { rs with stmtId := none }
  | none => return rs

/-! ### Queries -/

/-- the loop of query.rs:30-48 and stmt.rs:101-117. Every message consumes input, so the `hang` branch is
never taken. -/
def execLoop (c : Conn) : MR Unit :=
  match recvMsg c with
  | .ok [] _ => .panic
  | .ok (b :: t) c' =>
    if b = 0xff then failWithErrPacket (b :: t) c'
    else if b = 0x00 then
      match M.parse (b :: t) (OkPacket.readFrom c'.caps) c' with
      | .ok _ c'' => .ok () c''
      | .err e c'' => .err e c''
      | .panic => .panic
      | .hang => .hang
    else if c'.inp.length < c.inp.length then execLoop c' else .hang
  | .err e c' => .err e c'
  | .panic => .panic
  | .hang => .hang
termination_by c.inp.length

/-- query.rs:27-49 -/
def Query.exec (qry : Bytes) : M Unit := do
  sendMsg (ComQuery.writeTo [] qry).1 true
  execLoop

/-- query.rs:51-55 -/
def Query.qry (qry : Bytes) : M ResultSet := do
  sendMsg (ComQuery.writeTo [] qry).1 true
  newResultSet none

/-! ### Prepared statements -/

/-- stmt.rs:84-91 -/
structure PreparedStmt where
  stmtId : Nat
  colDefs : List ColumnDefinition
  paramDefs : List ColumnDefinition
  nWarnings : Nat
  deriving DecidableEq, Repr

/-- definitions followed by their EOF packet, nothing if there are none: stmt.rs:42-57 and 59-75 -/
def recvDefs (n : Nat) : M (List ColumnDefinition) :=
  if n = 0 then pure []
  else do
    let defs ← recvColDefs n
    recvDefsEof
    return defs

/-- stmt.rs:26-82 -/
def Stmt.prepare (qry : Bytes) : M PreparedStmt := do
  sendMsg (ComStmtPrepare.writeTo [] qry).1 true
  let msg ← recvMsg
  match msg with
  | [] => M.fail (.incomplete none)
  | b :: _ =>
    let ok ← (if b = 0xff then failWithErrPacket msg else M.parse msg StmtPrepareOk.readFrom : M StmtPrepareOk)
    let paramDefs ← recvDefs ok.nParams
    let colDefs ← recvDefs ok.nCols
    return { stmtId := ok.stmtId, colDefs, paramDefs, nWarnings := ok.nWarnings }

/-- `ComStmtExecute::single` and its serialisation in `send_msg` (stmt.rs:99-100, 154-155) -/
def PreparedStmt.send (s : PreparedStmt) (params : List StmtColumnValue) : M Unit :=
  match ComStmtExecute.single s.stmtId params with
  | none => M.panic
  | some cmd =>
    match cmd.writeTo [] with
    | none => M.panic
    | some (bs, _) => sendMsg bs true

/-- stmt.rs:98-118 -/
def PreparedStmt.exec (s : PreparedStmt) (params : List StmtColumnValue) : M Unit := do
  s.send params
  execLoop

/-- stmt.rs:137-140 -/
def PreparedStmt.close (s : PreparedStmt) : M Unit := sendMsg (ComStmtClose.writeTo [] s.stmtId).1 true

/-- stmt.rs:120-131: the outcome of `close` is dropped -/
def PreparedStmt.execClose (s : PreparedStmt) (params : List StmtColumnValue) : M Unit := fun c =>
  match s.exec params c with
  | .ok _ c' =>
    match s.close c' with
    | .ok _ c'' => .ok () c''
    | .err _ c'' => .ok () c''
    | .panic => .panic
    | .hang => .hang
  | .err e c' =>
    match s.close c' with
    | .ok _ c'' => .err e c''
    | .err _ c'' => .err e c''
    | .panic => .panic
    | .hang => .hang
  | .panic => .panic
  | .hang => .hang

/-- stmt.rs:150-158 -/
def PreparedStmt.qry (s : PreparedStmt) (params : List StmtColumnValue) : M ResultSet := do
  s.send params
  newResultSet (some s.stmtId)

/-! ### Column lookup -/

/-- mybin-core/src/resultset.rs:55-65: two hash maps from names to column indices, as association lists in
which `insert` puts the new entry first (`col_type` is not used by the lookups and left out) -/
structure ColumnExtractor where
  byName : List (Bytes × Nat)
  byLcName : List (Bytes × Nat)
  deriving DecidableEq, Repr

/-- `HashMap::get` -/
def mapGet (m : List (Bytes × Nat)) (k : Bytes) : Option Nat := (m.find? (·.1 == k)).map (·.2)

/-- resultset.rs:67-93: one iteration of the loop. `lc` is `str::to_lowercase`, which is not modelled
further. -/
def ColumnExtractor.insert (lc : Bytes → Bytes) (e : ColumnExtractor) (idx : Nat) (d : ColumnDefinition) :
    ColumnExtractor :=
  { byName := (d.name, idx) :: e.byName, byLcName := (lc d.name, idx) :: e.byLcName }

/-- resultset.rs:67-93 -/
def ColumnExtractor.new (lc : Bytes → Bytes) (defs : List ColumnDefinition) : ColumnExtractor :=
  defs.zipIdx.foldl (fun e (d, idx) => e.insert lc idx d) ⟨[], []⟩

/-- resultset.rs:95-109: the value before `V::from_col` is applied -/
def ColumnExtractor.getCol {γ : Type} (row : List γ) (idx : Nat) : Except Err γ :=
  match row[idx]? with
  | some v => .ok v
  | none => .error .columnIndex

/-- resultset.rs:111-125 -/
def ColumnExtractor.getNamedCol {γ : Type} (lc : Bytes → Bytes) (e : ColumnExtractor) (row : List γ)
    (name : Bytes) : Except Err γ :=
  match mapGet e.byName name with
  | some idx => ColumnExtractor.getCol row idx
  | none =>
    match mapGet e.byLcName (lc name) with
    | some idx => ColumnExtractor.getCol row idx
    | none => .error .columnName

end Mybin
