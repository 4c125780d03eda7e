/-
Model of the commands of `mybin-async/src/conn.rs` (lines 249-566) that are not queries, statements or
authentication, and of the helpers built on queries and statements. Log output is left out.
-/
import Verif.Model.Client
import Verif.Model.Convert
import Verif.Model.Auth

namespace Mybin

/-- send a command, receive one message and read it as OK or ERR: the bodies of `init_db` (conn.rs:260-268),
`create_db` (293-301), `drop_db` (307-315), `refresh` (318-326), `process_kill` (401-409), `reset_connection`
(412-420) and `register_slave` (443-451) -/
def okCommand (bs : Bytes) : M Unit := do
  sendMsg bs true
  let msg ← recvMsg
  let caps ← getCaps
  let r ← M.parse msg (ComResponse.readFrom caps)
  match r with
  | .ok _ => return ()
  | .err p => M.fail (sqlError p)

namespace Cmd

/-- conn.rs:250-257 -/
def quit : M Unit := sendMsg (writeSingleByteCmd [] .quit).1 true

/-- conn.rs:260-268 -/
def initDb (db : Bytes) : M Unit := okCommand (ComInitDB.writeTo [] db).1

/-- conn.rs:293-301 -/
def createDb (db : Bytes) : M Unit := okCommand (ComCreateDB.writeTo [] db).1

/-- conn.rs:307-315 -/
def dropDb (db : Bytes) : M Unit := okCommand (ComDropDB.writeTo [] db).1

/-- conn.rs:318-326 -/
def refresh (flags : Nat) : M Unit := okCommand (ComRefresh.writeTo [] flags).1

/-- conn.rs:401-409 -/
def processKill (id : Nat) : M Unit := okCommand (ComProcessKill.writeTo [] id).1

/-- conn.rs:412-420 -/
def resetConnection : M Unit := okCommand (writeSingleByteCmd [] .resetConnection).1

/-- conn.rs:443-451 with cmd/register_slave.rs:20-31 -/
def registerSlave (serverId : Nat) : M Unit :=
  okCommand (ComRegisterSlave.writeTo [] ⟨serverId, [], [], [], 0, 0, 0⟩).1

/-- the loop of conn.rs:279-286. Every message consumes input, so the `hang` branch of the length test is never
taken. -/
def fieldListLoop (defs : List ColumnDefinition) (c : Conn) : MR (List ColumnDefinition) :=
  match recvMsg c with
  | .ok msg c1 =>
    match M.parse msg (ComFieldListResponse.readFrom c1.caps true) c1 with
    | .ok (.err p) c2 => .err (sqlError p) c2
    | .ok (.eof _) c2 => .ok defs c2
    | .ok (.colDef d) c2 => if c2.inp.length < c.inp.length then fieldListLoop (defs ++ [d]) c2 else .hang
    | .err e c2 => .err e c2
    | .panic => .panic
    | .hang => .hang
  | .err e c1 => .err e c1
  | .panic => .panic
  | .hang => .hang
termination_by c.inp.length

/-- conn.rs:271-287 -/
def fieldList (table wildcard : Bytes) : M (List ColumnDefinition) := do
  sendMsg (ComFieldList.writeTo [] table wildcard).1 true
  fieldListLoop []

/-- conn.rs:329-334 -/
def statistics : M Bytes := do
  sendMsg (writeSingleByteCmd [] .statistics).1 true
  let msg ← recvMsg
  if validUtf8 msg then return msg else M.fail .utf8

/-- conn.rs:337-345 -/
def debug : M Unit := do
  sendMsg (writeSingleByteCmd [] .debug).1 true
  let msg ← recvMsg
  let caps ← getCaps
  let r ← M.parse msg (EofResponse.readFrom caps)
  match r with
  | .eof _ => return ()
  | .err p => M.fail (sqlError p)

/-- conn.rs:348-354 -/
def ping : M Unit := do
  sendMsg (writeSingleByteCmd [] .ping).1 true
  let msg ← recvMsg
  let caps ← getCaps
  let _ ← M.parse msg (OkPacket.readFrom caps)
  return ()

/-- conn.rs:423-438 -/
def setMultiStmts (multi : Bool) : M Unit := do
  sendMsg (ComSetOption.writeTo [] multi).1 true
  let msg ← recvMsg
  let caps ← getCaps
  let r ← M.parse msg (EofResponse.readFrom caps)
  match r with
  | .eof _ => if multi then insertCap Cap.MULTI_STATEMENTS else removeCap Cap.MULTI_STATEMENTS
  | .err p => M.fail (sqlError p)

/-- conn.rs:454-458 -/
def processInfo : M ResultSet := do
  sendMsg (writeSingleByteCmd [] .processInfo).1 true
  newResultSet none

/-- binlog.rs:252-256 -/
structure BinlogFile where
  filename : Bytes
  size : Nat
  deriving DecidableEq, Repr

/-- binlog.rs:261-269 -/
def binlogFileMapper (row : List (Option Bytes)) : Res BinlogFile := do
  let filename ← getColAs stringFromText.nonNull row 0
  let size ← getColAs (uintFromText 64).nonNull row 1
  return ⟨filename, size⟩

/-- `?` on the value a row mapper returned -/
def M.ofRes {α : Type} (r : Res α) : M α := fun c =>
  match r with
  | .ok a => .ok a c
  | .err e => .err e c
  | .panic => .panic

/-- the loop of conn.rs:469-471: a row that cannot be converted ends it. A row always consumes input, so the `hang`
branch of the length test is never taken. -/
def filesLoop (rs : ResultSet) (files : List BinlogFile) (c : Conn) : MR (List BinlogFile) :=
  match rs.nextRow (mapRow rs.textRow binlogFileMapper) c with
  | .ok (some (.ok f), rs') c' =>
    if c'.inp.length < c.inp.length then filesLoop rs' (files ++ [f]) c' else .hang
  | .ok (some (.err e), _) c' => .err e c'
  | .ok (some .panic, _) _ => .panic
  | .ok (none, _) c' => .ok files c'
  | .err e c' => .err e c'
  | .panic => .panic
  | .hang => .hang
termination_by c.inp.length

/-- the bytes of a string constant -/
def str (s : String) : Bytes := s.toList.map fun c => UInt8.ofNat c.toNat

/-- conn.rs:461-473 -/
def binlogFiles : M (List BinlogFile) := do
  let rs ← Query.qry (str "SHOW MASTER LOGS")
  filesLoop rs []

/-- `map_rows(mapper).first_or_none().await?` and `?` on the row (conn.rs:489-502, 533-549) -/
def firstMapped {α : Type} (mapper : List (Option Bytes) → Res α) (rs : ResultSet) : M (Option α) := do
  let r ← rs.firstOrNone (mapRow rs.textRow mapper)
  match r with
  | some v => do
    let v ← M.ofRes v
    return some v
  | none => return none

/-- conn.rs:479-503 with 633-643; `conv` is the conversion of `T` -/
def getVar {α : Type} (conv : Option Bytes → Res α) (name : Bytes) (global : Bool) : M (Option α) := do
  let qry := if global then str "SHOW GLOBAL VARIABLES LIKE '" ++ name ++ str "'"
    else str "SHOW VARIABLES LIKE '" ++ name ++ str "'"
  let rs ← Query.qry qry
  firstMapped (fun row => getColAs conv row 1) rs

/-- conn.rs:509-522; `value` is the result of `to_col` -/
def setVar (name : Bytes) (value : StmtColumnValue) (global : Bool) : M Unit := do
  let qry := if global then str "SET @@GLOBAL." ++ name ++ str " = ?" else str "SET @@" ++ name ++ str " = ?"
  let stmt ← Stmt.prepare qry
  stmt.execClose [value]

/-- conn.rs:528-550 -/
def getUserVar {α : Type} (conv : Option Bytes → Res α) (name : Bytes) : M (Option α) := do
  let rs ← Query.qry (str "SELECT @" ++ name)
  firstMapped (fun row => getColAs conv row 0) rs

/-- conn.rs:556-566 -/
def setUserVar (name : Bytes) (value : StmtColumnValue) : M Unit := do
  let stmt ← Stmt.prepare (str "SET @" ++ name ++ str " = ?")
  stmt.execClose [value]

end Cmd
end Mybin
