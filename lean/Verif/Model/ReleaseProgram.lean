/-
The client and the two programs in a build WITHOUT overflow checks, see `Verif/Model/Release.lean`. The functions are
those of `Auth.lean`, `Client.lean`, `ConnCmd.lean`, `Stream.lean`, `Request.lean`, `Dml.lean` and `Program.lean` that
call one of the functions in which the builds differ, with the calls replaced. What the programs do not use
(`change_user`, rows of prepared statements, JSON records) is left out here.
-/
import Verif.Model.Release
import Verif.Model.Program

namespace Mybin.Release

/-! ### the connection phase -/

/-- the loop of conn.rs:211-245 -/
def handshakeLoop (H : Hashes) (caps : Nat) (plugin : AuthPlugin) (c : Conn) : MR Unit :=
  match recvMsg c with
  | .ok msg c1 =>
    match M.parse msg (HandshakeMessage.readFrom caps) c1 with
    | .ok (.ok p) c2 => .ok () { c2 with status := p.statusFlags, pktNr := 0 }
    | .ok (.err _) c2 => .err .packet c2
    | .ok (.switch _) _ => .panic
    | .ok (.moreData m) c2 =>
      match plugin.next H m.pluginData with
      | .error e => .err e c2
      | .ok (resp, plugin') =>
        match (if resp.isEmpty then pure () else sendMsg resp false : M Unit) c2 with
        | .ok _ c3 => if c3.inp.length < c.inp.length then handshakeLoop H caps plugin' c3 else .hang
        | .err e c3 => .err e c3
        | .panic => .panic
        | .hang => .hang
    | .err e c2 => .err e c2
    | .panic => .panic
    | .hang => .hang
  | .err e c1 => .err e c1
  | .panic => .panic
  | .hang => .hang
termination_by c.inp.length

/-- conn.rs:158-247 -/
def handshake (H : Hashes) (opts : ConnOpts) : M Unit := do
  let msg ← recvMsg
  let hs ← M.parse msg InitialHandshake.readFrom
  let seed := hs.authPluginData1 ++ hs.authPluginData2
  insertCap Cap.PLUGIN_AUTH
  insertCap Cap.LONG_PASSWORD
  insertCap Cap.PROTOCOL_41
  insertCap Cap.TRANSACTIONS
  insertCap Cap.MULTI_RESULTS
  insertCap Cap.SECURE_CONNECTION
  insertCap Cap.DEPRECATE_EOF
  insertCap Cap.PLUGIN_AUTH_LENENC_CLIENT_DATA
  removeCap Cap.SSL
  let plugin ← M.ofExcept (newAuthPlugin hs.authPluginName)
  let (authResponse, plugin) ← M.ofExcept (genInitAuthResp H plugin opts.password seed)
  let _ ← (if opts.database.isEmpty then pure () else insertCap Cap.CONNECT_WITH_DB : M Unit)
  let caps ← getCaps
  let resp : HandshakeResponse41 :=
    { capabilityFlags := caps, username := opts.username, authResponse := authResponse,
      database := opts.database, authPluginName := hs.authPluginName }
  sendMsg (resp.writeTo []).1 false
  handshakeLoop H caps plugin

/-! ### commands -/

/-- conn.rs:260-268 and 443-451, see `Mybin.okCommand` -/
def okCommand (bs : Bytes) : M Unit := do
  sendMsg bs true
  let msg ← recvMsg
  let caps ← getCaps
  let r ← M.parse msg (ComResponse.readFrom caps)
  match r with
  | .ok _ => return ()
  | .err p => M.fail (sqlError p)

/-- conn.rs:271-287 -/
def fieldList (table wildcard : Bytes) : M (List ColumnDefinition) := do
  sendMsg (ComFieldList.writeTo [] table wildcard).1 true
  Cmd.fieldListLoop []

/-- query.rs:51-55 -/
def qry (qry : Bytes) : M ResultSet := do
  sendMsg (ComQuery.writeTo [] qry).1 true
  newResultSet none

/-- conn.rs:461-473 -/
def binlogFiles : M (List Cmd.BinlogFile) := do
  let rs ← qry (Cmd.str "SHOW MASTER LOGS")
  Cmd.filesLoop rs []

/-- conn.rs:479-503 -/
def getVar {α : Type} (conv : Option Bytes → Res α) (name : Bytes) (global : Bool) : M (Option α) := do
  let q := if global then Cmd.str "SHOW GLOBAL VARIABLES LIKE '" ++ name ++ Cmd.str "'"
    else Cmd.str "SHOW VARIABLES LIKE '" ++ name ++ Cmd.str "'"
  let rs ← qry q
  Cmd.firstMapped (fun row => getColAs conv row 1) rs

/-- stmt.rs:26-82 -/
def prepare (qry : Bytes) : M PreparedStmt := do
  sendMsg (ComStmtPrepare.writeTo [] qry).1 true
  let msg ← recvMsg
  match msg with
  | [] => M.fail (.incomplete none)
  | b :: _ =>
    let ok ← (if b = 0xff then failWithErrPacket msg else M.parse msg StmtPrepareOk.readFrom : M StmtPrepareOk)
    let paramDefs ← recvDefs ok.nParams
    let colDefs ← recvDefs ok.nCols
    return { stmtId := ok.stmtId, colDefs, paramDefs, nWarnings := ok.nWarnings }

/-- stmt.rs:99-100 -/
def send (s : PreparedStmt) (params : List StmtColumnValue) : M Unit :=
  match ComStmtExecute.single s.stmtId params with
  | none => M.panic
  | some cmd =>
    match cmd.writeTo [] with
    | none => M.panic
    | some (bs, _) => sendMsg bs true

/-- stmt.rs:98-118 -/
def exec (s : PreparedStmt) (params : List StmtColumnValue) : M Unit := do
  send s params
  execLoop

/-- stmt.rs:137-140 -/
def close (s : PreparedStmt) : M Unit := sendMsg (ComStmtClose.writeTo [] s.stmtId).1 true

/-- stmt.rs:120-131 -/
def execClose (s : PreparedStmt) (params : List StmtColumnValue) : M Unit := fun c =>
  match exec s params c with
  | .ok _ c' =>
    match close s c' with
    | .ok _ c'' => .ok () c''
    | .err _ c'' => .ok () c''
    | .panic => .panic
    | .hang => .hang
  | .err e c' =>
    match close s c' with
    | .ok _ c'' => .err e c''
    | .err _ c'' => .err e c''
    | .panic => .panic
    | .hang => .hang
  | .panic => .panic
  | .hang => .hang

/-- conn.rs:556-566 -/
def setUserVar (name : Bytes) (value : StmtColumnValue) : M Unit := do
  let stmt ← prepare (Cmd.str "SET @" ++ name ++ Cmd.str " = ?")
  execClose stmt [value]

/-! ### streams -/

/-- binlog.rs:236-240 -/
def firstFde : P (ParserV4 × Option Nat) := do
  let _ ← readU8
  fromFdeBytes

/-- binlog.rs:188-248. (The length of line 219 wraps, and `split_off` beyond the end panics: `firstRotate` is the same
in both builds.) -/
def firstEvents (r : BinlogRequest) (checksum : Bool) : M BinlogStream := do
  let msg ← recvMsg
  match msg with
  | [] => M.fail (.incomplete none)
  | b :: _ =>
    if b = 0xff then failWithErrPacket msg
    else if b = 0xfe then do
      let caps ← getCaps
      let _ ← M.parse msg (EofPacket.readFrom caps)
      return ⟨⟨[], false⟩, r.validateChecksum, true, r.nonBlock⟩
    else if b = 0x00 then do
      let _ ← M.parse msg (BinlogRequest.firstRotate checksum)
      let msg ← recvMsg
      let f ← M.parse msg firstFde
      return ⟨f.1, r.validateChecksum, false, r.nonBlock⟩
    else M.fail .packet

/-- binlog.rs:93-167 -/
def setup (r : BinlogRequest) (uuid : Bytes) (random : Nat) : M (Bytes × Bytes × Nat) := do
  let masterId ← getVar (uintFromText 32).nonNull (Cmd.str "SERVER_ID") true
  let masterId ← M.someOr .emptyResultSet masterId
  setUserVar (Cmd.str "MASTER_HEARTBEAT_PERIOD") (.newUnsignedBigint (r.heartbeatNanos % 2 ^ 64))
  let checksum ← getVar stringFromText.nonNull (Cmd.str "BINLOG_CHECKSUM") true
  let checksum ← M.someOr .custom checksum
  setUserVar (Cmd.str "MASTER_BINLOG_CHECKSUM") (.newVarstring checksum)
  let gtidMode ← getVar stringFromText.nonNull (Cmd.str "GTID_MODE") true
  let gtidMode ← M.someOr .custom gtidMode
  let serverUuid ← getVar stringFromText.nonNull (Cmd.str "SERVER_UUID") true
  let _ ← M.someOr .custom serverUuid
  setUserVar (Cmd.str "SLAVE_UUID") (.newVarstring uuid)
  let slaveId := if r.serverId ≠ 0 then r.serverId else random
  okCommand (ComRegisterSlave.writeTo [] ⟨slaveId, [], [], [], 0, 0, masterId⟩).1
  return (checksum, gtidMode, slaveId)

/-- binlog.rs:90-249 -/
def requestStream (r : BinlogRequest) (uuid : Bytes) (random : Nat) : M BinlogStream := do
  let s ← setup r uuid random
  sendMsg (r.dumpBytes s.2.2 s.2.1) true
  firstEvents r (decide (s.1 = Cmd.str "CRC32"))

/-- binlog.rs:297-316 -/
def recvAndParse (s : BinlogStream) : M BinlogStreamEvent := fun c =>
  match recvMsg c with
  | .ok [] c' => .err (.incomplete none) c'
  | .ok (b :: t) c' =>
    if s.nonBlock && b == 0xfe then .ok .theEnd c'
    else if b ≠ 0x00 then .err .packet c'
    else
      match M.parse t (parseEvent s.pv4 s.validateChecksum) c' with
      | .ok (some e) c'' => .ok (.single e) c''
      | .ok none c'' => .ok .unsupported c''
      | .err e c'' => .err e c''
      | .panic => .panic
      | .hang => .hang
  | .err e c' => .err e c'
  | .panic => .panic
  | .hang => .hang

/-- the loop of binlog.rs:288-294 -/
def nextLoop (s : BinlogStream) (c : Conn) : MR (Option Event × BinlogStream) :=
  match recvAndParse s c with
  | .ok (.single e) c' => .ok (some e, s) c'
  | .ok .unsupported c' => if c'.inp.length < c.inp.length then nextLoop s c' else .hang
  | .ok .theEnd c' => .ok (none, s) c'
  | .err e c' => .err e c'
  | .panic => .panic
  | .hang => .hang
termination_by c.inp.length

/-- binlog.rs:284-295 -/
def nextEvent (s : BinlogStream) : M (Option Event × BinlogStream) := fun c =>
  if s.completed then .ok (none, s) c else nextLoop s c

/-! ### statements -/

/-- sql.rs:143-150 -/
def quotedLiteral (ft : FloatText) (p : StmtColumnValue) : Option Bytes :=
  (toSqlLiteral ft p).map fun (lit, quote) =>
    (if quote then asc "'" else []) ++ lit ++ (if quote then asc "'" else [])

/-- sql.rs:138-156 -/
def fillFragments (ft : FloatText) : List Bytes → List StmtColumnValue → Option Bytes
  | [], _ => some []
  | f :: fs, ps =>
    if f = asc "?" then
      match ps with
      | [] => fillFragments ft fs []
      | p :: ps =>
        match quotedLiteral ft p with
        | none => none
        | some lit => (fillFragments ft fs ps).map (lit ++ ·)
    else (fillFragments ft fs ps).map (f ++ ·)

/-- sql.rs:135-159 -/
def sqlList (ft : FloatText) (p : PreparedSql) : Option (List Bytes) :=
  allSome (p.params.map (fillFragments ft p.sqlFragments))

/-- `sql_list()` of a transformed event -/
def sqlLines (ft : FloatText) : Option PreparedSql → R (List DmlLine)
  | none => .panic
  | some p =>
    match sqlList ft p with
    | none => .panic
    | some l => .ok (l.map .stmt) []

/-- mybinlog.rs:141-144 and 187-190 -/
def rowLines (ft : FloatText) (make : Bytes → Bytes → Mybin.RowsV2 → List ColumnDefinition → Option PreparedSql)
    (tm : TableMeta) (d : RowsDataV2) : R (List DmlLine) :=
  match RowsV2.readFrom d.extraDataLen tm.colMetas d.payload with
  | .ok rows _ => sqlLines ft (make tm.db tm.tbl rows tm.colDefs)
  | .err e r => .err e r
  | .panic => .panic
  | .hang => .hang

/-- mybinlog.rs:161-171 -/
def updateLines (ft : FloatText) (nextPos : Nat) (tm : TableMeta) (d : RowsDataV2) : R (List DmlLine) :=
  match UpdateRowsV2.readFrom d.extraDataLen tm.colMetas d.payload with
  | .ok rows _ =>
    if keyExists tm.colDefs then sqlLines ft (PreparedSql.fromUpdate tm.db tm.tbl rows tm.colDefs)
    else .ok [.note tm.db tm.tbl nextPos] []
  | .err e r => .err e r
  | .panic => .panic
  | .hang => .hang

/-! ### the programs -/

/-- mybinlog.rs:121-122 -/
def fetchColumns (db tbl : Bytes) : M (List ColumnDefinition) := do
  okCommand (ComInitDB.writeTo [] db).1
  fieldList tbl (Cmd.str "%")

/-- mybinlog.rs:104-133 -/
def onTableMap (o : DmlOpts) (st : DmlState) (data : Bytes) : DmlNext :=
  match TableMapData.readFrom data with
  | .ok d _ =>
    if (st.tbls.lookup d.tableId).isSome ∨ d.tableId ∈ st.skip then .go st
    else
      match TableMapData.tableMap d.payload with
      | .ok tm _ =>
        if ¬ filterOk o.databaseFilter tm.schemaName then .go { st with skip := d.tableId :: st.skip }
        else if ¬ filterOk o.tableFilter tm.tableName then .go { st with skip := d.tableId :: st.skip }
        else
          match fetchColumns tm.schemaName tm.tableName st.helper with
          | .ok defs h =>
            .go { st with
              tbls := (d.tableId, ⟨tm.schemaName, tm.tableName, tm.colMetas, defs⟩) :: st.tbls
              helper := h }
          | .err e _ => .err e
          | .panic => .panic
          | .hang => .hang
      | .err e _ => .err e
      | .panic => .panic
      | .hang => .hang
  | .err e _ => .err e
  | .panic => .panic
  | .hang => .hang

/-- mybinlog.rs:103-216 -/
def onEvent (ft : FloatText) (o : DmlOpts) (st : DmlState) (ev : Event) : List DmlLine × DmlNext :=
  match ev.kind with
  | .tableMap => ([], onTableMap o st ev.data)
  | .deleteRowsV2 => onRows o.limit (rowLines ft PreparedSql.fromDelete) st ev.data
  | .updateRowsV2 => onRows o.limit (updateLines ft ev.header.nextPos) st ev.data
  | .writeRowsV2 => onRows o.limit (rowLines ft PreparedSql.fromInsert) st ev.data
  | .rotate => if o.untilNow then ([], .go { st with tbls := [], skip := [] }) else ([], .stop)
  | _ => ([], .go st)

/-- mybinlog.rs:102-218 -/
def dmlLoop (ft : FloatText) (o : DmlOpts) (s : BinlogStream) (st : DmlState) (c : Conn) : List DmlLine × DmlEnd :=
  match nextEvent s c with
  | .ok (none, _) _ => ([], .done)
  | .ok (some ev, s') c' =>
    match onEvent ft o st ev with
    | (out, .go st') =>
      if c'.inp.length < c.inp.length then
        let r := dmlLoop ft o s' st' c'
        (out ++ r.1, r.2)
      else (out, .hang)
    | (out, .stop) => (out, .done)
    | (out, .err e) => (out, .err e)
    | (out, .panic) => (out, .panic)
    | (out, .hang) => (out, .hang)
  | .err e _ => ([], .err e)
  | .panic => ([], .panic)
  | .hang => ([], .hang)
termination_by c.inp.length

/-- mybinlog.rs:81-219 -/
def printDmls (ft : FloatText) (o : DmlOpts) (uuid : Bytes) (random : Nat) (conn helper : Conn) : List DmlLine × DmlEnd :=
  match requestStream o.request uuid random conn with
  | .ok s c => dmlLoop ft o s ⟨[], [], 0, helper⟩ c
  | .err e _ => ([], .err e)
  | .panic => ([], .panic)
  | .hang => ([], .hang)

/-- mybinlog.rs:68-79 and mybinmsg.rs:40-54 -/
def connect (w : World) (n : Nat) (host port username password : Bytes) : MR Unit :=
  match w.stream n (address host port) with
  | none => .err .io { inp := [] }
  | some inp => handshake w.hashes ⟨username, password, []⟩ { inp := inp }

/-- mybinlog.rs:24-66: the lines printed and the end of the run; the bytes sent are left out -/
def mybinlog (w : World) (o : ProgOpts) : List ProgLine × DmlEnd :=
  match connect w 0 o.host o.port o.username o.password with
  | .ok _ conn =>
    match o.cmd with
    | .list =>
      match binlogFiles conn with
      | .ok files _ => ([.files files], .done)
      | .err e _ => ([], .err e)
      | .panic => ([], .panic)
      | .hang => ([], .hang)
    | .dml filename untilNow databaseFilter tableFilter block limit =>
      match connect w 1 o.host o.port o.username o.password with
      | .ok _ helper =>
        match compileFilter w databaseFilter with
        | none => ([], .err .custom)
        | some df =>
          match compileFilter w tableFilter with
          | none => ([], .err .custom)
          | some tf =>
            let r := printDmls w.ft ⟨filename, untilNow, df, tf, !block, limit⟩ w.uuid w.random conn helper
            (r.1.map .dml, r.2)
      | .err e _ => ([], .err e)
      | .panic => ([], .panic)
      | .hang => ([], .hang)
  | .err e _ => ([], .err e)
  | .panic => ([], .panic)
  | .hang => ([], .hang)

/-- mybinmsg.rs:33-35 -/
def msgLoop (s : BinlogStream) (c : Conn) : List MsgLine × DmlEnd :=
  match nextEvent s c with
  | .ok (none, _) _ => ([], .done)
  | .ok (some ev, s') c' =>
    if c'.inp.length < c.inp.length then
      let r := msgLoop s' c'
      (.event ev :: r.1, r.2)
    else ([.event ev], .hang)
  | .err e _ => ([], .err e)
  | .panic => ([], .panic)
  | .hang => ([], .hang)
termination_by c.inp.length

/-- mybinmsg.rs:15-38: the lines logged and the end of the run -/
def mybinmsg (w : World) (conf : MsgConnect) : List MsgLine × DmlEnd :=
  match conf with
  | .unixSocket => ([], .panic)
  | .tcp host port username password =>
    match connect w 0 host port username password with
    | .ok _ conn =>
      match binlogFiles conn with
      | .ok files c =>
        match requestStream defaultRequest w.uuid w.random c with
        | .ok s c =>
          let r := msgLoop s c
          (files.map .file ++ r.1, r.2)
        | .err e _ => (files.map .file, .err e)
        | .panic => (files.map .file, .panic)
        | .hang => (files.map .file, .hang)
      | .err e _ => ([], .err e)
      | .panic => ([], .panic)
      | .hang => ([], .hang)
    | .err e _ => ([], .err e)
    | .panic => ([], .panic)
    | .hang => ([], .hang)

end Mybin.Release
