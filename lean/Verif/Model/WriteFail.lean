/-
Model of streams that fail while they are written to: `send_msg` and `send_packet` of `mybin-async/src/conn.rs` (lines
90-127) and the calls of the library on such a stream. Model/Conn.lean leaves this out: there every byte is taken. Here
the stream takes `room` more bytes and fails from then on, as a connection that was reset does.

`AsyncWriteExt::write_all` (crate `futures`) is taken to hand over bytes in order and to stop with the error of the
stream. What was received is not touched by a failure to send. Code that only receives is that of the other model.
-/
import Verif.Model.Program

namespace Mybin

/-- a connection whose stream takes `room` more bytes -/
structure Link where
  conn : Conn
  room : Nat

/-- as `MR` -/
inductive LR (α : Type) where
  | ok (a : α) (l : Link)
  | err (e : Err) (l : Link)
  | panic
  | hang

/-- as `M` -/
def L (α : Type) : Type := Link → LR α

/-- the `?` operator on async results -/
def LR.bind {α β : Type} : LR α → (α → L β) → LR β
  | .ok a l, f => f a l
  | .err e l, _ => .err e l
  | .panic, _ => .panic
  | .hang, _ => .hang

instance : Monad L where
  pure a := fun l => .ok a l
  bind x f := fun l => (x l).bind f

/-- any panicking expression -/
def L.panic {α : Type} : L α := fun _ => .panic

/-- what became of a call, when the stream takes `room` bytes after it -/
def MR.on {α : Type} (r : MR α) (room : Nat) : LR α :=
  match r with
  | .ok a c => .ok a ⟨c, room⟩
  | .err e c => .err e ⟨c, room⟩
  | .panic => .panic
  | .hang => .hang

/-- code that only receives -/
def L.lift {α : Type} (x : M α) : L α := fun l => (x l.conn).on l.room

/-- `self.stream.write_all(bs).await?` (conn.rs:118, 121 and 123) -/
def writeAllL (bs : Bytes) : L Unit := fun l =>
  if bs.length ≤ l.room then .ok () ⟨{ l.conn with out := l.conn.out ++ bs }, l.room - bs.length⟩
  else .err .io ⟨{ l.conn with out := l.conn.out ++ bs.take l.room }, 0⟩

/-- `self.pkt_nr += 1` (conn.rs:125) on a `u8` -/
def nextPktNr : L Unit := fun l =>
  if l.conn.pktNr + 1 < 256 then .ok () ⟨{ l.conn with pktNr := l.conn.pktNr + 1 }, l.room⟩ else .panic

/-- conn.rs:110-127 -/
def sendPacketL (payload : Bytes) : L Unit := fun l =>
  let len := payload.length
  (do
    writeAllL [UInt8.ofNat (len &&& 0xff), UInt8.ofNat ((len >>> 8) &&& 0xff), UInt8.ofNat ((len >>> 16) &&& 0xff)]
    writeAllL [UInt8.ofNat l.conn.pktNr]
    writeAllL payload
    nextPktNr : L Unit) l

/-- the loop of conn.rs:101-107 -/
def sendLoopL (bs : Bytes) : L Unit :=
  if h : bs.length ≥ maxPacket then do
    sendPacketL (bs.take maxPacket)
    sendLoopL (bs.drop maxPacket)
  else sendPacketL bs
termination_by bs.length
decreasing_by simp only [List.length_drop, maxPacket] at *; omega

/-- conn.rs:90-108; `msg` is the serialised message -/
def sendMsgL (msg : Bytes) (resetPktNr : Bool) : L Unit := fun l =>
  sendLoopL msg ⟨if resetPktNr then { l.conn with pktNr := 0 } else l.conn, l.room⟩

/-- a call that sends one message and then only receives -/
def requestL {α : Type} (bs : Bytes) (answer : M α) : L α := do
  sendMsgL bs true
  L.lift answer

/-! ### what the calls do after they have sent their message -/

/-- conn.rs:263-267, 296-300, 310-314, 321-325, 404-408, 415-419 and 446-450 -/
def okAnswer : M Unit := do
  let msg ← recvMsg
  let caps ← getCaps
  let r ← M.parse msg (ComResponse.readFrom caps)
  match r with
  | .ok _ => return ()
  | .err p => M.fail (sqlError p)

/-- conn.rs:340-344 -/
def debugAnswer : M Unit := do
  let msg ← recvMsg
  let caps ← getCaps
  let r ← M.parse msg (EofResponse.readFrom caps)
  match r with
  | .eof _ => return ()
  | .err p => M.fail (sqlError p)

/-- conn.rs:351-353 -/
def pingAnswer : M Unit := do
  let msg ← recvMsg
  let caps ← getCaps
  let _ ← M.parse msg (OkPacket.readFrom caps)
  return ()

/-- conn.rs:332-333 -/
def statisticsAnswer : M Bytes := do
  let msg ← recvMsg
  if validUtf8 msg then return msg else M.fail .utf8

/-- stmt.rs:29-81 -/
def prepareAnswer : M PreparedStmt := do
  let msg ← recvMsg
  match msg with
  | [] => M.fail (.incomplete none)
  | b :: _ =>
    let ok ← (if b = 0xff then failWithErrPacket msg else M.parse msg StmtPrepareOk.readFrom : M StmtPrepareOk)
    let paramDefs ← recvDefs ok.nParams
    let colDefs ← recvDefs ok.nCols
    return { stmtId := ok.stmtId, colDefs, paramDefs, nWarnings := ok.nWarnings }

/-! ### statements -/

/-- stmt.rs:26-82 -/
def prepareL (q : Bytes) : L PreparedStmt := requestL (ComStmtPrepare.writeTo [] q).1 prepareAnswer

/-- stmt.rs:99-100 and 154-155, and what follows -/
def PreparedStmt.requestL {α : Type} (s : PreparedStmt) (params : List StmtColumnValue) (answer : M α) : L α :=
  match ComStmtExecute.single s.stmtId params with
  | none => L.panic
  | some cmd =>
    match cmd.writeTo [] with
    | none => L.panic
    | some (bs, _) => Mybin.requestL bs answer

/-- stmt.rs:98-118 -/
def PreparedStmt.execL (s : PreparedStmt) (params : List StmtColumnValue) : L Unit := s.requestL params execLoop

/-- stmt.rs:137-140 -/
def PreparedStmt.closeL (s : PreparedStmt) : L Unit := sendMsgL (ComStmtClose.writeTo [] s.stmtId).1 true

/-- stmt.rs:120-131: the outcome of `close` is dropped -/
def PreparedStmt.execCloseL (s : PreparedStmt) (params : List StmtColumnValue) : L Unit := fun l =>
  match s.execL params l with
  | .ok _ l' =>
    match s.closeL l' with
    | .ok _ l'' => .ok () l''
    | .err _ l'' => .ok () l''
    | .panic => .panic
    | .hang => .hang
  | .err e l' =>
    match s.closeL l' with
    | .ok _ l'' => .err e l''
    | .err _ l'' => .err e l''
    | .panic => .panic
    | .hang => .hang
  | .panic => .panic
  | .hang => .hang

/-- conn.rs:509-522 and 556-566, for the statement `q` -/
def setL (q : Bytes) (v : StmtColumnValue) : L Unit := do
  let stmt ← prepareL q
  stmt.execCloseL [v]

/-! ### authentication -/

/-- conn.rs:211-245, as `handshakeLoop` -/
def handshakeLoopL (H : Hashes) (caps : Nat) (plugin : AuthPlugin) (l : Link) : LR Unit :=
  match recvMsg l.conn with
  | .ok msg c1 =>
    match M.parse msg (HandshakeMessage.readFrom caps) c1 with
    | .ok (.ok p) c2 => .ok () ⟨{ c2 with status := p.statusFlags, pktNr := 0 }, l.room⟩
    | .ok (.err _) c2 => .err .packet ⟨c2, l.room⟩
    | .ok (.switch _) _ => .panic
    | .ok (.moreData m) c2 =>
      match plugin.next H m.pluginData with
      | .error e => .err e ⟨c2, l.room⟩
      | .ok (resp, plugin') =>
        match (if resp.isEmpty then pure () else sendMsgL resp false : L Unit) ⟨c2, l.room⟩ with
        | .ok _ l3 => if l3.conn.inp.length < l.conn.inp.length then handshakeLoopL H caps plugin' l3 else .hang
        | .err e l3 => .err e l3
        | .panic => .panic
        | .hang => .hang
    | .err e c2 => .err e ⟨c2, l.room⟩
    | .panic => .panic
    | .hang => .hang
  | .err e c1 => .err e ⟨c1, l.room⟩
  | .panic => .panic
  | .hang => .hang
termination_by l.conn.inp.length

/-- conn.rs:158-208: everything before the response is sent; returns the response, the copy of the flags and the method -/
def greeted (H : Hashes) (opts : ConnOpts) : M (Bytes × Nat × AuthPlugin) := do
  let msg ← recvMsg
  let hs ← M.parse msg InitialHandshake.readFrom
  let seed := hs.authPluginData1 ++ hs.authPluginData2
  insertCap Cap.PLUGIN_AUTH
  insertCap Cap.LONG_PASSWORD
  insertCap Cap.PROTOCOL_41
  insertCap Cap.TRANSACTIONS
  insertCap Cap.MULTI_RESULTS
  insertCap Cap.SECURE_CONNECTION
  insertCap Cap.DEPRECATE_EOF
  insertCap Cap.PLUGIN_AUTH_LENENC_CLIENT_DATA
  removeCap Cap.SSL
  let plugin ← M.ofExcept (newAuthPlugin hs.authPluginName)
  let (authResponse, plugin) ← M.ofExcept (genInitAuthResp H plugin opts.password seed)
  let _ ← (if opts.database.isEmpty then pure () else insertCap Cap.CONNECT_WITH_DB : M Unit)
  let caps ← getCaps
  let resp : HandshakeResponse41 :=
    { capabilityFlags := caps, username := opts.username, authResponse := authResponse,
      database := opts.database, authPluginName := hs.authPluginName }
  return ((resp.writeTo []).1, caps, plugin)

/-- conn.rs:158-247 -/
def handshakeL (H : Hashes) (opts : ConnOpts) : L Unit := do
  let (resp, caps, plugin) ← L.lift (greeted H opts)
  sendMsgL resp false
  handshakeLoopL H caps plugin

/-- conn.rs:372-396, as `changeUserLoop` -/
def changeUserLoopL (H : Hashes) (password : Bytes) (plugin : Option AuthPlugin) (l : Link) : LR Unit :=
  match recvMsg l.conn with
  | .ok msg c1 =>
    match M.parse msg (ComChangeUserResponse.readFrom c1.caps) c1 with
    | .ok (.ok _) c2 => .ok () ⟨c2, l.room⟩
    | .ok (.err p) c2 => .err (sqlError p) ⟨c2, l.room⟩
    | .ok (.switch s) c2 =>
      match newAuthPlugin s.pluginName with
      | .error e => .err e ⟨c2, l.room⟩
      | .ok pl =>
        match genInitAuthResp H pl password s.authPluginData with
        | .error e => .err e ⟨c2, l.room⟩
        | .ok (resp, pl') =>
          match sendMsgL resp false ⟨c2, l.room⟩ with
          | .ok _ l3 => if l3.conn.inp.length < l.conn.inp.length then changeUserLoopL H password (some pl') l3 else .hang
          | .err e l3 => .err e l3
          | .panic => .panic
          | .hang => .hang
    | .ok (.moreData m) c2 =>
      match plugin with
      | none => .panic
      | some pl =>
        match pl.next H m.pluginData with
        | .error e => .err e ⟨c2, l.room⟩
        | .ok (resp, pl') =>
          match sendMsgL resp false ⟨c2, l.room⟩ with
          | .ok _ l3 => if l3.conn.inp.length < l.conn.inp.length then changeUserLoopL H password (some pl') l3 else .hang
          | .err e l3 => .err e l3
          | .panic => .panic
          | .hang => .hang
    | .err e c2 => .err e ⟨c2, l.room⟩
    | .panic => .panic
    | .hang => .hang
  | .err e c1 => .err e ⟨c1, l.room⟩
  | .panic => .panic
  | .hang => .hang
termination_by l.conn.inp.length

/-- conn.rs:357-398 -/
def changeUserL (H : Hashes) (username password db : Bytes) (attrs : List ConnectAttr) : L Unit := do
  let caps ← L.lift getCaps
  let cmd : ComChangeUser :=
    { user := username, authResponse := [], schemaName := db, authPluginName := nativeName, connectAttrs := attrs }
  sendMsgL (cmd.writeTo [] caps).1 true
  changeUserLoopL H password none

/-! ### streams of events -/

/-- conn.rs:479-503 -/
def getVarL {α : Type} (conv : Option Bytes → Res α) (name : Bytes) (global : Bool) : L (Option α) :=
  requestL (ComQuery.writeTo [] (if global then Cmd.str "SHOW GLOBAL VARIABLES LIKE '" ++ name ++ Cmd.str "'"
      else Cmd.str "SHOW VARIABLES LIKE '" ++ name ++ Cmd.str "'")).1
    (do let rs ← newResultSet none; Cmd.firstMapped (fun row => getColAs conv row 1) rs)

/-- conn.rs:556-566 -/
def setUserVarL (name : Bytes) (value : StmtColumnValue) : L Unit := setL (Cmd.str "SET @" ++ name ++ Cmd.str " = ?") value

/-- binlog.rs:90-170, as `BinlogRequest.setup` -/
def BinlogRequest.setupL (r : BinlogRequest) (uuid : Bytes) (random : Nat) : L (Bytes × Bytes × Nat) := do
  let masterId ← getVarL (uintFromText 32).nonNull (Cmd.str "SERVER_ID") true
  let masterId ← L.lift (M.someOr .emptyResultSet masterId)
  setUserVarL (Cmd.str "MASTER_HEARTBEAT_PERIOD") (.newUnsignedBigint (r.heartbeatNanos % 2 ^ 64))
  let checksum ← getVarL stringFromText.nonNull (Cmd.str "BINLOG_CHECKSUM") true
  let checksum ← L.lift (M.someOr .custom checksum)
  setUserVarL (Cmd.str "MASTER_BINLOG_CHECKSUM") (.newVarstring checksum)
  let gtidMode ← getVarL stringFromText.nonNull (Cmd.str "GTID_MODE") true
  let gtidMode ← L.lift (M.someOr .custom gtidMode)
  let serverUuid ← getVarL stringFromText.nonNull (Cmd.str "SERVER_UUID") true
  let _ ← L.lift (M.someOr .custom serverUuid)
  setUserVarL (Cmd.str "SLAVE_UUID") (.newVarstring uuid)
  let slaveId := if r.serverId ≠ 0 then r.serverId else random
  requestL (ComRegisterSlave.writeTo [] ⟨slaveId, [], [], [], 0, 0, masterId⟩).1 okAnswer
  return (checksum, gtidMode, slaveId)

/-- binlog.rs:90-249 -/
def BinlogRequest.requestStreamL (r : BinlogRequest) (uuid : Bytes) (random : Nat) : L BinlogStream := do
  let s ← r.setupL uuid random
  requestL (r.dumpBytes s.2.2 s.2.1) (r.firstEvents (decide (s.1 = Cmd.str "CRC32")))

/-! ### the programs -/

/-- as `connect`; connection `n` takes `room` bytes -/
def connectL (w : World) (n : Nat) (room : Nat) (host port username password : Bytes) : LR Unit :=
  match w.stream n (address host port) with
  | none => .err .io ⟨{ inp := [] }, room⟩
  | some inp => handshakeL w.hashes ⟨username, password, []⟩ ⟨{ inp := inp }, room⟩

/-- conn.rs:461-473 -/
def binlogFilesL : L (List Cmd.BinlogFile) :=
  requestL (ComQuery.writeTo [] (Cmd.str "SHOW MASTER LOGS")).1 (do let rs ← newResultSet none; Cmd.filesLoop rs [])

/-- mybinlog.rs:121-122, as `fetchColumns` -/
def fetchColumnsL (db tbl : Bytes) : L (List ColumnDefinition) := do
  requestL (ComInitDB.writeTo [] db).1 okAnswer
  requestL (ComFieldList.writeTo [] tbl (Cmd.str "%")).1 (Cmd.fieldListLoop [])

/-- mybinlog.rs:104-133, as `onTableMap`; the helper connection of `st` takes `room` bytes, and is returned -/
def onTableMapL (o : DmlOpts) (st : DmlState) (room : Nat) (data : Bytes) : DmlNext × Link :=
  match TableMapData.readFrom data with
  | .ok d _ =>
    if (st.tbls.lookup d.tableId).isSome ∨ d.tableId ∈ st.skip then (.go st, ⟨st.helper, room⟩)
    else
      match TableMapData.tableMap d.payload with
      | .ok tm _ =>
        if ¬ filterOk o.databaseFilter tm.schemaName then (.go { st with skip := d.tableId :: st.skip }, ⟨st.helper, room⟩)
        else if ¬ filterOk o.tableFilter tm.tableName then (.go { st with skip := d.tableId :: st.skip }, ⟨st.helper, room⟩)
        else
          match fetchColumnsL tm.schemaName tm.tableName ⟨st.helper, room⟩ with
          | .ok defs l =>
            (.go { st with
              tbls := (d.tableId, ⟨tm.schemaName, tm.tableName, tm.colMetas, defs⟩) :: st.tbls
              helper := l.conn }, l)
          | .err e l => (.err e, l)
          | .panic => (.panic, ⟨st.helper, room⟩)
          | .hang => (.hang, ⟨st.helper, room⟩)
      | .err e _ => (.err e, ⟨st.helper, room⟩)
      | .panic => (.panic, ⟨st.helper, room⟩)
      | .hang => (.hang, ⟨st.helper, room⟩)
  | .err e _ => (.err e, ⟨st.helper, room⟩)
  | .panic => (.panic, ⟨st.helper, room⟩)
  | .hang => (.hang, ⟨st.helper, room⟩)

/-- mybinlog.rs:103-216: one event. Only table maps use the helper connection, so the others are as in `onEvent`. -/
def onEventL (ft : FloatText) (o : DmlOpts) (st : DmlState) (room : Nat) (ev : Event) : List DmlLine × DmlNext × Link :=
  match ev.kind with
  | .tableMap => ([], onTableMapL o st room ev.data)
  | _ => ((onEvent ft o st ev).1, (onEvent ft o st ev).2, ⟨st.helper, room⟩)

/-- mybinlog.rs:102-218, as `dmlLoop`, with the two connections at the end as in `dmlConns` -/
def dmlLoopL (ft : FloatText) (o : DmlOpts) (s : BinlogStream) (st : DmlState) (room : Nat) (c : Conn) :
    List DmlLine × DmlEnd × Option (Conn × Conn) :=
  match s.nextEvent c with
  | .ok (none, _) c' => ([], .done, some (c', st.helper))
  | .ok (some ev, s') c' =>
    match onEventL ft o st room ev with
    | (out, .go st', l) =>
      if c'.inp.length < c.inp.length then
        let r := dmlLoopL ft o s' st' l.room c'
        (out ++ r.1, r.2)
      else (out, .hang, none)
    | (out, .stop, l) => (out, .done, some (c', l.conn))
    | (out, .err e, l) => (out, .err e, some (c', l.conn))
    | (out, .panic, _) => (out, .panic, none)
    | (out, .hang, _) => (out, .hang, none)
  | .err e c' => ([], .err e, some (c', st.helper))
  | .panic => ([], .panic, none)
  | .hang => ([], .hang, none)
termination_by c.inp.length

/-- mybinlog.rs:81-219, as `printDmls` and `dmlSent` -/
def printDmlsL (ft : FloatText) (o : DmlOpts) (uuid : Bytes) (random : Nat) (conn helper : Link) : ProgRun ProgLine :=
  match o.request.requestStreamL uuid random conn with
  | .ok s l =>
    let r := dmlLoopL ft o s ⟨[], [], 0, helper.conn⟩ helper.room l.conn
    ⟨r.1.map .dml, r.2.1, r.2.2.map fun cs => [cs.1.out, cs.2.out]⟩
  | .err e l => ⟨[], .err e, some [l.conn.out, helper.conn.out]⟩
  | .panic => ⟨[], .panic, none⟩
  | .hang => ⟨[], .hang, none⟩

/-- mybinlog.rs:24-66, as `mybinlog`; the connections take `room0` and `room1` bytes -/
def mybinlogL (w : World) (room0 room1 : Nat) (o : ProgOpts) : ProgRun ProgLine :=
  match connectL w 0 room0 o.host o.port o.username o.password with
  | .ok _ conn =>
    match o.cmd with
    | .list =>
      match binlogFilesL conn with
      | .ok files l => ⟨[.files files], .done, some [l.conn.out]⟩
      | .err e l => ⟨[], .err e, some [l.conn.out]⟩
      | .panic => ⟨[], .panic, none⟩
      | .hang => ⟨[], .hang, none⟩
    | .dml filename untilNow databaseFilter tableFilter block limit =>
      match connectL w 1 room1 o.host o.port o.username o.password with
      | .ok _ helper =>
        match compileFilter w databaseFilter with
        | none => ⟨[], .err .custom, some [conn.conn.out, helper.conn.out]⟩
        | some df =>
          match compileFilter w tableFilter with
          | none => ⟨[], .err .custom, some [conn.conn.out, helper.conn.out]⟩
          | some tf => printDmlsL w.ft ⟨filename, untilNow, df, tf, !block, limit⟩ w.uuid w.random conn helper
      | .err e helper => ⟨[], .err e, some [conn.conn.out, helper.conn.out]⟩
      | .panic => ⟨[], .panic, none⟩
      | .hang => ⟨[], .hang, none⟩
  | .err e l => ⟨[], .err e, some [l.conn.out]⟩
  | .panic => ⟨[], .panic, none⟩
  | .hang => ⟨[], .hang, none⟩

/-- mybinmsg.rs:15-38, as `mybinmsg` -/
def mybinmsgL (w : World) (room : Nat) (conf : MsgConnect) : ProgRun MsgLine :=
  match conf with
  | .unixSocket => ⟨[], .panic, none⟩
  | .tcp host port username password =>
    match connectL w 0 room host port username password with
    | .ok _ l =>
      match binlogFilesL l with
      | .ok files l =>
        match defaultRequest.requestStreamL w.uuid w.random l with
        | .ok s l =>
          let r := msgLoop s l.conn
          ⟨files.map .file ++ r.1, r.2.1, r.2.2.map fun c => [c.out]⟩
        | .err e l => ⟨files.map .file, .err e, some [l.conn.out]⟩
        | .panic => ⟨files.map .file, .panic, none⟩
        | .hang => ⟨files.map .file, .hang, none⟩
      | .err e l => ⟨[], .err e, some [l.conn.out]⟩
      | .panic => ⟨[], .panic, none⟩
      | .hang => ⟨[], .hang, none⟩
    | .err e l => ⟨[], .err e, some [l.conn.out]⟩
    | .panic => ⟨[], .panic, none⟩
    | .hang => ⟨[], .hang, none⟩

end Mybin
