/-
C84: a whole session. Whatever an application asks, one call after the other and depending on what it got before, each
call gets the server's answer to it, and the server hears exactly what was asked.
-/
import Verif.Props.C74

namespace Mybin

/-- the calls of an application on one connection; rows are all read (`all`) -/
inductive Ask where
  | initDb (db : Bytes)
  | createDb (db : Bytes)
  | dropDb (db : Bytes)
  | refresh (flags : Nat)
  | processKill (id : Nat)
  | resetConnection
  | registerSlave (id : Nat)
  | ping
  | statistics
  | debug
  | processInfo
  | fieldList (table wildcard : Bytes)
  | binlogFiles
  | query (q : Bytes)
  | exec (q : Bytes)
  | prepare (q : Bytes)
  | stmtExec (st : PreparedStmt) (params : List StmtColumnValue)
  | stmtQuery (st : PreparedStmt) (params : List StmtColumnValue)
  | stmtClose (st : PreparedStmt)
  | setVar (global : Bool) (name : Bytes) (v : StmtColumnValue)
  | setUserVar (name : Bytes) (v : StmtColumnValue)
  | getVar (conv : Option Bytes → Res Bytes) (global : Bool) (name : Bytes)
  | getUserVar (conv : Option Bytes → Res Bytes) (name : Bytes)

/-- what a call returns -/
inductive Outcome where
  | done
  | failed (e : Err)
  | text (rows : List (List (Option Bytes)))
  | binary (rows : List (List BinaryColumnValue))
  | info (s : Bytes)
  | columns (defs : List ColumnDefinition)
  | files (fs : List Cmd.BinlogFile)
  | stmt (st : PreparedStmt)
  | value (v : Option Bytes)

/-- the outcome of a call, as a value: the application goes on after an error -/
def attempt {α : Type} (run : M α) (f : α → Outcome) : M Outcome := fun c =>
  match run c with
  | .ok a c' => .ok (f a) c'
  | .err e c' => .ok (.failed e) c'
  | .panic => .panic
  | .hang => .hang

/-- the calls of the library -/
def Ask.perform : Ask → M Outcome
  | .initDb db => attempt (Cmd.initDb db) fun _ => .done
  | .createDb db => attempt (Cmd.createDb db) fun _ => .done
  | .dropDb db => attempt (Cmd.dropDb db) fun _ => .done
  | .refresh flags => attempt (Cmd.refresh flags) fun _ => .done
  | .processKill id => attempt (Cmd.processKill id) fun _ => .done
  | .resetConnection => attempt Cmd.resetConnection fun _ => .done
  | .registerSlave id => attempt (Cmd.registerSlave id) fun _ => .done
  | .ping => attempt Cmd.ping fun _ => .done
  | .statistics => attempt Cmd.statistics .info
  | .debug => attempt Cmd.debug fun _ => .done
  | .processInfo => attempt (do let rs ← Cmd.processInfo; rs.all rs.textRow) .text
  | .fieldList t w => attempt (Cmd.fieldList t w) .columns
  | .binlogFiles => attempt Cmd.binlogFiles .files
  | .query q => attempt (do let rs ← Query.qry q; rs.all rs.textRow) .text
  | .exec q => attempt (Query.exec q) fun _ => .done
  | .prepare q => attempt (Stmt.prepare q) .stmt
  | .stmtExec st ps => attempt (st.exec ps) fun _ => .done
  | .stmtQuery st ps => attempt (do let rs ← st.qry ps; rs.all rs.binaryRow) .binary
  | .stmtClose st => attempt st.close fun _ => .done
  | .setVar global name v => attempt (Cmd.setVar name v global) fun _ => .done
  | .setUserVar name v => attempt (Cmd.setUserVar name v) fun _ => .done
  | .getVar conv global name => attempt (Cmd.getVar conv name global) .value
  | .getUserVar conv name => attempt (Cmd.getUserVar conv name) .value

/-- an application decides what to ask next from the outcomes so far; `n` bounds the number of calls -/
def session (app : List Outcome → Option Ask) : Nat → List Outcome → M (List Outcome)
  | 0, got => pure got
  | n + 1, got =>
    match app got with
    | none => pure got
    | some ask => do
      let o ← ask.perform
      session app n (got ++ [o])

/-! ### the protocol -/

/-- the message of a command is short enough for 255 packets -/
def MsgFits (n : Nat) : Prop := n + 64 < 255 * 0xffffff

/-- the parameters of an execution, with their encodings, are short enough for 255 packets -/
def ParamsFit (params : List StmtColumnValue) : Prop :=
  MsgFits (params.map fun p => (p.val.writeTo []).1.length + 3).sum

/-- the calls that are one command answered by OK or ERR, with the command the server has to hear -/
def Spec.plain : Ask → Option Spec.Said
  | .initDb db => some (.command (.initDb db))
  | .createDb db => some (.command (.createDb db))
  | .dropDb db => some (.command (.dropDb db))
  | .refresh flags => some (.command (.refresh flags))
  | .processKill id => some (.command (.processKill id))
  | .resetConnection => some (.command .resetConnection)
  | .registerSlave id => some (.command (.registerSlave id [] [] [] 0 0 0))
  | .exec q => some (.command (.query q))
  | .stmtExec st ps => some (.execute st.stmtId (ps.map Spec.serverParam))
  | _ => none

/-- the calls that read text rows, with the command the server has to hear -/
def Spec.asksText : Ask → Option Spec.ServerCmd
  | .query q => some (.query q)
  | .processInfo => some .processInfo
  | _ => none

/-- the calls whose arguments the protocol can carry -/
def Ask.Carried : Ask → Prop
  | .initDb s | .createDb s | .dropDb s | .query s | .exec s | .prepare s => MsgFits s.length
  | .refresh flags => flags < 256
  | .processKill id | .registerSlave id => id < 2 ^ 32
  | .fieldList t w => (0 : UInt8) ∉ t ∧ MsgFits (t.length + w.length)
  | .stmtExec st ps | .stmtQuery st ps => st.stmtId < 2 ^ 32 ∧ (∀ p ∈ ps, p.Sound) ∧ ParamsFit ps
  | .stmtClose st => st.stmtId < 2 ^ 32
  | .setVar _ name v | .setUserVar name v => MsgFits name.length ∧ v.Sound ∧ ParamsFit [v]
  | .getVar _ _ name | .getUserVar _ name => MsgFits name.length
  | .resetConnection | .ping | .statistics | .debug | .processInfo | .binlogFiles => True

/-- the statement that sets a variable, and the value -/
def Spec.sets : Ask → Option (Bytes × StmtColumnValue)
  | .setVar global name v => some (Spec.setVariable global name, v)
  | .setUserVar name v => some (Spec.ascii "SET @" ++ name ++ Spec.ascii " = ?", v)
  | _ => none

/-- the server prepares a statement with one parameter under the id `id` -/
def Spec.AcceptsPreparing (caps id : Nat) (msgs : List Bytes) : Prop :=
  ∃ (warnings w s : Nat) (param : Spec.ColDef × ColumnType), id < 2 ^ 32 ∧ warnings < 2 ^ 16 ∧
    w < 2 ^ 16 ∧ s < 2 ^ 15 ∧ Spec.Supported param ∧ msgs = Spec.prepareResponse caps ⟨id, warnings⟩ [param.1] [] w s 0 0

/-- what an application gets that converts the value of a variable by `conv`; `v` is the value in the answer, if any -/
def Spec.told (conv : Option Bytes → Res Bytes) (v : Option (Option Bytes)) : Option Outcome :=
  match v with
  | none => some (.value none)
  | some x => match conv x with
    | .ok a => some (.value (some a))
    | .err e => some (.failed e)
    | .panic => none

/-- an error of the server, as the application sees it -/
abbrev refusal (caps code : Nat) (state msg : Bytes) : Outcome := .failed (reported caps code state msg)

/-- the message of the error -/
abbrev refusalMsg (caps code : Nat) (state msg : Bytes) : Bytes :=
  Spec.errPacket (caps.testBit Spec.PROTOCOL_41) code state msg

/-- One call by the documented protocol: `Spec.Exchange caps ask said msgs got` says that the server, having heard
`said`, may answer with the messages `msgs`, and that the application then has to get `got`. -/
inductive Spec.Exchange (caps : Nat) : Ask → List Spec.Said → List Bytes → Outcome → Prop
  /-- commands answered by OK -/
  | ok {ask s} (f : Spec.OkFields) (h : Spec.plain ask = some s) (hf : f.InRange) :
      Spec.Exchange caps ask [s] [Spec.okPacket caps 0 f] .done
  /-- or by ERR -/
  | refused {ask s} (code : Nat) (state msg : Bytes) (h : Spec.plain ask = some s) (he : Spec.ErrOk code state msg) :
      Spec.Exchange caps ask [s] [refusalMsg caps code state msg] (refusal caps code state msg)
  | ping (f : Spec.OkFields) (hf : f.InRange) :
      Spec.Exchange caps .ping [.command .ping] [Spec.okPacket caps 0 f] .done
  | statistics (m : Bytes) (h : validUtf8 m = true) :
      Spec.Exchange caps .statistics [.command .statistics] [m] (.info m)
  | debug (m : Bytes) (h : Spec.IsCommandEnd caps m) : Spec.Exchange caps .debug [.command .debug] [m] .done
  | debugRefused (code : Nat) (state msg : Bytes) (he : Spec.ErrOk code state msg) :
      Spec.Exchange caps .debug [.command .debug] [refusalMsg caps code state msg] (refusal caps code state msg)
  | fieldList (t w : Bytes) (cols : List (Spec.ColDef × ColumnType × Option Bytes)) (theEnd : Bytes)
      (hc : ∀ col ∈ cols, Spec.Listed col) (he : Spec.IsCommandEnd caps theEnd) :
      Spec.Exchange caps (.fieldList t w) [.command (.fieldList t w)]
        (Spec.fieldListResponse (cols.map fun col => (col.1, col.2.2)) theEnd)
        (.columns (cols.map fun col => clientDef col.1 col.2.1 (col.2.2.getD [])))
  | fieldListRefused (t w : Bytes) (code : Nat) (state msg : Bytes) (he : Spec.ErrOk code state msg) :
      Spec.Exchange caps (.fieldList t w) [.command (.fieldList t w)]
        [refusalMsg caps code state msg] (refusal caps code state msg)
  /-- a query answered by rows, OK or ERR -/
  | rows {ask cmd} (cols : List (Spec.ColDef × ColumnType)) (w s : Nat) (rows : List (List (Option Bytes))) (term : Bytes)
      (h : Spec.asksText ask = some cmd) (ha : Spec.AnswerOk caps cols w s rows term) :
      Spec.Exchange caps ask [.command cmd] (Spec.textAnswer caps (cols.map (·.1)) w s rows term) (.text rows)
  | noRows {ask cmd} (f : Spec.OkFields) (h : Spec.asksText ask = some cmd) (hf : f.InRange) :
      Spec.Exchange caps ask [.command cmd] [Spec.okPacket caps 0 f] (.text [])
  | queryRefused {ask cmd} (code : Nat) (state msg : Bytes) (h : Spec.asksText ask = some cmd)
      (he : Spec.ErrOk code state msg) :
      Spec.Exchange caps ask [.command cmd] [refusalMsg caps code state msg] (refusal caps code state msg)
  | binlogFiles (cols : List (Spec.ColDef × ColumnType)) (w s : Nat) (rows : List (List (Option Bytes))) (term : Bytes)
      (ha : Spec.AnswerOk caps cols w s rows term) (files : List Cmd.BinlogFile)
      (hf : List.Forall₂ (fun row f => Spec.FileRow row f.filename f.size) rows files) :
      Spec.Exchange caps .binlogFiles [.command (.query (Spec.ascii "SHOW MASTER LOGS"))]
        (Spec.textAnswer caps (cols.map (·.1)) w s rows term) (.files files)
  /-- preparing a statement -/
  | prepare (q : Bytes) (p : Spec.PrepareOk) (hid : p.stmtId < 2 ^ 32) (hwn : p.warnings < 2 ^ 16)
      (params cols : List (Spec.ColDef × ColumnType)) (hpl : params.length < 2 ^ 16) (hcl : cols.length < 2 ^ 16)
      (hps : ∀ dc ∈ params, Spec.Supported dc) (hcs : ∀ dc ∈ cols, Spec.Supported dc)
      (w1 s1 w2 s2 : Nat) (hw1 : w1 < 2 ^ 16) (hs1 : s1 < 2 ^ 15) (hw2 : w2 < 2 ^ 16) (hs2 : s2 < 2 ^ 15) :
      Spec.Exchange caps (.prepare q) [.command (.stmtPrepare q)]
        (Spec.prepareResponse caps p (params.map (·.1)) (cols.map (·.1)) w1 s1 w2 s2)
        (.stmt ⟨p.stmtId, clientDefs cols, clientDefs params, p.warnings⟩)
  | prepareRefused (q : Bytes) (code : Nat) (state msg : Bytes) (he : Spec.ErrOk code state msg) :
      Spec.Exchange caps (.prepare q) [.command (.stmtPrepare q)]
        [refusalMsg caps code state msg] (refusal caps code state msg)
  /-- executing a prepared statement, answered by binary rows, OK or ERR -/
  | stmtRows (st : PreparedStmt) (params : List StmtColumnValue) (cols : List (Spec.ColDef × ColumnType)) (w s : Nat)
      (rows : List Spec.BinRow) (term : Bytes) (h0 : cols ≠ []) (hl : cols.length < 2 ^ 32)
      (hs : ∀ dc ∈ cols, Spec.Supported dc) (hw : w < 2 ^ 16) (hst : s < 2 ^ 15)
      (hr : ∀ r ∈ rows, r.Ok (cols.map (·.2))) (ht : Spec.IsTerminator caps term) :
      Spec.Exchange caps (.stmtQuery st params) [.execute st.stmtId (params.map Spec.serverParam)]
        (Spec.resultSetHead caps (cols.map (·.1)) w s ++ (rows.map (·.bytes) ++ [term])) (.binary (rows.map (·.values)))
  | stmtNoRows (st : PreparedStmt) (params : List StmtColumnValue) (f : Spec.OkFields) (hf : f.InRange) :
      Spec.Exchange caps (.stmtQuery st params) [.execute st.stmtId (params.map Spec.serverParam)]
        [Spec.okPacket caps 0 f] (.binary [])
  | stmtRefused (st : PreparedStmt) (params : List StmtColumnValue) (code : Nat) (state msg : Bytes)
      (he : Spec.ErrOk code state msg) :
      Spec.Exchange caps (.stmtQuery st params) [.execute st.stmtId (params.map Spec.serverParam)]
        [refusalMsg caps code state msg] (refusal caps code state msg)
  /-- closing a statement is not answered -/
  | stmtClose (st : PreparedStmt) : Spec.Exchange caps (.stmtClose st) [.command (.stmtClose st.stmtId)] [] .done
  /-- setting a variable is preparing, executing and closing a statement -/
  | sets {ask q v} (id : Nat) (msgs : List Bytes) (f : Spec.OkFields) (h : Spec.sets ask = some (q, v))
      (ha : Spec.AcceptsPreparing caps id msgs) (hf : f.InRange) :
      Spec.Exchange caps ask
        [.command (.stmtPrepare q), .execute id [Spec.serverParam v], .command (.stmtClose id)]
        (msgs ++ [Spec.okPacket caps 0 f]) .done
  | setRefused {ask q v} (id : Nat) (msgs : List Bytes) (code : Nat) (state msg : Bytes)
      (h : Spec.sets ask = some (q, v)) (ha : Spec.AcceptsPreparing caps id msgs) (he : Spec.ErrOk code state msg) :
      Spec.Exchange caps ask
        [.command (.stmtPrepare q), .execute id [Spec.serverParam v], .command (.stmtClose id)]
        (msgs ++ [refusalMsg caps code state msg]) (refusal caps code state msg)
  | setNotPrepared {ask q v} (code : Nat) (state msg : Bytes)
      (h : Spec.sets ask = some (q, v)) (he : Spec.ErrOk code state msg) :
      Spec.Exchange caps ask [.command (.stmtPrepare q)] [refusalMsg caps code state msg] (refusal caps code state msg)
  /-- reading a variable -/
  | getVar (conv : Option Bytes → Res Bytes) (global : Bool) (name : Bytes) (cols : List (Spec.ColDef × ColumnType))
      (w s : Nat) (rows : List (List (Option Bytes))) (term : Bytes) (got : Outcome) (h2 : cols.length = 2)
      (ha : Spec.AnswerOk caps cols w s rows term) (ht : Spec.told conv (rows.head?.bind fun row => row[1]?) = some got) :
      Spec.Exchange caps (.getVar conv global name) [.command (.query (Spec.showVariable global name))]
        (Spec.textAnswer caps (cols.map (·.1)) w s rows term) got
  | getUserVar (conv : Option Bytes → Res Bytes) (name : Bytes) (cols : List (Spec.ColDef × ColumnType))
      (w s : Nat) (rows : List (List (Option Bytes))) (term : Bytes) (got : Outcome)
      (ha : Spec.AnswerOk caps cols w s rows term) (ht : Spec.told conv (rows.head?.bind fun row => row[0]?) = some got) :
      Spec.Exchange caps (.getUserVar conv name) [.command (.query (Spec.ascii "SELECT @" ++ name))]
        (Spec.textAnswer caps (cols.map (·.1)) w s rows term) got

/-- one call in the history of a session -/
structure Spec.Event84 where
  ask : Ask
  said : List Spec.Said
  msgs : List Bytes
  got : Outcome

/-- a history of `app` with a server that follows the protocol; `got` are the outcomes before it -/
def Spec.IsHistory (caps : Nat) (app : List Outcome → Option Ask) : List Outcome → List Spec.Event84 → Prop
  | _, [] => True
  | got, e :: es => app got = some e.ask ∧ e.ask.Carried ∧ Spec.Exchange caps e.ask e.said e.msgs e.got ∧
      Spec.IsHistory caps app (got ++ [e.got]) es

/-! ### each call -/

theorem attempt_ok {α : Type} {caps : Nat} {run : M α} {f : α → Outcome} {msgs : List Bytes} {a : α}
    {said : List Spec.Said} (h : Exchanges caps run msgs a said) : Exchanges caps (attempt run f) msgs (f a) said := by
  intro c rest hc hd
  obtain ⟨c', h1, h2⟩ := h c rest hc hd
  exact ⟨c', by unfold attempt; rw [h1], h2⟩

/-- like `Refuses`, the flags are kept -/
def Denies {α : Type} (caps : Nat) (run : M α) (answers : List Bytes) (e : Err) (said : List Spec.Said) : Prop :=
  ∀ (c : Conn) (rest : Bytes), c.caps = caps → Spec.Delivers c.inp answers rest →
    ∃ c', run c = .err e c' ∧ c'.inp = rest ∧ c'.caps = caps ∧ Spec.Heard caps c.out c'.out said

theorem attempt_err {α : Type} {caps : Nat} {run : M α} {f : α → Outcome} {msgs : List Bytes} {e : Err}
    {said : List Spec.Said} (h : Denies caps run msgs e said) : Exchanges caps (attempt run f) msgs (.failed e) said := by
  intro c rest hc hd
  obtain ⟨c', h1, h2⟩ := h c rest hc hd
  exact ⟨c', by unfold attempt; rw [h1], h2⟩

theorem okErr_ok {run : M Unit} {cmd : Spec.ServerCmd} (h : OkErrCommand run cmd) (caps : Nat) (f : Spec.OkFields)
    (hf : f.InRange) : Exchanges caps run [Spec.okPacket caps 0 f] () [.command cmd] := by
  rintro c rest rfl hd
  obtain ⟨c', h1, h2, h3, h4⟩ := (h rest c).1 f hf hd
  exact ⟨c', h1, h2, h3, h4.heard⟩

theorem okErr_err {run : M Unit} {cmd : Spec.ServerCmd} (h : OkErrCommand run cmd) (caps code : Nat) (state msg : Bytes)
    (he : Spec.ErrOk code state msg) :
    Denies caps run [refusalMsg caps code state msg] (reported caps code state msg) [.command cmd] := by
  rintro c rest rfl hd
  obtain ⟨c', h1, h2, h3, h4⟩ := (h rest c).2.1 code state msg he hd
  exact ⟨c', h1, h2, h3, h4.heard⟩

/-- what sending a message and then running `next` does -/
theorem sends_then {α : Type} {caps : Nat} {send : M Unit} {next : M α} {said : List Spec.Said}
    (hsend : Exchanges caps send [] () said) {msgs : List Bytes} {a : α} {s2 : List Spec.Said}
    (hn : Exchanges caps next msgs a s2) :
    Exchanges caps (do send; next) msgs a (said ++ s2) := by
  have := Exchanges.bind (f := fun _ => next) hsend hn
  simpa using this

theorem sends_then_err {α : Type} {caps : Nat} {x : M α} {β : Type} {next : α → M β} {said : List Spec.Said} {m1 : List Bytes}
    {a : α} (hsend : Exchanges caps x m1 a said) {msgs : List Bytes} {e : Err} {s2 : List Spec.Said}
    (hn : Denies caps (next a) msgs e s2) :
    Denies caps (x >>= next) (m1 ++ msgs) e (said ++ s2) := by
  intro c rest hc hd
  obtain ⟨mid, d1, d2⟩ := Delivers.append hd
  obtain ⟨c1, a1, a2, a3, a4⟩ := hsend c mid hc d1
  rw [← a2] at d2
  obtain ⟨c2, b1, b2, b3, b4⟩ := hn c1 rest a3 d2
  exact ⟨c2, by rw [M.bind_apply, a1, MR.bind_ok, b1], b2, b3, Heard.append a4 b4⟩

theorem denies_bind {α β : Type} {caps : Nat} {x : M α} {next : α → M β} {said : List Spec.Said} {msgs : List Bytes}
    {e : Err} (h : Denies caps x msgs e said) : Denies caps (x >>= next) msgs e said := by
  intro c rest hc hd
  obtain ⟨c2, b1, b2⟩ := h c rest hc hd
  exact ⟨c2, by rw [M.bind_apply, b1]; rfl, b2⟩

theorem sends_cmd (caps : Nat) (w : Bytes × Nat) (cmd : Spec.ServerCmd) (hs : SentAs caps [] w cmd)
    (hn : w.1.length < 255 * 0xffffff) : Exchanges caps (sendMsg w.1 true) [] () [.command cmd] := by
  rintro c rest rfl hd
  obtain ⟨c1, a1, a2, a3, a4, -⟩ := sendMsg_cmd c w cmd hs hn
  exact ⟨c1, a1, a3.trans (Delivers.nil hd), a4, a2.heard⟩

theorem execLoop_exchanges (caps : Nat) (f : Spec.OkFields) (hf : f.InRange) :
    Exchanges caps execLoop [Spec.okPacket caps 0 f] () [] := by
  rintro c rest rfl hd
  obtain ⟨c2, b1, b2, b3⟩ := execLoop_ok f hf [] rest c hd
  exact ⟨c2, b1, Delivers.nil b2, b3.caps, by rw [b3.out]; exact Heard.nil _ _⟩

theorem execLoop_denies (caps code : Nat) (state msg : Bytes) (he : Spec.ErrOk code state msg) :
    Denies caps execLoop [refusalMsg caps code state msg] (reported caps code state msg) [] := by
  rintro c rest rfl hd
  obtain ⟨c2, b1, b2, b3⟩ := execLoop_err code he.code_lt state msg he.state_len he.state_utf8 he.msg_utf8 [] rest c hd
  exact ⟨c2, b1, Delivers.nil b2, b3.caps, by rw [b3.out]; exact Heard.nil _ _⟩

theorem sends_query (caps : Nat) (q : Bytes) (hq : MsgFits q.length) :
    Exchanges caps (sendMsg (ComQuery.writeTo [] q).1 true) [] () [.command (.query q)] := by
  refine sends_cmd caps _ _ (C19_string_commands caps [] q).1 ?_
  have : (ComQuery.writeTo [] q).1 = 0x03 :: q := rfl
  rw [this, List.length_cons]
  unfold MsgFits at hq
  omega

/-- the length of an execution -/
theorem execute_length_le (id : Nat) (ps : List StmtColumnValue) (hs : ∀ p ∈ ps, p.Sound) (cmd : ComStmtExecute) (e : Bytes)
    (h1 : ComStmtExecute.single id ps = some cmd) (h2 : ∀ out, cmd.writeTo out = some (out ++ e, e.length)) :
    e.length ≤ (ps.map fun p => (p.val.writeTo []).1.length + 3).sum + 20 := by
  obtain ⟨bm, hbm, hlen, -⟩ := Bitmap.fromIter_spec (ps.map (·.isNull)) 0
  have a := h2 []
  unfold ComStmtExecute.single at h1
  rw [hbm] at h1
  cases h1
  have hhead : List.Forall₂ Appends
      [(writeU8 · Command.stmtExecute.toByte), (writeLeU32 · id), (writeU8 · 0), (writeLeU32 · 1)]
      [Spec.u8 0x17, Spec.le 4 id, Spec.u8 0, Spec.le 4 1] :=
    .cons (appends_u8 _) (.cons (appends_u32 _) (.cons (appends_u8 _) (.cons (appends_u32 _) .nil)))
  by_cases hne : ps = []
  · subst hne
    have hw := Appends.seq hhead []
    simp only [ComStmtExecute.writeTo, List.isEmpty_nil, if_true, List.nil_append] at a
    have := congrArg Prod.snd ((Option.some.inj a).symm.trans hw)
    simp only [List.length_flatten, List.map_cons, List.map_nil, List.sum_cons, List.sum_nil,
      Spec.u8, Spec.length_le, List.length_cons, List.length_nil] at this
    simp [this]
  · have hty : List.Forall₂ Appends (ps.map (fun p out => writeParamType out p))
        (ps.map fun p => Spec.u8 p.colType.toByte ++ Spec.u8 (if p.unsigned then 0x80 else 0x00)) := by
      rw [List.forall₂_map_left_iff, List.forall₂_map_right_iff, List.forall₂_same]
      intro p _
      refine appends_mk (fun out => rfl) (.cons (appends_u8 _) (.cons (appends_u8 _) .nil)) ?_
      simp
    have hva : List.Forall₂ Appends (ps.map (fun p out => p.val.writeTo out)) (ps.map fun p => (p.val.writeTo []).1) := by
      rw [List.forall₂_map_left_iff, List.forall₂_map_right_iff, List.forall₂_same]
      intro p hp
      obtain ⟨b, hb, -⟩ := C23_write_partial p.val (hs p hp).1 (hs p hp).2.1
      have : (p.val.writeTo []).1 = b := by
        have := hb []
        simp only [List.nil_append] at this
        rw [this]
      rw [this]
      exact hb
    have hmid : List.Forall₂ Appends [(writeBytes · bm), (writeU8 · (if true then 0x01 else 0x00))]
        [bm, Spec.u8 1] := .cons (appends_bytes bm) (.cons (appends_u8 1) .nil)
    have hall := List.rel_append (List.rel_append (List.rel_append hhead hmid) hty) hva
    have hw := Appends.seq hall []
    simp only [ComStmtExecute.writeTo, List.isEmpty_iff, hne, if_false, hbm, List.nil_append] at a
    have := congrArg Prod.snd ((Option.some.inj a).symm.trans hw)
    have hsum : ∀ l : List StmtColumnValue,
        (l.map fun p => (Spec.u8 p.colType.toByte ++ Spec.u8 (if p.unsigned then 0x80 else 0x00)).length).sum
          + (l.map fun p => (p.val.writeTo []).1.length).sum + l.length
        = (l.map fun p => (p.val.writeTo []).1.length + 3).sum := by
      intro l
      induction l with
      | nil => rfl
      | cons x l ih =>
        simp only [List.map_cons, List.sum_cons, List.length_cons, ← ih, Spec.u8, List.length_append, List.length_nil]
        omega
    have hs' := hsum ps
    rw [List.length_map] at hlen
    simp only [List.length_flatten, List.map_append, List.map_map, List.sum_append, List.map_cons, List.map_nil,
      List.sum_cons, List.sum_nil, Spec.length_le, Function.comp_def] at this
    simp only [Spec.u8, List.length_cons, List.length_nil] at this hs'
    omega

theorem sends_execute (caps : Nat) (st : PreparedStmt) (ps : List StmtColumnValue) (hid : st.stmtId < 2 ^ 32)
    (hs : ∀ p ∈ ps, p.Sound) (hf : ParamsFit ps) :
    Exchanges caps (st.send ps) [] () [.execute st.stmtId (ps.map Spec.serverParam)] := by
  obtain ⟨cmd, e, h1, h2, h3⟩ := C22_server_sees_parameters_partial st.stmtId ps hid hs
  have hlen : e.length ≤ (ps.map fun p => (p.val.writeTo []).1.length + 3).sum + 20 :=
    execute_length_le st.stmtId ps hs cmd e h1 h2
  rintro c rest rfl hd
  obtain ⟨pk, c1, a1, a2, a3, a4, a5, a6, a7, -⟩ := sendMsg_spec e c (Nat.div_lt_of_lt_mul (by
    unfold ParamsFit MsgFits at hf; omega))
  refine ⟨c1, ?_, a6.trans (Delivers.nil hd), a7, [pk], by simpa using ⟨a1, a2⟩, by simpa using a5, .cons ?_ .nil⟩
  · unfold PreparedStmt.send
    have := h2 []
    rw [List.nil_append] at this
    rw [h1]
    simp only [this]
    exact a4
  · show Spec.D.all _ _ = _
    rw [a3, List.length_map]
    exact h3

theorem newResultSet_ok (caps : Nat) (sid : Option Nat) (f : Spec.OkFields) (hf : f.InRange) :
    Exchanges caps (newResultSet sid) [Spec.okPacket caps 0 f] ⟨[], true, sid⟩ [] := by
  rintro c rest rfl hd
  obtain ⟨c2, b1, b2, b3, -⟩ := Delivers.recv hd
  refine ⟨c2, ?_, Delivers.nil b3, b2.caps, by rw [b2.out]; exact Heard.nil _ _⟩
  have hp := C14_ok_packet c.caps 0 (by norm_num) f hf
  obtain ⟨t, ht⟩ := okPacket_head0 c.caps f
  rw [ht] at hp b1
  unfold newResultSet
  rw [M.bind_apply, b1, MR.bind_ok]
  simp only [parseColCnt, M.bind_apply, getCaps_apply, MR.bind_ok]
  rw [if_neg (by decide), if_pos trivial]
  rw [M.bind_apply, b2.caps, M.parse_ok hp]
  rfl

theorem newResultSet_err (caps : Nat) (sid : Option Nat) (code : Nat) (state msg : Bytes) (he : Spec.ErrOk code state msg) :
    Denies caps (newResultSet sid) [refusalMsg caps code state msg] (reported caps code state msg) [] := by
  rintro c rest rfl hd
  obtain ⟨c2, b1, b2, b3, -⟩ := Delivers.recv hd
  refine ⟨c2, ?_, Delivers.nil b3, b2.caps, by rw [b2.out]; exact Heard.nil _ _⟩
  have hf := failWithErrPacket_spec (α := Nat) c2 code he.code_lt state msg he.state_len he.state_utf8 he.msg_utf8
  rw [b2.caps] at hf
  obtain ⟨t, ht⟩ := errPacket_head (c.caps.testBit Spec.PROTOCOL_41) code state msg
  unfold refusalMsg at b1
  rw [ht] at hf b1
  unfold newResultSet
  rw [M.bind_apply, b1, MR.bind_ok]
  simp only [parseColCnt, M.bind_apply, getCaps_apply, MR.bind_ok]
  rw [if_pos trivial, hf]
  rfl

theorem all_completed {ρ : Type} (caps : Nat) (read : ResultSet → P ρ) (sid : Option Nat) :
    Exchanges caps (ResultSet.all (read ⟨[], true, sid⟩) ⟨[], true, sid⟩) [] [] [] := by
  rintro c rest rfl hd
  refine ⟨c, ?_, Delivers.nil hd, rfl, Heard.nil _ _⟩
  unfold ResultSet.all
  rw [ResultSet.foldRows]
  rfl

theorem textSet_exchanges (caps : Nat) (cols : List (Spec.ColDef × ColumnType)) (w s : Nat)
    (rows : List (List (Option Bytes))) (term : Bytes) (ha : Spec.AnswerOk caps cols w s rows term) :
    Exchanges caps (do let rs ← newResultSet none; rs.all rs.textRow)
      (Spec.textAnswer caps (cols.map (·.1)) w s rows term) rows [] := by
  rintro c rest rfl hd
  unfold Spec.textAnswer at hd
  obtain ⟨c2, b1, b2, b3⟩ := newResultSet_spec none cols ha.cols0 ha.cols_lt ha.supported w s ha.w_lt ha.s_lt _ rest c hd
  have hlen : (clientDefs cols).length = cols.length := by simp [clientDefs]
  have hpos : 0 < cols.length := List.length_pos_iff.2 ha.cols0
  obtain ⟨c3, d1, d2, d3, d4⟩ := (C26_text_collect ⟨clientDefs cols, false, none⟩ rfl (by simpa [hlen] using hpos)
      (by simpa [hlen] using ha.cols_lt) rows (by simpa [hlen] using ha.width) ha.values term rest c2
      (by rw [b2.caps]; exact ha.isEnd) b3).all
  refine ⟨c3, ?_, d2, d4.trans b2.caps, by rw [d3, b2.out]; exact Heard.nil _ _⟩
  rw [M.bind_apply, b1, MR.bind_ok, d1]

theorem binSet_exchanges (caps : Nat) (sid : Option Nat) (cols : List (Spec.ColDef × ColumnType)) (w s : Nat)
    (rows : List Spec.BinRow) (term : Bytes) (h0 : cols ≠ []) (hl : cols.length < 2 ^ 32)
    (hs : ∀ dc ∈ cols, Spec.Supported dc) (hw : w < 2 ^ 16) (hst : s < 2 ^ 15)
    (hr : ∀ r ∈ rows, r.Ok (cols.map (·.2))) (ht : Spec.IsTerminator caps term) :
    Exchanges caps (do let rs ← newResultSet sid; rs.all rs.binaryRow)
      (Spec.resultSetHead caps (cols.map (·.1)) w s ++ (rows.map (·.bytes) ++ [term])) (rows.map (·.values)) [] := by
  rintro c rest rfl hd
  obtain ⟨c2, b1, b2, b3⟩ := newResultSet_spec sid cols h0 hl hs w s hw hst _ rest c hd
  have hty : (clientDefs cols).map (·.colType) = cols.map (·.2) := by
    unfold clientDefs
    rw [List.map_map]
    rfl
  obtain ⟨c3, d1, d2, d3, d4⟩ := (C26_binary_collect ⟨clientDefs cols, false, sid⟩ rfl rows (by rw [hty]; exact hr)
      term rest c2 (by rw [b2.caps]; exact ht) b3).all
  refine ⟨c3, ?_, d2, d4.trans b2.caps, by rw [d3, b2.out]; exact Heard.nil _ _⟩
  rw [M.bind_apply, b1, MR.bind_ok, d1]

theorem sets_by (ask : Ask) (hc : ask.Carried) (q : Bytes) (v : StmtColumnValue) (h : Spec.sets ask = some (q, v)) :
    ∃ run, ask.perform = attempt run (fun _ => .done) ∧ SetsBy run q v ∧ ParamsFit [v] := by
  cases ask <;> simp only [Spec.sets, Option.some.injEq, reduceCtorEq, Prod.mk.injEq] at h
  · obtain ⟨rfl, rfl⟩ := h
    exact ⟨_, rfl, (C71_set_var _ hc.1 _ hc.2.1 _).1, hc.2.2⟩
  · obtain ⟨rfl, rfl⟩ := h
    exact ⟨_, rfl, (C71_set_var _ hc.1 _ hc.2.1 false).2, hc.2.2⟩

theorem told_reads {caps : Nat} (run : M (Option Bytes)) (conv : Option Bytes → Res Bytes) (v : Option (Option Bytes))
    (got : Outcome) (ht : Spec.told conv v = some got) (c c' : Conn) (hr : Reads conv v (run c) c')
    (rest : Bytes) (said : List Spec.Said) (h : c'.inp = rest ∧ c'.caps = caps ∧ Spec.Heard caps c.out c'.out said) :
    ∃ c', attempt run .value c = .ok got c' ∧ c'.inp = rest ∧ c'.caps = caps ∧ Spec.Heard caps c.out c'.out said := by
  refine ⟨c', ?_, h⟩
  unfold Spec.told at ht
  unfold attempt
  cases v with
  | none => cases ht; rw [hr.1 rfl]
  | some x =>
    simp only at ht
    cases hx : conv x with
    | ok a => rw [hx] at ht; cases ht; rw [hr.2.1 x a rfl hx]
    | err e => rw [hx] at ht; cases ht; rw [hr.2.2 x e rfl hx]
    | panic => rw [hx] at ht; cases ht

theorem exampleText_supported : Spec.Supported (exampleTextDef, .varString) := by
  refine ⟨?_, by decide⟩
  constructor <;> first | (exact ⟨by decide, by decide⟩) | (exact (by decide))

theorem M.bind_assoc {α β γ : Type} (x : M α) (f : α → M β) (g : β → M γ) :
    (x >>= f) >>= g = x >>= fun a => f a >>= g := by
  funext c
  simp only [M.bind_apply]
  cases x c <;> rfl

theorem exchange_performs (caps : Nat) (ask : Ask) (said : List Spec.Said) (msgs : List Bytes) (got : Outcome)
    (hc : ask.Carried) (h : Spec.Exchange caps ask said msgs got) : Exchanges caps ask.perform msgs got said := by
  have exec_eq : ∀ q, Query.exec q = (do sendMsg (ComQuery.writeTo [] q).1 true; execLoop) := fun _ => rfl
  have stmtExec_eq : ∀ (st : PreparedStmt) ps, st.exec ps = (do st.send ps; execLoop) := fun _ _ => rfl
  have qry_eq : ∀ q, (do let rs ← Query.qry q; rs.all rs.textRow : M _)
      = (do sendMsg (ComQuery.writeTo [] q).1 true; (do let rs ← newResultSet none; rs.all rs.textRow)) := by
    intro q
    unfold Query.qry
    exact M.bind_assoc _ _ _
  have info_eq : (do let rs ← Cmd.processInfo; rs.all rs.textRow : M _)
      = (do sendMsg (writeSingleByteCmd [] .processInfo).1 true; (do let rs ← newResultSet none; rs.all rs.textRow)) := by
    unfold Cmd.processInfo
    exact M.bind_assoc _ _ _
  have stmtQry_eq : ∀ (st : PreparedStmt) ps, (do let rs ← st.qry ps; rs.all rs.binaryRow : M _)
      = (do st.send ps; (do let rs ← newResultSet (some st.stmtId); rs.all rs.binaryRow)) := by
    intro st ps
    unfold PreparedStmt.qry
    exact M.bind_assoc _ _ _
  have sendInfo : Exchanges caps (sendMsg (writeSingleByteCmd [] .processInfo).1 true) [] () [.command .processInfo] :=
    sends_cmd caps _ _ (C19_simple_commands caps []).2.2.1 (by simp [writeSingleByteCmd, writeU8])
  have fits : ∀ {n : Nat}, MsgFits n → n + 1 < 255 * 0xffffff := by unfold MsgFits; intro n h; omega
  have one : ∀ {v : StmtColumnValue}, ParamsFit [v] → (v.val.writeTo []).1.length + 14 < 255 * 0xffffff := by
    intro v hf
    unfold ParamsFit MsgFits at hf
    simp only [List.map_cons, List.map_nil, List.sum_cons, List.sum_nil] at hf
    omega
  cases h with
  | ok f h hf =>
    cases ask <;> simp only [Spec.plain, Option.some.injEq, reduceCtorEq] at h <;> subst h
    · exact attempt_ok (okErr_ok (C61_init_db _ (fits hc)) caps f hf)
    · exact attempt_ok (okErr_ok (C61_create_drop_db _ (fits hc)).1 caps f hf)
    · exact attempt_ok (okErr_ok (C61_create_drop_db _ (fits hc)).2 caps f hf)
    · exact attempt_ok (okErr_ok (C61_refresh _ hc) caps f hf)
    · exact attempt_ok (okErr_ok (C61_process_kill _ hc) caps f hf)
    · exact attempt_ok (okErr_ok C61_reset_connection caps f hf)
    · exact attempt_ok (okErr_ok (C61_register_slave _ hc) caps f hf)
    · exact attempt_ok (f := fun _ => Outcome.done) (sends_then (sends_query caps _ hc) (execLoop_exchanges caps f hf))
    · obtain ⟨h1, h2, h3⟩ := hc
      exact attempt_ok (f := fun _ => Outcome.done)
        (sends_then (sends_execute caps _ _ h1 h2 h3) (execLoop_exchanges caps f hf))
  | refused code state msg h he =>
    cases ask <;> simp only [Spec.plain, Option.some.injEq, reduceCtorEq] at h <;> subst h
    · exact attempt_err (okErr_err (C61_init_db _ (fits hc)) caps _ _ _ he)
    · exact attempt_err (okErr_err (C61_create_drop_db _ (fits hc)).1 caps _ _ _ he)
    · exact attempt_err (okErr_err (C61_create_drop_db _ (fits hc)).2 caps _ _ _ he)
    · exact attempt_err (okErr_err (C61_refresh _ hc) caps _ _ _ he)
    · exact attempt_err (okErr_err (C61_process_kill _ hc) caps _ _ _ he)
    · exact attempt_err (okErr_err C61_reset_connection caps _ _ _ he)
    · exact attempt_err (okErr_err (C61_register_slave _ hc) caps _ _ _ he)
    · exact attempt_err (f := fun _ => Outcome.done)
        (sends_then_err (next := fun _ => execLoop) (sends_query caps _ hc) (execLoop_denies caps _ _ _ he))
    · obtain ⟨h1, h2, h3⟩ := hc
      exact attempt_err (f := fun _ => Outcome.done)
        (sends_then_err (next := fun _ => execLoop) (sends_execute caps _ _ h1 h2 h3) (execLoop_denies caps _ _ _ he))
  | ping f hf =>
    refine attempt_ok (f := fun _ => Outcome.done) (a := ()) ?_
    rintro c rest rfl hd
    obtain ⟨c2, h1, h2, h3, h4⟩ := ping_run c _ rest hd
    refine ⟨c2, ?_, h1, h2, h3.heard⟩
    rw [h4, M.parse_ok (C14_ok_packet c.caps 0 (by norm_num) f hf)]
    rfl
  | statistics m h =>
    refine attempt_ok ?_
    rintro c rest rfl hd
    obtain ⟨c2, h1, h2, h3, h4⟩ := statistics_run c _ rest hd
    exact ⟨c2, by rw [h4, h]; rfl, h1, h2, h3.heard⟩
  | debug m h =>
    refine attempt_ok (f := fun _ => Outcome.done) (a := ()) ?_
    rintro c rest rfl hd
    obtain ⟨c2, h1, h2, h3, h4⟩ := debug_run c m rest hd
    obtain ⟨p, r, hp⟩ := eofResponse_end c.caps m h
    refine ⟨c2, ?_, h1, h2, h3.heard⟩
    rw [h4, M.parse_ok hp]
    rfl
  | debugRefused code state msg he =>
    refine attempt_err ?_
    rintro c rest rfl hd
    obtain ⟨c', g1, g2, g3, g4⟩ := (C65_debug rest c).2 code state msg he hd
    exact ⟨c', g1, g2, g3, g4.heard⟩
  | fieldList t w cols theEnd hcols he =>
    refine attempt_ok ?_
    rintro c rest rfl hd
    obtain ⟨c', h1, h2, h3, h4⟩ := C64_field_list_partial t w hc.1 (by have := hc.2; unfold MsgFits at this; omega) cols hcols
      theEnd rest c he hd
    exact ⟨c', h1, h2, h3, h4.heard⟩
  | fieldListRefused t w code state msg he =>
    refine attempt_err ?_
    rintro c rest rfl hd
    obtain ⟨c', h1, h2, h3, h4⟩ := C64_err t w hc.1 (by have := hc.2; unfold MsgFits at this; omega) [] (by simp) code state msg
      rest c he hd
    exact ⟨c', h1, h2, h3, h4.heard⟩
  | rows cols w s rows term h ha =>
    cases ask <;> simp only [Spec.asksText, Option.some.injEq, reduceCtorEq] at h <;> subst h
    · simp only [Ask.perform, info_eq]
      exact attempt_ok (sends_then sendInfo (textSet_exchanges caps cols w s rows term ha))
    · simp only [Ask.perform, qry_eq]
      exact attempt_ok (sends_then (sends_query caps _ hc) (textSet_exchanges caps cols w s rows term ha))
  | noRows f h hf =>
    have key : Exchanges caps (do let rs ← newResultSet none; rs.all rs.textRow) [Spec.okPacket caps 0 f] [] [] :=
      Exchanges.bind (newResultSet_ok caps none f hf) (all_completed caps ResultSet.textRow none)
    cases ask <;> simp only [Spec.asksText, Option.some.injEq, reduceCtorEq] at h <;> subst h
    · simp only [Ask.perform, info_eq]
      exact attempt_ok (f := Outcome.text) (sends_then sendInfo key)
    · simp only [Ask.perform, qry_eq]
      exact attempt_ok (f := Outcome.text) (sends_then (sends_query caps _ hc) key)
  | queryRefused code state msg h he =>
    have key : Denies caps (do let rs ← newResultSet none; rs.all rs.textRow) _ _ _ :=
      denies_bind (newResultSet_err caps none code state msg he)
    cases ask <;> simp only [Spec.asksText, Option.some.injEq, reduceCtorEq] at h <;> subst h
    · simp only [Ask.perform, info_eq]
      exact attempt_err (sends_then_err (next := fun _ => (do let rs ← newResultSet none; rs.all rs.textRow)) sendInfo key)
    · simp only [Ask.perform, qry_eq]
      exact attempt_err (sends_then_err (next := fun _ => (do let rs ← newResultSet none; rs.all rs.textRow))
        (sends_query caps _ hc) key)
  | binlogFiles cols w s rows term ha files hf =>
    refine attempt_ok ?_
    rintro c rest rfl hd
    obtain ⟨c', h1, h2, h3, h4⟩ := C72_binlog_files ha files hf rest hd
    exact ⟨c', h1, h2, h3, h4.heard⟩
  | prepare q p hid hwn params cols hpl hcl hps hcs w1 s1 w2 s2 hw1 hs1 hw2 hs2 =>
    refine attempt_ok ?_
    rintro c rest rfl hd
    obtain ⟨c', h1, h2, h3, h4⟩ := C50_prepare_partial q (fits hc) p hid hwn params cols hpl hcl hps hcs w1 s1 w2 s2 hw1 hs1
      hw2 hs2 rest c hd
    exact ⟨c', h1, h2, h3, h4.heard⟩
  | prepareRefused q code state msg he =>
    refine attempt_err ?_
    rintro c rest rfl hd
    obtain ⟨c', h1, h2, h3, h4⟩ := C50_prepare_err q (fits hc) code he.code_lt state msg he.state_len he.state_utf8 he.msg_utf8
      rest c hd
    exact ⟨c', h1, h2, h3, h4.heard⟩
  | stmtRows st params cols w s rows term h0 hl hs hw hst hr ht =>
    obtain ⟨h1, h2, h3⟩ := hc
    simp only [Ask.perform, stmtQry_eq]
    exact attempt_ok (sends_then (sends_execute caps st params h1 h2 h3)
      (binSet_exchanges caps _ cols w s rows term h0 hl hs hw hst hr ht))
  | stmtNoRows st params f hf =>
    obtain ⟨h1, h2, h3⟩ := hc
    simp only [Ask.perform, stmtQry_eq]
    exact attempt_ok (f := Outcome.binary) (sends_then (sends_execute caps st params h1 h2 h3)
      (Exchanges.bind (newResultSet_ok caps _ f hf) (all_completed caps ResultSet.binaryRow _)))
  | stmtRefused st params code state msg he =>
    obtain ⟨h1, h2, h3⟩ := hc
    simp only [Ask.perform, stmtQry_eq]
    exact attempt_err (sends_then_err (next := fun _ => (do
        let rs ← newResultSet (some st.stmtId); rs.all rs.binaryRow))
      (sends_execute caps st params h1 h2 h3) (denies_bind (newResultSet_err caps _ code state msg he)))
  | stmtClose st =>
    refine attempt_ok (f := fun _ => Outcome.done) (a := ()) ?_
    rintro c rest rfl hd
    obtain ⟨c', a1, a2, a3, a4⟩ := stmtClose_spec st hc c
    exact ⟨c', a1, a2.trans (Delivers.nil hd), a3, a4.heard⟩
  | sets id msgs f h ha hf =>
    obtain ⟨run, e, h1, h2⟩ := sets_by ask hc _ _ h
    obtain ⟨warnings, w, s, param, g1, g2, g3, g4, g5, rfl⟩ := ha
    rw [e]
    refine attempt_ok (f := fun _ => Outcome.done) (a := ()) ?_
    rintro c rest rfl hd
    obtain ⟨e, k1, k2⟩ := h1 ⟨id, warnings⟩ g1 g2 param g5 w s g3 g4
    obtain ⟨c', d1, d2, d3, d4⟩ := (k2 (one h2) rest c).1 f hf hd
    exact ⟨c', d1, d2, d3, d4.heard k1⟩
  | setRefused id msgs code state msg h ha he =>
    obtain ⟨run, e, h1, h2⟩ := sets_by ask hc _ _ h
    obtain ⟨warnings, w, s, param, g1, g2, g3, g4, g5, rfl⟩ := ha
    rw [e]
    refine attempt_err (f := fun _ => Outcome.done) ?_
    rintro c rest rfl hd
    obtain ⟨e, k1, k2⟩ := h1 ⟨id, warnings⟩ g1 g2 param g5 w s g3 g4
    obtain ⟨c', d1, d2, d3, d4⟩ := (k2 (one h2) rest c).2.1 code state msg he hd
    exact ⟨c', d1, d2, d3, d4.heard k1⟩
  | setNotPrepared code state msg h he =>
    obtain ⟨run, e, h1, h2⟩ := sets_by ask hc _ _ h
    rw [e]
    refine attempt_err (f := fun _ => Outcome.done) ?_
    rintro c rest rfl hd
    obtain ⟨e, k1, k2⟩ := h1 ⟨0, 0⟩ (by norm_num) (by norm_num) (exampleTextDef, .varString) exampleText_supported 0 0
      (by norm_num) (by norm_num)
    obtain ⟨c', d1, d2, d3, d4⟩ := (k2 (one h2) rest c).2.2 code state msg he hd
    exact ⟨c', d1, d2, d3, d4.heard⟩
  | getVar conv global name cols w s rows term got h2 ha ht =>
    rintro c rest rfl hd
    obtain ⟨c', g1, g2, g3, g4⟩ := C70_get_var conv name global hc h2 ha rest hd
    exact told_reads _ conv _ got ht c c' g4 rest _ ⟨g1, g2, g3.heard⟩
  | getUserVar conv name cols w s rows term got ha ht =>
    rintro c rest rfl hd
    obtain ⟨c', g1, g2, g3, g4⟩ := C70_get_user_var conv name hc ha rest hd
    exact told_reads _ conv _ got ht c c' g4 rest _ ⟨g1, g2, g3.heard⟩

/-- C84: for every application, however it chooses its calls from what it got before, and every history of answers of a
server that follows the protocol, however the answers are cut into packets: each call gets the answer to it, the server
hears exactly the messages of the calls, in order, and nothing is left unread but what follows. Missing: `change_user`,
`set_multi_stmts`, refused pings, rows that are not all read, several result sets, and answers of rows to `exec`. -/
theorem C84_session_partial (app : List Outcome → Option Ask) (caps : Nat) (hist : List Spec.Event84)
    (h : Spec.IsHistory caps app [] hist) (c : Conn) (hcaps : c.caps = caps) (rest : Bytes)
    (hd : Spec.Delivers c.inp (hist.map (·.msgs)).flatten rest) :
    ∃ c', session app hist.length [] c = .ok (hist.map (·.got)) c' ∧ c'.inp = rest ∧
      Spec.Heard caps c.out c'.out (hist.map (·.said)).flatten := by
  have key : ∀ (hist : List Spec.Event84) (got : List Outcome), Spec.IsHistory caps app got hist →
      Exchanges caps (session app hist.length got) (hist.map (·.msgs)).flatten (got ++ hist.map (·.got))
        (hist.map (·.said)).flatten := by
    intro hist
    induction hist with
    | nil =>
      intro got _
      simpa [session] using Exchanges.pure caps got
    | cons e es ih =>
      intro got h
      obtain ⟨h1, h2, h3, h4⟩ := h
      have := Exchanges.bind (f := fun o => session app es.length (got ++ [o])) (exchange_performs caps _ _ _ _ h2 h3)
        (ih _ h4)
      simp only [List.map_cons, List.flatten_cons, List.length_cons, session, h1]
      simpa using this
  obtain ⟨c', h1, h2, -, h3⟩ := key hist [] h c rest hcaps hd
  exact ⟨c', h1, h2, h3⟩

/-- an application that prepares a statement, executes what it got, asks for text rows, sets a variable to the number of
rows it got, and pings -/
def exampleApp : List Outcome → Option Ask
  | [] => some (.prepare (Spec.ascii "select a from t where id > ?"))
  | [.stmt st] => some (.stmtQuery st [.newUnsignedBigint 5])
  | [_, .binary rows] => some (.setUserVar (Spec.ascii "n") (.newUnsignedBigint rows.length))
  | [_, _, .done] => some (.query (Spec.ascii "select 1"))
  | [_, _, _, .failed _] => some .ping
  | _ => none

def exampleHistory : List Spec.Event84 :=
  [⟨.prepare (Spec.ascii "select a from t where id > ?"), [.command (.stmtPrepare (Spec.ascii "select a from t where id > ?"))],
      Spec.prepareResponse (2 ^ 9) ⟨7, 0⟩ [exampleTextDef] [exampleDef 8] 0 2 0 2,
      .stmt ⟨7, clientDefs [(exampleDef 8, .longLong)], clientDefs [(exampleTextDef, .varString)], 0⟩⟩,
    ⟨.stmtQuery ⟨7, clientDefs [(exampleDef 8, .longLong)], clientDefs [(exampleTextDef, .varString)], 0⟩
        [.newUnsignedBigint 5],
      [.execute 7 [Spec.serverParam (.newUnsignedBigint 5)]],
      Spec.resultSetHead (2 ^ 9) [exampleDef 8] 0 2 ++
        ([⟨[⟨.longLong, none, []⟩], [4]⟩, ⟨[⟨.longLong, none, []⟩], [4]⟩].map Spec.BinRow.bytes ++ [Spec.eofPacket (2 ^ 9) 0 2]),
      .binary ([⟨[⟨.longLong, none, []⟩], [4]⟩, ⟨[⟨.longLong, none, []⟩], [4]⟩].map Spec.BinRow.values)⟩,
    ⟨.setUserVar (Spec.ascii "n") (.newUnsignedBigint 2),
      [.command (.stmtPrepare (Spec.ascii "SET @" ++ Spec.ascii "n" ++ Spec.ascii " = ?")),
        .execute 8 [Spec.serverParam (.newUnsignedBigint 2)], .command (.stmtClose 8)],
      Spec.prepareResponse (2 ^ 9) ⟨8, 0⟩ [exampleTextDef] [] 0 2 0 0 ++ [Spec.okPacket (2 ^ 9) 0 ⟨0, 0, 2, 0, [], []⟩],
      .done⟩,
    ⟨.query (Spec.ascii "select 1"), [.command (.query (Spec.ascii "select 1"))],
      [refusalMsg (2 ^ 9) 1046 (Spec.ascii "3D000") (Spec.ascii "No database selected")],
      refusal (2 ^ 9) 1046 (Spec.ascii "3D000") (Spec.ascii "No database selected")⟩,
    ⟨.ping, [.command .ping], [Spec.okPacket (2 ^ 9) 0 ⟨0, 0, 2, 0, [], []⟩], .done⟩]

example : Spec.IsHistory (2 ^ 9) exampleApp [] exampleHistory ∧
    ∃ c : Conn, c.caps = 2 ^ 9 ∧ Spec.Delivers c.inp (exampleHistory.map (·.msgs)).flatten [9] := by
  have hsup : Spec.Supported (exampleDef 8, .longLong) := by
    refine ⟨?_, by decide⟩
    constructor <;> first | (exact ⟨by decide, by decide⟩) | (exact (by decide))
  have hrow : (⟨[⟨.longLong, none, []⟩], [4]⟩ : Spec.BinRow).Ok [.longLong] := by
    refine ⟨?_, rfl, rfl, ?_⟩
    · intro c hc
      simp only [List.mem_cons, List.not_mem_nil, or_false] at hc
      subst hc
      rfl
    · intro i c h
      match i, h with
      | 0, h => cases h; rfl
      | i + 1, h => cases h
  have hpf : ∀ n < 2 ^ 64, ParamsFit [.newUnsignedBigint n] := by
    intro n hn
    unfold ParamsFit MsgFits
    simp [StmtColumnValue.newUnsignedBigint, BinaryColumnValue.writeTo, writeLeU64]
  refine ⟨⟨rfl, by unfold Ask.Carried MsgFits; decide +kernel, ?_, rfl, ?_, ?_, rfl, ?_, ?_, rfl, ?_, ?_, rfl, trivial, ?_,
    trivial⟩, ?_⟩
  · exact .prepare _ ⟨7, 0⟩ (by norm_num) (by norm_num) [(exampleTextDef, .varString)] [(exampleDef 8, .longLong)]
      (by norm_num) (by norm_num) (by simpa using exampleText_supported) (by simpa using hsup) 0 2 0 2 (by norm_num)
      (by norm_num) (by norm_num) (by norm_num)
  · exact ⟨by norm_num, by simpa using bigint_sound 5 (by norm_num), hpf 5 (by norm_num)⟩
  · exact .stmtRows _ _ [(exampleDef 8, .longLong)] 0 2 [⟨[⟨.longLong, none, []⟩], [4]⟩, ⟨[⟨.longLong, none, []⟩], [4]⟩] _
      (by simp) (by norm_num) (by simpa using hsup) (by norm_num) (by norm_num) (by simpa using hrow)
      ⟨0, 2, by norm_num, by norm_num, rfl⟩
  · exact ⟨by unfold MsgFits; decide +kernel, bigint_sound 2 (by norm_num), hpf 2 (by norm_num)⟩
  · exact .sets 8 _ ⟨0, 0, 2, 0, [], []⟩ rfl ⟨0, 0, 2, (exampleTextDef, .varString), by norm_num, by norm_num, by norm_num,
      by norm_num, exampleText_supported, rfl⟩ (by constructor <;> norm_num)
  · unfold Ask.Carried MsgFits; decide +kernel
  · exact .queryRefused 1046 _ _ rfl ⟨by norm_num, by decide +kernel, by decide +kernel, by decide +kernel⟩
  · exact .ping ⟨0, 0, 2, 0, [], []⟩ (by constructor <;> norm_num)
  · obtain ⟨inp, hd⟩ := delivers_small (exampleHistory.map (·.msgs)).flatten [9] (by decide +kernel)
    exact ⟨⟨inp, [], 0, 2 ^ 9, 0⟩, rfl, hd⟩

end Mybin
