/-
C84: a whole session, with more of the API: the ways to read rows, executing and closing in one call, multiple
statements, changing the user, and errors of the server wherever it may send one.
-/
import Verif.Props.C84
import Verif.Props.C59_C60

namespace Mybin

/-- how an application reads the rows of a result set: `all`, `first`, `first_or_none`, `count`, or `next_row` up to the
end and then `close` -/
inductive Taking where
  | all
  | first
  | firstOrNone
  | count
  | closing

/-- the calls of an application on one connection -/
inductive Step where
  | basic (a : Ask)
  | query (q : Bytes) (how : Taking)
  | processInfo (how : Taking)
  | stmtQuery (st : PreparedStmt) (params : List StmtColumnValue) (how : Taking)
  | stmtExecClose (st : PreparedStmt) (params : List StmtColumnValue)
  | setMultiStmts (multi : Bool)
  | changeUser (user password db : Bytes) (attrs : List (Bytes × Bytes))

/-- what a call returns -/
inductive Reply where
  | basic (o : Outcome)
  | textRow (row : Option (List (Option Bytes)))
  | binaryRow (row : Option (List BinaryColumnValue))
  | count (n : Nat)

/-- the outcome of a call, as a value -/
def attempted {α : Type} (run : M α) (f : α → Reply) : M Reply := fun c =>
  match run c with
  | .ok a c' => .ok (f a) c'
  | .err e c' => .ok (.basic (.failed e)) c'
  | .panic => .panic
  | .hang => .hang

/-- reading the rows; `next_row` up to the end is what `all` does, and `close` depends on the statement only -/
def takeRows {ρ : Type} (read : P ρ) (rows : List ρ → Reply) (row : Option ρ → Reply) (rs : ResultSet) : Taking → M Reply
  | .all => attempted (rs.all read) rows
  | .first => attempted (rs.first read) fun r => row (some r)
  | .firstOrNone => attempted (rs.firstOrNone read) row
  | .count => attempted (rs.count read) .count
  | .closing => attempted (do let l ← rs.all read; let _ ← rs.close; return l) rows

/-- the calls of the library; `H` are the hash functions -/
def Step.perform (H : Hashes) : Step → M Reply
  | .basic a => attempted a.perform .basic
  | .query q how => fun c =>
    match Query.qry q c with
    | .ok rs c' => takeRows rs.textRow (fun l => .basic (.text l)) .textRow rs how c'
    | .err e c' => .ok (.basic (.failed e)) c'
    | .panic => .panic
    | .hang => .hang
  | .processInfo how => fun c =>
    match Cmd.processInfo c with
    | .ok rs c' => takeRows rs.textRow (fun l => .basic (.text l)) .textRow rs how c'
    | .err e c' => .ok (.basic (.failed e)) c'
    | .panic => .panic
    | .hang => .hang
  | .stmtQuery st ps how => fun c =>
    match st.qry ps c with
    | .ok rs c' => takeRows rs.binaryRow (fun l => .basic (.binary l)) .binaryRow rs how c'
    | .err e c' => .ok (.basic (.failed e)) c'
    | .panic => .panic
    | .hang => .hang
  | .stmtExecClose st ps => attempted (st.execClose ps) fun _ => .basic .done
  | .setMultiStmts multi => attempted (Cmd.setMultiStmts multi) fun _ => .basic .done
  | .changeUser user password db attrs =>
    attempted (Mybin.changeUser H user password db (attrs.map fun (k, v) => ⟨k, v⟩)) fun _ => .basic .done

/-- an application decides what to call next from the replies so far; `n` bounds the number of calls -/
def talk (H : Hashes) (app : List Reply → Option Step) : Nat → List Reply → M (List Reply)
  | 0, got => pure got
  | n + 1, got =>
    match app got with
    | none => pure got
    | some s => do
      let o ← s.perform H
      talk H app n (got ++ [o])

/-! ### the protocol -/

/-- one message of a client: one of `Said`, which begins a new exchange, or a proof that it knows the password of an
account, given as the server stores it, for a nonce the server has sent -/
inductive Spec.Voice where
  | says (s : Spec.Said)
  | proves (stored nonce : Bytes)

/-- the packets `ps` are this message, for a server that has agreed on the flags `caps`; a proof is the third message of
its exchange and numbered so -/
def Spec.Voiced (sha1 : Bytes → Bytes) (caps : Nat) (ps : List Spec.Packet) : Spec.Voice → Prop
  | .says s => Spec.IsMessage ps ∧ Spec.Numbered 0 ps ∧ Spec.Hears caps (Spec.payload ps) s
  | .proves stored nonce => Spec.IsMessage ps ∧ Spec.Numbered 2 ps ∧ Spec.nativeAccepts sha1 stored nonce (Spec.payload ps)

/-- the bytes `sent` are exactly these messages, each for the flags it comes with -/
def Spec.AllVoiced (sha1 : Bytes → Bytes) (sent : Bytes) (said : List (Nat × Spec.Voice)) : Prop :=
  ∃ runs : List (List Spec.Packet), sent = (runs.map Spec.wire).flatten ∧
    List.Forall₂ (fun r v => Spec.Voiced sha1 v.1 r v.2) runs said

/-- what an application gets that reads the rows in the way `how` -/
def Spec.taken {ρ : Type} (rows : List ρ → Reply) (row : Option ρ → Reply) (l : List ρ) : Taking → Reply
  | .all | .closing => rows l
  | .first => match l.head? with
    | some r => row (some r)
    | none => .basic (.failed .emptyResultSet)
  | .firstOrNone => row l.head?
  | .count => .count l.length

/-- the calls that read text rows, with the command the server has to hear -/
def Spec.takesText : Step → Option (Spec.ServerCmd × Taking)
  | .query q how => some (.query q, how)
  | .processInfo how => some (.processInfo, how)
  | _ => none

/-- the calls of C84 that read a text result set, with the query the server has to hear -/
def Spec.asksQuery : Ask → Option Bytes
  | .binlogFiles => some (Spec.ascii "SHOW MASTER LOGS")
  | .getVar _ global name => some (Spec.showVariable global name)
  | .getUserVar _ name => some (Spec.ascii "SELECT @" ++ name)
  | _ => none

/-- closing the statement is what follows a reading that closes it -/
def Spec.thenClose (id : Nat) : Taking → List Spec.Voice
  | .closing => [.says (.command (.stmtClose id))]
  | _ => []

/-- the calls whose arguments the protocol can carry -/
def Step.Carried : Step → Prop
  | .basic a => a.Carried
  | .query q _ => MsgFits q.length
  | .stmtQuery st ps _ | .stmtExecClose st ps => st.stmtId < 2 ^ 32 ∧ (∀ p ∈ ps, p.Sound) ∧ ParamsFit ps
  | .processInfo _ | .setMultiStmts _ => True
  | .changeUser user _ db attrs => (0 : UInt8) ∉ user ∧ (0 : UInt8) ∉ db ∧
      (∀ kv ∈ attrs, kv.1.length ≠ 251 ∧ kv.2.length ≠ 251) ∧ (Spec.attrBytes attrs).length ≠ 251 ∧
      (∀ kv ∈ attrs, kv.1.length < 2 ^ 64 ∧ kv.2.length < 2 ^ 64) ∧
      user.length + db.length + (Spec.attrBytes attrs).length < 2 ^ 31

/-- the command that changes the user; no proof comes with it -/
def Spec.changeUserCmd (caps : Nat) (user db : Bytes) (attrs : List (Bytes × Bytes)) : Spec.ServerCmd :=
  .changeUser user [] db 33 (if caps.testBit Spec.PLUGIN_AUTH then Spec.ascii "mysql_native_password" else [])
    (if caps.testBit Spec.CONNECT_ATTRS then attrs else [])

/-- the bytes `inp` are these messages, cut into packets in any way and with any packet numbers -/
def Spec.Sends (inp : Bytes) (msgs : List Bytes) : Prop := Spec.Delivers inp msgs []

/-- One call by the documented protocol: `Spec.Turn H caps step said inp got caps'` says that the server, having heard
`said`, may answer with the bytes `inp`, that the application then has to get `got`, and that the flags are `caps'` from
then on. -/
inductive Spec.Turn (sha1 : Bytes → Bytes) (caps : Nat) : Step → List Spec.Voice → Bytes → Reply → Nat → Prop
  /-- the calls of C84 -/
  | basic {ask said msgs inp got} (h : Spec.Exchange caps ask said msgs got) (hi : Spec.Sends inp msgs) :
      Spec.Turn sha1 caps (.basic ask) (said.map .says) inp (.basic got) caps
  /-- and an error in answer to the query of one of them -/
  | basicRefused {ask q inp} (code : Nat) (state msg : Bytes) (h : Spec.asksQuery ask = some q)
      (he : Spec.ErrOk code state msg) (hi : Spec.Sends inp [refusalMsg caps code state msg]) :
      Spec.Turn sha1 caps (.basic ask) [.says (.command (.query q))] inp (.basic (refusal caps code state msg)) caps
  /-- a query answered by rows, OK or ERR -/
  | rows {step cmd how inp} (cols : List (Spec.ColDef × ColumnType)) (w s : Nat) (rows : List (List (Option Bytes)))
      (term : Bytes) (h : Spec.takesText step = some (cmd, how)) (ha : Spec.AnswerOk caps cols w s rows term)
      (hi : Spec.Sends inp (Spec.textAnswer caps (cols.map (·.1)) w s rows term)) :
      Spec.Turn sha1 caps step [.says (.command cmd)] inp (Spec.taken (fun l => .basic (.text l)) .textRow rows how) caps
  | noRows {step cmd how inp} (f : Spec.OkFields) (h : Spec.takesText step = some (cmd, how)) (hf : f.InRange)
      (hi : Spec.Sends inp [Spec.okPacket caps 0 f]) :
      Spec.Turn sha1 caps step [.says (.command cmd)] inp (Spec.taken (fun l => .basic (.text l)) .textRow [] how) caps
  | rowsRefused {step cmd how inp} (code : Nat) (state msg : Bytes) (h : Spec.takesText step = some (cmd, how))
      (he : Spec.ErrOk code state msg) (hi : Spec.Sends inp [refusalMsg caps code state msg]) :
      Spec.Turn sha1 caps step [.says (.command cmd)] inp (.basic (refusal caps code state msg)) caps
  /-- executing a prepared statement, answered by binary rows, OK or ERR -/
  | stmtRows {inp} (st : PreparedStmt) (params : List StmtColumnValue) (how : Taking) (cols : List (Spec.ColDef × ColumnType))
      (w s : Nat) (rows : List Spec.BinRow) (term : Bytes) (h0 : cols ≠ []) (hl : cols.length < 2 ^ 32)
      (hs : ∀ dc ∈ cols, Spec.Supported dc) (hw : w < 2 ^ 16) (hst : s < 2 ^ 15)
      (hr : ∀ r ∈ rows, r.Ok (cols.map (·.2))) (ht : Spec.IsTerminator caps term)
      (hi : Spec.Sends inp (Spec.resultSetHead caps (cols.map (·.1)) w s ++ (rows.map (·.bytes) ++ [term]))) :
      Spec.Turn sha1 caps (.stmtQuery st params how)
        (.says (.execute st.stmtId (params.map Spec.serverParam)) :: Spec.thenClose st.stmtId how) inp
        (Spec.taken (fun l => .basic (.binary l)) .binaryRow (rows.map (·.values)) how) caps
  | stmtNoRows {inp} (st : PreparedStmt) (params : List StmtColumnValue) (how : Taking) (f : Spec.OkFields) (hf : f.InRange)
      (hi : Spec.Sends inp [Spec.okPacket caps 0 f]) :
      Spec.Turn sha1 caps (.stmtQuery st params how)
        (.says (.execute st.stmtId (params.map Spec.serverParam)) :: Spec.thenClose st.stmtId how) inp
        (Spec.taken (fun l => .basic (.binary l)) .binaryRow [] how) caps
  | stmtRefused {inp} (st : PreparedStmt) (params : List StmtColumnValue) (how : Taking) (code : Nat) (state msg : Bytes)
      (he : Spec.ErrOk code state msg) (hi : Spec.Sends inp [refusalMsg caps code state msg]) :
      Spec.Turn sha1 caps (.stmtQuery st params how) [.says (.execute st.stmtId (params.map Spec.serverParam))] inp
        (.basic (refusal caps code state msg)) caps
  /-- executing and closing a statement; it is closed after an error, too -/
  | execClose {inp} (st : PreparedStmt) (params : List StmtColumnValue) (f : Spec.OkFields) (hf : f.InRange)
      (hi : Spec.Sends inp [Spec.okPacket caps 0 f]) :
      Spec.Turn sha1 caps (.stmtExecClose st params)
        [.says (.execute st.stmtId (params.map Spec.serverParam)), .says (.command (.stmtClose st.stmtId))] inp
        (.basic .done) caps
  | execCloseRefused {inp} (st : PreparedStmt) (params : List StmtColumnValue) (code : Nat) (state msg : Bytes)
      (he : Spec.ErrOk code state msg) (hi : Spec.Sends inp [refusalMsg caps code state msg]) :
      Spec.Turn sha1 caps (.stmtExecClose st params)
        [.says (.execute st.stmtId (params.map Spec.serverParam)), .says (.command (.stmtClose st.stmtId))] inp
        (.basic (refusal caps code state msg)) caps
  /-- multiple statements; the operand the server hears is not said here, as it is the wrong one (C65) -/
  | setMultiStmts {inp} (multi : Bool) (op : Nat) (m : Bytes) (caps' : Nat) (hm : Spec.IsCommandEnd caps m)
      (hop : op < 2) (hne : op ≠ if multi then 0 else 1) (hi : Spec.Sends inp [m])
      (hc : Spec.FlagSet Spec.MULTI_STATEMENTS multi caps caps') :
      Spec.Turn sha1 caps (.setMultiStmts multi) [.says (.command (.setOption op))] inp (.basic .done) caps'
  | multiRefused {inp} (multi : Bool) (op : Nat) (code : Nat) (state msg : Bytes) (he : Spec.ErrOk code state msg)
      (hop : op < 2) (hne : op ≠ if multi then 0 else 1) (hi : Spec.Sends inp [refusalMsg caps code state msg]) :
      Spec.Turn sha1 caps (.setMultiStmts multi) [.says (.command (.setOption op))] inp
        (.basic (refusal caps code state msg)) caps
  /-- changing the user: at once, or after a proof; or refused, at once or after a proof -/
  | changeUser {inp} (user password db : Bytes) (attrs : List (Bytes × Bytes)) (f : Spec.OkFields) (hf : f.InRange)
      (hi : Spec.Sends inp [Spec.okPacket caps 0 f]) :
      Spec.Turn sha1 caps (.changeUser user password db attrs)
        [.says (.command (Spec.changeUserCmd caps user db attrs))] inp (.basic .done) caps
  | changeUserProved {inp} (user password db : Bytes) (attrs : List (Bytes × Bytes)) (nonce : Bytes)
      (hn : nonce.length < 1000) (f : Spec.OkFields) (hf : f.InRange) (hi : Spec.Sends inp [Spec.okPacket caps 0 f]) :
      Spec.Turn sha1 caps (.changeUser user password db attrs)
        [.says (.command (Spec.changeUserCmd caps user db attrs)), .proves (Spec.stored sha1 password) nonce]
        (Spec.wire [⟨1, Spec.authSwitch (Spec.ascii "mysql_native_password") (nonce ++ [0])⟩] ++ inp) (.basic .done) caps
  | changeUserRefused {inp} (user password db : Bytes) (attrs : List (Bytes × Bytes)) (code : Nat) (state msg : Bytes)
      (he : Spec.ErrOk code state msg) (h41 : caps.testBit Spec.PROTOCOL_41 = true)
      (hi : Spec.Sends inp [Spec.errPacket true code state msg]) :
      Spec.Turn sha1 caps (.changeUser user password db attrs)
        [.says (.command (Spec.changeUserCmd caps user db attrs))] inp (.basic (.failed (.sql code state msg))) caps
  | changeUserProvedRefused {inp} (user password db : Bytes) (attrs : List (Bytes × Bytes)) (nonce : Bytes)
      (hn : nonce.length < 1000) (code : Nat) (state msg : Bytes) (he : Spec.ErrOk code state msg)
      (h41 : caps.testBit Spec.PROTOCOL_41 = true) (hi : Spec.Sends inp [Spec.errPacket true code state msg]) :
      Spec.Turn sha1 caps (.changeUser user password db attrs)
        [.says (.command (Spec.changeUserCmd caps user db attrs)), .proves (Spec.stored sha1 password) nonce]
        (Spec.wire [⟨1, Spec.authSwitch (Spec.ascii "mysql_native_password") (nonce ++ [0])⟩] ++ inp)
        (.basic (.failed (.sql code state msg))) caps

/-- one call in the history of a session: the flags before it, the call, what the server has to hear, what it answers and
what the application has to get -/
structure Spec.Talk where
  caps : Nat
  step : Step
  said : List Spec.Voice
  inp : Bytes
  got : Reply

/-- a history of `app` with a server that follows the protocol; `got` are the replies before it -/
def Spec.IsTalk (sha1 : Bytes → Bytes) (app : List Reply → Option Step) : Nat → List Reply → List Spec.Talk → Prop
  | _, _, [] => True
  | caps, got, t :: ts => t.caps = caps ∧ app got = some t.step ∧ t.step.Carried ∧
      ∃ caps', Spec.Turn sha1 caps t.step t.said t.inp t.got caps' ∧ Spec.IsTalk sha1 app caps' (got ++ [t.got]) ts

/-! ### each call -/

/-- on a connection with the flags `caps` whose server sends `inp`, `run` returns `a`, having read exactly those bytes and
sent exactly the messages `said`, and the flags are then `caps'` -/
def Passes {α : Type} (sha1 : Bytes → Bytes) (caps caps' : Nat) (run : M α) (inp : Bytes) (a : α) (said : List Spec.Voice) :
    Prop :=
  ∀ (c : Conn) (rest : Bytes), c.caps = caps → c.inp = inp ++ rest →
    ∃ c' sent, run c = .ok a c' ∧ c'.inp = rest ∧ c'.caps = caps' ∧ c'.out = c.out ++ sent ∧
      Spec.AllVoiced sha1 sent (said.map fun v => (caps, v))

theorem sends_delivers {inp : Bytes} {msgs : List Bytes} (h : Spec.Sends inp msgs) (rest : Bytes) :
    Spec.Delivers (inp ++ rest) msgs rest := by
  obtain ⟨runs, h1, h2, h3⟩ := h
  exact ⟨runs, h1, h2, by rw [h3]; simp⟩

theorem heard_voiced {sha1 : Bytes → Bytes} {caps : Nat} {a b : Bytes} {said : List Spec.Said} (h : Spec.Heard caps a b said) :
    ∃ sent, b = a ++ sent ∧ Spec.AllVoiced sha1 sent ((said.map Spec.Voice.says).map fun v => (caps, v)) := by
  obtain ⟨runs, h1, h2, h3⟩ := h
  refine ⟨_, h2, runs, rfl, ?_⟩
  rw [List.map_map, List.forall₂_map_right_iff]
  clear h2
  induction h3 with
  | nil => exact .nil
  | cons h _ ih =>
    exact .cons ⟨(h1 _ (by simp)).1, (h1 _ (by simp)).2, h⟩ (ih fun r hr => h1 r (by simp [hr]))

theorem allVoiced_append {sha1 : Bytes → Bytes} {s t : Bytes} {v w : List (Nat × Spec.Voice)}
    (h1 : Spec.AllVoiced sha1 s v) (h2 : Spec.AllVoiced sha1 t w) : Spec.AllVoiced sha1 (s ++ t) (v ++ w) := by
  obtain ⟨r1, rfl, h1⟩ := h1
  obtain ⟨r2, rfl, h2⟩ := h2
  exact ⟨r1 ++ r2, by simp, List.rel_append h1 h2⟩

theorem Exchanges.passes {α : Type} {sha1 : Bytes → Bytes} {caps : Nat} {run : M α} {msgs : List Bytes} {a : α}
    {said : List Spec.Said} (h : Exchanges caps run msgs a said) {inp : Bytes} (hi : Spec.Sends inp msgs) :
    Passes sha1 caps caps run inp a (said.map .says) := by
  intro c rest hc hin
  obtain ⟨c', h1, h2, h3, h4⟩ := h c rest hc (hin ▸ sends_delivers hi rest)
  obtain ⟨sent, h5, h6⟩ := heard_voiced (sha1 := sha1) h4
  exact ⟨c', sent, h1, h2, h3, h5, h6⟩

theorem attempted_ok {α : Type} {caps : Nat} {run : M α} {f : α → Reply} {msgs : List Bytes} {a : α}
    {said : List Spec.Said} (h : Exchanges caps run msgs a said) : Exchanges caps (attempted run f) msgs (f a) said := by
  intro c rest hc hd
  obtain ⟨c', h1, h2⟩ := h c rest hc hd
  exact ⟨c', by unfold attempted; rw [h1], h2⟩

theorem attempted_err {α : Type} {caps : Nat} {run : M α} {f : α → Reply} {msgs : List Bytes} {e : Err}
    {said : List Spec.Said} (h : Denies caps run msgs e said) :
    Exchanges caps (attempted run f) msgs (.basic (.failed e)) said := by
  intro c rest hc hd
  obtain ⟨c', h1, h2⟩ := h c rest hc hd
  exact ⟨c', by unfold attempted; rw [h1], h2⟩

/-- opening a result set, and what is done with it -/
def opening (run : M ResultSet) (next : ResultSet → M Reply) : M Reply := fun c =>
  match run c with
  | .ok rs c' => next rs c'
  | .err e c' => .ok (.basic (.failed e)) c'
  | .panic => .panic
  | .hang => .hang

theorem opening_ok {caps : Nat} {run : M ResultSet} {next : ResultSet → M Reply} {m1 m2 : List Bytes} {rs : ResultSet}
    {s1 s2 : List Spec.Said} {got : Reply} (h1 : Exchanges caps run m1 rs s1) (h2 : Exchanges caps (next rs) m2 got s2) :
    Exchanges caps (opening run next) (m1 ++ m2) got (s1 ++ s2) := by
  intro c rest hc hd
  obtain ⟨mid, d1, d2⟩ := Delivers.append hd
  obtain ⟨c1, a1, a2, a3, a4⟩ := h1 c mid hc d1
  rw [← a2] at d2
  obtain ⟨c2, b1, b2, b3, b4⟩ := h2 c1 rest a3 d2
  exact ⟨c2, by unfold opening; rw [a1]; exact b1, b2, b3, Heard.append a4 b4⟩

theorem opening_err {caps : Nat} {run : M ResultSet} {next : ResultSet → M Reply} {msgs : List Bytes} {e : Err}
    {said : List Spec.Said} (h : Denies caps run msgs e said) :
    Exchanges caps (opening run next) msgs (.basic (.failed e)) said := by
  intro c rest hc hd
  obtain ⟨c', h1, h2⟩ := h c rest hc hd
  exact ⟨c', by unfold opening; rw [h1], h2⟩

/-- closing a result set of a query sends nothing, of a statement one message -/
theorem close_exchanges (caps : Nat) (rs : ResultSet) (hid : ∀ id, rs.stmtId = some id → id < 2 ^ 32) :
    Exchanges caps rs.close [] { rs with stmtId := none }
      (match rs.stmtId with | some id => [.command (.stmtClose id)] | none => []) := by
  rintro c rest rfl hd
  unfold ResultSet.close
  cases h : rs.stmtId with
  | none =>
    refine ⟨c, ?_, Delivers.nil hd, rfl, Heard.nil _ _⟩
    obtain ⟨_, _, _⟩ := rs
    cases h
    rfl
  | some id =>
    obtain ⟨c', a1, a2, a3, a4⟩ := stmtClose_spec ⟨id, [], [], 0⟩ (hid id h) c
    refine ⟨c', ?_, a2.trans (Delivers.nil hd), a3, a4.heard⟩
    unfold PreparedStmt.close at a1
    dsimp only at a1 ⊢
    rw [M.bind_apply, a1]
    rfl

/-- what is sent after the rows have been read -/
def closeSaid (sid : Option Nat) : Taking → List Spec.Said
  | .closing => match sid with | some id => [.command (.stmtClose id)] | none => []
  | _ => []

theorem take_exchanges {ρ : Type} {caps : Nat} {read : P ρ} {rows : List ρ → Reply} {row : Option ρ → Reply} {rs : ResultSet}
    {ms : List Bytes} {l : List ρ} (hid : ∀ id, rs.stmtId = some id → id < 2 ^ 32)
    (h : ∀ (c : Conn) (rest : Bytes), c.caps = caps → Spec.Delivers c.inp ms rest → Collects read rs l c rest) (how : Taking) :
    Exchanges caps (takeRows read rows row rs how) ms (Spec.taken rows row l how) (closeSaid rs.stmtId how) := by
  have nil : ∀ {c c' : Conn}, c'.out = c.out → Spec.Heard caps c.out c'.out [] := by
    intro c c' e
    rw [e]
    exact Heard.nil _ _
  have hall : Exchanges caps (rs.all read) ms l [] := by
    intro c rest hc hd
    obtain ⟨c', a1, a2, a3, a4⟩ := (h c rest hc hd).all
    exact ⟨c', a1, a2, a4.trans hc, nil a3⟩
  cases how with
  | all => exact attempted_ok hall
  | first =>
    cases hl : l.head? with
    | some r =>
      have : Exchanges caps (rs.first read) ms r [] := by
        intro c rest hc hd
        obtain ⟨c', a1, a2, a3, a4⟩ := (h c rest hc hd).first r hl
        exact ⟨c', a1, a2, a4.trans hc, nil a3⟩
      have := attempted_ok (f := fun r => row (some r)) this
      unfold Spec.taken
      rw [hl]
      exact this
    | none =>
      have : Denies caps (rs.first read) ms .emptyResultSet [] := by
        intro c rest hc hd
        obtain ⟨c', a1, a2, a3, a4⟩ := (h c rest hc hd).firstEmpty (List.head?_eq_none_iff.1 hl)
        exact ⟨c', a1, a2, a4.trans hc, nil a3⟩
      have := attempted_err (f := fun r => row (some r)) this
      unfold Spec.taken
      rw [hl]
      exact this
  | firstOrNone =>
    refine attempted_ok ?_
    intro c rest hc hd
    obtain ⟨c', a1, a2, a3, a4⟩ := (h c rest hc hd).firstOrNone
    exact ⟨c', a1, a2, a4.trans hc, nil a3⟩
  | count =>
    refine attempted_ok ?_
    intro c rest hc hd
    obtain ⟨c', a1, a2, a3, a4⟩ := (h c rest hc hd).count
    exact ⟨c', a1, a2, a4.trans hc, nil a3⟩
  | closing =>
    refine attempted_ok ?_
    have := Exchanges.bind (f := fun l => (do let _ ← rs.close; return l : M (List ρ))) hall
      (Exchanges.bind (f := fun _ => (return l : M (List ρ))) (close_exchanges caps rs hid) (Exchanges.pure caps l))
    simpa [closeSaid] using this

/-- a result set that is complete from the start has no rows -/
theorem completed_collects {ρ : Type} (read : P ρ) (rs : ResultSet) (h : rs.completed = true) (c : Conn) :
    Collects read rs [] c c.inp := by
  have key : ∀ {σ : Type} (f : σ → ρ → σ) (s : σ), rs.foldRows read f s c = .ok s c := by
    intro σ f s
    rw [ResultSet.foldRows]
    unfold ResultSet.nextRow
    rw [if_pos h]
    rfl
  refine ⟨⟨c, key _ _, rfl, rfl, rfl⟩, ⟨c, key _ _, rfl, rfl, rfl⟩, by simp, fun _ => ⟨c, ?_, rfl, rfl, rfl⟩,
    ⟨c, key _ _, rfl, rfl, rfl⟩⟩
  have : rs.firstOrNone read c = .ok none c := key _ _
  unfold ResultSet.first
  rw [M.bind_apply, this]
  rfl

theorem newResultSet_exchanges (caps : Nat) (sid : Option Nat) (cols : List (Spec.ColDef × ColumnType)) (w s : Nat)
    (h0 : cols ≠ []) (hl : cols.length < 2 ^ 32) (hs : ∀ dc ∈ cols, Spec.Supported dc) (hw : w < 2 ^ 16) (hst : s < 2 ^ 15) :
    Exchanges caps (newResultSet sid) (Spec.resultSetHead caps (cols.map (·.1)) w s) ⟨clientDefs cols, false, sid⟩ [] := by
  rintro c rest rfl hd
  obtain ⟨c2, b1, b2, b3⟩ := newResultSet_spec sid cols h0 hl hs w s hw hst [] rest c (by simpa using hd)
  exact ⟨c2, b1, Delivers.nil b3, b2.caps, by rw [b2.out]; exact Heard.nil _ _⟩

theorem changeUser_passes (H : Hashes) (hH : H.Sized) (caps : Nat) (user password db : Bytes) (attrs : List (Bytes × Bytes))
    (hc : (Step.changeUser user password db attrs).Carried) (nonce : Bytes) (hn : nonce.length < 1000) (c : Conn) (mid : Bytes)
    (hcaps : c.caps = caps)
    (hin : c.inp = Spec.wire [⟨1, Spec.authSwitch (Spec.ascii "mysql_native_password") (nonce ++ [0])⟩] ++ mid) :
    ∃ c' plugin sent, changeUser H user password db (attrs.map fun (k, v) => ⟨k, v⟩) c = changeUserLoop H password plugin c' ∧
      c'.inp = mid ∧ c'.caps = caps ∧ c'.out = c.out ++ sent ∧
      Spec.AllVoiced H.sha1 sent [(caps, .says (.command (Spec.changeUserCmd caps user db attrs))),
        (caps, .proves (Spec.stored H.sha1 password) nonce)] := by
  obtain ⟨hu, hdb, hk, ht, hk', hsz⟩ := hc
  subst hcaps
  unfold Spec.changeUserCmd
  simp only [← nativeName_ascii] at *
  obtain ⟨c0, s1, s2, s3, -, s4⟩ := changeUser_start H user password db attrs hu hdb hk ht hk' hsz c
  have hmsg : Spec.IsMessage [⟨1, Spec.authSwitch nativeName (nonce ++ [0])⟩] := ⟨[], _, rfl, by simp, by
      have : nativeName.length = 21 := by decide
      simp [Spec.authSwitch, Spec.nulStr, Spec.length_u8, this]; omega, by simp⟩
  obtain ⟨nr, r1, r2⟩ := C11_recv_message [⟨1, Spec.authSwitch nativeName (nonce ++ [0])⟩] hmsg mid c0 (by rw [s2]; exact hin)
  have hnr : nr = 2 := r2 _ rfl
  have hpay : Spec.payload [⟨1, Spec.authSwitch nativeName (nonce ++ [0])⟩] = Spec.authSwitch nativeName (nonce ++ [0]) := by
    simp [Spec.payload]
  rw [hpay] at r1
  obtain ⟨pl, resp, pl', a1, a2, a3⟩ := C44_native H hH password nonce
  rw [← nativeName_ascii] at a1
  have hrl : resp.length < 251 := by
    unfold Spec.nativeAccepts at a3
    split at a3
    · rw [a3]; simp
    · rw [a3.1]; norm_num
  obtain ⟨ps, p1, p2, p3, p4⟩ := C12_sent_packets_partial resp false { c0 with inp := mid, pktNr := nr } (by
    rw [if_neg (by simp)]
    show nr + _ < 255
    have : resp.length / 0xffffff = 0 := Nat.div_eq_of_lt (by omega)
    omega)
  have hp := changeUserResponse_switch c0.caps nativeName (nonce ++ [0]) (by decide +kernel) (by decide +kernel)
  have hloop : changeUserLoop H password none c0 = changeUserLoop H password (some pl')
      { c0 with inp := mid, out := c0.out ++ Spec.wire ps, pktNr := nr + ps.length } := by
    rw [changeUserLoop.eq_def, r1]
    simp only [M.parse_ok hp, a1, a2, p4]
    rw [if_pos (by
      rw [s2, hin, List.length_append]
      have := wire_pos hmsg
      omega)]
    simp
  obtain ⟨run, q1, q2, q3, q4⟩ := s4
  refine ⟨_, _, Spec.wire run ++ Spec.wire ps, s1.trans hloop, rfl, s3, ?_, [run, ps], by simp, ?_⟩
  · dsimp only
    rw [q1, List.append_assoc]
  · refine .cons ⟨q2, q3, q4⟩ (.cons ⟨p1, by rw [← hnr]; simpa using p2, by rw [p3]; exact a3⟩ .nil)

theorem changeUserLoop_err (H : Hashes) (password : Bytes) (plugin : Option AuthPlugin) (code : Nat) (state msg : Bytes)
    (he : Spec.ErrOk code state msg) (c : Conn) (h41 : c.caps.testBit Spec.PROTOCOL_41 = true) (rest : Bytes)
    (hd : Spec.Delivers c.inp [Spec.errPacket true code state msg] rest) :
    ∃ c', changeUserLoop H password plugin c = .err (.sql code state msg) c' ∧ c'.inp = rest ∧ c'.caps = c.caps ∧
      c'.out = c.out := by
  obtain ⟨c1, h1, h2, h3, -⟩ := Delivers.recv hd
  have h := C15_err_packet c1.caps true code he.code_lt state msg he.state_len
  rw [h2.caps, Bool.true_and, h41] at h
  have hp : ComChangeUserResponse.readFrom c1.caps (Spec.errPacket true code state msg)
      = .ok (.err ⟨0xff, code, 0x23, state, msg⟩) [] := by
    obtain ⟨t, e⟩ : ∃ t, Spec.errPacket true code state msg = (0xff : UInt8) :: t := ⟨_, rfl⟩
    rw [h2.caps]
    rw [e] at h ⊢
    rw [(C16_change_user_response c.caps _ t).2.2.1 rfl, h]
    rfl
  refine ⟨c1, ?_, Delivers.nil h3, h2.caps, h2.out⟩
  rw [changeUserLoop.eq_def, h1]
  simp only [M.parse_ok hp, sqlError, he.state_utf8, he.msg_utf8]
  rfl

theorem turn_passes (H : Hashes) (hH : H.Sized) (caps caps' : Nat) (step : Step) (said : List Spec.Voice) (inp : Bytes)
    (got : Reply) (hc : step.Carried) (h : Spec.Turn H.sha1 caps step said inp got caps') :
    Passes H.sha1 caps caps' (step.perform H) inp got said := by
  have sendInfo : Exchanges caps (sendMsg (writeSingleByteCmd [] .processInfo).1 true) [] () [.command .processInfo] :=
    sends_cmd caps _ _ (C19_simple_commands caps []).2.2.1 (by simp [writeSingleByteCmd, writeU8])
  have openText : ∀ (step : Step) (cmd : Spec.ServerCmd) (how : Taking), step.Carried → Spec.takesText step = some (cmd, how) →
      ∃ send, step.perform H = opening (do send; newResultSet none)
          (fun rs => takeRows rs.textRow (fun l => .basic (.text l)) .textRow rs how) ∧
        Exchanges caps send [] () [.command cmd] := by
    intro step cmd how hc h
    cases step <;> simp only [Spec.takesText, Option.some.injEq, reduceCtorEq, Prod.mk.injEq] at h
    · obtain ⟨rfl, rfl⟩ := h
      exact ⟨_, rfl, sends_query caps _ hc⟩
    · obtain ⟨rfl, rfl⟩ := h
      exact ⟨_, rfl, sendInfo⟩
  have close1 : ∀ how, closeSaid none how = [] := by intro how; cases how <;> rfl
  have close2 : ∀ id how, (closeSaid (some id) how).map Spec.Voice.says = Spec.thenClose id how := by
    intro id how; cases how <;> rfl
  cases h with
  | basic h hi => exact (attempted_ok (exchange_performs caps _ _ _ _ hc h)).passes hi
  | basicRefused code state msg h he hi =>
    rename_i ask q
    have key : ∀ (q : Bytes), q.length + 1 < 255 * 0xffffff → ∀ {α : Type} (next : ResultSet → M α) (f : α → Outcome),
        Exchanges caps (attempt (do let rs ← Query.qry q; next rs) f) [refusalMsg caps code state msg]
          (refusal caps code state msg) [.command (.query q)] := by
      intro q hq α next f
      have hsend : Exchanges caps (sendMsg (ComQuery.writeTo [] q).1 true) [] () [.command (.query q)] := by
        refine sends_cmd caps _ _ (C19_string_commands caps [] q).1 ?_
        have : (ComQuery.writeTo [] q).1 = 0x03 :: q := rfl
        rw [this, List.length_cons]
        exact hq
      refine attempt_err (denies_bind ?_)
      exact sends_then_err (next := fun _ => newResultSet none) hsend (newResultSet_err caps none code state msg he)
    have hfit : ∀ {n m : Nat}, MsgFits n → m ≤ n + 62 → m + 1 < 255 * 0xffffff := by unfold MsgFits; intro n m h1 h2; omega
    cases ask <;> simp only [Spec.asksQuery, Option.some.injEq, reduceCtorEq] at h <;> subst h
    · refine (attempted_ok (f := Reply.basic) ?_).passes (said := [_]) hi
      have := key (Spec.ascii "SHOW MASTER LOGS") (by decide +kernel) (fun rs => Cmd.filesLoop rs []) Outcome.files
      exact this
    · rename_i conv global name
      refine (attempted_ok (f := Reply.basic) ?_).passes (said := [_]) hi
      have hq : (if global then Cmd.str "SHOW GLOBAL VARIABLES LIKE '" ++ name ++ Cmd.str "'"
          else Cmd.str "SHOW VARIABLES LIKE '" ++ name ++ Cmd.str "'") = Spec.showVariable global name := by
        cases global <;> rfl
      have hl : (Spec.showVariable global name).length + 1 < 255 * 0xffffff := by
        refine hfit hc ?_
        cases global <;> simp [← hq, Cmd.str] <;> decide
      have := key (Spec.showVariable global name) hl (Cmd.firstMapped fun row => getColAs conv row 1) Outcome.value
      rw [← hq] at this
      rw [← hq]
      exact this
    · rename_i conv name
      refine (attempted_ok (f := Reply.basic) ?_).passes (said := [_]) hi
      have hl : (Spec.ascii "SELECT @" ++ name).length + 1 < 255 * 0xffffff := by
        refine hfit hc ?_
        have : (Spec.ascii "SELECT @").length = 8 := by decide +kernel
        rw [List.length_append, this]
        omega
      exact key (Spec.ascii "SELECT @" ++ name) hl (Cmd.firstMapped fun row => getColAs conv row 0) Outcome.value
  | rows cols w s rows term h ha hi =>
    rename_i cmd how
    obtain ⟨send, e, hs⟩ := openText _ _ _ hc h
    rw [e]
    have hlen : (clientDefs cols).length = cols.length := by simp [clientDefs]
    have hpos : 0 < cols.length := List.length_pos_iff.2 ha.cols0
    have hcol := take_exchanges (caps := caps) (read := ResultSet.textRow ⟨clientDefs cols, false, none⟩)
      (rows := fun l => .basic (.text l)) (row := .textRow) (rs := ⟨clientDefs cols, false, none⟩)
      (ms := rows.map Spec.textRow ++ [term]) (l := rows) (by simp) (by
        rintro c rest rfl hd
        exact C26_text_collect ⟨clientDefs cols, false, none⟩ rfl (by simpa [hlen] using hpos)
          (by simpa [hlen] using ha.cols_lt) rows (by simpa [hlen] using ha.width) ha.values term rest c ha.isEnd hd)
    have := opening_ok (next := fun rs => takeRows rs.textRow (fun l => .basic (.text l)) .textRow rs how)
      (sends_then hs (newResultSet_exchanges caps none cols w s ha.cols0 ha.cols_lt ha.supported ha.w_lt ha.s_lt)) (hcol how)
    rw [close1] at this
    exact this.passes hi
  | noRows f h hf hi =>
    rename_i cmd how
    obtain ⟨send, e, hs⟩ := openText _ _ _ hc h
    rw [e]
    have hcol := take_exchanges (caps := caps) (read := ResultSet.textRow ⟨[], true, none⟩)
      (rows := fun l => .basic (.text l)) (row := .textRow) (rs := ⟨[], true, none⟩)
      (ms := []) (l := []) (by simp) (by
        rintro c rest rfl hd
        rw [← Delivers.nil hd]
        exact completed_collects _ _ rfl c)
    have := opening_ok (next := fun rs => takeRows rs.textRow (fun l => .basic (.text l)) .textRow rs how)
      (sends_then hs (newResultSet_ok caps none f hf)) (hcol how)
    rw [close1, List.append_nil] at this
    exact this.passes hi
  | rowsRefused code state msg h he hi =>
    rename_i cmd how
    obtain ⟨send, e, hs⟩ := openText _ _ _ hc h
    rw [e]
    have := opening_err (next := fun rs => takeRows rs.textRow (fun l => .basic (.text l)) .textRow rs how)
      (sends_then_err (next := fun _ => newResultSet none) hs (newResultSet_err caps none code state msg he))
    exact this.passes hi
  | stmtRows st params how cols w s rows term h0 hl hs hw hst hr ht hi =>
    obtain ⟨h1, h2, h3⟩ := hc
    have hty : (clientDefs cols).map (·.colType) = cols.map (·.2) := by
      unfold clientDefs
      rw [List.map_map]
      rfl
    have hcol := take_exchanges (caps := caps) (read := ResultSet.binaryRow ⟨clientDefs cols, false, some st.stmtId⟩)
      (rows := fun l => .basic (.binary l)) (row := .binaryRow) (rs := ⟨clientDefs cols, false, some st.stmtId⟩)
      (ms := rows.map (·.bytes) ++ [term]) (l := rows.map (·.values)) (by simpa using h1) (by
        rintro c rest rfl hd
        exact C26_binary_collect ⟨clientDefs cols, false, some st.stmtId⟩ rfl rows (by rw [hty]; exact hr) term rest c ht hd)
    have := opening_ok (next := fun rs => takeRows rs.binaryRow (fun l => .basic (.binary l)) .binaryRow rs how)
      (sends_then (sends_execute caps st params h1 h2 h3)
        (newResultSet_exchanges caps (some st.stmtId) cols w s h0 hl hs hw hst)) (hcol how)
    have := this.passes (sha1 := H.sha1) hi
    simp only [List.append_nil, List.map_append, close2] at this
    exact this
  | stmtNoRows st params how f hf hi =>
    obtain ⟨h1, h2, h3⟩ := hc
    have hcol := take_exchanges (caps := caps) (read := ResultSet.binaryRow ⟨[], true, some st.stmtId⟩)
      (rows := fun l => .basic (.binary l)) (row := .binaryRow) (rs := ⟨[], true, some st.stmtId⟩)
      (ms := []) (l := []) (by simpa using h1) (by
        rintro c rest rfl hd
        rw [← Delivers.nil hd]
        exact completed_collects _ _ rfl c)
    have := opening_ok (next := fun rs => takeRows rs.binaryRow (fun l => .basic (.binary l)) .binaryRow rs how)
      (sends_then (sends_execute caps st params h1 h2 h3) (newResultSet_ok caps (some st.stmtId) f hf)) (hcol how)
    rw [List.append_nil] at this
    have := this.passes (sha1 := H.sha1) hi
    simp only [List.append_nil, List.map_append, close2] at this
    exact this
  | stmtRefused st params how code state msg he hi =>
    obtain ⟨h1, h2, h3⟩ := hc
    have := opening_err (next := fun rs => takeRows rs.binaryRow (fun l => .basic (.binary l)) .binaryRow rs how)
      (sends_then_err (next := fun _ => newResultSet (some st.stmtId)) (sends_execute caps st params h1 h2 h3)
        (newResultSet_err caps (some st.stmtId) code state msg he))
    exact this.passes hi
  | execClose st params f hf hi =>
    obtain ⟨h1, h2, h3⟩ := hc
    refine (attempted_ok (f := fun _ => Reply.basic .done) (a := ()) ?_).passes (said := [_, _]) hi
    intro c rest hcc hd
    obtain ⟨c1, a1, a2, a3, a4⟩ := (sends_then (sends_execute caps st params h1 h2 h3) (execLoop_exchanges caps f hf)) c rest hcc hd
    obtain ⟨c2, b1, b2, b3, b4⟩ := stmtClose_spec st h1 c1
    refine ⟨c2, ?_, b2.trans a2, b3.trans a3, Heard.append a4 (by rw [← a3]; exact b4.heard)⟩
    unfold PreparedStmt.execClose
    have : st.exec params c = .ok () c1 := a1
    rw [this]
    simp only [b1]
  | execCloseRefused st params code state msg he hi =>
    obtain ⟨h1, h2, h3⟩ := hc
    refine (attempted_err (f := fun _ => Reply.basic .done) ?_).passes (said := [_, _]) hi
    intro c rest hcc hd
    obtain ⟨c1, a1, a2, a3, a4⟩ := (sends_then_err (next := fun _ => execLoop) (sends_execute caps st params h1 h2 h3)
      (execLoop_denies caps code state msg he)) c rest hcc hd
    obtain ⟨c2, b1, b2, b3, b4⟩ := stmtClose_spec st h1 c1
    refine ⟨c2, ?_, b2.trans a2, b3.trans a3, Heard.append a4 (by rw [← a3]; exact b4.heard)⟩
    unfold PreparedStmt.execClose
    have : st.exec params c = .err (reported caps code state msg) c1 := a1
    rw [this]
    simp only [b1]
  | setMultiStmts multi op m caps' hm hop hne hi hfl =>
    have hop' : op = if multi then 1 else 0 := by cases multi <;> simp at hne ⊢ <;> omega
    rintro c rest rfl hin
    have hd := sends_delivers hi rest
    rw [← hin] at hd
    obtain ⟨c', d1, d2, d3⟩ := (C65_set_multi_stmts_partial multi rest c).1 m hm hd
    obtain ⟨c2, h1, h2, h3, h4⟩ := setMultiStmts_run multi c m rest hd
    have hout : c'.out = c2.out := by
      obtain ⟨p, r, hp⟩ := eofResponse_end c.caps m hm
      rw [M.parse_ok hp, d1] at h4
      cases multi <;> (simp only [MR.bind_ok] at h4; injection h4 with _ h4; rw [h4])
    obtain ⟨sent, e1, e2⟩ := heard_voiced (sha1 := H.sha1) h3.heard
    refine ⟨c', sent, ?_, d2, ?_, by rw [hout, e1], by rw [hop']; exact e2⟩
    · show attempted _ _ c = _
      unfold attempted
      rw [d1]
    · refine Nat.eq_of_testBit_eq fun i => ?_
      rw [d3 i, hfl i]
  | multiRefused multi op code state msg he hop hne hi =>
    have hop' : op = if multi then 1 else 0 := by cases multi <;> simp at hne ⊢ <;> omega
    refine (attempted_err (f := fun _ => Reply.basic .done) ?_).passes (said := [_]) hi
    rintro c rest rfl hd
    obtain ⟨c', d1, d2, d3⟩ := (C65_set_multi_stmts_partial multi rest c).2 code state msg he hd
    obtain ⟨c2, h1, h2, h3, h4⟩ := setMultiStmts_run multi c _ rest hd
    have hout : c'.out = c2.out := by
      obtain ⟨p, hp, hsql⟩ := eofResponse_err c.caps code state msg he
      rw [M.parse_ok hp, d1] at h4
      simp only [MR.bind_ok] at h4
      injection h4 with _ h4
      rw [h4]
    exact ⟨c', d1, d2, d3, by rw [hout, hop']; exact h3.heard⟩
  | changeUser user password db attrs f hf hi =>
    obtain ⟨hu, hdb, hk, ht, hk', hsz⟩ := hc
    refine (attempted_ok (f := fun _ => Reply.basic .done) (a := ()) ?_).passes (said := [_]) hi
    rintro c rest rfl hd
    obtain ⟨c0, s1, s2, s3, -, s4⟩ := changeUser_start H user password db attrs hu hdb hk ht hk' hsz c
    obtain ⟨c', d1, d2, d3⟩ := changeUserLoop_ok H password none f hf c0 [] rest (by rw [s2, s3]; exact hd)
    rw [nativeName_ascii] at s4
    exact ⟨c', by rw [s1, d1], Delivers.nil d2, d3.caps.trans s3, by rw [d3.out]; exact s4.heard⟩
  | changeUserProved user password db attrs nonce hn f hf hi =>
    intro c rest hcc hin
    rw [List.append_assoc] at hin
    obtain ⟨c0, pl, sent, s1, s2, s3, s4, s5⟩ := changeUser_passes H hH caps user password db attrs hc nonce hn c _ hcc hin
    obtain ⟨c', d1, d2, d3⟩ := changeUserLoop_ok H password pl f hf c0 [] rest
      (by rw [s2, s3]; exact sends_delivers hi rest)
    refine ⟨c', sent, ?_, Delivers.nil d2, d3.caps.trans s3, by rw [d3.out, s4], s5⟩
    show attempted _ _ c = _
    unfold attempted
    rw [s1, d1]
  | changeUserRefused user password db attrs code state msg he h41 hi =>
    obtain ⟨hu, hdb, hk, ht, hk', hsz⟩ := hc
    refine (attempted_err (f := fun _ => Reply.basic .done) ?_).passes (said := [_]) hi
    rintro c rest rfl hd
    obtain ⟨c0, s1, s2, s3, -, s4⟩ := changeUser_start H user password db attrs hu hdb hk ht hk' hsz c
    obtain ⟨c', d1, d2, d3, d4⟩ := changeUserLoop_err H password none code state msg he c0 (by rw [s3]; exact h41) rest
      (by rw [s2]; exact hd)
    rw [nativeName_ascii] at s4
    exact ⟨c', by rw [s1, d1], d2, d3.trans s3, by rw [d4]; exact s4.heard⟩
  | changeUserProvedRefused user password db attrs nonce hn code state msg he h41 hi =>
    intro c rest hcc hin
    rw [List.append_assoc] at hin
    obtain ⟨c0, pl, sent, s1, s2, s3, s4, s5⟩ := changeUser_passes H hH caps user password db attrs hc nonce hn c _ hcc hin
    obtain ⟨c', d1, d2, d3, d4⟩ := changeUserLoop_err H password pl code state msg he c0 (by rw [s3]; exact h41) rest
      (by rw [s2]; exact sends_delivers hi rest)
    refine ⟨c', sent, ?_, d2, d3.trans s3, by rw [d4, s4], s5⟩
    show attempted _ _ c = _
    unfold attempted
    rw [s1, d1]

theorem Passes.bind {α β : Type} {sha1 : Bytes → Bytes} {caps caps' caps'' : Nat} {x : M α} {f : α → M β} {i1 i2 : Bytes}
    {a : α} {b : β} {s1 : List Spec.Voice} (h1 : Passes sha1 caps caps' x i1 a s1)
    {s2 : List (Nat × Spec.Voice)}
    (h2 : ∀ (c : Conn) (rest : Bytes), c.caps = caps' → c.inp = i2 ++ rest →
      ∃ c' sent, f a c = .ok b c' ∧ c'.inp = rest ∧ c'.caps = caps'' ∧ c'.out = c.out ++ sent ∧ Spec.AllVoiced sha1 sent s2) :
    ∀ (c : Conn) (rest : Bytes), c.caps = caps → c.inp = i1 ++ i2 ++ rest →
      ∃ c' sent, (x >>= f) c = .ok b c' ∧ c'.inp = rest ∧ c'.caps = caps'' ∧ c'.out = c.out ++ sent ∧
        Spec.AllVoiced sha1 sent (s1.map (fun v => (caps, v)) ++ s2) := by
  intro c rest hc hin
  obtain ⟨c1, t1, a1, a2, a3, a4, a5⟩ := h1 c (i2 ++ rest) hc (by rw [hin, List.append_assoc])
  obtain ⟨c2, t2, b1, b2, b3, b4, b5⟩ := h2 c1 rest a3 a2
  exact ⟨c2, t1 ++ t2, by rw [M.bind_apply, a1, MR.bind_ok, b1], b2, b3, by rw [b4, a4, List.append_assoc],
    allVoiced_append a5 b5⟩

/-- C84, with more of the API: for every application, however it chooses its calls from what it got before, and every
history of answers of a server that follows the protocol: each call gets the answer to it, the server hears exactly the
messages of the calls, in order, and nothing is left unread but what follows. Missing: rows that are not all read
(C73_dropped_false), several result sets in one answer (C84_more_results_false), answers of rows to `exec`
(C51_result_set_false), refused pings (C62_err_false), and the operand of `set_multi_stmts`, which is the wrong one
(C65_set_multi_stmts_false). -/
theorem C84_calls_partial (H : Hashes) (hH : H.Sized) (app : List Reply → Option Step) (caps : Nat) (hist : List Spec.Talk)
    (h : Spec.IsTalk H.sha1 app caps [] hist) (c : Conn) (hcaps : c.caps = caps) (rest : Bytes)
    (hin : c.inp = (hist.map (·.inp)).flatten ++ rest) :
    ∃ c' sent, talk H app hist.length [] c = .ok (hist.map (·.got)) c' ∧ c'.inp = rest ∧ c'.out = c.out ++ sent ∧
      Spec.AllVoiced H.sha1 sent (hist.map fun t => t.said.map fun v => (t.caps, v)).flatten := by
  have key : ∀ (hist : List Spec.Talk) (caps : Nat) (got : List Reply), Spec.IsTalk H.sha1 app caps got hist → ∃ caps'',
      ∀ (c : Conn) (rest : Bytes), c.caps = caps → c.inp = (hist.map (·.inp)).flatten ++ rest →
      ∃ c' sent, talk H app hist.length got c = .ok (got ++ hist.map (·.got)) c' ∧ c'.inp = rest ∧ c'.caps = caps'' ∧
        c'.out = c.out ++ sent ∧
        Spec.AllVoiced H.sha1 sent (hist.map fun t => t.said.map fun v => (t.caps, v)).flatten := by
    intro hist
    induction hist with
    | nil =>
      intro caps got _
      refine ⟨caps, fun c rest hc hin => ⟨c, [], ?_, by simpa using hin, hc, by simp, [], rfl, .nil⟩⟩
      simp [talk]
    | cons t ts ih =>
      intro caps got h
      obtain ⟨h0, h1, h2, caps', h3, h4⟩ := h
      obtain ⟨caps'', k⟩ := ih caps' _ h4
      refine ⟨caps'', fun c rest hc hin => ?_⟩
      have := Passes.bind (f := fun o => talk H app ts.length (got ++ [o])) (turn_passes H hH caps caps' _ _ _ _ h2 h3) k
        c rest hc (by simpa using hin)
      simp only [List.map_cons, List.flatten_cons, List.length_cons, talk, h1, h0]
      simpa using this
  obtain ⟨caps'', k⟩ := key hist caps [] h
  obtain ⟨c', sent, h1, h2, -, h3, h4⟩ := k c rest hcaps hin
  exact ⟨c', sent, h1, h2, h3, h4⟩

/-- an application that asks for multiple statements, counts the rows of a query, and changes the user if there is one -/
def exampleTalker : List Reply → Option Step
  | [] => some (.setMultiStmts true)
  | [.basic .done] => some (.query (Spec.ascii "select a from t") .count)
  | [_, .count 1] => some (.changeUser (Spec.ascii "u") (Spec.ascii "secret") (Spec.ascii "db") [])
  | _ => none

example (H : Hashes) : ∃ hist : List Spec.Talk, Spec.IsTalk H.sha1 exampleTalker (2 ^ 9) [] hist ∧ hist.length = 3 := by
  have hsends : ∀ m : Bytes, m.length < 0xffffff → ∃ inp, Spec.Sends inp [m] := fun m hm =>
    delivers_small [m] [] (by simpa using hm)
  obtain ⟨i1, h1⟩ := hsends (Spec.eofPacket (2 ^ 9) 0 2) (by decide)
  have hans : Spec.AnswerOk (2 ^ 9 + 2 ^ 16) [(exampleTextDef, .varString)] 0 2 [[some [0x61]]]
      (Spec.eofPacket (2 ^ 9 + 2 ^ 16) 0 2) := by
    refine ⟨by simp, by norm_num, by simpa using exampleText_supported, by norm_num, by norm_num, by simp, ?_, ?_⟩
    · intro row hr s hs
      simp only [List.mem_cons, List.not_mem_nil, or_false] at hr
      subst hr
      simp only [List.mem_cons, List.not_mem_nil, or_false, Option.some.injEq] at hs
      subst hs
      norm_num
    · exact ⟨0, 2, by norm_num, by norm_num, rfl⟩
  obtain ⟨i2, h2⟩ := delivers_small (Spec.textAnswer (2 ^ 9 + 2 ^ 16) [exampleTextDef] 0 2 [[some [0x61]]]
    (Spec.eofPacket (2 ^ 9 + 2 ^ 16) 0 2)) [] (by decide +kernel)
  obtain ⟨i3, h3⟩ := hsends (Spec.okPacket (2 ^ 9 + 2 ^ 16) 0 ⟨0, 0, 2, 0, [], []⟩) (by decide +kernel)
  refine ⟨[⟨2 ^ 9, .setMultiStmts true, [.says (.command (.setOption 1))], i1, .basic .done⟩,
    ⟨2 ^ 9 + 2 ^ 16, .query (Spec.ascii "select a from t") .count, [.says (.command (.query (Spec.ascii "select a from t")))],
      i2, .count 1⟩,
    ⟨2 ^ 9 + 2 ^ 16, .changeUser (Spec.ascii "u") (Spec.ascii "secret") (Spec.ascii "db") [],
      [.says (.command (Spec.changeUserCmd (2 ^ 9 + 2 ^ 16) (Spec.ascii "u") (Spec.ascii "db") [])),
        .proves (Spec.stored H.sha1 (Spec.ascii "secret")) (List.replicate 20 7)],
      Spec.wire [⟨1, Spec.authSwitch (Spec.ascii "mysql_native_password") (List.replicate 20 7 ++ [0])⟩] ++ i3,
      .basic .done⟩], ⟨rfl, rfl, trivial,
      2 ^ 9 + 2 ^ 16, ?_, rfl, rfl, ?_, 2 ^ 9 + 2 ^ 16, ?_, rfl, rfl, ?_, 2 ^ 9 + 2 ^ 16, ?_, trivial⟩, rfl⟩
  · refine .setMultiStmts true 1 _ _ ?_ (by norm_num) (by simp) h1 ?_
    · unfold Spec.IsCommandEnd
      rw [if_neg (show ¬ Nat.testBit (2 ^ 9) 24 = true by decide)]
      exact ⟨0, 2, by norm_num, by norm_num, rfl⟩
    · have := (multiStatements_caps (2 ^ 9)).1
      exact this
  · show MsgFits _
    unfold MsgFits
    decide +kernel
  · exact .rows (step := .query _ .count) (how := .count) [(exampleTextDef, .varString)] 0 2 [[some [0x61]]] _ rfl hans h2
  · exact ⟨by decide +kernel, by decide +kernel, by simp, by decide +kernel, by simp, by decide +kernel⟩
  · exact .changeUserProved _ _ _ [] (List.replicate 20 7) (by simp) ⟨0, 0, 2, 0, [], []⟩ (by constructor <;> norm_num) h3

/-- C84 fails: a server that was sent several statements in one query answers with several result sets, and says in the
status flags at the end of each that more follow (flag 3). The application gets the first; the second is the answer to
its next call, whatever that asks, and the answer to that is left unread. -/
theorem C84_more_results_false (q1 q2 : Bytes) (h1 : MsgFits q1.length) (h2 : MsgFits q2.length) (caps : Nat)
    (cols1 cols2 : List (Spec.ColDef × ColumnType)) (w1 s1 w2 s2 w s : Nat) (rows1 rows2 : List (List (Option Bytes)))
    (term2 : Bytes) (_hmore : s.testBit 3 = true)
    (ha1 : Spec.AnswerOk caps cols1 w1 s1 rows1 (Spec.eofPacket caps w s)) (ha2 : Spec.AnswerOk caps cols2 w2 s2 rows2 term2)
    (answer : List Bytes) (rest : Bytes) (c : Conn) (hc : c.caps = caps)
    (hd : Spec.Delivers c.inp (Spec.textAnswer caps (cols1.map (·.1)) w1 s1 rows1 (Spec.eofPacket caps w s) ++
      Spec.textAnswer caps (cols2.map (·.1)) w2 s2 rows2 term2 ++ answer) rest) :
    ∃ c', (do
        let first ← (do let rs ← Query.qry q1; rs.all rs.textRow)
        let second ← (do let rs ← Query.qry q2; rs.all rs.textRow)
        return (first, second)) c = .ok (rows1, rows2) c' ∧
      Spec.Delivers c'.inp answer rest := by
  have qry_eq : ∀ q, (do let rs ← Query.qry q; rs.all rs.textRow : M _)
      = (do sendMsg (ComQuery.writeTo [] q).1 true; (do let rs ← newResultSet none; rs.all rs.textRow)) := by
    intro q
    unfold Query.qry
    exact M.bind_assoc _ _ _
  obtain ⟨mid, d1, d2⟩ := Delivers.append hd
  have e1 := sends_then (sends_query caps q1 h1) (textSet_exchanges caps cols1 w1 s1 rows1 _ ha1)
  have e2 := sends_then (sends_query caps q2 h2) (textSet_exchanges caps cols2 w2 s2 rows2 _ ha2)
  have := Exchanges.bind (f := fun first => (do
      let second ← (do sendMsg (ComQuery.writeTo [] q2).1 true; (do let rs ← newResultSet none; rs.all rs.textRow))
      return (first, second) : M _)) e1
    (Exchanges.bind (f := fun second => (return (rows1, second) : M _)) e2 (Exchanges.pure caps _))
  obtain ⟨c', a1, a2, -⟩ := this c mid hc (by simpa using d1)
  refine ⟨c', ?_, by rw [a2]; exact d2⟩
  rw [qry_eq, qry_eq]
  exact a1

/-- "select a from t; select a from t", each with one row -/
example : ∃ (cols : List (Spec.ColDef × ColumnType)) (rows : List (List (Option Bytes))) (s : Nat), s.testBit 3 = true ∧
    Spec.AnswerOk (2 ^ 9) cols 0 2 rows (Spec.eofPacket (2 ^ 9) 0 s) ∧ rows ≠ [] := by
  refine ⟨[(exampleTextDef, .varString)], [[some [0x61]]], 10, by decide,
    ⟨by simp, by norm_num, by simpa using exampleText_supported, by norm_num, by norm_num, by simp, ?_, ?_⟩, by simp⟩
  · intro row hr s hs
    simp only [List.mem_cons, List.not_mem_nil, or_false] at hr
    subst hr
    simp only [List.mem_cons, List.not_mem_nil, or_false, Option.some.injEq] at hs
    subst hs
    norm_num
  · exact ⟨0, 10, by norm_num, by norm_num, rfl⟩

/-- C51 fails for several statements in one query: the server answers each, and says in the status flags of an OK that more
answers follow (flag 3). `exec` returns after the first, and the others, errors too, are left for the next call. -/
theorem C51_more_results_false (q : Bytes) (hq : MsgFits q.length) (f : Spec.OkFields) (hf : f.InRange)
    (_hmore : f.status.testBit 3 = true) (code : Nat) (state msg : Bytes) (rest : Bytes) (c : Conn)
    (hd : Spec.Delivers c.inp [Spec.okPacket c.caps 0 f, refusalMsg c.caps code state msg] rest) :
    ∃ c', Query.exec q c = .ok () c' ∧ Spec.Delivers c'.inp [refusalMsg c.caps code state msg] rest := by
  obtain ⟨mid, d1, d2⟩ := Delivers.append (ms := [_]) hd
  obtain ⟨c', a1, a2, -⟩ := (sends_then (sends_query c.caps q hq) (execLoop_exchanges c.caps f hf)) c mid rfl (by simpa using d1)
  exact ⟨c', a1, by rw [a2]; exact d2⟩

example : ∃ f : Spec.OkFields, f.InRange ∧ f.status.testBit 3 = true := ⟨⟨1, 0, 10, 0, [], []⟩, by constructor <;> norm_num, by decide⟩

end Mybin
