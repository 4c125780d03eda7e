/-
C93: what arrives later changes nothing. An operation that came to its end with the bytes that had arrived comes to the
same end however the stream goes on, and leaves everything that follows unread; and what was sent, or printed, before the
bytes ran out is a beginning of what is sent, or printed, in the end.
-/
import Verif.Props.C88
import Verif.Props.C75_C77

namespace Mybin

/-! ### specification -/

/-- more bytes have arrived on the connection -/
def Spec.arrived (c : Conn) (b : Bytes) : Conn := { c with inp := c.inp ++ b }

/-- what arrives later changes nothing -/
structure Spec.Settled {α : Type} (run : M α) : Prop where
  /-- a value is returned: with more bytes too, the same one, and these bytes are left for the next operation -/
  value : ∀ c v c' b, run c = .ok v c' → run (Spec.arrived c b) = .ok v (Spec.arrived c' b)
  /-- the same for an error, except that the stream came to its end -/
  error : ∀ c e c' b, run c = .err e c' → e ≠ .io → run (Spec.arrived c b) = .err e (Spec.arrived c' b)
  /-- and for a panic -/
  panic : ∀ c b, run c = .panic → run (Spec.arrived c b) = .panic
  /-- what was sent when the stream came to its end is a beginning of what is sent with more bytes -/
  waiting : ∀ c c' b d, run c = .err .io c' → Ends (run (Spec.arrived c b)) d → c'.out <+: d.out

/-- an application that goes on after an error, except when the stream came to its end -/
def Spec.recover {α : Type} (run : M α) (handle : Err → M α) : M α := fun c =>
  match run c with
  | .err e c' => if e = .io then .err e c' else handle e c'
  | r => r

/-- what an application can do with a connection: each operation of the API, what it makes of values it got, and errors it
handles -/
inductive Spec.Application : {α : Type} → M α → Prop
  | login (H : Hashes) (o : ConnOpts) : Application (handshake H o)
  | changeUser (H : Hashes) (user password db : Bytes) (attrs : List ConnectAttr) :
      Application (Mybin.changeUser H user password db attrs)
  | quit : Application Cmd.quit
  | initDb (db : Bytes) : Application (Cmd.initDb db)
  | createDb (db : Bytes) : Application (Cmd.createDb db)
  | dropDb (db : Bytes) : Application (Cmd.dropDb db)
  | refresh (flags : Nat) : Application (Cmd.refresh flags)
  | processKill (id : Nat) : Application (Cmd.processKill id)
  | resetConnection : Application Cmd.resetConnection
  | registerSlave (id : Nat) : Application (Cmd.registerSlave id)
  | fieldList (table wildcard : Bytes) : Application (Cmd.fieldList table wildcard)
  | statistics : Application Cmd.statistics
  | debug : Application Cmd.debug
  | ping : Application Cmd.ping
  | setMultiStmts (multi : Bool) : Application (Cmd.setMultiStmts multi)
  | processInfo : Application Cmd.processInfo
  | binlogFiles : Application Cmd.binlogFiles
  | getVar {α : Type} (conv : Option Bytes → Res α) (name : Bytes) (global : Bool) : Application (Cmd.getVar conv name global)
  | setVar (name : Bytes) (v : StmtColumnValue) (global : Bool) : Application (Cmd.setVar name v global)
  | getUserVar {α : Type} (conv : Option Bytes → Res α) (name : Bytes) : Application (Cmd.getUserVar conv name)
  | setUserVar (name : Bytes) (v : StmtColumnValue) : Application (Cmd.setUserVar name v)
  | queryExec (q : Bytes) : Application (Query.exec q)
  | query (q : Bytes) : Application (Query.qry q)
  | nextRow {ρ : Type} (rs : ResultSet) (read : P ρ) : Application (rs.nextRow read)
  | all {ρ : Type} (rs : ResultSet) (read : P ρ) : Application (rs.all read)
  | first {ρ : Type} (rs : ResultSet) (read : P ρ) : Application (rs.first read)
  | firstOrNone {ρ : Type} (rs : ResultSet) (read : P ρ) : Application (rs.firstOrNone read)
  | count {ρ : Type} (rs : ResultSet) (read : P ρ) : Application (rs.count read)
  | closeResult (rs : ResultSet) : Application rs.close
  | prepare (q : Bytes) : Application (Stmt.prepare q)
  | exec (s : PreparedStmt) (ps : List StmtColumnValue) : Application (s.exec ps)
  | execClose (s : PreparedStmt) (ps : List StmtColumnValue) : Application (s.execClose ps)
  | qry (s : PreparedStmt) (ps : List StmtColumnValue) : Application (s.qry ps)
  | close (s : PreparedStmt) : Application s.close
  | requestStream (r : BinlogRequest) (uuid : Bytes) (random : Nat) : Application (r.requestStream uuid random)
  | nextEvent (s : BinlogStream) : Application s.nextEvent
  | done {α : Type} (a : α) : Application (pure a)
  | giveUp {α : Type} (e : Err) : Application (M.fail e : M α)
  | andThen {α β : Type} (x : M α) (f : α → M β) : Application x → (∀ a, Application (f a)) → Application (x >>= f)
  | recover {α : Type} (x : M α) (h : Err → M α) : Application x → (∀ e, Application (h e)) → Application (Spec.recover x h)

/-- more bytes arrive on the connections of a program: `more n a` on the `n`-th, to address `a` -/
def Spec.later (w : World) (more : Nat → Bytes → Bytes) : World :=
  { w with stream := fun n a => (w.stream n a).map (· ++ more n a) }

/-- the run `r'` continues the run `r` of a program: `r'` prints what `r` printed and possibly more, and if `r` did not end
because a stream came to its end, they are the same: what is printed, how they end and what was sent -/
def Spec.Continues {α : Type} (r r' : ProgRun α) : Prop :=
  r.lines <+: r'.lines ∧ (r.theEnd ≠ .err .io → r' = r)

/-! ### two runs, one of them with more bytes -/

/-- nothing that was sent is lost -/
def Grows {α : Type} (run : M α) : Prop := ∀ c d, Ends (run c) d → c.out <+: d.out

theorem Quiet.grows {α : Type} {run : M α} (h : Quiet run) : Grows run := by
  intro c d hd; rw [h c d hd]

theorem Grows.bind {α β : Type} {x : M α} {f : α → M β} (hx : Grows x) (hf : ∀ a, Grows (f a)) : Grows (x >>= f) := by
  intro c d h
  rcases Ends.bind h with ⟨a, c1, h1, h2⟩ | ⟨e, h1⟩
  · exact (hx c c1 (Or.inl ⟨a, h1⟩)).trans (hf a _ _ h2)
  · exact hx c d (Or.inr ⟨e, h1⟩)

theorem Grows.sendMsg (bs : Bytes) (reset : Bool) : Grows (sendMsg bs reset) := by
  intro c d h
  unfold Mybin.sendMsg at h
  obtain ⟨ps, -, -, -, h4⟩ := sendLoop_inv bs _ d h
  rw [h4]
  cases reset <;> exact List.prefix_append _ _

/-- the result of a run, and its result with `b` after what had arrived -/
def Agree {α : Type} (b : Bytes) (r r' : MR α) : Prop :=
  match r with
  | .ok v c' => r' = .ok v (Spec.arrived c' b)
  | .err e c' => r' = .err e (Spec.arrived c' b) ∨ (e = .io ∧ ∀ d, Ends r' d → c'.out <+: d.out)
  | .panic => r' = .panic
  | .hang => r' = .hang

/-- a run whose results agree -/
def Inc {α : Type} (run : M α) : Prop := Grows run ∧ ∀ b c, Agree b (run c) (run (Spec.arrived c b))

theorem Agree.bind {α β : Type} {b : Bytes} {r r' : MR α} {f f' : α → M β} (h : Agree b r r')
    (hf : ∀ v c', r = .ok v c' → Agree b (f v c') (f' v (Spec.arrived c' b))) (hg : ∀ v, Grows (f' v)) :
    Agree b (r.bind f) (r'.bind f') := by
  cases r with
  | ok v c' =>
    have h : r' = .ok v (Spec.arrived c' b) := h
    rw [h]
    exact hf v c' rfl
  | err e c' =>
    rcases (h : r' = .err e (Spec.arrived c' b) ∨ _) with h | ⟨rfl, h⟩
    · rw [h]; exact Or.inl rfl
    · refine Or.inr ⟨rfl, fun d hd => ?_⟩
      rcases Ends.bind hd with ⟨a, c1, h1, h2⟩ | ⟨e, h1⟩
      · exact (h c1 (Or.inl ⟨a, h1⟩)).trans (hg a _ _ h2)
      · exact h d (Or.inr ⟨e, h1⟩)
  | panic => have h : r' = .panic := h; rw [h]; rfl
  | hang => have h : r' = .hang := h; rw [h]; rfl

theorem Inc.bind {α β : Type} {x : M α} {f : α → M β} (hx : Inc x) (hf : ∀ a, Inc (f a)) : Inc (x >>= f) :=
  ⟨hx.1.bind fun a => (hf a).1, fun b c => (hx.2 b c).bind (fun v c' _ => (hf v).2 b c') fun v => (hf v).1⟩

theorem Inc.settled {α : Type} {run : M α} (h : Inc run) : Spec.Settled run where
  value := by
    intro c v c' b hr
    have := h.2 b c
    rw [hr] at this
    exact this
  error := by
    intro c e c' b hr he
    have := h.2 b c
    rw [hr] at this
    rcases (this : _ ∨ _) with h | ⟨h, -⟩
    · exact h
    · exact absurd h he
  panic := by
    intro c b hr
    have := h.2 b c
    rw [hr] at this
    exact this
  waiting := by
    intro c c' b d hr hd
    have := h.2 b c
    rw [hr] at this
    rcases (this : _ ∨ _) with h | ⟨-, h⟩
    · rw [h] at hd
      rw [Ends.err hd]
      exact List.prefix_refl _
    · exact h d hd

/-! ### the steps -/

/-- a step that neither reads nor sends -/
theorem Inc.local {α : Type} {run : M α} (hq : Quiet run) (h : ∀ b c, Agree b (run c) (run (Spec.arrived c b))) : Inc run :=
  ⟨hq.grows, h⟩

theorem Inc.pure {α : Type} (a : α) : Inc (Pure.pure a : M α) := .local (Quiet.pure a) fun _ _ => rfl
theorem Inc.fail {α : Type} (e : Err) : Inc (M.fail e : M α) := .local (Quiet.fail e) fun _ _ => Or.inl rfl
theorem Inc.mpanic {α : Type} : Inc (M.panic : M α) := .local Quiet.panic fun _ _ => rfl
theorem Inc.getCaps : Inc getCaps := .local Quiet.getCaps fun _ _ => rfl
theorem Inc.insertCap (f : Nat) : Inc (insertCap f) := .local (Quiet.insertCap f) fun _ _ => rfl
theorem Inc.removeCap (f : Nat) : Inc (removeCap f) := .local (Quiet.removeCap f) fun _ _ => rfl

theorem Inc.parse {α : Type} (msg : Bytes) (p : P α) : Inc (M.parse msg p) := by
  refine .local (Quiet.parse msg p) fun b c => ?_
  unfold M.parse
  cases p msg <;> first | rfl | exact Or.inl rfl

theorem Inc.ofExcept {α : Type} (r : Except Err α) : Inc (M.ofExcept r) := by
  refine .local (Quiet.ofExcept r) fun b c => ?_
  unfold M.ofExcept
  cases r <;> first | rfl | exact Or.inl rfl

theorem Inc.ofRes {α : Type} (r : Res α) : Inc (Cmd.M.ofRes r) := by
  refine .local (Quiet.ofRes r) fun b c => ?_
  unfold Cmd.M.ofRes
  cases r <;> first | rfl | exact Or.inl rfl

theorem Inc.someOr {α : Type} (e : Err) (o : Option α) : Inc (M.someOr e o) := by
  cases o with
  | none => exact Inc.fail e
  | some a => exact Inc.pure a

theorem Inc.readColCnt (msg : Bytes) : Inc (readColCnt msg) := by
  refine .local (Quiet.readColCnt msg) fun b c => ?_
  unfold Mybin.readColCnt
  cases readLenEncInt msg with
  | ok lei rest =>
    dsimp only
    cases lei.toU32 with
    | some n => rfl
    | none =>
      dsimp only
      cases rest.isEmpty
      · exact Or.inl rfl
      · rfl
  | err e r => exact Or.inl rfl
  | panic => rfl
  | hang => rfl

theorem Inc.readTerminator (caps : Nat) (msg : Bytes) : Inc (readTerminator caps msg) := by
  refine .local (Quiet.readTerminator caps msg) fun b c => ?_
  unfold Mybin.readTerminator
  cases hasFlag caps Cap.DEPRECATE_EOF
  · cases EofPacket.readFrom caps msg <;> first | rfl | exact Or.inl rfl
  · cases OkPacket.readFrom caps msg <;> first | rfl | exact Or.inl rfl

/-! ### receiving and sending -/

theorem recvLoop_arrived (b : Bytes) (bs inp : Bytes) (nr : Nat) (msg rest : Bytes) (nr' : Nat)
    (h : recvLoop bs inp nr = .ok (msg, rest, nr')) : recvLoop bs (inp ++ b) nr = .ok (msg, rest ++ b, nr') := by
  induction hn : inp.length using Nat.strong_induction_on generalizing bs inp nr with
  | _ n ih =>
    match inp, hn with
    | l0 :: l1 :: l2 :: seq :: r, hn =>
      rw [recvLoop] at h
      rw [List.cons_append, List.cons_append, List.cons_append, List.cons_append, recvLoop]
      split at h
      · cases h
      · rename_i hlen
        rw [if_neg (by rw [List.length_append]; omega)]
        split at h
        · rename_i hm
          rw [if_pos hm, List.take_append_of_le_length (by omega), List.drop_append_of_le_length (by omega)]
          cases h
          rfl
        · rename_i hm
          rw [if_neg hm, List.take_append_of_le_length (by omega), List.drop_append_of_le_length (by omega)]
          exact ih _ (by rw [List.length_drop, ← hn]; simp only [List.length_cons]; omega) _ _ _ h rfl
    | [], _ => rw [recvLoop] at h; cases h; all_goals simp
    | [_], _ => rw [recvLoop] at h; cases h; all_goals simp
    | [_, _], _ => rw [recvLoop] at h; cases h; all_goals simp
    | [_, _, _], _ => rw [recvLoop] at h; cases h; all_goals simp

theorem Inc.recvMsg : Inc recvMsg := by
  refine .local Quiet.recvMsg fun b c => ?_
  have hq := Quiet.recvMsg (Spec.arrived c b)
  unfold Mybin.recvMsg
  cases h : recvLoop [] c.inp c.pktNr with
  | ok v =>
    obtain ⟨msg, rest, nr⟩ := v
    have := recvLoop_arrived b [] c.inp c.pktNr msg rest nr h
    have h' : recvLoop [] (Spec.arrived c b).inp (Spec.arrived c b).pktNr = .ok (msg, rest ++ b, nr) := this
    rw [h']
    rfl
  | error nr => exact Or.inr ⟨rfl, fun d hd => by rw [hq d hd]; exact List.prefix_refl _⟩

theorem sendLoop_arrived (b : Bytes) (bs : Bytes) (c : Conn) :
    Agree b (sendLoop bs c) (sendLoop bs (Spec.arrived c b)) := by
  induction hn : bs.length using Nat.strong_induction_on generalizing bs c with
  | _ n ih =>
    have hp : ∀ p (c : Conn), Agree b (sendPacket p c) (sendPacket p (Spec.arrived c b)) := by
      intro p c
      unfold sendPacket
      by_cases h : c.pktNr + 1 < 256
      · rw [if_pos h, if_pos (show (Spec.arrived c b).pktNr + 1 < 256 from h)]
        rfl
      · rw [if_neg h, if_neg (show ¬ (Spec.arrived c b).pktNr + 1 < 256 from h)]
        rfl
    by_cases hge : bs.length ≥ maxPacket
    · have hl : sendLoop bs = (sendPacket (bs.take maxPacket) >>= fun _ => sendLoop (bs.drop maxPacket)) := by
        rw [sendLoop, dif_pos hge]
      rw [hl]
      have hd : (bs.drop maxPacket).length < n := by
        rw [List.length_drop]; unfold maxPacket at hge ⊢; omega
      refine (hp _ c).bind (fun v c' _ => ih _ hd _ _ rfl) fun _ c d hd => ?_
      · obtain ⟨ps, -, -, -, h4⟩ := sendLoop_inv _ _ d hd
        rw [h4]
        exact List.prefix_append _ _
    · have hl : sendLoop bs = sendPacket bs := by rw [sendLoop, dif_neg hge]
      rw [hl]
      exact hp _ c

theorem Inc.sendMsg (bs : Bytes) (reset : Bool) : Inc (sendMsg bs reset) := by
  refine ⟨Grows.sendMsg bs reset, fun b c => ?_⟩
  unfold Mybin.sendMsg
  cases reset
  · exact sendLoop_arrived b bs c
  · exact sendLoop_arrived b bs { c with pktNr := 0 }

/-! ### the operations -/

theorem Inc.failWithErrPacket {α : Type} (msg : Bytes) : Inc (failWithErrPacket msg : M α) := by
  unfold Mybin.failWithErrPacket
  exact Inc.getCaps.bind fun caps => (Inc.parse _ _).bind fun p => Inc.fail _

theorem Inc.recvColDefs (n : Nat) : Inc (recvColDefs n) := by
  induction n with
  | zero => exact Inc.pure _
  | succ n ih =>
    unfold Mybin.recvColDefs
    exact Inc.recvMsg.bind fun _ => (Inc.parse _ _).bind fun _ => ih.bind fun _ => Inc.pure _

theorem Inc.recvDefsEof : Inc recvDefsEof := by
  unfold Mybin.recvDefsEof
  refine Inc.getCaps.bind fun caps => ?_
  split
  · exact Inc.recvMsg.bind fun _ => (Inc.parse _ _).bind fun _ => Inc.pure _
  · exact Inc.pure _

theorem Inc.recvDefs (n : Nat) : Inc (recvDefs n) := by
  unfold Mybin.recvDefs
  split
  · exact Inc.pure _
  · exact (Inc.recvColDefs n).bind fun _ => Inc.recvDefsEof.bind fun _ => Inc.pure _

theorem Inc.parseColCnt (msg : Bytes) : Inc (parseColCnt msg) := by
  unfold Mybin.parseColCnt
  split
  · exact Inc.mpanic
  · refine Inc.getCaps.bind fun caps => ?_
    split
    · exact Inc.failWithErrPacket _
    · split
      · exact (Inc.parse _ _).bind fun _ => Inc.pure _
      · exact Inc.readColCnt _

theorem Inc.newResultSet (id : Option Nat) : Inc (newResultSet id) := by
  unfold Mybin.newResultSet
  refine Inc.recvMsg.bind fun msg => (Inc.parseColCnt _).bind fun n => ?_
  split
  · exact Inc.pure _
  · exact (Inc.recvColDefs n).bind fun _ => Inc.recvDefsEof.bind fun _ => Inc.pure _

theorem Inc.nextRow {ρ : Type} (read : P ρ) (rs : ResultSet) : Inc (rs.nextRow read) := by
  unfold ResultSet.nextRow
  split
  · exact Inc.pure _
  · refine Inc.recvMsg.bind fun msg => Inc.getCaps.bind fun caps => ?_
    split
    · exact Inc.fail _
    · split
      · exact (Inc.readTerminator _ _).bind fun _ => Inc.pure _
      · exact (Inc.parse _ _).bind fun _ => Inc.pure _

/-- the test every loop makes is not changed by more bytes -/
theorem arrived_shorter (c c' : Conn) (b : Bytes) :
    (Spec.arrived c' b).inp.length < (Spec.arrived c b).inp.length ↔ c'.inp.length < c.inp.length := by
  unfold Spec.arrived
  simp only [List.length_append]
  omega

/-- a loop: one round, then either the end or another round with fewer bytes. `round` gives the result of the round, `next`
says whether it is the last. -/
theorem Inc.loop {σ α β : Type} (loop : σ → M β) (round : σ → M α) (next : σ → α → σ ⊕ M β)
    (he : ∀ s c, loop s c = (round s c).bind fun a c' =>
      match next s a with
      | .inl s' => if c'.inp.length < c.inp.length then loop s' c' else .hang
      | .inr m => m c')
    (hr : ∀ s, Inc (round s)) (hn : ∀ s a m, next s a = .inr m → Inc m) (s : σ) : Inc (loop s) := by
  have hg : ∀ s, Grows (loop s) := by
    intro s c
    induction hl : c.inp.length using Nat.strong_induction_on generalizing c s with
    | _ n ih =>
      intro d hd
      rw [he] at hd
      rcases Ends.bind hd with ⟨a, c1, h1, h2⟩ | ⟨e, h1⟩
      · refine ((hr s).1 c c1 (Or.inl ⟨a, h1⟩)).trans ?_
        cases hx : next s a with
        | inl s' =>
          rw [hx] at h2
          dsimp only at h2
          split at h2
          · exact ih _ (by omega) s' c1 rfl d h2
          · exact (Ends.hang h2).elim
        | inr m =>
          rw [hx] at h2
          exact (hn s a m hx).1 c1 d h2
      · exact (hr s).1 c d (Or.inr ⟨e, h1⟩)
  refine ⟨hg s, fun b c => ?_⟩
  induction hl : c.inp.length using Nat.strong_induction_on generalizing c s with
  | _ n ih =>
    rw [he s c, he s (Spec.arrived c b)]
    refine ((hr s).2 b c).bind (fun a c1 h1 => ?_) fun a c1 d hd => ?_
    · cases hx : next s a with
      | inl s' =>
        dsimp only
        by_cases hs : c1.inp.length < c.inp.length
        · rw [if_pos hs, if_pos ((arrived_shorter c c1 b).mpr hs)]
          exact ih _ (by omega) s' c1 rfl
        · rw [if_neg hs, if_neg (mt (arrived_shorter c c1 b).mp hs)]
          rfl
      | inr m => exact (hn s a m hx).2 b c1
    · cases hx : next s a with
      | inl s' =>
        rw [hx] at hd
        dsimp only at hd
        split at hd
        · exact hg s' c1 d hd
        · exact (Ends.hang hd).elim
      | inr m =>
        rw [hx] at hd
        exact (hn s a m hx).1 c1 d hd

theorem Inc.foldRows {ρ σ : Type} (read : P ρ) (f : σ → ρ → σ) (s : σ) (rs : ResultSet) : Inc (rs.foldRows read f s) := by
  refine Inc.loop (σ := σ × ResultSet) (fun x => x.2.foldRows read f x.1) (fun x => x.2.nextRow read)
    (fun x a => match a with | (some r, rs') => .inl (f x.1 r, rs') | (none, _) => .inr (Pure.pure x.1)) ?_
    (fun x => Inc.nextRow read x.2) ?_ (s, rs)
  · rintro ⟨s, rs⟩ c
    show ResultSet.foldRows read f s rs c = _
    rw [ResultSet.foldRows]
    cases rs.nextRow read c with
    | ok a c' => obtain ⟨_ | r, rs'⟩ := a <;> rfl
    | err e c' => rfl
    | panic => rfl
    | hang => rfl
  · rintro ⟨s, rs⟩ ⟨_ | r, rs'⟩ m h
    · cases h; exact Inc.pure _
    · cases h

theorem Inc.filesLoop (rs : ResultSet) (fs : List Cmd.BinlogFile) : Inc (Cmd.filesLoop rs fs) := by
  refine Inc.loop (σ := List Cmd.BinlogFile × ResultSet) (fun x => Cmd.filesLoop x.2 x.1)
    (fun x => x.2.nextRow (mapRow x.2.textRow Cmd.binlogFileMapper))
    (fun x a => match a with
      | (some (.ok f), rs') => .inl (x.1 ++ [f], rs')
      | (some (.err e), _) => .inr (M.fail e)
      | (some .panic, _) => .inr M.panic
      | (none, _) => .inr (Pure.pure x.1)) ?_
    (fun x => Inc.nextRow _ x.2) ?_ (fs, rs)
  · rintro ⟨fs, rs⟩ c
    show Cmd.filesLoop rs fs c = _
    rw [Cmd.filesLoop]
    cases rs.nextRow (mapRow rs.textRow Cmd.binlogFileMapper) c with
    | ok a c' => obtain ⟨_ | (r | e | _), rs'⟩ := a <;> rfl
    | err e c' => rfl
    | panic => rfl
    | hang => rfl
  · rintro ⟨fs, rs⟩ ⟨_ | (r | e | _), rs'⟩ m h
    · cases h; exact Inc.pure _
    · cases h
    · cases h; exact Inc.fail _
    · cases h; exact Inc.mpanic

theorem Inc.execLoop : Inc execLoop := by
  refine Inc.loop (σ := Unit) (fun _ => Mybin.execLoop) (fun _ => Mybin.recvMsg)
    (fun _ a => match a with
      | [] => .inr M.panic
      | b :: t =>
        if b = 0xff then .inr (Mybin.failWithErrPacket (b :: t))
        else if b = 0x00 then
          .inr (Mybin.getCaps >>= fun caps => M.parse (b :: t) (OkPacket.readFrom caps) >>= fun _ => Pure.pure ())
        else .inl ()) ?_ (fun _ => Inc.recvMsg) ?_ ()
  · rintro _ c
    rw [Mybin.execLoop]
    cases Mybin.recvMsg c with
    | ok a c' =>
      cases a with
      | nil => rfl
      | cons b t =>
        dsimp only
        show _ = (MR.ok (b :: t) c').bind _
        unfold MR.bind
        by_cases h1 : b = 0xff
        · simp only [h1, if_true]
        · by_cases h2 : b = 0x00
          · simp only [if_neg h1, if_pos h2]
            show _ = ((M.parse (b :: t) (OkPacket.readFrom c'.caps) c').bind fun _ => Pure.pure ())
            cases M.parse (b :: t) (OkPacket.readFrom c'.caps) c' <;> rfl
          · simp only [h1, h2, if_false]
    | err e c' => rfl
    | panic => rfl
    | hang => rfl
  · rintro _ a m h
    cases a with
    | nil => cases h; exact Inc.mpanic
    | cons b t =>
      dsimp only at h
      split at h
      · cases h; exact Inc.failWithErrPacket _
      · split at h
        · cases h
          exact Inc.getCaps.bind fun caps => (Inc.parse _ _).bind fun _ => Inc.pure _
        · cases h

theorem Inc.fieldListLoop (defs : List ColumnDefinition) : Inc (Cmd.fieldListLoop defs) := by
  refine Inc.loop Cmd.fieldListLoop (fun _ => Mybin.recvMsg >>= fun msg => Mybin.getCaps >>= fun caps =>
      M.parse msg (ComFieldListResponse.readFrom caps true))
    (fun defs a => match a with
      | .err p => .inr (M.fail (sqlError p))
      | .eof _ => .inr (Pure.pure defs)
      | .colDef d => .inl (defs ++ [d])) ?_
    (fun _ => Inc.recvMsg.bind fun _ => Inc.getCaps.bind fun _ => Inc.parse _ _) ?_ defs
  · rintro defs c
    rw [Cmd.fieldListLoop]
    show _ = ((Mybin.recvMsg c).bind _).bind _
    cases Mybin.recvMsg c with
    | ok msg c1 =>
      dsimp only
      show _ = (M.parse msg (ComFieldListResponse.readFrom c1.caps true) c1).bind _
      cases M.parse msg (ComFieldListResponse.readFrom c1.caps true) c1 with
      | ok a c2 => cases a <;> rfl
      | err e c' => rfl
      | panic => rfl
      | hang => rfl
    | err e c' => rfl
    | panic => rfl
    | hang => rfl
  · rintro defs a m h
    cases a with
    | err p => cases h; exact Inc.fail _
    | eof p => cases h; exact Inc.pure _
    | colDef d => cases h

theorem Inc.recvAndParse (s : BinlogStream) : Inc s.recvAndParse := by
  have : s.recvAndParse = (Mybin.recvMsg >>= fun msg => match msg with
      | [] => M.fail (.incomplete none)
      | b :: t =>
        if s.nonBlock && b == 0xfe then Pure.pure .theEnd
        else if b ≠ 0x00 then M.fail .packet
        else M.parse t (s.pv4.parseEvent s.validateChecksum) >>= fun o => match o with
          | some e => Pure.pure (.single e)
          | none => Pure.pure .unsupported) := by
    funext c
    unfold BinlogStream.recvAndParse
    show _ = (Mybin.recvMsg c).bind _
    cases Mybin.recvMsg c with
    | ok msg c' =>
      cases msg with
      | nil => rfl
      | cons b t =>
        show _ = (if s.nonBlock && b == 0xfe then _ else _ : M BinlogStreamEvent) c'
        by_cases h1 : (s.nonBlock && b == 0xfe) = true
        · simp only [if_pos h1]; rfl
        · simp only [if_neg h1]
          by_cases h2 : b ≠ 0x00
          · simp only [if_pos h2]; rfl
          · simp only [if_neg h2]
            show _ = (M.parse t (s.pv4.parseEvent s.validateChecksum) c').bind _
            cases M.parse t (s.pv4.parseEvent s.validateChecksum) c' with
            | ok o c'' => cases o <;> rfl
            | err e c' => rfl
            | panic => rfl
            | hang => rfl
    | err e c' => rfl
    | panic => rfl
    | hang => rfl
  rw [this]
  refine Inc.recvMsg.bind fun msg => ?_
  cases msg with
  | nil => exact Inc.fail _
  | cons b t =>
    dsimp only
    split
    · exact Inc.pure _
    · split
      · exact Inc.fail _
      · refine (Inc.parse _ _).bind fun o => ?_
        cases o <;> exact Inc.pure _

theorem Inc.nextEvent (s : BinlogStream) : Inc s.nextEvent := by
  have hl : Inc s.nextLoop := by
    refine Inc.loop BinlogStream.nextLoop (fun s => s.recvAndParse)
      (fun s a => match a with
        | .single e => .inr (Pure.pure (some e, s))
        | .unsupported => .inl s
        | .theEnd => .inr (Pure.pure (none, s))) ?_ Inc.recvAndParse ?_ s
    · rintro s c
      rw [BinlogStream.nextLoop]
      cases s.recvAndParse c with
      | ok a c' => cases a <;> rfl
      | err e c' => rfl
      | panic => rfl
      | hang => rfl
    · rintro s a m h
      cases a <;> cases h <;> exact Inc.pure _
  have : s.nextEvent = if s.completed then Pure.pure (none, s) else s.nextLoop := by
    funext c
    unfold BinlogStream.nextEvent
    cases s.completed <;> rfl
  rw [this]
  cases s.completed
  · exact hl
  · exact Inc.pure _

/-- what the end of a login does -/
theorem Inc.loggedIn (st : Nat) : Inc (fun c => .ok none { c with status := st, pktNr := 0 } : M (Option AuthPlugin)) :=
  ⟨fun c d h => by rw [Ends.ok h], fun _ _ => rfl⟩

theorem Inc.handshakeLoop (H : Hashes) (caps : Nat) (plugin : AuthPlugin) : Inc (handshakeLoop H caps plugin) := by
  refine Inc.loop (Mybin.handshakeLoop H caps)
    (fun plugin => Mybin.recvMsg >>= fun msg => M.parse msg (HandshakeMessage.readFrom caps) >>= fun a => match a with
      | .ok p => (fun c => .ok none { c with status := p.statusFlags, pktNr := 0 } : M (Option AuthPlugin))
      | .err _ => M.fail .packet
      | .switch _ => M.panic
      | .moreData m => M.ofExcept (plugin.next H m.pluginData) >>= fun x =>
          (if x.1.isEmpty then Pure.pure () else Mybin.sendMsg x.1 false : M Unit) >>= fun _ => Pure.pure (some x.2))
    (fun _ a => match a with
      | some pl => .inl pl
      | none => .inr (Pure.pure ())) ?_ ?_ ?_ plugin
  · rintro plugin c
    rw [Mybin.handshakeLoop]
    show _ = ((Mybin.recvMsg c).bind _).bind _
    cases Mybin.recvMsg c with
    | ok msg c1 =>
      dsimp only
      show _ = ((M.parse msg (HandshakeMessage.readFrom caps) c1).bind _).bind _
      cases M.parse msg (HandshakeMessage.readFrom caps) c1 with
      | ok a c2 =>
        cases a with
        | moreData m =>
          dsimp only
          show _ = (((M.ofExcept (plugin.next H m.pluginData) c2).bind _).bind _)
          unfold M.ofExcept
          cases plugin.next H m.pluginData with
          | error e => rfl
          | ok x =>
            obtain ⟨resp, pl⟩ := x
            cases hs : (if resp.isEmpty then Pure.pure () else Mybin.sendMsg resp false : M Unit) c2 <;>
              simp only [hs, MR.bind, Bind.bind] <;> rfl
        | ok p => rfl
        | err p => rfl
        | switch p => rfl
      | err e c' => rfl
      | panic => rfl
      | hang => rfl
    | err e c' => rfl
    | panic => rfl
    | hang => rfl
  · intro plugin
    refine Inc.recvMsg.bind fun msg => (Inc.parse _ _).bind fun a => ?_
    cases a with
    | ok p => exact Inc.loggedIn _
    | err p => exact Inc.fail _
    | switch p => exact Inc.mpanic
    | moreData m =>
      refine (Inc.ofExcept _).bind fun x => Inc.bind ?_ fun _ => Inc.pure _
      split
      · exact Inc.pure _
      · exact Inc.sendMsg _ _
  · rintro plugin a m h
    cases a <;> cases h
    exact Inc.pure _

theorem Inc.handshake (H : Hashes) (o : ConnOpts) : Inc (handshake H o) := by
  unfold Mybin.handshake
  refine Inc.recvMsg.bind fun _ => (Inc.parse _ _).bind fun _ => ?_
  refine (Inc.insertCap _).bind fun _ => (Inc.insertCap _).bind fun _ => (Inc.insertCap _).bind fun _ =>
    (Inc.insertCap _).bind fun _ => (Inc.insertCap _).bind fun _ => (Inc.insertCap _).bind fun _ =>
    (Inc.insertCap _).bind fun _ => (Inc.insertCap _).bind fun _ => (Inc.removeCap _).bind fun _ => ?_
  refine (Inc.ofExcept _).bind fun _ => (Inc.ofExcept _).bind fun _ => Inc.bind ?_ fun _ => Inc.getCaps.bind fun _ =>
    (Inc.sendMsg _ _).bind fun _ => Inc.handshakeLoop _ _ _
  split
  · exact Inc.pure _
  · exact Inc.insertCap _

theorem Inc.changeUserLoop (H : Hashes) (password : Bytes) (plugin : Option AuthPlugin) :
    Inc (changeUserLoop H password plugin) := by
  refine Inc.loop (Mybin.changeUserLoop H password)
    (fun plugin => Mybin.recvMsg >>= fun msg => Mybin.getCaps >>= fun caps =>
      M.parse msg (ComChangeUserResponse.readFrom caps) >>= fun a => match a with
      | .ok _ => (Pure.pure none : M (Option AuthPlugin))
      | .err p => M.fail (sqlError p)
      | .switch s => M.ofExcept (newAuthPlugin s.pluginName) >>= fun pl =>
          M.ofExcept (genInitAuthResp H pl password s.authPluginData) >>= fun x =>
          Mybin.sendMsg x.1 false >>= fun _ => Pure.pure (some x.2)
      | .moreData m => match plugin with
        | none => M.panic
        | some pl => M.ofExcept (pl.next H m.pluginData) >>= fun x =>
          Mybin.sendMsg x.1 false >>= fun _ => Pure.pure (some x.2))
    (fun _ a => match a with
      | some pl => .inl (some pl)
      | none => .inr (Pure.pure ())) ?_ ?_ ?_ plugin
  · rintro plugin c
    rw [Mybin.changeUserLoop]
    show _ = ((Mybin.recvMsg c).bind _).bind _
    cases Mybin.recvMsg c with
    | ok msg c1 =>
      dsimp only
      show _ = ((M.parse msg (ComChangeUserResponse.readFrom c1.caps) c1).bind _).bind _
      cases M.parse msg (ComChangeUserResponse.readFrom c1.caps) c1 with
      | ok a c2 =>
        cases a with
        | moreData m =>
          cases plugin with
          | none => rfl
          | some pl =>
            dsimp only
            show _ = (((M.ofExcept (pl.next H m.pluginData) c2).bind _).bind _)
            unfold M.ofExcept
            cases pl.next H m.pluginData with
            | error e => rfl
            | ok x =>
              obtain ⟨resp, pl⟩ := x
              cases hs : Mybin.sendMsg resp false c2 <;> simp only [hs, MR.bind, Bind.bind] <;> rfl
        | ok p => rfl
        | err p => rfl
        | switch s =>
          dsimp only
          show _ = (((M.ofExcept (newAuthPlugin s.pluginName) c2).bind _).bind _)
          unfold M.ofExcept
          cases newAuthPlugin s.pluginName with
          | error e => rfl
          | ok pl =>
            dsimp only
            show _ = (((M.ofExcept (genInitAuthResp H pl password s.authPluginData) c2).bind _).bind _)
            unfold M.ofExcept
            cases genInitAuthResp H pl password s.authPluginData with
            | error e => rfl
            | ok x =>
              obtain ⟨resp, pl⟩ := x
              cases hs : Mybin.sendMsg resp false c2 <;> simp only [hs, MR.bind, Bind.bind] <;> rfl
      | err e c' => rfl
      | panic => rfl
      | hang => rfl
    | err e c' => rfl
    | panic => rfl
    | hang => rfl
  · intro plugin
    refine Inc.recvMsg.bind fun msg => Inc.getCaps.bind fun _ => (Inc.parse _ _).bind fun a => ?_
    cases a with
    | ok p => exact Inc.pure _
    | err p => exact Inc.fail _
    | switch p =>
      exact (Inc.ofExcept _).bind fun _ => (Inc.ofExcept _).bind fun _ => (Inc.sendMsg _ _).bind fun _ => Inc.pure _
    | moreData m =>
      cases plugin with
      | none => exact Inc.mpanic
      | some pl => exact (Inc.ofExcept _).bind fun _ => (Inc.sendMsg _ _).bind fun _ => Inc.pure _
  · rintro plugin a m h
    cases a <;> cases h
    exact Inc.pure _

theorem Inc.changeUser (H : Hashes) (user password db : Bytes) (attrs : List ConnectAttr) :
    Inc (changeUser H user password db attrs) := by
  unfold Mybin.changeUser
  exact Inc.getCaps.bind fun _ => (Inc.sendMsg _ _).bind fun _ => Inc.changeUserLoop _ _ _

theorem Inc.okCommand (bs : Bytes) : Inc (okCommand bs) := by
  unfold Mybin.okCommand
  refine (Inc.sendMsg _ _).bind fun _ => Inc.recvMsg.bind fun _ => Inc.getCaps.bind fun _ => (Inc.parse _ _).bind fun r => ?_
  cases r
  · exact Inc.pure _
  · exact Inc.fail _

theorem Inc.fieldList (t w : Bytes) : Inc (Cmd.fieldList t w) := by
  unfold Cmd.fieldList
  exact (Inc.sendMsg _ _).bind fun _ => Inc.fieldListLoop _

theorem Inc.statistics : Inc Cmd.statistics := by
  unfold Cmd.statistics
  refine (Inc.sendMsg _ _).bind fun _ => Inc.recvMsg.bind fun _ => ?_
  split
  · exact Inc.pure _
  · exact Inc.fail _

theorem Inc.debug : Inc Cmd.debug := by
  unfold Cmd.debug
  refine (Inc.sendMsg _ _).bind fun _ => Inc.recvMsg.bind fun _ => Inc.getCaps.bind fun _ => (Inc.parse _ _).bind fun r => ?_
  cases r
  · exact Inc.pure _
  · exact Inc.fail _

theorem Inc.ping : Inc Cmd.ping := by
  unfold Cmd.ping
  exact (Inc.sendMsg _ _).bind fun _ => Inc.recvMsg.bind fun _ => Inc.getCaps.bind fun _ => (Inc.parse _ _).bind fun r =>
    Inc.pure _

theorem Inc.setMultiStmts (multi : Bool) : Inc (Cmd.setMultiStmts multi) := by
  unfold Cmd.setMultiStmts
  refine (Inc.sendMsg _ _).bind fun _ => Inc.recvMsg.bind fun _ => Inc.getCaps.bind fun _ => (Inc.parse _ _).bind fun r => ?_
  cases r
  · dsimp only
    split
    · exact Inc.insertCap _
    · exact Inc.removeCap _
  · exact Inc.fail _

theorem Inc.query (q : Bytes) : Inc (Query.qry q) := by
  unfold Query.qry
  exact (Inc.sendMsg _ _).bind fun _ => Inc.newResultSet _

theorem Inc.queryExec (q : Bytes) : Inc (Query.exec q) := by
  unfold Query.exec
  exact (Inc.sendMsg _ _).bind fun _ => Inc.execLoop

theorem Inc.prepare (q : Bytes) : Inc (Stmt.prepare q) := by
  unfold Stmt.prepare
  refine (Inc.sendMsg _ _).bind fun _ => Inc.recvMsg.bind fun msg => ?_
  cases msg with
  | nil => exact Inc.fail _
  | cons b t =>
    refine Inc.bind ?_ fun _ => (Inc.recvDefs _).bind fun _ => (Inc.recvDefs _).bind fun _ => Inc.pure _
    split
    · exact Inc.failWithErrPacket _
    · exact Inc.parse _ _

theorem Inc.send (s : PreparedStmt) (ps : List StmtColumnValue) : Inc (s.send ps) := by
  unfold PreparedStmt.send
  split
  · exact Inc.mpanic
  · split
    · exact Inc.mpanic
    · exact Inc.sendMsg _ _

theorem Inc.exec (s : PreparedStmt) (ps : List StmtColumnValue) : Inc (s.exec ps) := by
  unfold PreparedStmt.exec
  exact (Inc.send s ps).bind fun _ => Inc.execLoop

theorem Inc.stmtQry (s : PreparedStmt) (ps : List StmtColumnValue) : Inc (s.qry ps) := by
  unfold PreparedStmt.qry
  exact (Inc.send s ps).bind fun _ => Inc.newResultSet _

theorem Inc.stmtClose (s : PreparedStmt) : Inc s.close := Inc.sendMsg _ _

theorem Inc.rsClose (rs : ResultSet) : Inc rs.close := by
  unfold ResultSet.close
  split
  · exact (Inc.sendMsg _ _).bind fun _ => Inc.pure _
  · exact Inc.pure _

theorem sendLoop_no_err (bs : Bytes) (c : Conn) (e : Err) (c' : Conn) : sendLoop bs c ≠ .err e c' := by
  induction hn : bs.length using Nat.strong_induction_on generalizing bs c with
  | _ n ih =>
    by_cases hge : bs.length ≥ maxPacket
    · have hl : sendLoop bs = (sendPacket (bs.take maxPacket) >>= fun _ => sendLoop (bs.drop maxPacket)) := by
        rw [sendLoop, dif_pos hge]
      rw [hl, M.bind_apply]
      unfold sendPacket
      dsimp only
      split
      · exact ih _ (by rw [List.length_drop]; unfold maxPacket at hge ⊢; omega) _ _ rfl
      · intro h; cases h
    · have hl : sendLoop bs = sendPacket bs := by rw [sendLoop, dif_neg hge]
      rw [hl]
      unfold sendPacket
      dsimp only
      split <;> (intro h; cases h)

/-- closing a statement always works -/
theorem close_sends (s : PreparedStmt) (c : Conn) : s.close c =
    .ok () { c with out := c.out ++ wireOf (ComStmtClose.writeTo [] s.stmtId).1 0, pktNr := 1 } := by
  unfold PreparedStmt.close sendMsg
  have hl : (ComStmtClose.writeTo [] s.stmtId).1.length / maxPacket = 0 := by
    have h5 : (ComStmtClose.writeTo [] s.stmtId).1.length = 5 := rfl
    rw [h5]
    rfl
  have := sendLoop_wireOf (ComStmtClose.writeTo [] s.stmtId).1 { c with pktNr := 0 } (by rw [hl]; show 0 + 0 < 255; omega)
  rw [hl] at this
  exact this

theorem execClose_ends {s : PreparedStmt} {ps : List StmtColumnValue} {c d : Conn} (h : Ends (s.execClose ps c) d) :
    ∃ d0, Ends (s.exec ps c) d0 ∧ d.out = d0.out ++ wireOf (ComStmtClose.writeTo [] s.stmtId).1 0 := by
  unfold PreparedStmt.execClose at h
  cases hx : s.exec ps c with
  | ok v c' =>
    simp only [hx, close_sends] at h
    exact ⟨c', Or.inl ⟨v, rfl⟩, by rw [Ends.ok h]⟩
  | err e c' =>
    simp only [hx, close_sends] at h
    exact ⟨c', Or.inr ⟨e, rfl⟩, by rw [Ends.err h]⟩
  | panic => simp only [hx] at h; exact (Ends.panic h).elim
  | hang => simp only [hx] at h; exact (Ends.hang h).elim

/-- what was sent when the answer to an execution is missing -/
theorem exec_sent {s : PreparedStmt} {ps : List StmtColumnValue} {c d d' : Conn} (b : Bytes)
    (h : Ends (s.exec ps c) d) (h' : Ends (s.exec ps (Spec.arrived c b)) d') : d'.out = d.out := by
  unfold PreparedStmt.exec at h h'
  have hs := (Inc.send s ps).2 b c
  have he : ∀ e c0 c1, s.send ps c0 ≠ .err e c1 := by
    intro e c0 c1
    unfold PreparedStmt.send
    cases ComStmtExecute.single s.stmtId ps with
    | none => intro h; cases h
    | some cmd =>
      dsimp only
      cases cmd.writeTo [] with
      | none => intro h; cases h
      | some x => exact sendLoop_no_err x.1 { c0 with pktNr := 0 } e c1
  rcases Ends.bind h with ⟨a, c1, h1, h2⟩ | ⟨e, h1⟩
  · rw [h1] at hs
    rcases Ends.bind h' with ⟨a', c1', h1', h2'⟩ | ⟨e', h1'⟩
    · have hs : s.send ps (Spec.arrived c b) = .ok a (Spec.arrived c1 b) := hs
      rw [hs] at h1'
      cases h1'
      rw [Quiet.execLoop _ _ h2, Quiet.execLoop _ _ h2']
      rfl
    · exact absurd h1' (he _ _ _)
  · exact absurd h1 (he _ _ _)

theorem Inc.execClose (s : PreparedStmt) (ps : List StmtColumnValue) : Inc (s.execClose ps) := by
  refine ⟨fun c d h => ?_, fun b c => ?_⟩
  · obtain ⟨d0, h0, h1⟩ := execClose_ends h
    rw [h1]
    exact ((Inc.exec s ps).1 c d0 h0).trans (List.prefix_append _ _)
  · have hx := (Inc.exec s ps).2 b c
    have hsent := @exec_sent s ps c
    have hends := @execClose_ends s ps (Spec.arrived c b)
    unfold PreparedStmt.execClose at hends ⊢
    cases hr : s.exec ps c with
    | ok v c' =>
      rw [hr] at hx
      have hx : s.exec ps (Spec.arrived c b) = .ok v (Spec.arrived c' b) := hx
      simp only [hx, close_sends]
      rfl
    | err e c' =>
      rw [hr] at hx
      rcases (hx : _ ∨ _) with hx | ⟨rfl, hx⟩
      · simp only [hx, close_sends]
        exact Or.inl rfl
      · simp only [close_sends] at hends ⊢
        refine Or.inr ⟨rfl, fun d hd => ?_⟩
        obtain ⟨d0, h0, h1⟩ := hends hd
        have := hsent b (d := c') (d' := d0) (by rw [hr]; exact Or.inr ⟨_, rfl⟩) h0
        rw [h1, this]
    | panic =>
      rw [hr] at hx
      have hx : s.exec ps (Spec.arrived c b) = .panic := hx
      simp only [hx]
      rfl
    | hang =>
      rw [hr] at hx
      have hx : s.exec ps (Spec.arrived c b) = .hang := hx
      simp only [hx]
      rfl

theorem Inc.firstMapped {α : Type} (mapper : List (Option Bytes) → Res α) (rs : ResultSet) :
    Inc (Cmd.firstMapped mapper rs) := by
  unfold Cmd.firstMapped ResultSet.firstOrNone
  refine (Inc.foldRows _ _ _ _).bind fun r => ?_
  cases r with
  | none => exact Inc.pure _
  | some v => exact (Inc.ofRes _).bind fun _ => Inc.pure _

theorem Inc.getVar {α : Type} (conv : Option Bytes → Res α) (name : Bytes) (global : Bool) :
    Inc (Cmd.getVar conv name global) := by
  unfold Cmd.getVar
  exact (Inc.query _).bind fun _ => Inc.firstMapped _ _

theorem Inc.getUserVar {α : Type} (conv : Option Bytes → Res α) (name : Bytes) : Inc (Cmd.getUserVar conv name) := by
  unfold Cmd.getUserVar
  exact (Inc.query _).bind fun _ => Inc.firstMapped _ _

theorem Inc.setVar (name : Bytes) (v : StmtColumnValue) (global : Bool) : Inc (Cmd.setVar name v global) := by
  unfold Cmd.setVar
  exact (Inc.prepare _).bind fun _ => Inc.execClose _ _

theorem Inc.setUserVar (name : Bytes) (v : StmtColumnValue) : Inc (Cmd.setUserVar name v) := by
  unfold Cmd.setUserVar
  exact (Inc.prepare _).bind fun _ => Inc.execClose _ _

theorem Inc.binlogFiles : Inc Cmd.binlogFiles := by
  unfold Cmd.binlogFiles
  exact (Inc.query _).bind fun _ => Inc.filesLoop _ _

theorem Inc.first {ρ : Type} (read : P ρ) (rs : ResultSet) : Inc (rs.first read) := by
  unfold ResultSet.first ResultSet.firstOrNone
  refine (Inc.foldRows _ _ _ _).bind fun r => ?_
  cases r with
  | none => exact Inc.fail _
  | some v => exact Inc.pure _

theorem Inc.setup (r : BinlogRequest) (uuid : Bytes) (random : Nat) : Inc (r.setup uuid random) := by
  unfold BinlogRequest.setup
  exact (Inc.getVar _ _ _).bind fun _ => (Inc.someOr _ _).bind fun _ => (Inc.setUserVar _ _).bind fun _ =>
    (Inc.getVar _ _ _).bind fun _ => (Inc.someOr _ _).bind fun _ => (Inc.setUserVar _ _).bind fun _ =>
    (Inc.getVar _ _ _).bind fun _ => (Inc.someOr _ _).bind fun _ =>
    (Inc.getVar _ _ _).bind fun _ => (Inc.someOr _ _).bind fun _ => (Inc.setUserVar _ _).bind fun _ =>
    (Inc.okCommand _).bind fun _ => Inc.pure _

theorem Inc.firstEvents (r : BinlogRequest) (checksum : Bool) : Inc (r.firstEvents checksum) := by
  unfold BinlogRequest.firstEvents
  refine Inc.recvMsg.bind fun msg => ?_
  cases msg with
  | nil => exact Inc.fail _
  | cons b t =>
    dsimp only
    split
    · exact Inc.failWithErrPacket _
    · split
      · exact Inc.getCaps.bind fun _ => (Inc.parse _ _).bind fun _ => Inc.pure _
      · split
        · exact (Inc.parse _ _).bind fun _ => Inc.recvMsg.bind fun _ => (Inc.parse _ _).bind fun _ => Inc.pure _
        · exact Inc.fail _

theorem Inc.requestStream (r : BinlogRequest) (uuid : Bytes) (random : Nat) : Inc (r.requestStream uuid random) := by
  unfold BinlogRequest.requestStream
  exact (Inc.setup _ _ _).bind fun _ => (Inc.sendMsg _ _).bind fun _ => Inc.firstEvents _ _

theorem Inc.processInfo : Inc Cmd.processInfo := by
  unfold Cmd.processInfo
  exact (Inc.sendMsg _ _).bind fun _ => Inc.newResultSet _

theorem Inc.recover {α : Type} {x : M α} {h : Err → M α} (hx : Inc x) (hh : ∀ e, Inc (h e)) : Inc (Spec.recover x h) := by
  have hg : ∀ c d, Ends (Spec.recover x h c) d → ∃ d0, Ends (x c) d0 ∧ d0.out <+: d.out := by
    intro c d hd
    unfold Spec.recover at hd
    cases hr : x c with
    | ok v c' => rw [hr] at hd; exact ⟨d, hd, List.prefix_refl _⟩
    | err e c' =>
      simp only [hr] at hd
      split at hd
      · exact ⟨d, hd, List.prefix_refl _⟩
      · exact ⟨c', Or.inr ⟨e, rfl⟩, (hh e).1 c' d hd⟩
    | panic => rw [hr] at hd; exact (Ends.panic hd).elim
    | hang => rw [hr] at hd; exact (Ends.hang hd).elim
  refine ⟨fun c d hd => ?_, fun b c => ?_⟩
  · obtain ⟨d0, h0, h1⟩ := hg c d hd
    exact (hx.1 c d0 h0).trans h1
  · have ha := hx.2 b c
    have hg' := hg (Spec.arrived c b)
    unfold Spec.recover at hg' ⊢
    cases hr : x c with
    | ok v c' =>
      rw [hr] at ha
      have ha : x (Spec.arrived c b) = .ok v (Spec.arrived c' b) := ha
      simp only [ha]
      rfl
    | err e c' =>
      rw [hr] at ha
      rcases (ha : _ ∨ _) with ha | ⟨rfl, ha⟩
      · simp only [ha]
        by_cases he : e = .io
        · rw [if_pos he, if_pos he]
          exact Or.inl rfl
        · rw [if_neg he, if_neg he]
          exact (hh e).2 b c'
      · simp only [if_true]
        refine Or.inr ⟨rfl, fun d hd => ?_⟩
        obtain ⟨d0, h0, h1⟩ := hg' d hd
        exact (ha d0 h0).trans h1
    | panic =>
      rw [hr] at ha
      have ha : x (Spec.arrived c b) = .panic := ha
      simp only [ha]
      rfl
    | hang =>
      rw [hr] at ha
      have ha : x (Spec.arrived c b) = .hang := ha
      simp only [ha]
      rfl

theorem Inc.application {α : Type} {run : M α} (h : Spec.Application run) : Inc run := by
  induction h with
  | login H o => exact Inc.handshake H o
  | changeUser H u p d a => exact Inc.changeUser H u p d a
  | quit => exact Inc.sendMsg _ _
  | initDb db => exact Inc.okCommand _
  | createDb db => exact Inc.okCommand _
  | dropDb db => exact Inc.okCommand _
  | refresh f => exact Inc.okCommand _
  | processKill id => exact Inc.okCommand _
  | resetConnection => exact Inc.okCommand _
  | registerSlave id => exact Inc.okCommand _
  | fieldList t w => exact Inc.fieldList t w
  | statistics => exact Inc.statistics
  | debug => exact Inc.debug
  | ping => exact Inc.ping
  | setMultiStmts m => exact Inc.setMultiStmts m
  | processInfo => exact Inc.processInfo
  | binlogFiles => exact Inc.binlogFiles
  | getVar conv n g => exact Inc.getVar conv n g
  | setVar n v g => exact Inc.setVar n v g
  | getUserVar conv n => exact Inc.getUserVar conv n
  | setUserVar n v => exact Inc.setUserVar n v
  | queryExec q => exact Inc.queryExec q
  | query q => exact Inc.query q
  | nextRow rs read => exact Inc.nextRow read rs
  | all rs read => exact Inc.foldRows _ _ _ _
  | first rs read => exact Inc.first read rs
  | firstOrNone rs read => exact Inc.foldRows _ _ _ _
  | count rs read => exact Inc.foldRows _ _ _ _
  | closeResult rs => exact Inc.rsClose rs
  | prepare q => exact Inc.prepare q
  | exec s ps => exact Inc.exec s ps
  | execClose s ps => exact Inc.execClose s ps
  | qry s ps => exact Inc.stmtQry s ps
  | close s => exact Inc.stmtClose s
  | requestStream r u n => exact Inc.requestStream r u n
  | nextEvent s => exact Inc.nextEvent s
  | done a => exact Inc.pure a
  | giveUp e => exact Inc.fail e
  | andThen x f _ _ hx hf => exact hx.bind hf
  | recover x h _ _ hx hh => exact hx.recover hh

/-! ### the theorem -/

/-- C93: whatever an application does with the operations of the API, what arrives after the bytes it used changes nothing:
not its result, not what it sends, and these bytes are left unread -/
theorem C93_settled {α : Type} (run : M α) (h : Spec.Application run) : Spec.Settled run := (Inc.application h).settled

/-- the answer to `statistics`, on the way: the first byte of the next answer may be there or not -/
theorem example_statistics (b : Bytes) : Cmd.statistics { inp := [2, 0, 0, 1, 0x55, 0x70] ++ b } =
    .ok [0x55, 0x70] { inp := b, out := [1, 0, 0, 0, 9], pktNr := 2 } := by
  have h : Cmd.statistics { inp := [2, 0, 0, 1, 0x55, 0x70] } =
      .ok [0x55, 0x70] { inp := [], out := [1, 0, 0, 0, 9], pktNr := 2 } := by
    have hs : sendMsg [9] true { inp := [2, 0, 0, 1, 0x55, 0x70] } =
        .ok () { inp := [2, 0, 0, 1, 0x55, 0x70], out := [1, 0, 0, 0, 9], pktNr := 1 } := by
      unfold sendMsg
      rw [sendLoop, dif_neg (by unfold maxPacket; decide)]
      rfl
    have hr : recvMsg { inp := [2, 0, 0, 1, 0x55, 0x70], out := [1, 0, 0, 0, 9], pktNr := 1 } =
        .ok [0x55, 0x70] { inp := [], out := [1, 0, 0, 0, 9], pktNr := 2 } := by
      unfold recvMsg
      rw [recvLoop]
      rfl
    unfold Cmd.statistics
    show (sendMsg [9] true _).bind _ = _
    rw [hs]
    show (recvMsg _).bind _ = _
    rw [hr]
    rfl
  exact (C93_settled _ Spec.Application.statistics).value _ _ _ b h

example : Spec.Application (Cmd.statistics >>= fun s => Spec.recover (Query.exec s) fun _ => Cmd.ping) :=
  .andThen _ _ .statistics fun s => .recover _ _ (.queryExec s) fun _ => .ping

/-! ### the programs -/

/-- more bytes on the helper connection -/
def moreHelper (b : Bytes) (st : DmlState) : DmlState := { st with helper := Spec.arrived st.helper b }

/-- the next step, with more bytes on the helper connection -/
def NextAgree (b : Bytes) : DmlNext → DmlNext → Prop
  | .go st, n' => n' = .go (moreHelper b st)
  | .stop, n' => n' = .stop
  | .err e, n' => n' = .err e ∨ e = .io
  | .panic, n' => n' = .panic
  | .hang, n' => n' = .hang

theorem onTableMap_agree (b : Bytes) (o : DmlOpts) (st : DmlState) (data : Bytes) :
    NextAgree b (onTableMap o st data) (onTableMap o (moreHelper b st) data) := by
  unfold onTableMap
  cases TableMapData.readFrom data with
  | ok d r =>
    dsimp only
    by_cases hk : (st.tbls.lookup d.tableId).isSome ∨ d.tableId ∈ st.skip
    · rw [if_pos hk, if_pos (show ((moreHelper b st).tbls.lookup d.tableId).isSome ∨ d.tableId ∈ (moreHelper b st).skip from hk)]
      rfl
    · rw [if_neg hk, if_neg (show ¬ (((moreHelper b st).tbls.lookup d.tableId).isSome ∨ d.tableId ∈ (moreHelper b st).skip) from hk)]
      cases TableMapData.tableMap d.payload with
      | ok tm r =>
        dsimp only
        by_cases hd : ¬ filterOk o.databaseFilter tm.schemaName
        · rw [if_pos hd, if_pos hd]
          rfl
        · rw [if_neg hd, if_neg hd]
          by_cases ht : ¬ filterOk o.tableFilter tm.tableName
          · rw [if_pos ht, if_pos ht]
            rfl
          · rw [if_neg ht, if_neg ht]
            have h : Inc (fetchColumns tm.schemaName tm.tableName) := (Inc.okCommand _).bind fun _ => Inc.fieldList _ _
            have h := h.2 b st.helper
            change Agree b _ (fetchColumns tm.schemaName tm.tableName (moreHelper b st).helper) at h
            cases hf : fetchColumns tm.schemaName tm.tableName st.helper with
            | ok defs h' =>
              rw [hf] at h
              have h : fetchColumns tm.schemaName tm.tableName (moreHelper b st).helper = .ok defs (Spec.arrived h' b) := h
              rw [h]
              rfl
            | err e h' =>
              rw [hf] at h
              rcases (h : _ ∨ _) with h | ⟨rfl, -⟩
              · rw [h]; exact Or.inl rfl
              · exact Or.inr rfl
            | panic =>
              rw [hf] at h
              have h : fetchColumns tm.schemaName tm.tableName (moreHelper b st).helper = .panic := h
              rw [h]
              rfl
            | hang =>
              rw [hf] at h
              have h : fetchColumns tm.schemaName tm.tableName (moreHelper b st).helper = .hang := h
              rw [h]
              rfl
      | err e r => exact Or.inl rfl
      | panic => rfl
      | hang => rfl
  | err e r => exact Or.inl rfl
  | panic => rfl
  | hang => rfl

theorem onRows_agree (b : Bytes) (limit : Nat) (lines : TableMeta → RowsDataV2 → R (List DmlLine)) (st : DmlState) (data : Bytes) :
    (onRows limit lines (moreHelper b st) data).1 = (onRows limit lines st data).1 ∧
      NextAgree b (onRows limit lines st data).2 (onRows limit lines (moreHelper b st) data).2 := by
  unfold onRows
  cases RowsDataV2.readFrom data with
  | ok d r =>
    dsimp only
    by_cases hk : d.tableId ∈ st.skip
    · rw [if_pos hk, if_pos (show d.tableId ∈ (moreHelper b st).skip from hk)]
      exact ⟨rfl, rfl⟩
    · rw [if_neg hk, if_neg (show ¬ d.tableId ∈ (moreHelper b st).skip from hk),
        show (moreHelper b st).tbls = st.tbls from rfl, show (moreHelper b st).nRows = st.nRows from rfl]
      cases st.tbls.lookup d.tableId with
      | none => exact ⟨rfl, rfl⟩
      | some tm =>
        dsimp only
        cases lines tm d with
        | ok ls r =>
          dsimp only
          rcases printLines limit st.nRows ls with ⟨out, _ | n⟩
          · exact ⟨rfl, rfl⟩
          · exact ⟨rfl, rfl⟩
        | err e r => exact ⟨rfl, Or.inl rfl⟩
        | panic => exact ⟨rfl, rfl⟩
        | hang => exact ⟨rfl, rfl⟩
  | err e r => exact ⟨rfl, Or.inl rfl⟩
  | panic => exact ⟨rfl, rfl⟩
  | hang => exact ⟨rfl, rfl⟩

theorem onEvent_agree (b : Bytes) (ft : FloatText) (o : DmlOpts) (st : DmlState) (ev : Event) :
    (onEvent ft o (moreHelper b st) ev).1 = (onEvent ft o st ev).1 ∧
      NextAgree b (onEvent ft o st ev).2 (onEvent ft o (moreHelper b st) ev).2 := by
  unfold onEvent
  split
  · exact ⟨rfl, onTableMap_agree b o st ev.data⟩
  · exact onRows_agree b _ _ st _
  · exact onRows_agree b _ _ st _
  · exact onRows_agree b _ _ st _
  · split
    · exact ⟨rfl, rfl⟩
    · exact ⟨rfl, rfl⟩
  · exact ⟨rfl, rfl⟩

/-- the helper connection after an event that did not wait for it -/
theorem helperAfter_agree (b : Bytes) (ft : FloatText) (o : DmlOpts) (st : DmlState) (ev : Event) (e : Err)
    (he : (onEvent ft o st ev).2 = .err e) (hio : e ≠ .io) :
    helperAfter o (moreHelper b st) ev = (helperAfter o st ev).map (Spec.arrived · b) := by
  unfold helperAfter
  unfold onEvent at he
  split
  · rename_i hk
    simp only [hk] at he
    unfold onTableMap at he
    cases hr : TableMapData.readFrom ev.data with
    | ok d r =>
      simp only [hr] at he ⊢
      by_cases hn : (st.tbls.lookup d.tableId).isSome ∨ d.tableId ∈ st.skip
      · rw [if_pos hn, if_pos (show ((moreHelper b st).tbls.lookup d.tableId).isSome ∨ d.tableId ∈ (moreHelper b st).skip from hn)]
        rfl
      · rw [if_neg hn] at he
        rw [if_neg hn, if_neg (show ¬ (((moreHelper b st).tbls.lookup d.tableId).isSome ∨ d.tableId ∈ (moreHelper b st).skip) from hn)]
        cases ht : TableMapData.tableMap d.payload with
        | ok tm r =>
          simp only [ht] at he ⊢
          by_cases h1 : ¬ filterOk o.databaseFilter tm.schemaName
          · rw [if_pos h1, if_pos h1]
            rfl
          · rw [if_neg h1] at he
            rw [if_neg h1, if_neg h1]
            by_cases h2 : ¬ filterOk o.tableFilter tm.tableName
            · rw [if_pos h2, if_pos h2]
              rfl
            · rw [if_neg h2] at he
              rw [if_neg h2, if_neg h2]
              have h : Inc (fetchColumns tm.schemaName tm.tableName) := (Inc.okCommand _).bind fun _ => Inc.fieldList _ _
              have h := h.2 b st.helper
              change Agree b _ (fetchColumns tm.schemaName tm.tableName (moreHelper b st).helper) at h
              cases hf : fetchColumns tm.schemaName tm.tableName st.helper with
              | ok defs h' => simp only [hf] at he; cases he
              | err e' h' =>
                rw [hf] at h
                simp only [hf] at he
                cases he
                rcases (h : _ ∨ _) with h | ⟨rfl, -⟩
                · rw [h]; rfl
                · exact absurd rfl hio
              | panic => simp only [hf] at he; cases he
              | hang => simp only [hf] at he; cases he
        | err e' r => rfl
        | panic => rfl
        | hang => rfl
    | err e' r => rfl
    | panic => rfl
    | hang => rfl
  · rfl

/-- the loop of `dml`, with more bytes on both connections -/
theorem dmlLoop_agree (b1 b2 : Bytes) (ft : FloatText) (o : DmlOpts) (s : BinlogStream) (st : DmlState) (c : Conn) :
    (dmlLoop ft o s st c).1 <+: (dmlLoop ft o s (moreHelper b2 st) (Spec.arrived c b1)).1 ∧
      ((dmlLoop ft o s st c).2 ≠ .err .io →
        dmlLoop ft o s (moreHelper b2 st) (Spec.arrived c b1) = dmlLoop ft o s st c ∧
        dmlConns ft o s (moreHelper b2 st) (Spec.arrived c b1) =
          (dmlConns ft o s st c).map fun x => (Spec.arrived x.1 b1, Spec.arrived x.2 b2)) := by
  induction hn : c.inp.length using Nat.strong_induction_on generalizing c s st with
  | _ n ih =>
    have hi := (Inc.nextEvent s).2 b1 c
    rw [dmlLoop.eq_def ft o s st c, dmlConns.eq_def ft o s st c]
    cases hx : s.nextEvent c with
    | ok v c' =>
      rw [hx] at hi
      have hi : s.nextEvent (Spec.arrived c b1) = .ok v (Spec.arrived c' b1) := hi
      rw [dmlLoop.eq_def ft o s (moreHelper b2 st), dmlConns.eq_def ft o s (moreHelper b2 st), hi]
      obtain ⟨_ | ev, s'⟩ := v
      · exact ⟨List.prefix_refl _, fun _ => ⟨rfl, rfl⟩⟩
      · dsimp only
        obtain ⟨ho, hnx⟩ := onEvent_agree b2 ft o st ev
        have hh := helperAfter_agree b2 ft o st ev
        rcases h1 : onEvent ft o st ev with ⟨out, nx⟩
        rcases h2 : onEvent ft o (moreHelper b2 st) ev with ⟨out', nx'⟩
        rw [h1, h2] at ho hnx
        rw [h1] at hh
        dsimp only at ho hnx hh
        subst ho
        cases nx with
        | go st' =>
          have hnx : nx' = .go (moreHelper b2 st') := hnx
          subst hnx
          dsimp only
          by_cases hs : c'.inp.length < c.inp.length
          · rw [if_pos hs, if_pos hs, if_pos ((arrived_shorter c c' b1).mpr hs), if_pos ((arrived_shorter c c' b1).mpr hs)]
            obtain ⟨i1, i2⟩ := ih _ (by omega) s' st' c' rfl
            refine ⟨?_, fun he => ?_⟩
            · exact (List.prefix_append_right_inj _).mpr i1
            · obtain ⟨i3, i4⟩ := i2 he
              rw [i3, i4]
              exact ⟨rfl, rfl⟩
          · rw [if_neg hs, if_neg hs, if_neg (mt (arrived_shorter c c' b1).mp hs),
              if_neg (mt (arrived_shorter c c' b1).mp hs)]
            exact ⟨List.prefix_refl _, fun _ => ⟨rfl, rfl⟩⟩
        | stop =>
          have hnx : nx' = .stop := hnx
          subst hnx
          exact ⟨List.prefix_refl _, fun _ => ⟨rfl, rfl⟩⟩
        | err e =>
          rcases (hnx : _ ∨ _) with rfl | rfl
          · refine ⟨List.prefix_refl _, fun he => ⟨rfl, ?_⟩⟩
            dsimp only
            rw [hh e rfl fun h => he (by rw [h])]
            cases helperAfter o st ev <;> rfl
          · refine ⟨?_, fun he => absurd rfl he⟩
            cases nx' with
            | go st' =>
              dsimp only
              split
              · exact List.prefix_append _ _
              · exact List.prefix_refl _
            | stop => exact List.prefix_refl _
            | err e => exact List.prefix_refl _
            | panic => exact List.prefix_refl _
            | hang => exact List.prefix_refl _
        | panic =>
          have hnx : nx' = .panic := hnx
          subst hnx
          exact ⟨List.prefix_refl _, fun _ => ⟨rfl, rfl⟩⟩
        | hang =>
          have hnx : nx' = .hang := hnx
          subst hnx
          exact ⟨List.prefix_refl _, fun _ => ⟨rfl, rfl⟩⟩
    | err e c' =>
      rw [hx] at hi
      refine ⟨List.nil_prefix, fun he => ?_⟩
      rcases (hi : _ ∨ _) with hi | ⟨rfl, -⟩
      · rw [dmlLoop.eq_def ft o s (moreHelper b2 st), dmlConns.eq_def ft o s (moreHelper b2 st), hi]
        exact ⟨rfl, rfl⟩
      · exact absurd rfl he
    | panic =>
      rw [hx] at hi
      have hi : s.nextEvent (Spec.arrived c b1) = .panic := hi
      rw [dmlLoop.eq_def ft o s (moreHelper b2 st), dmlConns.eq_def ft o s (moreHelper b2 st), hi]
      exact ⟨List.prefix_refl _, fun _ => ⟨rfl, rfl⟩⟩
    | hang =>
      rw [hx] at hi
      have hi : s.nextEvent (Spec.arrived c b1) = .hang := hi
      rw [dmlLoop.eq_def ft o s (moreHelper b2 st), dmlConns.eq_def ft o s (moreHelper b2 st), hi]
      exact ⟨List.prefix_refl _, fun _ => ⟨rfl, rfl⟩⟩

theorem printDmls_agree (b1 b2 : Bytes) (ft : FloatText) (o : DmlOpts) (uuid : Bytes) (random : Nat) (c h : Conn) :
    (printDmls ft o uuid random c h).1 <+: (printDmls ft o uuid random (Spec.arrived c b1) (Spec.arrived h b2)).1 ∧
      ((printDmls ft o uuid random c h).2 ≠ .err .io →
        printDmls ft o uuid random (Spec.arrived c b1) (Spec.arrived h b2) = printDmls ft o uuid random c h ∧
        dmlSent ft o uuid random (Spec.arrived c b1) (Spec.arrived h b2) = dmlSent ft o uuid random c h) := by
  have hi := (Inc.requestStream o.request uuid random).2 b1 c
  unfold printDmls dmlSent
  cases hx : o.request.requestStream uuid random c with
  | ok s c' =>
    rw [hx] at hi
    have hi : o.request.requestStream uuid random (Spec.arrived c b1) = .ok s (Spec.arrived c' b1) := hi
    rw [hi]
    obtain ⟨i1, i2⟩ := dmlLoop_agree b1 b2 ft o s ⟨[], [], 0, h⟩ c'
    refine ⟨i1, fun he => ?_⟩
    obtain ⟨i3, i4⟩ := i2 he
    refine ⟨i3, ?_⟩
    show (dmlConns ft o s (moreHelper b2 ⟨[], [], 0, h⟩) (Spec.arrived c' b1)).map _ = _
    rw [i4]
    dsimp only
    cases dmlConns ft o s ⟨[], [], 0, h⟩ c' <;> rfl
  | err e c' =>
    rw [hx] at hi
    refine ⟨List.nil_prefix, fun he => ?_⟩
    rcases (hi : _ ∨ _) with hi | ⟨rfl, -⟩
    · rw [hi]
      exact ⟨rfl, rfl⟩
    · exact absurd rfl he
  | panic =>
    rw [hx] at hi
    have hi : o.request.requestStream uuid random (Spec.arrived c b1) = .panic := hi
    rw [hi]
    exact ⟨List.prefix_refl _, fun _ => ⟨rfl, rfl⟩⟩
  | hang =>
    rw [hx] at hi
    have hi : o.request.requestStream uuid random (Spec.arrived c b1) = .hang := hi
    rw [hi]
    exact ⟨List.prefix_refl _, fun _ => ⟨rfl, rfl⟩⟩

/-- opening a connection, with more bytes on it -/
theorem connect_agree (w : World) (more : Nat → Bytes → Bytes) (n : Nat) (host port user password : Bytes) :
    Agree (more n (address host port)) (connect w n host port user password)
      (connect (Spec.later w more) n host port user password) := by
  unfold connect Spec.later
  dsimp only
  cases w.stream n (address host port) with
  | none => exact Or.inr ⟨rfl, fun d hd => by rw [Ends.err hd]⟩
  | some inp => exact (Inc.handshake w.hashes ⟨user, password, []⟩).2 _ { inp := inp }

theorem compileFilter_later (w : World) (more : Nat → Bytes → Bytes) (f : Option Bytes) :
    compileFilter (Spec.later w more) f = compileFilter w f := by
  cases f <;> rfl

/-- the run that printed nothing is continued by any other, if a stream came to its end -/
theorem Continues.ended {α : Type} (sent : Option (List Bytes)) (r' : ProgRun α) :
    Spec.Continues ⟨[], .err .io, sent⟩ r' := ⟨List.nil_prefix, fun h => absurd rfl h⟩

theorem Continues.refl {α : Type} (r : ProgRun α) : Spec.Continues r r := ⟨List.prefix_refl _, fun _ => rfl⟩

/-- C93: `mybinlog` prints the same whatever arrives after the bytes it used -/
theorem C93_mybinlog (w : World) (more : Nat → Bytes → Bytes) (o : ProgOpts) :
    Spec.Continues (mybinlog w o) (mybinlog (Spec.later w more) o) := by
  have h0 := connect_agree w more 0 o.host o.port o.username o.password
  unfold mybinlog
  cases hc : connect w 0 o.host o.port o.username o.password with
  | ok _ conn =>
    rw [hc] at h0
    have h0 : connect (Spec.later w more) 0 o.host o.port o.username o.password = _ := h0
    rw [h0]
    dsimp only
    cases o.cmd with
    | list =>
      dsimp only
      have hf := Inc.binlogFiles.2 (more 0 (address o.host o.port)) conn
      cases hb : Cmd.binlogFiles conn with
      | ok files c =>
        rw [hb] at hf
        have hf : Cmd.binlogFiles (Spec.arrived conn _) = _ := hf
        rw [hf]
        exact Continues.refl _
      | err e c =>
        rw [hb] at hf
        rcases (hf : _ ∨ _) with hf | ⟨rfl, -⟩
        · rw [hf]; exact Continues.refl _
        · exact Continues.ended _ _
      | panic =>
        rw [hb] at hf
        have hf : Cmd.binlogFiles (Spec.arrived conn _) = _ := hf
        rw [hf]
        exact Continues.refl _
      | hang =>
        rw [hb] at hf
        have hf : Cmd.binlogFiles (Spec.arrived conn _) = _ := hf
        rw [hf]
        exact Continues.refl _
    | dml filename untilNow df tf block limit =>
      dsimp only
      have h1 := connect_agree w more 1 o.host o.port o.username o.password
      cases hc1 : connect w 1 o.host o.port o.username o.password with
      | ok _ helper =>
        rw [hc1] at h1
        have h1 : connect (Spec.later w more) 1 o.host o.port o.username o.password = _ := h1
        rw [h1, compileFilter_later, compileFilter_later]
        dsimp only
        cases compileFilter w df with
        | none => exact Continues.refl _
        | some df =>
          dsimp only
          cases compileFilter w tf with
          | none => exact Continues.refl _
          | some tf =>
            dsimp only
            obtain ⟨i1, i2⟩ := printDmls_agree (more 0 (address o.host o.port)) (more 1 (address o.host o.port)) w.ft
              ⟨filename, untilNow, df, tf, !block, limit⟩ w.uuid w.random conn helper
            refine ⟨i1.map _, fun he => ?_⟩
            obtain ⟨i3, i4⟩ := i2 he
            show ProgRun.mk ((printDmls w.ft ⟨filename, untilNow, df, tf, !block, limit⟩ w.uuid w.random
              (Spec.arrived conn (more 0 (address o.host o.port))) (Spec.arrived helper (more 1 (address o.host o.port)))).1.map _)
              _ (dmlSent w.ft ⟨filename, untilNow, df, tf, !block, limit⟩ w.uuid w.random
              (Spec.arrived conn (more 0 (address o.host o.port))) (Spec.arrived helper (more 1 (address o.host o.port)))) = _
            rw [i4]
            exact congrArg (fun r => ProgRun.mk (r.1.map ProgLine.dml) r.2 _) i3
      | err e helper =>
        rw [hc1] at h1
        rcases (h1 : _ ∨ _) with h1 | ⟨rfl, -⟩
        · rw [h1]; exact Continues.refl _
        · exact Continues.ended _ _
      | panic =>
        rw [hc1] at h1
        have h1 : connect (Spec.later w more) 1 o.host o.port o.username o.password = _ := h1
        rw [h1]
        exact Continues.refl _
      | hang =>
        rw [hc1] at h1
        have h1 : connect (Spec.later w more) 1 o.host o.port o.username o.password = _ := h1
        rw [h1]
        exact Continues.refl _
  | err e c =>
    rw [hc] at h0
    rcases (h0 : _ ∨ _) with h0 | ⟨rfl, -⟩
    · rw [h0]; exact Continues.refl _
    · exact Continues.ended _ _
  | panic =>
    rw [hc] at h0
    have h0 : connect (Spec.later w more) 0 o.host o.port o.username o.password = _ := h0
    rw [h0]
    exact Continues.refl _
  | hang =>
    rw [hc] at h0
    have h0 : connect (Spec.later w more) 0 o.host o.port o.username o.password = _ := h0
    rw [h0]
    exact Continues.refl _

/-- the loop of `mybinmsg`, with more bytes -/
theorem msgLoop_agree (b : Bytes) (s : BinlogStream) (c : Conn) :
    (msgLoop s c).1 <+: (msgLoop s (Spec.arrived c b)).1 ∧
      ((msgLoop s c).2.1 ≠ .err .io →
        msgLoop s (Spec.arrived c b) = ((msgLoop s c).1, (msgLoop s c).2.1, (msgLoop s c).2.2.map (Spec.arrived · b))) := by
  induction hn : c.inp.length using Nat.strong_induction_on generalizing c s with
  | _ n ih =>
    have hi := (Inc.nextEvent s).2 b c
    rw [msgLoop]
    cases hx : s.nextEvent c with
    | ok v c' =>
      rw [hx] at hi
      have hi : s.nextEvent (Spec.arrived c b) = .ok v (Spec.arrived c' b) := hi
      rw [msgLoop, hi]
      obtain ⟨_ | ev, s'⟩ := v
      · exact ⟨List.prefix_refl _, fun _ => rfl⟩
      · dsimp only
        by_cases hs : c'.inp.length < c.inp.length
        · rw [if_pos hs, if_pos ((arrived_shorter c c' b).mpr hs)]
          obtain ⟨i1, i2⟩ := ih _ (by omega) s' c' rfl
          refine ⟨?_, fun he => ?_⟩
          · exact (List.prefix_append_right_inj [MsgLine.event ev]).mpr i1
          · rw [i2 he]
        · rw [if_neg hs, if_neg (mt (arrived_shorter c c' b).mp hs)]
          exact ⟨List.prefix_refl _, fun _ => rfl⟩
    | err e c' =>
      rw [hx] at hi
      refine ⟨List.nil_prefix, fun he => ?_⟩
      rcases (hi : _ ∨ _) with hi | ⟨rfl, -⟩
      · rw [msgLoop, hi]
        rfl
      · exact absurd rfl he
    | panic =>
      rw [hx] at hi
      have hi : s.nextEvent (Spec.arrived c b) = .panic := hi
      rw [msgLoop, hi]
      exact ⟨List.prefix_refl _, fun _ => rfl⟩
    | hang =>
      rw [hx] at hi
      have hi : s.nextEvent (Spec.arrived c b) = .hang := hi
      rw [msgLoop, hi]
      exact ⟨List.prefix_refl _, fun _ => rfl⟩

/-- C93: `mybinmsg` logs the same whatever arrives after the bytes it used -/
theorem C93_mybinmsg (w : World) (more : Nat → Bytes → Bytes) (conf : MsgConnect) :
    Spec.Continues (mybinmsg w conf) (mybinmsg (Spec.later w more) conf) := by
  unfold mybinmsg
  cases conf with
  | unixSocket => exact Continues.refl _
  | tcp host port user password =>
    dsimp only
    have h0 := connect_agree w more 0 host port user password
    cases hc : connect w 0 host port user password with
    | ok _ conn =>
      rw [hc] at h0
      have h0 : connect (Spec.later w more) 0 host port user password = _ := h0
      rw [h0]
      dsimp only
      have hf := Inc.binlogFiles.2 (more 0 (address host port)) conn
      cases hb : Cmd.binlogFiles conn with
      | ok files c =>
        rw [hb] at hf
        have hf : Cmd.binlogFiles (Spec.arrived conn _) = _ := hf
        rw [hf]
        dsimp only
        have hr := (Inc.requestStream defaultRequest w.uuid w.random).2 (more 0 (address host port)) c
        have hw : (Spec.later w more).uuid = w.uuid ∧ (Spec.later w more).random = w.random := ⟨rfl, rfl⟩
        rw [hw.1, hw.2]
        cases hq : defaultRequest.requestStream w.uuid w.random c with
        | ok s c' =>
          rw [hq] at hr
          have hr : defaultRequest.requestStream w.uuid w.random (Spec.arrived c _) = _ := hr
          rw [hr]
          dsimp only
          obtain ⟨i1, i2⟩ := msgLoop_agree (more 0 (address host port)) s c'
          refine ⟨(List.prefix_append_right_inj _).mpr i1, fun he => ?_⟩
          rw [i2 he]
          dsimp only
          cases (msgLoop s c').2.2 <;> rfl
        | err e c' =>
          rw [hq] at hr
          rcases (hr : _ ∨ _) with hr | ⟨rfl, -⟩
          · rw [hr]; exact Continues.refl _
          · refine ⟨?_, fun he => absurd rfl he⟩
            dsimp only
            cases defaultRequest.requestStream w.uuid w.random (Spec.arrived c (more 0 (address host port))) with
            | ok s c'' => exact List.prefix_append _ _
            | err e c'' => exact List.prefix_refl _
            | panic => exact List.prefix_refl _
            | hang => exact List.prefix_refl _
        | panic =>
          rw [hq] at hr
          have hr : defaultRequest.requestStream w.uuid w.random (Spec.arrived c _) = _ := hr
          rw [hr]
          exact Continues.refl _
        | hang =>
          rw [hq] at hr
          have hr : defaultRequest.requestStream w.uuid w.random (Spec.arrived c _) = _ := hr
          rw [hr]
          exact Continues.refl _
      | err e c =>
        rw [hb] at hf
        rcases (hf : _ ∨ _) with hf | ⟨rfl, -⟩
        · rw [hf]; exact Continues.refl _
        · exact Continues.ended _ _
      | panic =>
        rw [hb] at hf
        have hf : Cmd.binlogFiles (Spec.arrived conn _) = _ := hf
        rw [hf]
        exact Continues.refl _
      | hang =>
        rw [hb] at hf
        have hf : Cmd.binlogFiles (Spec.arrived conn _) = _ := hf
        rw [hf]
        exact Continues.refl _
    | err e c =>
      rw [hc] at h0
      rcases (h0 : _ ∨ _) with h0 | ⟨rfl, -⟩
      · rw [h0]; exact Continues.refl _
      · exact Continues.ended _ _
    | panic =>
      rw [hc] at h0
      have h0 : connect (Spec.later w more) 0 host port user password = _ := h0
      rw [h0]
      exact Continues.refl _
    | hang =>
      rw [hc] at h0
      have h0 : connect (Spec.later w more) 0 host port user password = _ := h0
      rw [h0]
      exact Continues.refl _

/-- the run of C87 over the example log comes to its end, so it is the same whatever follows on the two connections -/
example (ft : FloatText) (more : Nat → Bytes → Bytes) : ∃ inp1 inp2,
    (mybinlog (exampleWorld ft inp1 inp2) (exampleProg 0)).theEnd = .done ∧
    mybinlog (Spec.later (exampleWorld ft inp1 inp2) more) (exampleProg 0) =
      mybinlog (exampleWorld ft inp1 inp2) (exampleProg 0) := by
  obtain ⟨inp1, inp2, out, -, -, h3⟩ := example_program ft 0
  exact ⟨inp1, inp2, h3, (C93_mybinlog _ more _).2 (by rw [h3]; simp)⟩

end Mybin
