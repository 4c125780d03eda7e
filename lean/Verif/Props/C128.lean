/-
C128: a connection that breaks while a message is being sent.
-/
import Verif.Model.WriteFail
import Verif.Props.C96

namespace Mybin

/-! ### calls and sessions on a stream that breaks -/

/-- as `attempt` -/
def attemptL {α : Type} (run : L α) (f : α → Outcome) : L Outcome := fun l =>
  match run l with
  | .ok a l' => .ok (f a) l'
  | .err e l' => .ok (.failed e) l'
  | .panic => .panic
  | .hang => .hang

/-- the calls of the library, as `Ask.perform` -/
def Ask.performL : Ask → L Outcome
  | .initDb db => attemptL (requestL (ComInitDB.writeTo [] db).1 okAnswer) fun _ => .done
  | .createDb db => attemptL (requestL (ComCreateDB.writeTo [] db).1 okAnswer) fun _ => .done
  | .dropDb db => attemptL (requestL (ComDropDB.writeTo [] db).1 okAnswer) fun _ => .done
  | .refresh flags => attemptL (requestL (ComRefresh.writeTo [] flags).1 okAnswer) fun _ => .done
  | .processKill id => attemptL (requestL (ComProcessKill.writeTo [] id).1 okAnswer) fun _ => .done
  | .resetConnection => attemptL (requestL (writeSingleByteCmd [] .resetConnection).1 okAnswer) fun _ => .done
  | .registerSlave id => attemptL (requestL (ComRegisterSlave.writeTo [] ⟨id, [], [], [], 0, 0, 0⟩).1 okAnswer) fun _ => .done
  | .ping => attemptL (requestL (writeSingleByteCmd [] .ping).1 pingAnswer) fun _ => .done
  | .statistics => attemptL (requestL (writeSingleByteCmd [] .statistics).1 statisticsAnswer) .info
  | .debug => attemptL (requestL (writeSingleByteCmd [] .debug).1 debugAnswer) fun _ => .done
  | .processInfo => attemptL (requestL (writeSingleByteCmd [] .processInfo).1
      (do let rs ← newResultSet none; rs.all rs.textRow)) .text
  | .fieldList t w => attemptL (requestL (ComFieldList.writeTo [] t w).1 (Cmd.fieldListLoop [])) .columns
  | .binlogFiles => attemptL (requestL (ComQuery.writeTo [] (Cmd.str "SHOW MASTER LOGS")).1
      (do let rs ← newResultSet none; Cmd.filesLoop rs [])) .files
  | .query q => attemptL (requestL (ComQuery.writeTo [] q).1 (do let rs ← newResultSet none; rs.all rs.textRow)) .text
  | .exec q => attemptL (requestL (ComQuery.writeTo [] q).1 execLoop) fun _ => .done
  | .prepare q => attemptL (prepareL q) .stmt
  | .stmtExec st ps => attemptL (st.execL ps) fun _ => .done
  | .stmtQuery st ps => attemptL (st.requestL ps (do let rs ← newResultSet (some st.stmtId); rs.all rs.binaryRow)) .binary
  | .stmtClose st => attemptL st.closeL fun _ => .done
  | .setVar global name v => attemptL (setL (if global then Cmd.str "SET @@GLOBAL." ++ name ++ Cmd.str " = ?"
      else Cmd.str "SET @@" ++ name ++ Cmd.str " = ?") v) fun _ => .done
  | .setUserVar name v => attemptL (setL (Cmd.str "SET @" ++ name ++ Cmd.str " = ?") v) fun _ => .done
  | .getVar conv global name => attemptL (requestL (ComQuery.writeTo [] (if global then Cmd.str "SHOW GLOBAL VARIABLES LIKE '" ++ name ++ Cmd.str "'"
      else Cmd.str "SHOW VARIABLES LIKE '" ++ name ++ Cmd.str "'")).1
      (do let rs ← newResultSet none; Cmd.firstMapped (fun row => getColAs conv row 1) rs)) .value
  | .getUserVar conv name => attemptL (requestL (ComQuery.writeTo [] (Cmd.str "SELECT @" ++ name)).1
      (do let rs ← newResultSet none; Cmd.firstMapped (fun row => getColAs conv row 0) rs)) .value

/-- as `session` -/
def sessionL (app : List Outcome → Option Ask) : Nat → List Outcome → L (List Outcome)
  | 0, got => pure got
  | n + 1, got =>
    match app got with
    | none => pure got
    | some ask => do
      let o ← ask.performL
      sessionL app n (got ++ [o])

/-! ### what the server gets -/

/-- the beginning of a message that is not whole -/
def Spec.Piece (p : List UInt8) : Prop := ∃ ps, Spec.IsMessage ps ∧ p <+: Spec.wire ps ∧ p ≠ Spec.wire ps

/-- between `before` and `after` the server got exactly these messages and then a piece of one -/
def Spec.HeardPart (before after : List UInt8) (heard : List Spec.Said) : Prop :=
  ∃ mid piece, (∀ caps, Spec.Heard caps before mid heard) ∧ after = mid ++ piece ∧ Spec.Piece piece

/-- the messages that do what the call is for: all, but for the one that closes the statement used to set a variable -/
def Spec.acts (a : Ask) (said : List Spec.Said) : List Spec.Said := if (Spec.sets a).isSome then said.take 2 else said

/-! ### proofs -/

theorem L.bind_apply {α β : Type} (x : L α) (f : α → L β) (l : Link) : (x >>= f) l = (x l).bind f := rfl
theorem L.pure_apply {α : Type} (a : α) (l : Link) : (pure a : L α) l = .ok a l := rfl

/-- `X` does what `x` does as long as the stream takes the bytes, and ends with the error of the stream otherwise -/
def Breaks {α : Type} (x : M α) (X : L α) : Prop := ∀ c c', Ends (x c) c' → ∃ sent, c'.out = c.out ++ sent ∧
  ∀ k, (sent.length ≤ k → X ⟨c, k⟩ = (x c).on (k - sent.length)) ∧
    (k < sent.length → ∃ d : Conn, X ⟨c, k⟩ = .err .io ⟨d, 0⟩ ∧ d.out = c.out ++ sent.take k)

theorem Breaks.lift {α : Type} {x : M α} (h : Quiet x) : Breaks x (L.lift x) := by
  intro c c' hc
  refine ⟨[], by simp [h c c' hc], fun k => ⟨fun _ => by simp [L.lift], fun hk => by simp at hk⟩⟩

theorem Breaks.bind {α β : Type} {x : M α} {X : L α} {f : α → M β} {F : α → L β} (hx : Breaks x X)
    (hf : ∀ a, Breaks (f a) (F a)) : Breaks (x >>= f) (X >>= F) := by
  intro c c' h
  rw [M.bind_apply] at h ⊢
  cases hr : x c with
  | ok a c1 =>
    rw [hr, MR.bind_ok] at h
    obtain ⟨s1, e1, b1⟩ := hx c c1 (.inl ⟨a, hr⟩)
    obtain ⟨s2, e2, b2⟩ := hf a c1 c' h
    refine ⟨s1 ++ s2, by rw [e2, e1, List.append_assoc], fun k => ⟨fun hk => ?_, fun hk => ?_⟩⟩
    · rw [List.length_append] at hk
      rw [L.bind_apply, (b1 k).1 (by omega), hr]
      refine ((b2 (k - s1.length)).1 (by omega)).trans ?_
      rw [List.length_append, Nat.sub_add_eq, MR.bind_ok]
    · rw [List.length_append] at hk
      by_cases h1 : s1.length ≤ k
      · obtain ⟨d, hd, ho⟩ := (b2 (k - s1.length)).2 (by omega)
        refine ⟨d, ?_, ?_⟩
        · rw [L.bind_apply, (b1 k).1 h1, hr]
          exact hd
        · rw [ho, e1, List.take_append, List.take_of_length_le h1, List.append_assoc]
      · obtain ⟨d, hd, ho⟩ := (b1 k).2 (by omega)
        refine ⟨d, by rw [L.bind_apply, hd]; rfl, ?_⟩
        rw [ho, List.take_append, Nat.sub_eq_zero_of_le (by omega), List.take_zero, List.append_nil]
  | err e c1 =>
    rw [hr] at h
    have h1 := Ends.err h
    obtain ⟨s1, e1, b1⟩ := hx c c1 (.inr ⟨e, hr⟩)
    refine ⟨s1, by rw [h1]; exact e1, fun k => ⟨fun hk => ?_, fun hk => ?_⟩⟩
    · rw [L.bind_apply, (b1 k).1 hk, hr]; rfl
    · obtain ⟨d, hd, ho⟩ := (b1 k).2 hk
      exact ⟨d, by rw [L.bind_apply, hd]; rfl, ho⟩
  | panic => rw [hr] at h; exact (Ends.panic h).elim
  | hang => rw [hr] at h; exact (Ends.hang h).elim

theorem Breaks.congr {α : Type} {x y : M α} {X : L α} (h : Breaks x X) (e : x = y) : Breaks y X := e ▸ h

theorem writeAllL_fits {α : Type} {bs : Bytes} {c : Conn} {k : Nat} {f : Unit → L α} (h : bs.length ≤ k) :
    (writeAllL bs >>= f) ⟨c, k⟩ = f () ⟨{ c with out := c.out ++ bs }, k - bs.length⟩ := by
  have e : writeAllL bs ⟨c, k⟩ = .ok () ⟨{ c with out := c.out ++ bs }, k - bs.length⟩ := if_pos h
  rw [L.bind_apply, e]
  rfl

theorem writeAllL_breaks {α : Type} {bs : Bytes} {c : Conn} {k : Nat} {f : Unit → L α} (h : ¬bs.length ≤ k) :
    (writeAllL bs >>= f) ⟨c, k⟩ = .err .io ⟨{ c with out := c.out ++ bs.take k }, 0⟩ := by
  have e : writeAllL bs ⟨c, k⟩ = .err .io ⟨{ c with out := c.out ++ bs.take k }, 0⟩ := if_neg h
  rw [L.bind_apply, e]
  rfl

theorem M.bind_assoc' {α β γ : Type} (x : M α) (f : α → M β) (g : β → M γ) :
    (x >>= fun a => f a >>= g) = ((x >>= f) >>= g) := by
  funext c
  simp only [M.bind_apply]
  cases x c <;> rfl

theorem Breaks.sendPacket (p : Bytes) : Breaks (sendPacket p) (sendPacketL p) := by
  intro c c' h
  by_cases hn : c.pktNr + 1 < 256
  · unfold Mybin.sendPacket at h ⊢
    dsimp only at h ⊢
    rw [if_pos hn] at h ⊢
    rw [Ends.ok h]
    dsimp only
    generalize hhd : [UInt8.ofNat (p.length &&& 0xff), UInt8.ofNat ((p.length >>> 8) &&& 0xff),
      UInt8.ofNat ((p.length >>> 16) &&& 0xff)] = hd
    have hl : hd.length = 3 := by rw [← hhd]; rfl
    refine ⟨hd ++ [UInt8.ofNat c.pktNr] ++ p, by simp, fun k => ?_⟩
    have hlen : (hd ++ [UInt8.ofNat c.pktNr] ++ p).length = 4 + p.length := by simp [hl]; omega
    rw [hlen]
    have e : sendPacketL p ⟨c, k⟩ = (writeAllL hd >>= fun _ => writeAllL [UInt8.ofNat c.pktNr] >>= fun _ =>
        writeAllL p >>= fun _ => nextPktNr) ⟨c, k⟩ := by
      subst hhd
      rfl
    rw [e]
    clear e hhd h
    by_cases h1 : hd.length ≤ k
    · rw [writeAllL_fits h1]
      by_cases h2 : 4 ≤ k
      · rw [writeAllL_fits (show [UInt8.ofNat c.pktNr].length ≤ k - hd.length by simp; omega)]
        by_cases h3 : 4 + p.length ≤ k
        · refine ⟨fun _ => ?_, fun hk => absurd hk (by omega)⟩
          rw [writeAllL_fits (by simp; omega)]
          unfold nextPktNr
          dsimp only
          rw [if_pos hn]
          unfold MR.on
          dsimp only
          congr 2
          simp
          omega
        · refine ⟨fun hk => absurd hk h3, fun _ => ?_⟩
          rw [writeAllL_breaks (by simp; omega)]
          refine ⟨_, rfl, ?_⟩
          simp only [List.append_assoc, List.take_append, List.length_singleton]
          rw [List.take_of_length_le h1, List.take_of_length_le (show [UInt8.ofNat c.pktNr].length ≤ k - hd.length by simp; omega)]
      · refine ⟨fun hk => absurd hk (by omega), fun _ => ?_⟩
        rw [writeAllL_breaks (show ¬[UInt8.ofNat c.pktNr].length ≤ k - hd.length by simp; omega)]
        refine ⟨_, rfl, ?_⟩
        simp only [List.append_assoc, List.take_append, List.length_singleton]
        rw [List.take_of_length_le h1, show k - hd.length = 0 by omega]
        simp
    · refine ⟨fun hk => absurd hk (by omega), fun _ => ?_⟩
      rw [writeAllL_breaks h1]
      refine ⟨_, rfl, ?_⟩
      simp only [List.append_assoc, List.take_append, List.length_singleton]
      rw [show k - hd.length = 0 by omega]
      simp
  · unfold Mybin.sendPacket at h
    dsimp only at h
    rw [if_neg hn] at h
    exact (Ends.panic h).elim

theorem Breaks.sendLoop (bs : Bytes) : Breaks (sendLoop bs) (sendLoopL bs) := by
  induction hl : bs.length using Nat.strong_induction_on generalizing bs with
  | _ n ih =>
    rw [Mybin.sendLoop, sendLoopL]
    by_cases hge : bs.length ≥ maxPacket
    · rw [dif_pos hge, dif_pos hge]
      have hmp : maxPacket = 0xffffff := rfl
      exact (Breaks.sendPacket _).bind fun _ => ih (bs.drop maxPacket).length (by rw [List.length_drop, hmp]; omega) _ rfl
    · rw [dif_neg hge, dif_neg hge]
      exact Breaks.sendPacket _

theorem Breaks.sendMsg (bs : Bytes) : Breaks (sendMsg bs true) (sendMsgL bs true) := fun c c' h =>
  Breaks.sendLoop bs { c with pktNr := 0 } c' h

theorem Breaks.request {α : Type} (bs : Bytes) {answer : M α} (h : Quiet answer) :
    Breaks (Mybin.sendMsg bs true >>= fun _ => answer) (requestL bs answer) :=
  (Breaks.sendMsg bs).bind fun _ => .lift h

theorem Breaks.attempt {α : Type} {x : M α} {X : L α} (h : Breaks x X) (f : α → Outcome) (c c' : Conn)
    (hc : Ends (attempt x f c) c') : ∃ sent, c'.out = c.out ++ sent ∧
    ∀ k, (sent.length ≤ k → attemptL X f ⟨c, k⟩ = (Mybin.attempt x f c).on (k - sent.length)) ∧
      (k < sent.length → ∃ d : Conn, attemptL X f ⟨c, k⟩ = .ok (.failed .io) ⟨d, 0⟩ ∧ d.out = c.out ++ sent.take k) := by
  obtain ⟨s, e, b⟩ := h c c' (attempt_ends hc)
  refine ⟨s, e, fun k => ⟨fun hk => ?_, fun hk => ?_⟩⟩
  · unfold attemptL Mybin.attempt
    rw [(b k).1 hk]
    cases x c <;> rfl
  · obtain ⟨d, hd, ho⟩ := (b k).2 hk
    exact ⟨d, by unfold attemptL; rw [hd], ho⟩

/-! ### nothing is sent on a broken stream -/

theorem sendPacketL_dead (p : Bytes) (c : Conn) : sendPacketL p ⟨c, 0⟩ = .err .io ⟨c, 0⟩ := by
  have e : sendPacketL p ⟨c, 0⟩ = (writeAllL [UInt8.ofNat (p.length &&& 0xff), UInt8.ofNat ((p.length >>> 8) &&& 0xff),
      UInt8.ofNat ((p.length >>> 16) &&& 0xff)] >>= fun _ => writeAllL [UInt8.ofNat c.pktNr] >>= fun _ =>
        writeAllL p >>= fun _ => nextPktNr) ⟨c, 0⟩ := rfl
  rw [e, writeAllL_breaks (by simp)]
  simp

theorem sendMsgL_dead (bs : Bytes) (c : Conn) : sendMsgL bs true ⟨c, 0⟩ = .err .io ⟨{ c with pktNr := 0 }, 0⟩ := by
  unfold sendMsgL
  dsimp only
  rw [sendLoopL]
  split
  · rw [L.bind_apply, sendPacketL_dead]
    rfl
  · exact sendPacketL_dead _ _

theorem requestL_dead {α : Type} (bs : Bytes) (x : M α) (c : Conn) :
    requestL bs x ⟨c, 0⟩ = .err .io ⟨{ c with pktNr := 0 }, 0⟩ := by
  unfold requestL
  rw [L.bind_apply, sendMsgL_dead]
  rfl

theorem PreparedStmt.requestL_eq {α : Type} (st : PreparedStmt) (ps : List StmtColumnValue) (x : M α) :
    ∃ bs, st.send ps = sendMsg bs true ∧ st.requestL ps x = Mybin.requestL bs x := by
  unfold PreparedStmt.send PreparedStmt.requestL
  obtain ⟨bm, hb, -⟩ := Bitmap.fromIter_spec (ps.map (·.isNull)) 0
  have hs : ComStmtExecute.single st.stmtId ps = some ⟨.stmtExecute, st.stmtId, 0, 1, bm, true, ps⟩ := by
    unfold ComStmtExecute.single
    rw [hb]
  rw [hs]
  dsimp only
  have hw : ∃ bs n, ComStmtExecute.writeTo [] ⟨.stmtExecute, st.stmtId, 0, 1, bm, true, ps⟩ = some (bs, n) := by
    unfold ComStmtExecute.writeTo
    dsimp only
    split
    · exact ⟨_, _, rfl⟩
    · rw [hb]
      exact ⟨_, _, rfl⟩
  obtain ⟨bs, n, hw⟩ := hw
  rw [hw]
  exact ⟨bs, rfl, rfl⟩

/-! ### the calls -/

theorem Breaks.exec (st : PreparedStmt) (ps : List StmtColumnValue) : Breaks (st.exec ps) (st.execL ps) := by
  obtain ⟨bs, h1, h2⟩ := st.requestL_eq ps execLoop
  unfold PreparedStmt.exec PreparedStmt.execL
  rw [h1, h2]
  exact Breaks.request bs Quiet.execLoop

theorem Quiet.prepareAnswer : Quiet prepareAnswer := by
  have hd : ∀ n, Quiet (recvDefs n) := by
    intro n
    unfold recvDefs
    split
    · exact Quiet.pure _
    · exact (Quiet.recvColDefs n).bind fun _ => Quiet.recvDefsEof.bind fun _ => Quiet.pure _
  refine Quiet.recvMsg.bind fun msg => ?_
  split
  · exact Quiet.fail _
  · refine Quiet.bind ?_ fun ok => (hd _).bind fun _ => (hd _).bind fun _ => Quiet.pure _
    split
    · exact Quiet.failWithErrPacket _
    · exact Quiet.parse _ _

theorem Quiet.okAnswer : Quiet okAnswer := by
  refine Quiet.recvMsg.bind fun _ => Quiet.getCaps.bind fun _ => (Quiet.parse _ _).bind fun r => ?_
  cases r with
  | ok p => exact Quiet.pure _
  | err p => exact Quiet.fail _

theorem Breaks.okCommand (bs : Bytes) : Breaks (okCommand bs) (requestL bs okAnswer) := .request bs Quiet.okAnswer

theorem Breaks.prepare (q : Bytes) : Breaks (Stmt.prepare q) (prepareL q) := .request _ Quiet.prepareAnswer

/-- the calls of one message -/
theorem ask_breaks (a : Ask) (hn : Spec.sets a = none) :
    ∃ (α : Type) (x : M α) (X : L α) (f : α → Outcome), a.perform = attempt x f ∧ a.performL = attemptL X f ∧ Breaks x X := by
  cases a with
  | initDb db => exact ⟨_, _, _, _, rfl, rfl, .okCommand _⟩
  | createDb db => exact ⟨_, _, _, _, rfl, rfl, .okCommand _⟩
  | dropDb db => exact ⟨_, _, _, _, rfl, rfl, .okCommand _⟩
  | refresh flags => exact ⟨_, _, _, _, rfl, rfl, .okCommand _⟩
  | processKill id => exact ⟨_, _, _, _, rfl, rfl, .okCommand _⟩
  | resetConnection => exact ⟨_, _, _, _, rfl, rfl, .okCommand _⟩
  | registerSlave id => exact ⟨_, _, _, _, rfl, rfl, .okCommand _⟩
  | ping =>
    exact ⟨_, _, _, _, rfl, rfl, .request _ (Quiet.recvMsg.bind fun _ => Quiet.getCaps.bind fun _ =>
      (Quiet.parse _ _).bind fun _ => Quiet.pure _)⟩
  | statistics =>
    refine ⟨_, _, _, _, rfl, rfl, .request _ (Quiet.recvMsg.bind fun _ => ?_)⟩
    split
    · exact Quiet.pure _
    · exact Quiet.fail _
  | debug =>
    refine ⟨_, _, _, _, rfl, rfl, .request _ (Quiet.recvMsg.bind fun _ => Quiet.getCaps.bind fun _ =>
      (Quiet.parse _ _).bind fun r => ?_)⟩
    cases r with
    | eof p => exact Quiet.pure _
    | err p => exact Quiet.fail _
  | processInfo =>
    exact ⟨_, _, _, _, rfl, rfl, .congr (.request _ ((Quiet.newResultSet _).bind fun rs => Quiet.all rs _)) (M.bind_assoc' _ _ _)⟩
  | fieldList t w => exact ⟨_, _, _, _, rfl, rfl, .request _ (Quiet.fieldListLoop _)⟩
  | binlogFiles =>
    exact ⟨_, _, _, _, rfl, rfl, .congr (.request _ ((Quiet.newResultSet _).bind fun rs => Quiet.filesLoop rs _)) (M.bind_assoc' _ _ _)⟩
  | query q =>
    exact ⟨_, _, _, _, rfl, rfl, .congr (.request _ ((Quiet.newResultSet _).bind fun rs => Quiet.all rs _)) (M.bind_assoc' _ _ _)⟩
  | exec q => exact ⟨_, _, _, _, rfl, rfl, .request _ Quiet.execLoop⟩
  | prepare q => exact ⟨_, _, _, _, rfl, rfl, .prepare q⟩
  | stmtExec st ps => exact ⟨_, _, _, _, rfl, rfl, .exec st ps⟩
  | stmtQuery st ps =>
    obtain ⟨bs, h1, h2⟩ := st.requestL_eq ps (do let rs ← newResultSet (some st.stmtId); rs.all rs.binaryRow)
    refine ⟨_, _, _, _, rfl, rfl, ?_⟩
    rw [h2]
    unfold PreparedStmt.qry
    rw [h1]
    exact .congr (.request _ ((Quiet.newResultSet _).bind fun rs => Quiet.all rs _)) (M.bind_assoc' _ _ _)
  | stmtClose st => exact ⟨_, _, _, _, rfl, rfl, .sendMsg _⟩
  | setVar global name v => cases hn
  | setUserVar name v => cases hn
  | getVar conv global name =>
    exact ⟨_, _, _, _, rfl, rfl, .congr (.request _ ((Quiet.newResultSet _).bind fun rs => Quiet.firstMapped _ rs)) (M.bind_assoc' _ _ _)⟩
  | getUserVar conv name =>
    exact ⟨_, _, _, _, rfl, rfl, .congr (.request _ ((Quiet.newResultSet _).bind fun rs => Quiet.firstMapped _ rs)) (M.bind_assoc' _ _ _)⟩

/-- one message: it was sent whole, or a piece of it was -/
theorem Breaks.one {α : Type} {x : M α} {X : L α} (hb : Breaks x X) (c c' : Conn) (h : Ends (x c) c') {s : Spec.Said}
    (hs : ∀ caps, Spec.Heard caps c.out c'.out [s]) (k : Nat) :
    (c'.out.length ≤ c.out.length + k ∧ X ⟨c, k⟩ = (x c).on (c.out.length + k - c'.out.length)) ∨
    (c.out.length + k < c'.out.length ∧ ∃ d : Conn, X ⟨c, k⟩ = .err .io ⟨d, 0⟩ ∧
      d.out = c'.out.take (c.out.length + k) ∧ ∃ piece, d.out = c.out ++ piece ∧ Spec.Piece piece) := by
  obtain ⟨sent, e, b⟩ := hb c c' h
  have hl : c'.out.length = c.out.length + sent.length := by rw [e, List.length_append]
  by_cases hk : sent.length ≤ k
  · left
    refine ⟨by omega, ?_⟩
    rw [(b k).1 hk]
    congr 1
    omega
  · right
    obtain ⟨d, hd, ho⟩ := (b k).2 (by omega)
    refine ⟨by omega, d, hd, ?_, sent.take k, ho, ?_⟩
    · rw [ho, e, List.take_append, List.take_of_length_le (show c.out.length ≤ c.out.length + k by omega),
        show c.out.length + k - c.out.length = k by omega]
    · obtain ⟨runs, h1, h2, h3⟩ := hs 0
      cases h3 with
      | cons h4 h5 =>
        cases h5
        rename_i r
        have he : sent = Spec.wire r := by
          have := e.symm.trans h2
          simpa using List.append_cancel_left this
        refine ⟨r, (h1 r (by simp)).1, by rw [← he]; exact List.take_prefix _ _, ?_⟩
        rw [← he]
        intro hc
        have := congrArg List.length hc
        rw [List.length_take] at this
        omega

theorem maySay_one {a : Ask} (hn : Spec.sets a = none) {said : List Spec.Said} (h : Spec.MaySay a said) : ∃ s, said = [s] := by
  cases a <;> first | exact ⟨_, h⟩ | cases hn

/-- setting a variable -/
theorem sets_breaks (q : Bytes) (v : StmtColumnValue) (hv : v.Sound) (c c' : Conn)
    (h : Ends ((do let st ← Stmt.prepare q; st.execClose [v] : M Unit) c) c') :
    ∃ said, (said = [.command (.stmtPrepare q)] ∨ ∃ id, id < 2 ^ 32 ∧
        said = [.command (.stmtPrepare q), .execute id [Spec.serverParam v], .command (.stmtClose id)]) ∧
      (∀ caps, Spec.Heard caps c.out c'.out said) ∧
      ∀ k, (c'.out.length ≤ c.out.length + k ∧
          setL q v ⟨c, k⟩ = ((do let st ← Stmt.prepare q; st.execClose [v] : M Unit) c).on (c.out.length + k - c'.out.length)) ∨
        c.out.length + k < c'.out.length ∧ ∃ (heard : List Spec.Said) (d : Conn), heard <+: said ∧ heard ≠ said ∧ d.out = c'.out.take (c.out.length + k) ∧
          Spec.HeardPart c.out d.out heard ∧
          (said.take 2 <+: heard → (setL q v ⟨c, k⟩ = .ok () ⟨d, 0⟩ ∧
              (do let st ← Stmt.prepare q; st.execClose [v] : M Unit) c = .ok () c') ∨
            ∃ e, setL q v ⟨c, k⟩ = .err e ⟨d, 0⟩ ∧ (do let st ← Stmt.prepare q; st.execClose [v] : M Unit) c = .err e c') ∧
          (¬said.take 2 <+: heard → setL q v ⟨c, k⟩ = .err .io ⟨d, 0⟩) := by
  have hp : Says (Stmt.prepare q) [.command (.stmtPrepare q)] :=
    (SendsOne.prepare q).says (SentAs.hears fun caps => (C19_string_commands caps [] q).2.2.2.2)
  have hh0 : ∀ caps, Spec.Heard caps c.out c.out [] := fun caps => Heard.nil _ _
  unfold setL
  rcases Ends.bind h with ⟨st, c1, h1, h2⟩ | ⟨e, h1⟩
  · have hid := prepare_id q c c1 st h1
    have a1 := fun caps => hp caps c c1 (Or.inl ⟨st, h1⟩)
    have b1 := (Breaks.prepare q).one c c1 (Or.inl ⟨st, h1⟩) a1
    obtain ⟨bs, hb1, hb2⟩ := send_inv st [v] hid (by simpa using hv)
    have hx : Says (st.exec [v]) [.execute st.stmtId [Spec.serverParam v]] :=
      SendsOne.says (bs := bs) (SendsOne.bind hb1 fun _ => Quiet.execLoop) hb2
    have hcl : Says st.close [.command (.stmtClose st.stmtId)] :=
      (SendsOne.sendMsg _).says (SentAs.hears fun caps =>
        (C19_integer_commands caps [] st.stmtId 0 0 false hid (by norm_num) (by norm_num)).2.1)
    have key : ∀ c2 c3, Ends (st.exec [v] c1) c2 → Ends (st.close c2) c3 →
        (∀ a, st.exec [v] c1 = .ok a c2 → st.execClose [v] c1 = .ok () c3) →
        (∀ e, st.exec [v] c1 = .err e c2 → st.execClose [v] c1 = .err e c3) → c' = c3 →
        ∃ said, (said = [.command (.stmtPrepare q)] ∨ ∃ id, id < 2 ^ 32 ∧
        said = [.command (.stmtPrepare q), .execute id [Spec.serverParam v], .command (.stmtClose id)]) ∧
      (∀ caps, Spec.Heard caps c.out c'.out said) ∧
      ∀ k, (c'.out.length ≤ c.out.length + k ∧
          (prepareL q >>= fun st => st.execCloseL [v]) ⟨c, k⟩ =
            ((do let st ← Stmt.prepare q; st.execClose [v] : M Unit) c).on (c.out.length + k - c'.out.length)) ∨
        c.out.length + k < c'.out.length ∧ ∃ (heard : List Spec.Said) (d : Conn), heard <+: said ∧ heard ≠ said ∧ d.out = c'.out.take (c.out.length + k) ∧
          Spec.HeardPart c.out d.out heard ∧
          (said.take 2 <+: heard → ((prepareL q >>= fun st => st.execCloseL [v]) ⟨c, k⟩ = .ok () ⟨d, 0⟩ ∧
              (do let st ← Stmt.prepare q; st.execClose [v] : M Unit) c = .ok () c') ∨
            ∃ e, (prepareL q >>= fun st => st.execCloseL [v]) ⟨c, k⟩ = .err e ⟨d, 0⟩ ∧
              (do let st ← Stmt.prepare q; st.execClose [v] : M Unit) c = .err e c') ∧
          (¬said.take 2 <+: heard → (prepareL q >>= fun st => st.execCloseL [v]) ⟨c, k⟩ = .err .io ⟨d, 0⟩) := by
      intro c2 c3 e1 e2 hok herr hc3
      subst hc3
      have a2 := fun caps => Heard.append (a1 caps) (hx caps c1 c2 e1)
      have a3 := fun caps => Heard.append (a1 caps) (Heard.append (hx caps c1 c2 e1) (hcl caps c2 c' e2))
      have b2 := (Breaks.exec st [v]).one c1 c2 e1 fun caps => hx caps c1 c2 e1
      have b3 := (Breaks.sendMsg _).one c2 c' e2 fun caps => hcl caps c2 c' e2
      have ex : (do let st ← Stmt.prepare q; st.execClose [v] : M Unit) c = st.execClose [v] c1 := by
        rw [M.bind_apply, h1]; rfl
      have o1 : c1.out <+: c2.out := by
        obtain ⟨_, -, h, -⟩ := hx 0 c1 c2 e1
        exact ⟨_, h.symm⟩
      have o2 : c2.out <+: c'.out := by
        obtain ⟨_, -, h, -⟩ := hcl 0 c2 c' e2
        exact ⟨_, h.symm⟩
      have o0 : c.out <+: c1.out := by
        obtain ⟨_, -, h, -⟩ := hp 0 c c1 (.inl ⟨st, h1⟩)
        exact ⟨_, h.symm⟩
      have cut : ∀ {a b : Bytes} {n : Nat}, a <+: b → n ≤ a.length → b.take n = a.take n := by
        rintro a _ n ⟨t, rfl⟩ hn
        rw [List.take_append, Nat.sub_eq_zero_of_le hn]
        simp
      rw [ex]
      refine ⟨[.command (.stmtPrepare q), .execute st.stmtId [Spec.serverParam v], .command (.stmtClose st.stmtId)],
        .inr ⟨_, hid, rfl⟩, a3, fun k => ?_⟩
      rcases b1 k with ⟨l1, p1⟩ | ⟨l1, d, p1, q1, piece, r1, z1⟩
      · have hL : (prepareL q >>= fun st => st.execCloseL [v]) ⟨c, k⟩ =
            st.execCloseL [v] ⟨c1, c.out.length + k - c1.out.length⟩ := by
          rw [L.bind_apply, p1, h1]
          rfl
        rw [hL]
        have hk1 : c1.out.length + (c.out.length + k - c1.out.length) = c.out.length + k := by omega
        rcases b2 (c.out.length + k - c1.out.length) with ⟨l2, p2⟩ | ⟨l2, d, p2, q2, piece, r2, z2⟩
        · have hk2 : c2.out.length + (c.out.length + k - c2.out.length) = c.out.length + k := by omega
          rw [hk1] at l2 p2
          rcases b3 (c.out.length + k - c2.out.length) with ⟨l3, p3⟩ | ⟨l3, d, p3, q3, piece, r3, z3⟩
          · left
            rw [hk2] at l3 p3
            refine ⟨l3, ?_⟩
            unfold PreparedStmt.execCloseL
            rw [p2]
            rcases e1 with ⟨a, e1⟩ | ⟨e, e1⟩
            · rw [hok a e1, e1]
              show (match sendMsgL _ true ⟨c2, c.out.length + k - c2.out.length⟩ with | .ok _ l'' => _ | .err _ l'' => _ | .panic => _ | .hang => _) = _
              rw [p3]
              rcases e2 with ⟨b, e2⟩ | ⟨b, e2⟩
              · rw [show sendMsg (ComStmtClose.writeTo [] st.stmtId).1 true c2 = st.close c2 from rfl, e2]; rfl
              · rw [show sendMsg (ComStmtClose.writeTo [] st.stmtId).1 true c2 = st.close c2 from rfl, e2]; rfl
            · rw [herr e e1, e1]
              show (match sendMsgL _ true ⟨c2, c.out.length + k - c2.out.length⟩ with | .ok _ l'' => _ | .err _ l'' => _ | .panic => _ | .hang => _) = _
              rw [p3]
              rcases e2 with ⟨b, e2⟩ | ⟨b, e2⟩
              · rw [show sendMsg (ComStmtClose.writeTo [] st.stmtId).1 true c2 = st.close c2 from rfl, e2]; rfl
              · rw [show sendMsg (ComStmtClose.writeTo [] st.stmtId).1 true c2 = st.close c2 from rfl, e2]; rfl
          · right
            rw [hk2] at l3 q3
            refine ⟨l3, [.command (.stmtPrepare q), .execute st.stmtId [Spec.serverParam v]], d, by simp, by simp, q3,
              ⟨c2.out, piece, a2, r3, z3⟩, fun _ => ?_, fun hn => absurd (by simp) hn⟩
            unfold PreparedStmt.execCloseL
            rw [p2]
            rcases e1 with ⟨a, e1⟩ | ⟨e, e1⟩
            · left
              refine ⟨?_, hok a e1⟩
              rw [e1]
              show (match sendMsgL _ true ⟨c2, c.out.length + k - c2.out.length⟩ with | .ok _ l'' => _ | .err _ l'' => _ | .panic => _ | .hang => _) = _
              rw [p3]
            · right
              refine ⟨e, ?_, herr e e1⟩
              rw [e1]
              show (match sendMsgL _ true ⟨c2, c.out.length + k - c2.out.length⟩ with | .ok _ l'' => _ | .err _ l'' => _ | .panic => _ | .hang => _) = _
              rw [p3]
        · right
          rw [hk1] at l2 q2
          refine ⟨by have := o2.length_le; omega, [.command (.stmtPrepare q)], { d with pktNr := 0 }, by simp, by simp, ?_,
            ⟨c1.out, piece, a1, r2, z2⟩, fun hn => absurd hn (by simp), fun _ => ?_⟩
          · rw [cut o2 (by omega)]
            exact q2
          · unfold PreparedStmt.execCloseL
            rw [p2]
            show (match sendMsgL _ true ⟨d, 0⟩ with | .ok _ l'' => _ | .err _ l'' => _ | .panic => _ | .hang => _) = _
            rw [sendMsgL_dead]
      · right
        rw [L.bind_apply, p1]
        refine ⟨by have := (o1.trans o2).length_le; omega, [], d, by simp, by simp, ?_, ⟨c.out, piece, hh0, r1, z1⟩, fun hn => absurd hn (by simp), fun _ => rfl⟩
        rw [cut (o1.trans o2) (by omega)]
        exact q1
    unfold PreparedStmt.execClose at h2
    cases hr : st.exec [v] c1 with
    | ok a c2 =>
      rw [hr] at h2
      dsimp only at h2
      cases hr2 : st.close c2 with
      | ok b c3 =>
        rw [hr2] at h2
        refine key c2 c3 (Or.inl ⟨a, hr⟩) (Or.inl ⟨b, hr2⟩) (fun _ _ => ?_) (fun _ e => by rw [hr] at e; cases e) (Ends.ok h2)
        unfold PreparedStmt.execClose
        rw [hr]
        dsimp only
        rw [hr2]
      | err e c3 =>
        rw [hr2] at h2
        refine key c2 c3 (Or.inl ⟨a, hr⟩) (Or.inr ⟨e, hr2⟩) (fun _ _ => ?_) (fun _ e => by rw [hr] at e; cases e) (Ends.ok h2)
        unfold PreparedStmt.execClose
        rw [hr]
        dsimp only
        rw [hr2]
      | panic => rw [hr2] at h2; exact (Ends.panic h2).elim
      | hang => rw [hr2] at h2; exact (Ends.hang h2).elim
    | err e c2 =>
      rw [hr] at h2
      dsimp only at h2
      cases hr2 : st.close c2 with
      | ok b c3 =>
        rw [hr2] at h2
        refine key c2 c3 (Or.inr ⟨e, hr⟩) (Or.inl ⟨b, hr2⟩) (fun _ e => by rw [hr] at e; cases e) (fun _ e' => ?_) (Ends.err h2)
        unfold PreparedStmt.execClose
        rw [hr] at e' ⊢
        cases e'
        dsimp only
        rw [hr2]
      | err e' c3 =>
        rw [hr2] at h2
        refine key c2 c3 (Or.inr ⟨e, hr⟩) (Or.inr ⟨e', hr2⟩) (fun _ e => by rw [hr] at e; cases e) (fun _ e' => ?_) (Ends.err h2)
        unfold PreparedStmt.execClose
        rw [hr] at e' ⊢
        cases e'
        dsimp only
        rw [hr2]
      | panic => rw [hr2] at h2; exact (Ends.panic h2).elim
      | hang => rw [hr2] at h2; exact (Ends.hang h2).elim
    | panic => rw [hr] at h2; exact (Ends.panic h2).elim
    | hang => rw [hr] at h2; exact (Ends.hang h2).elim
  · refine ⟨_, .inl rfl, fun caps => hp caps c c' (Or.inr ⟨e, h1⟩), fun k => ?_⟩
    have b1 := (Breaks.prepare q).one c c' (Or.inr ⟨e, h1⟩) (fun caps => hp caps c c' (Or.inr ⟨e, h1⟩)) k
    rw [L.bind_apply, M.bind_apply]
    rcases b1 with ⟨l1, p1⟩ | ⟨l1, d, p1, q1, piece, r1, z1⟩
    · left
      refine ⟨l1, ?_⟩
      rw [p1, h1]
      rfl
    · right
      rw [p1]
      exact ⟨l1, [], d, by simp, by simp, q1, ⟨c.out, piece, hh0, r1, z1⟩, fun hn => absurd hn (by simp), fun _ => rfl⟩

theorem perform_ok (a : Ask) (c c' : Conn) (h : Ends (a.perform c) c') : ∃ o, a.perform c = .ok o c' := by
  have at_ : ∀ {α : Type} (x : M α) (f : α → Outcome), a.perform = attempt x f → ∃ o, a.perform c = .ok o c' := by
    intro α x f e
    rcases h with ⟨o, h⟩ | ⟨e', h⟩
    · exact ⟨o, h⟩
    · exfalso
      rw [e] at h
      unfold attempt at h
      split at h <;> cases h
  cases a <;> exact at_ _ _ rfl

theorem sets_eq (a : Ask) (q : Bytes) (v : StmtColumnValue) (h : Spec.sets a = some (q, v)) :
    a.perform = attempt (do let st ← Stmt.prepare q; st.execClose [v] : M Unit) (fun _ => .done) ∧
    a.performL = attemptL (setL q v) (fun _ => .done) ∧ (a.Typed → v.Sound) ∧
    ∀ said, (said = [.command (.stmtPrepare q)] ∨ ∃ id, id < 2 ^ 32 ∧
        said = [.command (.stmtPrepare q), .execute id [Spec.serverParam v], .command (.stmtClose id)]) →
      Spec.MaySay a said := by
  cases a with
  | setVar global name w =>
    cases h
    refine ⟨?_, ?_, fun h => h, fun said h => h⟩
    · cases global <;> rfl
    · cases global <;> rfl
  | setUserVar name w =>
    cases h
    exact ⟨rfl, rfl, fun h => h, fun said h => h⟩
  | _ => cases h

/-- C128: the stream takes `k` more bytes and then fails. If all messages of a call fit, the call is as ever. Otherwise the
server gets exactly the first `k` bytes of what the call sends: some of its messages whole, and of the next one only a piece. The
call then fails with the error of the stream; only setting a variable, when no more than the closing of its statement was
cut off, gives the answer the server gave. -/
theorem C128_call_partial (a : Ask) (ha : a.Typed) (c c' : Conn) (o : Outcome) (h : a.perform c = .ok o c') :
    ∃ said, Spec.MaySay a said ∧ (∀ caps, Spec.Heard caps c.out c'.out said) ∧ ∀ k,
      (c'.out.length ≤ c.out.length + k ∧ a.performL ⟨c, k⟩ = .ok o ⟨c', c.out.length + k - c'.out.length⟩) ∨
      c.out.length + k < c'.out.length ∧ ∃ (heard : List Spec.Said) (o' : Outcome) (d : Conn), heard <+: said ∧ heard ≠ said ∧
        a.performL ⟨c, k⟩ = .ok o' ⟨d, 0⟩ ∧ d.out = c'.out.take (c.out.length + k) ∧ Spec.HeardPart c.out d.out heard ∧
        (Spec.acts a said <+: heard → o' = o) ∧ (¬Spec.acts a said <+: heard → o' = .failed .io) := by
  cases hn : Spec.sets a with
  | none =>
    obtain ⟨said, hm, hh⟩ := C88_call a ha c c' (.inl ⟨o, h⟩)
    obtain ⟨s, rfl⟩ := maySay_one hn hm
    refine ⟨[s], hm, hh, fun k => ?_⟩
    obtain ⟨α, x, X, f, e1, e2, hb⟩ := ask_breaks a hn
    have hx : Ends (x c) c' := attempt_ends (f := f) (by rw [← e1]; exact .inl ⟨o, h⟩)
    rcases hb.one c c' hx hh k with ⟨l, p⟩ | ⟨l, d, p, q, piece, r, z⟩
    · left
      refine ⟨l, ?_⟩
      rw [e1] at h
      rw [e2]
      unfold attempt at h
      unfold attemptL
      rw [p]
      cases hx : x c with
      | ok b d => rw [hx] at h; cases h; rfl
      | err b d => rw [hx] at h; cases h; rfl
      | panic => rw [hx] at h; cases h
      | hang => rw [hx] at h; cases h
    · right
      refine ⟨l, [], .failed .io, d, by simp, by simp, ?_, q, ⟨c.out, piece, fun caps => Heard.nil _ _, r, z⟩,
        fun hc => ?_, fun _ => rfl⟩
      · rw [e2]
        unfold attemptL
        rw [p]
      · simp [Spec.acts, hn] at hc
  | some qv =>
    obtain ⟨q, v⟩ := qv
    obtain ⟨e1, e2, hv, hm⟩ := sets_eq a q v hn
    have hx : Ends ((do let st ← Stmt.prepare q; st.execClose [v] : M Unit) c) c' :=
      attempt_ends (f := fun _ => .done) (by rw [← e1]; exact .inl ⟨o, h⟩)
    obtain ⟨said, hs, hh, hk⟩ := sets_breaks q v (hv ha) c c' hx
    refine ⟨said, hm said hs, hh, fun k => ?_⟩
    rw [e1] at h
    rw [e2]
    unfold attempt at h
    unfold attemptL
    rcases hk k with ⟨l, p⟩ | ⟨l, heard, d, h1, h2, h3, h4, h5, h6⟩
    · left
      refine ⟨l, ?_⟩
      rw [p]
      generalize (do let st ← Stmt.prepare q; st.execClose [v] : M Unit) c = r at h ⊢
      cases r with
      | ok b d => cases h; rfl
      | err b d => cases h; rfl
      | panic => cases h
      | hang => cases h
    · right
      have ea : Spec.acts a said = said.take 2 := by simp [Spec.acts, hn]
      rw [ea]
      by_cases ht : said.take 2 <+: heard
      · rcases h5 ht with ⟨p, e⟩ | ⟨e', p, e⟩
        · rw [e] at h
          cases h
          exact ⟨l, heard, _, d, h1, h2, by rw [p], h3, h4, fun _ => rfl, fun hc => absurd ht hc⟩
        · rw [e] at h
          cases h
          exact ⟨l, heard, _, d, h1, h2, by rw [p], h3, h4, fun _ => rfl, fun hc => absurd ht hc⟩
      · exact ⟨l, heard, _, d, h1, h2, by rw [h6 ht], h3, h4, fun hc => absurd hc ht, fun _ => rfl⟩

/-- C128: a server cannot take a piece of a message for a message. -/
theorem C128_piece (p : Bytes) (h : Spec.Piece p) (ps : List Spec.Packet) (hp : Spec.IsMessage ps) :
    ¬Spec.wire ps <+: p := by
  intro hc
  obtain ⟨qs, hq, h1, h2⟩ := h
  obtain ⟨t, ht⟩ := hc.trans h1
  obtain ⟨init, last, rfl, a1, a2, a3⟩ := hp
  obtain ⟨init', last', rfl, b1, b2, b3⟩ := hq
  have r1 := recvLoop_message init last t a1 a2 (fun p h => a3 p (by simp [h])) (a3 last (by simp)) [] 0
  have r2 := recvLoop_message init' last' [] b1 b2 (fun p h => b3 p (by simp [h])) (b3 last' (by simp)) [] 0
  rw [List.append_nil, ← ht, r1] at r2
  injection r2 with r2
  have e : t = [] := congrArg (·.2.1) r2
  subst e
  rw [List.append_nil] at ht
  obtain ⟨u, hu⟩ := hc
  obtain ⟨w, hw⟩ := h1
  have := congrArg List.length ht
  have h3 := congrArg List.length hu
  have h4 := congrArg List.length hw
  rw [List.length_append] at h3 h4
  have : w = [] := List.eq_nil_of_length_eq_zero (by omega)
  subst this
  rw [List.append_nil] at hw
  exact h2 hw

/-- C128: on a stream that has failed every call fails with the error of the stream and sends nothing. -/
theorem C128_after (a : Ask) (c : Conn) : ∃ d, a.performL ⟨c, 0⟩ = .ok (.failed .io) ⟨d, 0⟩ ∧ d.out = c.out := by
  have at_ : ∀ {α : Type} (X : L α) (f : α → Outcome) (d : Conn), a.performL = attemptL X f → X ⟨c, 0⟩ = .err .io ⟨d, 0⟩ →
      d.out = c.out → ∃ d, a.performL ⟨c, 0⟩ = .ok (.failed .io) ⟨d, 0⟩ ∧ d.out = c.out := by
    intro α X f d e hX hd
    refine ⟨d, ?_, hd⟩
    rw [e]
    unfold attemptL
    rw [hX]
  have set_ : ∀ q v, setL q v ⟨c, 0⟩ = .err .io ⟨{ c with pktNr := 0 }, 0⟩ := by
    intro q v
    unfold setL prepareL
    rw [L.bind_apply, requestL_dead]
    rfl
  cases a with
  | stmtExec st ps =>
    obtain ⟨bs, -, h⟩ := st.requestL_eq ps execLoop
    exact at_ _ _ { c with pktNr := 0 } rfl (by unfold PreparedStmt.execL; rw [h]; exact requestL_dead _ _ _) rfl
  | stmtQuery st ps =>
    obtain ⟨bs, -, h⟩ := st.requestL_eq ps (do let rs ← newResultSet (some st.stmtId); rs.all rs.binaryRow)
    exact at_ _ _ { c with pktNr := 0 } rfl (by rw [h]; exact requestL_dead _ _ _) rfl
  | stmtClose st => exact at_ _ _ _ rfl (sendMsgL_dead _ _) rfl
  | setVar global name v => exact at_ _ _ _ rfl (set_ _ _) rfl
  | setUserVar name v => exact at_ _ _ _ rfl (set_ _ _) rfl
  | _ => exact at_ _ _ _ rfl (requestL_dead _ _ _) rfl

theorem sessionL_dead (app : List Outcome → Option Ask) (n : Nat) (got : List Outcome) (c : Conn) :
    ∃ (tail : List Outcome) (d : Conn), sessionL app n got ⟨c, 0⟩ = .ok (got ++ tail) ⟨d, 0⟩ ∧
      (∀ o ∈ tail, o = .failed .io) ∧ d.out = c.out := by
  induction n generalizing got c with
  | zero => exact ⟨[], c, by rw [List.append_nil]; rfl, by simp, rfl⟩
  | succ n ih =>
    rw [sessionL]
    cases ha : app got with
    | none => exact ⟨[], c, by rw [List.append_nil]; rfl, by simp, rfl⟩
    | some ask =>
      obtain ⟨d, h1, h2⟩ := C128_after ask c
      obtain ⟨tail, d', h3, h4, h5⟩ := ih (got ++ [.failed .io]) d
      refine ⟨.failed .io :: tail, d', ?_, by simpa using h4, h5.trans h2⟩
      dsimp only
      rw [L.bind_apply, h1]
      refine h3.trans ?_
      rw [List.append_assoc]
      rfl

theorem session_ge (app : List Outcome → Option Ask) (n : Nat) (got res : List Outcome) (c c' : Conn)
    (h : session app n got c = .ok res c') : got <+: res := by
  induction n generalizing got c with
  | zero => cases h; exact List.prefix_refl _
  | succ n ih =>
    rw [session] at h
    cases ha : app got with
    | none => rw [ha] at h; cases h; exact List.prefix_refl _
    | some ask =>
      rw [ha] at h
      dsimp only at h
      rw [M.bind_apply] at h
      cases hr : ask.perform c with
      | ok o c1 => rw [hr] at h; exact (List.prefix_append _ _).trans (ih _ _ h)
      | err e c1 => rw [hr] at h; cases h
      | panic => rw [hr] at h; cases h
      | hang => rw [hr] at h; cases h

theorem session_says (app : List Outcome → Option Ask) (n : Nat) (got res : List Outcome) (c c' : Conn)
    (h : session app n got c = .ok res c')
    (happ : ∀ got a, (∀ st, Outcome.stmt st ∈ got → st.stmtId < 2 ^ 32) → app got = some a → a.Typed)
    (hg : ∀ st, Outcome.stmt st ∈ got → st.stmtId < 2 ^ 32) : c.out <+: c'.out := by
  induction n generalizing got c with
  | zero => cases h; exact List.prefix_refl _
  | succ n ih =>
    rw [session] at h
    cases ha : app got with
    | none => rw [ha] at h; cases h; exact List.prefix_refl _
    | some ask =>
      rw [ha] at h
      dsimp only at h
      rw [M.bind_apply] at h
      cases hr : ask.perform c with
      | ok o c1 =>
        rw [hr] at h
        obtain ⟨_, -, hh, -⟩ := C128_call_partial ask (happ got ask hg ha) c c1 o hr
        obtain ⟨_, -, hh, -⟩ := hh 0
        refine List.IsPrefix.trans ⟨_, hh.symm⟩ (ih _ _ h ?_)
        intro st hst
        rcases List.mem_append.1 hst with hst | hst
        · exact hg st hst
        · rw [List.mem_singleton] at hst
          exact perform_stmt ask c c1 st (by rw [hr, hst])
      | err e c1 => rw [hr] at h; cases h
      | panic => rw [hr] at h; cases h
      | hang => rw [hr] at h; cases h

/-- C128, whole sessions: an application makes calls, which may depend on the outcomes before, and would get `res` on a
stream that never fails. On a stream that fails after `k` bytes, the server gets the first `k` bytes of what it would get,
and nothing else. The calls before the break have the outcomes they would have, the call that was sending is as in
`C128_call_partial`, and all calls after it fail with the error of the stream. -/
theorem C128_session_partial (app : List Outcome → Option Ask)
    (happ : ∀ got a, (∀ st, Outcome.stmt st ∈ got → st.stmtId < 2 ^ 32) → app got = some a → a.Typed)
    (n : Nat) (c c' : Conn) (res : List Outcome) (h : session app n [] c = .ok res c') (k : Nat) :
    (c'.out.length ≤ c.out.length + k ∧ sessionL app n [] ⟨c, k⟩ = .ok res ⟨c', c.out.length + k - c'.out.length⟩) ∨
    ∃ (i : Nat) (hi : i < res.length) (c1 : Conn) (ask : Ask) (said heard : List Spec.Said) (o : Outcome)
      (tail : List Outcome) (d : Conn),
      session app i [] c = .ok (res.take i) c1 ∧ app (res.take i) = some ask ∧
      sessionL app n [] ⟨c, k⟩ = .ok (res.take i ++ o :: tail) ⟨d, 0⟩ ∧ d.out = c'.out.take (c.out.length + k) ∧
      Spec.MaySay ask said ∧ heard <+: said ∧ heard ≠ said ∧ Spec.HeardPart c1.out d.out heard ∧
      (Spec.acts ask said <+: heard → o = res[i]) ∧ (¬Spec.acts ask said <+: heard → o = .failed .io) ∧
      ∀ x ∈ tail, x = .failed .io := by
  have main : ∀ (n : Nat) (got : List Outcome) (c : Conn) (k : Nat), (∀ st, Outcome.stmt st ∈ got → st.stmtId < 2 ^ 32) →
      session app n got c = .ok res c' →
      (c'.out.length ≤ c.out.length + k ∧ sessionL app n got ⟨c, k⟩ = .ok res ⟨c', c.out.length + k - c'.out.length⟩) ∨
      ∃ (i : Nat) (hi : got.length + i < res.length) (c1 : Conn) (ask : Ask) (said heard : List Spec.Said) (o : Outcome)
        (tail : List Outcome) (d : Conn),
        session app i got c = .ok (res.take (got.length + i)) c1 ∧ app (res.take (got.length + i)) = some ask ∧
        sessionL app n got ⟨c, k⟩ = .ok (res.take (got.length + i) ++ o :: tail) ⟨d, 0⟩ ∧
        d.out = c'.out.take (c.out.length + k) ∧
        Spec.MaySay ask said ∧ heard <+: said ∧ heard ≠ said ∧ Spec.HeardPart c1.out d.out heard ∧
        (Spec.acts ask said <+: heard → o = res[got.length + i]) ∧ (¬Spec.acts ask said <+: heard → o = .failed .io) ∧
        ∀ x ∈ tail, x = .failed .io := by
    intro n
    induction n with
    | zero =>
      intro got c k _ h
      cases h
      left
      exact ⟨by omega, by rw [Nat.add_sub_cancel_left]; rfl⟩
    | succ n ih =>
      intro got c k hg h
      rw [session] at h
      rw [sessionL]
      cases ha : app got with
      | none =>
        rw [ha] at h
        cases h
        left
        exact ⟨by omega, by rw [Nat.add_sub_cancel_left]; rfl⟩
      | some ask =>
        rw [ha] at h
        dsimp only at h ⊢
        rw [M.bind_apply] at h
        cases hr : ask.perform c with
        | ok o c1 =>
          rw [hr] at h
          change session app n (got ++ [o]) c1 = _ at h
          have hg' : ∀ st, Outcome.stmt st ∈ got ++ [o] → st.stmtId < 2 ^ 32 := by
            intro st hst
            rcases List.mem_append.1 hst with hst | hst
            · exact hg st hst
            · rw [List.mem_singleton] at hst
              exact perform_stmt ask c c1 st (by rw [hr, hst])
          have hres := session_ge app n _ _ _ _ h
          have hpre := session_says app n _ _ _ _ h happ hg'
          have hlen : got.length + 1 ≤ res.length := by
            have := hres.length_le
            simpa using this
          have hget : res.take got.length = got := by
            obtain ⟨t, rfl⟩ := hres
            simp
          have hnth : res[got.length]'(by omega) = o := by
            obtain ⟨t, rfl⟩ := hres
            simp
          obtain ⟨said, hm, hh, hk⟩ := C128_call_partial ask (happ got ask hg ha) c c1 o hr
          rcases hk k with ⟨l1, p1⟩ | ⟨hlt, heard, o', d, h1, h2, p1, h3, h4, h5, h6⟩
          · rw [L.bind_apply, p1]
            change (_ ∧ sessionL app n (got ++ [o]) ⟨c1, c.out.length + k - c1.out.length⟩ = _) ∨ ∃ i hi c2 ask' said' heard o'' tail d,
              _ ∧ _ ∧ sessionL app n (got ++ [o]) ⟨c1, c.out.length + k - c1.out.length⟩ = _ ∧ _
            have hk1 : c1.out.length + (c.out.length + k - c1.out.length) = c.out.length + k := by omega
            rcases ih (got ++ [o]) c1 (c.out.length + k - c1.out.length) hg' h with ⟨l2, p2⟩ |
              ⟨i, hi, c2, ask', said', heard, o'', tail, d, q1, q2, q3, q4, q5⟩
            · left
              rw [hk1] at l2 p2
              exact ⟨l2, p2⟩
            · right
              have el : (got ++ [o]).length + i = got.length + (i + 1) := by simp; omega
              simp only [el] at q1 q2 q3 q5 hi
              rw [hk1] at q4
              refine ⟨i + 1, hi, c2, ask', said', heard, o'', tail, d, ?_, q2, q3, q4, q5⟩
              rw [session, ha]
              dsimp only
              rw [M.bind_apply, hr]
              exact q1
          · right
            obtain ⟨tail, d', t1, t2, t3⟩ := sessionL_dead app n (got ++ [o']) d
            refine ⟨0, by omega, c, ask, said, heard, o', tail, d', ?_, ?_, ?_, ?_, hm, h1, h2, ?_, ?_, h6, t2⟩
            · rw [Nat.add_zero, hget]; rfl
            · rw [Nat.add_zero, hget]; exact ha
            · rw [L.bind_apply, p1]
              refine t1.trans ?_
              rw [Nat.add_zero, hget, List.append_assoc]
              rfl
            · rw [t3, h3]
              obtain ⟨t, ht⟩ := hpre
              rw [← ht, List.take_append, Nat.sub_eq_zero_of_le hlt.le]
              simp
            · rw [t3]; exact h4
            · intro hc
              rw [h5 hc]
              exact hnth.symm
        | err e c1 => rw [hr] at h; cases h
        | panic => rw [hr] at h; cases h
        | hang => rw [hr] at h; cases h
  have := main n [] c k (by simp) h
  simpa using this

/-- C128, false: that a call which fails with the error of the stream was not carried out. For every statement there are two
streams on which executing it fails in the same way: on one the server heard nothing, on the other, where the answer was
lost, it heard the statement. -/
theorem C128_unknown_false (q : Bytes) (hq : MsgFits q.length) (c : Conn) (hi : c.inp = []) :
    (∃ d : Link, (Ask.exec q).performL ⟨c, 0⟩ = .ok (.failed .io) d ∧ d.conn.out = c.out) ∧
    ∃ (k : Nat) (d : Link), (Ask.exec q).performL ⟨c, k⟩ = .ok (.failed .io) d ∧
      ∀ caps, Spec.Heard caps c.out d.conn.out [.command (.query q)] := by
  constructor
  · obtain ⟨d, h1, h2⟩ := C128_after (.exec q) c
    exact ⟨_, h1, h2⟩
  · obtain ⟨ps, c1, -, -, -, h4, -, h6, -⟩ := sendMsg_spec (ComQuery.writeTo [] q).1 c (by
      have : (ComQuery.writeTo [] q).1.length = q.length + 1 := by
        simp [ComQuery.writeTo, writeStrCmd, writeU8, writeBytes]
        omega
      unfold MsgFits at hq
      omega)
    have hr : recvMsg c1 = .err .io { c1 with inp := [] } := by
      unfold recvMsg
      rw [h6, hi]
      unfold recvLoop
      rfl
    have hp : (Ask.exec q).perform c = .ok (.failed .io) { c1 with inp := [] } := by
      have e1 : execLoop c1 = .err .io { c1 with inp := [] } := by rw [execLoop, hr]
      have e2 : Query.exec q c = (sendMsg (ComQuery.writeTo [] q).1 true c).bind fun _ => execLoop := rfl
      rw [h4] at e2
      have e3 : Query.exec q c = .err .io { c1 with inp := [] } := e2.trans e1
      show attempt (Query.exec q) _ c = _
      unfold attempt
      rw [e3]
    obtain ⟨said, hm, hh, hk⟩ := C128_call_partial (.exec q) trivial c _ _ hp
    cases hm
    rcases hk c1.out.length with ⟨-, p⟩ | ⟨l, -⟩
    · exact ⟨_, _, p, hh⟩
    · exact absurd l (by dsimp only; omega)

/-! ### examples -/

/-- an application that asks for the statistics twice -/
def exampleTwice (got : List Outcome) : Option Ask := if got.length < 2 then some .statistics else none

theorem exampleTwice_typed (got : List Outcome) (a : Ask) (h : exampleTwice got = some a) : a.Typed := by
  unfold exampleTwice at h
  split at h
  · cases h; trivial
  · cases h

/-- both answers arrive; the stream fails after seven bytes, in the second message -/
example : ∃ d, sessionL exampleTwice 2 [] ⟨{ inp := [2, 0, 0, 1, 0x55, 0x70, 2, 0, 0, 1, 0x55, 0x70] }, 7⟩ =
    .ok [.info [0x55, 0x70], .failed .io] ⟨d, 0⟩ ∧ d.out = [1, 0, 0, 0, 9, 1, 0] := by
  have h1 : Ask.statistics.perform { inp := [2, 0, 0, 1, 0x55, 0x70, 2, 0, 0, 1, 0x55, 0x70] } =
      .ok (.info [0x55, 0x70]) { inp := [2, 0, 0, 1, 0x55, 0x70], out := [1, 0, 0, 0, 9], pktNr := 2 } := by
    show attempt Cmd.statistics _ _ = _
    unfold attempt
    rw [show (⟨[2, 0, 0, 1, 0x55, 0x70, 2, 0, 0, 1, 0x55, 0x70], [], 0, 0, 0⟩ : Conn) =
      ⟨[2, 0, 0, 1, 0x55, 0x70] ++ [2, 0, 0, 1, 0x55, 0x70], [], 0, 0, 0⟩ from rfl, example_statistics]
  obtain ⟨said, hm, -, hk⟩ := C128_call_partial .statistics trivial _ _ _ h1
  have e1 : Ask.statistics.performL ⟨{ inp := [2, 0, 0, 1, 0x55, 0x70, 2, 0, 0, 1, 0x55, 0x70] }, 7⟩ =
      .ok (.info [0x55, 0x70]) ⟨{ inp := [2, 0, 0, 1, 0x55, 0x70], out := [1, 0, 0, 0, 9], pktNr := 2 }, 2⟩ := by
    rcases hk 7 with ⟨-, h⟩ | ⟨h, -⟩
    · exact h
    · simp at h
  have e2 : Ask.statistics.performL ⟨{ inp := [2, 0, 0, 1, 0x55, 0x70], out := [1, 0, 0, 0, 9], pktNr := 2 }, 2⟩ =
      .ok (.failed .io) ⟨{ inp := [2, 0, 0, 1, 0x55, 0x70], out := [1, 0, 0, 0, 9, 1, 0] }, 0⟩ := by
    show attemptL (requestL [9] statisticsAnswer) _ _ = _
    unfold attemptL requestL
    rw [L.bind_apply]
    unfold sendMsgL
    rw [sendLoopL, dif_neg (by unfold maxPacket; decide)]
    rfl
  refine ⟨{ inp := [2, 0, 0, 1, 0x55, 0x70], out := [1, 0, 0, 0, 9, 1, 0] }, ?_, rfl⟩
  rw [sessionL]
  show (Ask.statistics.performL >>= _) _ = _
  rw [L.bind_apply, e1]
  show sessionL exampleTwice 1 [.info [0x55, 0x70]] _ = _
  rw [sessionL]
  show (Ask.statistics.performL >>= _) _ = _
  rw [L.bind_apply, e2]
  rfl

/-- setting a variable, with three messages -/
example : ∃ c c', (Ask.setUserVar (Spec.ascii "n") (.newUnsignedBigint 5)).Typed ∧
    (Ask.setUserVar (Spec.ascii "n") (.newUnsignedBigint 5)).perform c = .ok .done c' ∧
    Spec.Heard (2 ^ 9) c.out c'.out (Spec.setUserVariable (Spec.ascii "n") 8 (Spec.serverParam (.newUnsignedBigint 5))) := by
  have hsends : ∀ ms : List Bytes, (∀ m ∈ ms, m.length < 0xffffff) → ∃ inp, Spec.Sends inp ms := fun ms hm =>
    delivers_small ms [] hm
  obtain ⟨i1, h1⟩ := hsends (Spec.prepareResponse (2 ^ 9) ⟨8, 0⟩ [exampleTextDef] [] 0 2 0 0) (by decide +kernel)
  obtain ⟨i2, h2⟩ := hsends [Spec.okPacket (2 ^ 9) 0 ⟨0, 0, 2, 0, [], []⟩] (by decide +kernel)
  have hs := bigint_sound 5 (by norm_num)
  have hl := live_rounds (caps := 2 ^ 9) (ask := .setUserVar (Spec.ascii "n") (.newUnsignedBigint 5)) (got := .done)
    (rs := [(.command (.stmtPrepare (Spec.ascii "SET @" ++ Spec.ascii "n" ++ Spec.ascii " = ?")), i1),
        (.execute 8 [Spec.serverParam (.newUnsignedBigint 5)], i2), (.command (.stmtClose 8), [])])
    ⟨by unfold MsgFits; decide +kernel, hs, by unfold ParamsFit MsgFits; decide +kernel⟩
    (.sets 8 _ ⟨0, 0, 2, 0, [], []⟩ rfl
      ⟨0, 0, 2, (exampleTextDef, .varString), by norm_num, by norm_num, by norm_num, by norm_num, exampleText_supported, rfl⟩
      (by constructor <;> norm_num)) (by simp)
    (.cons ⟨rfl, h1⟩ (.cons ⟨rfl, h2⟩ (.cons ⟨rfl, ⟨[], by simp, rfl, rfl⟩⟩ .nil)))
  obtain ⟨c', e, -, -, o⟩ := hl.1 { inp := i1 ++ (i2 ++ []), caps := 2 ^ 9 } [] rfl (by simp [Spec.answers])
  exact ⟨_, c', hs, C96_same _ _ _ _ e, o⟩

/-- the statement of `C128_unknown_false` -/
example : MsgFits (Spec.ascii "DELETE FROM t").length := by unfold MsgFits; decide +kernel

end Mybin
