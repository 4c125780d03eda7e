/-
C88: what a call says to the server does not depend on the server, however it behaves; and the two programs only ask.
-/
import Verif.Model.Program
import Verif.Props.C43
import Verif.Props.C84
import Verif.Props.C87

namespace Mybin

/-! ### specification -/

/-- between `before` and `after` exactly one message was sent, numbered from 0, with this payload -/
def Spec.SaysOne (payload before after : List UInt8) : Prop :=
  ∃ ps, Spec.IsMessage ps ∧ Spec.Numbered 0 ps ∧ Spec.payload ps = payload ∧ after = before ++ Spec.wire ps

/-- the connection after a run that returned a value or an error -/
def Ends {α : Type} (r : MR α) (c' : Conn) : Prop := (∃ a, r = .ok a c') ∨ ∃ e, r = .err e c'

/-! ### runs that send nothing -/

def Quiet {α : Type} (run : M α) : Prop := ∀ c c', Ends (run c) c' → c'.out = c.out

theorem Ends.ok {α : Type} {a : α} {c c' : Conn} (h : Ends (.ok a c) c') : c' = c := by
  rcases h with ⟨b, h⟩ | ⟨e, h⟩
  · cases h; rfl
  · cases h

theorem Ends.err {α : Type} {e : Err} {c c' : Conn} (h : Ends (.err e c : MR α) c') : c' = c := by
  rcases h with ⟨b, h⟩ | ⟨e, h⟩
  · cases h
  · cases h; rfl

theorem Ends.panic {α : Type} {c' : Conn} (h : Ends (.panic : MR α) c') : False := by
  rcases h with ⟨b, h⟩ | ⟨e, h⟩ <;> cases h

theorem Ends.hang {α : Type} {c' : Conn} (h : Ends (.hang : MR α) c') : False := by
  rcases h with ⟨b, h⟩ | ⟨e, h⟩ <;> cases h

/-- closes goals about a concrete outcome -/
macro "ends" h:ident : tactic => `(tactic|
  first | exact absurd (Ends.panic $h) id | exact absurd (Ends.hang $h) id |
    (have := Ends.ok $h; subst this) | (have := Ends.err $h; subst this))

theorem Quiet.pure {α : Type} (a : α) : Quiet (Pure.pure a : M α) := by
  intro c c' h; rw [Ends.ok h]

theorem Quiet.fail {α : Type} (e : Err) : Quiet (M.fail e : M α) := by
  intro c c' h; rw [Ends.err h]

theorem Quiet.panic {α : Type} : Quiet (M.panic : M α) := fun _ _ h => (Ends.panic h).elim

theorem Ends.bind {α β : Type} {r : MR α} {f : α → M β} {c' : Conn} (h : Ends (r.bind f) c') :
    (∃ a c1, r = .ok a c1 ∧ Ends (f a c1) c') ∨ ∃ e, r = .err e c' := by
  cases r with
  | ok a c1 => exact Or.inl ⟨a, c1, rfl, h⟩
  | err e c1 => rw [Ends.err (h : Ends (.err e c1 : MR β) c')]; exact Or.inr ⟨e, rfl⟩
  | panic => exact (Ends.panic (h : Ends (.panic : MR β) c')).elim
  | hang => exact (Ends.hang (h : Ends (.hang : MR β) c')).elim

theorem Quiet.bind {α β : Type} {x : M α} {f : α → M β} (hx : Quiet x) (hf : ∀ a, Quiet (f a)) : Quiet (x >>= f) := by
  intro c c' h
  rcases Ends.bind h with ⟨a, c1, h1, h2⟩ | ⟨e, h1⟩
  · rw [hf a _ _ h2, hx c c1 (Or.inl ⟨a, h1⟩)]
  · exact hx c c' (Or.inr ⟨e, h1⟩)

theorem Quiet.recvMsg : Quiet recvMsg := by
  intro c c' h
  unfold Mybin.recvMsg at h
  split at h
  · rw [Ends.ok h]
  · rw [Ends.err h]

theorem Quiet.getCaps : Quiet getCaps := by intro c c' h; rw [Ends.ok h]
theorem Quiet.insertCap (f : Nat) : Quiet (insertCap f) := by intro c c' h; rw [Ends.ok h]
theorem Quiet.removeCap (f : Nat) : Quiet (removeCap f) := by intro c c' h; rw [Ends.ok h]

theorem Quiet.parse {α : Type} (msg : Bytes) (p : P α) : Quiet (M.parse msg p) := by
  intro c c' h
  unfold M.parse at h
  split at h
  · rw [Ends.ok h]
  · rw [Ends.err h]
  · exact (Ends.panic h).elim
  · exact (Ends.hang h).elim

theorem Quiet.ofExcept {α : Type} (r : Except Err α) : Quiet (M.ofExcept r) := by
  intro c c' h
  unfold M.ofExcept at h
  split at h
  · rw [Ends.ok h]
  · rw [Ends.err h]

theorem Quiet.ofRes {α : Type} (r : Res α) : Quiet (Cmd.M.ofRes r) := by
  intro c c' h
  unfold Cmd.M.ofRes at h
  split at h
  · rw [Ends.ok h]
  · rw [Ends.err h]
  · exact (Ends.panic h).elim

theorem Quiet.someOr {α : Type} (e : Err) (o : Option α) : Quiet (M.someOr e o) := by
  cases o with
  | none => exact Quiet.fail e
  | some a => exact Quiet.pure a

theorem Quiet.failWithErrPacket {α : Type} (msg : Bytes) : Quiet (failWithErrPacket msg : M α) := by
  unfold Mybin.failWithErrPacket
  exact Quiet.getCaps.bind fun caps => (Quiet.parse _ _).bind fun p => Quiet.fail _

theorem Quiet.recvColDefs (n : Nat) : Quiet (recvColDefs n) := by
  induction n with
  | zero => exact Quiet.pure _
  | succ n ih =>
    unfold Mybin.recvColDefs
    exact Quiet.recvMsg.bind fun _ => (Quiet.parse _ _).bind fun _ => ih.bind fun _ => Quiet.pure _

theorem Quiet.recvDefsEof : Quiet recvDefsEof := by
  unfold Mybin.recvDefsEof
  refine Quiet.getCaps.bind fun caps => ?_
  split
  · exact Quiet.recvMsg.bind fun _ => (Quiet.parse _ _).bind fun _ => Quiet.pure _
  · exact Quiet.pure _

theorem Quiet.readColCnt (msg : Bytes) : Quiet (readColCnt msg) := by
  intro c c' h
  unfold Mybin.readColCnt at h
  split at h
  · split at h
    · rw [Ends.ok h]
    · split at h
      · exact (Ends.panic h).elim
      · rw [Ends.err h]
  · rw [Ends.err h]
  · exact (Ends.panic h).elim
  · exact (Ends.hang h).elim

theorem Quiet.parseColCnt (msg : Bytes) : Quiet (parseColCnt msg) := by
  unfold Mybin.parseColCnt
  split
  · exact Quiet.panic
  · refine Quiet.getCaps.bind fun caps => ?_
    split
    · exact Quiet.failWithErrPacket _
    · split
      · exact (Quiet.parse _ _).bind fun _ => Quiet.pure _
      · exact Quiet.readColCnt _

theorem Quiet.newResultSet (id : Option Nat) : Quiet (newResultSet id) := by
  unfold Mybin.newResultSet
  refine Quiet.recvMsg.bind fun msg => (Quiet.parseColCnt _).bind fun n => ?_
  split
  · exact Quiet.pure _
  · exact (Quiet.recvColDefs n).bind fun _ => Quiet.recvDefsEof.bind fun _ => Quiet.pure _

theorem Quiet.readTerminator (caps : Nat) (msg : Bytes) : Quiet (readTerminator caps msg) := by
  intro c c' h
  unfold Mybin.readTerminator at h
  split at h
  all_goals
    split at h
    · rw [Ends.ok h]
    · rw [Ends.err h]
    · exact (Ends.panic h).elim
    · exact (Ends.hang h).elim

theorem Quiet.nextRow {ρ : Type} (read : P ρ) (rs : ResultSet) : Quiet (rs.nextRow read) := by
  unfold ResultSet.nextRow
  split
  · exact Quiet.pure _
  · refine Quiet.recvMsg.bind fun msg => Quiet.getCaps.bind fun caps => ?_
    split
    · exact Quiet.fail _
    · split
      · exact (Quiet.readTerminator _ _).bind fun _ => Quiet.pure _
      · exact (Quiet.parse _ _).bind fun _ => Quiet.pure _

theorem Quiet.foldRows {ρ σ : Type} (read : P ρ) (f : σ → ρ → σ) (s : σ) (rs : ResultSet) :
    Quiet (ResultSet.foldRows read f s rs) := by
  intro c
  induction hn : c.inp.length using Nat.strong_induction_on generalizing c s rs with
  | _ n ih =>
    intro c' h
    rw [ResultSet.foldRows.eq_def] at h
    have hq := Quiet.nextRow read rs c
    cases hr : rs.nextRow read c with
    | ok a c1 =>
      have h1 := hq c1 (Or.inl ⟨a, hr⟩)
      rw [hr] at h
      obtain ⟨o, rs'⟩ := a
      cases o with
      | none => rw [Ends.ok h, h1]
      | some r =>
        dsimp only at h
        split at h
        · rw [ih c1.inp.length (by omega) _ rs' c1 rfl c' h, h1]
        · exact (Ends.hang h).elim
    | err e c1 =>
      rw [hr] at h
      rw [Ends.err h]
      exact hq c1 (Or.inr ⟨e, hr⟩)
    | panic => rw [hr] at h; exact (Ends.panic h).elim
    | hang => rw [hr] at h; exact (Ends.hang h).elim

theorem Quiet.filesLoop (rs : ResultSet) (fs : List Cmd.BinlogFile) : Quiet (Cmd.filesLoop rs fs) := by
  intro c
  induction hn : c.inp.length using Nat.strong_induction_on generalizing c fs rs with
  | _ n ih =>
    intro c' h
    rw [Cmd.filesLoop.eq_def] at h
    have hq := Quiet.nextRow (mapRow rs.textRow Cmd.binlogFileMapper) rs c
    cases hr : rs.nextRow (mapRow rs.textRow Cmd.binlogFileMapper) c with
    | ok a c1 =>
      have h1 := hq c1 (Or.inl ⟨a, hr⟩)
      rw [hr] at h
      obtain ⟨o, rs'⟩ := a
      rcases o with _ | r
      · rw [Ends.ok h, h1]
      · cases r with
        | ok f =>
          dsimp only at h
          split at h
          · rw [ih c1.inp.length (by omega) rs' _ c1 rfl c' h, h1]
          · exact (Ends.hang h).elim
        | err e => rw [Ends.err h, h1]
        | panic => exact (Ends.panic h).elim
    | err e c1 =>
      rw [hr] at h
      rw [Ends.err h]
      exact hq c1 (Or.inr ⟨e, hr⟩)
    | panic => rw [hr] at h; exact (Ends.panic h).elim
    | hang => rw [hr] at h; exact (Ends.hang h).elim

theorem Quiet.execLoop : Quiet execLoop := by
  intro c
  induction hn : c.inp.length using Nat.strong_induction_on generalizing c with
  | _ n ih =>
    intro c' h
    rw [execLoop.eq_def] at h
    have hq := Quiet.recvMsg c
    cases hr : Mybin.recvMsg c with
    | ok msg c1 =>
      have h1 := hq c1 (Or.inl ⟨msg, hr⟩)
      rw [hr] at h
      cases msg with
      | nil => exact (Ends.panic h).elim
      | cons b t =>
        dsimp only at h
        split at h
        · rw [Quiet.failWithErrPacket _ _ _ h, h1]
        · split at h
          · have h2 := Quiet.parse (b :: t) (OkPacket.readFrom c1.caps) c1
            cases hp : M.parse (b :: t) (OkPacket.readFrom c1.caps) c1 with
            | ok a c2 => rw [hp] at h; rw [Ends.ok h, h2 c2 (Or.inl ⟨a, hp⟩), h1]
            | err e c2 => rw [hp] at h; rw [Ends.err h, h2 c2 (Or.inr ⟨e, hp⟩), h1]
            | panic => rw [hp] at h; exact (Ends.panic h).elim
            | hang => rw [hp] at h; exact (Ends.hang h).elim
          · split at h
            · rw [ih c1.inp.length (by omega) c1 rfl c' h, h1]
            · exact (Ends.hang h).elim
    | err e c1 =>
      rw [hr] at h
      rw [Ends.err h]
      exact hq c1 (Or.inr ⟨e, hr⟩)
    | panic => rw [hr] at h; exact (Ends.panic h).elim
    | hang => rw [hr] at h; exact (Ends.hang h).elim

theorem Quiet.fieldListLoop (defs : List ColumnDefinition) : Quiet (Cmd.fieldListLoop defs) := by
  intro c
  induction hn : c.inp.length using Nat.strong_induction_on generalizing c defs with
  | _ n ih =>
    intro c' h
    rw [Cmd.fieldListLoop.eq_def] at h
    have hq := Quiet.recvMsg c
    cases hr : Mybin.recvMsg c with
    | ok msg c1 =>
      have h1 := hq c1 (Or.inl ⟨msg, hr⟩)
      rw [hr] at h
      dsimp only at h
      have h2 := Quiet.parse msg (ComFieldListResponse.readFrom c1.caps true) c1
      cases hp : M.parse msg (ComFieldListResponse.readFrom c1.caps true) c1 with
      | ok a c2 =>
        rw [hp] at h
        have h3 := h2 c2 (Or.inl ⟨a, hp⟩)
        cases a with
        | err p => rw [Ends.err h, h3, h1]
        | eof p => rw [Ends.ok h, h3, h1]
        | colDef d =>
          dsimp only at h
          split at h
          · rw [ih c2.inp.length (by omega) _ c2 rfl c' h, h3, h1]
          · exact (Ends.hang h).elim
      | err e c2 => rw [hp] at h; rw [Ends.err h, h2 c2 (Or.inr ⟨e, hp⟩), h1]
      | panic => rw [hp] at h; exact (Ends.panic h).elim
      | hang => rw [hp] at h; exact (Ends.hang h).elim
    | err e c1 =>
      rw [hr] at h
      rw [Ends.err h]
      exact hq c1 (Or.inr ⟨e, hr⟩)
    | panic => rw [hr] at h; exact (Ends.panic h).elim
    | hang => rw [hr] at h; exact (Ends.hang h).elim

theorem Quiet.recvAndParse (s : BinlogStream) : Quiet s.recvAndParse := by
  intro c c' h
  unfold BinlogStream.recvAndParse at h
  have hq := Quiet.recvMsg c
  cases hr : Mybin.recvMsg c with
  | ok msg c1 =>
    have h1 := hq c1 (Or.inl ⟨msg, hr⟩)
    rw [hr] at h
    cases msg with
    | nil => rw [Ends.err h, h1]
    | cons b t =>
      dsimp only at h
      split at h
      · rw [Ends.ok h, h1]
      · split at h
        · rw [Ends.err h, h1]
        · have h2 := Quiet.parse t (s.pv4.parseEvent s.validateChecksum) c1
          cases hp : M.parse t (s.pv4.parseEvent s.validateChecksum) c1 with
          | ok a c2 =>
            rw [hp] at h
            cases a <;> rw [Ends.ok h, h2 c2 (Or.inl ⟨_, hp⟩), h1]
          | err e c2 => rw [hp] at h; rw [Ends.err h, h2 c2 (Or.inr ⟨e, hp⟩), h1]
          | panic => rw [hp] at h; exact (Ends.panic h).elim
          | hang => rw [hp] at h; exact (Ends.hang h).elim
  | err e c1 =>
    rw [hr] at h
    rw [Ends.err h]
    exact hq c1 (Or.inr ⟨e, hr⟩)
  | panic => rw [hr] at h; exact (Ends.panic h).elim
  | hang => rw [hr] at h; exact (Ends.hang h).elim

theorem Quiet.nextLoop (s : BinlogStream) : Quiet s.nextLoop := by
  intro c
  induction hn : c.inp.length using Nat.strong_induction_on generalizing c with
  | _ n ih =>
    intro c' h
    rw [BinlogStream.nextLoop.eq_def] at h
    have hq := Quiet.recvAndParse s c
    cases hr : s.recvAndParse c with
    | ok a c1 =>
      have h1 := hq c1 (Or.inl ⟨a, hr⟩)
      rw [hr] at h
      cases a with
      | single e => rw [Ends.ok h, h1]
      | unsupported =>
        dsimp only at h
        split at h
        · rw [ih c1.inp.length (by omega) c1 rfl c' h, h1]
        · exact (Ends.hang h).elim
      | theEnd => rw [Ends.ok h, h1]
    | err e c1 =>
      rw [hr] at h
      rw [Ends.err h]
      exact hq c1 (Or.inr ⟨e, hr⟩)
    | panic => rw [hr] at h; exact (Ends.panic h).elim
    | hang => rw [hr] at h; exact (Ends.hang h).elim

theorem Quiet.nextEvent (s : BinlogStream) : Quiet s.nextEvent := by
  intro c c' h
  unfold BinlogStream.nextEvent at h
  split at h
  · rw [Ends.ok h]
  · exact Quiet.nextLoop s c c' h

/-! ### sending -/

theorem sendLoop_inv (bs : Bytes) (c c' : Conn) (h : Ends (sendLoop bs c) c') :
    ∃ ps, Spec.IsMessage ps ∧ Spec.Numbered c.pktNr ps ∧ Spec.payload ps = bs ∧ c'.out = c.out ++ Spec.wire ps := by
  by_cases hn : c.pktNr + bs.length / maxPacket < 255
  · obtain ⟨ps, h1, h2, h3, h4, h5⟩ := sendLoop_spec bs c hn
    rw [h5] at h
    rw [Ends.ok h]
    exact ⟨ps, h1, h2, h3, rfl⟩
  · exfalso
    induction hl : bs.length using Nat.strong_induction_on generalizing bs c with
    | _ n ih =>
      rw [sendLoop] at h
      by_cases hge : bs.length ≥ maxPacket
      · rw [dif_pos hge, M.bind_apply] at h
        have hmp : maxPacket = 0xffffff := rfl
        have hdiv : bs.length / maxPacket = (bs.drop maxPacket).length / maxPacket + 1 := by
          rw [List.length_drop, Nat.div_eq_sub_div (by rw [hmp]; norm_num) hge]
        by_cases hp : c.pktNr + 1 < 256
        · unfold sendPacket at h
          dsimp only at h
          rw [if_pos hp, MR.bind_ok] at h
          exact ih (bs.drop maxPacket).length (by rw [List.length_drop, hmp]; omega) _ _ h
            (by dsimp only; omega) rfl
        · unfold sendPacket at h
          dsimp only at h
          rw [if_neg hp] at h
          exact Ends.panic h
      · rw [dif_neg hge] at h
        have hz : bs.length / maxPacket = 0 := Nat.div_eq_of_lt (by omega)
        unfold sendPacket at h
        dsimp only at h
        rw [if_neg (by omega)] at h
        exact Ends.panic h

/-- a message that is sent at all is sent whole -/
theorem sendMsg_inv (bs : Bytes) (c c' : Conn) (h : Ends (sendMsg bs true c) c') : Spec.SaysOne bs c.out c'.out :=
  sendLoop_inv bs { c with pktNr := 0 } c' h

/-- whatever the server does, `run` sends one message with this payload -/
def SendsOne {α : Type} (bs : Bytes) (run : M α) : Prop := ∀ c c', Ends (run c) c' → Spec.SaysOne bs c.out c'.out

theorem SendsOne.sendMsg (bs : Bytes) : SendsOne bs (sendMsg bs true) := sendMsg_inv bs

theorem SendsOne.bind {α β : Type} {bs : Bytes} {x : M α} {f : α → M β} (hx : SendsOne bs x) (hf : ∀ a, Quiet (f a)) :
    SendsOne bs (x >>= f) := by
  intro c c' h
  rcases Ends.bind h with ⟨a, c1, h1, h2⟩ | ⟨e, h1⟩
  · rw [hf a _ _ h2]; exact hx c c1 (Or.inl ⟨a, h1⟩)
  · exact hx c c' (Or.inr ⟨e, h1⟩)

theorem SendsOne.okCommand (bs : Bytes) : SendsOne bs (okCommand bs) := by
  unfold Mybin.okCommand
  refine (SendsOne.sendMsg bs).bind fun _ => Quiet.recvMsg.bind fun _ => Quiet.getCaps.bind fun _ =>
    (Quiet.parse _ _).bind fun r => ?_
  cases r with
  | ok p => exact Quiet.pure _
  | err p => exact Quiet.fail _

theorem SendsOne.qry (q : Bytes) : SendsOne (ComQuery.writeTo [] q).1 (Query.qry q) :=
  (SendsOne.sendMsg _).bind fun _ => Quiet.newResultSet _

theorem SendsOne.exec (q : Bytes) : SendsOne (ComQuery.writeTo [] q).1 (Query.exec q) :=
  (SendsOne.sendMsg _).bind fun _ => Quiet.execLoop

theorem SendsOne.prepare (q : Bytes) : SendsOne (ComStmtPrepare.writeTo [] q).1 (Stmt.prepare q) := by
  unfold Stmt.prepare
  have hd : ∀ n, Quiet (recvDefs n) := by
    intro n
    unfold recvDefs
    split
    · exact Quiet.pure _
    · exact (Quiet.recvColDefs n).bind fun _ => Quiet.recvDefsEof.bind fun _ => Quiet.pure _
  refine (SendsOne.sendMsg _).bind fun _ => Quiet.recvMsg.bind fun msg => ?_
  split
  · exact Quiet.fail _
  · refine Quiet.bind ?_ fun ok => (hd _).bind fun _ => (hd _).bind fun _ => Quiet.pure _
    split
    · exact Quiet.failWithErrPacket _
    · exact Quiet.parse _ _

theorem SendsOne.fieldList (t w : Bytes) : SendsOne (ComFieldList.writeTo [] t w).1 (Cmd.fieldList t w) :=
  (SendsOne.sendMsg _).bind fun _ => Quiet.fieldListLoop _

theorem SendsOne.binlogFiles : SendsOne (ComQuery.writeTo [] (Cmd.str "SHOW MASTER LOGS")).1 Cmd.binlogFiles :=
  (SendsOne.qry _).bind fun _ => Quiet.filesLoop _ _

theorem Quiet.firstMapped {α : Type} (mapper : List (Option Bytes) → Res α) (rs : ResultSet) :
    Quiet (Cmd.firstMapped mapper rs) := by
  unfold Cmd.firstMapped
  refine Quiet.bind (Quiet.foldRows _ _ _ _) fun r => ?_
  cases r with
  | none => exact Quiet.pure _
  | some v => exact (Quiet.ofRes _).bind fun _ => Quiet.pure _

theorem SendsOne.getVar {α : Type} (conv : Option Bytes → Res α) (name : Bytes) (global : Bool) :
    SendsOne (ComQuery.writeTo [] (Spec.showVariable global name)).1 (Cmd.getVar conv name global) := by
  unfold Cmd.getVar
  have : (if global then Cmd.str "SHOW GLOBAL VARIABLES LIKE '" ++ name ++ Cmd.str "'"
    else Cmd.str "SHOW VARIABLES LIKE '" ++ name ++ Cmd.str "'") = Spec.showVariable global name := by
    cases global <;> rfl
  rw [this]
  exact (SendsOne.qry _).bind fun _ => Quiet.firstMapped _ _

theorem SendsOne.getUserVar {α : Type} (conv : Option Bytes → Res α) (name : Bytes) :
    SendsOne (ComQuery.writeTo [] (Spec.ascii "SELECT @" ++ name)).1 (Cmd.getUserVar conv name) :=
  (SendsOne.qry _).bind fun _ => Quiet.firstMapped _ _

theorem Quiet.all {ρ : Type} (rs : ResultSet) (read : P ρ) : Quiet (rs.all read) := Quiet.foldRows _ _ _ _

/-! ### what the server hears -/

/-- whatever the server does, it hears exactly these messages -/
def Says {α : Type} (run : M α) (said : List Spec.Said) : Prop :=
  ∀ (caps : Nat) (c c' : Conn), Ends (run c) c' → Spec.Heard caps c.out c'.out said

theorem SendsOne.says {α : Type} {bs : Bytes} {run : M α} (h : SendsOne bs run) {s : Spec.Said}
    (hs : ∀ caps, Spec.Hears caps bs s) : Says run [s] := by
  intro caps c c' he
  obtain ⟨ps, h1, h2, h3, h4⟩ := h c c' he
  exact ⟨[ps], by simpa using ⟨h1, h2⟩, by simpa using h4, .cons (by rw [h3]; exact hs caps) .nil⟩

theorem SentAs.hears {w : Bytes × Nat} {cmd : Spec.ServerCmd} (h : ∀ caps, SentAs caps [] w cmd) :
    ∀ caps, Spec.Hears caps w.1 (.command cmd) := by
  intro caps
  obtain ⟨e, h1, h2⟩ := h caps
  rw [h1, List.nil_append]
  exact h2

theorem SendsOne.attempt {α : Type} {bs : Bytes} {run : M α} (h : SendsOne bs run) (f : α → Outcome) :
    SendsOne bs (attempt run f) := by
  intro c c' he
  unfold Mybin.attempt at he
  cases hr : run c with
  | ok a c1 => rw [hr] at he; rw [Ends.ok he]; exact h c c1 (Or.inl ⟨a, hr⟩)
  | err e c1 => rw [hr] at he; rw [Ends.ok he]; exact h c c1 (Or.inr ⟨e, hr⟩)
  | panic => rw [hr] at he; exact (Ends.panic he).elim
  | hang => rw [hr] at he; exact (Ends.hang he).elim

theorem send_inv (st : PreparedStmt) (ps : List StmtColumnValue) (hid : st.stmtId < 2 ^ 32) (hs : ∀ p ∈ ps, p.Sound) :
    ∃ bs, SendsOne bs (st.send ps) ∧ ∀ caps, Spec.Hears caps bs (.execute st.stmtId (ps.map Spec.serverParam)) := by
  obtain ⟨cmd, e, h1, h2, h3⟩ := C22_server_sees_parameters_partial st.stmtId ps hid hs
  have h2 := h2 []
  rw [List.nil_append] at h2
  refine ⟨e, ?_, ?_⟩
  · have : st.send ps = sendMsg e true := by
      unfold PreparedStmt.send
      rw [h1]
      simp only [h2]
    rw [this]
    exact SendsOne.sendMsg e
  · intro caps
    show Spec.D.all (Spec.D.stmtExecute (ps.map Spec.serverParam).length) e = _
    rw [List.length_map]
    exact h3

theorem readLeU32_lt {bs rest : Bytes} {n : Nat} (h : readLeU32 bs = .ok n rest) : n < 2 ^ 32 := by
  have := (readLe_eq_ok.1 h).1
  norm_num at this ⊢
  exact this

/-- a statement the server made has an id of 32 bits -/
theorem prepare_id (q : Bytes) (c c' : Conn) (st : PreparedStmt) (h : Stmt.prepare q c = .ok st c') : st.stmtId < 2 ^ 32 := by
  have inv : ∀ {α β : Type} {x : M α} {f : α → M β} {c c' : Conn} {b : β}, (x >>= f) c = .ok b c' →
      ∃ a c1, x c = .ok a c1 ∧ f a c1 = .ok b c' := by
    intro α β x f c c' b h
    rw [M.bind_apply] at h
    cases hx : x c with
    | ok a c1 => rw [hx] at h; exact ⟨a, c1, rfl, h⟩
    | err e c1 => rw [hx] at h; cases h
    | panic => rw [hx] at h; cases h
    | hang => rw [hx] at h; cases h
  unfold Stmt.prepare at h
  obtain ⟨_, c1, -, h⟩ := inv h
  obtain ⟨msg, c2, -, h⟩ := inv h
  cases msg with
  | nil => cases h
  | cons b t =>
    dsimp only at h
    obtain ⟨ok, c3, hok, h⟩ := inv h
    obtain ⟨_, c4, -, h⟩ := inv h
    obtain ⟨_, c5, -, h⟩ := inv h
    cases h
    show ok.stmtId < 2 ^ 32
    split at hok
    · unfold failWithErrPacket at hok
      obtain ⟨_, _, -, hok⟩ := inv hok
      obtain ⟨_, _, -, hok⟩ := inv hok
      cases hok
    · unfold M.parse at hok
      cases hp : StmtPrepareOk.readFrom (b :: t) with
      | ok a r =>
        rw [hp] at hok
        cases hok
        unfold StmtPrepareOk.readFrom at hp
        obtain ⟨_, _, -, hp⟩ := P.bind_eq_ok.1 hp
        split at hp
        · cases hp
        · obtain ⟨id, _, h1, hp⟩ := P.bind_eq_ok.1 hp
          obtain ⟨_, _, -, hp⟩ := P.bind_eq_ok.1 hp
          obtain ⟨_, _, -, hp⟩ := P.bind_eq_ok.1 hp
          obtain ⟨_, _, -, hp⟩ := P.bind_eq_ok.1 hp
          obtain ⟨_, _, -, hp⟩ := P.bind_eq_ok.1 hp
          cases hp
          exact readLeU32_lt h1
      | err e r => rw [hp] at hok; cases hok
      | panic => rw [hp] at hok; cases hok
      | hang => rw [hp] at hok; cases hok

/-- the outcomes of setting a variable by a statement: the server refused to prepare it, or it was executed and closed -/
theorem sets_says (q : Bytes) (v : StmtColumnValue) (hv : v.Sound) (c c' : Conn)
    (h : Ends ((do let st ← Stmt.prepare q; st.execClose [v] : M Unit) c) c') :
    (∀ caps, Spec.Heard caps c.out c'.out [.command (.stmtPrepare q)]) ∨
    ∃ id, id < 2 ^ 32 ∧ ∀ caps, Spec.Heard caps c.out c'.out
      [.command (.stmtPrepare q), .execute id [Spec.serverParam v], .command (.stmtClose id)] := by
  have hp : Says (Stmt.prepare q) [.command (.stmtPrepare q)] :=
    (SendsOne.prepare q).says (SentAs.hears fun caps => (C19_string_commands caps [] q).2.2.2.2)
  rcases Ends.bind h with ⟨st, c1, h1, h2⟩ | ⟨e, h1⟩
  · have hid := prepare_id q c c1 st h1
    right
    refine ⟨st.stmtId, hid, fun caps => ?_⟩
    have a1 := hp caps c c1 (Or.inl ⟨st, h1⟩)
    obtain ⟨bs, hb1, hb2⟩ := send_inv st [v] hid (by simpa using hv)
    have hx : Says (st.exec [v]) [.execute st.stmtId [Spec.serverParam v]] :=
      SendsOne.says (bs := bs) (SendsOne.bind hb1 fun _ => Quiet.execLoop) hb2
    have hcl : Says st.close [.command (.stmtClose st.stmtId)] :=
      (SendsOne.sendMsg _).says (SentAs.hears fun caps =>
        (C19_integer_commands caps [] st.stmtId 0 0 false hid (by norm_num) (by norm_num)).2.1)
    have key : ∀ c2 c3, Ends (st.exec [v] c1) c2 → Ends (st.close c2) c3 → Spec.Heard caps c.out c3.out
        [.command (.stmtPrepare q), .execute st.stmtId [Spec.serverParam v], .command (.stmtClose st.stmtId)] :=
      fun c2 c3 e1 e2 => Heard.append a1 (Heard.append (hx caps c1 c2 e1) (hcl caps c2 c3 e2))
    unfold PreparedStmt.execClose at h2
    cases hr : st.exec [v] c1 with
    | ok a c2 =>
      rw [hr] at h2
      dsimp only at h2
      cases hr2 : st.close c2 with
      | ok b c3 => rw [hr2] at h2; rw [Ends.ok h2]; exact key c2 c3 (Or.inl ⟨a, hr⟩) (Or.inl ⟨b, hr2⟩)
      | err e c3 => rw [hr2] at h2; rw [Ends.ok h2]; exact key c2 c3 (Or.inl ⟨a, hr⟩) (Or.inr ⟨e, hr2⟩)
      | panic => rw [hr2] at h2; exact (Ends.panic h2).elim
      | hang => rw [hr2] at h2; exact (Ends.hang h2).elim
    | err e c2 =>
      rw [hr] at h2
      dsimp only at h2
      cases hr2 : st.close c2 with
      | ok b c3 => rw [hr2] at h2; rw [Ends.err h2]; exact key c2 c3 (Or.inr ⟨e, hr⟩) (Or.inl ⟨b, hr2⟩)
      | err e' c3 => rw [hr2] at h2; rw [Ends.err h2]; exact key c2 c3 (Or.inr ⟨e, hr⟩) (Or.inr ⟨e', hr2⟩)
      | panic => rw [hr2] at h2; exact (Ends.panic h2).elim
      | hang => rw [hr2] at h2; exact (Ends.hang h2).elim
    | panic => rw [hr] at h2; exact (Ends.panic h2).elim
    | hang => rw [hr] at h2; exact (Ends.hang h2).elim
  · exact Or.inl fun caps => hp caps c c' (Or.inr ⟨e, h1⟩)

/-- the messages a call may send: one, except that setting a variable takes three, or one if the server does not
prepare the statement -/
def Spec.MaySay : Ask → List Spec.Said → Prop
  | .initDb db, s => s = [.command (.initDb db)]
  | .createDb db, s => s = [.command (.createDb db)]
  | .dropDb db, s => s = [.command (.dropDb db)]
  | .refresh flags, s => s = [.command (.refresh flags)]
  | .processKill id, s => s = [.command (.processKill id)]
  | .resetConnection, s => s = [.command .resetConnection]
  | .registerSlave id, s => s = [.command (.registerSlave id [] [] [] 0 0 0)]
  | .ping, s => s = [.command .ping]
  | .statistics, s => s = [.command .statistics]
  | .debug, s => s = [.command .debug]
  | .processInfo, s => s = [.command .processInfo]
  | .fieldList t w, s => s = [.command (.fieldList t w)]
  | .binlogFiles, s => s = [.command (.query (Spec.ascii "SHOW MASTER LOGS"))]
  | .query q, s => s = [.command (.query q)]
  | .exec q, s => s = [.command (.query q)]
  | .prepare q, s => s = [.command (.stmtPrepare q)]
  | .stmtExec st ps, s => s = [.execute st.stmtId (ps.map Spec.serverParam)]
  | .stmtQuery st ps, s => s = [.execute st.stmtId (ps.map Spec.serverParam)]
  | .stmtClose st, s => s = [.command (.stmtClose st.stmtId)]
  | .setVar global name v, s => s = [.command (.stmtPrepare (Spec.setVariable global name))] ∨
      ∃ id, id < 2 ^ 32 ∧ s = [.command (.stmtPrepare (Spec.setVariable global name)), .execute id [Spec.serverParam v],
        .command (.stmtClose id)]
  | .setUserVar name v, s => s = [.command (.stmtPrepare (Spec.ascii "SET @" ++ name ++ Spec.ascii " = ?"))] ∨
      ∃ id, id < 2 ^ 32 ∧ s = Spec.setUserVariable name id (Spec.serverParam v)
  | .getVar _ global name, s => s = [.command (.query (Spec.showVariable global name))]
  | .getUserVar _ name, s => s = [.command (.query (Spec.ascii "SELECT @" ++ name))]

/-- the arguments have the types of the API (`u8`, `u32`), the parameters are made by its constructors, and the name of a
table has no zero byte -/
def Ask.Typed : Ask → Prop
  | .refresh flags => flags < 256
  | .processKill id | .registerSlave id => id < 2 ^ 32
  | .fieldList t _ => (0 : UInt8) ∉ t
  | .stmtExec st ps | .stmtQuery st ps => st.stmtId < 2 ^ 32 ∧ ∀ p ∈ ps, p.Sound
  | .stmtClose st => st.stmtId < 2 ^ 32
  | .setVar _ _ v | .setUserVar _ v => v.Sound
  | _ => True

theorem attempt_ends {α : Type} {run : M α} {f : α → Outcome} {c c' : Conn} (h : Ends (attempt run f c) c') :
    Ends (run c) c' := by
  unfold attempt at h
  cases hr : run c with
  | ok a c1 => rw [hr] at h; rw [Ends.ok h]; exact Or.inl ⟨a, rfl⟩
  | err e c1 => rw [hr] at h; rw [Ends.ok h]; exact Or.inr ⟨e, rfl⟩
  | panic => rw [hr] at h; exact (Ends.panic h).elim
  | hang => rw [hr] at h; exact (Ends.hang h).elim

/-- C88, one call: whatever bytes the server sends, and whether the call returns a value or an error, the server has
heard exactly the messages of the call, whole and numbered from 0. -/
theorem C88_call (a : Ask) (ha : a.Typed) (c c' : Conn) (h : Ends (a.perform c) c') :
    ∃ said, Spec.MaySay a said ∧ ∀ caps, Spec.Heard caps c.out c'.out said := by
  have one : ∀ {bs : Bytes} {s : Spec.Said}, SendsOne bs a.perform → (∀ caps, Spec.Hears caps bs s) →
      Spec.MaySay a [s] → ∃ said, Spec.MaySay a said ∧ ∀ caps, Spec.Heard caps c.out c'.out said :=
    fun hb hs hm => ⟨_, hm, fun caps => (hb.says hs) caps c c' h⟩
  have str := fun q caps => C19_string_commands caps [] q
  cases a with
  | initDb db => exact one ((SendsOne.okCommand _).attempt _) (SentAs.hears fun caps => (str db caps).2.1) rfl
  | createDb db => exact one ((SendsOne.okCommand _).attempt _) (SentAs.hears fun caps => (str db caps).2.2.1) rfl
  | dropDb db => exact one ((SendsOne.okCommand _).attempt _) (SentAs.hears fun caps => (str db caps).2.2.2.1) rfl
  | refresh flags =>
    exact one ((SendsOne.okCommand _).attempt _) (SentAs.hears fun caps =>
      (C19_integer_commands caps [] 0 0 flags false (by norm_num) (by norm_num) ha).2.2.2.2.1) rfl
  | processKill id =>
    exact one ((SendsOne.okCommand _).attempt _) (SentAs.hears fun caps =>
      (C19_integer_commands caps [] id 0 0 false ha (by norm_num) (by norm_num)).1) rfl
  | resetConnection =>
    exact one ((SendsOne.okCommand _).attempt _) (SentAs.hears fun caps => (C19_simple_commands caps []).2.2.2.2.2) rfl
  | registerSlave id =>
    exact one ((SendsOne.okCommand _).attempt _) (SentAs.hears fun caps =>
      C19_register_slave_partial caps [] ⟨id, [], [], [], 0, 0, 0⟩ ha (by simp) (by simp) (by simp) (by simp) (by simp)
        (by simp)) rfl
  | ping =>
    refine one (SendsOne.attempt ?_ _) (SentAs.hears fun caps => (C19_simple_commands caps []).2.2.2.2.1) rfl
    exact (SendsOne.sendMsg _).bind fun _ => Quiet.recvMsg.bind fun _ => Quiet.getCaps.bind fun _ =>
      (Quiet.parse _ _).bind fun _ => Quiet.pure _
  | statistics =>
    refine one (SendsOne.attempt ?_ _) (SentAs.hears fun caps => (C19_simple_commands caps []).2.1) rfl
    refine (SendsOne.sendMsg _).bind fun _ => Quiet.recvMsg.bind fun _ => ?_
    split
    · exact Quiet.pure _
    · exact Quiet.fail _
  | debug =>
    refine one (SendsOne.attempt ?_ _) (SentAs.hears fun caps => (C19_simple_commands caps []).2.2.2.1) rfl
    refine (SendsOne.sendMsg _).bind fun _ => Quiet.recvMsg.bind fun _ => Quiet.getCaps.bind fun _ =>
      (Quiet.parse _ _).bind fun r => ?_
    cases r with
    | eof p => exact Quiet.pure _
    | err p => exact Quiet.fail _
  | processInfo =>
    refine one (SendsOne.attempt ?_ _) (SentAs.hears fun caps => (C19_simple_commands caps []).2.2.1) rfl
    exact SendsOne.bind ((SendsOne.sendMsg _).bind fun _ => Quiet.newResultSet _) fun _ => Quiet.all _ _
  | fieldList t w =>
    exact one ((SendsOne.fieldList t w).attempt _) (SentAs.hears fun caps => C19_field_list caps [] t w ha) rfl
  | binlogFiles => exact one (SendsOne.binlogFiles.attempt _) (SentAs.hears fun caps => (str _ caps).1) rfl
  | query q =>
    exact one (SendsOne.attempt ((SendsOne.qry q).bind fun _ => Quiet.all _ _) _)
      (SentAs.hears fun caps => (str q caps).1) rfl
  | exec q => exact one ((SendsOne.exec q).attempt _) (SentAs.hears fun caps => (str q caps).1) rfl
  | prepare q => exact one ((SendsOne.prepare q).attempt _) (SentAs.hears fun caps => (str q caps).2.2.2.2) rfl
  | stmtExec st ps =>
    obtain ⟨bs, h1, h2⟩ := send_inv st ps ha.1 ha.2
    exact one (SendsOne.attempt (h1.bind fun _ => Quiet.execLoop) _) h2 rfl
  | stmtQuery st ps =>
    obtain ⟨bs, h1, h2⟩ := send_inv st ps ha.1 ha.2
    exact one (SendsOne.attempt ((h1.bind fun _ => Quiet.newResultSet _).bind fun _ => Quiet.all _ _) _) h2 rfl
  | stmtClose st =>
    exact one ((SendsOne.sendMsg _).attempt _) (SentAs.hears fun caps =>
      (C19_integer_commands caps [] st.stmtId 0 0 false ha (by norm_num) (by norm_num)).2.1) rfl
  | setVar global name v =>
    have e : Cmd.setVar name v global = (do let st ← Stmt.prepare (Spec.setVariable global name); st.execClose [v] : M Unit) := by
      cases global <;> rfl
    have h := attempt_ends h
    rw [e] at h
    rcases sets_says _ v ha c c' h with h1 | ⟨id, hid, h1⟩
    · exact ⟨_, Or.inl rfl, h1⟩
    · exact ⟨_, Or.inr ⟨id, hid, rfl⟩, h1⟩
  | setUserVar name v =>
    rcases sets_says (Spec.ascii "SET @" ++ name ++ Spec.ascii " = ?") v ha c c' (attempt_ends h) with h1 | ⟨id, hid, h1⟩
    · exact ⟨_, Or.inl rfl, h1⟩
    · exact ⟨_, Or.inr ⟨id, hid, rfl⟩, h1⟩
  | getVar conv global name =>
    exact one ((SendsOne.getVar conv name global).attempt _) (SentAs.hears fun caps => (str _ caps).1) rfl
  | getUserVar conv name =>
    exact one ((SendsOne.getUserVar conv name).attempt _) (SentAs.hears fun caps => (str _ caps).1) rfl

/-- C88, `set_multi_stmts`: whatever the server sends, it hears one message, the option with the operand the code sends
(that it is the wrong one is C65). -/
theorem C88_set_multi_stmts (multi : Bool) (caps : Nat) (c c' : Conn) (h : Ends (Cmd.setMultiStmts multi c) c') :
    Spec.Heard caps c.out c'.out [.command (.setOption (if multi then 1 else 0))] := by
  have hs : SendsOne (ComSetOption.writeTo [] multi).1 (Cmd.setMultiStmts multi) := by
    refine (SendsOne.sendMsg _).bind fun _ => Quiet.recvMsg.bind fun _ => Quiet.getCaps.bind fun _ =>
      (Quiet.parse _ _).bind fun r => ?_
    cases r with
    | eof p =>
      cases multi
      · exact Quiet.removeCap _
      · exact Quiet.insertCap _
    | err p => exact Quiet.fail _
  exact hs.says (SentAs.hears fun caps =>
    (C19_integer_commands caps [] 0 0 0 multi (by norm_num) (by norm_num) (by norm_num)).2.2.2.2.2) caps c c' h

theorem perform_stmt (a : Ask) (c c' : Conn) (st : PreparedStmt) (h : a.perform c = .ok (.stmt st) c') :
    st.stmtId < 2 ^ 32 := by
  have key : ∀ {α : Type} (run : M α) (f : α → Outcome), attempt run f c = .ok (.stmt st) c' →
      ∃ a c1, run c = .ok a c1 ∧ f a = .stmt st := by
    intro α run f h
    unfold attempt at h
    cases hr : run c with
    | ok a c1 => rw [hr] at h; dsimp only at h; injection h with h1 h2; exact ⟨a, c1, rfl, h1⟩
    | err e c1 => rw [hr] at h; dsimp only at h; injection h with h1 h2; cases h1
    | panic => rw [hr] at h; cases h
    | hang => rw [hr] at h; cases h
  cases a with
  | prepare q =>
    obtain ⟨a, c1, h1, h2⟩ := key _ _ h
    cases h2
    exact prepare_id q c c1 _ h1
  | _ => obtain ⟨a, c1, h1, h2⟩ := key _ _ h; cases h2

/-- a call of a session: what was asked, what the server heard and what came out -/
structure Call where
  ask : Ask
  said : List Spec.Said
  got : Outcome

/-- C88, whole sessions: for every application, whose calls depend in any way on the outcomes before, and for every
server, whatever bytes it sends: the server hears the messages of the calls, one call after another, in order and
nothing else, also after errors. -/
theorem C88_session (app : List Outcome → Option Ask)
    (happ : ∀ got a, (∀ st, Outcome.stmt st ∈ got → st.stmtId < 2 ^ 32) → app got = some a → a.Typed)
    (n : Nat) (c c' : Conn) (got : List Outcome) (h : session app n [] c = .ok got c') :
    ∃ calls : List Call, calls.map (·.got) = got ∧ calls.length ≤ n ∧
      (∀ i (hi : i < calls.length), app ((calls.take i).map (·.got)) = some calls[i].ask) ∧
      (∀ x ∈ calls, Spec.MaySay x.ask x.said) ∧
      ∀ caps, Spec.Heard caps c.out c'.out (calls.map (·.said)).flatten := by
  have main : ∀ (n : Nat) (before : List Call) (c : Conn),
      (∀ st, Outcome.stmt st ∈ before.map (·.got) → st.stmtId < 2 ^ 32) →
      session app n (before.map (·.got)) c = .ok got c' →
      ∃ calls : List Call, (before ++ calls).map (·.got) = got ∧ calls.length ≤ n ∧
        (∀ i (hi : i < calls.length), app ((before ++ calls.take i).map (·.got)) = some calls[i].ask) ∧
        (∀ x ∈ calls, Spec.MaySay x.ask x.said) ∧
        ∀ caps, Spec.Heard caps c.out c'.out (calls.map (·.said)).flatten := by
    intro n
    induction n with
    | zero =>
      intro before c _ h
      cases h
      exact ⟨[], by simp, by simp, by simp, by simp, fun caps => Heard.nil _ _⟩
    | succ n ih =>
      intro before c hst h
      unfold session at h
      cases ha : app (before.map (·.got)) with
      | none =>
        rw [ha] at h
        cases h
        exact ⟨[], by simp, by simp, by simp, by simp, fun caps => Heard.nil _ _⟩
      | some a =>
        rw [ha] at h
        dsimp only at h
        rw [M.bind_apply] at h
        cases hp : a.perform c with
        | ok o c1 =>
          rw [hp, MR.bind_ok] at h
          obtain ⟨said, h1, h2⟩ := C88_call a (happ _ a hst ha) c c1 (Or.inl ⟨o, hp⟩)
          have hst' : ∀ st, Outcome.stmt st ∈ (before ++ [(⟨a, said, o⟩ : Call)]).map (·.got) → st.stmtId < 2 ^ 32 := by
            intro st hm
            rw [List.map_append, List.mem_append] at hm
            rcases hm with hm | hm
            · exact hst st hm
            · have : Outcome.stmt st = o := by simpa using hm
              subst this
              exact perform_stmt a c c1 st hp
          obtain ⟨calls, a1, a2, a3, a4, a5⟩ := ih (before ++ [⟨a, said, o⟩]) c1 hst' (by simpa using h)
          refine ⟨⟨a, said, o⟩ :: calls, by simpa using a1, by simpa using a2, ?_, ?_, ?_⟩
          · intro i hi
            cases i with
            | zero => simpa using ha
            | succ i => simpa using a3 i (by simpa using hi)
          · intro x hx
            rcases List.mem_cons.1 hx with rfl | hx
            · exact h1
            · exact a4 x hx
          · intro caps
            rw [List.map_cons, List.flatten_cons]
            exact Heard.append (h2 caps) (a5 caps)
        | err e c1 => rw [hp] at h; cases h
        | panic => rw [hp] at h; cases h
        | hang => rw [hp] at h; cases h
  obtain ⟨calls, a1, a2, a3, a4, a5⟩ := main n [] c (by simp) h
  exact ⟨calls, by simpa using a1, a2, by simpa using a3, a4, a5⟩

/-! ### the programs -/

/-- between `before` and `after` exactly these payloads were sent, each as a message numbered from 0 -/
def Spec.Utters (before after : List UInt8) (payloads : List (List UInt8)) : Prop :=
  ∃ runs : List (List Spec.Packet), (∀ r ∈ runs, Spec.IsMessage r ∧ Spec.Numbered 0 r) ∧
    after = before ++ (runs.map Spec.wire).flatten ∧ runs.map Spec.payload = payloads

/-- the messages follow a script: each is as the script says, in order; it may have been broken off -/
def Spec.Follows (script : List (List UInt8 → Prop)) (before after : List UInt8) : Prop :=
  ∃ payloads done rest, Spec.Utters before after payloads ∧ script = done ++ rest ∧
    List.Forall₂ (fun p q => q p) payloads done

/-- the query for a global variable -/
def Spec.AsksGlobal (name : String) (payload : List UInt8) : Prop :=
  payload = 0x03 :: Spec.ascii ("SHOW GLOBAL VARIABLES LIKE '" ++ name ++ "'")

/-- preparing the statement that sets a variable of the session -/
def Spec.PreparesSet (name : String) (payload : List UInt8) : Prop :=
  payload = 0x16 :: Spec.ascii ("SET @" ++ name ++ " = ?")

/-- a message that begins with this command byte -/
def Spec.Begins (b : UInt8) (payload : List UInt8) : Prop := ∃ t, payload = b :: t

/-- what a client says to get a stream of events: it asks for four variables, sets three variables of its own session
(prepare, execute, close), registers and asks for the events -/
def Spec.streamScript : List (List UInt8 → Prop) :=
  [Spec.AsksGlobal "SERVER_ID",
    Spec.PreparesSet "MASTER_HEARTBEAT_PERIOD", Spec.Begins 0x17, Spec.Begins 0x19,
    Spec.AsksGlobal "BINLOG_CHECKSUM",
    Spec.PreparesSet "MASTER_BINLOG_CHECKSUM", Spec.Begins 0x17, Spec.Begins 0x19,
    Spec.AsksGlobal "GTID_MODE", Spec.AsksGlobal "SERVER_UUID",
    Spec.PreparesSet "SLAVE_UUID", Spec.Begins 0x17, Spec.Begins 0x19,
    Spec.Begins 0x15,
    fun p => Spec.Begins 0x12 p ∨ Spec.Begins 0x1e p]

/-- what `mybinlog dml` says on its second connection: it changes to the database of a wanted table, and asks for the
columns of the table -/
def Spec.AsksColumns (database table : Bytes → Bool) (payload : List UInt8) : Prop :=
  (∃ db, database db = true ∧ payload = 0x02 :: db) ∨
  (∃ tbl, table tbl = true ∧ payload = 0x04 :: (tbl ++ 0 :: Spec.ascii "%"))

/-- between `before` and `after` only messages were sent that `ok` allows -/
def Spec.UttersOnly (ok : List UInt8 → Prop) (before after : List UInt8) : Prop :=
  ∃ payloads, Spec.Utters before after payloads ∧ ∀ p ∈ payloads, ok p

theorem Spec.Utters.nil (o : Bytes) : Spec.Utters o o [] := ⟨[], by simp, by simp, rfl⟩

theorem Spec.Utters.append {a b c : Bytes} {p q : List Bytes} (h1 : Spec.Utters a b p) (h2 : Spec.Utters b c q) :
    Spec.Utters a c (p ++ q) := by
  obtain ⟨r1, x1, rfl, rfl⟩ := h1
  obtain ⟨r2, x2, rfl, rfl⟩ := h2
  refine ⟨r1 ++ r2, ?_, by simp, by simp⟩
  intro r hr
  rcases List.mem_append.1 hr with h | h
  · exact x1 r h
  · exact x2 r h

theorem Spec.SaysOne.utters {bs a b : Bytes} (h : Spec.SaysOne bs a b) : Spec.Utters a b [bs] := by
  obtain ⟨ps, h1, h2, h3, h4⟩ := h
  exact ⟨[ps], by simpa using ⟨h1, h2⟩, by simpa using h4, by simp [h3]⟩

/-- `run` follows the script, and plays it to the end if it succeeds -/
def Plays {α : Type} (run : M α) (script : List (Bytes → Prop)) : Prop :=
  (∀ c a c', run c = .ok a c' → ∃ ps, Spec.Utters c.out c'.out ps ∧ List.Forall₂ (fun p q => q p) ps script) ∧
  (∀ c e c', run c = .err e c' → Spec.Follows script c.out c'.out)

theorem Quiet.plays {α : Type} {run : M α} (h : Quiet run) : Plays run [] := by
  constructor
  · intro c a c' hr
    rw [h c c' (Or.inl ⟨a, hr⟩)]
    exact ⟨[], Spec.Utters.nil _, .nil⟩
  · intro c e c' hr
    rw [h c c' (Or.inr ⟨e, hr⟩)]
    exact ⟨[], [], [], Spec.Utters.nil _, rfl, .nil⟩

theorem SendsOne.plays {α : Type} {bs : Bytes} {run : M α} (h : SendsOne bs run) {q : Bytes → Prop} (hq : q bs) :
    Plays run [q] := by
  constructor
  · intro c a c' hr
    exact ⟨[bs], (h c c' (Or.inl ⟨a, hr⟩)).utters, .cons hq .nil⟩
  · intro c e c' hr
    exact ⟨[bs], [q], [], (h c c' (Or.inr ⟨e, hr⟩)).utters, rfl, .cons hq .nil⟩

theorem Plays.bind {α β : Type} {x : M α} {f : α → M β} {s t : List (Bytes → Prop)} (hx : Plays x s)
    (hf : ∀ a, Plays (f a) t) : Plays (x >>= f) (s ++ t) := by
  constructor
  · intro c b c' h
    rw [M.bind_apply] at h
    cases hr : x c with
    | ok a c1 =>
      rw [hr] at h
      obtain ⟨p1, u1, m1⟩ := hx.1 c a c1 hr
      obtain ⟨p2, u2, m2⟩ := (hf a).1 c1 b c' h
      exact ⟨p1 ++ p2, u1.append u2, List.rel_append m1 m2⟩
    | err e c1 => rw [hr] at h; cases h
    | panic => rw [hr] at h; cases h
    | hang => rw [hr] at h; cases h
  · intro c e c' h
    rw [M.bind_apply] at h
    cases hr : x c with
    | ok a c1 =>
      rw [hr] at h
      obtain ⟨p1, u1, m1⟩ := hx.1 c a c1 hr
      obtain ⟨p2, d, r, u2, rfl, m2⟩ := (hf a).2 c1 e c' h
      exact ⟨p1 ++ p2, s ++ d, r, u1.append u2, by simp, List.rel_append m1 m2⟩
    | err e1 c1 =>
      rw [hr] at h
      cases h
      obtain ⟨p, d, r, u, rfl, m⟩ := hx.2 c e c' hr
      exact ⟨p, d, r ++ t, u, by simp, m⟩
    | panic => rw [hr] at h; cases h
    | hang => rw [hr] at h; cases h

theorem panic_plays {α : Type} (s : List (Bytes → Prop)) : Plays (M.panic : M α) s :=
  ⟨fun _ _ _ h => (nomatch h), fun _ _ _ h => (nomatch h)⟩

theorem Plays.congr {α : Type} {run : M α} {s t : List (Bytes → Prop)} (h : Plays run s) (e : s = t) : Plays run t := e ▸ h

theorem Plays.follows {α : Type} {run : M α} {s : List (Bytes → Prop)} (h : Plays run s) (c c' : Conn)
    (he : Ends (run c) c') : Spec.Follows s c.out c'.out := by
  rcases he with ⟨a, hr⟩ | ⟨e, hr⟩
  · obtain ⟨ps, u, m⟩ := h.1 c a c' hr
    exact ⟨ps, s, [], u, by simp, m⟩
  · exact h.2 c e c' hr

/-- a writer keeps what was written before -/
def Extends (w : Bytes → Bytes × Nat) : Prop := ∀ out, ∃ e, (w out).1 = out ++ e

theorem Extends.seq (ws : List (Bytes → Bytes × Nat)) (h : ∀ w ∈ ws, Extends w) : Extends (writeSeq · ws) := by
  have key : ∀ (ws : List (Bytes → Bytes × Nat)), (∀ w ∈ ws, Extends w) → ∀ acc : Bytes × Nat,
      ∃ e, (ws.foldl (fun acc w => let r := w acc.1; (r.1, acc.2 + r.2)) acc).1 = acc.1 ++ e := by
    intro ws
    induction ws with
    | nil => intro _ acc; exact ⟨[], by simp⟩
    | cons w ws ih =>
      intro h acc
      obtain ⟨e1, h1⟩ := h w (by simp) acc.1
      obtain ⟨e2, h2⟩ := ih (fun w hw => h w (by simp [hw])) ((w acc.1).1, acc.2 + (w acc.1).2)
      refine ⟨e1 ++ e2, ?_⟩
      rw [List.foldl_cons]
      dsimp only at h2 ⊢
      rw [h2, h1, List.append_assoc]
  intro out
  exact key ws h (out, 0)

theorem extends_u8 (n : Nat) : Extends (writeU8 · n) := fun _ => ⟨_, rfl⟩
theorem extends_u16 (n : Nat) : Extends (writeLeU16 · n) := fun _ => ⟨_, rfl⟩
theorem extends_u32 (n : Nat) : Extends (writeLeU32 · n) := fun _ => ⟨_, rfl⟩
theorem extends_bytes (s : Bytes) : Extends (writeBytes · s) := fun _ => ⟨_, rfl⟩

theorem value_extends (v : BinaryColumnValue) : Extends (fun out => v.writeTo out) := by
  have hs : ∀ bs, Extends (fun out => (LenEncStr.bytes bs).writeTo out) := by
    intro bs out
    have : ∀ l : LenEncInt, ∃ e, (l.writeTo out).1 = out ++ e := by
      intro l
      cases l <;> simp [LenEncInt.writeTo]
    obtain ⟨e, h⟩ := this (LenEncInt.ofU64 bs.length)
    refine ⟨e ++ bs, ?_⟩
    show ((LenEncInt.ofU64 bs.length).writeTo out).1 ++ bs = _
    rw [h, List.append_assoc]
  cases v with
  | bit bs => exact hs bs
  | newDecimal bs => exact hs bs
  | blob bs => exact hs bs
  | varString bs => exact hs bs
  | string bs => exact hs bs
  | geometry bs => exact hs bs
  | tiny n => exact extends_u8 n
  | short n => exact extends_u16 n
  | long n => exact extends_u32 n
  | float n => exact fun _ => ⟨_, rfl⟩
  | double n => exact fun _ => ⟨_, rfl⟩
  | null => exact fun _ => ⟨[], by simp [BinaryColumnValue.writeTo]⟩
  | timestamp t =>
    exact Extends.seq _ (by simp [extends_u8, extends_u16])
  | longLong n => exact fun _ => ⟨_, rfl⟩
  | int24 n => exact extends_u32 n
  | date y m d => exact Extends.seq _ (by simp [extends_u8, extends_u16])
  | time t =>
    intro out
    unfold BinaryColumnValue.writeTo
    dsimp only
    split
    · exact extends_u8 _ out
    · split
      · exact Extends.seq _ (by simp [extends_u8, extends_u32]) out
      · exact Extends.seq _ (by simp [extends_u8, extends_u32]) out
  | dateTime t =>
    intro out
    unfold BinaryColumnValue.writeTo
    dsimp only
    split
    · exact extends_u8 _ out
    · split
      · exact Extends.seq _ (by simp [extends_u8, extends_u16]) out
      · split
        · exact Extends.seq _ (by simp [extends_u8, extends_u16]) out
        · exact Extends.seq _ (by simp [extends_u8, extends_u16, extends_u32]) out
  | year n => exact extends_u16 n

theorem execute_begins (cmd : ComStmtExecute) (h : cmd.cmd = .stmtExecute) (bs : Bytes) (n : Nat)
    (hw : cmd.writeTo [] = some (bs, n)) : Spec.Begins 0x17 bs := by
  have key : ∀ ws : List (Bytes → Bytes × Nat), (∀ w ∈ ws, Extends w) →
      Spec.Begins 0x17 (writeSeq [] ((writeU8 · cmd.cmd.toByte) :: ws)).1 := by
    intro ws hws
    obtain ⟨e, he⟩ := Extends.seq ws hws (writeU8 [] cmd.cmd.toByte).1
    refine ⟨e, ?_⟩
    have hsplit : (writeSeq [] ((writeU8 · cmd.cmd.toByte) :: ws)).1 = (writeSeq (writeU8 [] cmd.cmd.toByte).1 ws).1 := by
      have gen : ∀ (ws : List (Bytes → Bytes × Nat)) (o : Bytes) (a b : Nat),
          (ws.foldl (fun acc w => let r := w acc.1; (r.1, acc.2 + r.2)) (o, a)).1
            = (ws.foldl (fun acc w => let r := w acc.1; (r.1, acc.2 + r.2)) (o, b)).1 := by
        intro ws
        induction ws with
        | nil => intros; rfl
        | cons w ws ih => intro o a b; rw [List.foldl_cons, List.foldl_cons]; exact ih _ _ _
      unfold writeSeq
      rw [List.foldl_cons]
      exact gen ws _ _ _
    rw [hsplit, he, h]
    rfl
  unfold ComStmtExecute.writeTo at hw
  dsimp only at hw
  split at hw
  · have := Option.some.inj hw
    rw [show bs = (writeSeq [] [(writeU8 · cmd.cmd.toByte), (writeLeU32 · cmd.stmtId), (writeU8 · cmd.flags),
      (writeLeU32 · 1)]).1 by rw [this]]
    exact key _ (by simp [extends_u8, extends_u32])
  · split at hw
    · cases hw
    · rename_i bm _
      have := Option.some.inj hw
      have hb : bs = (bs, n).1 := rfl
      rw [hb, ← this]
      refine key _ ?_
      intro w hw
      simp only [List.mem_append, List.mem_cons, List.append_eq, List.cons_append, List.nil_append] at hw
      rcases hw with rfl | rfl | rfl | rfl | rfl | hw | hw
      · exact extends_u32 _
      · exact extends_u8 _
      · exact extends_u32 _
      · exact extends_bytes _
      · exact extends_u8 _
      · split at hw
        · obtain ⟨p, -, rfl⟩ := List.mem_map.1 hw
          exact Extends.seq _ (by simp [extends_u8])
        · cases hw
      · obtain ⟨p, -, rfl⟩ := List.mem_map.1 hw
        exact value_extends p.val

theorem send_begins (st : PreparedStmt) (ps : List StmtColumnValue) :
    ∃ bs, Spec.Begins 0x17 bs ∧ SendsOne bs (st.send ps) := by
  have hp : ∀ bs, SendsOne bs (M.panic : M Unit) := fun _ _ _ h => (Ends.panic h).elim
  unfold PreparedStmt.send
  cases h : ComStmtExecute.single st.stmtId ps with
  | none => exact ⟨[0x17], ⟨[], rfl⟩, hp _⟩
  | some cmd =>
    dsimp only
    have hc : cmd.cmd = .stmtExecute := by
      unfold ComStmtExecute.single at h
      split at h
      · cases h
      · cases h; rfl
    cases hw : cmd.writeTo [] with
    | none => exact ⟨[0x17], ⟨[], rfl⟩, hp _⟩
    | some x =>
      obtain ⟨bs, n⟩ := x
      exact ⟨bs, execute_begins cmd hc bs n hw, SendsOne.sendMsg bs⟩

theorem execClose_plays (st : PreparedStmt) (ps : List StmtColumnValue) :
    Plays (st.execClose ps) [Spec.Begins 0x17, Spec.Begins 0x19] := by
  obtain ⟨bs, hbs, hsend⟩ := send_begins st ps
  have hx : SendsOne bs (st.exec ps) := hsend.bind fun _ => Quiet.execLoop
  have hc : SendsOne (ComStmtClose.writeTo [] st.stmtId).1 st.close := SendsOne.sendMsg _
  have hb : Spec.Begins 0x19 (ComStmtClose.writeTo [] st.stmtId).1 := ⟨_, rfl⟩
  have key : ∀ (c c1 c2 : Conn), Ends (st.exec ps c) c1 → Ends (st.close c1) c2 → ∃ p, Spec.Utters c.out c2.out p ∧
        List.Forall₂ (fun p q => q p) p [Spec.Begins 0x17, Spec.Begins 0x19] :=
    fun c c1 c2 he he2 => ⟨[_] ++ [_], Spec.Utters.append (Spec.SaysOne.utters (hx c c1 he)) (Spec.SaysOne.utters (hc c1 c2 he2)),
      .cons hbs (.cons hb .nil)⟩
  have fin : ∀ c c' : Conn, Ends (st.execClose ps c) c' → ∃ p, Spec.Utters c.out c'.out p ∧
        List.Forall₂ (fun p q => q p) p [Spec.Begins 0x17, Spec.Begins 0x19] := by
    intro c c' h
    unfold PreparedStmt.execClose at h
    cases hr : st.exec ps c with
    | ok a c1 =>
      rw [hr] at h
      dsimp only at h
      cases hr2 : st.close c1 with
      | ok b c2 => rw [hr2] at h; rw [Ends.ok h]; exact key c c1 c2 (Or.inl ⟨a, hr⟩) (Or.inl ⟨b, hr2⟩)
      | err e c2 => rw [hr2] at h; rw [Ends.ok h]; exact key c c1 c2 (Or.inl ⟨a, hr⟩) (Or.inr ⟨e, hr2⟩)
      | panic => rw [hr2] at h; exact (Ends.panic h).elim
      | hang => rw [hr2] at h; exact (Ends.hang h).elim
    | err e c1 =>
      rw [hr] at h
      dsimp only at h
      cases hr2 : st.close c1 with
      | ok b c2 => rw [hr2] at h; rw [Ends.err h]; exact key c c1 c2 (Or.inr ⟨e, hr⟩) (Or.inl ⟨b, hr2⟩)
      | err e' c2 => rw [hr2] at h; rw [Ends.err h]; exact key c c1 c2 (Or.inr ⟨e, hr⟩) (Or.inr ⟨e', hr2⟩)
      | panic => rw [hr2] at h; exact (Ends.panic h).elim
      | hang => rw [hr2] at h; exact (Ends.hang h).elim
    | panic => rw [hr] at h; exact (Ends.panic h).elim
    | hang => rw [hr] at h; exact (Ends.hang h).elim
  constructor
  · intro c a c' h
    exact fin c c' (Or.inl ⟨a, h⟩)
  · intro c e c' h
    obtain ⟨p, u, m⟩ := fin c c' (Or.inr ⟨e, h⟩)
    exact ⟨p, _, [], u, by simp, m⟩

theorem ascii_append (a b : String) : Spec.ascii (a ++ b) = Spec.ascii a ++ Spec.ascii b := by
  unfold Spec.ascii
  rw [String.toList_append, List.map_append]

theorem setUserVar_plays (name : String) (v : StmtColumnValue) :
    Plays (Cmd.setUserVar (Cmd.str name) v) [Spec.PreparesSet name, Spec.Begins 0x17, Spec.Begins 0x19] := by
  refine Plays.bind (s := [Spec.PreparesSet name]) ((SendsOne.prepare _).plays ?_) fun st => execClose_plays st _
  show _ = _
  rw [ascii_append, ascii_append]
  rfl

theorem getVar_plays {α : Type} (conv : Option Bytes → Res α) (name : String) :
    Plays (Cmd.getVar conv (Cmd.str name) true) [Spec.AsksGlobal name] := by
  refine (SendsOne.getVar conv (Cmd.str name) true).plays ?_
  show _ = _
  rw [ascii_append, ascii_append]
  rfl

theorem someOr_plays {α : Type} (e : Err) (o : Option α) : Plays (M.someOr e o) [] := (Quiet.someOr e o).plays

theorem Quiet.firstEvents (r : BinlogRequest) (checksum : Bool) : Quiet (r.firstEvents checksum) := by
  unfold BinlogRequest.firstEvents
  refine Quiet.recvMsg.bind fun msg => ?_
  split
  · exact Quiet.fail _
  · split
    · exact Quiet.failWithErrPacket _
    · split
      · exact Quiet.getCaps.bind fun _ => (Quiet.parse _ _).bind fun _ => Quiet.pure _
      · split
        · exact (Quiet.parse _ _).bind fun _ => Quiet.recvMsg.bind fun _ => (Quiet.parse _ _).bind fun _ => Quiet.pure _
        · exact Quiet.fail _

theorem sids_extend (d : List SidRange) (out : Bytes) (len : Nat) : ∃ e, (writeSids out len d).1 = out ++ e :=
  ⟨_, by rw [writeSids_spec]⟩

theorem requestStream_plays (r : BinlogRequest) (uuid : Bytes) (random : Nat) :
    Plays (r.requestStream uuid random) Spec.streamScript := by
  have hd : ∀ a b, (fun p => Spec.Begins 0x12 p ∨ Spec.Begins 0x1e p) (r.dumpBytes a b) := by
    intro a b
    unfold BinlogRequest.dumpBytes
    split
    · right
      generalize hg : ComBinlogDumpGtid.nonBlock _ _ = g
      have hc : g.cmd = .binlogDumpGtid := by
        rw [← hg]
        unfold ComBinlogDumpGtid.nonBlock ComBinlogDumpGtid.useGtid
        split <;> split <;> rfl
      unfold ComBinlogDumpGtid.writeTo SidData.writeTo
      dsimp only
      obtain ⟨e, he⟩ := sids_extend g.sidData _ _
      rw [he, hc]
      exact ⟨_, rfl⟩
    · left
      exact ⟨_, rfl⟩
  unfold BinlogRequest.requestStream BinlogRequest.setup
  refine Plays.congr (Plays.bind (Plays.bind (getVar_plays _ "SERVER_ID") fun _ => Plays.bind (someOr_plays _ _) fun masterId =>
    Plays.bind (setUserVar_plays "MASTER_HEARTBEAT_PERIOD" _) fun _ =>
    Plays.bind (getVar_plays _ "BINLOG_CHECKSUM") fun _ => Plays.bind (someOr_plays _ _) fun checksum =>
    Plays.bind (setUserVar_plays "MASTER_BINLOG_CHECKSUM" _) fun _ =>
    Plays.bind (getVar_plays _ "GTID_MODE") fun _ => Plays.bind (someOr_plays _ _) fun gtidMode =>
    Plays.bind (getVar_plays _ "SERVER_UUID") fun _ => Plays.bind (someOr_plays _ _) fun _ =>
    Plays.bind (setUserVar_plays "SLAVE_UUID" _) fun _ =>
    Plays.bind ((SendsOne.okCommand _).plays (q := Spec.Begins 0x15) ?_) fun _ => (Quiet.pure _).plays)
    fun s => Plays.bind ((SendsOne.sendMsg _).plays (hd _ _)) fun _ => (Quiet.firstEvents r _).plays) rfl
  exact ⟨_, rfl⟩

/-- C88, asking for a stream of events: whatever the master answers, what the client says follows the script; if the
request succeeds, it said all of it. -/
theorem C88_request (r : BinlogRequest) (uuid : Bytes) (random : Nat) (c c' : Conn) :
    (Ends (r.requestStream uuid random c) c' → Spec.Follows Spec.streamScript c.out c'.out) ∧
    (∀ s, r.requestStream uuid random c = .ok s c' →
      ∃ payloads, Spec.Utters c.out c'.out payloads ∧ List.Forall₂ (fun p q => q p) payloads Spec.streamScript) :=
  ⟨(requestStream_plays r uuid random).follows c c', fun s h => (requestStream_plays r uuid random).1 c s c' h⟩

theorem Quiet.msgLoop (s : BinlogStream) (c : Conn) (ls : List MsgLine) (e : DmlEnd) (c' : Conn)
    (h : msgLoop s c = (ls, e, some c')) : c'.out = c.out := by
  induction hn : c.inp.length using Nat.strong_induction_on generalizing c s ls with
  | _ n ih =>
    rw [Mybin.msgLoop.eq_def] at h
    have hq := Quiet.nextEvent s c
    cases hr : s.nextEvent c with
    | ok a c1 =>
      have h1 := hq c1 (Or.inl ⟨a, hr⟩)
      rw [hr] at h
      obtain ⟨o, s'⟩ := a
      cases o with
      | none => cases h; exact h1
      | some ev =>
        dsimp only at h
        split at h
        · have h2 : (Mybin.msgLoop s' c1).2 = (e, some c') := by injection h
          rw [← h1]
          exact ih c1.inp.length (by omega) s' c1 (Mybin.msgLoop s' c1).1 (by rw [← h2]) rfl
        · cases h
    | err e c1 => rw [hr] at h; cases h; exact hq c' (Or.inr ⟨e, hr⟩)
    | panic => rw [hr] at h; cases h
    | hang => rw [hr] at h; cases h

theorem Follows.nil (s : List (Bytes → Prop)) (o : Bytes) : Spec.Follows s o o :=
  ⟨[], [], s, Spec.Utters.nil _, rfl, .nil⟩

/-- C88, `mybinlog list`: whatever the server sends, the program sends on its connection nothing after the login but
the question for the files. -/
theorem C88_list (w : World) (o : ProgOpts) (hcmd : o.cmd = .list) (sent : List Bytes)
    (h : (mybinlog w o).sent = some sent) :
    ∃ (login : Conn) (all : Bytes), Ends (connect w 0 o.host o.port o.username o.password) login ∧ sent = [all] ∧
      Spec.Follows [(· = 0x03 :: Spec.ascii "SHOW MASTER LOGS")] login.out all := by
  unfold mybinlog at h
  cases hc : connect w 0 o.host o.port o.username o.password with
  | ok a conn =>
    rw [hc] at h
    dsimp only at h
    rw [hcmd] at h
    dsimp only at h
    have hp : Plays Cmd.binlogFiles [(· = 0x03 :: Spec.ascii "SHOW MASTER LOGS")] := SendsOne.binlogFiles.plays rfl
    cases hb : Cmd.binlogFiles conn with
    | ok fs c =>
      rw [hb] at h
      exact ⟨conn, c.out, Or.inl ⟨a, rfl⟩, (Option.some.inj h).symm, hp.follows conn c (Or.inl ⟨fs, hb⟩)⟩
    | err e c =>
      rw [hb] at h
      exact ⟨conn, c.out, Or.inl ⟨a, rfl⟩, (Option.some.inj h).symm, hp.follows conn c (Or.inr ⟨e, hb⟩)⟩
    | panic => rw [hb] at h; cases h
    | hang => rw [hb] at h; cases h
  | err e c =>
    rw [hc] at h
    exact ⟨c, c.out, Or.inr ⟨e, rfl⟩, (Option.some.inj h).symm, Follows.nil _ _⟩
  | panic => rw [hc] at h; cases h
  | hang => rw [hc] at h; cases h

/-- C88, `mybinmsg`: whatever the server sends, the program asks for the files and for the events, and says nothing
else after the login. -/
theorem C88_mybinmsg (w : World) (host port username password : Bytes) (sent : List Bytes)
    (h : (mybinmsg w (.tcp host port username password)).sent = some sent) :
    ∃ (login : Conn) (all : Bytes), Ends (connect w 0 host port username password) login ∧ sent = [all] ∧
      Spec.Follows ((· = 0x03 :: Spec.ascii "SHOW MASTER LOGS") :: Spec.streamScript) login.out all := by
  have hp : Plays (Cmd.binlogFiles >>= fun _ => defaultRequest.requestStream w.uuid w.random)
      ([(· = 0x03 :: Spec.ascii "SHOW MASTER LOGS")] ++ Spec.streamScript) :=
    Plays.bind (SendsOne.binlogFiles.plays rfl) fun _ => requestStream_plays _ _ _
  unfold mybinmsg at h
  dsimp only at h
  cases hc : connect w 0 host port username password with
  | ok a conn =>
    rw [hc] at h
    dsimp only at h
    cases hb : Cmd.binlogFiles conn with
    | ok fs c =>
      rw [hb] at h
      dsimp only at h
      cases hs : defaultRequest.requestStream w.uuid w.random c with
      | ok s c2 =>
        rw [hs] at h
        dsimp only at h
        cases hm : (msgLoop s c2).2.2 with
        | none => rw [hm] at h; cases h
        | some c3 =>
          rw [hm] at h
          have hq := Quiet.msgLoop s c2 (msgLoop s c2).1 (msgLoop s c2).2.1 c3 (by rw [← hm])
          refine ⟨conn, c3.out, Or.inl ⟨a, rfl⟩, (Option.some.inj h).symm, ?_⟩
          rw [hq]
          exact hp.follows conn c2 (Or.inl ⟨s, by rw [M.bind_apply, hb, MR.bind_ok, hs]⟩)
      | err e c2 =>
        rw [hs] at h
        exact ⟨conn, c2.out, Or.inl ⟨a, rfl⟩, (Option.some.inj h).symm,
          hp.follows conn c2 (Or.inr ⟨e, by rw [M.bind_apply, hb, MR.bind_ok, hs]⟩)⟩
      | panic => rw [hs] at h; cases h
      | hang => rw [hs] at h; cases h
    | err e c =>
      rw [hb] at h
      exact ⟨conn, c.out, Or.inl ⟨a, rfl⟩, (Option.some.inj h).symm,
        hp.follows conn c (Or.inr ⟨e, by rw [M.bind_apply, hb]; rfl⟩)⟩
    | panic => rw [hb] at h; cases h
    | hang => rw [hb] at h; cases h
  | err e c =>
    rw [hc] at h
    exact ⟨c, c.out, Or.inr ⟨e, rfl⟩, (Option.some.inj h).symm, Follows.nil _ _⟩
  | panic => rw [hc] at h; cases h
  | hang => rw [hc] at h; cases h

theorem UttersOnly.nil (ok : Bytes → Prop) (o : Bytes) : Spec.UttersOnly ok o o := ⟨[], Spec.Utters.nil _, by simp⟩

theorem UttersOnly.trans {ok : Bytes → Prop} {a b c : Bytes} (h1 : Spec.UttersOnly ok a b) (h2 : Spec.UttersOnly ok b c) :
    Spec.UttersOnly ok a c := by
  obtain ⟨p, u1, k1⟩ := h1
  obtain ⟨q, u2, k2⟩ := h2
  refine ⟨p ++ q, u1.append u2, ?_⟩
  intro x hx
  rcases List.mem_append.1 hx with h | h
  · exact k1 x h
  · exact k2 x h

theorem fetchColumns_says (o : DmlOpts) (db tbl : Bytes) (h1 : filterOk o.databaseFilter db = true)
    (h2 : filterOk o.tableFilter tbl = true) (c c' : Conn) (h : Ends (fetchColumns db tbl c) c') :
    Spec.UttersOnly (Spec.AsksColumns (filterOk o.databaseFilter) (filterOk o.tableFilter)) c.out c'.out := by
  have a1 : Spec.AsksColumns (filterOk o.databaseFilter) (filterOk o.tableFilter) (ComInitDB.writeTo [] db).1 :=
    Or.inl ⟨db, h1, rfl⟩
  have a2 : Spec.AsksColumns (filterOk o.databaseFilter) (filterOk o.tableFilter)
      (ComFieldList.writeTo [] tbl (Cmd.str "%")).1 := by
    refine Or.inr ⟨tbl, h2, ?_⟩
    simp [ComFieldList.writeTo, writeU8_spec, writeBytes_spec, Command.toByte, Spec.u8]
    rfl
  have hp : Plays (fetchColumns db tbl) ([Spec.AsksColumns (filterOk o.databaseFilter) (filterOk o.tableFilter)] ++
      [Spec.AsksColumns (filterOk o.databaseFilter) (filterOk o.tableFilter)]) :=
    Plays.bind ((SendsOne.okCommand _).plays a1) fun _ => (SendsOne.fieldList tbl _).plays a2
  obtain ⟨ps, done, rest, u, e, m⟩ := hp.follows c c' h
  refine ⟨ps, u, ?_⟩
  have hd : ∀ q ∈ done, q = Spec.AsksColumns (filterOk o.databaseFilter) (filterOk o.tableFilter) := by
    intro q hq
    have : q ∈ done ++ rest := List.mem_append_left _ hq
    rw [← e] at this
    simpa using this
  clear e u
  intro p hp
  induction m with
  | nil => cases hp
  | @cons x q xs qs hxq _ ih =>
    rcases List.mem_cons.1 hp with rfl | hp
    · have := hd q (by simp)
      subst this
      exact hxq
    · exact ih (fun q hq => hd q (by simp [hq])) hp

/-- what is said on the helper connection for one event -/
theorem onEvent_says (ft : FloatText) (o : DmlOpts) (st : DmlState) (ev : Event) :
    (∀ ls st', onEvent ft o st ev = (ls, .go st') →
      Spec.UttersOnly (Spec.AsksColumns (filterOk o.databaseFilter) (filterOk o.tableFilter)) st.helper.out st'.helper.out) ∧
    (∀ h, helperAfter o st ev = some h →
      Spec.UttersOnly (Spec.AsksColumns (filterOk o.databaseFilter) (filterOk o.tableFilter)) st.helper.out h.out) := by
  have rows : ∀ (lines : TableMeta → RowsDataV2 → R (List DmlLine)) ls st',
      onRows o.limit lines st ev.data = (ls, .go st') → st'.helper = st.helper := by
    intro lines ls st' h
    unfold onRows at h
    split at h
    · split at h
      · cases h; rfl
      · split at h
        · cases h; rfl
        · split at h
          · split at h
            · cases h; rfl
            · cases h
          · cases h
          · cases h
          · cases h
    · cases h
    · cases h
    · cases h
  have same : ∀ st' : DmlState, st'.helper = st.helper →
      Spec.UttersOnly (Spec.AsksColumns (filterOk o.databaseFilter) (filterOk o.tableFilter)) st.helper.out st'.helper.out :=
    fun st' h => by rw [h]; exact UttersOnly.nil _ _
  constructor
  · intro ls st' h
    unfold onEvent at h
    split at h
    · have h : onTableMap o st ev.data = .go st' := by injection h
      unfold onTableMap at h
      split at h
      · split at h
        · cases h; exact same _ rfl
        · split at h
          · rename_i tm _ _
            split at h
            · cases h; exact same _ rfl
            · rename_i hdb
              split at h
              · cases h; exact same _ rfl
              · rename_i htb
                split at h
                · rename_i defs hc hf
                  cases h
                  exact fetchColumns_says o _ _ (by simpa using hdb) (by simpa using htb) _ _ (Or.inl ⟨defs, hf⟩)
                · cases h
                · cases h
                · cases h
          · cases h
          · cases h
          · cases h
      · cases h
      · cases h
      · cases h
    · exact same _ (rows _ _ _ h)
    · exact same _ (rows _ _ _ h)
    · exact same _ (rows _ _ _ h)
    · split at h
      · cases h; exact same _ rfl
      · cases h
    · cases h; exact same _ rfl
  · intro h hh
    unfold helperAfter at hh
    split at hh
    · split at hh
      · split at hh
        · cases hh; exact UttersOnly.nil _ _
        · split at hh
          · split at hh
            · cases hh; exact UttersOnly.nil _ _
            · rename_i hdb
              split at hh
              · cases hh; exact UttersOnly.nil _ _
              · rename_i htb
                split at hh
                · rename_i defs hc hf
                  cases hh
                  exact fetchColumns_says o _ _ (by simpa using hdb) (by simpa using htb) _ _ (Or.inl ⟨defs, hf⟩)
                · rename_i e hc hf
                  cases hh
                  exact fetchColumns_says o _ _ (by simpa using hdb) (by simpa using htb) _ _ (Or.inr ⟨e, hf⟩)
                · cases hh
                · cases hh
          · cases hh; exact UttersOnly.nil _ _
          · cases hh
          · cases hh
      · cases hh; exact UttersOnly.nil _ _
      · cases hh
      · cases hh
    · cases hh; exact UttersOnly.nil _ _

theorem dmlConns_says (ft : FloatText) (o : DmlOpts) (s : BinlogStream) (st : DmlState) (c : Conn) (c1 c2 : Conn)
    (h : dmlConns ft o s st c = some (c1, c2)) : c1.out = c.out ∧
      Spec.UttersOnly (Spec.AsksColumns (filterOk o.databaseFilter) (filterOk o.tableFilter)) st.helper.out c2.out := by
  induction hn : c.inp.length using Nat.strong_induction_on generalizing c s st with
  | _ n ih =>
    rw [dmlConns.eq_def] at h
    have hq := Quiet.nextEvent s c
    cases hr : s.nextEvent c with
    | ok a c' =>
      have h1 := hq c' (Or.inl ⟨a, hr⟩)
      rw [hr] at h
      obtain ⟨ev, s'⟩ := a
      cases ev with
      | none => cases h; exact ⟨h1, UttersOnly.nil _ _⟩
      | some ev =>
        dsimp only at h
        have hev := onEvent_says ft o st ev
        split at h
        · rename_i ls st' he
          split at h
          · obtain ⟨a1, a2⟩ := ih c'.inp.length (by omega) s' st' c' h rfl
            exact ⟨a1.trans h1, UttersOnly.trans (hev.1 ls st' he) a2⟩
          · cases h
        · cases h; exact ⟨h1, UttersOnly.nil _ _⟩
        · cases hh : helperAfter o st ev with
          | none => rw [hh] at h; cases h
          | some hc =>
            rw [hh] at h
            cases h
            exact ⟨h1, hev.2 _ hh⟩
        · cases h
        · cases h
    | err e c' => rw [hr] at h; cases h; exact ⟨hq _ (Or.inr ⟨e, hr⟩), UttersOnly.nil _ _⟩
    | panic => rw [hr] at h; cases h
    | hang => rw [hr] at h; cases h

/-- what a filter given on the command line lets through; nothing is filtered without one -/
def Spec.passes (w : World) : Option Bytes → Bytes → Bool
  | none, _ => true
  | some s, name => match w.regex s with | some re => re name | none => false

theorem filterOk_passes (w : World) (t : Option Bytes) (f : Option (Bytes → Bool)) (h : compileFilter w t = some f) :
    filterOk f = Spec.passes w t := by
  cases t with
  | none =>
    have : f = none := (Option.some.inj h).symm
    subst this
    rfl
  | some s =>
    have h : (w.regex s).map some = some f := h
    cases hr : w.regex s with
    | none => rw [hr] at h; cases h
    | some re =>
      rw [hr] at h
      cases h
      funext name
      show re name = _
      unfold Spec.passes
      simp only [hr]

/-- C88, `mybinlog dml`: whatever the master sends on the two connections, after its two logins the program says on the
first only what is needed for a stream of events, and on the second only asks for the columns of tables that pass the
filters. -/
theorem C88_dml (w : World) (o : ProgOpts) (filename : Bytes) (untilNow : Bool) (dt tt : Option Bytes) (block : Bool)
    (limit : Nat) (hcmd : o.cmd = .dml filename untilNow dt tt block limit) (sent : List Bytes)
    (h : (mybinlog w o).sent = some sent) :
    (∃ conn e, connect w 0 o.host o.port o.username o.password = .err e conn ∧ sent = [conn.out]) ∨
    ∃ (conn helper : Conn) (all all2 : Bytes), connect w 0 o.host o.port o.username o.password = .ok () conn ∧
      Ends (connect w 1 o.host o.port o.username o.password) helper ∧ sent = [all, all2] ∧
      Spec.Follows Spec.streamScript conn.out all ∧
      Spec.UttersOnly (Spec.AsksColumns (Spec.passes w dt) (Spec.passes w tt)) helper.out all2 := by
  unfold mybinlog at h
  cases hc : connect w 0 o.host o.port o.username o.password with
  | ok a conn =>
    right
    rw [hc] at h
    dsimp only at h
    rw [hcmd] at h
    dsimp only at h
    have stop : ∀ helper : Conn, Ends (connect w 1 o.host o.port o.username o.password) helper →
        some [conn.out, helper.out] = some sent →
        ∃ (conn' helper : Conn) (all all2 : Bytes), MR.ok a conn = .ok () conn' ∧
        Ends (connect w 1 o.host o.port o.username o.password) helper ∧ sent = [all, all2] ∧
        Spec.Follows Spec.streamScript conn'.out all ∧
        Spec.UttersOnly (Spec.AsksColumns (Spec.passes w dt) (Spec.passes w tt)) helper.out all2 :=
      fun helper he h => ⟨conn, helper, _, _, rfl, he, (Option.some.inj h).symm, Follows.nil _ _, UttersOnly.nil _ _⟩
    cases hc2 : connect w 1 o.host o.port o.username o.password with
    | ok b helper =>
      have he : Ends (connect w 1 o.host o.port o.username o.password) helper := Or.inl ⟨b, hc2⟩
      rw [hc2] at h stop he
      dsimp only at h
      cases hdf : compileFilter w dt with
      | none => rw [hdf] at h; exact stop helper he h
      | some df =>
        rw [hdf] at h
        dsimp only at h
        cases htf : compileFilter w tt with
        | none => rw [htf] at h; exact stop helper he h
        | some tf =>
          rw [htf] at h
          dsimp only at h
          unfold dmlSent at h
          rw [← filterOk_passes w dt df hdf, ← filterOk_passes w tt tf htf]
          cases hs : (DmlOpts.request ⟨filename, untilNow, df, tf, !block, limit⟩).requestStream w.uuid w.random conn with
          | ok s c =>
            rw [hs] at h
            dsimp only at h
            cases hd : dmlConns w.ft ⟨filename, untilNow, df, tf, !block, limit⟩ s ⟨[], [], 0, helper⟩ c with
            | none => rw [hd] at h; cases h
            | some cs =>
              rw [hd] at h
              obtain ⟨c1, c2⟩ := cs
              obtain ⟨a1, a2⟩ := dmlConns_says _ _ _ _ _ _ _ hd
              refine ⟨conn, helper, c1.out, c2.out, rfl, he, (Option.some.inj h).symm, ?_, a2⟩
              rw [a1]
              exact (requestStream_plays _ _ _).follows conn c (Or.inl ⟨s, hs⟩)
          | err e c =>
            rw [hs] at h
            exact ⟨conn, helper, _, _, rfl, he, (Option.some.inj h).symm,
              (requestStream_plays _ _ _).follows conn c (Or.inr ⟨e, hs⟩), UttersOnly.nil _ _⟩
          | panic => rw [hs] at h; cases h
          | hang => rw [hs] at h; cases h
    | err e helper =>
      rw [hc2] at h stop
      exact stop helper (Or.inr ⟨e, rfl⟩) h
    | panic => rw [hc2] at h; cases h
    | hang => rw [hc2] at h; cases h
  | err e conn =>
    rw [hc] at h
    exact Or.inl ⟨conn, e, rfl, (Option.some.inj h).symm⟩
  | panic => rw [hc] at h; cases h
  | hang => rw [hc] at h; cases h

/-! ### the bytes sent are known unless the run panics -/

theorem helperAfter_some (ft : FloatText) (o : DmlOpts) (st : DmlState) (ev : Event) (ls : List DmlLine) (e : Err)
    (h : onEvent ft o st ev = (ls, .err e)) : ∃ c, helperAfter o st ev = some c := by
  unfold onEvent at h
  unfold helperAfter
  cases hk : ev.kind with
  | tableMap =>
    rw [hk] at h
    dsimp only at h ⊢
    have h : onTableMap o st ev.data = .err e := by injection h
    unfold onTableMap at h
    cases hd : TableMapData.readFrom ev.data with
    | ok d r =>
      rw [hd] at h
      dsimp only at h ⊢
      split at h
      · cases h
      · rename_i h1
        rw [if_neg h1]
        cases ht : TableMapData.tableMap d.payload with
        | ok tm r =>
          rw [ht] at h
          dsimp only at h ⊢
          split at h
          · cases h
          · rename_i h2
            rw [if_neg h2]
            split at h
            · cases h
            · rename_i h3
              rw [if_neg h3]
              cases hf : fetchColumns tm.schemaName tm.tableName st.helper with
              | ok a c => exact ⟨c, rfl⟩
              | err e c => exact ⟨c, rfl⟩
              | panic => rw [hf] at h; cases h
              | hang => rw [hf] at h; cases h
        | err e r => exact ⟨_, rfl⟩
        | panic => rw [ht] at h; cases h
        | hang => rw [ht] at h; cases h
    | err e r => exact ⟨_, rfl⟩
    | panic => rw [hd] at h; cases h
    | hang => rw [hd] at h; cases h
  | _ => exact ⟨_, rfl⟩

theorem dmlConns_some (ft : FloatText) (o : DmlOpts) (s : BinlogStream) (st : DmlState) (c : Conn)
    (h : (dmlLoop ft o s st c).2 ≠ .panic ∧ (dmlLoop ft o s st c).2 ≠ .hang) : ∃ cs, dmlConns ft o s st c = some cs := by
  induction hn : c.inp.length using Nat.strong_induction_on generalizing c s st with
  | _ n ih =>
    rw [dmlConns.eq_def]
    rw [dmlLoop.eq_def] at h
    cases hr : s.nextEvent c with
    | ok a c' =>
      rw [hr] at h
      obtain ⟨ev, s'⟩ := a
      cases ev with
      | none => exact ⟨_, rfl⟩
      | some ev =>
        dsimp only at h ⊢
        cases he : onEvent ft o st ev with
        | mk ls nx =>
          rw [he] at h
          cases nx with
          | go st' =>
            dsimp only at h ⊢
            split at h
            · rename_i hl
              rw [if_pos hl]
              exact ih c'.inp.length (by omega) s' st' c' h rfl
            · exact absurd rfl h.2
          | stop => exact ⟨_, rfl⟩
          | err e =>
            obtain ⟨hc, hh⟩ := helperAfter_some ft o st ev ls e he
            exact ⟨(c', hc), by dsimp only; rw [hh]; rfl⟩
          | panic => exact absurd rfl h.1
          | hang => exact absurd rfl h.2
    | err e c' => exact ⟨_, rfl⟩
    | panic => rw [hr] at h; exact absurd rfl h.1
    | hang => rw [hr] at h; exact absurd rfl h.2

/-- the bytes sent by `mybinlog` are known unless it panics (or never ends, which no run does): `C88_list` and `C88_dml`
speak of all other runs -/
theorem C88_sent_known (w : World) (o : ProgOpts) (h : (mybinlog w o).theEnd ≠ .panic ∧ (mybinlog w o).theEnd ≠ .hang) :
    ∃ sent, (mybinlog w o).sent = some sent := by
  unfold mybinlog at h ⊢
  cases hc : connect w 0 o.host o.port o.username o.password with
  | ok a conn =>
    rw [hc] at h
    dsimp only at h ⊢
    cases hcmd : o.cmd with
    | list =>
      rw [hcmd] at h
      dsimp only at h ⊢
      cases hb : Cmd.binlogFiles conn with
      | ok fs c => exact ⟨_, rfl⟩
      | err e c => exact ⟨_, rfl⟩
      | panic => rw [hb] at h; exact absurd rfl h.1
      | hang => rw [hb] at h; exact absurd rfl h.2
    | dml filename untilNow dt tt block limit =>
      rw [hcmd] at h
      dsimp only at h ⊢
      cases hc2 : connect w 1 o.host o.port o.username o.password with
      | ok b helper =>
        rw [hc2] at h
        dsimp only at h ⊢
        cases hdf : compileFilter w dt with
        | none => exact ⟨_, rfl⟩
        | some df =>
          rw [hdf] at h
          dsimp only at h ⊢
          cases htf : compileFilter w tt with
          | none => exact ⟨_, rfl⟩
          | some tf =>
            rw [htf] at h
            dsimp only at h ⊢
            unfold printDmls at h
            unfold dmlSent
            cases hs : (DmlOpts.request ⟨filename, untilNow, df, tf, !block, limit⟩).requestStream w.uuid w.random conn with
            | ok s c =>
              rw [hs] at h
              dsimp only at h ⊢
              obtain ⟨cs, hcs⟩ := dmlConns_some _ _ _ _ _ h
              rw [hcs]
              exact ⟨_, rfl⟩
            | err e c => exact ⟨_, rfl⟩
            | panic => rw [hs] at h; exact absurd rfl h.1
            | hang => rw [hs] at h; exact absurd rfl h.2
      | err e helper => exact ⟨_, rfl⟩
      | panic => rw [hc2] at h; exact absurd rfl h.1
      | hang => rw [hc2] at h; exact absurd rfl h.2
  | err e conn => exact ⟨_, rfl⟩
  | panic => rw [hc] at h; exact absurd rfl h.1
  | hang => rw [hc] at h; exact absurd rfl h.2

/-! ### the hypotheses can be met -/

/-- the run of C87 over the example log: its bytes are known, and the filter it uses lets through `d` alone -/
example (ft : FloatText) : ∃ inp1 inp2 sent, (mybinlog (exampleWorld ft inp1 inp2) (exampleProg 0)).sent = some sent ∧
    Spec.passes (exampleWorld ft inp1 inp2) (some (Spec.ascii "^d$")) (Spec.ascii "d") = true ∧
    Spec.passes (exampleWorld ft inp1 inp2) (some (Spec.ascii "^d$")) (Spec.ascii "e") = false := by
  obtain ⟨inp1, inp2, out, -, -, h3⟩ := example_program ft 0
  obtain ⟨sent, hs⟩ := C88_sent_known _ _ (by rw [h3]; exact ⟨by simp, by simp⟩)
  exact ⟨inp1, inp2, sent, hs, rfl, rfl⟩

/-- an application that prepares a statement, executes it if it got one, and then pings -/
def exampleApp88 : List Outcome → Option Ask
  | [] => some (.prepare (Spec.ascii "select ?"))
  | [.stmt st] => some (.stmtExec st [.newUnsignedBigint 5])
  | [_] => some .ping
  | _ => none

example : ∀ got a, (∀ st, Outcome.stmt st ∈ got → st.stmtId < 2 ^ 32) → exampleApp88 got = some a → a.Typed := by
  intro got a hst h
  unfold exampleApp88 at h
  split at h
  · cases h; trivial
  · cases h
    exact ⟨hst _ (by simp), by simpa using bigint_sound 5 (by norm_num)⟩
  · cases h; trivial
  · cases h

/-- on a connection that the server has closed, the application gets an error twice -/
example : ∃ c' e1 e2, session exampleApp88 9 [] { inp := [] } = .ok [.failed e1, .failed e2] c' := by
  have hr : ∀ c : Conn, c.inp = [] → ∃ c', recvMsg c = .err .io c' ∧ c'.inp = [] := by
    intro c hc
    refine ⟨{ c with inp := [], pktNr := c.pktNr }, ?_, rfl⟩
    unfold recvMsg
    rw [hc, recvLoop]
    intro _ _ _ _ _ h
    cases h
  have hs : ∀ (bs : Bytes) (c : Conn), bs.length / 0xffffff < 255 → c.inp = [] →
      ∃ c', (∀ {α : Type} (f : Bytes → M α), (do sendMsg bs true; let m ← recvMsg; f m : M α) c = .err .io c') ∧ c'.inp = [] := by
    intro bs c hn hc
    obtain ⟨ps, c1, a1, a2, a3, a4, a5, a6, a7, a8⟩ := sendMsg_spec bs c hn
    obtain ⟨c2, b1, b2⟩ := hr c1 (a6.trans hc)
    exact ⟨c2, fun f => by rw [M.bind_apply, a4, MR.bind_ok, M.bind_apply, b1]; rfl, b2⟩
  obtain ⟨c1, h1, h2⟩ := hs (ComStmtPrepare.writeTo [] (Spec.ascii "select ?")).1 { inp := [] } (by decide +kernel) rfl
  obtain ⟨c2, h3, -⟩ := hs (writeSingleByteCmd [] .ping).1 c1 (by decide +kernel) h2
  refine ⟨c2, .io, .io, ?_⟩
  have p1 : (Ask.prepare (Spec.ascii "select ?")).perform { inp := [] } = .ok (.failed .io) c1 := by
    show attempt (Stmt.prepare _) _ _ = _
    unfold attempt Stmt.prepare
    rw [h1]
  have p2 : Ask.ping.perform c1 = .ok (.failed .io) c2 := by
    show attempt Cmd.ping _ _ = _
    unfold attempt Cmd.ping
    rw [h3]
  show (do let o ← (Ask.prepare (Spec.ascii "select ?")).perform; session exampleApp88 8 [o] : M _) _ = _
  rw [M.bind_apply, p1, MR.bind_ok]
  show (do let o ← Ask.ping.perform; session exampleApp88 7 [.failed .io, o] : M _) _ = _
  rw [M.bind_apply, p2, MR.bind_ok]
  rfl

end Mybin
