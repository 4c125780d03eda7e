/-
C121: copies of a connection. A connection can be copied (`Clone`): the copies share the stream, and each has its own packet
number, capability flags and status. Calls made one after another, each through whichever copy made after the login, give
what they give through one connection, and the server hears the same.
-/
import Verif.Props.C93
import Verif.Model.AsyncConn

namespace Mybin

/-! ### specification -/

/-- what a connection has for itself when it is copied: everything but the stream -/
structure Spec.Copy where
  pktNr : Nat
  caps : Nat
  status : Nat

/-- the copy made of a connection -/
def Spec.Copy.of (c : Conn) : Spec.Copy := ⟨c.pktNr, c.caps, c.status⟩

/-- a copy with the shared stream: what is still to be read from it and what was written to it -/
def Spec.Copy.conn (x : Spec.Copy) (unread sent : Bytes) : Conn := ⟨unread, sent, x.pktNr, x.caps, x.status⟩

/-- a call of the API on a connection that is logged in -/
inductive Spec.Call : {α : Type} → M α → Prop
  | changeUser (H : Hashes) (user password db : Bytes) (attrs : List ConnectAttr) :
      Call (Mybin.changeUser H user password db attrs)
  | quit : Call Cmd.quit
  | initDb (db : Bytes) : Call (Cmd.initDb db)
  | createDb (db : Bytes) : Call (Cmd.createDb db)
  | dropDb (db : Bytes) : Call (Cmd.dropDb db)
  | refresh (flags : Nat) : Call (Cmd.refresh flags)
  | processKill (id : Nat) : Call (Cmd.processKill id)
  | resetConnection : Call Cmd.resetConnection
  | registerSlave (id : Nat) : Call (Cmd.registerSlave id)
  | fieldList (table wildcard : Bytes) : Call (Cmd.fieldList table wildcard)
  | statistics : Call Cmd.statistics
  | debug : Call Cmd.debug
  | ping : Call Cmd.ping
  | setMultiStmts (multi : Bool) : Call (Cmd.setMultiStmts multi)
  | processInfo : Call Cmd.processInfo
  | binlogFiles : Call Cmd.binlogFiles
  | getVar {α : Type} (conv : Option Bytes → Res α) (name : Bytes) (global : Bool) : Call (Cmd.getVar conv name global)
  | setVar (name : Bytes) (v : StmtColumnValue) (global : Bool) : Call (Cmd.setVar name v global)
  | getUserVar {α : Type} (conv : Option Bytes → Res α) (name : Bytes) : Call (Cmd.getUserVar conv name)
  | setUserVar (name : Bytes) (v : StmtColumnValue) : Call (Cmd.setUserVar name v)
  | queryExec (q : Bytes) : Call (Query.exec q)
  | query (q : Bytes) : Call (Query.qry q)
  | nextRow {ρ : Type} (rs : ResultSet) (read : P ρ) : Call (rs.nextRow read)
  | all {ρ : Type} (rs : ResultSet) (read : P ρ) : Call (rs.all read)
  | first {ρ : Type} (rs : ResultSet) (read : P ρ) : Call (rs.first read)
  | firstOrNone {ρ : Type} (rs : ResultSet) (read : P ρ) : Call (rs.firstOrNone read)
  | count {ρ : Type} (rs : ResultSet) (read : P ρ) : Call (rs.count read)
  | closeResult (rs : ResultSet) : Call rs.close
  | prepare (q : Bytes) : Call (Stmt.prepare q)
  | exec (s : PreparedStmt) (ps : List StmtColumnValue) : Call (s.exec ps)
  | execClose (s : PreparedStmt) (ps : List StmtColumnValue) : Call (s.execClose ps)
  | qry (s : PreparedStmt) (ps : List StmtColumnValue) : Call (s.qry ps)
  | close (s : PreparedStmt) : Call s.close
  | requestStream (r : BinlogRequest) (uuid : Bytes) (random : Nat) : Call (r.requestStream uuid random)
  | nextEvent (s : BinlogStream) : Call s.nextEvent

/-- an application that holds copies of one connection, numbered: it makes copies, makes one call after another, each on the
copy it likes, and goes on as it likes with the value or the error it got -/
inductive Spec.Holder (α : Type) : Type 1
  | done (a : α)
  | copy (src dst : Nat) (next : Spec.Holder α)
  | call {β : Type} (n : Nat) (run : M β) (ok : Spec.Call run) (next : Except Err β → Spec.Holder α)

/-- how such an application ends: with a value, what is then unread and what was sent in all; or not -/
inductive Spec.Finish (α : Type) where
  | value (a : α) (unread sent : Bytes)
  | panicked
  | stuck
  deriving DecidableEq

/-- the application, when every call is made on the same connection -/
def Spec.Holder.onOne {α : Type} : Spec.Holder α → Conn → Spec.Finish α
  | .done a, c => .value a c.inp c.out
  | .copy _ _ next, c => next.onOne c
  | .call _ run _ next, c =>
    match run c with
    | .ok v c' => (next (.ok v)).onOne c'
    | .err e c' => (next (.error e)).onOne c'
    | .panic => .panicked
    | .hang => .stuck

/-- the application, when call `n` is made on copy `n`: only the stream is shared -/
def Spec.Holder.onCopies {α : Type} : Spec.Holder α → (Nat → Spec.Copy) → (unread sent : Bytes) → Spec.Finish α
  | .done a, _, unread, sent => .value a unread sent
  | .copy src dst next, own, unread, sent => next.onCopies (fun n => if n = dst then own src else own n) unread sent
  | .call n run _ next, own, unread, sent =>
    match run ((own n).conn unread sent) with
    | .ok v c' => (next (.ok v)).onCopies (fun m => if m = n then .of c' else own m) c'.inp c'.out
    | .err e c' => (next (.error e)).onCopies (fun m => if m = n then .of c' else own m) c'.inp c'.out
    | .panic => .panicked
    | .hang => .stuck

/-! ### capability flags that differ in MULTI_STATEMENTS only -/

/-- the flags are equal, up to the one that `set_multi_stmts` changes -/
def CapsLike (a b : Nat) : Prop := a ||| Cap.MULTI_STATEMENTS = b ||| Cap.MULTI_STATEMENTS

theorem CapsLike.refl (a : Nat) : CapsLike a a := rfl
theorem CapsLike.symm {a b : Nat} (h : CapsLike a b) : CapsLike b a := Eq.symm h
theorem CapsLike.trans {a b c : Nat} (h : CapsLike a b) (h' : CapsLike b c) : CapsLike a c := Eq.trans h h'

theorem capsLike_insert (a : Nat) : CapsLike (a ||| Cap.MULTI_STATEMENTS) a := by
  unfold CapsLike
  rw [Nat.or_assoc, Nat.or_self]

theorem capsLike_remove (a : Nat) : CapsLike (a ^^^ (a &&& Cap.MULTI_STATEMENTS)) a := by
  unfold CapsLike
  apply Nat.eq_of_testBit_eq
  intro i
  simp only [Nat.testBit_or, Nat.testBit_xor, Nat.testBit_and]
  cases a.testBit i <;> cases Cap.MULTI_STATEMENTS.testBit i <;> rfl

/-- another flag is in both or in neither -/
theorem hasFlag_like {a b : Nat} (h : CapsLike a b) (f : Nat) (hf : f &&& Cap.MULTI_STATEMENTS = 0) :
    hasFlag a f = hasFlag b f := by
  have key : a &&& f = b &&& f := by
    have h1 : (a ||| Cap.MULTI_STATEMENTS) &&& f = (b ||| Cap.MULTI_STATEMENTS) &&& f := by rw [h]
    have h2 : ∀ x : Nat, (x ||| Cap.MULTI_STATEMENTS) &&& f = x &&& f := by
      intro x
      rw [Nat.and_or_distrib_right, Nat.and_comm Cap.MULTI_STATEMENTS f, hf, Nat.or_zero]
    rwa [h2, h2] at h1
  unfold hasFlag
  rw [key]

theorem okRead_like {a b : Nat} (h : CapsLike a b) : OkPacket.readFrom a = OkPacket.readFrom b := by
  unfold OkPacket.readFrom
  simp only [hasFlag_like h Cap.PROTOCOL_41 (by decide), hasFlag_like h Cap.TRANSACTIONS (by decide),
    hasFlag_like h Cap.SESSION_TRACK (by decide)]

theorem errRead_like {a b : Nat} (h : CapsLike a b) : ErrPacket.readFrom a = ErrPacket.readFrom b := by
  unfold ErrPacket.readFrom
  simp only [hasFlag_like h Cap.PROTOCOL_41 (by decide)]

theorem eofRead_like {a b : Nat} (h : CapsLike a b) : EofPacket.readFrom a = EofPacket.readFrom b := by
  unfold EofPacket.readFrom
  simp only [hasFlag_like h Cap.PROTOCOL_41 (by decide)]

theorem comRead_like {a b : Nat} (h : CapsLike a b) : ComResponse.readFrom a = ComResponse.readFrom b := by
  funext bs
  unfold ComResponse.readFrom
  cases bs with
  | nil => rfl
  | cons x t => simp only [okRead_like h, errRead_like h]

theorem eofResRead_like {a b : Nat} (h : CapsLike a b) : EofResponse.readFrom a = EofResponse.readFrom b := by
  funext bs
  unfold EofResponse.readFrom
  cases bs with
  | nil => rfl
  | cons x t => simp only [eofRead_like h, errRead_like h]

theorem fieldRead_like {a b : Nat} (h : CapsLike a b) : ComFieldListResponse.readFrom a = ComFieldListResponse.readFrom b := by
  funext sql bs
  unfold ComFieldListResponse.readFrom
  cases bs with
  | nil => rfl
  | cons x t => simp only [eofRead_like h, errRead_like h]

theorem userRead_like {a b : Nat} (h : CapsLike a b) : ComChangeUserResponse.readFrom a = ComChangeUserResponse.readFrom b := by
  funext bs
  unfold ComChangeUserResponse.readFrom
  cases bs with
  | nil => rfl
  | cons x t => simp only [okRead_like h, errRead_like h]

theorem userWrite_like {a b : Nat} (h : CapsLike a b) (out : Bytes) (x : ComChangeUser) : x.writeTo out a = x.writeTo out b := by
  unfold ComChangeUser.writeTo
  simp only [hasFlag_like h Cap.SECURE_CONNECTION (by decide), hasFlag_like h Cap.PLUGIN_AUTH (by decide),
    hasFlag_like h Cap.CONNECT_ATTRS (by decide)]

theorem terminator_like {a b : Nat} (h : CapsLike a b) : readTerminator a = readTerminator b := by
  funext msg c
  unfold readTerminator
  rw [hasFlag_like h Cap.DEPRECATE_EOF (by decide), okRead_like h, eofRead_like h]

/-- the flags are used for nothing that `set_multi_stmts` changes -/
macro "caps_like" : tactic => `(tactic|
  (intro a b h
   first
   | rfl
   | simp only [hasFlag_like h Cap.DEPRECATE_EOF (by decide), okRead_like h, errRead_like h, eofRead_like h, comRead_like h,
      eofResRead_like h, fieldRead_like h, userRead_like h, userWrite_like h, terminator_like h]))

/-! ### two connections on which the same is read and sent -/

/-- two connections with the same stream and flags like `K`; if `near`, with the same packet number -/
structure Pair (near : Bool) (K : Nat) (c d : Conn) : Prop where
  inp : c.inp = d.inp
  out : c.out = d.out
  left : CapsLike c.caps K
  right : CapsLike d.caps K
  nr : near = true → c.pktNr = d.pktNr

theorem Pair.far {n : Bool} {K : Nat} {c d : Conn} (h : Pair n K c d) : Pair false K c d :=
  ⟨h.inp, h.out, h.left, h.right, fun h => absurd h (by decide)⟩

/-- the same outcome -/
def Alike {α : Type} (near : Bool) (K : Nat) : MR α → MR α → Prop
  | .ok v c, .ok w d => v = w ∧ Pair near K c d
  | .err e c, .err f d => e = f ∧ Pair false K c d
  | .panic, .panic => True
  | .hang, .hang => True
  | _, _ => False

/-- a run has the same outcome on both -/
def Rel {α : Type} (m n : Bool) (run : M α) : Prop := ∀ K c d, Pair m K c d → Alike n K (run c) (run d)

abbrev Twin {α : Type} (run : M α) : Prop := Rel false false run

theorem Alike.far {α : Type} {n : Bool} {K : Nat} {r s : MR α} (h : Alike n K r s) : Alike false K r s := by
  cases r <;> cases s <;> first | exact h | exact ⟨h.1, h.2.far⟩

theorem Rel.far {α : Type} {m n : Bool} {run : M α} (h : Rel m n run) : Rel m false run := fun K c d hp => (h K c d hp).far

theorem Alike.bind {α β : Type} {m n : Bool} {K : Nat} {r s : MR α} {f g : α → M β} (h : Alike m K r s)
    (hf : ∀ v c d, r = .ok v c → s = .ok v d → Pair m K c d → Alike n K (f v c) (g v d)) : Alike n K (r.bind f) (s.bind g) := by
  cases r <;> cases s <;> first | exact h.elim | exact h | skip
  obtain ⟨rfl, hp⟩ := h
  exact hf _ _ _ rfl rfl hp

theorem Rel.bind {α β : Type} {l m n : Bool} {x : M α} {f : α → M β} (hx : Rel l m x) (hf : ∀ a, Rel m n (f a)) :
    Rel l n (x >>= f) :=
  fun K c d hp => (hx K c d hp).bind fun v c' d' _ _ h => hf v K c' d' h

theorem Rel.caps {α : Type} {m n : Bool} {k : Nat → M α} (hk : ∀ a b, CapsLike a b → k a = k b) (h : ∀ a, Rel m n (k a)) :
    Rel m n (getCaps >>= k) := by
  intro K c d hp
  show Alike n K (k c.caps c) (k d.caps d)
  rw [hk c.caps d.caps (hp.left.trans hp.right.symm)]
  exact h _ K c d hp

theorem Twin.bind {α β : Type} {x : M α} {f : α → M β} (hx : Twin x) (hf : ∀ a, Twin (f a)) : Twin (x >>= f) := Rel.bind hx hf

theorem Twin.caps {α : Type} {k : Nat → M α} (hk : ∀ a b, CapsLike a b → k a = k b) (h : ∀ a, Twin (k a)) :
    Twin (getCaps >>= k) := Rel.caps hk h

/-! ### the steps -/

theorem Rel.pure {α : Type} {n : Bool} (a : α) : Rel n n (Pure.pure a : M α) := fun _ _ _ hp => ⟨rfl, hp⟩
theorem Rel.fail {α : Type} {m n : Bool} (e : Err) : Rel m n (M.fail e : M α) := fun _ _ _ hp => ⟨rfl, hp.far⟩
theorem Rel.mpanic {α : Type} {m n : Bool} : Rel m n (M.panic : M α) := fun _ _ _ _ => trivial

theorem Rel.parse {α : Type} {n : Bool} (msg : Bytes) (p : P α) : Rel n n (M.parse msg p) := by
  intro K c d hp
  unfold M.parse
  cases p msg <;> first | trivial | exact ⟨rfl, hp⟩ | exact ⟨rfl, hp.far⟩

theorem Rel.ofExcept {α : Type} {n : Bool} (r : Except Err α) : Rel n n (M.ofExcept r) := by
  intro K c d hp
  unfold M.ofExcept
  cases r <;> first | exact ⟨rfl, hp⟩ | exact ⟨rfl, hp.far⟩

theorem Twin.pure {α : Type} (a : α) : Twin (Pure.pure a : M α) := Rel.pure a
theorem Twin.fail {α : Type} (e : Err) : Twin (M.fail e : M α) := Rel.fail e
theorem Twin.mpanic {α : Type} : Twin (M.panic : M α) := Rel.mpanic
theorem Twin.parse {α : Type} (msg : Bytes) (p : P α) : Twin (M.parse msg p) := Rel.parse msg p

theorem Twin.insertMulti : Twin (insertCap Cap.MULTI_STATEMENTS) := fun _ _ _ hp =>
  ⟨rfl, hp.inp, hp.out, (capsLike_insert _).trans hp.left, (capsLike_insert _).trans hp.right, fun h => absurd h (by decide)⟩

theorem Twin.removeMulti : Twin (removeCap Cap.MULTI_STATEMENTS) := fun _ _ _ hp =>
  ⟨rfl, hp.inp, hp.out, (capsLike_remove _).trans hp.left, (capsLike_remove _).trans hp.right, fun h => absurd h (by decide)⟩

theorem Twin.ofRes {α : Type} (r : Res α) : Twin (Cmd.M.ofRes r) := by
  intro K c d hp
  unfold Cmd.M.ofRes
  cases r <;> first | trivial | exact ⟨rfl, hp⟩

theorem Twin.someOr {α : Type} (e : Err) (o : Option α) : Twin (M.someOr e o) := by
  cases o with
  | none => exact Twin.fail e
  | some a => exact Twin.pure a

theorem Twin.readColCnt (msg : Bytes) : Twin (readColCnt msg) := by
  intro K c d hp
  unfold Mybin.readColCnt
  cases readLenEncInt msg with
  | ok lei rest =>
    dsimp only
    cases lei.toU32 with
    | some n => exact ⟨rfl, hp⟩
    | none =>
      dsimp only
      cases rest.isEmpty
      · exact ⟨rfl, hp⟩
      · trivial
  | err e r => exact ⟨rfl, hp⟩
  | panic => trivial
  | hang => trivial

theorem Twin.readTerminator (caps : Nat) (msg : Bytes) : Twin (readTerminator caps msg) := by
  intro K c d hp
  unfold Mybin.readTerminator
  cases hasFlag caps Cap.DEPRECATE_EOF
  · cases EofPacket.readFrom caps msg <;> first | trivial | exact ⟨rfl, hp⟩
  · cases OkPacket.readFrom caps msg <;> first | trivial | exact ⟨rfl, hp⟩

/-! ### receiving and sending -/

/-- what is received does not depend on the packet number, and gives the next one -/
theorem recvLoop_any_number (bs inp : Bytes) (m n : Nat) :
    (∃ v, recvLoop bs inp m = .ok v ∧ recvLoop bs inp n = .ok v) ∨
    ∃ i j, recvLoop bs inp m = .error i ∧ recvLoop bs inp n = .error j := by
  match inp with
  | l0 :: l1 :: l2 :: seq :: r =>
    have : recvLoop bs (l0 :: l1 :: l2 :: seq :: r) m = recvLoop bs (l0 :: l1 :: l2 :: seq :: r) n := by
      rw [recvLoop, recvLoop]
    rw [this]
    cases recvLoop bs (l0 :: l1 :: l2 :: seq :: r) n with
    | ok v => exact Or.inl ⟨v, rfl, rfl⟩
    | error i => exact Or.inr ⟨i, i, rfl, rfl⟩
  | [] => right; exact ⟨m, n, by rw [recvLoop]; simp, by rw [recvLoop]; simp⟩
  | [_] => right; exact ⟨m, n, by rw [recvLoop]; simp, by rw [recvLoop]; simp⟩
  | [_, _] => right; exact ⟨m, n, by rw [recvLoop]; simp, by rw [recvLoop]; simp⟩
  | [_, _, _] => right; exact ⟨m, n, by rw [recvLoop]; simp, by rw [recvLoop]; simp⟩

/-- after a message was received, the packet numbers are equal -/
theorem Rel.recvMsg : Rel false true recvMsg := by
  intro K c d hp
  unfold Mybin.recvMsg
  rw [← hp.inp]
  rcases recvLoop_any_number [] c.inp c.pktNr d.pktNr with ⟨⟨msg, rest, nr⟩, h1, h2⟩ | ⟨i, j, h1, h2⟩
  · rw [h1, h2]
    exact ⟨rfl, rfl, hp.out, hp.left, hp.right, fun _ => rfl⟩
  · rw [h1, h2]
    exact ⟨rfl, rfl, hp.out, hp.left, hp.right, fun h => absurd h (by decide)⟩

theorem Twin.recvMsg : Twin recvMsg := Rel.recvMsg.far

theorem Rel.sendPacket (p : Bytes) : Rel true true (sendPacket p) := by
  intro K c d hp
  unfold Mybin.sendPacket
  dsimp only
  rw [← hp.nr rfl, ← hp.out]
  by_cases h : c.pktNr + 1 < 256
  · rw [if_pos h, if_pos h]
    exact ⟨rfl, hp.inp, rfl, hp.left, hp.right, fun _ => rfl⟩
  · rw [if_neg h, if_neg h]
    trivial

theorem Rel.sendLoop (bs : Bytes) : Rel true true (sendLoop bs) := by
  induction hn : bs.length using Nat.strong_induction_on generalizing bs with
  | _ n ih =>
    by_cases hge : bs.length ≥ maxPacket
    · have hl : Mybin.sendLoop bs = (Mybin.sendPacket (bs.take maxPacket) >>= fun _ => Mybin.sendLoop (bs.drop maxPacket)) := by
        rw [Mybin.sendLoop, dif_pos hge]
      rw [hl]
      exact (Rel.sendPacket _).bind fun _ => ih _ (by rw [List.length_drop]; unfold maxPacket at hge ⊢; omega) _ rfl
    · have hl : Mybin.sendLoop bs = Mybin.sendPacket bs := by rw [Mybin.sendLoop, dif_neg hge]
      rw [hl]
      exact Rel.sendPacket _

/-- a command starts with packet number 0, whatever the number was -/
theorem Twin.sendMsg (bs : Bytes) : Twin (sendMsg bs true) := by
  intro K c d hp
  exact (Rel.sendLoop bs K { c with pktNr := 0 } { d with pktNr := 0 } ⟨hp.inp, hp.out, hp.left, hp.right, fun _ => rfl⟩).far

/-- an answer that is part of an exchange goes on with the number of the message received -/
theorem Rel.sendMsg (bs : Bytes) : Rel true false (sendMsg bs false) := (Rel.sendLoop bs).far

/-- a loop: one round, then either the end or another round with fewer bytes -/
theorem Twin.loop {σ α β : Type} (loop : σ → M β) (round : σ → M α) (next : σ → α → σ ⊕ M β)
    (he : ∀ s c, loop s c = (round s c).bind fun a c' =>
      match next s a with
      | .inl s' => if c'.inp.length < c.inp.length then loop s' c' else .hang
      | .inr m => m c')
    (hr : ∀ s, Twin (round s)) (hn : ∀ s a m, next s a = .inr m → Twin m) (s : σ) : Twin (loop s) := by
  intro K c d hp
  induction hl : c.inp.length using Nat.strong_induction_on generalizing c d s with
  | _ n ih =>
    rw [he s c, he s d]
    refine (hr s K c d hp).bind fun a c1 d1 _ _ h1 => ?_
    cases hx : next s a with
    | inl s' =>
      dsimp only
      rw [← h1.inp, ← hp.inp]
      by_cases hs : c1.inp.length < c.inp.length
      · rw [if_pos hs, if_pos hs]
        exact ih _ (by omega) s' c1 d1 h1 rfl
      · rw [if_neg hs, if_neg hs]
        trivial
    | inr m => exact hn s a m hx K c1 d1 h1

/-! ### the calls -/

theorem Twin.failWithErrPacket {α : Type} (msg : Bytes) : Twin (failWithErrPacket msg : M α) := by
  unfold Mybin.failWithErrPacket
  exact Twin.caps (by caps_like) fun caps => (Twin.parse _ _).bind fun p => Twin.fail _

theorem Twin.recvColDefs (n : Nat) : Twin (recvColDefs n) := by
  induction n with
  | zero => exact Twin.pure _
  | succ n ih =>
    unfold Mybin.recvColDefs
    exact Twin.recvMsg.bind fun _ => (Twin.parse _ _).bind fun _ => ih.bind fun _ => Twin.pure _

theorem Twin.recvDefsEof : Twin recvDefsEof := by
  unfold Mybin.recvDefsEof
  refine Twin.caps (by caps_like) fun caps => ?_
  split
  · exact Twin.recvMsg.bind fun _ => (Twin.parse _ _).bind fun _ => Twin.pure _
  · exact Twin.pure _

theorem Twin.recvDefs (n : Nat) : Twin (recvDefs n) := by
  unfold Mybin.recvDefs
  split
  · exact Twin.pure _
  · exact (Twin.recvColDefs n).bind fun _ => Twin.recvDefsEof.bind fun _ => Twin.pure _

theorem Twin.parseColCnt (msg : Bytes) : Twin (parseColCnt msg) := by
  unfold Mybin.parseColCnt
  split
  · exact Twin.mpanic
  · refine Twin.caps (by caps_like) fun caps => ?_
    split
    · exact Twin.failWithErrPacket _
    · split
      · exact (Twin.parse _ _).bind fun _ => Twin.pure _
      · exact Twin.readColCnt _

theorem Twin.newResultSet (id : Option Nat) : Twin (newResultSet id) := by
  unfold Mybin.newResultSet
  refine Twin.recvMsg.bind fun msg => (Twin.parseColCnt _).bind fun n => ?_
  split
  · exact Twin.pure _
  · exact (Twin.recvColDefs n).bind fun _ => Twin.recvDefsEof.bind fun _ => Twin.pure _

theorem Twin.nextRow {ρ : Type} (read : P ρ) (rs : ResultSet) : Twin (rs.nextRow read) := by
  unfold ResultSet.nextRow
  split
  · exact Twin.pure _
  · refine Twin.recvMsg.bind fun msg => Twin.caps (by caps_like) fun caps => ?_
    split
    · exact Twin.fail _
    · split
      · exact (Twin.readTerminator _ _).bind fun _ => Twin.pure _
      · exact (Twin.parse _ _).bind fun _ => Twin.pure _

theorem Twin.foldRows {ρ σ : Type} (read : P ρ) (f : σ → ρ → σ) (s : σ) (rs : ResultSet) : Twin (rs.foldRows read f s) := by
  refine Twin.loop (σ := σ × ResultSet) (fun x => x.2.foldRows read f x.1) (fun x => x.2.nextRow read)
    (fun x a => match a with | (some r, rs') => .inl (f x.1 r, rs') | (none, _) => .inr (Pure.pure x.1)) ?_
    (fun x => Twin.nextRow read x.2) ?_ (s, rs)
  · rintro ⟨s, rs⟩ c
    show ResultSet.foldRows read f s rs c = _
    rw [ResultSet.foldRows]
    cases rs.nextRow read c with
    | ok a c' => obtain ⟨_ | r, rs'⟩ := a <;> rfl
    | err e c' => rfl
    | panic => rfl
    | hang => rfl
  · rintro ⟨s, rs⟩ ⟨_ | r, rs'⟩ m h
    · cases h; exact Twin.pure _
    · cases h

theorem Twin.filesLoop (rs : ResultSet) (fs : List Cmd.BinlogFile) : Twin (Cmd.filesLoop rs fs) := by
  refine Twin.loop (σ := List Cmd.BinlogFile × ResultSet) (fun x => Cmd.filesLoop x.2 x.1)
    (fun x => x.2.nextRow (mapRow x.2.textRow Cmd.binlogFileMapper))
    (fun x a => match a with
      | (some (.ok f), rs') => .inl (x.1 ++ [f], rs')
      | (some (.err e), _) => .inr (M.fail e)
      | (some .panic, _) => .inr M.panic
      | (none, _) => .inr (Pure.pure x.1)) ?_
    (fun x => Twin.nextRow _ x.2) ?_ (fs, rs)
  · rintro ⟨fs, rs⟩ c
    show Cmd.filesLoop rs fs c = _
    rw [Cmd.filesLoop]
    cases rs.nextRow (mapRow rs.textRow Cmd.binlogFileMapper) c with
    | ok a c' => obtain ⟨_ | (r | e | _), rs'⟩ := a <;> rfl
    | err e c' => rfl
    | panic => rfl
    | hang => rfl
  · rintro ⟨fs, rs⟩ ⟨_ | (r | e | _), rs'⟩ m h
    · cases h; exact Twin.pure _
    · cases h
    · cases h; exact Twin.fail _
    · cases h; exact Twin.mpanic

theorem Twin.execLoop : Twin execLoop := by
  refine Twin.loop (σ := Unit) (fun _ => Mybin.execLoop) (fun _ => Mybin.recvMsg)
    (fun _ a => match a with
      | [] => .inr M.panic
      | b :: t =>
        if b = 0xff then .inr (Mybin.failWithErrPacket (b :: t))
        else if b = 0x00 then
          .inr (Mybin.getCaps >>= fun caps => M.parse (b :: t) (OkPacket.readFrom caps) >>= fun _ => Pure.pure ())
        else .inl ()) ?_ (fun _ => Twin.recvMsg) ?_ ()
  · rintro _ c
    rw [Mybin.execLoop]
    cases Mybin.recvMsg c with
    | ok a c' =>
      cases a with
      | nil => rfl
      | cons b t =>
        dsimp only
        show _ = (MR.ok (b :: t) c').bind _
        unfold MR.bind
        by_cases h1 : b = 0xff
        · simp only [h1, if_true]
        · by_cases h2 : b = 0x00
          · simp only [if_neg h1, if_pos h2]
            show _ = ((M.parse (b :: t) (OkPacket.readFrom c'.caps) c').bind fun _ => Pure.pure ())
            cases M.parse (b :: t) (OkPacket.readFrom c'.caps) c' <;> rfl
          · simp only [h1, h2, if_false]
    | err e c' => rfl
    | panic => rfl
    | hang => rfl
  · rintro _ a m h
    cases a with
    | nil => cases h; exact Twin.mpanic
    | cons b t =>
      dsimp only at h
      split at h
      · cases h; exact Twin.failWithErrPacket _
      · split at h
        · cases h
          exact Twin.caps (by caps_like) fun caps => (Twin.parse _ _).bind fun _ => Twin.pure _
        · cases h

theorem Twin.fieldListLoop (defs : List ColumnDefinition) : Twin (Cmd.fieldListLoop defs) := by
  refine Twin.loop Cmd.fieldListLoop (fun _ => Mybin.recvMsg >>= fun msg => Mybin.getCaps >>= fun caps =>
      M.parse msg (ComFieldListResponse.readFrom caps true))
    (fun defs a => match a with
      | .err p => .inr (M.fail (sqlError p))
      | .eof _ => .inr (Pure.pure defs)
      | .colDef d => .inl (defs ++ [d])) ?_
    (fun _ => Twin.recvMsg.bind fun _ => Twin.caps (by caps_like) fun _ => Twin.parse _ _) ?_ defs
  · rintro defs c
    rw [Cmd.fieldListLoop]
    show _ = ((Mybin.recvMsg c).bind _).bind _
    cases Mybin.recvMsg c with
    | ok msg c1 =>
      dsimp only
      show _ = (M.parse msg (ComFieldListResponse.readFrom c1.caps true) c1).bind _
      cases M.parse msg (ComFieldListResponse.readFrom c1.caps true) c1 with
      | ok a c2 => cases a <;> rfl
      | err e c' => rfl
      | panic => rfl
      | hang => rfl
    | err e c' => rfl
    | panic => rfl
    | hang => rfl
  · rintro defs a m h
    cases a with
    | err p => cases h; exact Twin.fail _
    | eof p => cases h; exact Twin.pure _
    | colDef d => cases h

theorem Twin.recvAndParse (s : BinlogStream) : Twin s.recvAndParse := by
  have : s.recvAndParse = (Mybin.recvMsg >>= fun msg => match msg with
      | [] => M.fail (.incomplete none)
      | b :: t =>
        if s.nonBlock && b == 0xfe then Pure.pure .theEnd
        else if b ≠ 0x00 then M.fail .packet
        else M.parse t (s.pv4.parseEvent s.validateChecksum) >>= fun o => match o with
          | some e => Pure.pure (.single e)
          | none => Pure.pure .unsupported) := by
    funext c
    unfold BinlogStream.recvAndParse
    show _ = (Mybin.recvMsg c).bind _
    cases Mybin.recvMsg c with
    | ok msg c' =>
      cases msg with
      | nil => rfl
      | cons b t =>
        show _ = (if s.nonBlock && b == 0xfe then _ else _ : M BinlogStreamEvent) c'
        by_cases h1 : (s.nonBlock && b == 0xfe) = true
        · simp only [if_pos h1]; rfl
        · simp only [if_neg h1]
          by_cases h2 : b ≠ 0x00
          · simp only [if_pos h2]; rfl
          · simp only [if_neg h2]
            show _ = (M.parse t (s.pv4.parseEvent s.validateChecksum) c').bind _
            cases M.parse t (s.pv4.parseEvent s.validateChecksum) c' with
            | ok o c'' => cases o <;> rfl
            | err e c' => rfl
            | panic => rfl
            | hang => rfl
    | err e c' => rfl
    | panic => rfl
    | hang => rfl
  rw [this]
  refine Twin.recvMsg.bind fun msg => ?_
  cases msg with
  | nil => exact Twin.fail _
  | cons b t =>
    dsimp only
    split
    · exact Twin.pure _
    · split
      · exact Twin.fail _
      · refine (Twin.parse _ _).bind fun o => ?_
        cases o <;> exact Twin.pure _

theorem Twin.nextEvent (s : BinlogStream) : Twin s.nextEvent := by
  have hl : Twin s.nextLoop := by
    refine Twin.loop BinlogStream.nextLoop (fun s => s.recvAndParse)
      (fun s a => match a with
        | .single e => .inr (Pure.pure (some e, s))
        | .unsupported => .inl s
        | .theEnd => .inr (Pure.pure (none, s))) ?_ Twin.recvAndParse ?_ s
    · rintro s c
      rw [BinlogStream.nextLoop]
      cases s.recvAndParse c with
      | ok a c' => cases a <;> rfl
      | err e c' => rfl
      | panic => rfl
      | hang => rfl
    · rintro s a m h
      cases a <;> cases h <;> exact Twin.pure _
  have : s.nextEvent = if s.completed then Pure.pure (none, s) else s.nextLoop := by
    funext c
    unfold BinlogStream.nextEvent
    cases s.completed <;> rfl
  rw [this]
  cases s.completed
  · exact hl
  · exact Twin.pure _

theorem Twin.changeUserLoop (H : Hashes) (password : Bytes) (plugin : Option AuthPlugin) :
    Twin (changeUserLoop H password plugin) := by
  refine Twin.loop (Mybin.changeUserLoop H password)
    (fun plugin => Mybin.recvMsg >>= fun msg => Mybin.getCaps >>= fun caps =>
      M.parse msg (ComChangeUserResponse.readFrom caps) >>= fun a => match a with
      | .ok _ => (Pure.pure none : M (Option AuthPlugin))
      | .err p => M.fail (sqlError p)
      | .switch s => M.ofExcept (newAuthPlugin s.pluginName) >>= fun pl =>
          M.ofExcept (genInitAuthResp H pl password s.authPluginData) >>= fun x =>
          Mybin.sendMsg x.1 false >>= fun _ => Pure.pure (some x.2)
      | .moreData m => match plugin with
        | none => M.panic
        | some pl => M.ofExcept (pl.next H m.pluginData) >>= fun x =>
          Mybin.sendMsg x.1 false >>= fun _ => Pure.pure (some x.2))
    (fun _ a => match a with
      | some pl => .inl (some pl)
      | none => .inr (Pure.pure ())) ?_ ?_ ?_ plugin
  · rintro plugin c
    rw [Mybin.changeUserLoop]
    show _ = ((Mybin.recvMsg c).bind _).bind _
    cases Mybin.recvMsg c with
    | ok msg c1 =>
      dsimp only
      show _ = ((M.parse msg (ComChangeUserResponse.readFrom c1.caps) c1).bind _).bind _
      cases M.parse msg (ComChangeUserResponse.readFrom c1.caps) c1 with
      | ok a c2 =>
        cases a with
        | moreData m =>
          cases plugin with
          | none => rfl
          | some pl =>
            dsimp only
            show _ = (((M.ofExcept (pl.next H m.pluginData) c2).bind _).bind _)
            unfold M.ofExcept
            cases pl.next H m.pluginData with
            | error e => rfl
            | ok x =>
              obtain ⟨resp, pl⟩ := x
              cases hs : Mybin.sendMsg resp false c2 <;> simp only [hs, MR.bind, Bind.bind] <;> rfl
        | ok p => rfl
        | err p => rfl
        | switch s =>
          dsimp only
          show _ = (((M.ofExcept (newAuthPlugin s.pluginName) c2).bind _).bind _)
          unfold M.ofExcept
          cases newAuthPlugin s.pluginName with
          | error e => rfl
          | ok pl =>
            dsimp only
            show _ = (((M.ofExcept (genInitAuthResp H pl password s.authPluginData) c2).bind _).bind _)
            unfold M.ofExcept
            cases genInitAuthResp H pl password s.authPluginData with
            | error e => rfl
            | ok x =>
              obtain ⟨resp, pl⟩ := x
              cases hs : Mybin.sendMsg resp false c2 <;> simp only [hs, MR.bind, Bind.bind] <;> rfl
      | err e c' => rfl
      | panic => rfl
      | hang => rfl
    | err e c' => rfl
    | panic => rfl
    | hang => rfl
  · intro plugin
    refine Rel.recvMsg.bind fun msg => Rel.caps (by caps_like) fun _ => (Rel.parse _ _).bind fun a => ?_
    cases a with
    | ok p => exact (Rel.pure _).far
    | err p => exact Rel.fail _
    | switch p =>
      exact (Rel.ofExcept _).bind fun _ => (Rel.ofExcept _).bind fun _ => (Rel.sendMsg _).bind fun _ => Rel.pure _
    | moreData m =>
      cases plugin with
      | none => exact Rel.mpanic
      | some pl => exact (Rel.ofExcept _).bind fun _ => (Rel.sendMsg _).bind fun _ => Rel.pure _
  · rintro plugin a m h
    cases a <;> cases h
    exact Twin.pure _

theorem Twin.changeUser (H : Hashes) (user password db : Bytes) (attrs : List ConnectAttr) :
    Twin (changeUser H user password db attrs) := by
  unfold Mybin.changeUser
  exact Twin.caps (by caps_like) fun _ => (Twin.sendMsg _).bind fun _ => Twin.changeUserLoop _ _ _

theorem Twin.okCommand (bs : Bytes) : Twin (okCommand bs) := by
  unfold Mybin.okCommand
  refine (Twin.sendMsg _).bind fun _ => Twin.recvMsg.bind fun _ => Twin.caps (by caps_like) fun _ => (Twin.parse _ _).bind fun r => ?_
  cases r
  · exact Twin.pure _
  · exact Twin.fail _

theorem Twin.fieldList (t w : Bytes) : Twin (Cmd.fieldList t w) := by
  unfold Cmd.fieldList
  exact (Twin.sendMsg _).bind fun _ => Twin.fieldListLoop _

theorem Twin.statistics : Twin Cmd.statistics := by
  unfold Cmd.statistics
  refine (Twin.sendMsg _).bind fun _ => Twin.recvMsg.bind fun _ => ?_
  split
  · exact Twin.pure _
  · exact Twin.fail _

theorem Twin.debug : Twin Cmd.debug := by
  unfold Cmd.debug
  refine (Twin.sendMsg _).bind fun _ => Twin.recvMsg.bind fun _ => Twin.caps (by caps_like) fun _ => (Twin.parse _ _).bind fun r => ?_
  cases r
  · exact Twin.pure _
  · exact Twin.fail _

theorem Twin.ping : Twin Cmd.ping := by
  unfold Cmd.ping
  exact (Twin.sendMsg _).bind fun _ => Twin.recvMsg.bind fun _ => Twin.caps (by caps_like) fun _ => (Twin.parse _ _).bind fun r =>
    Twin.pure _

theorem Twin.setMultiStmts (multi : Bool) : Twin (Cmd.setMultiStmts multi) := by
  unfold Cmd.setMultiStmts
  refine (Twin.sendMsg _).bind fun _ => Twin.recvMsg.bind fun _ => Twin.caps (by caps_like) fun _ => (Twin.parse _ _).bind fun r => ?_
  cases r
  · dsimp only
    split
    · exact Twin.insertMulti
    · exact Twin.removeMulti
  · exact Twin.fail _

theorem Twin.query (q : Bytes) : Twin (Query.qry q) := by
  unfold Query.qry
  exact (Twin.sendMsg _).bind fun _ => Twin.newResultSet _

theorem Twin.queryExec (q : Bytes) : Twin (Query.exec q) := by
  unfold Query.exec
  exact (Twin.sendMsg _).bind fun _ => Twin.execLoop

theorem Twin.prepare (q : Bytes) : Twin (Stmt.prepare q) := by
  unfold Stmt.prepare
  refine (Twin.sendMsg _).bind fun _ => Twin.recvMsg.bind fun msg => ?_
  cases msg with
  | nil => exact Twin.fail _
  | cons b t =>
    refine Twin.bind ?_ fun _ => (Twin.recvDefs _).bind fun _ => (Twin.recvDefs _).bind fun _ => Twin.pure _
    split
    · exact Twin.failWithErrPacket _
    · exact Twin.parse _ _

theorem Twin.send (s : PreparedStmt) (ps : List StmtColumnValue) : Twin (s.send ps) := by
  unfold PreparedStmt.send
  split
  · exact Twin.mpanic
  · split
    · exact Twin.mpanic
    · exact Twin.sendMsg _

theorem Twin.exec (s : PreparedStmt) (ps : List StmtColumnValue) : Twin (s.exec ps) := by
  unfold PreparedStmt.exec
  exact (Twin.send s ps).bind fun _ => Twin.execLoop

theorem Twin.stmtQry (s : PreparedStmt) (ps : List StmtColumnValue) : Twin (s.qry ps) := by
  unfold PreparedStmt.qry
  exact (Twin.send s ps).bind fun _ => Twin.newResultSet _

theorem Twin.stmtClose (s : PreparedStmt) : Twin s.close := Twin.sendMsg _

theorem Twin.rsClose (rs : ResultSet) : Twin rs.close := by
  unfold ResultSet.close
  split
  · exact (Twin.sendMsg _).bind fun _ => Twin.pure _
  · exact Twin.pure _

theorem Twin.execClose (s : PreparedStmt) (ps : List StmtColumnValue) : Twin (s.execClose ps) := by
  intro K c d hp
  have hx := Twin.exec s ps K c d hp
  unfold PreparedStmt.execClose
  cases h : s.exec ps c <;> cases h' : s.exec ps d <;> rw [h, h'] at hx <;> first | exact hx.elim | skip
  · simp only [close_sends]
    exact ⟨rfl, hx.2.inp, by show _ ++ _ = _ ++ _; rw [hx.2.out], hx.2.left, hx.2.right, fun h => absurd h (by decide)⟩
  · simp only [close_sends]
    exact ⟨hx.1, hx.2.inp, by show _ ++ _ = _ ++ _; rw [hx.2.out], hx.2.left, hx.2.right, fun h => absurd h (by decide)⟩
  · trivial
  · trivial

theorem Twin.firstMapped {α : Type} (mapper : List (Option Bytes) → Res α) (rs : ResultSet) :
    Twin (Cmd.firstMapped mapper rs) := by
  unfold Cmd.firstMapped ResultSet.firstOrNone
  refine (Twin.foldRows _ _ _ _).bind fun r => ?_
  cases r with
  | none => exact Twin.pure _
  | some v => exact (Twin.ofRes _).bind fun _ => Twin.pure _

theorem Twin.getVar {α : Type} (conv : Option Bytes → Res α) (name : Bytes) (global : Bool) :
    Twin (Cmd.getVar conv name global) := by
  unfold Cmd.getVar
  exact (Twin.query _).bind fun _ => Twin.firstMapped _ _

theorem Twin.getUserVar {α : Type} (conv : Option Bytes → Res α) (name : Bytes) : Twin (Cmd.getUserVar conv name) := by
  unfold Cmd.getUserVar
  exact (Twin.query _).bind fun _ => Twin.firstMapped _ _

theorem Twin.setVar (name : Bytes) (v : StmtColumnValue) (global : Bool) : Twin (Cmd.setVar name v global) := by
  unfold Cmd.setVar
  exact (Twin.prepare _).bind fun _ => Twin.execClose _ _

theorem Twin.setUserVar (name : Bytes) (v : StmtColumnValue) : Twin (Cmd.setUserVar name v) := by
  unfold Cmd.setUserVar
  exact (Twin.prepare _).bind fun _ => Twin.execClose _ _

theorem Twin.binlogFiles : Twin Cmd.binlogFiles := by
  unfold Cmd.binlogFiles
  exact (Twin.query _).bind fun _ => Twin.filesLoop _ _

theorem Twin.first {ρ : Type} (read : P ρ) (rs : ResultSet) : Twin (rs.first read) := by
  unfold ResultSet.first ResultSet.firstOrNone
  refine (Twin.foldRows _ _ _ _).bind fun r => ?_
  cases r with
  | none => exact Twin.fail _
  | some v => exact Twin.pure _

theorem Twin.setup (r : BinlogRequest) (uuid : Bytes) (random : Nat) : Twin (r.setup uuid random) := by
  unfold BinlogRequest.setup
  exact (Twin.getVar _ _ _).bind fun _ => (Twin.someOr _ _).bind fun _ => (Twin.setUserVar _ _).bind fun _ =>
    (Twin.getVar _ _ _).bind fun _ => (Twin.someOr _ _).bind fun _ => (Twin.setUserVar _ _).bind fun _ =>
    (Twin.getVar _ _ _).bind fun _ => (Twin.someOr _ _).bind fun _ =>
    (Twin.getVar _ _ _).bind fun _ => (Twin.someOr _ _).bind fun _ => (Twin.setUserVar _ _).bind fun _ =>
    (Twin.okCommand _).bind fun _ => Twin.pure _

theorem Twin.firstEvents (r : BinlogRequest) (checksum : Bool) : Twin (r.firstEvents checksum) := by
  unfold BinlogRequest.firstEvents
  refine Twin.recvMsg.bind fun msg => ?_
  cases msg with
  | nil => exact Twin.fail _
  | cons b t =>
    dsimp only
    split
    · exact Twin.failWithErrPacket _
    · split
      · exact Twin.caps (by caps_like) fun _ => (Twin.parse _ _).bind fun _ => Twin.pure _
      · split
        · exact (Twin.parse _ _).bind fun _ => Twin.recvMsg.bind fun _ => (Twin.parse _ _).bind fun _ => Twin.pure _
        · exact Twin.fail _

theorem Twin.requestStream (r : BinlogRequest) (uuid : Bytes) (random : Nat) : Twin (r.requestStream uuid random) := by
  unfold BinlogRequest.requestStream
  exact (Twin.setup _ _ _).bind fun _ => (Twin.sendMsg _).bind fun _ => Twin.firstEvents _ _

theorem Twin.processInfo : Twin Cmd.processInfo := by
  unfold Cmd.processInfo
  exact (Twin.sendMsg _).bind fun _ => Twin.newResultSet _


theorem Twin.ofCall {α : Type} {run : M α} (h : Spec.Call run) : Twin run := by
  cases h with
  | changeUser H u p d a => exact Twin.changeUser H u p d a
  | quit => exact Twin.sendMsg _
  | initDb db => exact Twin.okCommand _
  | createDb db => exact Twin.okCommand _
  | dropDb db => exact Twin.okCommand _
  | refresh f => exact Twin.okCommand _
  | processKill id => exact Twin.okCommand _
  | resetConnection => exact Twin.okCommand _
  | registerSlave id => exact Twin.okCommand _
  | fieldList t w => exact Twin.fieldList t w
  | statistics => exact Twin.statistics
  | debug => exact Twin.debug
  | ping => exact Twin.ping
  | setMultiStmts m => exact Twin.setMultiStmts m
  | processInfo => exact Twin.processInfo
  | binlogFiles => exact Twin.binlogFiles
  | getVar conv n g => exact Twin.getVar conv n g
  | setVar n v g => exact Twin.setVar n v g
  | getUserVar conv n => exact Twin.getUserVar conv n
  | setUserVar n v => exact Twin.setUserVar n v
  | queryExec q => exact Twin.queryExec q
  | query q => exact Twin.query q
  | nextRow rs read => exact Twin.nextRow read rs
  | all rs read => exact Twin.foldRows _ _ _ _
  | first rs read => exact Twin.first read rs
  | firstOrNone rs read => exact Twin.foldRows _ _ _ _
  | count rs read => exact Twin.foldRows _ _ _ _
  | closeResult rs => exact Twin.rsClose rs
  | prepare q => exact Twin.prepare q
  | exec s ps => exact Twin.exec s ps
  | execClose s ps => exact Twin.execClose s ps
  | qry s ps => exact Twin.stmtQry s ps
  | close s => exact Twin.stmtClose s
  | requestStream r u n => exact Twin.requestStream r u n
  | nextEvent s => exact Twin.nextEvent s

/-! ### the theorem -/

theorem onCopies_onOne {α : Type} (app : Spec.Holder α) (K : Nat) (c : Conn) (own : Nat → Spec.Copy) (hc : CapsLike c.caps K)
    (ho : ∀ n, CapsLike (own n).caps K) : app.onCopies own c.inp c.out = app.onOne c := by
  induction app generalizing c own with
  | done a => rfl
  | copy src dst next ih =>
    refine ih c _ hc fun n => ?_
    split
    · exact ho src
    · exact ho n
  | call n run ok next ih =>
    have h := Twin.ofCall ok K c ((own n).conn c.inp c.out)
      ⟨rfl, rfl, hc, ho n, fun h => absurd h (by decide)⟩
    have hown : ∀ d : Conn, CapsLike d.caps K → ∀ m, CapsLike (if m = n then Spec.Copy.of d else own m).caps K := by
      intro d hd m
      split
      · exact hd
      · exact ho m
    unfold Spec.Holder.onCopies Spec.Holder.onOne
    cases hr : run c with
    | ok v c' =>
      cases hr' : run ((own n).conn c.inp c.out) with
      | ok w d' =>
        rw [hr, hr'] at h
        obtain ⟨rfl, h⟩ := h
        dsimp only
        rw [← h.inp, ← h.out]
        exact ih (.ok v) c' _ h.left (hown d' h.right)
      | err e d' => rw [hr, hr'] at h; exact h.elim
      | panic => rw [hr, hr'] at h; exact h.elim
      | hang => rw [hr, hr'] at h; exact h.elim
    | err e c' =>
      cases hr' : run ((own n).conn c.inp c.out) with
      | ok w d' => rw [hr, hr'] at h; exact h.elim
      | err e' d' =>
        rw [hr, hr'] at h
        obtain ⟨rfl, h⟩ := h
        dsimp only
        rw [← h.inp, ← h.out]
        exact ih (.error e) c' _ h.left (hown d' h.right)
      | panic => rw [hr, hr'] at h; exact h.elim
      | hang => rw [hr, hr'] at h; exact h.elim
    | panic => cases hr' : run ((own n).conn c.inp c.out) <;> rw [hr, hr'] at h <;> first | rfl | exact h.elim
    | hang => cases hr' : run ((own n).conn c.inp c.out) <;> rw [hr, hr'] at h <;> first | rfl | exact h.elim

/-- C121: an application whose copies have the flags the connection has after the login, whatever their packet numbers and
status, gets from its calls, made one after another, what it would get from one connection: the same value, the same bytes
unread, the same bytes sent, or the same panic. `set_multi_stmts` may be called on any of the copies. -/
theorem C121_copies_partial {α : Type} (app : Spec.Holder α) (c : Conn) (own : Nat → Spec.Copy)
    (ho : ∀ n, (own n).caps = c.caps) : app.onCopies own c.inp c.out = app.onOne c :=
  onCopies_onOne app c.caps c own (.refl _) fun n => by rw [ho n]; exact .refl _

/-- two calls: the first on copy 1, the second on copy 2 made of copy 0 -/
def Spec.twoCalls : Spec.Holder (Except Err Bytes × Except Err Unit) :=
  .copy 0 1 (.call 1 Cmd.statistics .statistics fun s => .copy 0 2 (.call 2 Cmd.ping .ping fun p => .done (s, p)))

/-- the flags after a login, among them PROTOCOL_41 -/
def Spec.loggedInCaps : Nat := Cap.PROTOCOL_41 ||| Cap.SECURE_CONNECTION ||| Cap.PLUGIN_AUTH

/-- the answer to `statistics`, then an OK packet -/
def Spec.twoAnswers : Bytes := [2, 0, 0, 1, 0x55, 0x70] ++ [7, 0, 0, 1, 0, 0, 0, 2, 0, 0, 0]

example : Spec.twoCalls.onCopies (fun n => ⟨n + 7, Spec.loggedInCaps, n⟩) Spec.twoAnswers [] =
    .value (.ok [0x55, 0x70], .ok ()) [] ([1, 0, 0, 0, 9] ++ [1, 0, 0, 0, 14]) := by
  rw [C121_copies_partial _ { inp := Spec.twoAnswers, caps := Spec.loggedInCaps } _ (fun _ => rfl)]
  decide +kernel

/-- C121 is false of a copy made before the login: it has no flags, and reads the server's answers as those of an old server.
The same call on it, with the same answer, gives another error than on the connection that logged in. -/
theorem C121_before_login_false : ∃ (app : Spec.Holder (Except Err Unit)) (c : Conn) (own : Nat → Spec.Copy),
    (own 0).caps = c.caps ∧ own 1 = Spec.Copy.of { inp := [] } ∧ app.onCopies own c.inp c.out ≠ app.onOne c := by
  refine ⟨.call 1 (Cmd.initDb [0x61]) (.initDb _) .done,
    { inp := [10, 0, 0, 1, 0xff, 0x19, 0x04, 0x23, 0x34, 0x32, 0x30, 0x30, 0x30, 0x6e], caps := Spec.loggedInCaps },
    fun n => if n = 0 then ⟨2, Spec.loggedInCaps, 2⟩ else .of { inp := [] }, rfl, rfl, ?_⟩
  decide +kernel

open AsyncConn in
/-- C121 is false of copies used at the same time, however the calls are made: the server's two messages `00 00 05 41` and
`62` are received as two other messages, when the first copy has read three bytes of the first when the second copy begins
to read. -/
theorem C121_at_once_false :
    let stream : Bytes := [4, 0, 0, 1, 0x00, 0x00, 0x05, 0x41] ++ [1, 0, 0, 1, 0x62]
    let fresh : Recv := ⟨[], [], 0⟩
    let plenty : List Ans := List.replicate 10 (.moved 100)
    recvMsg { inp := stream } = .ok [0x00, 0x00, 0x05, 0x41] { inp := [1, 0, 0, 1, 0x62], pktNr := 2 } ∧
    recvMsg { inp := [1, 0, 0, 1, 0x62] } = .ok [0x62] { inp := [], pktNr := 2 } ∧
    ∃ first first' second stream1 stream2,
      pollRecv fresh stream [.moved 2] = (.pending, first, stream1, []) ∧
      (∃ s, pollRecv fresh stream1 plenty = (.ready [0x41], second, stream2, s)) ∧
      (∃ s, pollRecv first stream2 plenty = (.ready [0x00, 0x00, 0x01, 0x62], first', [], s)) := by
  refine ⟨by decide +kernel, by decide +kernel, ⟨[], [4, 0, 0], 0⟩, ⟨[], [], 2⟩, ⟨[], [], 6⟩,
    [1, 0, 0, 5, 0x41, 1, 0, 0, 1, 0x62], [1, 0, 0, 1, 0x62], by decide +kernel,
    ⟨List.replicate 7 (.moved 100), ?_⟩, ⟨List.replicate 8 (.moved 100), ?_⟩⟩
  · decide +kernel
  · decide +kernel

end Mybin
