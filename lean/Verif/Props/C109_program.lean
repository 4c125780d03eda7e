/-
C109 for the client and the programs as a whole.
-/
import Verif.Model.ReleaseProgram
import Verif.Props.C109
import Verif.Props.C87

namespace Mybin

/-- the same of operations on a connection: the same result and the same connection afterwards -/
def Spec.SameCallUnlessPanic {α : Type} (checked unchecked : M α) : Prop :=
  ∀ c, checked c ≠ .panic → unchecked c = checked c

namespace C109

open Spec

theorem mRefl {α : Type} (x : M α) : SameCallUnlessPanic x x := fun _ _ => rfl

theorem mBind {α β : Type} {x x' : M α} {f f' : α → M β} (hx : SameCallUnlessPanic x x')
    (hf : ∀ a, SameCallUnlessPanic (f a) (f' a)) : SameCallUnlessPanic (x >>= f) (x' >>= f') := by
  intro c h
  rw [M.bind_apply] at h ⊢
  rw [M.bind_apply]
  cases e : x c with
  | ok a c' =>
    rw [e] at h
    rw [hx c (by rw [e]; simp), e]
    exact hf a c' h
  | err er r => rw [hx c (by rw [e]; simp), e]; rfl
  | panic => rw [e] at h; exact absurd rfl h
  | hang => rw [hx c (by rw [e]; simp), e]; rfl

theorem mThen {α β : Type} (x : M α) {f f' : α → M β}
    (hf : ∀ a, SameCallUnlessPanic (f a) (f' a)) : SameCallUnlessPanic (x >>= f) (x >>= f') := mBind (mRefl x) hf

theorem mIte {α : Type} {p : Prop} [Decidable p] {x x' y y' : M α} (hx : SameCallUnlessPanic x x')
    (hy : SameCallUnlessPanic y y') : SameCallUnlessPanic (if p then x else y) (if p then x' else y') := by
  by_cases h : p
  · rw [if_pos h, if_pos h]; exact hx
  · rw [if_neg h, if_neg h]; exact hy

theorem mParse {α : Type} (msg : Bytes) {p p' : P α} (h : SameUnlessPanic p p') :
    SameCallUnlessPanic (M.parse msg p) (M.parse msg p') := by
  intro c hc
  unfold M.parse at hc ⊢
  cases e : p msg with
  | panic => rw [e] at hc; exact absurd rfl hc
  | ok a r => rw [h msg (by rw [e]; simp), e]
  | err a r => rw [h msg (by rw [e]; simp), e]
  | hang => rw [h msg (by rw [e]; simp), e]

theorem mSend (payload : Bytes) (reset : Bool) :
    SameCallUnlessPanic (sendMsg payload reset) (Release.sendMsg payload reset) := by
  intro c h
  cases reset
  · exact sendLoop_same _ _ h
  · exact sendLoop_same _ _ h

/-! ### the connection phase -/

theorem mHandshakeLoop (H : Hashes) (caps : Nat) (plugin : AuthPlugin) :
    SameCallUnlessPanic (handshakeLoop H caps plugin) (Release.handshakeLoop H caps plugin) := by
  intro c
  induction hl : c.inp.length using Nat.strong_induction_on generalizing c plugin with
  | _ n ih =>
    intro h
    rw [handshakeLoop.eq_def] at h
    rw [Release.handshakeLoop.eq_def, handshakeLoop.eq_def]
    cases e1 : recvMsg c with
    | ok msg c1 =>
      rw [e1] at h
      dsimp only at h ⊢
      cases e2 : M.parse msg (HandshakeMessage.readFrom caps) c1 with
      | ok m c2 =>
        rw [e2] at h
        cases m with
        | moreData m =>
          dsimp only at h ⊢
          cases e3 : plugin.next H m.pluginData with
          | ok x =>
            rw [e3] at h
            obtain ⟨resp, plugin'⟩ := x
            dsimp only at h ⊢
            have hs : SameCallUnlessPanic (if resp.isEmpty then pure () else sendMsg resp false : M Unit)
                (if resp.isEmpty then pure () else Release.sendMsg resp false : M Unit) := mIte (mRefl _) (mSend _ _)
            cases e4 : (if resp.isEmpty then pure () else sendMsg resp false : M Unit) c2 with
            | ok u c3 =>
              rw [e4] at h
              rw [hs c2 (by rw [e4]; simp), e4]
              dsimp only at h ⊢
              by_cases hi : c3.inp.length < c.inp.length
              · rw [if_pos hi] at h
                rw [if_pos hi, if_pos hi]
                exact ih _ (hl ▸ hi) plugin' c3 rfl h
              · rw [if_neg hi, if_neg hi]
            | err e c3 => rw [hs c2 (by rw [e4]; simp), e4]
            | panic => rw [e4] at h; exact absurd rfl h
            | hang => rw [hs c2 (by rw [e4]; simp), e4]
          | error e => rfl
        | _ => rfl
      | _ => rfl
    | _ => rfl

theorem mHandshake (H : Hashes) (opts : ConnOpts) :
    SameCallUnlessPanic (handshake H opts) (Release.handshake H opts) := by
  unfold handshake Release.handshake
  refine mThen _ fun msg => mBind (mParse msg greeting) fun hs => ?_
  iterate 9 refine mThen _ fun _ => ?_
  refine mThen _ fun _ => mThen _ fun _ => mThen _ fun _ => mThen _ fun _ => mBind (mSend _ _) fun _ => ?_
  exact mHandshakeLoop H _ _

/-! ### commands -/

theorem mOk (bs : Bytes) : SameCallUnlessPanic (okCommand bs) (Release.okCommand bs) := mBind (mSend _ _) fun _ => mRefl _

theorem mFieldList (t w : Bytes) : SameCallUnlessPanic (Cmd.fieldList t w) (Release.fieldList t w) :=
  mBind (mSend _ _) fun _ => mRefl _

theorem mQry (q : Bytes) : SameCallUnlessPanic (Query.qry q) (Release.qry q) := mBind (mSend _ _) fun _ => mRefl _

theorem mFiles : SameCallUnlessPanic Cmd.binlogFiles Release.binlogFiles := mBind (mQry _) fun _ => mRefl _

theorem mGetVar {α : Type} (conv : Option Bytes → Res α) (name : Bytes) (global : Bool) :
    SameCallUnlessPanic (Cmd.getVar conv name global) (Release.getVar conv name global) := mBind (mQry _) fun _ => mRefl _

theorem mPrepare (q : Bytes) : SameCallUnlessPanic (Stmt.prepare q) (Release.prepare q) :=
  mBind (mSend _ _) fun _ => mRefl _

theorem mSendStmt (s : PreparedStmt) (ps : List StmtColumnValue) :
    SameCallUnlessPanic (s.send ps) (Release.send s ps) := by
  unfold PreparedStmt.send Release.send
  cases ComStmtExecute.single s.stmtId ps with
  | none => exact mRefl _
  | some cmd =>
    dsimp only
    cases cmd.writeTo [] with
    | none => exact mRefl _
    | some x => exact mSend _ _

theorem mExec (s : PreparedStmt) (ps : List StmtColumnValue) : SameCallUnlessPanic (s.exec ps) (Release.exec s ps) :=
  mBind (mSendStmt _ _) fun _ => mRefl _

theorem mClose (s : PreparedStmt) : SameCallUnlessPanic s.close (Release.close s) := mSend _ _

theorem mExecClose (s : PreparedStmt) (ps : List StmtColumnValue) :
    SameCallUnlessPanic (s.execClose ps) (Release.execClose s ps) := by
  intro c h
  unfold PreparedStmt.execClose at h ⊢
  unfold Release.execClose
  cases e : s.exec ps c with
  | panic => rw [e] at h; exact absurd rfl h
  | hang => rw [mExec s ps c (by rw [e]; simp), e]
  | ok u c' =>
    rw [e] at h
    rw [mExec s ps c (by rw [e]; simp), e]
    dsimp only at h ⊢
    cases e' : s.close c' with
    | panic => rw [e'] at h; exact absurd rfl h
    | _ => rw [mClose s c' (by rw [e']; simp), e']
  | err u c' =>
    rw [e] at h
    rw [mExec s ps c (by rw [e]; simp), e]
    dsimp only at h ⊢
    cases e' : s.close c' with
    | panic => rw [e'] at h; exact absurd rfl h
    | _ => rw [mClose s c' (by rw [e']; simp), e']

theorem mSetUserVar (name : Bytes) (v : StmtColumnValue) :
    SameCallUnlessPanic (Cmd.setUserVar name v) (Release.setUserVar name v) :=
  mBind (mPrepare _) fun s => mExecClose s _

/-! ### streams -/

theorem mSetup (r : BinlogRequest) (uuid : Bytes) (random : Nat) :
    SameCallUnlessPanic (r.setup uuid random) (Release.setup r uuid random) :=
  mBind (mGetVar _ _ _) fun _ => mThen _ fun _ => mBind (mSetUserVar _ _) fun _ =>
  mBind (mGetVar _ _ _) fun _ => mThen _ fun _ => mBind (mSetUserVar _ _) fun _ =>
  mBind (mGetVar _ _ _) fun _ => mThen _ fun _ =>
  mBind (mGetVar _ _ _) fun _ => mThen _ fun _ => mBind (mSetUserVar _ _) fun _ =>
  mBind (mOk _) fun _ => mRefl _

theorem mFirstEvents (r : BinlogRequest) (checksum : Bool) :
    SameCallUnlessPanic (r.firstEvents checksum) (Release.firstEvents r checksum) := by
  unfold BinlogRequest.firstEvents Release.firstEvents
  refine mThen _ fun msg => ?_
  cases msg with
  | nil => exact mRefl _
  | cons b t =>
    refine mIte (mRefl _) (mIte (mRefl _) (mIte ?_ (mRefl _)))
    exact mThen _ fun _ => mThen _ fun _ => mBind (mParse _ (then_ _ fun _ => fdeBytes)) fun _ => mRefl _

theorem mRequest (r : BinlogRequest) (uuid : Bytes) (random : Nat) :
    SameCallUnlessPanic (r.requestStream uuid random) (Release.requestStream r uuid random) :=
  mBind (mSetup _ _ _) fun _ => mBind (mSend _ _) fun _ => mFirstEvents _ _

theorem mRecvAndParse (s : BinlogStream) : SameCallUnlessPanic s.recvAndParse (Release.recvAndParse s) := by
  intro c h
  unfold BinlogStream.recvAndParse at h ⊢
  unfold Release.recvAndParse
  cases e : recvMsg c with
  | ok msg c' =>
    rw [e] at h
    cases msg with
    | nil => rfl
    | cons b t =>
      dsimp only at h ⊢
      by_cases h1 : (s.nonBlock && b == 0xfe) = true
      · rw [if_pos h1, if_pos h1]
      · rw [if_neg h1] at h
        rw [if_neg h1, if_neg h1]
        by_cases h2 : b ≠ 0x00
        · rw [if_pos h2, if_pos h2]
        · rw [if_neg h2] at h
          rw [if_neg h2, if_neg h2]
          cases e' : M.parse t (s.pv4.parseEvent s.validateChecksum) c' with
          | panic => rw [e'] at h; exact absurd rfl h
          | ok x c'' =>
            rw [mParse t (parse s.pv4 s.validateChecksum) c' (by rw [e']; simp), e']
            cases x <;> rfl
          | _ => rw [mParse t (parse s.pv4 s.validateChecksum) c' (by rw [e']; simp), e']
  | _ => rfl

theorem mNextLoop (s : BinlogStream) : SameCallUnlessPanic s.nextLoop (Release.nextLoop s) := by
  intro c
  induction hl : c.inp.length using Nat.strong_induction_on generalizing c with
  | _ n ih =>
    intro h
    rw [BinlogStream.nextLoop.eq_def] at h
    rw [Release.nextLoop.eq_def, BinlogStream.nextLoop.eq_def]
    cases e : s.recvAndParse c with
    | ok x c' =>
      rw [e] at h
      rw [mRecvAndParse s c (by rw [e]; simp), e]
      cases x with
      | unsupported =>
        dsimp only at h ⊢
        by_cases hi : c'.inp.length < c.inp.length
        · rw [if_pos hi] at h
          rw [if_pos hi, if_pos hi]
          exact ih _ (hl ▸ hi) c' rfl h
        · rw [if_neg hi, if_neg hi]
      | _ => rfl
    | panic => rw [e] at h; exact absurd rfl h
    | _ => rw [mRecvAndParse s c (by rw [e]; simp), e]

theorem mNextEvent (s : BinlogStream) : SameCallUnlessPanic s.nextEvent (Release.nextEvent s) := by
  intro c h
  unfold BinlogStream.nextEvent at h ⊢
  unfold Release.nextEvent
  split
  · rfl
  · rename_i hc
    rw [if_neg hc] at h
    exact mNextLoop s c h

/-! ### statements -/

theorem fill (ft : FloatText) (fs : List Bytes) (ps : List StmtColumnValue) (s : Bytes)
    (h : Mybin.fillFragments ft fs ps = some s) : Release.fillFragments ft fs ps = some s := by
  induction fs generalizing ps s with
  | nil => exact h
  | cons f fs ih =>
    rw [Mybin.fillFragments.eq_def] at h
    rw [Release.fillFragments.eq_def]
    dsimp only at h ⊢
    split at h
    · rename_i hf
      rw [if_pos hf]
      cases ps with
      | nil => exact ih _ _ h
      | cons p ps =>
        dsimp only at h ⊢
        unfold quotedLiteral at h
        unfold Release.quotedLiteral
        cases e : p.toSqlLiteral ft with
        | none => rw [e] at h; cases h
        | some r =>
          rw [e] at h
          rw [literal ft p r e]
          dsimp only [Option.map_some] at h ⊢
          obtain ⟨t, ht, rfl⟩ := Option.map_eq_some_iff.1 h
          rw [ih _ _ ht]; rfl
    · rename_i hf
      rw [if_neg hf]
      obtain ⟨t, ht, rfl⟩ := Option.map_eq_some_iff.1 h
      rw [ih _ _ ht]; rfl

theorem allSome_mono {α β : Type} (l : List α) (f g : α → Option β) (h : ∀ a b, f a = some b → g a = some b)
    (bs : List β) (hb : allSome (l.map f) = some bs) : allSome (l.map g) = some bs := by
  induction l generalizing bs with
  | nil => exact hb
  | cons a l ih =>
    rw [List.map_cons] at hb ⊢
    cases e : f a with
    | none => rw [e] at hb; cases hb
    | some b =>
      rw [e, allSome] at hb
      rw [h a b e, allSome]
      obtain ⟨t, ht, rfl⟩ := Option.map_eq_some_iff.1 hb
      rw [ih _ ht]; rfl

theorem lines (ft : FloatText) (p : Option PreparedSql) (h : Mybin.sqlLines ft p ≠ .panic) :
    Release.sqlLines ft p = Mybin.sqlLines ft p := by
  cases p with
  | none => exact absurd rfl h
  | some p =>
    unfold Mybin.sqlLines at h ⊢
    unfold Release.sqlLines
    dsimp only at h ⊢
    cases e : p.sqlList ft with
    | none => rw [e] at h; exact absurd rfl h
    | some l =>
      have : Release.sqlList ft p = some l := allSome_mono _ _ _ (fun ps s hs => fill ft _ ps s hs) l e
      rw [this]

/-! ### what a table map says -/

/-- what every reader of the kind returns has the property -/
def Post {α : Type} (p : P α) (q : α → Prop) : Prop := ∀ bs a r, p bs = .ok a r → q a

theorem postPure {α : Type} (a : α) (q : α → Prop) (h : q a) : Post (pure a) q := by
  intro bs b r e
  cases e
  exact h

theorem postPanic {α : Type} (q : α → Prop) : Post (P.panic : P α) q := by
  intro bs b r e
  cases e

theorem postBind {α β : Type} (x : P α) (f : α → P β) (q : β → Prop) (h : ∀ a, Post (f a) q) : Post (x >>= f) q := by
  intro bs b r e
  rw [P.bind_apply] at e
  cases ex : x bs with
  | ok a r' => rw [ex] at e; exact h a r' b r e
  | err er r' => rw [ex] at e; cases e
  | panic => rw [ex] at e; cases e
  | hang => rw [ex] at e; cases e

theorem postBind' {α β : Type} (x : P α) (f : α → P β) (q : β → Prop) (qx : α → Prop) (hx : Post x qx)
    (h : ∀ a, qx a → Post (f a) q) : Post (x >>= f) q := by
  intro bs b r e
  rw [P.bind_apply] at e
  cases ex : x bs with
  | ok a r' => rw [ex] at e; exact h a (hx bs a r' ex) r' b r e
  | err er r' => rw [ex] at e; cases e
  | panic => rw [ex] at e; cases e
  | hang => rw [ex] at e; cases e

theorem postU8 : Post readU8 (· < 256) := by
  intro bs a r e
  unfold readU8 at e
  cases bs with
  | nil => simp at e
  | cons b t =>
    cases e
    exact UInt8.toNat_lt b

/-- a digit count is one byte -/
def SmallDecimal (m : ColumnMeta) : Prop := ∀ p f, m = .newDecimal p f → p < 256

theorem postMeta (ct : ColumnType) : Post (ColumnMeta.readFrom ct) SmallDecimal := by
  have hother : ∀ m, (match m with | ColumnMeta.newDecimal _ _ => False | _ => True) → SmallDecimal m := by
    intro m hm p f e
    rw [e] at hm
    exact hm.elim
  cases ct
  case newDecimal =>
    refine postBind' _ _ _ _ postU8 fun a ha => postBind _ _ _ fun b => postPure _ _ ?_
    intro p f e
    cases e
    exact ha
  case string =>
    refine postBind _ _ _ fun _ => postBind _ _ _ fun _ => ?_
    split
    · exact postPure _ _ (hother _ trivial)
    · split
      · exact postPure _ _ (hother _ trivial)
      · exact postPanic _
  case bit => exact postBind _ _ _ fun _ => postBind _ _ _ fun _ => postPure _ _ (hother _ trivial)
  all_goals first
    | exact postPanic _
    | exact postPure _ _ (hother _ trivial)
    | exact postBind _ _ _ fun _ => postPure _ _ (hother _ trivial)

theorem postMetas (ts : List UInt8) : Post (readMetas ts) (fun ms => ∀ m ∈ ms, SmallDecimal m) := by
  induction ts with
  | nil => exact postPure _ _ (by simp)
  | cons b t ih =>
    rw [readMetas]
    refine postBind _ _ _ fun ct => postBind' _ _ _ _ (postMeta ct) fun m hm => postBind' _ _ _ _ ih fun ms hms => ?_
    refine postPure _ _ ?_
    intro x hx
    rcases List.mem_cons.1 hx with rfl | hx
    · exact hm
    · exact hms x hx

theorem postTableMap : Post TableMapData.tableMap (fun tm => ∀ m ∈ tm.colMetas, SmallDecimal m) := by
  unfold TableMapData.tableMap TableMap.ofRaw
  refine postBind _ _ _ fun raw => postBind _ _ _ fun _ => postBind _ _ _ fun _ => ?_
  refine postBind' _ _ _ (fun ms => ∀ m ∈ ms, SmallDecimal m) ?_ fun ms hms => postPure _ _ hms
  intro bs a r e
  unfold P.onSub at e
  have : Post (ColumnMetas.readFrom raw.colCnt raw.colDefs) (fun ms => ∀ m ∈ ms, SmallDecimal m) := by
    unfold ColumnMetas.readFrom
    refine postBind _ _ _ fun _ => ?_
    split
    · exact postMetas _
    · exact postBind _ _ _ fun _ => postPanic _
  cases e' : ColumnMetas.readFrom raw.colCnt raw.colDefs raw.colMetaDefs with
  | ok ms r' => rw [e'] at e; cases e; exact this _ _ _ e'
  | err x r' => rw [e'] at e; cases e
  | panic => rw [e'] at e; cases e
  | hang => rw [e'] at e; cases e

/-! ### the program -/

/-- the tables known to the program come from table maps -/
def Known (st : DmlState) : Prop := ∀ x ∈ st.tbls, ∀ m ∈ x.2.colMetas, SmallDecimal m

theorem rowLines (ft : FloatText) (make : Bytes → Bytes → RowsV2 → List ColumnDefinition → Option PreparedSql)
    (tm : TableMeta) (d : RowsDataV2) (hd : d.extraDataLen < 2 ^ 64) (hm : ∀ m ∈ tm.colMetas, SmallDecimal m)
    (h : Mybin.rowLines ft make tm d ≠ .panic) : Release.rowLines ft make tm d = Mybin.rowLines ft make tm d := by
  unfold Mybin.rowLines at h ⊢
  unfold Release.rowLines
  have hr := rows d.extraDataLen hd tm.colMetas (fun p f hp => hm _ hp p f rfl)
  cases e : RowsV2.readFrom d.extraDataLen tm.colMetas d.payload with
  | ok rs r =>
    rw [e] at h
    rw [hr _ (by rw [e]; simp), e]
    exact lines ft _ h
  | panic => rw [e] at h; exact absurd rfl h
  | _ => rw [hr _ (by rw [e]; simp), e]

theorem updateLines (ft : FloatText) (pos : Nat)
    (tm : TableMeta) (d : RowsDataV2) (hd : d.extraDataLen < 2 ^ 64) (hm : ∀ m ∈ tm.colMetas, SmallDecimal m)
    (h : Mybin.updateLines ft pos tm d ≠ .panic) : Release.updateLines ft pos tm d = Mybin.updateLines ft pos tm d := by
  unfold Mybin.updateLines at h ⊢
  unfold Release.updateLines
  have hr := updateRows d.extraDataLen hd tm.colMetas (fun p f hp => hm _ hp p f rfl)
  cases e : UpdateRowsV2.readFrom d.extraDataLen tm.colMetas d.payload with
  | ok rs r =>
    rw [e] at h
    rw [hr _ (by rw [e]; simp), e]
    dsimp only at h ⊢
    split
    · rename_i hk
      rw [if_pos hk] at h
      exact lines ft _ h
    · rfl
  | panic => rw [e] at h; exact absurd rfl h
  | _ => rw [hr _ (by rw [e]; simp), e]

theorem postRowsData : Post RowsDataV2.readFrom (fun d => d.extraDataLen < 2 ^ 64) := by
  unfold RowsDataV2.readFrom
  refine postBind _ _ _ fun _ => postBind _ _ _ fun _ => ?_
  refine postBind' _ _ _ (· < 2 ^ 16) ?_ fun n hn => postBind _ _ _ fun _ => postPure _ _ ?_
  · intro bs a r e
    unfold readLeU16 readFixed at e
    split at e
    · cases e
    · cases e
      have := leVal_lt (bs.take 2)
      have h2 : (bs.take 2).length ≤ 2 := List.length_take_le _ _
      calc leVal (bs.take 2) < 256 ^ (bs.take 2).length := this
        _ ≤ 256 ^ 2 := Nat.pow_le_pow_right (by norm_num) h2
        _ = 2 ^ 16 := by norm_num
  · show n < 2 ^ 64
    omega

theorem lookup_mem {β : Type} (l : List (Nat × β)) (k : Nat) (v : β) (h : l.lookup k = some v) : (k, v) ∈ l := by
  induction l with
  | nil => cases h
  | cons x l ih =>
    obtain ⟨a, b⟩ := x
    rw [List.lookup_cons] at h
    split at h
    · rename_i e
      cases h
      rw [beq_iff_eq.1 e]
      exact List.mem_cons_self
    · exact List.mem_cons_of_mem _ (ih h)

theorem onRows (limit : Nat) (l l' : TableMeta → RowsDataV2 → R (List DmlLine)) (st : DmlState) (hk : Known st)
    (hl : ∀ tm d, d.extraDataLen < 2 ^ 64 → (∀ m ∈ tm.colMetas, SmallDecimal m) → l tm d ≠ .panic → l' tm d = l tm d)
    (data : Bytes) (h : (Mybin.onRows limit l st data).2 ≠ .panic) :
    Mybin.onRows limit l' st data = Mybin.onRows limit l st data := by
  unfold Mybin.onRows at h ⊢
  cases e : RowsDataV2.readFrom data with
  | ok d r =>
    rw [e] at h
    dsimp only at h ⊢
    split
    · rfl
    · rename_i hs
      rw [if_neg hs] at h
      cases et : st.tbls.lookup d.tableId with
      | none => rfl
      | some tm =>
        rw [et] at h
        dsimp only at h ⊢
        have hm : ∀ m ∈ tm.colMetas, SmallDecimal m := hk _ (lookup_mem _ _ _ et)
        have : l tm d ≠ .panic := by intro ep; rw [ep] at h; exact h rfl
        rw [hl tm d (postRowsData _ _ _ e) hm this]
  | _ => rfl

theorem mFetch (db tbl : Bytes) : SameCallUnlessPanic (Mybin.fetchColumns db tbl) (Release.fetchColumns db tbl) :=
  mBind (mOk _) fun _ => mFieldList _ _

theorem onTableMap (o : DmlOpts) (st : DmlState) (hk : Known st) (data : Bytes)
    (h : Mybin.onTableMap o st data ≠ .panic) :
    Release.onTableMap o st data = Mybin.onTableMap o st data ∧
      ∀ st', Mybin.onTableMap o st data = .go st' → Known st' := by
  unfold Mybin.onTableMap at h ⊢
  unfold Release.onTableMap
  cases e : TableMapData.readFrom data with
  | ok d r =>
    rw [e] at h
    dsimp only at h ⊢
    by_cases h1 : (st.tbls.lookup d.tableId).isSome ∨ d.tableId ∈ st.skip
    · rw [if_pos h1, if_pos h1]
      exact ⟨rfl, fun st' hs => by cases hs; exact hk⟩
    · rw [if_neg h1] at h
      rw [if_neg h1, if_neg h1]
      cases et : TableMapData.tableMap d.payload with
      | ok tm r' =>
        rw [et] at h
        dsimp only at h ⊢
        by_cases h2 : ¬ filterOk o.databaseFilter tm.schemaName = true
        · rw [if_pos h2, if_pos h2]
          exact ⟨rfl, fun st' hs => by cases hs; exact hk⟩
        · rw [if_neg h2] at h
          rw [if_neg h2, if_neg h2]
          by_cases h3 : ¬ filterOk o.tableFilter tm.tableName = true
          · rw [if_pos h3, if_pos h3]
            exact ⟨rfl, fun st' hs => by cases hs; exact hk⟩
          · rw [if_neg h3] at h
            rw [if_neg h3, if_neg h3]
            cases ef : Mybin.fetchColumns tm.schemaName tm.tableName st.helper with
            | panic => rw [ef] at h; exact absurd rfl h
            | ok defs c =>
              rw [mFetch _ _ _ (by rw [ef]; simp), ef]
              refine ⟨rfl, fun st' hs => ?_⟩
              cases hs
              intro x hx
              rcases List.mem_cons.1 hx with rfl | hx
              · exact postTableMap _ _ _ et
              · exact hk x hx
            | err x c => rw [mFetch _ _ _ (by rw [ef]; simp), ef]; exact ⟨rfl, fun st' hs => by cases hs⟩
            | hang => rw [mFetch _ _ _ (by rw [ef]; simp), ef]; exact ⟨rfl, fun st' hs => by cases hs⟩
      | _ => exact ⟨rfl, fun st' hs => by cases hs⟩
  | _ => exact ⟨rfl, fun st' hs => by cases hs⟩

theorem onRows_known (limit : Nat) (l : TableMeta → RowsDataV2 → R (List DmlLine)) (st st' : DmlState) (hk : Known st)
    (data : Bytes) (h : (Mybin.onRows limit l st data).2 = .go st') : Known st' := by
  unfold Mybin.onRows at h
  cases e : RowsDataV2.readFrom data with
  | ok d r =>
    rw [e] at h
    dsimp only at h
    split at h
    · cases h; exact hk
    · cases et : st.tbls.lookup d.tableId with
      | none => rw [et] at h; cases h; exact hk
      | some tm =>
        rw [et] at h
        dsimp only at h
        cases el : l tm d with
        | ok ls r =>
          rw [el] at h
          dsimp only at h
          rcases ep : printLines limit st.nRows ls with ⟨out, n | n⟩
          · rw [ep] at h; cases h
          · rw [ep] at h; cases h; exact hk
        | err x r => rw [el] at h; cases h
        | panic => rw [el] at h; cases h
        | hang => rw [el] at h; cases h
  | err x r => rw [e] at h; cases h
  | panic => rw [e] at h; cases h
  | hang => rw [e] at h; cases h

theorem onEvent (ft : FloatText) (o : DmlOpts) (st : DmlState) (hk : Known st) (ev : Event)
    (h : (Mybin.onEvent ft o st ev).2 ≠ .panic) :
    Release.onEvent ft o st ev = Mybin.onEvent ft o st ev ∧
      ∀ st', (Mybin.onEvent ft o st ev).2 = .go st' → Known st' := by
  unfold Mybin.onEvent at h ⊢
  unfold Release.onEvent
  cases e : ev.kind
  case tableMap =>
    rw [e] at h
    have := onTableMap o st hk ev.data h
    exact ⟨by dsimp only; rw [this.1], this.2⟩
  case deleteRowsV2 =>
    rw [e] at h
    exact ⟨onRows _ _ _ st hk (fun tm d hd hm hp => rowLines ft _ tm d hd hm hp) _ h, fun st' => onRows_known _ _ st st' hk _⟩
  case updateRowsV2 =>
    rw [e] at h
    exact ⟨onRows _ _ _ st hk (fun tm d hd hm hp => updateLines ft _ tm d hd hm hp) _ h, fun st' => onRows_known _ _ st st' hk _⟩
  case writeRowsV2 =>
    rw [e] at h
    exact ⟨onRows _ _ _ st hk (fun tm d hd hm hp => rowLines ft _ tm d hd hm hp) _ h, fun st' => onRows_known _ _ st st' hk _⟩
  case rotate =>
    refine ⟨rfl, fun st' hs => ?_⟩
    dsimp only at hs
    split at hs
    · cases hs; intro x hx; cases hx
    · cases hs
  all_goals exact ⟨rfl, fun st' hs => by cases hs; exact hk⟩

/-- an event that makes the program panic prints nothing before -/
theorem onEvent_panic (ft : FloatText) (o : DmlOpts) (st : DmlState) (ev : Event)
    (h : (Mybin.onEvent ft o st ev).2 = .panic) : (Mybin.onEvent ft o st ev).1 = [] := by
  have hr : ∀ l, (Mybin.onRows o.limit l st ev.data).2 = .panic → (Mybin.onRows o.limit l st ev.data).1 = [] := by
    intro l h
    unfold Mybin.onRows at h ⊢
    cases e : RowsDataV2.readFrom ev.data with
    | ok d r =>
      rw [e] at h
      dsimp only at h ⊢
      split
      · rfl
      · rename_i hs
        rw [if_neg hs] at h
        cases et : st.tbls.lookup d.tableId with
        | none => rfl
        | some tm =>
          rw [et] at h
          dsimp only at h ⊢
          cases el : l tm d with
          | ok ls r =>
            rw [el] at h
            dsimp only at h
            rcases ep : printLines o.limit st.nRows ls with ⟨out, n | n⟩
            · rw [ep] at h; cases h
            · rw [ep] at h; cases h
          | _ => rfl
    | _ => rfl
  unfold Mybin.onEvent at h ⊢
  cases e : ev.kind
  case deleteRowsV2 => rw [e] at h; exact hr _ h
  case updateRowsV2 => rw [e] at h; exact hr _ h
  case writeRowsV2 => rw [e] at h; exact hr _ h
  case rotate => dsimp only; split <;> rfl
  all_goals rfl

theorem dmlLoop (ft : FloatText) (o : DmlOpts) (s : BinlogStream) (st : DmlState) (hk : Known st) (c : Conn) :
    ((Mybin.dmlLoop ft o s st c).2 ≠ .panic → Release.dmlLoop ft o s st c = Mybin.dmlLoop ft o s st c) ∧
      (Mybin.dmlLoop ft o s st c).1 <+: (Release.dmlLoop ft o s st c).1 := by
  induction hl : c.inp.length using Nat.strong_induction_on generalizing c s st with
  | _ n ih =>
    rw [Release.dmlLoop.eq_def, Mybin.dmlLoop.eq_def]
    cases e : s.nextEvent c with
    | panic => exact ⟨fun h => absurd rfl h, List.nil_prefix⟩
    | err x c' => rw [mNextEvent s c (by rw [e]; simp), e]; exact ⟨fun _ => rfl, List.prefix_rfl⟩
    | hang => rw [mNextEvent s c (by rw [e]; simp), e]; exact ⟨fun _ => rfl, List.prefix_rfl⟩
    | ok x c' =>
      rw [mNextEvent s c (by rw [e]; simp), e]
      obtain ⟨ev, s'⟩ := x
      cases ev with
      | none => exact ⟨fun _ => rfl, List.prefix_rfl⟩
      | some ev =>
        dsimp only
        by_cases hp : (Mybin.onEvent ft o st ev).2 = .panic
        · have h0 := onEvent_panic ft o st ev hp
          have : Mybin.onEvent ft o st ev = ([], .panic) := Prod.ext h0 hp
          rw [this]
          exact ⟨fun h => absurd rfl h, List.nil_prefix⟩
        · obtain ⟨h1, h2⟩ := onEvent ft o st hk ev hp
          rw [h1]
          rcases eo : Mybin.onEvent ft o st ev with ⟨out, nx⟩
          cases nx with
          | go st' =>
            dsimp only
            by_cases hi : c'.inp.length < c.inp.length
            · rw [if_pos hi, if_pos hi]
              obtain ⟨k1, k2⟩ := ih _ (hl ▸ hi) s' st' (h2 st' (by rw [eo])) c' rfl
              refine ⟨fun h => ?_, ?_⟩
              · rw [k1 h]
              · exact (List.prefix_append_right_inj out).2 k2
            · rw [if_neg hi, if_neg hi]
              exact ⟨fun _ => rfl, List.prefix_rfl⟩
          | _ => exact ⟨fun _ => rfl, List.prefix_rfl⟩

theorem printDmls (ft : FloatText) (o : DmlOpts) (uuid : Bytes) (random : Nat) (conn helper : Conn) :
    ((Mybin.printDmls ft o uuid random conn helper).2 ≠ .panic →
      Release.printDmls ft o uuid random conn helper = Mybin.printDmls ft o uuid random conn helper) ∧
    (Mybin.printDmls ft o uuid random conn helper).1 <+: (Release.printDmls ft o uuid random conn helper).1 := by
  unfold Mybin.printDmls Release.printDmls
  cases e : o.request.requestStream uuid random conn with
  | panic => exact ⟨fun h => absurd rfl h, List.nil_prefix⟩
  | err x c' => rw [mRequest _ _ _ conn (by rw [e]; simp), e]; exact ⟨fun _ => rfl, List.prefix_rfl⟩
  | hang => rw [mRequest _ _ _ conn (by rw [e]; simp), e]; exact ⟨fun _ => rfl, List.prefix_rfl⟩
  | ok s c =>
    rw [mRequest _ _ _ conn (by rw [e]; simp), e]
    exact dmlLoop ft o s _ (by intro x hx; cases hx) c

theorem connect (w : World) (n : Nat) (host port user pass : Bytes) (h : Mybin.connect w n host port user pass ≠ .panic) :
    Release.connect w n host port user pass = Mybin.connect w n host port user pass := by
  unfold Mybin.connect at h ⊢
  unfold Release.connect
  cases e : w.stream n (address host port) with
  | none => rfl
  | some inp => rw [e] at h; exact mHandshake _ _ _ h

theorem msgLoop (s : BinlogStream) (c : Conn) :
    ((Mybin.msgLoop s c).2.1 ≠ .panic → Release.msgLoop s c = ((Mybin.msgLoop s c).1, (Mybin.msgLoop s c).2.1)) ∧
      (Mybin.msgLoop s c).1 <+: (Release.msgLoop s c).1 := by
  induction hl : c.inp.length using Nat.strong_induction_on generalizing c s with
  | _ n ih =>
    rw [Release.msgLoop.eq_def, Mybin.msgLoop.eq_def]
    cases e : s.nextEvent c with
    | panic => exact ⟨fun h => absurd rfl h, List.nil_prefix⟩
    | err x c' => rw [mNextEvent s c (by rw [e]; simp), e]; exact ⟨fun _ => rfl, List.prefix_rfl⟩
    | hang => rw [mNextEvent s c (by rw [e]; simp), e]; exact ⟨fun _ => rfl, List.prefix_rfl⟩
    | ok x c' =>
      rw [mNextEvent s c (by rw [e]; simp), e]
      obtain ⟨ev, s'⟩ := x
      cases ev with
      | none => exact ⟨fun _ => rfl, List.prefix_rfl⟩
      | some ev =>
        dsimp only
        by_cases hi : c'.inp.length < c.inp.length
        · rw [if_pos hi, if_pos hi]
          obtain ⟨k1, k2⟩ := ih _ (hl ▸ hi) s' c' rfl
          refine ⟨fun h => ?_, ?_⟩
          · rw [k1 h]
          · exact (List.prefix_append_right_inj [MsgLine.event ev]).2 k2
        · rw [if_neg hi, if_neg hi]
          exact ⟨fun _ => rfl, List.prefix_rfl⟩

end C109

/-- C109 for `mybinlog`: whatever the servers send, if the build with the checks does not panic, the other prints the
same lines and ends in the same way. If it panics, the other prints the lines printed before the panic too, and goes on
or panics as well. -/
theorem C109_mybinlog (w : World) (o : ProgOpts) :
    ((mybinlog w o).theEnd ≠ .panic → Release.mybinlog w o = ((mybinlog w o).lines, (mybinlog w o).theEnd)) ∧
      (mybinlog w o).lines <+: (Release.mybinlog w o).1 := by
  unfold mybinlog Release.mybinlog
  cases e : connect w 0 o.host o.port o.username o.password with
  | panic => exact ⟨fun h => absurd rfl h, List.nil_prefix⟩
  | err x c => rw [C109.connect _ _ _ _ _ _ (by rw [e]; simp), e]; exact ⟨fun _ => rfl, List.prefix_rfl⟩
  | hang => rw [C109.connect _ _ _ _ _ _ (by rw [e]; simp), e]; exact ⟨fun _ => rfl, List.prefix_rfl⟩
  | ok u conn =>
    rw [C109.connect _ _ _ _ _ _ (by rw [e]; simp), e]
    dsimp only
    cases o.cmd with
    | list =>
      dsimp only
      cases e1 : Cmd.binlogFiles conn with
      | panic => exact ⟨fun h => absurd rfl h, List.nil_prefix⟩
      | _ => rw [C109.mFiles conn (by rw [e1]; simp), e1]; exact ⟨fun _ => rfl, List.prefix_rfl⟩
    | dml filename untilNow df tf block limit =>
      dsimp only
      cases e1 : connect w 1 o.host o.port o.username o.password with
      | panic => exact ⟨fun h => absurd rfl h, List.nil_prefix⟩
      | err x c => rw [C109.connect _ _ _ _ _ _ (by rw [e1]; simp), e1]; exact ⟨fun _ => rfl, List.prefix_rfl⟩
      | hang => rw [C109.connect _ _ _ _ _ _ (by rw [e1]; simp), e1]; exact ⟨fun _ => rfl, List.prefix_rfl⟩
      | ok u helper =>
        rw [C109.connect _ _ _ _ _ _ (by rw [e1]; simp), e1]
        dsimp only
        cases compileFilter w df with
        | none => exact ⟨fun _ => rfl, List.prefix_rfl⟩
        | some df =>
          dsimp only
          cases compileFilter w tf with
          | none => exact ⟨fun _ => rfl, List.prefix_rfl⟩
          | some tf =>
            dsimp only
            obtain ⟨k1, k2⟩ := C109.printDmls w.ft ⟨filename, untilNow, df, tf, !block, limit⟩ w.uuid w.random conn helper
            exact ⟨fun h => by rw [k1 h], k2.map _⟩

/-- C109 for `mybinmsg`, likewise -/
theorem C109_mybinmsg (w : World) (conf : MsgConnect) :
    ((mybinmsg w conf).theEnd ≠ .panic → Release.mybinmsg w conf = ((mybinmsg w conf).lines, (mybinmsg w conf).theEnd)) ∧
      (mybinmsg w conf).lines <+: (Release.mybinmsg w conf).1 := by
  unfold mybinmsg Release.mybinmsg
  cases conf with
  | unixSocket => exact ⟨fun h => absurd rfl h, List.nil_prefix⟩
  | tcp host port user pass =>
    dsimp only
    cases e : connect w 0 host port user pass with
    | panic => exact ⟨fun h => absurd rfl h, List.nil_prefix⟩
    | err x c => rw [C109.connect _ _ _ _ _ _ (by rw [e]; simp), e]; exact ⟨fun _ => rfl, List.prefix_rfl⟩
    | hang => rw [C109.connect _ _ _ _ _ _ (by rw [e]; simp), e]; exact ⟨fun _ => rfl, List.prefix_rfl⟩
    | ok u conn =>
      rw [C109.connect _ _ _ _ _ _ (by rw [e]; simp), e]
      dsimp only
      cases e1 : Cmd.binlogFiles conn with
      | panic => exact ⟨fun h => absurd rfl h, List.nil_prefix⟩
      | err x c => rw [C109.mFiles conn (by rw [e1]; simp), e1]; exact ⟨fun _ => rfl, List.prefix_rfl⟩
      | hang => rw [C109.mFiles conn (by rw [e1]; simp), e1]; exact ⟨fun _ => rfl, List.prefix_rfl⟩
      | ok files c =>
        rw [C109.mFiles conn (by rw [e1]; simp), e1]
        dsimp only
        cases e2 : defaultRequest.requestStream w.uuid w.random c with
        | panic => 
          refine ⟨fun h => absurd rfl h, ?_⟩
          dsimp only
          cases Release.requestStream defaultRequest w.uuid w.random c with
          | ok s c => exact List.prefix_append _ _
          | _ => exact List.prefix_rfl
        | err x c => rw [C109.mRequest _ _ _ _ (by rw [e2]; simp), e2]; exact ⟨fun _ => rfl, List.prefix_rfl⟩
        | hang => rw [C109.mRequest _ _ _ _ (by rw [e2]; simp), e2]; exact ⟨fun _ => rfl, List.prefix_rfl⟩
        | ok s c =>
          rw [C109.mRequest _ _ _ _ (by rw [e2]; simp), e2]
          dsimp only
          obtain ⟨k1, k2⟩ := C109.msgLoop s c
          exact ⟨fun h => by rw [k1 h], (List.prefix_append_right_inj _).2 k2⟩

/-- a run that does not panic: that of C87 over the example log of C43, here by the build without the checks -/
example (ft : FloatText) (limit : Nat) : ∃ inp1 inp2 out,
    Spec.PrintsAll ft (exampleOpts limit).wanted exampleCatalogue (fun _ => none) exampleLog out ∧
    Release.mybinlog (exampleWorld ft inp1 inp2) (exampleProg limit) =
      ((if limit = 0 then out else upTo limit out).map .dml, .done) := by
  obtain ⟨inp1, inp2, out, h1, h2, h3⟩ := example_program ft limit
  refine ⟨inp1, inp2, out, h1, ?_⟩
  rw [(C109_mybinlog _ _).1 (by rw [h3]; simp), h2, h3]

/-- C109 fails for statements: where the build with the checks panics on a value that no DECIMAL(2,1) column can have,
the other prints a statement that inserts a number. -/
theorem C109_statement_false (ft : FloatText) :
    rowLines ft PreparedSql.fromInsert ⟨asc "d", asc "t", [.newDecimal 2 1], [exampleCol "a" 0]⟩
      ⟨7, 0, 2, [1, 1, 0, 0x81, 43]⟩ = .panic ∧
    Release.rowLines ft PreparedSql.fromInsert ⟨asc "d", asc "t", [.newDecimal 2 1], [exampleCol "a" 0]⟩
      ⟨7, 0, 2, [1, 1, 0, 0x81, 43]⟩ = .ok [.stmt (asc "INSERT INTO `d`.`t` (`a`) VALUES (1.0)")] [] := by
  constructor
  · have e : RowsV2.readFrom 2 [.newDecimal 2 1] [1, 1, 0, 0x81, 43] = .panic := by decide +kernel
    unfold rowLines
    rw [e]
  · have e : Release.RowsV2.readFrom 2 [.newDecimal 2 1] [1, 1, 0, 0x81, 43] =
        .ok ⟨[], 1, [1], [[.newDecimal ⟨1, 1, false, [1, 5032704]⟩]]⟩ [] := by decide +kernel
    have e2 : PreparedSql.fromInsert (asc "d") (asc "t") ⟨[], 1, [1], [[.newDecimal ⟨1, 1, false, [1, 5032704]⟩]]⟩
        [exampleCol "a" 0] = some ⟨asc "d", [asc "INSERT INTO `d`.`t` (`a`) VALUES (", asc "?", asc ")"],
          [[.newDecimal (asc "1.0")]]⟩ := by decide +kernel
    unfold Release.rowLines
    rw [e]
    dsimp only
    rw [e2]
    rfl

end Mybin
