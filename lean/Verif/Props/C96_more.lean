/-
C96, the other dialogues: connecting, changing the user, and a stream of binlog events. Whenever the client waits there,
the server has heard everything up to a message it has not wholly answered.
-/
import Verif.Props.C96

namespace Mybin

/-! ### waiting -/

/-- bytes are missing that the run would read to their end: it waits -/
theorem Inc.waits {α : Type} {run : M α} (h : Inc run) (c : Conn) (z : Bytes) (hz : z ≠ []) (a : α) (c2 : Conn)
    (hr : run (Spec.arrived c z) = .ok a c2) (hi : c2.inp = []) : ∃ c', run c = .err .io c' := by
  have hag := h.2 z c
  rw [hr] at hag
  cases hrun : run c with
  | ok v c' =>
    rw [hrun] at hag
    have hag : MR.ok a c2 = .ok v (Spec.arrived c' z) := hag
    cases hag
    have : c'.inp ++ z = [] := hi
    simp [hz] at this
  | err e c' =>
    rw [hrun] at hag
    rcases (hag : MR.ok a c2 = .err e (Spec.arrived c' z) ∨ _) with hag | ⟨rfl, -⟩
    · cases hag
    · exact ⟨c', rfl⟩
  | panic => rw [hrun] at hag; cases (show MR.ok a c2 = .panic from hag)
  | hang => rw [hrun] at hag; cases (show MR.ok a c2 = .hang from hag)

/-- receiving the next of some messages when only a part of their bytes has arrived: either it waits, or it is there -/
theorem recv_part {c : Conn} {z m rest : Bytes} {ms : List Bytes} (h : Spec.Delivers (c.inp ++ z) (m :: ms) rest) :
    (∃ c', recvMsg c = .err .io c' ∧ c'.out = c.out) ∨
    (∃ c', recvMsg c = .ok m c' ∧ Moved c c' ∧ Spec.Delivers (c'.inp ++ z) ms rest ∧ c'.inp.length < c.inp.length) := by
  obtain ⟨c1, a1, a2, a3, a4⟩ := Delivers.recv (c := Spec.arrived c z) h
  have hag := Inc.recvMsg.2 z c
  rw [a1] at hag
  cases hr : recvMsg c with
  | ok v c' =>
    rw [hr] at hag
    have hag : MR.ok m c1 = .ok v (Spec.arrived c' z) := hag
    cases hag
    refine Or.inr ⟨c', rfl, ⟨?_, ?_, ?_⟩, a3, ?_⟩
    · exact a2.1
    · exact a2.2
    · exact a2.3
    · have : (c'.inp ++ z).length < (c.inp ++ z).length := a4
      simp only [List.length_append] at this
      omega
  | err e c' =>
    rw [hr] at hag
    rcases (hag : MR.ok m c1 = .err e (Spec.arrived c' z) ∨ _) with hag | ⟨rfl, -⟩
    · cases hag
    · exact Or.inl ⟨c', rfl, Quiet.recvMsg c c' (Or.inr ⟨_, hr⟩)⟩
  | panic => rw [hr] at hag; cases (show MR.ok m c1 = .panic from hag)
  | hang => rw [hr] at hag; cases (show MR.ok m c1 = .hang from hag)

/-- where `run` waits, with the answers cut off: the second half of `Live` -/
def Waits {α : Type} (caps : Nat) (run : M α) (rounds : List (Spec.Said × Bytes)) : Prop :=
  ∀ pre s y post, rounds = pre ++ (s, y) :: post → ∀ part, part <+: y → part ≠ y → ∀ c : Conn, c.caps = caps →
    c.inp = Spec.answers pre ++ part →
    ∃ c', run c = .err .io c' ∧ Spec.Heard caps c.out c'.out (pre.map (·.1) ++ [s])

theorem Live.waits {α β : Type} {caps : Nat} {x : M α} {f : α → M β} {r1 r2 : List (Spec.Said × Bytes)} {a : α}
    (hx : Live caps x r1 a) (hf : Waits caps (f a) r2) : Waits caps (x >>= f) (r1 ++ r2) := by
  intro pre s y post h part hp hne c hc hi
  rcases List.append_eq_append_iff.1 h with ⟨m, h1, h2⟩ | ⟨m, h1, h2⟩
  · subst h1
    rw [answers_append, List.append_assoc] at hi
    obtain ⟨c1, e1, i1, k1, o1⟩ := hx.1 c _ hc hi
    obtain ⟨c2, e2, o2⟩ := hf m s y post h2 part hp hne c1 k1 i1
    refine ⟨c2, by rw [M.bind_apply, e1]; exact e2, ?_⟩
    rw [List.map_append, List.append_assoc]
    exact Heard.append o1 o2
  · rcases m with _ | ⟨⟨s', y'⟩, m⟩
    · simp only [List.append_nil, List.nil_append] at h1 h2
      subst h1
      obtain ⟨c1, e1, i1, k1, o1⟩ := hx.1 c _ hc hi
      obtain ⟨c2, e2, o2⟩ := hf [] s y post h2.symm part hp hne c1 k1 (by simpa [Spec.answers] using i1)
      exact ⟨c2, by rw [M.bind_apply, e1]; exact e2, Heard.append o1 o2⟩
    · simp only [List.cons_append, List.cons.injEq, Prod.mk.injEq] at h2
      obtain ⟨⟨rfl, rfl⟩, -⟩ := h2
      obtain ⟨c1, e1, o1⟩ := hx.2 pre s y m h1 part hp hne c hc hi
      exact ⟨c1, by rw [M.bind_apply, e1]; rfl, o1⟩

theorem Waits.one {α : Type} {caps : Nat} {run : M α} {bs : Bytes} {s : Spec.Said} {y : Bytes}
    (h1 : SendsOne bs run) (h2 : Inc run) (h3 : ∀ caps, Spec.Hears caps bs s)
    (h4 : ∀ c : Conn, c.caps = caps → c.inp = y → ∃ a c', run c = .ok a c' ∧ c'.inp = []) : Waits caps run [(s, y)] := by
  intro pre s' y' post h part hp hne c hc hi
  have hpre : pre = [] := by
    rcases pre with _ | ⟨p, pre⟩
    · rfl
    · simp at h
  subst hpre
  simp only [List.nil_append, List.cons.injEq, Prod.mk.injEq] at h
  obtain ⟨⟨rfl, rfl⟩, -⟩ := h
  obtain ⟨z, rfl⟩ := hp
  have hz : z ≠ [] := fun e => hne (by simp [e])
  have hi : c.inp = part := by simpa [Spec.answers] using hi
  obtain ⟨a, c2, e2, i2⟩ := h4 (Spec.arrived c z) hc (by show c.inp ++ z = _; rw [hi])
  obtain ⟨c', hr⟩ := h2.waits c z hz a c2 e2 i2
  exact ⟨c', hr, (h1.says h3) caps c c' (Or.inr ⟨_, hr⟩)⟩

/-! ### a stream of events -/

/-- setting a user variable, or where it waits -/
def liveUserVar (name : Bytes) (v : StmtColumnValue) : M Unit := fun c =>
  match (Ask.setUserVar name v).live c with
  | .ok .done c' => .ok () c'
  | .ok (.failed e) c' => .err e c'
  | .ok _ _ => .panic
  | .err e c' => .err e c'
  | .panic => .panic
  | .hang => .hang

/-- `BinlogRequest.setup`, or where it waits -/
def liveSetup (r : BinlogRequest) (uuid : Bytes) (random : Nat) : M (Bytes × Bytes × Nat) := do
  let masterId ← Cmd.getVar (uintFromText 32).nonNull (Cmd.str "SERVER_ID") true
  let masterId ← M.someOr .emptyResultSet masterId
  liveUserVar (Cmd.str "MASTER_HEARTBEAT_PERIOD") (.newUnsignedBigint (r.heartbeatNanos % 2 ^ 64))
  let checksum ← Cmd.getVar stringFromText.nonNull (Cmd.str "BINLOG_CHECKSUM") true
  let checksum ← M.someOr .custom checksum
  liveUserVar (Cmd.str "MASTER_BINLOG_CHECKSUM") (.newVarstring checksum)
  let gtidMode ← Cmd.getVar stringFromText.nonNull (Cmd.str "GTID_MODE") true
  let gtidMode ← M.someOr .custom gtidMode
  let serverUuid ← Cmd.getVar stringFromText.nonNull (Cmd.str "SERVER_UUID") true
  let _ ← M.someOr .custom serverUuid
  liveUserVar (Cmd.str "SLAVE_UUID") (.newVarstring uuid)
  let slaveId := if r.serverId ≠ 0 then r.serverId else random
  okCommand (ComRegisterSlave.writeTo [] ⟨slaveId, [], [], [], 0, 0, masterId⟩).1
  return (checksum, gtidMode, slaveId)

/-- a stream is requested and then `n` events are asked for, or where this waits -/
def liveStream (r : BinlogRequest) (uuid : Bytes) (random n : Nat) : M (List (Option Event) × BinlogStream) := do
  let s ← liveSetup r uuid random
  sendMsg (r.dumpBytes s.2.2 s.2.1) true
  let s ← r.firstEvents (decide (s.1 = Cmd.str "CRC32"))
  s.calls n

/-- the same with the calls of the library -/
def streamed (r : BinlogRequest) (uuid : Bytes) (random n : Nat) : M (List (Option Event) × BinlogStream) := do
  let s ← r.requestStream uuid random
  s.calls n

/-- the part of a dialogue in which a user variable is set, under the statement id `id` -/
def Spec.SettingRounds (caps : Nat) (name : List UInt8) (id : Nat) (v : Spec.ServerParam) (rounds : List (Spec.Said × Bytes)) :
    Prop :=
  ∃ (msgs : List Bytes) (f : Spec.OkFields) (y1 y2 : Bytes), Spec.AcceptsPreparing caps id msgs ∧ f.InRange ∧
    Spec.Sends y1 msgs ∧ Spec.Sends y2 [Spec.okPacket caps 0 f] ∧
    rounds = [(.command (.stmtPrepare (Spec.ascii "SET @" ++ name ++ Spec.ascii " = ?")), y1), (.execute id [v], y2),
      (.command (.stmtClose id), [])]

/-- the part in which a global variable is asked for -/
def Spec.AskingRounds (caps : Nat) (name value : List UInt8) (rounds : List (Spec.Said × Bytes)) : Prop :=
  ∃ (msgs : List Bytes) (y : Bytes), Spec.TellsVariable caps value msgs ∧ Spec.Sends y msgs ∧
    rounds = [(.command (.query (Spec.showVariable true name)), y)]

/-- a master answers every question and accepts every setting and the registration, message by message -/
def Spec.SetupRounds (caps heartbeat : Nat) (uuid : List UInt8) (slaveId masterId : Nat) (checksum gtidMode : List UInt8)
    (rounds : List (Spec.Said × Bytes)) : Prop :=
  ∃ (idText suuid : Bytes) (i j k : Nat) (r1 r2 r3 r4 r5 r6 r7 : List (Spec.Said × Bytes)) (f : Spec.OkFields) (y : Bytes),
    Spec.readUnsigned idText = some masterId ∧ masterId < 2 ^ 32 ∧
    validUtf8 checksum = true ∧ validUtf8 gtidMode = true ∧ validUtf8 suuid = true ∧
    Spec.AskingRounds caps (Spec.ascii "SERVER_ID") idText r1 ∧
    Spec.SettingRounds caps (Spec.ascii "MASTER_HEARTBEAT_PERIOD") i (Spec.bigintParam heartbeat) r2 ∧
    Spec.AskingRounds caps (Spec.ascii "BINLOG_CHECKSUM") checksum r3 ∧
    Spec.SettingRounds caps (Spec.ascii "MASTER_BINLOG_CHECKSUM") j (Spec.stringParam checksum) r4 ∧
    Spec.AskingRounds caps (Spec.ascii "GTID_MODE") gtidMode r5 ∧
    Spec.AskingRounds caps (Spec.ascii "SERVER_UUID") suuid r6 ∧
    Spec.SettingRounds caps (Spec.ascii "SLAVE_UUID") k (Spec.stringParam uuid) r7 ∧
    f.InRange ∧ Spec.Sends y [Spec.okPacket caps 0 f] ∧
    rounds = r1 ++ r2 ++ r3 ++ r4 ++ r5 ++ r6 ++ r7 ++ [(.command (.registerSlave slaveId [] [] [] 0 0 masterId), y)]

/-! #### proofs -/

/-- `y` succeeds wherever `x` does, with the same result -/
def OkSub {α : Type} (x y : M α) : Prop := ∀ c a c', x c = .ok a c' → y c = .ok a c'

theorem OkSub.rfl {α : Type} {x : M α} : OkSub x x := fun _ _ _ h => h

theorem OkSub.bind {α β : Type} {x y : M α} {f g : α → M β} (h : OkSub x y) (hf : ∀ a, OkSub (f a) (g a)) :
    OkSub (x >>= f) (y >>= g) := by
  intro c b c' hb
  rw [M.bind_apply] at hb ⊢
  cases hx : x c with
  | ok a c1 => rw [hx] at hb; rw [h c a c1 hx]; exact hf a c1 b c' hb
  | err e c1 => rw [hx] at hb; cases hb
  | panic => rw [hx] at hb; cases hb
  | hang => rw [hx] at hb; cases hb

theorem liveUserVar_same (name : Bytes) (v : StmtColumnValue) : OkSub (liveUserVar name v) (Cmd.setUserVar name v) := by
  intro c a c' h
  unfold liveUserVar at h
  split at h
  · rename_i c1 e
    have := C96_same _ _ _ _ e
    have : attempt (Cmd.setUserVar name v) (fun _ => .done) c = .ok .done c1 := this
    unfold attempt at this
    cases h
    cases hr : Cmd.setUserVar name v c with
    | ok u c2 => rw [hr] at this; cases this; rfl
    | err e c2 => rw [hr] at this; cases this
    | panic => rw [hr] at this; cases this
    | hang => rw [hr] at this; cases this
  all_goals cases h

theorem liveUserVar_live {caps : Nat} (name : Bytes) (v : StmtColumnValue) (hn : name.length + 64 < 255 * 0xffffff)
    (hv : v.Sound) (hp : ParamsFit [v]) {id : Nat} {rounds : List (Spec.Said × Bytes)}
    (h : Spec.SettingRounds caps name id (Spec.serverParam v) rounds) : Live caps (liveUserVar name v) rounds () := by
  obtain ⟨msgs, f, y1, y2, h1, h2, h3, h4, rfl⟩ := h
  have hl : Live caps (Ask.setUserVar name v).live _ .done := live_rounds (ask := .setUserVar name v) ⟨hn, hv, hp⟩
    (.sets id msgs f rfl h1 h2) (by simp) (rs := [(.command (.stmtPrepare (Spec.ascii "SET @" ++ name ++ Spec.ascii " = ?")), y1),
      (.execute id [Spec.serverParam v], y2), (.command (.stmtClose id), [])])
    (.cons ⟨rfl, h3⟩ (.cons ⟨rfl, h4⟩ (.cons ⟨rfl, Delivers.nil_iff.2 rfl⟩ .nil)))
  refine ⟨fun c rest hc hi => ?_, fun pre s y post h part hp hne c hc hi => ?_⟩
  · obtain ⟨c', e, i, k, o⟩ := hl.1 c rest hc hi
    exact ⟨c', by unfold liveUserVar; rw [e], i, k, o⟩
  · obtain ⟨c', e, o⟩ := hl.2 pre s y post h part hp hne c hc hi
    exact ⟨c', by unfold liveUserVar; rw [e], o⟩

theorem liveGetVar {α : Type} {caps : Nat} (conv : Option Bytes → Res α) (name : Bytes)
    (hn : name.length + 64 < 255 * 0xffffff) (value : Bytes) (a : α) (hv : conv (some value) = .ok a)
    {rounds : List (Spec.Said × Bytes)} (h : Spec.AskingRounds caps name value rounds) :
    Live caps (Cmd.getVar conv name true) rounds (some a) := by
  obtain ⟨msgs, y, h1, h2, rfl⟩ := h
  exact .one (SendsOne.getVar conv name true) (Inc.getVar conv name true)
    (SentAs.hears fun caps => (C19_string_commands caps [] _).1) (getVar_exchanges conv name hn caps value a hv msgs h1) h2

theorem Live.rounds {α : Type} {caps : Nat} {x : M α} {r r' : List (Spec.Said × Bytes)} {a : α} (h : Live caps x r a)
    (e : r = r') : Live caps x r' a := e ▸ h

theorem liveSetup_live (r : BinlogRequest) (uuid : Bytes) (hu : uuid.length = 36) (random : Nat) (hr : random < 2 ^ 32)
    (hid : r.serverId < 2 ^ 32) (hh : r.heartbeatNanos < 2 ^ 64) (caps masterId : Nat) (checksum gtidMode : Bytes)
    (hc : checksum.length < 251) {rounds : List (Spec.Said × Bytes)}
    (h : Spec.SetupRounds caps r.heartbeatNanos uuid (if r.serverId = 0 then random else r.serverId) masterId checksum gtidMode
      rounds) :
    Live caps (liveSetup r uuid random) rounds (checksum, gtidMode, if r.serverId = 0 then random else r.serverId) := by
  obtain ⟨idText, suuid, i, j, k, r1, r2, r3, r4, r5, r6, r7, f, y, h1, h2, h3, h4, h5, a1, a2, a3, a4, a5, a6, a7, hf, hy, rfl⟩ := h
  have p1 : Spec.serverParam (.newUnsignedBigint r.heartbeatNanos) = Spec.bigintParam r.heartbeatNanos := by
    simp [Spec.serverParam, Spec.bigintParam, StmtColumnValue.newUnsignedBigint, Spec.meaning, ColumnType.toByte]
  have p2 : ∀ s, Spec.serverParam (.newVarstring s) = Spec.stringParam s := fun s => by
    simp [Spec.serverParam, Spec.stringParam, StmtColumnValue.newVarstring, Spec.meaning, ColumnType.toByte]
  have fit : ∀ v : StmtColumnValue, (v.val.writeTo []).1.length < 300 → ParamsFit [v] := fun v h => by
    unfold ParamsFit MsgFits
    simp only [List.map_cons, List.map_nil, List.sum_cons, List.sum_nil]
    omega
  have e1 := liveGetVar (caps := caps) (uintFromText 32).nonNull (Cmd.str "SERVER_ID") (by decide +kernel) idText masterId
    (nonNull_some _ _ _ (((C66_unsigned 32 idText).1 masterId).2 ⟨h1, h2⟩)) a1
  have e2 := liveUserVar_live (caps := caps) (Cmd.str "MASTER_HEARTBEAT_PERIOD")
    (.newUnsignedBigint r.heartbeatNanos) (by decide +kernel) (bigint_sound _ hh)
    (fit _ (by simp [StmtColumnValue.newUnsignedBigint, BinaryColumnValue.writeTo, writeLeU64_spec])) (by rw [p1]; exact a2)
  have e3 := liveGetVar (caps := caps) stringFromText.nonNull (Cmd.str "BINLOG_CHECKSUM") (by decide +kernel) checksum checksum
    (nonNull_some _ _ _ ((C66_strings checksum).1 h3)) a3
  have e4 := liveUserVar_live (caps := caps) (Cmd.str "MASTER_BINLOG_CHECKSUM") (.newVarstring checksum) (by decide +kernel)
    (varstring_sound _ (by omega) (by omega)) (fit _ (by have := varstring_length checksum (by omega); omega)) (by rw [p2]; exact a4)
  have e5 := liveGetVar (caps := caps) stringFromText.nonNull (Cmd.str "GTID_MODE") (by decide +kernel) gtidMode gtidMode
    (nonNull_some _ _ _ ((C66_strings gtidMode).1 h4)) a5
  have e6 := liveGetVar (caps := caps) stringFromText.nonNull (Cmd.str "SERVER_UUID") (by decide +kernel) suuid suuid
    (nonNull_some _ _ _ ((C66_strings suuid).1 h5)) a6
  have e7 := liveUserVar_live (caps := caps) (Cmd.str "SLAVE_UUID") (.newVarstring uuid) (by decide +kernel)
    (varstring_sound _ (by rw [hu]; norm_num) (by rw [hu]; norm_num))
    (fit _ (by have := varstring_length uuid (by rw [hu]; norm_num); omega)) (by rw [p2]; exact a7)
  have hsl : (if r.serverId = 0 then random else r.serverId) < 2 ^ 32 := by split <;> assumption
  have e8 : Live caps _ [(_, y)] () := .one (SendsOne.okCommand _) (Inc.okCommand _) (SentAs.hears fun caps =>
      C19_register_slave_partial caps [] ⟨if r.serverId = 0 then random else r.serverId, [], [], [], 0, 0, masterId⟩ hsl
        (by simp) (by simp) (by simp) (by norm_num) (by norm_num) h2)
    (register_exchanges caps (if r.serverId = 0 then random else r.serverId) masterId hsl h2 f hf) hy
  have hmod : r.heartbeatNanos % 2 ^ 64 = r.heartbeatNanos := Nat.mod_eq_of_lt hh
  have hsw : (if r.serverId ≠ 0 then r.serverId else random) = if r.serverId = 0 then random else r.serverId := by
    by_cases h : r.serverId = 0 <;> simp [h]
  have ps : ∀ {β : Type} (e : Err) (a : β), Live caps (M.someOr e (some a)) [] a := fun e a => Live.pure caps a
  unfold liveSetup
  simp only [hsw, hmod]
  refine Live.rounds (e1.bind ((ps .emptyResultSet masterId).bind (e2.bind (e3.bind ((ps .custom checksum).bind (e4.bind (e5.bind
    ((ps .custom gtidMode).bind (e6.bind ((ps .custom suuid).bind (e7.bind (e8.bind (Live.pure caps _))))))))))))) ?_
  simp only [List.nil_append, List.append_nil, List.append_assoc]

theorem Inc.calls (s : BinlogStream) (n : Nat) : Inc (s.calls n) := by
  induction n generalizing s with
  | zero => exact Inc.pure _
  | succ n ih => exact (Inc.nextEvent s).bind fun _ => (ih _).bind fun _ => Inc.pure _

theorem Quiet.calls (s : BinlogStream) (n : Nat) : Quiet (s.calls n) := by
  induction n generalizing s with
  | zero => exact Quiet.pure _
  | succ n ih => exact (Quiet.nextEvent s).bind fun _ => (ih _).bind fun _ => Quiet.pure _

/-- what the master sends after the dump command: the two events of every stream, events, and, if it does not wait for
more, the end -/
def Spec.StreamBytes (checksum : List UInt8) (rot e : Spec.LogEvent) (alg : Nat) (es : List Spec.LogEvent)
    (last : List (List UInt8)) (y : List UInt8) : Prop :=
  Spec.Sends y ([Spec.streamMessage (decide (checksum = Spec.ascii "CRC32")) rot, Spec.streamMessage false e]
    ++ (es.map (Spec.streamMessage (decide (alg = 1))) ++ last))

/-- so many calls of `next_event` read all of this: those for the events this library knows, the last event being one of
them, or these and one more for the end -/
def Spec.ReadsAll (nonBlock : Bool) (es : List Spec.LogEvent) (last : List (List UInt8)) (n : Nat) : Prop :=
  (nonBlock = true ∧ (∃ eof, last = [0xfe :: eof]) ∧ n = (Spec.visible es).length + 1) ∨
  (last = [] ∧ n = (Spec.visible es).length ∧ ∀ x, es.getLast? = some x → x.code ∈ Spec.supportedCodes)

theorem reads_all (s : BinlogStream) (hs : s.completed = false) (es : List Spec.LogEvent) (hes : ∀ e ∈ es, e.InRange)
    (last : List Bytes) (n : Nat) (hn : Spec.ReadsAll s.nonBlock es last n) (c : Conn)
    (hd : Spec.Delivers c.inp (es.map (Spec.streamMessage s.pv4.checksum) ++ last) []) :
    ∃ a c', s.calls n c = .ok a c' ∧ c'.inp = [] := by
  rcases hn with ⟨hb, ⟨eof, rfl⟩, rfl⟩ | ⟨rfl, rfl, hlast⟩
  · obtain ⟨c', os, s', h1, -, h3, -⟩ := C53_end_partial s hs hb es hes eof [] c hd
    exact ⟨_, c', h1, h3⟩
  · obtain ⟨c', os, left, h1, -, -, -, h2, h3, h4⟩ := C53_events s hs es hes [] [] c hd
    refine ⟨_, c', h1, ?_⟩
    rcases left.eq_nil_or_concat with rfl | ⟨l, x, rfl⟩
    · exact Delivers.nil h4
    · obtain ⟨t, rfl⟩ := h2
      exact absurd (hlast x (by simp [List.getLast?_append])) (h3 x (by simp))

theorem Waits.owed {α : Type} {caps : Nat} {run : M α} {rounds : List (Spec.Said × Bytes)} (h : Waits caps run rounds)
    (c : Conn) (hc : c.caps = caps) (hp : c.inp <+: Spec.answers rounds) (hne : c.inp ≠ Spec.answers rounds) :
    ∃ c' k, run c = .err .io c' ∧ k < rounds.length ∧
      Spec.Heard caps c.out c'.out ((rounds.take (k + 1)).map (·.1)) ∧
      Spec.answers (rounds.take k) <+: c.inp ∧ c.inp.length < (Spec.answers (rounds.take (k + 1))).length := by
  obtain ⟨pre, s, y, post, p, h1, h2, h3, h4⟩ := cut_point _ _ hp hne
  obtain ⟨c', e, ho⟩ := h pre s y post h1 p h3 h4 c hc h2
  have hl : p.length < y.length := by
    rcases Nat.lt_or_ge p.length y.length with h | h
    · exact h
    · exact absurd (h3.eq_of_length_le h) h4
  have t1 : (pre ++ (s, y) :: post).take (pre.length + 1) = pre ++ [(s, y)] := by
    rw [List.take_append]; simp
  refine ⟨c', pre.length, e, by rw [h1]; simp, ?_, ?_, ?_⟩
  · rw [h1, t1]; simpa using ho
  · rw [h1, List.take_left, h2]; exact List.prefix_append _ _
  · rw [h1, t1, answers_append, h2]
    simp [Spec.answers]
    exact hl

/-- a stream that does not wait is the stream of the library -/
theorem C96_stream_same (r : BinlogRequest) (uuid : Bytes) (random n : Nat) (c c' : Conn)
    (o : List (Option Event) × BinlogStream) (h : liveStream r uuid random n c = .ok o c') :
    streamed r uuid random n c = .ok o c' := by
  have hs : OkSub (liveSetup r uuid random) (r.setup uuid random) := by
    unfold liveSetup BinlogRequest.setup
    exact OkSub.rfl.bind fun _ => OkSub.rfl.bind fun _ => (liveUserVar_same _ _).bind fun _ => OkSub.rfl.bind fun _ =>
      OkSub.rfl.bind fun _ => (liveUserVar_same _ _).bind fun _ => OkSub.rfl.bind fun _ => OkSub.rfl.bind fun _ =>
      OkSub.rfl.bind fun _ => OkSub.rfl.bind fun _ => (liveUserVar_same _ _).bind fun _ => OkSub.rfl
  have key : OkSub (liveStream r uuid random n) (r.setup uuid random >>= fun s => sendMsg (r.dumpBytes s.2.2 s.2.1) true >>=
      fun _ => r.firstEvents (decide (s.1 = Cmd.str "CRC32")) >>= fun s => s.calls n) := hs.bind fun _ => OkSub.rfl
  have := key c o c' h
  unfold streamed BinlogRequest.requestStream
  simpa only [bind_assoc] using this

/-- C96, streams: for every request and every master that answers, message by message: if only a part of the answers has
arrived, wherever it is cut off, the client waits, and the master has heard exactly the first `k + 1` messages, whole, has
answered the `k` before it, and has not wholly answered the last one. The answer to the dump command is the stream itself,
so while a stream waits for events, the master has heard the dump command, and nothing after it. (Full claim: without the
limits of `C74_request_partial`; and also for calls after the end of the stream, for which it is false, see
`C96_after_end_false`.) -/
theorem C96_stream_partial (r : BinlogRequest) (ok : r.Ok) (uuid : Bytes) (hu : uuid.length = 36) (random : Nat)
    (hr : random < 2 ^ 32) (caps masterId : Nat) (checksum gtidMode : Bytes) (hc : checksum.length < 251)
    (hl : r.binlogFilename.length + SidData.bytesLen r.sids + 64 < 255 * 0xffffff)
    (hg : gtidMode ≠ Spec.ascii "ON" → r.binlogPos < 2 ^ 32 ∧ r.sids = []) (setup : List (Spec.Said × Bytes))
    (h : Spec.SetupRounds caps r.heartbeatNanos uuid (if r.serverId = 0 then random else r.serverId) masterId checksum gtidMode
      setup)
    (rot : Spec.LogEvent) (pos : Nat) (file : Bytes) (hrot : Spec.RotateTo rot pos file) (e : Spec.LogEvent) (f : Spec.Fde)
    (alg : Nat) (he : Spec.Describes e f alg) (es : List Spec.LogEvent) (hes : ∀ e ∈ es, e.InRange) (last : List Bytes)
    (y : Bytes) (hy : Spec.StreamBytes checksum rot e alg es last y) (n : Nat) (hn : Spec.ReadsAll r.nonBlock es last n)
    (rounds : List (Spec.Said × Bytes))
    (hrounds : rounds = setup ++ [(.command (Spec.dumpSaid gtidMode r.binlogFilename r.binlogPos
      (if r.serverId = 0 then random else r.serverId) r.sids r.nonBlock), y)])
    (c : Conn) (hcaps : c.caps = caps) :
    (c.inp = Spec.answers rounds → ∃ o c', liveStream r uuid random n c = .ok o c' ∧ streamed r uuid random n c = .ok o c' ∧
      c'.inp = []) ∧
    (c.inp <+: Spec.answers rounds → c.inp ≠ Spec.answers rounds →
      ∃ c' k, liveStream r uuid random n c = .err .io c' ∧ k < rounds.length ∧
        Spec.Heard caps c.out c'.out ((rounds.take (k + 1)).map (·.1)) ∧
        Spec.answers (rounds.take k) <+: c.inp ∧ c.inp.length < (Spec.answers (rounds.take (k + 1))).length) := by
  have hsl : (if r.serverId = 0 then random else r.serverId) < 2 ^ 32 := by
    split
    · exact hr
    · exact ok.serverId_lt
  have e1 := liveSetup_live r uuid hu random hr ok.serverId_lt ok.heartbeat_lt caps masterId checksum gtidMode hc h
  have e3 := dump_exchanges r ok _ gtidMode hsl hl hg caps
  have e2 := firstEvents_exchanges r caps (decide (checksum = Spec.ascii "CRC32")) rot pos file hrot e f alg he
  obtain ⟨w, hw, hs⟩ := dump_sent r _ gtidMode hsl (lt_trans ok.file_len (by norm_num)) ok.file_utf8 ok.pos_lt
    ok.sids_ok (lt_trans ok.sids_len (by norm_num)) hg
  have hall : ∀ c : Conn, c.caps = caps → c.inp = y → ∃ a c',
      (sendMsg (r.dumpBytes (if r.serverId = 0 then random else r.serverId) gtidMode) true >>= fun _ =>
        r.firstEvents (decide (checksum = Spec.ascii "CRC32")) >>= fun s => s.calls n) c = .ok a c' ∧ c'.inp = [] := by
    intro c hcaps hi
    have hd := hy
    unfold Spec.StreamBytes Spec.Sends at hd
    rw [← hi] at hd
    obtain ⟨mid, d1, d2⟩ := Delivers.append hd
    obtain ⟨c1, a1, a2, a3, -⟩ := (e3.bind (f := fun _ => r.firstEvents (decide (checksum = Spec.ascii "CRC32"))) e2) c mid
      hcaps (by simpa using d1)
    obtain ⟨a, c2, b1, b2⟩ := reads_all ⟨⟨0 :: f.lens, decide (alg = 1)⟩, r.validateChecksum, false, r.nonBlock⟩ rfl es hes
      last n hn c1 (by rw [a2]; exact d2)
    refine ⟨a, c2, ?_, b2⟩
    rw [← bind_assoc, M.bind_apply, a1]
    exact b1
  have hw2 : Waits caps (liveStream r uuid random n) rounds := by
    rw [hrounds]
    refine e1.waits (f := fun s => sendMsg (r.dumpBytes s.2.2 s.2.1) true >>= fun _ =>
      r.firstEvents (decide (s.1 = Cmd.str "CRC32")) >>= fun s => s.calls n) (Waits.one (bs := w.1) ?_ ?_ (SentAs.hears hs) hall)
    · rw [hw]
      exact (SendsOne.sendMsg _).bind fun _ => (Quiet.firstEvents r _).bind fun _ => Quiet.calls _ _
    · exact (Inc.sendMsg _ _).bind fun _ => (Inc.firstEvents r _).bind fun _ => Inc.calls _ _
  refine ⟨fun hi => ?_, fun hp hne => hw2.owed c hcaps hp hne⟩
  rw [hrounds, answers_append] at hi
  obtain ⟨c1, a1, a2, a3, -⟩ := e1.1 c _ hcaps hi
  obtain ⟨a, c2, b1, b2⟩ := hall c1 a3 (by rw [a2]; simp [Spec.answers])
  have : liveStream r uuid random n c = .ok a c2 := by
    unfold liveStream
    rw [M.bind_apply, a1]
    exact b1
  exact ⟨a, c2, this, C96_stream_same r uuid random n c c2 a this, b2⟩

/-- C96, a call after the end: the master has answered everything, it has even said that there are no more events, and the
client waits. -/
theorem C96_after_end_false (s : BinlogStream) (hs : s.completed = false) (hb : s.nonBlock = true) (eof : Bytes) (c : Conn)
    (hd : Spec.Sends c.inp [0xfe :: eof]) :
    ∃ c1 c2, s.nextEvent c = .ok (none, s) c1 ∧ s.nextEvent c1 = .err .io c2 ∧ c1.inp = [] ∧ c2.out = c.out := by
  obtain ⟨c1, d1, d2, d3, d4⟩ := Delivers.recv hd
  have hi := Delivers.nil d3
  have hr : s.recvAndParse c = .ok .theEnd c1 := by
    unfold BinlogStream.recvAndParse
    rw [d1]
    dsimp only
    rw [if_pos (by simp [hb])]
  have hn : s.nextEvent c = .ok (none, s) c1 := by
    unfold BinlogStream.nextEvent
    rw [if_neg (by simp [hs]), BinlogStream.nextLoop.eq_def, hr]
  obtain ⟨c2, h2⟩ := C53_after_end_error s hs hb eof c hd
  have h2 : ((s.nextEvent >>= fun p => p.2.calls 1 >>= fun q => pure (p.1 :: q.1, q.2)) c : MR _) = .err .io c2 := h2
  rw [M.bind_apply, hn, MR.bind_ok] at h2
  have h2 : ((s.nextEvent >>= fun p => pure ([p.1], p.2)) >>= fun q => pure ((none : Option Event) :: q.1, q.2) : M _) c1
      = .err .io c2 := h2
  rw [bind_assoc, M.bind_apply] at h2
  cases hr2 : s.nextEvent c1 with
  | ok v c3 => rw [hr2] at h2; cases h2
  | err e c3 =>
    rw [hr2] at h2
    cases h2
    exact ⟨c1, c2, hn, hr2, hi, by rw [Quiet.nextEvent s c1 c2 (Or.inr ⟨_, hr2⟩), d2.out]⟩
  | panic => rw [hr2] at h2; cases h2
  | hang => rw [hr2] at h2; cases h2

/-! ### connecting -/

/-- the end of a login: one more message is due -/
theorem loop_waits (H : Hashes) (caps : Nat) (plugin : AuthPlugin) (c : Conn) (z m : Bytes) (hz : z ≠ [])
    (hd : Spec.Delivers (c.inp ++ z) [m] []) : ∃ c', handshakeLoop H caps plugin c = .err .io c' ∧ c'.out = c.out := by
  rcases recv_part hd with ⟨c', h1, h2⟩ | ⟨c', -, -, h2, -⟩
  · exact ⟨c', by rw [handshakeLoop.eq_def, h1], h2⟩
  · have := Delivers.nil h2
    simp [hz] at this

/-- "fast authentication succeeded" and one more message are due -/
theorem loop_waits_more (H : Hashes) (caps : Nat) (password : Bytes) (hpw : password ≠ []) (c : Conn) (z m : Bytes) (hz : z ≠ [])
    (hd : Spec.Delivers (c.inp ++ z) [Spec.authMoreData [3], m] []) :
    ∃ c', handshakeLoop H caps (.cachingSha2 password [] .readResult false) c = .err .io c' ∧ c'.out = c.out := by
  rcases recv_part hd with ⟨c', h1, h2⟩ | ⟨c1, h1, h2, h3, h4⟩
  · exact ⟨c', by rw [handshakeLoop.eq_def, h1], h2⟩
  · have hnx : (AuthPlugin.cachingSha2 password [] .readResult false).next H [3]
        = .ok ([], .cachingSha2 password [] .complete false) := by
      simp [AuthPlugin.next, hpw]
    obtain ⟨c', g1, g2⟩ := loop_waits H caps (.cachingSha2 password [] .complete false) c1 z m hz h3
    refine ⟨c', ?_, by rw [g2, h2.out]⟩
    rw [handshakeLoop.eq_def, h1]
    simp only [M.parse_ok (handshakeMessage_more _ _), hnx, List.isEmpty_nil, if_true, M.pure_apply]
    rw [if_pos h4]
    exact g1

/-- a login, with the greeting and the answers cut off -/
theorem login_waits (H : Hashes) (opts : ConnOpts) (f : Spec.HandshakeFields) (hf : f.InRange)
    (hsec : f.caps.testBit Spec.SECURE_CONNECTION = true) (hpl : f.caps.testBit Spec.PLUGIN_AUTH = true)
    (h8 : 8 ≤ f.authLen) (plugin plugin' : AuthPlugin) (resp : Bytes) (hnew : newAuthPlugin f.pluginName = .ok plugin)
    (hgen : genInitAuthResp H plugin opts.password (f.data1 ++ f.data2) = .ok (resp, plugin'))
    (hrl : resp.length < 251) (hu : (0 : UInt8) ∉ opts.username) (hdb : (0 : UInt8) ∉ opts.database)
    (hsz : opts.username.length + opts.database.length < 2 ^ 30) (hfl : (Spec.handshakeV10 f).length < 0xffffff)
    (greeting : Bytes) (hgr : greeting = Spec.wire [⟨0, Spec.handshakeV10 f⟩]) (ms : List Bytes) (y : Bytes)
    (hy : Spec.Sends y ms)
    (hloop : ∀ (c : Conn) (z : Bytes), z ≠ [] → Spec.Delivers (c.inp ++ z) ms [] →
      ∃ c', handshakeLoop H (Spec.clientCaps opts.database) plugin' c = .err .io c' ∧ c'.out = c.out)
    (c : Conn) (hc : c.caps = 0) (hp : c.inp <+: greeting ++ y) (hne : c.inp ≠ greeting ++ y) :
    ∃ c', handshake H opts c = .err .io c' ∧
      (c.inp.length < greeting.length → c'.out = c.out) ∧
      (greeting.length ≤ c.inp.length → ∃ ps, c'.out = c.out ++ Spec.wire ps ∧ Spec.IsMessage ps ∧ Spec.Numbered 1 ps ∧
        Spec.D.all Spec.D.handshakeResponse41 (Spec.payload ps) = some ⟨Spec.clientCaps opts.database, 0xffffff, 33,
          opts.username, resp, opts.database, f.pluginName, []⟩) := by
  obtain ⟨z, hz⟩ := hp
  have hz0 : z ≠ [] := fun e => hne (by rw [← hz, e, List.append_nil])
  rcases Nat.lt_or_ge c.inp.length greeting.length with hlt | hge
  · have hm : Spec.IsMessage [⟨0, Spec.handshakeV10 f⟩] := ⟨[], _, rfl, by simp, hfl, by simp⟩
    rcases List.append_eq_append_iff.1 hz with ⟨t, h1, h2⟩ | ⟨t, h1, h2⟩
    · have ht : t ≠ [] := fun e => by rw [h1, e, List.append_nil] at hlt; omega
      obtain ⟨nr, r1, -⟩ := C11_recv_message [⟨0, Spec.handshakeV10 f⟩] hm [] (Spec.arrived c t)
        (by show c.inp ++ t = _; rw [← h1, hgr, List.append_nil])
      obtain ⟨c', hr⟩ := Inc.recvMsg.waits c t ht _ _ r1 rfl
      refine ⟨c', ?_, fun _ => Quiet.recvMsg c c' (Or.inr ⟨_, hr⟩), fun h => absurd h (by omega)⟩
      unfold handshake
      rw [M.bind_apply, hr]
      rfl
    · rw [h1] at hlt
      simp at hlt
  · obtain ⟨t, ht⟩ : ∃ t, c.inp = greeting ++ t := by
      rcases List.append_eq_append_iff.1 hz with ⟨t, h1, h2⟩ | ⟨t, h1, h2⟩
      · have : t = [] := by
          rw [h1] at hge
          simp at hge
          exact hge
        exact ⟨[], by rw [h1, this]; simp⟩
      · exact ⟨t, h1⟩
    obtain ⟨c1, ps, b1, b2, b3, b4, b5, b6, b7⟩ := handshake_sent H opts f hf hsec hpl h8 plugin plugin' resp hnew hgen hrl hu hdb
      hsz c hc t hfl (by rw [ht, hgr])
    have hyt : y = t ++ z := by
      rw [ht, List.append_assoc] at hz
      exact (List.append_cancel_left hz).symm
    obtain ⟨c', g1, g2⟩ := hloop c1 z hz0 (by rw [b2, ← hyt]; exact hy)
    exact ⟨c', by rw [b1]; exact g1, fun h => absurd h (by omega), fun _ => ⟨ps, by rw [g2, b3], b5, b6, b7⟩⟩

/-- C96, connecting with mysql_native_password: until the whole greeting has arrived, the client waits and has said
nothing: the server owes it the greeting. From then on, until the whole answer has arrived, whatever message it is, the
client waits and the server has heard the client's one message, whole. -/
theorem C96_login_native (H : Hashes) (hH : H.Sized) (opts : ConnOpts) (f : Spec.HandshakeFields) (hf : f.InRange)
    (hsec : f.caps.testBit Spec.SECURE_CONNECTION = true) (hpl : f.caps.testBit Spec.PLUGIN_AUTH = true)
    (h8 : 8 ≤ f.authLen) (hname : f.pluginName = Spec.ascii "mysql_native_password") (nonce : Bytes)
    (hn : f.data1 ++ f.data2 = nonce ++ [0])
    (hu : (0 : UInt8) ∉ opts.username) (hdb : (0 : UInt8) ∉ opts.database)
    (hsz : opts.username.length + opts.database.length < 2 ^ 30) (hfl : (Spec.handshakeV10 f).length < 0xffffff)
    (greeting : Bytes) (hgr : greeting = Spec.wire [⟨0, Spec.handshakeV10 f⟩]) (m y : Bytes) (hy : Spec.Sends y [m])
    (c : Conn) (hc : c.caps = 0) (hp : c.inp <+: greeting ++ y) (hne : c.inp ≠ greeting ++ y) :
    ∃ c', handshake H opts c = .err .io c' ∧
      (c.inp.length < greeting.length → c'.out = c.out) ∧
      (greeting.length ≤ c.inp.length → ∃ ps resp, c'.out = c.out ++ Spec.wire ps ∧ Spec.IsMessage ps ∧ Spec.Numbered 1 ps ∧
        Spec.D.all Spec.D.handshakeResponse41 (Spec.payload ps) = some ⟨Spec.clientCaps opts.database, 0xffffff, 33,
          opts.username, resp, opts.database, Spec.ascii "mysql_native_password", []⟩ ∧
        Spec.nativeAccepts H.sha1 (Spec.stored H.sha1 opts.password) nonce resp) := by
  obtain ⟨plugin, resp, plugin', a1, a2, a3⟩ := C44_native H hH opts.password nonce
  have hrl : resp.length < 251 := by
    unfold Spec.nativeAccepts at a3
    split at a3
    · rw [a3]; simp
    · rw [a3.1]; norm_num
  obtain ⟨c', g1, g2, g3⟩ := login_waits H opts f hf hsec hpl h8 plugin plugin' resp
    (by rw [hname]; exact a1) (by rw [hn]; exact a2) hrl hu hdb hsz hfl greeting hgr [m] y hy
    (fun c z hz hd => loop_waits H _ _ c z m hz hd) c hc hp hne
  refine ⟨c', g1, g2, fun h => ?_⟩
  obtain ⟨ps, h1, h2, h3, h4⟩ := g3 h
  exact ⟨ps, resp, h1, h2, h3, by rw [← hname]; exact h4, a3⟩

/-- C96, connecting with caching_sha2_password to a server that says "fast authentication succeeded" and then one more
message, whatever it is. (Full claim: also the other outcomes of this method, which the library does not follow, and an
answer made for the nonce of the server, see C45 and C56.) -/
theorem C96_login_caching_partial (H : Hashes) (hH : H.Sized) (opts : ConnOpts) (f : Spec.HandshakeFields) (hf : f.InRange)
    (hsec : f.caps.testBit Spec.SECURE_CONNECTION = true) (hpl : f.caps.testBit Spec.PLUGIN_AUTH = true)
    (h8 : 8 ≤ f.authLen) (hname : f.pluginName = Spec.ascii "caching_sha2_password") (hpw : opts.password ≠ [])
    (hu : (0 : UInt8) ∉ opts.username) (hdb : (0 : UInt8) ∉ opts.database)
    (hsz : opts.username.length + opts.database.length < 2 ^ 30) (hfl : (Spec.handshakeV10 f).length < 0xffffff)
    (greeting : Bytes) (hgr : greeting = Spec.wire [⟨0, Spec.handshakeV10 f⟩]) (m y : Bytes)
    (hy : Spec.Sends y [Spec.authMoreData [3], m])
    (c : Conn) (hc : c.caps = 0) (hp : c.inp <+: greeting ++ y) (hne : c.inp ≠ greeting ++ y) :
    ∃ c', handshake H opts c = .err .io c' ∧
      (c.inp.length < greeting.length → c'.out = c.out) ∧
      (greeting.length ≤ c.inp.length → ∃ ps resp, c'.out = c.out ++ Spec.wire ps ∧ Spec.IsMessage ps ∧ Spec.Numbered 1 ps ∧
        Spec.D.all Spec.D.handshakeResponse41 (Spec.payload ps) = some ⟨Spec.clientCaps opts.database, 0xffffff, 33,
          opts.username, resp, opts.database, Spec.ascii "caching_sha2_password", []⟩ ∧
        Spec.cachingAccepts H.sha256 (Spec.stored H.sha256 opts.password) [] resp) := by
  have hsc := cachingSha2_accepted H hH opts.password [] hpw
  have hrl : (scrambleCachingSha2 H opts.password []).length < 251 := by
    unfold Spec.cachingAccepts at hsc
    split at hsc
    · rw [hsc]; simp
    · rw [hsc.1]; norm_num
  obtain ⟨c', g1, g2, g3⟩ := login_waits H opts f hf hsec hpl h8
    (.cachingSha2 [] [] .sendScramble false) (.cachingSha2 opts.password [] .readResult false)
    (scrambleCachingSha2 H opts.password [])
    (by rw [hname, ← cachingName_ascii]; decide)
    (by simp [genInitAuthResp, AuthPlugin.setCredential, AuthPlugin.next, hpw]) hrl hu hdb hsz hfl greeting hgr _ y hy
    (fun c z hz hd => loop_waits_more H _ _ hpw c z m hz hd) c hc hp hne
  refine ⟨c', g1, g2, fun h => ?_⟩
  obtain ⟨ps, h1, h2, h3, h4⟩ := g3 h
  exact ⟨ps, _, h1, h2, h3, by rw [← hname]; exact h4, hsc⟩

/-! ### changing the user -/

/-- C96, changing the user: the client waits with the command said until the whole next message has arrived, and with the
proof said, if the server asked for one by mysql_native_password, until the whole message after that has arrived. (Full
claim: also for other questions of the server, which the library does not answer, see C60.) -/
theorem C96_change_user_partial (H : Hashes) (hH : H.Sized) (caps : Nat) (user password db : Bytes)
    (attrs : List (Bytes × Bytes)) (hcar : (Step.changeUser user password db attrs).Carried) (nonce : Bytes)
    (hn : nonce.length < 1000) (question : Bytes)
    (hq : question = Spec.wire [⟨1, Spec.authSwitch (Spec.ascii "mysql_native_password") (nonce ++ [0])⟩]) (m y : Bytes)
    (hy : Spec.Sends y [m]) (c : Conn) (hc : c.caps = caps) :
    (∀ q : Bytes, (q = question ∨ q = y) → c.inp <+: q → c.inp ≠ q →
      ∃ c' sent, changeUser H user password db (attrs.map fun (k, v) => ⟨k, v⟩) c = .err .io c' ∧ c'.out = c.out ++ sent ∧
        Spec.AllVoiced H.sha1 sent [(caps, .says (.command (Spec.changeUserCmd caps user db attrs)))]) ∧
    (∀ part, c.inp = question ++ part → part <+: y → part ≠ y →
      ∃ c' sent, changeUser H user password db (attrs.map fun (k, v) => ⟨k, v⟩) c = .err .io c' ∧ c'.out = c.out ++ sent ∧
        Spec.AllVoiced H.sha1 sent [(caps, .says (.command (Spec.changeUserCmd caps user db attrs))),
          (caps, .proves (Spec.stored H.sha1 password) nonce)]) := by
  have hmsg : Spec.IsMessage [⟨1, Spec.authSwitch (Spec.ascii "mysql_native_password") (nonce ++ [0])⟩] := ⟨[], _, rfl, by simp, by
      rw [← nativeName_ascii]
      have : nativeName.length = 21 := by decide
      simp [Spec.authSwitch, Spec.nulStr, Spec.length_u8, this]; omega, by simp⟩
  have wait : ∀ (plugin : Option AuthPlugin) (c : Conn) (z q m : Bytes), c.inp ++ z = q → z ≠ [] → Spec.Sends q [m] →
      ∃ c', changeUserLoop H password plugin c = .err .io c' ∧ c'.out = c.out := by
    intro plugin c z q m hi hz hs
    rcases recv_part (c := c) (z := z) (m := m) (ms := []) (rest := []) (by rw [hi]; exact hs) with ⟨c', h1, h2⟩ | ⟨c', -, -, h2, -⟩
    · exact ⟨c', by rw [changeUserLoop.eq_def, h1], h2⟩
    · have := Delivers.nil h2
      simp [hz] at this
  refine ⟨fun q hqy hp hne => ?_, fun part hi hp hne => ?_⟩
  · obtain ⟨z, hz⟩ := hp
    have hz0 : z ≠ [] := fun e => hne (by rw [← hz, e, List.append_nil])
    obtain ⟨m', hs⟩ : ∃ m', Spec.Sends q [m'] := by
      rcases hqy with rfl | rfl
      · refine ⟨_, [[⟨1, Spec.authSwitch (Spec.ascii "mysql_native_password") (nonce ++ [0])⟩]], ?_, rfl, ?_⟩
        · simpa using hmsg
        · simp [hq]
      · exact ⟨m, hy⟩
    obtain ⟨hu, hdb, hk, ht, hk', hsz⟩ := hcar
    obtain ⟨c0, s1, s2, s3, -, s4⟩ := changeUser_start H user password db attrs hu hdb hk ht hk' hsz c
    obtain ⟨c', g1, g2⟩ := wait none c0 z q m' (by rw [s2]; exact hz) hz0 hs
    obtain ⟨run, q1, q2, q3, q4⟩ := s4
    refine ⟨c', Spec.wire run, s1.trans g1, by rw [g2, q1], [run], by simp, .cons ⟨q2, q3, ?_⟩ .nil⟩
    rw [hc, nativeName_ascii] at q4
    exact q4
  · obtain ⟨z, hz⟩ := hp
    have hz0 : z ≠ [] := fun e => hne (by rw [← hz, e, List.append_nil])
    obtain ⟨c1, plugin, sent, h1, h2, h3, h4, h5⟩ := changeUser_passes H hH caps user password db attrs hcar nonce hn c part hc
      (by rw [hi, hq])
    obtain ⟨c', g1, g2⟩ := wait plugin c1 z y m (by rw [h2]; exact hz) hz0 hy
    exact ⟨c', sent, h1.trans g1, by rw [g2, h4], h5⟩

/-! ### examples -/

/-- a login whose greeting has arrived, but only a part of the answer -/
example : ∃ (c : Conn) (y : Bytes), c.caps = 0 ∧ Spec.Sends y [Spec.okPacket (Spec.clientCaps [116]) 0 ⟨0, 0, 2, 0, [], []⟩] ∧
    c.inp <+: Spec.wire [⟨0, Spec.handshakeV10 exampleGreeting⟩] ++ y ∧
    c.inp ≠ Spec.wire [⟨0, Spec.handshakeV10 exampleGreeting⟩] ++ y ∧
    (Spec.wire [⟨0, Spec.handshakeV10 exampleGreeting⟩]).length ≤ c.inp.length := by
  obtain ⟨y, h⟩ := delivers_small [Spec.okPacket (Spec.clientCaps [116]) 0 ⟨0, 0, 2, 0, [], []⟩] []
    (by intro m hm; simp only [List.mem_singleton] at hm; subst hm; decide +kernel)
  have hne : y ≠ [] := by
    rintro rfl
    obtain ⟨c', -, -, -, hl⟩ := Delivers.recv (c := ⟨[], [], 0, 0, 0⟩) h
    simp at hl
  exact ⟨⟨Spec.wire [⟨0, Spec.handshakeV10 exampleGreeting⟩], [], 0, 0, 0⟩, y, rfl, h, List.prefix_append _ _,
    fun e => hne (by simpa using e), le_refl _⟩

/-- a change of the user, with a part of the answer to the proof -/
example : ∃ (c : Conn) (part y : Bytes), (Step.changeUser (Spec.ascii "u") (Spec.ascii "p") [] []).Carried ∧
    Spec.Sends y [Spec.okPacket c.caps 0 ⟨0, 0, 2, 0, [], []⟩] ∧
    c.inp = Spec.wire [⟨1, Spec.authSwitch (Spec.ascii "mysql_native_password") ([1, 2, 3] ++ [0])⟩] ++ part ∧
    part <+: y ∧ part ≠ y := by
  obtain ⟨y, h⟩ := delivers_small [Spec.okPacket (Spec.clientCaps [116]) 0 ⟨0, 0, 2, 0, [], []⟩] []
    (by intro m hm; simp only [List.mem_singleton] at hm; subst hm; decide +kernel)
  have hne : y ≠ [] := by
    rintro rfl
    obtain ⟨c', -, -, -, hl⟩ := Delivers.recv (c := ⟨[], [], 0, 0, 0⟩) h
    simp at hl
  refine ⟨⟨Spec.wire [⟨1, Spec.authSwitch (Spec.ascii "mysql_native_password") ([1, 2, 3] ++ [0])⟩] ++ [], [], 0,
    Spec.clientCaps [116], 0⟩, [], y, ?_, h, rfl, List.nil_prefix, fun e => hne e.symm⟩
  exact ⟨by decide +kernel, by simp, by simp, by decide +kernel, by simp, by decide +kernel⟩

/-- a stream of two events and its end: fifteen messages -/
example : exampleRequest.Ok ∧ ∃ (setup : List (Spec.Said × Bytes)) (rot e : Spec.LogEvent) (es : List Spec.LogEvent) (last : List Bytes)
    (y : Bytes) (n : Nat),
    Spec.SetupRounds (2 ^ 9) exampleRequest.heartbeatNanos (List.replicate 36 65) 9 7 (Spec.ascii "CRC32") (Spec.ascii "ON") setup ∧
    setup.length = 14 ∧ Spec.RotateTo rot (2 ^ 33) (Spec.ascii "mysql-bin.000003") ∧ Spec.Describes e exampleFde 1 ∧
    (∀ e ∈ es, e.InRange) ∧ es.length = 2 ∧ Spec.StreamBytes (Spec.ascii "CRC32") rot e 1 es last y ∧
    Spec.ReadsAll true es last n := by
  have hsends : ∀ ms : List Bytes, (∀ m ∈ ms, m.length < 0xffffff) → ∃ inp, Spec.Sends inp ms := fun ms hm =>
    delivers_small ms [] hm
  refine ⟨exampleRequest_ok, ?_⟩
  let tells : Bytes → List Bytes := fun value => Spec.textAnswer (2 ^ 9) [exampleTextDef, exampleTextDef] 0 2
      [[some (Spec.ascii "x"), some value]] (Spec.eofPacket (2 ^ 9) 0 2)
  let rot : Spec.LogEvent := ⟨0, 4, 7, 0, 0, Spec.le 8 (2 ^ 33) ++ Spec.ascii "mysql-bin.000003"⟩
  let e : Spec.LogEvent := ⟨0, 15, 7, 0, 0, exampleFde.encode ++ Spec.u8 1 ++ Spec.le 4 5⟩
  let es : List Spec.LogEvent := [⟨1, 16, 7, 100, 0, Spec.le 8 3⟩, ⟨2, 16, 7, 200, 0, Spec.le 8 4⟩]
  obtain ⟨y, hy⟩ := hsends ([Spec.streamMessage true rot, Spec.streamMessage false e]
    ++ (es.map (Spec.streamMessage true) ++ [[0xfe, 0, 0, 2, 0]])) (by decide +kernel)
  obtain ⟨t1, h1⟩ := hsends (tells (Spec.ascii "7")) (by decide +kernel)
  obtain ⟨t2, h2⟩ := hsends (tells (Spec.ascii "CRC32")) (by decide +kernel)
  obtain ⟨t3, h3⟩ := hsends (tells (Spec.ascii "ON")) (by decide +kernel)
  obtain ⟨t4, h4⟩ := hsends (tells (Spec.ascii "u")) (by decide +kernel)
  obtain ⟨p1, g1⟩ := hsends (Spec.prepareResponse (2 ^ 9) ⟨1, 0⟩ [exampleTextDef] [] 0 2 0 0) (by decide +kernel)
  obtain ⟨k, hk⟩ := hsends [Spec.okPacket (2 ^ 9) 0 ⟨0, 0, 2, 0, [], []⟩] (by decide +kernel)
  have hf : Spec.OkFields.InRange ⟨0, 0, 2, 0, [], []⟩ := by constructor <;> norm_num
  have set : ∀ name v, Spec.SettingRounds (2 ^ 9) name 1 v [(.command (.stmtPrepare (Spec.ascii "SET @" ++ name ++ Spec.ascii " = ?")), p1),
      (.execute 1 [v], k), (.command (.stmtClose 1), [])] := fun name v =>
    ⟨_, ⟨0, 0, 2, 0, [], []⟩, p1, k, ⟨0, 0, 2, (exampleTextDef, .varString), by norm_num, by norm_num, by norm_num, by norm_num,
      exampleText_supported, rfl⟩, hf, g1, hk, rfl⟩
  have asks : ∀ name value z, value.length < 100 → Spec.Sends z (tells value) →
      Spec.AskingRounds (2 ^ 9) name value [(.command (.query (Spec.showVariable true name)), z)] :=
    fun name value z hl hz => ⟨_, z, example_tells value hl, hz, rfl⟩
  refine ⟨_, rot, e, es, _, y, 3, ⟨Spec.ascii "7", Spec.ascii "u", 1, 1, 1, _, _, _, _, _, _, _, ⟨0, 0, 2, 0, [], []⟩, k,
    by decide +kernel, by norm_num, by decide +kernel, by decide +kernel, by decide +kernel,
    asks _ _ t1 (by decide +kernel) h1, set _ _, asks _ _ t2 (by decide +kernel) h2, set _ _,
    asks _ _ t3 (by decide +kernel) h3, asks _ _ t4 (by decide +kernel) h4, set _ _, hf, hk, rfl⟩,
    rfl, ?_, ?_, ?_, rfl, hy, Or.inl ⟨rfl, ⟨[0, 0, 2, 0], rfl⟩, by decide +kernel⟩⟩
  · exact ⟨by unfold Spec.LogEvent.InRange; decide +kernel, rfl, by norm_num, rfl⟩
  · exact ⟨by unfold Spec.LogEvent.InRange; decide +kernel, exampleFde_ok.1, exampleFde_ok.2, by norm_num, 5, by norm_num, rfl⟩
  · unfold Spec.LogEvent.InRange
    decide +kernel

end Mybin
