/-
C74: requesting a binlog stream.
-/
import Verif.Model.Request
import Verif.Spec.Request
import Verif.Props.C70_C73
import Verif.Props.C53
import Verif.Props.C33_C47_C48

namespace Mybin

/-! ### exchanges -/

theorem Heard.nil (caps : Nat) (out : Bytes) : Spec.Heard caps out out [] := ⟨[], by simp, by simp, .nil⟩

theorem Heard.append {caps : Nat} {a b c : Bytes} {s t : List Spec.Said} (h1 : Spec.Heard caps a b s)
    (h2 : Spec.Heard caps b c t) : Spec.Heard caps a c (s ++ t) := by
  obtain ⟨r1, p1, rfl, q1⟩ := h1
  obtain ⟨r2, p2, rfl, q2⟩ := h2
  refine ⟨r1 ++ r2, ?_, by simp, List.rel_append q1 q2⟩
  intro r hr
  rcases List.mem_append.1 hr with h | h
  · exact p1 r h
  · exact p2 r h

theorem SentOne.heard {caps : Nat} {a b : Bytes} {cmd : Spec.ServerCmd} (h : SentOne caps a b cmd) :
    Spec.Heard caps a b [.command cmd] := by
  obtain ⟨ps, h1, h2, h3, h4⟩ := h
  exact ⟨[ps], by simpa using ⟨h2, h3⟩, by simpa using h1, .cons h4 .nil⟩

/-- on a connection with these flags whose server sends `answers`, `run` returns `a`, having read exactly the answers
and sent exactly the messages `said` -/
def Exchanges {α : Type} (caps : Nat) (run : M α) (answers : List Bytes) (a : α) (said : List Spec.Said) : Prop :=
  ∀ (c : Conn) (rest : Bytes), c.caps = caps → Spec.Delivers c.inp answers rest →
    ∃ c', run c = .ok a c' ∧ c'.inp = rest ∧ c'.caps = caps ∧ Spec.Heard caps c.out c'.out said

theorem Exchanges.pure {α : Type} (caps : Nat) (a : α) : Exchanges caps (Pure.pure a : M α) [] a [] := by
  intro c rest hc hd
  exact ⟨c, rfl, Delivers.nil hd, hc, Heard.nil _ _⟩

theorem Exchanges.bind {α β : Type} {caps : Nat} {x : M α} {f : α → M β} {m1 m2 : List Bytes} {a : α} {b : β}
    {s1 s2 : List Spec.Said} (h1 : Exchanges caps x m1 a s1) (h2 : Exchanges caps (f a) m2 b s2) :
    Exchanges caps (x >>= f) (m1 ++ m2) b (s1 ++ s2) := by
  intro c rest hc hd
  obtain ⟨mid, d1, d2⟩ := Delivers.append hd
  obtain ⟨c1, a1, a2, a3, a4⟩ := h1 c mid hc d1
  rw [← a2] at d2
  obtain ⟨c2, b1, b2, b3, b4⟩ := h2 c1 rest a3 d2
  exact ⟨c2, by rw [M.bind_apply, a1, MR.bind_ok, b1], b2, b3, Heard.append a4 b4⟩

/-- the answer of the server to the query for a variable: its value in the second column of the first row -/
def Spec.TellsVariable (caps : Nat) (value : Bytes) (msgs : List Bytes) : Prop :=
  ∃ (cols : List (Spec.ColDef × ColumnType)) (w s : Nat) (name : Option Bytes) (more : List (List (Option Bytes)))
    (term : Bytes), cols.length = 2 ∧ Spec.AnswerOk caps cols w s ([name, some value] :: more) term ∧
    msgs = Spec.textAnswer caps (cols.map (·.1)) w s ([name, some value] :: more) term

/-- the answer of the server to the query for a variable it does not know -/
def Spec.NoVariable (caps : Nat) (msgs : List Bytes) : Prop :=
  ∃ (cols : List (Spec.ColDef × ColumnType)) (w s : Nat) (term : Bytes), cols.length = 2 ∧
    Spec.AnswerOk caps cols w s [] term ∧ msgs = Spec.textAnswer caps (cols.map (·.1)) w s [] term

/-- the answers of the server to preparing a statement with one parameter under the id `id` and executing it -/
def Spec.AcceptsSetting (caps id : Nat) (msgs : List Bytes) : Prop :=
  ∃ (warnings w s : Nat) (param : Spec.ColDef × ColumnType) (f : Spec.OkFields), id < 2 ^ 32 ∧ warnings < 2 ^ 16 ∧
    w < 2 ^ 16 ∧ s < 2 ^ 15 ∧ Spec.Supported param ∧ f.InRange ∧
    msgs = Spec.prepareResponse caps ⟨id, warnings⟩ [param.1] [] w s 0 0 ++ [Spec.okPacket caps 0 f]

theorem getVar_exchanges {α : Type} (conv : Option Bytes → Res α) (name : Bytes) (hn : name.length + 64 < 255 * 0xffffff)
    (caps : Nat) (value : Bytes) (a : α) (hv : conv (some value) = .ok a) (msgs : List Bytes)
    (h : Spec.TellsVariable caps value msgs) :
    Exchanges caps (Cmd.getVar conv name true) msgs (some a) [.command (.query (Spec.showVariable true name))] := by
  intro c rest hc hd
  obtain ⟨cols, w, s, nm, more, term, h2, ha, rfl⟩ := h
  subst hc
  obtain ⟨c', g1, g2, g3, g4⟩ := C70_get_var conv name true hn h2 ha rest hd
  exact ⟨c', g4.2.1 (some value) a rfl hv, g1, g2, g3.heard⟩

theorem SentStatement.heard {caps : Nat} {a b q e : Bytes} {id : Nat} {v : Spec.ServerParam}
    (h : SentStatement caps a b q e id) (he : Spec.D.all (Spec.D.stmtExecute 1) e = some ⟨id, 0, 1, [v]⟩) :
    Spec.Heard caps a b [.command (.stmtPrepare q), .execute id [v], .command (.stmtClose id)] := by
  obtain ⟨o, ps, h1, h2, h3, rfl, h5⟩ := h
  have mid : Spec.Heard caps o (o ++ Spec.wire ps) [.execute id [v]] :=
    ⟨[ps], by simpa using ⟨h2, h3⟩, by simp, .cons he .nil⟩
  exact Heard.append h1.heard (Heard.append mid h5.heard)

theorem setUserVar_exchanges (name : Bytes) (hn : name.length + 64 < 255 * 0xffffff) (v : StmtColumnValue) (hv : v.Sound)
    (hl : (v.val.writeTo []).1.length + 14 < 255 * 0xffffff) (caps id : Nat) (msgs : List Bytes)
    (h : Spec.AcceptsSetting caps id msgs) :
    Exchanges caps (Cmd.setUserVar name v) msgs () (Spec.setUserVariable name id (Spec.serverParam v)) := by
  intro c rest hc hd
  obtain ⟨warnings, w, s, param, f, h1, h2, h3, h4, h5, h6, rfl⟩ := h
  subst hc
  obtain ⟨e, he, g⟩ := (C71_set_var name hn v hv true).2 ⟨id, warnings⟩ h1 h2 param h5 w s h3 h4
  obtain ⟨c', g1, g2, g3, g4⟩ := (g hl rest c).1 f h6 hd
  exact ⟨c', g1, g2, g3, g4.heard he⟩

theorem bigint_sound (n : Nat) (h : n < 2 ^ 64) : (StmtColumnValue.newUnsignedBigint n).Sound :=
  C22_constructors_sound true 0 0 0 0 0 0 0 n [] (by norm_num) (by norm_num) (by norm_num) h (by norm_num) (by norm_num)
    ⟨true, 1, 2, 3, 4, 5⟩ (by norm_num [MyTime.InRange]) (by simp) ⟨0, 0, 0, 0, 0, 0, 0⟩
    (by norm_num [MyDateTime.InRange]) ⟨2020, 1, 1, 1, 1, 1, 1⟩ _ (by simp)

theorem varstring_sound (s : Bytes) (h : s.length < 2 ^ 64) (h' : s.length ≠ 251) : (StmtColumnValue.newVarstring s).Sound :=
  C22_constructors_sound true 0 0 0 0 0 0 0 0 s (by norm_num) (by norm_num) (by norm_num) (by norm_num) h h'
    ⟨true, 1, 2, 3, 4, 5⟩ (by norm_num [MyTime.InRange]) (by simp) ⟨0, 0, 0, 0, 0, 0, 0⟩
    (by norm_num [MyDateTime.InRange]) ⟨2020, 1, 1, 1, 1, 1, 1⟩ _ (by simp)

theorem varstring_length (s : Bytes) (h' : s.length ≠ 251) :
    ((StmtColumnValue.newVarstring s).val.writeTo []).1.length ≤ s.length + 9 := by
  have : (StmtColumnValue.newVarstring s).val.writeTo [] = ((LenEncStr.bytes s).writeTo []) := rfl
  rw [this]
  have : (LenEncStr.bytes s).writeTo [] = _ := appends_str s h' []
  rw [this]
  simp only [List.nil_append, Spec.lenEncStr, List.length_append]
  have : (Spec.lenEncInt s.length).length ≤ 9 := by
    unfold Spec.lenEncInt
    split_ifs <;> simp [Spec.u8]
  omega

/-! ### C74 -/

/-- an unsigned 64-bit parameter -/
def Spec.bigintParam (n : Nat) : Spec.ServerParam := ⟨0x08, true, some (.longLong n)⟩
/-- a string parameter -/
def Spec.stringParam (s : List UInt8) : Spec.ServerParam := ⟨0xfd, false, some (.varString s)⟩

/-- a master with this id, checksum setting and GTID mode answers every question and accepts every setting (preparing
them under the ids `i`, `j`, `k`) and the registration -/
def Spec.MasterAnswers (caps masterId : Nat) (checksum gtidMode : List UInt8) (i j k : Nat) (msgs : List Bytes) : Prop :=
  ∃ (idText uuid : Bytes) (m1 m2 m3 m4 m5 m6 m7 : List Bytes) (f : Spec.OkFields),
    Spec.readUnsigned idText = some masterId ∧ masterId < 2 ^ 32 ∧
    validUtf8 checksum = true ∧ validUtf8 gtidMode = true ∧ validUtf8 uuid = true ∧
    Spec.TellsVariable caps idText m1 ∧ Spec.AcceptsSetting caps i m2 ∧
    Spec.TellsVariable caps checksum m3 ∧ Spec.AcceptsSetting caps j m4 ∧
    Spec.TellsVariable caps gtidMode m5 ∧ Spec.TellsVariable caps uuid m6 ∧ Spec.AcceptsSetting caps k m7 ∧
    f.InRange ∧ msgs = [m1, m2, m3, m4, m5, m6, m7, [Spec.okPacket caps 0 f]].flatten

/-- what the master hears before the dump command -/
def Spec.setupSaid (heartbeat : Nat) (checksum uuid : List UInt8) (slaveId masterId i j k : Nat) : List Spec.Said :=
  [.command (.query (Spec.showVariable true (Spec.ascii "SERVER_ID")))]
  ++ Spec.setUserVariable (Spec.ascii "MASTER_HEARTBEAT_PERIOD") i (Spec.bigintParam heartbeat)
  ++ [.command (.query (Spec.showVariable true (Spec.ascii "BINLOG_CHECKSUM")))]
  ++ Spec.setUserVariable (Spec.ascii "MASTER_BINLOG_CHECKSUM") j (Spec.stringParam checksum)
  ++ [.command (.query (Spec.showVariable true (Spec.ascii "GTID_MODE"))),
      .command (.query (Spec.showVariable true (Spec.ascii "SERVER_UUID")))]
  ++ Spec.setUserVariable (Spec.ascii "SLAVE_UUID") k (Spec.stringParam uuid)
  ++ [.command (.registerSlave slaveId [] [] [] 0 0 masterId)]

theorem nonNull_some {γ α : Type} (conv : Conv γ α) (v : γ) (a : α) (h : conv v = .ok (some a)) : conv.nonNull v = .ok a :=
  ((C66_null 0).2.2.2.2.2.2 conv v).2.1 a h

theorem Exchanges.congr {α : Type} {caps : Nat} {run : M α} {m m' : List Bytes} {a : α} {s s' : List Spec.Said}
    (h : Exchanges caps run m a s) (hm : m = m') (hs : s = s') : Exchanges caps run m' a s' := by
  subst hm hs; exact h

theorem register_exchanges (caps slaveId masterId : Nat) (hs : slaveId < 2 ^ 32) (hm : masterId < 2 ^ 32)
    (f : Spec.OkFields) (hf : f.InRange) :
    Exchanges caps (okCommand (ComRegisterSlave.writeTo [] ⟨slaveId, [], [], [], 0, 0, masterId⟩).1)
      [Spec.okPacket caps 0 f] () [.command (.registerSlave slaveId [] [] [] 0 0 masterId)] := by
  intro c rest hc hd
  subst hc
  have hsent : ∀ caps, SentAs caps [] (ComRegisterSlave.writeTo [] ⟨slaveId, [], [], [], 0, 0, masterId⟩)
      (.registerSlave slaveId [] [] [] 0 0 masterId) := fun caps =>
    C19_register_slave_partial caps [] ⟨slaveId, [], [], [], 0, 0, masterId⟩ hs (by simp) (by simp) (by simp)
      (by norm_num) (by norm_num) hm
  have hl : (ComRegisterSlave.writeTo [] ⟨slaveId, [], [], [], 0, 0, masterId⟩).1.length < 255 * 0xffffff := by
    simp [ComRegisterSlave.writeTo, writeU8_spec, writeLeU32_spec, writeLeU16_spec, writeBytes_spec, Spec.u8]
  obtain ⟨c', g1, g2, g3, g4⟩ := (okCommand_spec _ _ hsent hl rest c).1 f hf hd
  exact ⟨c', g1, g2, g3, g4.heard⟩

/-- C74: before a stream the client asks the master for its id, checksum setting, GTID mode and UUID, tells it the
heartbeat period, the master's own checksum setting (so that the master adds the checksums it is used to) and a UUID, and
registers under the requested server id, or the random one if none was requested. Nothing else is sent and every answer
is read. -/
theorem C74_setup (r : BinlogRequest) (uuid : Bytes) (hu : uuid.length = 36) (random : Nat) (hr : random < 2 ^ 32)
    (hid : r.serverId < 2 ^ 32) (hh : r.heartbeatNanos < 2 ^ 64) (caps masterId : Nat) (checksum gtidMode : Bytes)
    (hc : checksum.length ≠ 251) (hc' : checksum.length + 64 < 255 * 0xffffff)
    (i j k : Nat) (msgs : List Bytes) (h : Spec.MasterAnswers caps masterId checksum gtidMode i j k msgs) :
    Exchanges caps (r.setup uuid random) msgs (checksum, gtidMode, if r.serverId = 0 then random else r.serverId)
      (Spec.setupSaid r.heartbeatNanos checksum uuid (if r.serverId = 0 then random else r.serverId) masterId i j k) := by
  obtain ⟨idText, suuid, m1, m2, m3, m4, m5, m6, m7, f, h1, h2, h3, h4, h5, a1, a2, a3, a4, a5, a6, a7, hf, rfl⟩ := h
  have e1 := getVar_exchanges (uintFromText 32).nonNull (Cmd.str "SERVER_ID") (by decide +kernel) caps idText masterId
    (nonNull_some _ _ _ (((C66_unsigned 32 idText).1 masterId).2 ⟨h1, h2⟩)) m1 a1
  have e2 := setUserVar_exchanges (Cmd.str "MASTER_HEARTBEAT_PERIOD") (by decide +kernel)
    (.newUnsignedBigint (r.heartbeatNanos % 2 ^ 64)) (bigint_sound _ (Nat.mod_lt _ (by norm_num)))
    (by simp [StmtColumnValue.newUnsignedBigint, BinaryColumnValue.writeTo, writeLeU64_spec]) caps i m2 a2
  have e3 := getVar_exchanges stringFromText.nonNull (Cmd.str "BINLOG_CHECKSUM") (by decide +kernel) caps checksum checksum
    (nonNull_some _ _ _ ((C66_strings checksum).1 h3)) m3 a3
  have lt64 : ∀ n, n + 64 < 255 * 0xffffff → n < 2 ^ 64 := fun n h => by omega
  have e4 := setUserVar_exchanges (Cmd.str "MASTER_BINLOG_CHECKSUM") (by decide +kernel) (.newVarstring checksum)
    (varstring_sound _ (lt64 _ hc') hc) (by have := varstring_length checksum hc; omega) caps j m4 a4
  have e5 := getVar_exchanges stringFromText.nonNull (Cmd.str "GTID_MODE") (by decide +kernel) caps gtidMode gtidMode
    (nonNull_some _ _ _ ((C66_strings gtidMode).1 h4)) m5 a5
  have e6 := getVar_exchanges stringFromText.nonNull (Cmd.str "SERVER_UUID") (by decide +kernel) caps suuid suuid
    (nonNull_some _ _ _ ((C66_strings suuid).1 h5)) m6 a6
  have e7 := setUserVar_exchanges (Cmd.str "SLAVE_UUID") (by decide +kernel) (.newVarstring uuid)
    (varstring_sound _ (by rw [hu]; norm_num) (by rw [hu]; norm_num))
    (by have := varstring_length uuid (by rw [hu]; norm_num); omega) caps k m7 a7
  have hsl : (if r.serverId = 0 then random else r.serverId) < 2 ^ 32 := by split <;> assumption
  have e8 := register_exchanges caps (if r.serverId = 0 then random else r.serverId) masterId hsl h2 f hf
  have hmod : r.heartbeatNanos % 2 ^ 64 = r.heartbeatNanos := Nat.mod_eq_of_lt hh
  have hsw : (if r.serverId ≠ 0 then r.serverId else random) = if r.serverId = 0 then random else r.serverId := by
    by_cases h : r.serverId = 0 <;> simp [h]
  have ps : ∀ {β : Type} (e : Err) (a : β), Exchanges caps (M.someOr e (some a)) [] a [] := fun e a => Exchanges.pure caps a
  unfold BinlogRequest.setup
  simp only [hsw]
  refine Exchanges.congr (e1.bind ((ps _ masterId).bind (e2.bind (e3.bind ((ps _ checksum).bind (e4.bind (e5.bind
    ((ps _ gtidMode).bind (e6.bind ((ps _ suuid).bind (e7.bind (e8.bind (Exchanges.pure caps _))))))))))))) ?_ ?_
  · simp only [List.flatten_cons, List.flatten_nil, List.append_nil, List.nil_append]
  · have p1 : Spec.serverParam (.newUnsignedBigint r.heartbeatNanos) = Spec.bigintParam r.heartbeatNanos := by
      simp [Spec.serverParam, Spec.bigintParam, StmtColumnValue.newUnsignedBigint, Spec.meaning, ColumnType.toByte]
    have p2 : ∀ s, Spec.serverParam (.newVarstring s) = Spec.stringParam s := fun s => by
      simp [Spec.serverParam, Spec.stringParam, StmtColumnValue.newVarstring, Spec.meaning, ColumnType.toByte]
    simp only [hmod, p1, p2, Spec.setupSaid, List.nil_append, List.append_nil, List.append_assoc, List.cons_append]
    rfl

theorem firstRotate_spec (crc : Bool) (rot : Spec.LogEvent) (hr : rot.InRange) (hc : rot.code = 4) (pos : Nat)
    (hp : pos < 2 ^ 64) (file : Bytes) (hpl : rot.payload = Spec.le 8 pos ++ file) :
    BinlogRequest.firstRotate crc (Spec.streamMessage crc rot) = .ok ⟨pos, file⟩ [] := by
  obtain ⟨k, hk, h⟩ := header_encoded crc rot hr (if crc then Spec.le 4 (Spec.crc32 (rot.body crc)) else [])
  have hkr : k = .rotate := by
    rw [hc] at hk
    revert hk
    cases k <;> decide
  subst hkr
  have h0 : readU8 (Spec.streamMessage crc rot)
      = .ok 0 (rot.body crc ++ if crc then Spec.le 4 (Spec.crc32 (rot.body crc)) else []) := rfl
  unfold BinlogRequest.firstRotate
  step h0
  step h
  rw [if_neg (by simp)]
  cases crc
  · simp only [Bool.false_eq_true, if_false, List.append_nil]
    rw [hpl, C48_rotate pos hp file]
  · simp only [if_true]
    step remaining_apply _
    rw [if_neg (by simp)]
    have hl : rot.payload.length = (rot.payload ++ Spec.le 4 (Spec.crc32 (rot.body true))).length - 4 := by simp
    step readLen_append' _ rot.payload _ hl
    have hcrc : readLeU32 (Spec.le 4 (Spec.crc32 (rot.body true))) = .ok (Spec.crc32 (rot.body true)) [] := by
      have := readLeU32_le (Spec.crc32 (rot.body true)) [] (crc32_lt _)
      simpa using this
    step hcrc
    unfold P.onSub
    rw [hpl, C48_rotate pos hp file]

/-- a rotate event to a position and file -/
def Spec.RotateTo (rot : Spec.LogEvent) (pos : Nat) (file : List UInt8) : Prop :=
  rot.InRange ∧ rot.code = 4 ∧ pos < 2 ^ 64 ∧ rot.payload = Spec.le 8 pos ++ file

/-- a format description event with this checksum algorithm and whatever checksum -/
def Spec.Describes (e : Spec.LogEvent) (f : Spec.Fde) (alg : Nat) : Prop :=
  e.InRange ∧ f.Ok ∧ validUtf8 f.server = true ∧ alg < 256 ∧
    ∃ crc < 2 ^ 32, e.payload = f.encode ++ Spec.u8 alg ++ Spec.le 4 crc

theorem firstEvents_exchanges (r : BinlogRequest) (caps : Nat) (crc : Bool) (rot : Spec.LogEvent) (pos : Nat) (file : Bytes)
    (hr : Spec.RotateTo rot pos file) (e : Spec.LogEvent) (f : Spec.Fde) (alg : Nat) (he : Spec.Describes e f alg) :
    Exchanges caps (r.firstEvents crc) [Spec.streamMessage crc rot, Spec.streamMessage false e]
      ⟨⟨0 :: f.lens, decide (alg = 1)⟩, r.validateChecksum, false, r.nonBlock⟩ [] := by
  intro c rest hc hd
  obtain ⟨c1, a1, a2, a3, -⟩ := Delivers.recv hd
  obtain ⟨c2, b1, b2, b3, -⟩ := Delivers.recv a3
  obtain ⟨hr1, hr2, hr3, hr4⟩ := hr
  obtain ⟨he1, he2, he3, he4, ck, he5, he6⟩ := he
  have hrot := firstRotate_spec crc rot hr1 hr2 pos hr3 file hr4
  have hfde : BinlogRequest.firstFde (Spec.streamMessage false e)
      = .ok (⟨0 :: f.lens, decide (alg = 1)⟩, if alg = 1 then some ck else none) [] := by
    have h0 : readU8 (Spec.streamMessage false e) = .ok 0 (e.encode false ++ []) := by
      rw [List.append_nil]; rfl
    unfold BinlogRequest.firstFde
    step h0
    rw [C32_parser f he2 he3 e he1 alg ck he4 he5 he6 []]
  refine ⟨c2, ?_, Delivers.nil b3, b2.caps.trans (a2.caps.trans hc), ?_⟩
  · unfold BinlogRequest.firstEvents
    rw [M.bind_apply, a1, MR.bind_ok]
    obtain ⟨t, ht⟩ : ∃ t, Spec.streamMessage crc rot = 0 :: t := ⟨_, rfl⟩
    rw [ht]
    dsimp only
    rw [← ht, if_neg (by decide), if_neg (by decide), if_pos rfl]
    rw [M.bind_apply, M.parse_ok hrot, MR.bind_ok, M.bind_apply, b1, MR.bind_ok, M.bind_apply, M.parse_ok hfde, MR.bind_ok]
    rfl
  · rw [b2.out, a2.out]
    exact Heard.nil _ _

/-- the dump command that asks for the events of a file from a position on, and after the given GTIDs if the master uses
GTIDs -/
def Spec.dumpSaid (gtidMode file : List UInt8) (pos slaveId : Nat) (sids : List SidRange) (nonBlock : Bool) : Spec.ServerCmd :=
  if gtidMode = Spec.ascii "ON" then
    .binlogDumpGtid (Spec.gtidDumpFlags nonBlock (!sids.isEmpty)) slaveId file pos (Spec.sidData sids)
  else .binlogDump pos (if nonBlock then 1 else 0) slaveId file

theorem dump_sent (r : BinlogRequest) (slaveId : Nat) (gtidMode : Bytes) (hs : slaveId < 2 ^ 32)
    (hn : r.binlogFilename.length < 2 ^ 32) (hu : validUtf8 r.binlogFilename = true) (hp : r.binlogPos < 2 ^ 64)
    (hd : SidsInRange r.sids) (hl : SidData.bytesLen r.sids < 2 ^ 32)
    (hg : gtidMode ≠ Spec.ascii "ON" → r.binlogPos < 2 ^ 32 ∧ r.sids = []) :
    ∃ w : Bytes × Nat, w.1 = r.dumpBytes slaveId gtidMode ∧ ∀ caps, SentAs caps [] w
      (Spec.dumpSaid gtidMode r.binlogFilename r.binlogPos slaveId r.sids r.nonBlock) := by
  have hon : Spec.ascii "ON" = Cmd.str "ON" := rfl
  unfold BinlogRequest.dumpBytes Spec.dumpSaid
  by_cases h : gtidMode = Spec.ascii "ON"
  · rw [if_pos h, if_pos (hon ▸ h)]
    refine ⟨_, rfl, fun caps => ?_⟩
    have key : ∀ (c : ComBinlogDumpGtid), c.flags = Spec.gtidDumpFlags r.nonBlock (!r.sids.isEmpty) →
        c.serverId = slaveId → c.binlogFilename = r.binlogFilename → c.binlogPos = r.binlogPos → c.sidData = r.sids →
        c.cmd = .binlogDumpGtid → SentAs caps [] (c.writeTo [])
          (.binlogDumpGtid (Spec.gtidDumpFlags r.nonBlock (!r.sids.isEmpty)) slaveId r.binlogFilename r.binlogPos
            (Spec.sidData r.sids)) := by
      intro c h1 h2 h3 h4 h5 h6
      have hf : c.flags < 8 := by
        rw [h1]; unfold Spec.gtidDumpFlags; split <;> split <;> norm_num
      have := (C21_binlog_dump_gtid [] [] c hf (h2 ▸ hs) (h3 ▸ hn) (h3 ▸ hu) (h4 ▸ hp) (h5 ▸ hd) (h5 ▸ hl)).2 caps h6
      rw [h1, h2, h3, h4, h5] at this
      exact this
    apply key <;> (unfold ComBinlogDumpGtid.nonBlock ComBinlogDumpGtid.useGtid; cases r.nonBlock <;> cases r.sids <;> simp [Spec.gtidDumpFlags])
  · obtain ⟨hp32, -⟩ := hg h
    rw [if_neg h, if_neg (hon ▸ h)]
    refine ⟨_, rfl, fun caps => ?_⟩
    rw [Nat.mod_eq_of_lt hp32]
    exact (C21_binlog_dump [] (ComBinlogDump.nonBlock ⟨.binlogDump, r.binlogPos, 0, slaveId, r.binlogFilename⟩ r.nonBlock) hp32
      (by unfold ComBinlogDump.nonBlock; cases r.nonBlock <;> simp) hs hu).2 caps rfl

/-- a request this library can express -/
structure BinlogRequest.Ok (r : BinlogRequest) : Prop where
  serverId_lt : r.serverId < 2 ^ 32
  heartbeat_lt : r.heartbeatNanos < 2 ^ 64
  file_len : r.binlogFilename.length < 2 ^ 31
  file_utf8 : validUtf8 r.binlogFilename = true
  pos_lt : r.binlogPos < 2 ^ 64
  sids_ok : SidsInRange r.sids
  sids_len : SidData.bytesLen r.sids < 2 ^ 31

theorem dumpBytes_length (r : BinlogRequest) (slaveId : Nat) (gtidMode : Bytes) :
    (r.dumpBytes slaveId gtidMode).length ≤ r.binlogFilename.length + SidData.bytesLen r.sids + 64 := by
  have key1 : ∀ c : ComBinlogDumpGtid, (c.writeTo []).1.length
      = c.binlogFilename.length + SidData.bytesLen c.sidData + 23 := by
    intro c
    simp only [ComBinlogDumpGtid.writeTo, SidData.writeTo, writeU8_spec, writeBytes_spec, writeLeU32_spec,
      writeLeU16_spec, writeLeU64_spec, writeSids_spec, List.length_append, Spec.length_le, SidData.bytesLen]
    have := length_sidData c.sidData
    simp only [Spec.sidData, List.length_append, Spec.length_le, SidData.bytesLen] at this
    simp only [List.length_nil, Spec.u8, List.length_cons]
    omega
  have key2 : ∀ c : ComBinlogDump, (c.writeTo []).1.length = c.binlogFilename.length + 11 := by
    intro c
    simp only [ComBinlogDump.writeTo, writeU8_spec, writeBytes_spec, writeLeU32_spec, writeLeU16_spec,
      List.length_append, Spec.length_le, List.length_nil, Spec.u8, List.length_cons]
    omega
  unfold BinlogRequest.dumpBytes
  split
  · rw [key1]
    have : ∀ (c : ComBinlogDumpGtid) a b, ((c.useGtid a).nonBlock b).binlogFilename = c.binlogFilename ∧
        ((c.useGtid a).nonBlock b).sidData = c.sidData := by
      intro c a b
      unfold ComBinlogDumpGtid.nonBlock ComBinlogDumpGtid.useGtid
      cases a <;> cases b <;> exact ⟨rfl, rfl⟩
    rw [(this _ _ _).1, (this _ _ _).2]
    dsimp only
    omega
  · rw [key2]
    unfold ComBinlogDump.nonBlock
    dsimp only
    omega

theorem dump_exchanges (r : BinlogRequest) (ok : r.Ok) (slaveId : Nat) (gtidMode : Bytes) (hsl : slaveId < 2 ^ 32)
    (hl : r.binlogFilename.length + SidData.bytesLen r.sids + 64 < 255 * 0xffffff)
    (hg : gtidMode ≠ Spec.ascii "ON" → r.binlogPos < 2 ^ 32 ∧ r.sids = []) (caps : Nat) :
    Exchanges caps (sendMsg (r.dumpBytes slaveId gtidMode) true) [] ()
      [.command (Spec.dumpSaid gtidMode r.binlogFilename r.binlogPos slaveId r.sids r.nonBlock)] := by
  intro c rest hc hd
  obtain ⟨w, hw, hs⟩ := dump_sent r _ gtidMode hsl (lt_trans ok.file_len (by norm_num)) ok.file_utf8 ok.pos_lt
    ok.sids_ok (lt_trans ok.sids_len (by norm_num)) hg
  have hlen := dumpBytes_length r slaveId gtidMode
  rw [← hw] at hlen ⊢
  obtain ⟨c', a1, a2, a3, a4, -⟩ := sendMsg_cmd c w _ (hs c.caps) (by omega)
  exact ⟨c', a1, a3.trans (Delivers.nil hd), a4.trans hc, hc ▸ a2.heard⟩

/-- C74: for every request and every master that answers, requesting a stream sends exactly the setup and then one dump
command with the requested file, position, wait mode and GTIDs, and returns a stream that reads events by the format
description the master sent. The master's GTID mode decides the kind of dump command. Nothing else is sent, and nothing
beyond the format description is read. Missing from the full claim: without GTID mode, positions from 2^32 on
(`C74_position_false`) and requested GTIDs (`C74_gtids_false`). -/
theorem C74_request_partial (r : BinlogRequest) (ok : r.Ok) (uuid : Bytes) (hu : uuid.length = 36) (random : Nat)
    (hr : random < 2 ^ 32) (caps masterId : Nat) (checksum gtidMode : Bytes)
    (hc : checksum.length < 251)
    (hl : r.binlogFilename.length + SidData.bytesLen r.sids + 64 < 255 * 0xffffff)
    (hg : gtidMode ≠ Spec.ascii "ON" → r.binlogPos < 2 ^ 32 ∧ r.sids = [])
    (i j k : Nat) (msgs : List Bytes) (h : Spec.MasterAnswers caps masterId checksum gtidMode i j k msgs)
    (rot : Spec.LogEvent) (pos : Nat) (file : Bytes) (hrot : Spec.RotateTo rot pos file) (e : Spec.LogEvent) (f : Spec.Fde)
    (alg : Nat) (he : Spec.Describes e f alg) :
    Exchanges caps (r.requestStream uuid random)
      (msgs ++ [Spec.streamMessage (decide (checksum = Spec.ascii "CRC32")) rot, Spec.streamMessage false e])
      ⟨⟨0 :: f.lens, decide (alg = 1)⟩, r.validateChecksum, false, r.nonBlock⟩
      (Spec.setupSaid r.heartbeatNanos checksum uuid (if r.serverId = 0 then random else r.serverId) masterId i j k
        ++ [.command (Spec.dumpSaid gtidMode r.binlogFilename r.binlogPos (if r.serverId = 0 then random else r.serverId)
          r.sids r.nonBlock)]) := by
  have hsl : (if r.serverId = 0 then random else r.serverId) < 2 ^ 32 := by
    split
    · exact hr
    · exact ok.serverId_lt
  have e1 := C74_setup r uuid hu random hr ok.serverId_lt ok.heartbeat_lt caps masterId checksum gtidMode (by omega)
    (by omega) i j k msgs h
  have e2 := firstEvents_exchanges r caps (decide (checksum = Spec.ascii "CRC32")) rot pos file hrot e f alg he
  have e3 := dump_exchanges r ok _ gtidMode hsl hl hg caps
  unfold BinlogRequest.requestStream
  refine Exchanges.congr (e1.bind (e3.bind e2)) ?_ ?_
  · simp
  · simp

/-- C74: the events. After the request, as many calls as the master sent events this library knows return exactly these
events, in order. -/
theorem C74_events_partial (r : BinlogRequest) (ok : r.Ok) (uuid : Bytes) (hu : uuid.length = 36) (random : Nat)
    (hr : random < 2 ^ 32) (caps masterId : Nat) (checksum gtidMode : Bytes)
    (hc : checksum.length < 251)
    (hl : r.binlogFilename.length + SidData.bytesLen r.sids + 64 < 255 * 0xffffff)
    (hg : gtidMode ≠ Spec.ascii "ON" → r.binlogPos < 2 ^ 32 ∧ r.sids = [])
    (i j k : Nat) (msgs : List Bytes) (h : Spec.MasterAnswers caps masterId checksum gtidMode i j k msgs)
    (rot : Spec.LogEvent) (pos : Nat) (file : Bytes) (hrot : Spec.RotateTo rot pos file) (e : Spec.LogEvent) (f : Spec.Fde)
    (alg : Nat) (he : Spec.Describes e f alg) (es : List Spec.LogEvent) (hes : ∀ e ∈ es, e.InRange) (c : Conn)
    (hcaps : c.caps = caps) (rest : Bytes)
    (hd : Spec.Delivers c.inp ((msgs ++ [Spec.streamMessage (decide (checksum = Spec.ascii "CRC32")) rot,
      Spec.streamMessage false e]) ++ es.map (Spec.streamMessage (decide (alg = 1)))) rest) :
    ∃ s c1 c2 os, r.requestStream uuid random c = .ok s c1 ∧
      s.calls (Spec.visible es).length c1 = .ok (os, s) c2 ∧
      List.Forall₂ (Spec.Seen (decide (alg = 1))) (Spec.visible es) os ∧ (∀ o ∈ os, o ≠ none) ∧ c2.out = c1.out := by
  obtain ⟨mid, d1, d2⟩ := Delivers.append hd
  obtain ⟨c1, a1, a2, a3, a4⟩ := C74_request_partial r ok uuid hu random hr caps masterId checksum gtidMode hc hl hg i j k
    msgs h rot pos file hrot e f alg he c mid hcaps d1
  obtain ⟨c2, os, left, b1, b2, b3, b4, -⟩ := C53_events
    ⟨⟨0 :: f.lens, decide (alg = 1)⟩, r.validateChecksum, false, r.nonBlock⟩ rfl es hes [] rest c1
    (by rw [List.append_nil, a2]; exact d2)
  exact ⟨_, c1, c2, os, a1, b1, b2, b3, b4⟩

/-! ### refusals -/

/-- like `Exchanges`, but `run` returns an error -/
def Refuses {α : Type} (caps : Nat) (run : M α) (answers : List Bytes) (e : Err) (said : List Spec.Said) : Prop :=
  ∀ (c : Conn) (rest : Bytes), c.caps = caps → Spec.Delivers c.inp answers rest →
    ∃ c', run c = .err e c' ∧ c'.inp = rest ∧ Spec.Heard caps c.out c'.out said

theorem Exchanges.refuses {α β : Type} {caps : Nat} {x : M α} {f : α → M β} {m1 m2 : List Bytes} {a : α} {e : Err}
    {s1 s2 : List Spec.Said} (h1 : Exchanges caps x m1 a s1) (h2 : Refuses caps (f a) m2 e s2) :
    Refuses caps (x >>= f) (m1 ++ m2) e (s1 ++ s2) := by
  intro c rest hc hd
  obtain ⟨mid, d1, d2⟩ := Delivers.append hd
  obtain ⟨c1, a1, a2, a3, a4⟩ := h1 c mid hc d1
  rw [← a2] at d2
  obtain ⟨c2, b1, b2, b3⟩ := h2 c1 rest a3 d2
  exact ⟨c2, by rw [M.bind_apply, a1, MR.bind_ok, b1], b2, Heard.append a4 b3⟩

theorem Refuses.bind {α β : Type} {caps : Nat} {x : M α} {f : α → M β} {m : List Bytes} {e : Err}
    {s : List Spec.Said} (h : Refuses caps x m e s) : Refuses caps (x >>= f) m e s := by
  intro c rest hc hd
  obtain ⟨c1, a1, a2, a3⟩ := h c rest hc hd
  exact ⟨c1, by rw [M.bind_apply, a1]; rfl, a2, a3⟩

theorem Refuses.congr {α : Type} {caps : Nat} {run : M α} {m m' : List Bytes} {e : Err} {s s' : List Spec.Said}
    (h : Refuses caps run m e s) (hm : m = m') (hs : s = s') : Refuses caps run m' e s' := by
  subst hm hs; exact h

theorem getVar_none {α : Type} (conv : Option Bytes → Res α) (name : Bytes) (hn : name.length + 64 < 255 * 0xffffff)
    (caps : Nat) (msgs : List Bytes) (h : Spec.NoVariable caps msgs) :
    Exchanges caps (Cmd.getVar conv name true) msgs none [.command (.query (Spec.showVariable true name))] := by
  intro c rest hc hd
  obtain ⟨cols, w, s, term, h2, ha, rfl⟩ := h
  subst hc
  obtain ⟨c', g1, g2, g3, g4⟩ := C70_get_var conv name true hn h2 ha rest hd
  exact ⟨c', g4.1 rfl, g1, g2, g3.heard⟩

/-- C74: a master that does not know its own id refuses nothing but is refused: the request fails after the first
question. -/
theorem C74_no_server_id (r : BinlogRequest) (uuid : Bytes) (random caps : Nat) (msgs : List Bytes)
    (h : Spec.NoVariable caps msgs) :
    Refuses caps (r.requestStream uuid random) msgs .emptyResultSet
      [.command (.query (Spec.showVariable true (Spec.ascii "SERVER_ID")))] := by
  have e1 := getVar_none (uintFromText 32).nonNull (Cmd.str "SERVER_ID") (by decide +kernel) caps msgs h
  have e2 : ∀ (g : Nat → M (Bytes × Bytes × Nat)), Refuses caps (M.someOr .emptyResultSet none >>= g) [] .emptyResultSet [] :=
    fun g c rest hc hd => ⟨c, rfl, Delivers.nil hd, Heard.nil _ _⟩
  unfold BinlogRequest.requestStream BinlogRequest.setup
  exact Refuses.congr (e1.refuses (e2 _)).bind (by simp) (by simp; rfl)

/-- C74: an error in answer to the dump command is the result of the request, an EOF packet gives a stream that has
ended. -/
theorem C74_dump_refused (r : BinlogRequest) (ok : r.Ok) (uuid : Bytes) (hu : uuid.length = 36) (random : Nat)
    (hr : random < 2 ^ 32) (caps masterId : Nat) (checksum gtidMode : Bytes) (hc : checksum.length < 251)
    (hl : r.binlogFilename.length + SidData.bytesLen r.sids + 64 < 255 * 0xffffff)
    (hg : gtidMode ≠ Spec.ascii "ON" → r.binlogPos < 2 ^ 32 ∧ r.sids = [])
    (i j k : Nat) (msgs : List Bytes) (h : Spec.MasterAnswers caps masterId checksum gtidMode i j k msgs) :
    (∀ code state msg, Spec.ErrOk code state msg →
      Refuses caps (r.requestStream uuid random)
        (msgs ++ [Spec.errPacket (caps.testBit Spec.PROTOCOL_41) code state msg]) (reported caps code state msg)
        (Spec.setupSaid r.heartbeatNanos checksum uuid (if r.serverId = 0 then random else r.serverId) masterId i j k
        ++ [.command (Spec.dumpSaid gtidMode r.binlogFilename r.binlogPos (if r.serverId = 0 then random else r.serverId)
          r.sids r.nonBlock)])) ∧
    (∀ w s, w < 2 ^ 16 → s < 2 ^ 15 →
      Exchanges caps (r.requestStream uuid random) (msgs ++ [Spec.eofPacket caps w s])
        ⟨⟨[], false⟩, r.validateChecksum, true, r.nonBlock⟩
        (Spec.setupSaid r.heartbeatNanos checksum uuid (if r.serverId = 0 then random else r.serverId) masterId i j k
        ++ [.command (Spec.dumpSaid gtidMode r.binlogFilename r.binlogPos (if r.serverId = 0 then random else r.serverId)
          r.sids r.nonBlock)])) := by
  have hsl : (if r.serverId = 0 then random else r.serverId) < 2 ^ 32 := by
    split
    · exact hr
    · exact ok.serverId_lt
  have e1 := C74_setup r uuid hu random hr ok.serverId_lt ok.heartbeat_lt caps masterId checksum gtidMode (by omega)
    (by omega) i j k msgs h
  have e3 := dump_exchanges r ok _ gtidMode hsl hl hg caps
  constructor
  · intro code state msg he
    have e2 : Refuses caps (r.firstEvents (decide (checksum = Cmd.str "CRC32")))
        [Spec.errPacket (caps.testBit Spec.PROTOCOL_41) code state msg] (reported caps code state msg) [] := by
      intro c rest hcaps hd
      obtain ⟨c1, a1, a2, a3, -⟩ := Delivers.recv hd
      refine ⟨c1, ?_, Delivers.nil a3, by rw [a2.out]; exact Heard.nil _ _⟩
      have hf := failWithErrPacket_spec (α := BinlogStream) c1 code he.code_lt state msg he.state_len he.state_utf8 he.msg_utf8
      rw [a2.caps, hcaps] at hf
      unfold BinlogRequest.firstEvents
      rw [M.bind_apply, a1, MR.bind_ok]
      obtain ⟨t, ht⟩ : ∃ t, Spec.errPacket (caps.testBit Spec.PROTOCOL_41) code state msg = 0xff :: t := ⟨_, rfl⟩
      rw [ht] at hf ⊢
      dsimp only
      rw [if_pos rfl]
      exact hf
    unfold BinlogRequest.requestStream
    exact Refuses.congr (e1.refuses (e3.refuses e2)) (by simp) (by simp)
  · intro w s hw hs
    have e2 : Exchanges caps (r.firstEvents (decide (checksum = Cmd.str "CRC32"))) [Spec.eofPacket caps w s]
        ⟨⟨[], false⟩, r.validateChecksum, true, r.nonBlock⟩ [] := by
      intro c rest hcaps hd
      obtain ⟨c1, a1, a2, a3, -⟩ := Delivers.recv hd
      refine ⟨c1, ?_, Delivers.nil a3, a2.caps.trans hcaps, by rw [a2.out]; exact Heard.nil _ _⟩
      have hp := C15_eof_packet caps w s hw hs
      unfold BinlogRequest.firstEvents
      rw [M.bind_apply, a1, MR.bind_ok]
      obtain ⟨t, ht⟩ : ∃ t, Spec.eofPacket caps w s = 0xfe :: t := ⟨_, rfl⟩
      rw [ht] at hp ⊢
      dsimp only
      rw [if_neg (by decide), if_pos rfl, M.bind_apply, getCaps_apply, MR.bind_ok, a2.caps, hcaps, M.bind_apply,
        M.parse_ok hp, MR.bind_ok]
      rfl
    unfold BinlogRequest.requestStream
    exact Exchanges.congr (e1.bind (e3.bind e2)) (by simp) (by simp)

/-! ### disagreements -/

/-- C74 fails for large positions: without GTID mode the master is asked for the position modulo 2^32. (Full claim: the
requested position, or an error.) -/
theorem C74_position_false (r : BinlogRequest) (ok : r.Ok) (slaveId : Nat) (hs : slaveId < 2 ^ 32) (gtidMode : Bytes)
    (hg : gtidMode ≠ Spec.ascii "ON") :
    ∃ w : Bytes × Nat, w.1 = r.dumpBytes slaveId gtidMode ∧ ∀ caps, SentAs caps [] w
      (.binlogDump (r.binlogPos % 2 ^ 32) (if r.nonBlock then 1 else 0) slaveId r.binlogFilename) := by
  have hon : Spec.ascii "ON" = Cmd.str "ON" := rfl
  have hp : r.binlogPos % 2 ^ 32 < 2 ^ 32 := Nat.mod_lt _ (by norm_num)
  unfold BinlogRequest.dumpBytes
  rw [if_neg (hon ▸ hg)]
  exact ⟨_, rfl, fun caps => (C21_binlog_dump [] (ComBinlogDump.nonBlock
    ⟨.binlogDump, r.binlogPos % 2 ^ 32, 0, slaveId, r.binlogFilename⟩ r.nonBlock) hp
    (by unfold ComBinlogDump.nonBlock; cases r.nonBlock <;> simp) hs ok.file_utf8).2 caps rfl⟩

/-- C74 fails for GTIDs: without GTID mode the GTIDs of the request change nothing in what is sent. (Full claim: they are
sent, or refused.) -/
theorem C74_gtids_false (r : BinlogRequest) (slaveId : Nat) (gtidMode : Bytes) (hg : gtidMode ≠ Spec.ascii "ON")
    (sids : List SidRange) : { r with sids := sids }.dumpBytes slaveId gtidMode = r.dumpBytes slaveId gtidMode := by
  have hon : Spec.ascii "ON" = Cmd.str "ON" := rfl
  unfold BinlogRequest.dumpBytes
  rw [if_neg (hon ▸ hg), if_neg (hon ▸ hg)]

/-- C74 fails for a master without the variable `GTID_MODE` (MySQL before 5.6, MariaDB): the request is refused, although
the dump command without GTIDs needs no such variable. (Full claim: the stream starts.) -/
theorem C74_no_gtid_mode_false (r : BinlogRequest) (uuid : Bytes) (random caps masterId : Nat) (idText checksum : Bytes)
    (h1 : Spec.readUnsigned idText = some masterId) (h2 : masterId < 2 ^ 32) (h3 : validUtf8 checksum = true)
    (hc : checksum.length < 251) (i j : Nat) (m1 m2 m3 m4 m5 : List Bytes)
    (a1 : Spec.TellsVariable caps idText m1) (a2 : Spec.AcceptsSetting caps i m2)
    (a3 : Spec.TellsVariable caps checksum m3) (a4 : Spec.AcceptsSetting caps j m4) (a5 : Spec.NoVariable caps m5) :
    ∃ said, Refuses caps (r.requestStream uuid random) [m1, m2, m3, m4, m5].flatten .custom said := by
  have e1 := getVar_exchanges (uintFromText 32).nonNull (Cmd.str "SERVER_ID") (by decide +kernel) caps idText masterId
    (nonNull_some _ _ _ (((C66_unsigned 32 idText).1 masterId).2 ⟨h1, h2⟩)) m1 a1
  have e2 := setUserVar_exchanges (Cmd.str "MASTER_HEARTBEAT_PERIOD") (by decide +kernel)
    (.newUnsignedBigint (r.heartbeatNanos % 2 ^ 64)) (bigint_sound _ (Nat.mod_lt _ (by norm_num)))
    (by simp [StmtColumnValue.newUnsignedBigint, BinaryColumnValue.writeTo, writeLeU64_spec]) caps i m2 a2
  have e3 := getVar_exchanges stringFromText.nonNull (Cmd.str "BINLOG_CHECKSUM") (by decide +kernel) caps checksum checksum
    (nonNull_some _ _ _ ((C66_strings checksum).1 h3)) m3 a3
  have e4 := setUserVar_exchanges (Cmd.str "MASTER_BINLOG_CHECKSUM") (by decide +kernel) (.newVarstring checksum)
    (varstring_sound _ (by omega) (by omega)) (by have := varstring_length checksum (by omega); omega) caps j m4 a4
  have e5 := getVar_none stringFromText.nonNull (Cmd.str "GTID_MODE") (by decide +kernel) caps m5 a5
  have ps : ∀ {β : Type} (e : Err) (a : β), Exchanges caps (M.someOr e (some a)) [] a [] := fun e a => Exchanges.pure caps a
  have pf : ∀ (g : Bytes → M (Bytes × Bytes × Nat)), Refuses caps (M.someOr .custom none >>= g) [] .custom [] :=
    fun g c rest hc hd => ⟨c, rfl, Delivers.nil hd, Heard.nil _ _⟩
  unfold BinlogRequest.requestStream BinlogRequest.setup
  refine ⟨_, Refuses.congr (Refuses.bind (e1.refuses ((ps _ masterId).refuses (e2.refuses (e3.refuses
    ((ps _ checksum).refuses (e4.refuses (e5.refuses (pf _)))))))) ) ?_ rfl⟩
  simp

/-- C74 fails for the format description: its checksum is not verified, even on request. Any checksum is accepted. (Full
claim: with checksum validation, a damaged event is an error.) -/
theorem C74_description_checksum_false (r : BinlogRequest) (_ : r.validateChecksum = true) (caps : Nat) (rot : Spec.LogEvent)
    (pos : Nat) (file : Bytes) (hr : Spec.RotateTo rot pos file) (e : Spec.LogEvent) (he : e.InRange) (f : Spec.Fde) (hf : f.Ok)
    (hu : validUtf8 f.server = true) (crc : Nat) (hcrc : crc < 2 ^ 32)
    (hp : e.payload = f.encode ++ Spec.u8 1 ++ Spec.le 4 crc) :
    Exchanges caps (r.firstEvents true) [Spec.streamMessage true rot, Spec.streamMessage false e]
      ⟨⟨0 :: f.lens, true⟩, r.validateChecksum, false, r.nonBlock⟩ [] :=
  firstEvents_exchanges r caps true rot pos file hr e f 1 ⟨he, hf, hu, by norm_num, crc, hcrc, hp⟩

/-- C74 fails for a rotate event too short for its checksum: the client panics. (Full claim: an error.) -/
theorem C74_short_rotate_false (r : BinlogRequest) (rot : Spec.LogEvent) (hr : rot.InRange) (hc : rot.code = 4)
    (hp : rot.payload.length < 4) (c : Conn) (ms : List Bytes) (rest : Bytes)
    (hd : Spec.Delivers c.inp (Spec.streamMessage false rot :: ms) rest) : r.firstEvents true c = .panic := by
  obtain ⟨c1, a1, -, -, -⟩ := Delivers.recv hd
  obtain ⟨k, hk, h⟩ := header_encoded false rot hr []
  have hkr : k = .rotate := by
    rw [hc] at hk
    revert hk
    cases k <;> decide
  subst hkr
  have h0 : readU8 (Spec.streamMessage false rot) = .ok 0 (rot.body false ++ []) := rfl
  have hpan : BinlogRequest.firstRotate true (Spec.streamMessage false rot) = .panic := by
    unfold BinlogRequest.firstRotate
    step h0
    step h
    rw [if_neg (by simp), if_pos rfl]
    step remaining_apply _
    rw [if_pos (by simpa using hp)]
    rfl
  unfold BinlogRequest.firstEvents
  rw [M.bind_apply, a1, MR.bind_ok]
  obtain ⟨t, ht⟩ : ∃ t, Spec.streamMessage false rot = 0 :: t := ⟨_, rfl⟩
  rw [ht]
  dsimp only
  rw [← ht, if_neg (by decide), if_neg (by decide), if_pos rfl, M.bind_apply]
  unfold M.parse
  rw [hpan]
  rfl

/-! ### the hypotheses are met -/

/-- a request for a file from the middle of a large one, after some GTIDs -/
def exampleRequest : BinlogRequest :=
  ⟨Spec.ascii "mysql-bin.000003", 2 ^ 33, 0, [⟨456, [(1, 5)]⟩], true, true, 3000000000⟩

theorem exampleRequest_ok : exampleRequest.Ok := by
  refine ⟨by decide +kernel, by decide +kernel, by decide +kernel, by decide +kernel, by decide +kernel, ?_, by decide +kernel⟩
  intro s hs
  simp only [exampleRequest, List.mem_singleton] at hs
  subst hs
  refine ⟨by norm_num, ?_⟩
  intro i hi
  simp only [List.mem_singleton] at hi
  subst hi
  exact ⟨⟨by decide, by decide⟩, ⟨by decide, by decide⟩⟩

theorem example_tells (value : Bytes) (hv : value.length < 100) :
    Spec.TellsVariable (2 ^ 9) value (Spec.textAnswer (2 ^ 9) [exampleTextDef, exampleTextDef] 0 2
      [[some (Spec.ascii "x"), some value]] (Spec.eofPacket (2 ^ 9) 0 2)) := by
  have h : Spec.Supported (exampleTextDef, .varString) := by
    refine ⟨?_, by decide⟩
    constructor <;> first | (exact ⟨by decide, by decide⟩) | (exact (by decide))
  refine ⟨[(exampleTextDef, .varString), (exampleTextDef, .varString)], 0, 2, _, [], _, rfl,
    ⟨by simp, by simp, ?_, by norm_num, by norm_num, ?_, ?_, ?_⟩, rfl⟩
  · simp only [List.mem_cons, List.not_mem_nil, or_false, or_self, forall_eq]
    exact h
  · simp
  · intro row hr s hs
    simp only [List.mem_singleton] at hr
    subst hr
    simp only [List.mem_cons, List.not_mem_nil, or_false, Option.some.injEq] at hs
    rcases hs with rfl | rfl
    · decide +kernel
    · omega
  · unfold Spec.IsTerminator
    rw [if_neg (by decide)]
    exact ⟨0, 2, by norm_num, by norm_num, rfl⟩

theorem example_accepts (id : Nat) (h : id < 100) : Spec.AcceptsSetting (2 ^ 9) id
    (Spec.prepareResponse (2 ^ 9) ⟨id, 0⟩ [exampleTextDef] [] 0 2 0 0 ++ [Spec.okPacket (2 ^ 9) 0 ⟨0, 0, 2, 0, [], []⟩]) := by
  refine ⟨0, 0, 2, (exampleTextDef, .varString), ⟨0, 0, 2, 0, [], []⟩, by omega, by norm_num, by norm_num, by norm_num, ?_,
    ?_, rfl⟩
  · refine ⟨?_, by decide⟩
    constructor <;> first | (exact ⟨by decide, by decide⟩) | (exact (by decide))
  · constructor <;> norm_num

/-- an answer to each question, a rotate event, a format description event and two more events -/
example : exampleRequest.Ok ∧ ∃ (c : Conn) (msgs : List Bytes) (rot e : Spec.LogEvent) (es : List Spec.LogEvent),
    Spec.MasterAnswers c.caps 7 (Spec.ascii "CRC32") (Spec.ascii "ON") 1 2 3 msgs ∧
    Spec.RotateTo rot (2 ^ 33) (Spec.ascii "mysql-bin.000003") ∧ Spec.Describes e exampleFde 1 ∧
    (∀ e ∈ es, e.InRange) ∧ es.length = 2 ∧
    Spec.Delivers c.inp ((msgs ++ [Spec.streamMessage (decide (Spec.ascii "CRC32" = Spec.ascii "CRC32")) rot,
      Spec.streamMessage false e]) ++ es.map (Spec.streamMessage (decide (1 = 1)))) [9] := by
  refine ⟨exampleRequest_ok, ?_⟩
  let tells : Bytes → List Bytes := fun value => Spec.textAnswer (2 ^ 9) [exampleTextDef, exampleTextDef] 0 2
      [[some (Spec.ascii "x"), some value]] (Spec.eofPacket (2 ^ 9) 0 2)
  let accepts : Nat → List Bytes := fun id => Spec.prepareResponse (2 ^ 9) ⟨id, 0⟩ [exampleTextDef] [] 0 2 0 0
    ++ [Spec.okPacket (2 ^ 9) 0 ⟨0, 0, 2, 0, [], []⟩]
  let msgs : List Bytes := [tells (Spec.ascii "7"), accepts 1, tells (Spec.ascii "CRC32"), accepts 2, tells (Spec.ascii "ON"),
    tells (Spec.ascii "u"), accepts 3, [Spec.okPacket (2 ^ 9) 0 ⟨0, 0, 2, 0, [], []⟩]].flatten
  let rot : Spec.LogEvent := ⟨0, 4, 7, 0, 0, Spec.le 8 (2 ^ 33) ++ Spec.ascii "mysql-bin.000003"⟩
  let e : Spec.LogEvent := ⟨0, 15, 7, 0, 0, exampleFde.encode ++ Spec.u8 1 ++ Spec.le 4 5⟩
  let es : List Spec.LogEvent := [⟨1, 16, 7, 100, 0, Spec.le 8 3⟩, ⟨2, 16, 7, 200, 0, Spec.le 8 4⟩]
  obtain ⟨inp, hd⟩ := delivers_small ((msgs ++ [Spec.streamMessage true rot, Spec.streamMessage false e])
    ++ es.map (Spec.streamMessage true)) [9] (by decide +kernel)
  refine ⟨⟨inp, [], 0, 2 ^ 9, 0⟩, msgs, rot, e, es, ?_, ?_, ?_, ?_, rfl, ?_⟩
  · exact ⟨Spec.ascii "7", Spec.ascii "u", _, _, _, _, _, _, _, ⟨0, 0, 2, 0, [], []⟩, by decide +kernel, by norm_num,
      by decide +kernel, by decide +kernel, by decide +kernel, example_tells _ (by decide), example_accepts 1 (by norm_num),
      example_tells _ (by decide), example_accepts 2 (by norm_num), example_tells _ (by decide), example_tells _ (by decide),
      example_accepts 3 (by norm_num), by constructor <;> norm_num, rfl⟩
  · exact ⟨by unfold Spec.LogEvent.InRange; decide +kernel, rfl, by norm_num, rfl⟩
  · exact ⟨by unfold Spec.LogEvent.InRange; decide +kernel, exampleFde_ok.1, exampleFde_ok.2, by norm_num, 5, by norm_num, rfl⟩
  · unfold Spec.LogEvent.InRange
    decide +kernel
  · rw [decide_eq_true rfl, decide_eq_true rfl]
    exact hd

end Mybin
