/-
C61: commands answered by OK or ERR.
C62: ping.
C63: statistics.
C64: listing the columns of a table.
C65: commands answered by EOF, and the multi-statement flag.
-/
import Verif.Model.ConnCmd
import Verif.Spec.Commands
import Verif.Props.C50_C52
import Verif.Props.C56_C58

namespace Mybin

/-- the SQL error of an ERR packet -/
abbrev reported (caps code : Nat) (state msg : Bytes) : Err :=
  .sql code (if caps.testBit Spec.PROTOCOL_41 then state else []) msg

/-- an ERR packet the client can show: state and message are text -/
structure Spec.ErrOk (code : Nat) (state msg : Bytes) : Prop where
  code_lt : code < 2 ^ 16
  state_len : state.length = 5
  state_utf8 : validUtf8 state = true
  msg_utf8 : validUtf8 msg = true

theorem errPacket_read (caps code : Nat) (state msg : Bytes) (h : Spec.ErrOk code state msg) :
    ∃ p, ErrPacket.readFrom caps true (Spec.errPacket (caps.testBit Spec.PROTOCOL_41) code state msg) = .ok p [] ∧
      sqlError p = reported caps code state msg := by
  have h' := C15_err_packet caps true code h.code_lt state msg h.state_len
  rw [Bool.true_and] at h'
  refine ⟨_, h', ?_⟩
  unfold reported
  cases caps.testBit Spec.PROTOCOL_41 with
  | true => simp [sqlError, h.state_utf8, h.msg_utf8]
  | false => simp [sqlError, h.msg_utf8, show validUtf8 [] = true from rfl]

theorem errPacket_head (w : Bool) (code : Nat) (state msg : Bytes) :
    ∃ t, Spec.errPacket w code state msg = 0xff :: t := ⟨_, rfl⟩

theorem okPacket_head0 (caps : Nat) (f : Spec.OkFields) : ∃ t, Spec.okPacket caps 0 f = 0 :: t := by
  unfold Spec.okPacket
  simp only [List.append_assoc]
  exact ⟨_, rfl⟩

/-! ### C61 -/

/-- What a command answered by OK or ERR has to do, whatever the state of the connection: it sends exactly the
message `cmd`; it reads exactly one message, leaving the stream at what follows; it succeeds on OK, reports the
server's code, state and message on ERR, and fails on any other message. -/
def OkErrCommand (run : M Unit) (cmd : Spec.ServerCmd) : Prop :=
  ∀ (rest : Bytes) (c : Conn),
    (∀ f : Spec.OkFields, f.InRange → Spec.Delivers c.inp [Spec.okPacket c.caps 0 f] rest →
      ∃ c', run c = .ok () c' ∧ c'.inp = rest ∧ c'.caps = c.caps ∧ SentOne c.caps c.out c'.out cmd) ∧
    (∀ code state msg, Spec.ErrOk code state msg →
      Spec.Delivers c.inp [Spec.errPacket (c.caps.testBit Spec.PROTOCOL_41) code state msg] rest →
      ∃ c', run c = .err (reported c.caps code state msg) c' ∧ c'.inp = rest ∧ c'.caps = c.caps ∧
        SentOne c.caps c.out c'.out cmd) ∧
    (∀ m, m.head? ≠ some 0 → m.head? ≠ some 0xff → Spec.Delivers c.inp [m] rest →
      ∃ e c', run c = .err e c' ∧ c'.inp = rest ∧ c'.caps = c.caps ∧ SentOne c.caps c.out c'.out cmd)

theorem okCommand_spec (w : Bytes × Nat) (cmd : Spec.ServerCmd) (hs : ∀ caps, SentAs caps [] w cmd)
    (hn : w.1.length < 255 * 0xffffff) : OkErrCommand (okCommand w.1) cmd := by
  intro rest c
  obtain ⟨c1, a1, a2, a3, a4, -⟩ := sendMsg_cmd c w cmd (hs _) hn
  have run : ∀ m, Spec.Delivers c.inp [m] rest → ∃ c2, c2.inp = rest ∧ c2.caps = c.caps ∧
      SentOne c.caps c.out c2.out cmd ∧
      okCommand w.1 c = (M.parse m (ComResponse.readFrom c2.caps) c2).bind fun r =>
        match r with
        | .ok _ => pure ()
        | .err p => M.fail (sqlError p) := by
    intro m hd
    rw [← a3] at hd
    obtain ⟨c2, b1, b2, b3, -⟩ := Delivers.recv hd
    refine ⟨c2, Delivers.nil b3, b2.caps.trans a4, by rw [b2.out]; exact a2, ?_⟩
    unfold okCommand
    rw [M.bind_apply, a1, MR.bind_ok, M.bind_apply, b1, MR.bind_ok, M.bind_apply, getCaps_apply, MR.bind_ok,
      M.bind_apply]
    rfl
  refine ⟨fun f hf hd => ?_, fun code state msg he hd => ?_, fun m h1 h2 hd => ?_⟩ <;>
    obtain ⟨c2, g1, g2, g3, g4⟩ := run _ hd
  · refine ⟨c2, ?_, g1, g2, g3⟩
    have hp := C14_ok_packet c.caps 0 (by norm_num) f hf
    obtain ⟨t, ht⟩ := okPacket_head0 c.caps f
    rw [g4, g2]
    rw [ht] at hp ⊢
    have : ∃ p, ComResponse.readFrom c.caps (0 :: t) = .ok (.ok p) [] := by
      rw [(C16_com_response c.caps 0 t).1 rfl, hp]
      exact ⟨_, rfl⟩
    obtain ⟨p, this⟩ := this
    rw [M.parse_ok this]
    rfl
  · refine ⟨c2, ?_, g1, g2, g3⟩
    obtain ⟨p, hp, hsql⟩ := errPacket_read c.caps code state msg he
    obtain ⟨t, ht⟩ := errPacket_head (c.caps.testBit Spec.PROTOCOL_41) code state msg
    rw [g4, g2]
    rw [ht] at hp ⊢
    have : ComResponse.readFrom c.caps (0xff :: t) = .ok (.err p) [] := by
      rw [(C16_com_response c.caps 0xff t).2.1 rfl, hp]
      rfl
    rw [M.parse_ok this, MR.bind_ok]
    rw [← hsql]
    rfl
  · rw [g2] at g4
    cases m with
    | nil =>
      refine ⟨.incomplete none, c2, ?_, g1, g2, g3⟩
      rw [g4]
      rfl
    | cons b t =>
      simp only [List.head?_cons, ne_eq, Option.some.injEq] at h1 h2
      refine ⟨.constraint, c2, ?_, g1, g2, g3⟩
      rw [g4]
      unfold M.parse
      rw [(C16_com_response c.caps b t).2.2.1 h1 h2]
      rfl

/-- C61: selecting a database, for every name the protocol can carry. -/
theorem C61_init_db (db : Bytes) (h : db.length + 1 < 255 * 0xffffff) :
    OkErrCommand (Cmd.initDb db) (.initDb db) :=
  okCommand_spec _ _ (fun caps => (C19_string_commands caps [] db).2.1)
    (by rw [show (ComInitDB.writeTo [] db).1 = 0x02 :: db from rfl, List.length_cons]; exact h)

/-- C61: creating and dropping a database. -/
theorem C61_create_drop_db (db : Bytes) (h : db.length + 1 < 255 * 0xffffff) :
    OkErrCommand (Cmd.createDb db) (.createDb db) ∧ OkErrCommand (Cmd.dropDb db) (.dropDb db) :=
  ⟨okCommand_spec _ _ (fun caps => (C19_string_commands caps [] db).2.2.1)
    (by rw [show (ComCreateDB.writeTo [] db).1 = 0x05 :: db from rfl, List.length_cons]; exact h),
   okCommand_spec _ _ (fun caps => (C19_string_commands caps [] db).2.2.2.1)
    (by rw [show (ComDropDB.writeTo [] db).1 = 0x06 :: db from rfl, List.length_cons]; exact h)⟩

/-- C61: refresh, for every combination of flags. -/
theorem C61_refresh (flags : Nat) (h : flags < 256) : OkErrCommand (Cmd.refresh flags) (.refresh flags) :=
  okCommand_spec _ _ (fun caps => (C19_integer_commands caps [] 0 0 flags false (by norm_num) (by norm_num) h).2.2.2.2.1)
    (by simp [ComRefresh.writeTo, writeU8])

/-- C61: killing a connection. -/
theorem C61_process_kill (id : Nat) (h : id < 2 ^ 32) : OkErrCommand (Cmd.processKill id) (.processKill id) :=
  okCommand_spec _ _ (fun caps => (C19_integer_commands caps [] id 0 0 false h (by norm_num) (by norm_num)).1)
    (by simp [ComProcessKill.writeTo, writeU8_spec, writeLeU32_spec, Spec.u8])

/-- C61: resetting the session. -/
theorem C61_reset_connection : OkErrCommand Cmd.resetConnection .resetConnection :=
  okCommand_spec _ _ (fun caps => (C19_simple_commands caps []).2.2.2.2.2)
    (by simp [writeSingleByteCmd, writeU8])

/-- C61: registering as a replica. -/
theorem C61_register_slave (id : Nat) (h : id < 2 ^ 32) :
    OkErrCommand (Cmd.registerSlave id) (.registerSlave id [] [] [] 0 0 0) :=
  okCommand_spec _ _ (fun caps => C19_register_slave_partial caps [] ⟨id, [], [], [], 0, 0, 0⟩ h (by norm_num)
    (by norm_num) (by norm_num) (by norm_num) (by norm_num) (by norm_num))
    (by simp [ComRegisterSlave.writeTo, writeU8_spec, writeLeU32_spec, writeBytes_spec, writeLeU16_spec, Spec.u8])

/-- a server that answers with an OK packet; one that refuses with `28000` -/
example : ∃ inp, Spec.Delivers inp [Spec.okPacket (2 ^ 9) 0 ⟨0, 0, 2, 0, [], []⟩] [1, 2, 3] :=
  delivers_small _ _ (by decide)

example : Spec.ErrOk 1045 [50, 56, 48, 48, 48] [110, 111] ∧
    ∃ inp, Spec.Delivers inp [Spec.errPacket true 1045 [50, 56, 48, 48, 48] [110, 111]] [] :=
  ⟨⟨by norm_num, rfl, rfl, rfl⟩, delivers_small _ _ (by decide)⟩

theorem recvMsg_total (c : Conn) : (∃ m c', recvMsg c = .ok m c') ∨ ∃ e c', recvMsg c = .err e c' := by
  unfold recvMsg
  split
  · exact .inl ⟨_, _, rfl⟩
  · exact .inr ⟨_, _, rfl⟩

theorem M.parse_total {α : Type} {p : P α} (hp : Well p) (msg : Bytes) (c : Conn) :
    (∃ a, M.parse msg p c = .ok a c) ∨ ∃ e, M.parse msg p c = .err e c := by
  have := hp msg
  unfold M.parse
  cases h : p msg with
  | ok a r => exact .inl ⟨_, rfl⟩
  | err e r => exact .inr ⟨_, rfl⟩
  | panic => rw [h] at this; exact this.elim
  | hang => rw [h] at this; exact this.elim

/-- the call ends with a value or an error -/
def Returns {α : Type} (r : MR α) : Prop := (∃ a c', r = .ok a c') ∨ ∃ e c', r = .err e c'

/-- C61: these commands end without a panic, whatever the server sends and wherever the stream ends. -/
theorem C61_no_panic (bs : Bytes) (hn : bs.length < 255 * 0xffffff) (c : Conn) : Returns (okCommand bs c) := by
  obtain ⟨ps, c1, a1, a2, a3, a4, -⟩ := sendMsg_spec bs c (Nat.div_lt_of_lt_mul (by omega))
  unfold okCommand
  rw [M.bind_apply, a4, MR.bind_ok, M.bind_apply]
  rcases recvMsg_total c1 with ⟨m, c2, h⟩ | ⟨e, c2, h⟩
  · rw [h, MR.bind_ok, M.bind_apply, getCaps_apply, MR.bind_ok, M.bind_apply]
    rcases M.parse_total (Well.comResponse c2.caps) m c2 with ⟨a, h⟩ | ⟨e, h⟩
    · rw [h]
      cases a with
      | ok p => exact .inl ⟨_, _, rfl⟩
      | err p => exact .inr ⟨_, _, rfl⟩
    · rw [h]; exact .inr ⟨_, _, rfl⟩
  · rw [h]; exact .inr ⟨_, _, rfl⟩

/-! ### C62 -/

theorem ping_run (c : Conn) (m rest : Bytes) (hd : Spec.Delivers c.inp [m] rest) :
    ∃ c2, c2.inp = rest ∧ c2.caps = c.caps ∧ SentOne c.caps c.out c2.out .ping ∧
      Cmd.ping c = (M.parse m (OkPacket.readFrom c.caps) c2).bind fun _ => pure () := by
  obtain ⟨c1, a1, a2, a3, a4, -⟩ := sendMsg_cmd c (writeSingleByteCmd [] .ping) .ping
    (C19_simple_commands c.caps []).2.2.2.2.1 (by simp [writeSingleByteCmd, writeU8])
  rw [← a3] at hd
  obtain ⟨c2, b1, b2, b3, -⟩ := Delivers.recv hd
  have hc := b2.caps.trans a4
  refine ⟨c2, Delivers.nil b3, hc, by rw [b2.out]; exact a2, ?_⟩
  unfold Cmd.ping
  rw [M.bind_apply, a1, MR.bind_ok, M.bind_apply, b1, MR.bind_ok, M.bind_apply, getCaps_apply, MR.bind_ok,
    M.bind_apply, hc]

/-- C62: ping sends COM_PING and succeeds when the server answers OK. (Full claim: it fails when the server answers
ERR, which is false, see below.) -/
theorem C62_ping_partial (f : Spec.OkFields) (hf : f.InRange) (rest : Bytes) (c : Conn)
    (hd : Spec.Delivers c.inp [Spec.okPacket c.caps 0 f] rest) :
    ∃ c', Cmd.ping c = .ok () c' ∧ c'.inp = rest ∧ SentOne c.caps c.out c'.out .ping := by
  obtain ⟨c2, h1, h2, h3, h4⟩ := ping_run c _ rest hd
  refine ⟨c2, ?_, h1, h3⟩
  rw [h4, M.parse_ok (C14_ok_packet c.caps 0 (by norm_num) f hf)]
  rfl

/-- C62: a connection that ends before an answer is an error. -/
theorem C62_closed (c : Conn) (h : c.inp = []) : ∃ e c', Cmd.ping c = .err e c' := by
  obtain ⟨c1, a1, a2, a3, a4, -⟩ := sendMsg_cmd c (writeSingleByteCmd [] .ping) .ping
    (C19_simple_commands c.caps []).2.2.2.2.1 (by simp [writeSingleByteCmd, writeU8])
  unfold Cmd.ping
  rw [M.bind_apply, a1, MR.bind_ok, M.bind_apply]
  have : ∃ e c2, recvMsg c1 = .err e c2 := by
    unfold recvMsg
    rw [a3, h]
    unfold recvLoop
    exact ⟨_, _, rfl⟩
  obtain ⟨e, c2, h2⟩ := this
  rw [h2]
  exact ⟨_, _, rfl⟩

/-- C62 is false for errors: on a protocol 4.1 connection without session tracking, whatever the state (ASCII) and the
message, and for every code whose two bytes are below 251, ping takes the ERR packet for OK. -/
theorem C62_err_false (lo hi : Nat) (hlo : lo < 251) (hhi : hi < 251) (s0 s1 s2 s3 s4 : UInt8) (h0 : s0 < 0x80)
    (msg rest : Bytes) (hm : msg.length < 2 ^ 63) (c : Conn) (h41 : c.caps.testBit Spec.PROTOCOL_41 = true)
    (htr : c.caps.testBit Spec.SESSION_TRACK = false)
    (hd : Spec.Delivers c.inp [Spec.errPacket true (lo + 256 * hi) [s0, s1, s2, s3, s4] msg] rest) :
    ∃ c', Cmd.ping c = .ok () c' := by
  obtain ⟨c2, h1, h2, h3, h4⟩ := ping_run c _ rest hd
  refine ⟨c2, ?_⟩
  have e : Spec.errPacket true (lo + 256 * hi) [s0, s1, s2, s3, s4] msg
      = Spec.okPacket c.caps 0xff ⟨lo, hi, 0x23 + 256 * s0.toNat, s1.toNat + 256 * s2.toNat, s3 :: s4 :: msg, []⟩ := by
    have hb : (lo + 256 * hi) % 256 = lo ∧ (lo + 256 * hi) / 256 = hi := by omega
    have hs0 := s0.toNat_lt
    have hs1 := s1.toNat_lt
    have hs2 := s2.toNat_lt
    have k0 : (0x23 + 256 * s0.toNat) % 256 = 0x23 ∧ (0x23 + 256 * s0.toNat) / 256 = s0.toNat := by omega
    have k1 : (s1.toNat + 256 * s2.toNat) % 256 = s1.toNat ∧ (s1.toNat + 256 * s2.toNat) / 256 = s2.toNat := by omega
    unfold Spec.errPacket Spec.okPacket
    simp only [Spec.hasStatus, h41, Bool.true_or, Spec.opt, if_true, htr, Bool.false_eq_true, if_false,
      Spec.hasSessionState, Bool.false_and, List.append_nil]
    have hl : ∀ n, n < 251 → Spec.lenEncInt n = Spec.u8 n := by
      intro n hn; unfold Spec.lenEncInt; rw [if_pos hn]
    rw [hl lo hlo, hl hi hhi]
    simp only [← leBytes_eq_spec, leBytes, hb, k0, k1, Spec.u8]
    simp [Nat.mod_eq_of_lt hs0, Nat.mod_eq_of_lt (show hi < 256 by omega)]
  rw [h4, e, M.parse_ok (C14_ok_packet c.caps 0xff (by norm_num) _
    ⟨by show lo < _; omega, by show hi < _; omega, ?_, ?_, ?_, by norm_num⟩)]
  · rfl
  · have : s0.toNat < 128 := UInt8.lt_iff_toNat_lt.1 h0
    show 0x23 + 256 * s0.toNat < _
    omega
  · have := s1.toNat_lt
    have := s2.toNat_lt
    show s1.toNat + 256 * s2.toNat < _
    omega
  · show msg.length + 2 < _
    omega

/-- a server shutting down (1053, `08S01`) is reported as alive -/
example : ∃ c : Conn, c.caps.testBit Spec.PROTOCOL_41 = true ∧ c.caps.testBit Spec.SESSION_TRACK = false ∧
    Spec.Delivers c.inp [Spec.errPacket true (0x1d + 256 * 4) [48, 56, 83, 48, 49] [98, 121, 101]] [] := by
  obtain ⟨inp, h⟩ := delivers_small [Spec.errPacket true (0x1d + 256 * 4) [48, 56, 83, 48, 49] [98, 121, 101]] []
    (by decide)
  exact ⟨⟨inp, [], 0, 2 ^ 9, 0⟩, show Nat.testBit (2 ^ 9) 9 = true by decide,
    show Nat.testBit (2 ^ 9) 23 = false by decide, h⟩

/-! ### C63 -/

theorem statistics_run (c : Conn) (m rest : Bytes) (hd : Spec.Delivers c.inp [m] rest) :
    ∃ c2, c2.inp = rest ∧ c2.caps = c.caps ∧ SentOne c.caps c.out c2.out .statistics ∧
      Cmd.statistics c = if validUtf8 m then .ok m c2 else .err .utf8 c2 := by
  obtain ⟨c1, a1, a2, a3, a4, -⟩ := sendMsg_cmd c (writeSingleByteCmd [] .statistics) .statistics
    (C19_simple_commands c.caps []).2.1 (by simp [writeSingleByteCmd, writeU8])
  rw [← a3] at hd
  obtain ⟨c2, b1, b2, b3, -⟩ := Delivers.recv hd
  refine ⟨c2, Delivers.nil b3, b2.caps.trans a4, by rw [b2.out]; exact a2, ?_⟩
  unfold Cmd.statistics
  rw [M.bind_apply, a1, MR.bind_ok, M.bind_apply, b1, MR.bind_ok, M.ite_apply]
  rfl

/-- C63: `statistics` sends COM_STATISTICS and returns exactly the text the server sends, of any length; bytes that are
not text, and so every ERR packet, are an error. One message is read. -/
theorem C63_statistics (m rest : Bytes) (c : Conn) (hd : Spec.Delivers c.inp [m] rest) :
    ∃ c', c'.inp = rest ∧ SentOne c.caps c.out c'.out .statistics ∧
      (validUtf8 m = true → Cmd.statistics c = .ok m c') ∧
      (validUtf8 m = false → Cmd.statistics c = .err .utf8 c') ∧
      (m.head? = some 0xff → ∃ e, Cmd.statistics c = .err e c') := by
  obtain ⟨c2, h1, h2, h3, h4⟩ := statistics_run c m rest hd
  refine ⟨c2, h1, h3, fun h => ?_, fun h => ?_, fun h => ⟨.utf8, ?_⟩⟩
  · rw [h4, h]; rfl
  · rw [h4, h]; rfl
  · cases m with
    | nil => cases h
    | cons b t =>
      cases h
      rw [h4, show validUtf8 (0xff :: t) = false from by unfold validUtf8; rfl]
      rfl

example : validUtf8 [85, 112, 116, 105, 109, 101] = true ∧
    ∃ inp, Spec.Delivers inp [[85, 112, 116, 105, 109, 101]] [7] := ⟨rfl, delivers_small _ _ (by decide)⟩

/-! ### C64 -/

/-- a column the client can decode, with the type its code stands for and its default value -/
def Spec.Listed (col : Spec.ColDef × ColumnType × Option Bytes) : Prop :=
  Spec.Supported (col.1, col.2.1) ∧ col.1.catalog.length < 2 ^ 24 ∧
    ∀ v, col.2.2 = some v → validUtf8 v = true ∧ v.length < 2 ^ 64

theorem defaultValue_read (v : Option Bytes) (h : ∀ x, v = some x → validUtf8 x = true ∧ x.length < 2 ^ 64) :
    (do (← readLenEncStr).intoString : P Bytes) (Spec.defaultValue v) = .ok (v.getD []) [] := by
  cases v with
  | none => rfl
  | some x =>
    have := readString_spec (h x rfl) []
    rw [List.append_nil] at this
    show (readLenEncStr (Spec.lenEncStr x)).bind _ = _
    rw [this.1, R.bind_ok, this.2]
    rfl

theorem colDef_listed (col : Spec.ColDef × ColumnType × Option Bytes) (h : Spec.Listed col) :
    ColumnDefinition.readFrom true (Spec.columnDef col.1 ++ Spec.defaultValue col.2.2)
      = .ok (clientDef col.1 col.2.1 (col.2.2.getD [])) [] := by
  obtain ⟨d, ct, v⟩ := col
  obtain ⟨⟨hd, hct⟩, -, hv⟩ := h
  have hdef := defaultValue_read v hv
  simp only at hd hct hdef ⊢
  unfold ColumnDefinition.readFrom Spec.columnDef
  simp only [List.append_assoc]
  step (readString_spec hd.catalog _).1
  rw [(readString_spec hd.catalog []).2]
  step (P.pure_apply _ _)
  step (readString_spec hd.schema _).1
  rw [(readString_spec hd.schema []).2]
  step (P.pure_apply _ _)
  step (readString_spec hd.table _).1
  rw [(readString_spec hd.table []).2]
  step (P.pure_apply _ _)
  step (readString_spec hd.orgTable _).1
  rw [(readString_spec hd.orgTable []).2]
  step (P.pure_apply _ _)
  step (readString_spec hd.name _).1
  rw [(readString_spec hd.name []).2]
  step (P.pure_apply _ _)
  step (readString_spec hd.orgName _).1
  rw [(readString_spec hd.orgName []).2]
  step (P.pure_apply _ _)
  step (readLenEncInt_spec 0x0c _ (by norm_num))
  step (readLeU16_le _ _ hd.charset)
  step (readLeU32_le _ _ hd.colLen)
  step (readU8_u8 _ _ hd.typeCode)
  rw [tryFrom_of_code hct, P.orErr_some]
  step (P.pure_apply _ _)
  step (readLeU16_le _ _ hd.flags)
  step (readU8_u8 _ _ hd.decimals)
  step (readLen_append' 2 [0, 0] _ rfl)
  simp only [if_true]
  step hdef
  rfl

theorem lenEncInt_head_lt (n : Nat) (h : n < 2 ^ 24) :
    ∃ b t, Spec.lenEncInt n = b :: t ∧ b ≠ 0xfe ∧ b ≠ 0xff := by
  have key : ∀ m, m < 251 → UInt8.ofNat m ≠ 0xfe ∧ UInt8.ofNat m ≠ 0xff := by decide +kernel
  unfold Spec.lenEncInt
  split_ifs with h1 h2
  · exact ⟨_, [], rfl, (key n h1).1, (key n h1).2⟩
  · exact ⟨0xfc, _, rfl, by decide, by decide⟩
  · exact ⟨0xfd, _, rfl, by decide, by decide⟩

theorem fieldListResponse_col (caps : Nat) (col : Spec.ColDef × ColumnType × Option Bytes) (h : Spec.Listed col) :
    ComFieldListResponse.readFrom caps true (Spec.columnDef col.1 ++ Spec.defaultValue col.2.2)
      = .ok (.colDef (clientDef col.1 col.2.1 (col.2.2.getD []))) [] := by
  have hr := colDef_listed col h
  obtain ⟨b, t, e, h1, h2⟩ : ∃ b t, Spec.columnDef col.1 ++ Spec.defaultValue col.2.2 = b :: t ∧ b ≠ 0xfe ∧ b ≠ 0xff := by
    obtain ⟨b, t, e, h1, h2⟩ := lenEncInt_head_lt col.1.catalog.length h.2.1
    unfold Spec.columnDef Spec.lenEncStr
    simp only [List.append_assoc, e, List.cons_append]
    exact ⟨b, _, rfl, h1, h2⟩
  rw [e] at hr ⊢
  unfold ComFieldListResponse.readFrom
  simp only [if_neg h1, if_neg h2]
  rw [P.bind_apply, hr]
  rfl

theorem eofPacket_commandEnd (caps : Nat) (m : Bytes) (h : Spec.IsCommandEnd caps m) :
    ∃ t p r, m = 0xfe :: t ∧ EofPacket.readFrom caps m = .ok p r := by
  unfold Spec.IsCommandEnd at h
  split at h
  · obtain ⟨f, h1, h2, h3, rfl⟩ := h
    obtain ⟨t, ht⟩ := okPacket_head caps f
    cases h41 : caps.testBit Spec.PROTOCOL_41 with
    | false =>
      refine ⟨t, ⟨0xfe, 0, 0⟩, t, ht, ?_⟩
      rw [ht]
      unfold EofPacket.readFrom
      simp only [caps_p41, h41, Bool.false_eq_true, if_false]
      rfl
    | true =>
      have e : Spec.okPacket caps 0xfe f = Spec.eofPacket caps 0 f.status ++ (Spec.okPacket caps 0xfe f).drop 5 := by
        have hl : Spec.lenEncInt 0 = [0] := rfl
        unfold Spec.okPacket Spec.eofPacket
        simp only [h1, h2, Spec.hasStatus, h41, Bool.true_or, Spec.opt, if_true, hl]
        simp only [← leBytes_eq_spec, leBytes, Spec.u8]
        simp
      refine ⟨t, ⟨0xfe, 0, f.status⟩, (Spec.okPacket caps 0xfe f).drop 5, ht, ?_⟩
      generalize (Spec.okPacket caps 0xfe f).drop 5 = r at e ⊢
      rw [e]
      unfold EofPacket.readFrom Spec.eofPacket
      simp only [caps_p41, h41, Spec.opt, if_true, List.append_assoc]
      step (readU8_u8 0xfe _ (by norm_num))
      rw [P.bind_apply, P.bind_apply, readLeU16_le _ _ (by norm_num), R.bind_ok, P.bind_apply,
        readLeU16_le f.status _ (by omega), R.bind_ok, statusFromBits_ok _ h3]
      simp only [P.orErr_some]
      rfl
  · obtain ⟨w, s, hw, hs, rfl⟩ := h
    obtain ⟨t, ht⟩ := eofPacket_head caps w s
    exact ⟨t, _, _, ht, C15_eof_packet caps w s hw hs⟩

theorem fieldListLoop_spec (cols : List (Spec.ColDef × ColumnType × Option Bytes))
    (hc : ∀ col ∈ cols, Spec.Listed col) (ms : List Bytes) (rest : Bytes) (acc : List ColumnDefinition) (c : Conn)
    (hd : Spec.Delivers c.inp (cols.map (fun col => Spec.columnDef col.1 ++ Spec.defaultValue col.2.2) ++ ms) rest) :
    ∃ c', Cmd.fieldListLoop acc c
        = Cmd.fieldListLoop (acc ++ cols.map fun col => clientDef col.1 col.2.1 (col.2.2.getD [])) c' ∧
      Moved c c' ∧ Spec.Delivers c'.inp ms rest := by
  induction cols generalizing acc c with
  | nil => exact ⟨c, by simp, Moved.refl c, hd⟩
  | cons col cols ih =>
    obtain ⟨c1, b1, b2, b3, b4⟩ := Delivers.recv hd
    obtain ⟨c2, d1, d2, d3⟩ := ih (fun x hx => hc x (by simp [hx]))
      (acc ++ [clientDef col.1 col.2.1 (col.2.2.getD [])]) c1 b3
    refine ⟨c2, ?_, b2.trans d2, d3⟩
    rw [Cmd.fieldListLoop, b1]
    simp only [M.parse_ok (fieldListResponse_col c1.caps col (hc col (by simp))), if_pos b4]
    rw [d1, List.map_cons, List.append_assoc]
    rfl

theorem fieldListLoop_end (defs : List ColumnDefinition) (m rest : Bytes) (c : Conn)
    (hm : Spec.IsCommandEnd c.caps m) (hd : Spec.Delivers c.inp [m] rest) :
    ∃ c', Cmd.fieldListLoop defs c = .ok defs c' ∧ Moved c c' ∧ c'.inp = rest := by
  obtain ⟨c1, b1, b2, b3, b4⟩ := Delivers.recv hd
  refine ⟨c1, ?_, b2, Delivers.nil b3⟩
  obtain ⟨t, p, r, ht, hp⟩ := eofPacket_commandEnd c.caps m hm
  have : ComFieldListResponse.readFrom c.caps true m = .ok (.eof p) r := by
    rw [ht] at hp ⊢
    unfold ComFieldListResponse.readFrom
    simp only [if_neg (show ¬ (0xfe : UInt8) = 0xff by decide), if_true]
    rw [P.bind_apply, hp]
    rfl
  rw [Cmd.fieldListLoop, b1]
  simp only [b2.caps, M.parse_ok this]

theorem fieldListLoop_err (defs : List ColumnDefinition) (code : Nat) (state msg rest : Bytes) (c : Conn)
    (he : Spec.ErrOk code state msg)
    (hd : Spec.Delivers c.inp [Spec.errPacket (c.caps.testBit Spec.PROTOCOL_41) code state msg] rest) :
    ∃ c', Cmd.fieldListLoop defs c = .err (reported c.caps code state msg) c' ∧ Moved c c' ∧ c'.inp = rest := by
  obtain ⟨c1, b1, b2, b3, b4⟩ := Delivers.recv hd
  refine ⟨c1, ?_, b2, Delivers.nil b3⟩
  obtain ⟨p, hp, hsql⟩ := errPacket_read c.caps code state msg he
  obtain ⟨t, ht⟩ := errPacket_head (c.caps.testBit Spec.PROTOCOL_41) code state msg
  have : ComFieldListResponse.readFrom c.caps true (Spec.errPacket (c.caps.testBit Spec.PROTOCOL_41) code state msg)
      = .ok (.err p) [] := by
    rw [ht] at hp ⊢
    unfold ComFieldListResponse.readFrom
    simp only [if_true]
    rw [P.bind_apply, hp]
    rfl
  rw [Cmd.fieldListLoop, b1]
  simp only [b2.caps, M.parse_ok this, hsql]

theorem fieldList_start (table wildcard : Bytes) (ht : (0 : UInt8) ∉ table)
    (hn : table.length + wildcard.length + 2 < 255 * 0xffffff) (c : Conn) :
    ∃ c1, Cmd.fieldList table wildcard c = Cmd.fieldListLoop [] c1 ∧ c1.inp = c.inp ∧ c1.caps = c.caps ∧
      SentOne c.caps c.out c1.out (.fieldList table wildcard) := by
  obtain ⟨c1, a1, a2, a3, a4, -⟩ := sendMsg_cmd c (ComFieldList.writeTo [] table wildcard) _
    (C19_field_list c.caps [] table wildcard ht) (by
      have : (ComFieldList.writeTo [] table wildcard).1.length = table.length + wildcard.length + 2 := by
        simp [ComFieldList.writeTo, writeU8_spec, writeBytes_spec, Spec.u8]
        omega
      rw [this]; exact hn)
  refine ⟨c1, ?_, a3, a4, a2⟩
  show MR.bind (sendMsg _ true c) _ = _
  rw [a1]
  rfl

/-- C64: for every table and pattern and any number of columns (of supported types), `field_list` sends COM_FIELD_LIST
and returns one definition per column, in the order of the server, with its names, type, flags and default value, for
every capability set, and leaves exactly what follows. (Full claim: columns of every type, see C49; and NULL defaults,
which are returned as empty strings, see below.) -/
theorem C64_field_list_partial (table wildcard : Bytes) (ht : (0 : UInt8) ∉ table)
    (hn : table.length + wildcard.length + 2 < 255 * 0xffffff)
    (cols : List (Spec.ColDef × ColumnType × Option Bytes)) (hc : ∀ col ∈ cols, Spec.Listed col)
    (theEnd rest : Bytes) (c : Conn) (he : Spec.IsCommandEnd c.caps theEnd)
    (hd : Spec.Delivers c.inp (Spec.fieldListResponse (cols.map fun col => (col.1, col.2.2)) theEnd) rest) :
    ∃ c', Cmd.fieldList table wildcard c
        = .ok (cols.map fun col => clientDef col.1 col.2.1 (col.2.2.getD [])) c' ∧
      c'.inp = rest ∧ c'.caps = c.caps ∧ SentOne c.caps c.out c'.out (.fieldList table wildcard) := by
  obtain ⟨c1, a1, a2, a3, a4⟩ := fieldList_start table wildcard ht hn c
  unfold Spec.fieldListResponse at hd
  rw [← a2, List.map_map] at hd
  obtain ⟨c2, b1, b2, b3⟩ := fieldListLoop_spec cols hc [theEnd] rest [] c1 hd
  rw [← a3, ← b2.caps] at he
  obtain ⟨c3, d1, d2, d3⟩ := fieldListLoop_end _ theEnd rest c2 he b3
  refine ⟨c3, ?_, d3, by rw [d2.caps, b2.caps, a3], by rw [d2.out, b2.out]; exact a4⟩
  rw [a1, b1, d1]
  rfl

/-- C64: an ERR packet, at once or after some of the columns, is reported as the server's error. -/
theorem C64_err (table wildcard : Bytes) (ht : (0 : UInt8) ∉ table)
    (hn : table.length + wildcard.length + 2 < 255 * 0xffffff)
    (cols : List (Spec.ColDef × ColumnType × Option Bytes)) (hc : ∀ col ∈ cols, Spec.Listed col)
    (code : Nat) (state msg rest : Bytes) (c : Conn) (he : Spec.ErrOk code state msg)
    (hd : Spec.Delivers c.inp (Spec.fieldListResponse (cols.map fun col => (col.1, col.2.2))
      (Spec.errPacket (c.caps.testBit Spec.PROTOCOL_41) code state msg)) rest) :
    ∃ c', Cmd.fieldList table wildcard c = .err (reported c.caps code state msg) c' ∧
      c'.inp = rest ∧ c'.caps = c.caps ∧ SentOne c.caps c.out c'.out (.fieldList table wildcard) := by
  obtain ⟨c1, a1, a2, a3, a4⟩ := fieldList_start table wildcard ht hn c
  unfold Spec.fieldListResponse at hd
  rw [← a2, List.map_map] at hd
  obtain ⟨c2, b1, b2, b3⟩ := fieldListLoop_spec cols hc _ rest [] c1 hd
  rw [← a3, ← b2.caps] at b3
  obtain ⟨c3, d1, d2, d3⟩ := fieldListLoop_err _ code state msg rest c2 he b3
  refine ⟨c3, ?_, d3, by rw [d2.caps, b2.caps, a3], by rw [d2.out, b2.out]; exact a4⟩
  rw [a1, b1, d1, b2.caps, a3]

/-- C64: NULL and the empty string give the same answer, for every column. -/
theorem C64_null_default_false (caps : Nat) (d : Spec.ColDef) (ct : ColumnType) (h : Spec.Listed (d, ct, none)) :
    ComFieldListResponse.readFrom caps true (Spec.columnDef d ++ Spec.defaultValue none)
      = ComFieldListResponse.readFrom caps true (Spec.columnDef d ++ Spec.defaultValue (some [])) := by
  have h2 : Spec.Listed (d, ct, some []) := ⟨h.1, h.2.1, by rintro v ⟨⟩; exact ⟨rfl, by norm_num⟩⟩
  exact (fieldListResponse_col caps _ h).trans (fieldListResponse_col caps _ h2).symm

/-- C64: `field_list` ends without a panic, whatever the server sends. -/
theorem fieldListLoop_returns (defs : List ColumnDefinition) (c : Conn) : Returns (Cmd.fieldListLoop defs c) := by
  induction hn : c.inp.length using Nat.strong_induction_on generalizing c defs with
  | _ n ih =>
    rw [Cmd.fieldListLoop]
    rcases recvMsg_total c with ⟨m, c1, h⟩ | ⟨e, c1, h⟩
    · have hlt : c1.inp.length < c.inp.length := by
        unfold recvMsg at h
        split at h
        · rename_i h'
          cases h
          obtain ⟨ps, g1, g2, -⟩ := recvLoop_sound _ _ _ _ _ _ h'
          have := wire_pos g1
          rw [g2]
          simp only [List.length_append]
          omega
        · cases h
      have hw : Well (ComFieldListResponse.readFrom c1.caps true) := by
        intro bs
        cases bs with
        | nil => exact List.suffix_refl _
        | cons b t =>
          exact (Well.ite (fun _ => Well.bind (Well.errPacket _ true) fun _ => Well.pure _) fun _ =>
            Well.ite (fun _ => Well.bind (Well.eofPacket _) fun _ => Well.pure _) fun _ =>
            Well.bind (C49_no_panic true) fun _ => Well.pure _) (b :: t)
      rw [h]
      dsimp only
      rcases M.parse_total hw m c1 with ⟨a, h⟩ | ⟨e, h⟩
      · rw [h]
        cases a with
        | colDef d =>
          dsimp only
          rw [if_pos hlt]
          exact ih _ (hn ▸ hlt) _ c1 rfl
        | err p => exact .inr ⟨_, _, rfl⟩
        | eof p => exact .inl ⟨_, _, rfl⟩
      · rw [h]; exact .inr ⟨_, _, rfl⟩
    · rw [h]; exact .inr ⟨_, _, rfl⟩

theorem C64_no_panic (table wildcard : Bytes) (ht : (0 : UInt8) ∉ table)
    (hn : table.length + wildcard.length + 2 < 255 * 0xffffff) (c : Conn) :
    Returns (Cmd.fieldList table wildcard c) := by
  obtain ⟨c1, a1, -⟩ := fieldList_start table wildcard ht hn c
  rw [a1]
  exact fieldListLoop_returns _ _

/-- two columns, one with a default value, ended by an EOF packet or by an OK packet -/
example : Spec.Listed (exampleDef 8, .longLong, none) ∧ Spec.Listed (exampleDef 8, .longLong, some [52, 50]) ∧
    Spec.IsCommandEnd (2 ^ 9) (Spec.eofPacket (2 ^ 9) 0 2) ∧
    Spec.IsCommandEnd (2 ^ 9 + 2 ^ 24) (Spec.okPacket (2 ^ 9 + 2 ^ 24) 0xfe ⟨0, 0, 2, 0, [], []⟩) := by
  have h : Spec.Supported (exampleDef 8, .longLong) := by
    refine ⟨?_, by decide⟩
    constructor <;> first | (exact ⟨by decide, by decide⟩) | (exact (by decide))
  refine ⟨⟨h, by decide, by rintro v ⟨⟩⟩, ⟨h, by decide, ?_⟩, ?_, ?_⟩
  · rintro v ⟨⟩
    exact ⟨rfl, by decide⟩
  · unfold Spec.IsCommandEnd
    rw [if_neg (by decide)]
    exact ⟨0, 2, by norm_num, by norm_num, rfl⟩
  · unfold Spec.IsCommandEnd
    rw [if_pos (by decide)]
    exact ⟨_, rfl, rfl, by norm_num, rfl⟩

/-! ### C65 -/

theorem eofResponse_end (caps : Nat) (m : Bytes) (h : Spec.IsCommandEnd caps m) :
    ∃ p r, EofResponse.readFrom caps m = .ok (.eof p) r := by
  obtain ⟨t, p, r, ht, hp⟩ := eofPacket_commandEnd caps m h
  refine ⟨p, r, ?_⟩
  rw [ht] at hp ⊢
  rw [(C16_eof_response caps 0xfe t).1 rfl, hp]
  rfl

theorem eofResponse_err (caps code : Nat) (state msg : Bytes) (h : Spec.ErrOk code state msg) :
    ∃ p, EofResponse.readFrom caps (Spec.errPacket (caps.testBit Spec.PROTOCOL_41) code state msg) = .ok (.err p) [] ∧
      sqlError p = reported caps code state msg := by
  obtain ⟨p, hp, hsql⟩ := errPacket_read caps code state msg h
  obtain ⟨t, ht⟩ := errPacket_head (caps.testBit Spec.PROTOCOL_41) code state msg
  refine ⟨p, ?_, hsql⟩
  rw [ht] at hp ⊢
  rw [(C16_eof_response caps 0xff t).2.1 rfl, hp]
  rfl

theorem debug_run (c : Conn) (m rest : Bytes) (hd : Spec.Delivers c.inp [m] rest) :
    ∃ c2, c2.inp = rest ∧ c2.caps = c.caps ∧ SentOne c.caps c.out c2.out .debug ∧
      Cmd.debug c = (M.parse m (EofResponse.readFrom c.caps) c2).bind fun r =>
        match r with
        | .eof _ => pure ()
        | .err p => M.fail (sqlError p) := by
  obtain ⟨c1, a1, a2, a3, a4, -⟩ := sendMsg_cmd c (writeSingleByteCmd [] .debug) .debug
    (C19_simple_commands c.caps []).2.2.2.1 (by simp [writeSingleByteCmd, writeU8])
  rw [← a3] at hd
  obtain ⟨c2, b1, b2, b3, -⟩ := Delivers.recv hd
  have hc := b2.caps.trans a4
  refine ⟨c2, Delivers.nil b3, hc, by rw [b2.out]; exact a2, ?_⟩
  unfold Cmd.debug
  rw [M.bind_apply, a1, MR.bind_ok, M.bind_apply, b1, MR.bind_ok, M.bind_apply, getCaps_apply, MR.bind_ok,
    M.bind_apply, hc]
  rfl

/-- C65: `debug` sends COM_DEBUG, succeeds when the server ends the command and reports its error otherwise. -/
theorem C65_debug (rest : Bytes) (c : Conn) :
    (∀ m, Spec.IsCommandEnd c.caps m → Spec.Delivers c.inp [m] rest →
      ∃ c', Cmd.debug c = .ok () c' ∧ c'.inp = rest ∧ SentOne c.caps c.out c'.out .debug) ∧
    (∀ code state msg, Spec.ErrOk code state msg →
      Spec.Delivers c.inp [Spec.errPacket (c.caps.testBit Spec.PROTOCOL_41) code state msg] rest →
      ∃ c', Cmd.debug c = .err (reported c.caps code state msg) c' ∧ c'.inp = rest ∧ c'.caps = c.caps ∧
        SentOne c.caps c.out c'.out .debug) := by
  constructor
  · intro m hm hd
    obtain ⟨c2, h1, h2, h3, h4⟩ := debug_run c m rest hd
    obtain ⟨p, r, hp⟩ := eofResponse_end c.caps m hm
    refine ⟨c2, ?_, h1, h3⟩
    rw [h4, M.parse_ok hp]
    rfl
  · intro code state msg he hd
    obtain ⟨c2, h1, h2, h3, h4⟩ := debug_run c _ rest hd
    obtain ⟨p, hp, hsql⟩ := eofResponse_err c.caps code state msg he
    refine ⟨c2, ?_, h1, h2, h3⟩
    rw [h4, M.parse_ok hp, ← hsql]
    rfl

theorem setMultiStmts_run (multi : Bool) (c : Conn) (m rest : Bytes) (hd : Spec.Delivers c.inp [m] rest) :
    ∃ c2, c2.inp = rest ∧ c2.caps = c.caps ∧
      SentOne c.caps c.out c2.out (.setOption (if multi then 1 else 0)) ∧
      Cmd.setMultiStmts multi c = (M.parse m (EofResponse.readFrom c.caps) c2).bind fun r =>
        match r with
        | .eof _ => if multi then insertCap Cap.MULTI_STATEMENTS else removeCap Cap.MULTI_STATEMENTS
        | .err p => M.fail (sqlError p) := by
  obtain ⟨c1, a1, a2, a3, a4, -⟩ := sendMsg_cmd c (ComSetOption.writeTo [] multi) _
    (C19_integer_commands c.caps [] 0 0 0 multi (by norm_num) (by norm_num) (by norm_num)).2.2.2.2.2
    (by cases multi <;> decide)
  rw [← a3] at hd
  obtain ⟨c2, b1, b2, b3, -⟩ := Delivers.recv hd
  have hc := b2.caps.trans a4
  refine ⟨c2, Delivers.nil b3, hc, by rw [b2.out]; exact a2, ?_⟩
  unfold Cmd.setMultiStmts
  rw [M.bind_apply, a1, MR.bind_ok, M.bind_apply, b1, MR.bind_ok, M.bind_apply, getCaps_apply, MR.bind_ok,
    M.bind_apply, hc]
  rfl

theorem multiStatements_caps (caps : Nat) :
    Spec.FlagSet Spec.MULTI_STATEMENTS true caps (caps ||| Cap.MULTI_STATEMENTS) ∧
    Spec.FlagSet Spec.MULTI_STATEMENTS false caps (caps ^^^ (caps &&& Cap.MULTI_STATEMENTS)) := by
  have hb : ∀ i, Nat.testBit Cap.MULTI_STATEMENTS i = decide (16 = i) := fun i => by
    rw [show Cap.MULTI_STATEMENTS = 2 ^ 16 from rfl, Nat.testBit_two_pow]
  constructor <;> intro i
  · rw [Nat.testBit_or, hb]
    by_cases h : i = 16
    · subst h; simp
    · rw [if_neg h, decide_eq_false (fun e => h e.symm), Bool.or_false]
  · rw [Nat.testBit_xor, Nat.testBit_and, hb]
    by_cases h : i = 16
    · subst h; simp
    · rw [if_neg h, decide_eq_false (fun e => h e.symm), Bool.and_false, Bool.xor_false]

/-- C65: when the server agrees, `set_multi_stmts` succeeds and the capabilities of the client differ from those before
in MULTI_STATEMENTS only; when it reports an error, that error is returned and they do not change. (Full claim: and
the server then accepts multiple statements exactly if that was asked for, which is false, see below.) -/
theorem C65_set_multi_stmts_partial (multi : Bool) (rest : Bytes) (c : Conn) :
    (∀ m, Spec.IsCommandEnd c.caps m → Spec.Delivers c.inp [m] rest →
      ∃ c', Cmd.setMultiStmts multi c = .ok () c' ∧ c'.inp = rest ∧
        Spec.FlagSet Spec.MULTI_STATEMENTS multi c.caps c'.caps) ∧
    (∀ code state msg, Spec.ErrOk code state msg →
      Spec.Delivers c.inp [Spec.errPacket (c.caps.testBit Spec.PROTOCOL_41) code state msg] rest →
      ∃ c', Cmd.setMultiStmts multi c = .err (reported c.caps code state msg) c' ∧ c'.inp = rest ∧
        c'.caps = c.caps) := by
  constructor
  · intro m hm hd
    obtain ⟨c2, h1, h2, h3, h4⟩ := setMultiStmts_run multi c m rest hd
    obtain ⟨p, r, hp⟩ := eofResponse_end c.caps m hm
    rw [M.parse_ok hp] at h4
    cases multi
    · exact ⟨_, h4, h1, by rw [← h2]; exact (multiStatements_caps c2.caps).2⟩
    · exact ⟨_, h4, h1, by rw [← h2]; exact (multiStatements_caps c2.caps).1⟩
  · intro code state msg he hd
    obtain ⟨c2, h1, h2, h3, h4⟩ := setMultiStmts_run multi c _ rest hd
    obtain ⟨p, hp, hsql⟩ := eofResponse_err c.caps code state msg he
    refine ⟨c2, ?_, h1, h2⟩
    rw [h4, M.parse_ok hp, ← hsql]
    rfl

/-- C65: the operand is inverted. Whatever is asked for, the command the server decodes sets the opposite, and when
the server agrees the client has recorded what was asked for. -/
theorem C65_set_multi_stmts_false (multi : Bool) (m rest : Bytes) (c : Conn) (hm : Spec.IsCommandEnd c.caps m)
    (hd : Spec.Delivers c.inp [m] rest) :
    ∃ c' op, Cmd.setMultiStmts multi c = .ok () c' ∧ SentOne c.caps c.out c'.out (.setOption op) ∧
      Spec.multiStatementsAfter op = some (!multi) ∧ c'.caps.testBit Spec.MULTI_STATEMENTS = multi := by
  obtain ⟨c2, h1, h2, h3, h4⟩ := setMultiStmts_run multi c m rest hd
  obtain ⟨p, r, hp⟩ := eofResponse_end c.caps m hm
  rw [M.parse_ok hp] at h4
  cases multi
  · exact ⟨_, 0, h4, h3, rfl, by rw [← h2] at *; have := (multiStatements_caps c2.caps).2 16; exact this⟩
  · exact ⟨_, 1, h4, h3, rfl, by rw [← h2] at *; have := (multiStatements_caps c2.caps).1 16; exact this⟩

/-- what a server that answers as documented sends -/
example : ∃ c : Conn, ∃ m, Spec.IsCommandEnd c.caps m ∧ Spec.Delivers c.inp [m] [] := by
  obtain ⟨inp, h⟩ := delivers_small [Spec.eofPacket (2 ^ 9) 0 2] [] (by decide)
  refine ⟨⟨inp, [], 0, 2 ^ 9, 0⟩, Spec.eofPacket (2 ^ 9) 0 2, ?_, h⟩
  unfold Spec.IsCommandEnd
  rw [if_neg (show ¬ Nat.testBit (2 ^ 9) 24 = true by decide)]
  exact ⟨0, 2, by norm_num, by norm_num, rfl⟩

end Mybin
