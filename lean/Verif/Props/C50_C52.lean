/-
C50: preparing statements.
C51: executing statements that return no rows.
C52: executing a prepared statement and closing it.
-/
import Verif.Props.C19_C21
import Verif.Props.C26_C27

namespace Mybin

/-- between `before` and `after` the client sent exactly one message, numbered from 0, which the server reads as
`cmd` -/
def SentOne (caps : Nat) (before after : Bytes) (cmd : Spec.ServerCmd) : Prop :=
  ∃ ps, after = before ++ Spec.wire ps ∧ Spec.IsMessage ps ∧ Spec.Numbered 0 ps ∧
    Spec.D.all (Spec.D.command caps) (Spec.payload ps) = some cmd

theorem sendMsg_cmd (c : Conn) (w : Bytes × Nat) (cmd : Spec.ServerCmd) (hs : SentAs c.caps [] w cmd)
    (hn : w.1.length < 255 * 0xffffff) :
    ∃ c', sendMsg w.1 true c = .ok () c' ∧ SentOne c.caps c.out c'.out cmd ∧ c'.inp = c.inp ∧
      c'.caps = c.caps ∧ c'.status = c.status := by
  obtain ⟨e, rfl, h2⟩ := hs
  rw [List.nil_append] at hn ⊢
  obtain ⟨ps, c', a1, a2, a3, a4, a5, a6, a7, a8⟩ := sendMsg_spec e c (Nat.div_lt_of_lt_mul (by omega))
  exact ⟨c', a4, ⟨ps, a5, a1, a2, by rw [a3]; exact h2⟩, a6, a7, a8⟩

/-! ### C50 -/

theorem stmtPrepareOk_spec (id nc np w : Nat) (h1 : id < 2 ^ 32) (h2 : nc < 2 ^ 16) (h3 : np < 2 ^ 16)
    (h4 : w < 2 ^ 16) :
    ∃ p, StmtPrepareOk.readFrom
        (Spec.u8 0 ++ Spec.le 4 id ++ Spec.le 2 nc ++ Spec.le 2 np ++ Spec.u8 0 ++ Spec.le 2 w) = .ok p [] ∧
      p.stmtId = id ∧ p.nCols = nc ∧ p.nParams = np ∧ p.nWarnings = w := by
  unfold StmtPrepareOk.readFrom
  simp only [List.append_assoc]
  step (readU8_u8 0 _ (by norm_num))
  rw [show ∀ (p q : P StmtPrepareOk), (if (0 : Nat) ≠ 0 then p else q) = q from fun p q => if_neg (by simp)]
  step (readLeU32_le _ _ h1)
  step (readLeU16_le _ _ h2)
  step (readLeU16_le _ _ h3)
  step (readU8_u8 0 _ (by norm_num))
  have := readLeU16_le w [] h4
  rw [List.append_nil] at this
  step this
  exact ⟨_, rfl, rfl, rfl, rfl, rfl⟩

/-- C50: for every statement, any numbers of parameters and columns (of supported types) and every capability set, the
client sends COM_STMT_PREPARE, returns the id, the definitions in order and the warning count, and leaves exactly what
follows the response. (Full claim: columns of every type; see C49.) -/
theorem C50_prepare_partial (q : Bytes) (hq : q.length + 1 < 255 * 0xffffff) (p : Spec.PrepareOk)
    (hid : p.stmtId < 2 ^ 32) (hwn : p.warnings < 2 ^ 16)
    (params cols : List (Spec.ColDef × ColumnType)) (hpl : params.length < 2 ^ 16) (hcl : cols.length < 2 ^ 16)
    (hps : ∀ dc ∈ params, Spec.Supported dc) (hcs : ∀ dc ∈ cols, Spec.Supported dc)
    (w1 s1 w2 s2 : Nat) (hw1 : w1 < 2 ^ 16) (hs1 : s1 < 2 ^ 15) (hw2 : w2 < 2 ^ 16) (hs2 : s2 < 2 ^ 15)
    (rest : Bytes) (c : Conn)
    (hd : Spec.Delivers c.inp
      (Spec.prepareResponse c.caps p (params.map (·.1)) (cols.map (·.1)) w1 s1 w2 s2) rest) :
    ∃ c', Stmt.prepare q c = .ok
        { stmtId := p.stmtId, colDefs := clientDefs cols, paramDefs := clientDefs params,
          nWarnings := p.warnings } c' ∧
      c'.inp = rest ∧ c'.caps = c.caps ∧ SentOne c.caps c.out c'.out (.stmtPrepare q) := by
  obtain ⟨c1, a1, a2, a3, a4, -⟩ := sendMsg_cmd c (ComStmtPrepare.writeTo [] q) _
    (C19_string_commands c.caps [] q).2.2.2.2 (by
      have : (ComStmtPrepare.writeTo [] q).1 = 0x16 :: q := rfl
      rw [this, List.length_cons]; exact hq)
  unfold Spec.prepareResponse at hd
  rw [← a3, ← a4, List.length_map, List.length_map, List.map_map, List.map_map] at hd
  simp only [List.map_eq_nil_iff] at hd
  have e : ∀ (x : List Bytes) (a b d e : List Bytes), x ++ a ++ b ++ d ++ e = x ++ (a ++ b ++ (d ++ e ++ [])) := by
    intro x a b d e; simp
  rw [e] at hd
  obtain ⟨c2, b1, b2, b3, -⟩ := Delivers.recv hd
  rw [← b2.caps] at b3
  obtain ⟨c3, d1, d2, d3⟩ := recvDefs_spec params hps w1 s1 hw1 hs1 _ rest c2 b3
  rw [← d2.caps] at d3
  obtain ⟨c4, f1, f2, f3⟩ := recvDefs_spec cols hcs w2 s2 hw2 hs2 [] rest c3 d3
  obtain ⟨ok, g1, g2, g3, g4, g5⟩ := stmtPrepareOk_spec p.stmtId cols.length params.length p.warnings hid hcl hpl hwn
  refine ⟨c4, ?_, Delivers.nil f3, by rw [f2.caps, d2.caps, b2.caps, a4], by rw [f2.out, d2.out, b2.out]; exact a2⟩
  unfold Stmt.prepare
  simp only [M.bind_apply, a1, MR.bind_ok, b1]
  have hh : ∃ t, Spec.u8 0 ++ Spec.le 4 p.stmtId ++ Spec.le 2 cols.length ++ Spec.le 2 params.length ++ Spec.u8 0
      ++ Spec.le 2 p.warnings = 0 :: t := ⟨_, rfl⟩
  obtain ⟨t, ht⟩ := hh
  rw [ht] at g1 ⊢
  simp only [if_neg (show ¬ (0 : UInt8) = 0xff by decide), M.bind_apply, M.parse_ok g1, MR.bind_ok, g2, g3, g4, g5,
    d1, f1, M.pure_apply]

/-- the error the client reports for an ERR packet -/
theorem failWithErrPacket_spec {α : Type} (c : Conn) (code : Nat) (hc : code < 2 ^ 16) (state msg : Bytes)
    (hs : state.length = 5) (hu : validUtf8 state = true) (hm : validUtf8 msg = true) :
    failWithErrPacket (α := α) (Spec.errPacket (c.caps.testBit Spec.PROTOCOL_41) code state msg) c
      = .err (.sql code (if c.caps.testBit Spec.PROTOCOL_41 then state else []) msg) c := by
  have h := C15_err_packet c.caps true code hc state msg hs
  rw [Bool.true_and] at h
  unfold failWithErrPacket
  simp only [M.bind_apply, getCaps_apply, MR.bind_ok, M.parse_ok h, M.fail_apply]
  cases c.caps.testBit Spec.PROTOCOL_41 with
  | true => simp [sqlError, hu, hm]
  | false => simp [sqlError, hm, show validUtf8 [] = true from rfl]

/-- C50: when the server answers with an error, `prepare` reports code, state and message, and leaves what follows. -/
theorem C50_prepare_err (q : Bytes) (hq : q.length + 1 < 255 * 0xffffff) (code : Nat) (hc : code < 2 ^ 16)
    (state msg : Bytes) (hs : state.length = 5) (hu : validUtf8 state = true) (hm : validUtf8 msg = true)
    (rest : Bytes) (c : Conn)
    (hd : Spec.Delivers c.inp [Spec.errPacket (c.caps.testBit Spec.PROTOCOL_41) code state msg] rest) :
    ∃ c', Stmt.prepare q c = .err (.sql code (if c.caps.testBit Spec.PROTOCOL_41 then state else []) msg) c' ∧
      c'.inp = rest ∧ c'.caps = c.caps ∧ SentOne c.caps c.out c'.out (.stmtPrepare q) := by
  obtain ⟨c1, a1, a2, a3, a4, -⟩ := sendMsg_cmd c (ComStmtPrepare.writeTo [] q) _
    (C19_string_commands c.caps [] q).2.2.2.2 (by
      have : (ComStmtPrepare.writeTo [] q).1 = 0x16 :: q := rfl
      rw [this, List.length_cons]; exact hq)
  rw [← a3] at hd
  obtain ⟨c2, b1, b2, b3, -⟩ := Delivers.recv hd
  refine ⟨c2, ?_, Delivers.nil b3, b2.caps.trans a4, by rw [b2.out]; exact a2⟩
  have hcaps : c2.caps = c.caps := b2.caps.trans a4
  have hf := failWithErrPacket_spec (α := StmtPrepareOk) c2 code hc state msg hs hu hm
  unfold Stmt.prepare
  simp only [M.bind_apply, a1, MR.bind_ok, b1]
  have hh : ∃ t, Spec.errPacket (c.caps.testBit Spec.PROTOCOL_41) code state msg = 0xff :: t := ⟨_, rfl⟩
  obtain ⟨t, ht⟩ := hh
  rw [hcaps, ht] at hf
  rw [ht]
  simp only [if_true, M.bind_apply, hf, MR.bind_err]

/-! ### C51 -/

theorem execLoop_err (code : Nat) (hc : code < 2 ^ 16)
    (state msg : Bytes) (hs : state.length = 5) (hu : validUtf8 state = true) (hm : validUtf8 msg = true)
    (ms : List Bytes) (rest : Bytes) (c : Conn)
    (hd : Spec.Delivers c.inp (Spec.errPacket (c.caps.testBit Spec.PROTOCOL_41) code state msg :: ms) rest) :
    ∃ c', execLoop c = .err (.sql code (if c.caps.testBit Spec.PROTOCOL_41 then state else []) msg) c' ∧
      Spec.Delivers c'.inp ms rest ∧ Moved c c' := by
  obtain ⟨c2, b1, b2, b3, -⟩ := Delivers.recv hd
  refine ⟨c2, ?_, b3, b2⟩
  have hf := failWithErrPacket_spec (α := Unit) c2 code hc state msg hs hu hm
  have hh : ∃ t, Spec.errPacket (c.caps.testBit Spec.PROTOCOL_41) code state msg = 0xff :: t := ⟨_, rfl⟩
  obtain ⟨t, ht⟩ := hh
  rw [b2.caps, ht] at hf
  rw [ht] at b1
  rw [execLoop, b1]
  simp only [if_true, hf]

theorem execLoop_ok (f : Spec.OkFields) (hf : f.InRange) (ms : List Bytes) (rest : Bytes) (c : Conn)
    (hd : Spec.Delivers c.inp (Spec.okPacket c.caps 0 f :: ms) rest) :
    ∃ c', execLoop c = .ok () c' ∧ Spec.Delivers c'.inp ms rest ∧ Moved c c' := by
  obtain ⟨c2, b1, b2, b3, -⟩ := Delivers.recv hd
  refine ⟨c2, ?_, b3, b2⟩
  have hp := C14_ok_packet c.caps 0 (by norm_num) f hf
  have hh : ∃ t, Spec.okPacket c.caps 0 f = 0 :: t := by
    unfold Spec.okPacket
    simp only [List.append_assoc]
    exact ⟨_, rfl⟩
  obtain ⟨t, ht⟩ := hh
  rw [ht] at b1 hp
  rw [← b2.caps] at hp
  rw [execLoop, b1]
  simp only [if_neg (show ¬ (0 : UInt8) = 0xff by decide), if_true, M.parse_ok hp]

/-- `exec` reads on over every message that starts with neither 0x00 nor 0xff -/
theorem execLoop_skip (skipped : List Bytes) (h : ∀ m ∈ skipped, ∃ b t, m = b :: t ∧ b ≠ 0 ∧ b ≠ 0xff)
    (ms : List Bytes) (rest : Bytes) (c : Conn) (hd : Spec.Delivers c.inp (skipped ++ ms) rest) :
    ∃ c', execLoop c = execLoop c' ∧ Spec.Delivers c'.inp ms rest ∧ Moved c c' := by
  induction skipped generalizing c with
  | nil => exact ⟨c, rfl, hd, Moved.refl c⟩
  | cons m skipped ih =>
    obtain ⟨c1, b1, b2, b3, b4⟩ := Delivers.recv hd
    obtain ⟨c2, d1, d2, d3⟩ := ih (fun x hx => h x (by simp [hx])) c1 b3
    obtain ⟨b, t, rfl, h1, h2⟩ := h m (by simp)
    refine ⟨c2, ?_, d2, b2.trans d3⟩
    rw [execLoop, b1]
    simp only [if_neg h1, if_neg h2, if_pos b4, d1]

/-- C51, text statements answered by OK or ERR: `exec` reports which, and leaves exactly what follows the response.
(Full claim: also for responses with rows; those fail, see `C51_result_set_false`.) -/
theorem C51_query_exec_partial (q : Bytes) (hq : q.length + 1 < 255 * 0xffffff) (rest : Bytes) (c : Conn) :
    (∀ f : Spec.OkFields, f.InRange → Spec.Delivers c.inp [Spec.okPacket c.caps 0 f] rest →
      ∃ c', Query.exec q c = .ok () c' ∧ c'.inp = rest ∧ SentOne c.caps c.out c'.out (.query q)) ∧
    (∀ code state msg, code < 2 ^ 16 → state.length = 5 → validUtf8 state = true → validUtf8 msg = true →
      Spec.Delivers c.inp [Spec.errPacket (c.caps.testBit Spec.PROTOCOL_41) code state msg] rest →
      ∃ c', Query.exec q c = .err (.sql code (if c.caps.testBit Spec.PROTOCOL_41 then state else []) msg) c' ∧
        c'.inp = rest ∧ SentOne c.caps c.out c'.out (.query q)) := by
  obtain ⟨c1, a1, a2, a3, a4, -⟩ := sendMsg_cmd c (ComQuery.writeTo [] q) _
    (C19_string_commands c.caps [] q).1 (by
      have : (ComQuery.writeTo [] q).1 = 0x03 :: q := rfl
      rw [this, List.length_cons]; exact hq)
  have e : Query.exec q c = execLoop c1 := by
    unfold Query.exec
    show MR.bind _ _ = _
    rw [a1]
    rfl
  constructor
  · intro f hf hd
    rw [← a3, ← a4] at hd
    obtain ⟨c2, b1, b2, b3⟩ := execLoop_ok f hf [] rest c1 hd
    exact ⟨c2, e.trans b1, Delivers.nil b2, by rw [b3.out]; exact a2⟩
  · intro code state msg hc hs hu hm hd
    rw [← a3, ← a4] at hd
    obtain ⟨c2, b1, b2, b3⟩ := execLoop_err code hc state msg hs hu hm [] rest c1 hd
    rw [a4] at b1
    exact ⟨c2, e.trans b1, Delivers.nil b2, by rw [b3.out]; exact a2⟩

/-- C51, prepared statements answered by OK or ERR. -/
theorem C51_stmt_exec_partial (st : PreparedStmt) (hid : st.stmtId < 2 ^ 32) (params : List StmtColumnValue)
    (hsound : ∀ p ∈ params, p.Sound) (rest : Bytes) (c : Conn) :
    ∃ e, Spec.D.all (Spec.D.stmtExecute params.length) e
        = some ⟨st.stmtId, 0, 1, params.map Spec.serverParam⟩ ∧
    (e.length < 255 * 0xffffff →
    (∀ f : Spec.OkFields, f.InRange → Spec.Delivers c.inp [Spec.okPacket c.caps 0 f] rest →
      ∃ ps c', st.exec params c = .ok () c' ∧ c'.inp = rest ∧ c'.out = c.out ++ Spec.wire ps ∧
        Spec.IsMessage ps ∧ Spec.Numbered 0 ps ∧ Spec.payload ps = e) ∧
    (∀ code state msg, code < 2 ^ 16 → state.length = 5 → validUtf8 state = true → validUtf8 msg = true →
      Spec.Delivers c.inp [Spec.errPacket (c.caps.testBit Spec.PROTOCOL_41) code state msg] rest →
      ∃ ps c', st.exec params c = .err (.sql code (if c.caps.testBit Spec.PROTOCOL_41 then state else []) msg) c' ∧
        c'.inp = rest ∧ c'.out = c.out ++ Spec.wire ps ∧
        Spec.IsMessage ps ∧ Spec.Numbered 0 ps ∧ Spec.payload ps = e)) := by
  obtain ⟨cmd, e, h1, h2, h3⟩ := C22_server_sees_parameters_partial st.stmtId params hid hsound
  refine ⟨e, h3, fun hn => ?_⟩
  obtain ⟨ps, c1, a1, a2, a3, a4, a5, a6, a7, -⟩ := sendMsg_spec e c (Nat.div_lt_of_lt_mul (by omega))
  have hsend : st.send params c = .ok () c1 := by
    unfold PreparedStmt.send
    have := h2 []
    rw [List.nil_append] at this
    rw [h1]
    simp only [this]
    exact a4
  have ee : st.exec params c = execLoop c1 := by
    unfold PreparedStmt.exec
    show MR.bind _ _ = _
    rw [hsend]
    rfl
  constructor
  · intro f hf hd
    rw [← a6, ← a7] at hd
    obtain ⟨c2, b1, b2, b3⟩ := execLoop_ok f hf [] rest c1 hd
    exact ⟨ps, c2, ee.trans b1, Delivers.nil b2, by rw [b3.out]; exact a5, a1, a2, a3⟩
  · intro code state msg hc hs hu hm hd
    rw [← a6, ← a7] at hd
    obtain ⟨c2, b1, b2, b3⟩ := execLoop_err code hc state msg hs hu hm [] rest c1 hd
    rw [a7] at b1
    exact ⟨ps, c2, ee.trans b1, Delivers.nil b2, by rw [b3.out]; exact a5, a1, a2, a3⟩

theorem columnDef_head (d : Spec.ColDef) (h : d.catalog ≠ []) (hl : d.catalog.length < 2 ^ 32) :
    ∃ b t, Spec.columnDef d = b :: t ∧ b ≠ 0 ∧ b ≠ 0xff := by
  obtain ⟨b, t, h1, h2, h3⟩ := lenEncInt_head d.catalog.length (List.length_pos_iff.2 h) hl
  unfold Spec.columnDef Spec.lenEncStr
  simp only [List.append_assoc, h1, List.cons_append]
  exact ⟨b, _, rfl, h2, h3⟩

/-- C51 is false for responses with rows: whatever the (named) columns and the rows whose first value is neither empty
nor NULL, `exec` reads past the end of the result set and takes the response of the next command, here any OK packet,
for the end of its own. -/
theorem C51_result_set_false (defs : List Spec.ColDef) (hd0 : defs ≠ []) (hdl : defs.length < 2 ^ 32)
    (hdefs : ∀ d ∈ defs, d.catalog ≠ [] ∧ d.catalog.length < 2 ^ 32) (w s w' s' : Nat)
    (rows : List (List (Option Bytes)))
    (hrows : ∀ row ∈ rows, ∃ v vs, row = some v :: vs ∧ v ≠ [] ∧ v.length < 2 ^ 32)
    (next : Spec.OkFields) (hnext : next.InRange) (rest : Bytes) (c : Conn)
    (hd : Spec.Delivers c.inp (Spec.resultSetHead c.caps defs w s ++ rows.map Spec.textRow
      ++ [Spec.eofPacket c.caps w' s'] ++ [Spec.okPacket c.caps 0 next]) rest) :
    ∃ c', execLoop c = .ok () c' ∧ c'.inp = rest := by
  obtain ⟨c1, h1, h2, h3⟩ := execLoop_skip _ (by
    intro m hm
    simp only [Spec.resultSetHead, Spec.defsEnd, List.mem_append, List.mem_singleton, List.mem_map] at hm
    rcases hm with ((((rfl | ⟨d, hd, rfl⟩) | hm) | ⟨row, hrow, rfl⟩) | rfl)
    · exact lenEncInt_head _ (List.length_pos_iff.2 hd0) hdl
    · exact columnDef_head d (hdefs d hd).1 (hdefs d hd).2
    · split at hm
      · cases hm
      · rw [List.mem_singleton.1 hm]
        exact ⟨0xfe, _, rfl, by decide, by decide⟩
    · obtain ⟨v, vs, rfl, hv, hl⟩ := hrows row hrow
      obtain ⟨b, t, e1, e2, e3⟩ := lenEncInt_head v.length (List.length_pos_iff.2 hv) hl
      refine ⟨b, t ++ v ++ (vs.map Spec.textValue).flatten, ?_, e2, e3⟩
      simp [Spec.textRow, Spec.textValue, Spec.lenEncStr, e1]
    · exact ⟨0xfe, _, rfl, by decide, by decide⟩) [Spec.okPacket c.caps 0 next] rest c hd
  rw [← h3.caps] at h2
  obtain ⟨c2, b1, b2, -⟩ := execLoop_ok next hnext [] rest c1 h2
  exact ⟨c2, h1.trans b1, Delivers.nil b2⟩

/-- C51: an empty message makes `exec` panic. -/
theorem C51_empty_message_false (ms : List Bytes) (rest : Bytes) (c : Conn)
    (hd : Spec.Delivers c.inp ([] :: ms) rest) : execLoop c = .panic := by
  obtain ⟨c1, b1, -⟩ := Delivers.recv hd
  rw [execLoop, b1]

/-! ### C52 -/

theorem execLoop_out (c : Conn) : (∀ u c', execLoop c = .ok u c' → Moved c c') ∧
    (∀ e c', execLoop c = .err e c' → Moved c c') := by
  induction hn : c.inp.length using Nat.strong_induction_on generalizing c with
  | _ n ih =>
    have hrecv : ∀ c1, (∃ m, recvMsg c = .ok m c1) ∨ (∃ e, recvMsg c = .err e c1) → Moved c c1 := by
      intro c1 h
      unfold recvMsg at h
      rcases h with ⟨m, h⟩ | ⟨m, h⟩ <;> split at h <;> cases h <;> exact ⟨rfl, rfl, rfl⟩
    have hfail : ∀ (m : Bytes) (c1 : Conn) (r : MR Unit), failWithErrPacket m c1 = r →
        (∀ u c', r = .ok u c' → c' = c1) ∧ (∀ e c', r = .err e c' → c' = c1) := by
      intro m c1 r h
      unfold failWithErrPacket at h
      simp only [M.bind_apply, getCaps_apply, MR.bind_ok] at h
      unfold M.parse at h
      split at h <;> subst h <;> refine ⟨?_, ?_⟩ <;> intro _ _ h <;> cases h <;> rfl
    have hparse : ∀ (m : Bytes) (p : P OkPacket) (c1 : Conn) (r : MR OkPacket), M.parse m p c1 = r →
        (∀ u c', r = .ok u c' → c' = c1) ∧ (∀ e c', r = .err e c' → c' = c1) := by
      intro m p c1 r h
      unfold M.parse at h
      split at h <;> subst h <;> refine ⟨?_, ?_⟩ <;> intro _ _ h <;> cases h <;> rfl
    rw [execLoop]
    split
    · exact ⟨fun _ _ h => (by cases h), fun _ _ h => (by cases h)⟩
    · rename_i b t c1 h1
      have hm := hrecv c1 (.inl ⟨_, h1⟩)
      split_ifs with h2 h3 h4
      · have := hfail (b :: t) c1 _ rfl
        exact ⟨fun u c' h => by rw [this.1 u c' h]; exact hm, fun u c' h => by rw [this.2 u c' h]; exact hm⟩
      · have := hparse (b :: t) (OkPacket.readFrom c1.caps) c1 _ rfl
        split
        · rename_i h5
          refine ⟨fun u c' h => ?_, fun _ _ h => by cases h⟩
          cases h
          rw [this.1 _ _ h5]
          exact hm
        · rename_i h5
          refine ⟨fun _ _ h => (by cases h), fun _ c' h => ?_⟩
          cases h
          rw [this.2 _ _ h5]
          exact hm
        · exact ⟨fun _ _ h => (by cases h), fun _ _ h => (by cases h)⟩
        · exact ⟨fun _ _ h => (by cases h), fun _ _ h => (by cases h)⟩
      · have := ih c1.inp.length (by omega) c1 rfl
        exact ⟨fun u c' h => hm.trans (this.1 u c' h), fun u c' h => hm.trans (this.2 u c' h)⟩
      · exact ⟨fun _ _ h => (by cases h), fun _ _ h => (by cases h)⟩
    · rename_i e c1 h1
      refine ⟨fun _ _ h => (by cases h), fun _ c' h => ?_⟩
      cases h
      exact hrecv _ (.inr ⟨_, h1⟩)
    · exact ⟨fun _ _ h => (by cases h), fun _ _ h => (by cases h)⟩
    · exact ⟨fun _ _ h => (by cases h), fun _ _ h => (by cases h)⟩

theorem stmtClose_spec (st : PreparedStmt) (hid : st.stmtId < 2 ^ 32) (c : Conn) :
    ∃ c', st.close c = .ok () c' ∧ c'.inp = c.inp ∧ c'.caps = c.caps ∧
      SentOne c.caps c.out c'.out (.stmtClose st.stmtId) := by
  obtain ⟨c', a1, a2, a3, a4, -⟩ := sendMsg_cmd c (ComStmtClose.writeTo [] st.stmtId) _
    (C19_integer_commands c.caps [] st.stmtId 0 0 false hid (by norm_num) (by norm_num)).2.1
    (by unfold ComStmtClose.writeTo; simp [writeU8_spec, writeLeU32_spec, Spec.u8])
  exact ⟨c', a1, a3, a4, a2⟩

/-- C52: for every statement, parameters and connection state, so whatever the server answers: the bytes sent are one
execute message followed by one COM_STMT_CLOSE with the statement's id, the unread input is what the execution left, and
the outcome is the execution's. -/
theorem C52_exec_close (st : PreparedStmt) (hid : st.stmtId < 2 ^ 32) (params : List StmtColumnValue)
    (hsound : ∀ p ∈ params, p.Sound) (c : Conn) :
    ∃ e, Spec.D.all (Spec.D.stmtExecute params.length) e
        = some ⟨st.stmtId, 0, 1, params.map Spec.serverParam⟩ ∧
    (e.length < 255 * 0xffffff →
      (∀ c1, st.exec params c = .ok () c1 → ∃ ps c2, st.execClose params c = .ok () c2 ∧ c2.inp = c1.inp ∧
        SentOne c.caps (c.out ++ Spec.wire ps) c2.out (.stmtClose st.stmtId) ∧
        Spec.IsMessage ps ∧ Spec.Numbered 0 ps ∧ Spec.payload ps = e) ∧
      (∀ err c1, st.exec params c = .err err c1 → ∃ ps c2, st.execClose params c = .err err c2 ∧ c2.inp = c1.inp ∧
        SentOne c.caps (c.out ++ Spec.wire ps) c2.out (.stmtClose st.stmtId) ∧
        Spec.IsMessage ps ∧ Spec.Numbered 0 ps ∧ Spec.payload ps = e)) := by
  obtain ⟨cmd, e, h1, h2, h3⟩ := C22_server_sees_parameters_partial st.stmtId params hid hsound
  refine ⟨e, h3, fun hn => ?_⟩
  obtain ⟨ps, c0, a1, a2, a3, a4, a5, a6, a7, -⟩ := sendMsg_spec e c (Nat.div_lt_of_lt_mul (by omega))
  have hsend : st.send params c = .ok () c0 := by
    unfold PreparedStmt.send
    have := h2 []
    rw [List.nil_append] at this
    rw [h1]
    simp only [this]
    exact a4
  have ee : st.exec params c = execLoop c0 := by
    unfold PreparedStmt.exec
    show MR.bind _ _ = _
    rw [hsend]
    rfl
  constructor
  · intro c1 h
    have hm := (execLoop_out c0).1 () c1 (ee ▸ h)
    obtain ⟨c2, b1, b2, -, b3⟩ := stmtClose_spec st hid c1
    refine ⟨ps, c2, ?_, b2, ?_, a1, a2, a3⟩
    · unfold PreparedStmt.execClose
      simp only [h, b1]
    · rw [hm.caps, hm.out, a7, a5] at b3
      exact b3
  · intro err c1 h
    have hm := (execLoop_out c0).2 err c1 (ee ▸ h)
    obtain ⟨c2, b1, b2, -, b3⟩ := stmtClose_spec st hid c1
    refine ⟨ps, c2, ?_, b2, ?_, a1, a2, a3⟩
    · unfold PreparedStmt.execClose
      simp only [h, b1]
    · rw [hm.caps, hm.out, a7, a5] at b3
      exact b3

/-- closing a result set of a prepared statement sends COM_STMT_CLOSE once; closing it again sends nothing -/
theorem C52_result_set_close (rs : ResultSet) (id : Nat) (hid : id < 2 ^ 32) (h : rs.stmtId = some id) (c : Conn) :
    ∃ rs' c', rs.close c = .ok rs' c' ∧ SentOne c.caps c.out c'.out (.stmtClose id) ∧ c'.inp = c.inp ∧
      rs'.close c' = .ok rs' c' := by
  obtain ⟨c', a1, a2, -, a3⟩ := stmtClose_spec ⟨id, [], [], 0⟩ hid c
  have a1 : sendMsg (ComStmtClose.writeTo [] id).1 true c = .ok () c' := a1
  refine ⟨{ rs with stmtId := none }, c', ?_, a3, a2, rfl⟩
  unfold ResultSet.close
  rw [h]
  simp only [M.bind_apply, a1, MR.bind_ok, M.pure_apply]

-- non-vacuity: an OK response, an ERR response, sound parameters
example : ∃ c : Conn, Spec.Delivers c.inp [Spec.okPacket c.caps 0 ⟨1, 2, 2, 0, [], []⟩] [9] ∧
    (⟨1, 2, 2, 0, [], []⟩ : Spec.OkFields).InRange := by
  refine ⟨{ inp := Spec.wire [⟨1, Spec.okPacket (2 ^ 9) 0 ⟨1, 2, 2, 0, [], []⟩⟩] ++ [9], caps := 2 ^ 9 },
    ⟨[[⟨1, _⟩]], ?_, rfl, rfl⟩, by constructor <;> norm_num⟩
  simp only [List.mem_singleton, forall_eq]
  exact ⟨[], _, rfl, by simp, by decide, by simp⟩

example : ∃ c : Conn, Spec.Delivers c.inp
      [Spec.errPacket (c.caps.testBit Spec.PROTOCOL_41) 1064 [0x34, 0x32, 0x30, 0x30, 0x30] [0x21]] [9] ∧
    validUtf8 [0x34, 0x32, 0x30, 0x30, 0x30] = true := by
  refine ⟨{
      inp := Spec.wire [⟨1, Spec.errPacket true 1064 [0x34, 0x32, 0x30, 0x30, 0x30] [0x21]⟩] ++ [9]
      caps := 2 ^ 9 }, ⟨[[⟨1, _⟩]], ?_, rfl, rfl⟩, by decide⟩
  simp only [List.mem_singleton, forall_eq]
  exact ⟨[], _, rfl, by simp, by decide, by simp⟩

end Mybin
