/-
C70-C73: variables, the list of binlog files, and commands after a result set.
-/
import Verif.Props.C61_C65
import Verif.Props.C66_C69
import Verif.Props.C40_C42
import Verif.Props.C26_C27

namespace Mybin

/-! ### answers to text queries -/

/-- a text result set: head, rows, terminator -/
def Spec.textAnswer (caps : Nat) (cols : List Spec.ColDef) (w s : Nat) (rows : List (List (Option (List UInt8))))
    (term : List UInt8) : List (List UInt8) :=
  Spec.resultSetHead caps cols w s ++ (rows.map Spec.textRow ++ [term])

/-- a text result set with columns of types the client knows -/
structure Spec.AnswerOk (caps : Nat) (cols : List (Spec.ColDef × ColumnType)) (w s : Nat)
    (rows : List (List (Option Bytes))) (term : Bytes) : Prop where
  cols0 : cols ≠ []
  cols_lt : cols.length < 2 ^ 32
  supported : ∀ dc ∈ cols, Spec.Supported dc
  w_lt : w < 2 ^ 16
  s_lt : s < 2 ^ 15
  width : ∀ row ∈ rows, row.length = cols.length
  values : ∀ row ∈ rows, ∀ s, some s ∈ row → s.length < 2 ^ 64
  isEnd : Spec.IsTerminator caps term

theorem qry_answer (q : Bytes) (hq : q.length + 1 < 255 * 0xffffff) {cols : List (Spec.ColDef × ColumnType)} {w s : Nat}
    {rows : List (List (Option Bytes))} {term : Bytes} {c : Conn} (ha : Spec.AnswerOk c.caps cols w s rows term)
    (rest : Bytes) (hd : Spec.Delivers c.inp (Spec.textAnswer c.caps (cols.map (·.1)) w s rows term) rest) :
    ∃ c2, Query.qry q c = .ok ⟨clientDefs cols, false, none⟩ c2 ∧ c2.caps = c.caps ∧
      SentOne c.caps c.out c2.out (.query q) ∧ Spec.Delivers c2.inp (rows.map Spec.textRow ++ [term]) rest ∧
      ∀ {τ : Type} (mapper : List (Option Bytes) → τ),
        Collects (mapRow (ResultSet.textRow ⟨clientDefs cols, false, none⟩) mapper) ⟨clientDefs cols, false, none⟩
          (rows.map mapper) c2 rest := by
  obtain ⟨c1, a1, a2, a3, a4, -⟩ := sendMsg_cmd c (ComQuery.writeTo [] q) _
    (C19_string_commands c.caps [] q).1 (by
      have : (ComQuery.writeTo [] q).1 = 0x03 :: q := rfl
      rw [this, List.length_cons]; exact hq)
  unfold Spec.textAnswer at hd
  rw [← a3, ← a4] at hd
  obtain ⟨c2, b1, b2, b3⟩ := newResultSet_spec none cols ha.cols0 ha.cols_lt ha.supported w s ha.w_lt ha.s_lt _ rest c1 hd
  have hlen : (clientDefs cols).length = cols.length := by simp [clientDefs]
  have hpos : 0 < cols.length := List.length_pos_iff.2 ha.cols0
  refine ⟨c2, ?_, b2.caps.trans a4, by rw [b2.out]; exact a2, b3, fun mapper => ?_⟩
  · unfold Query.qry
    rw [M.bind_apply, a1, MR.bind_ok, b1]
  · exact C26_map_rows mapper ⟨clientDefs cols, false, none⟩ rfl (by simpa [hlen] using hpos)
      (by simpa [hlen] using ha.cols_lt) rows (by simpa [hlen] using ha.width) ha.values term rest c2
      (by rw [b2.caps, a4]; exact ha.isEnd) b3

theorem Delivers.join {inp mid rest : Bytes} {ms ns : List Bytes} (h1 : Spec.Delivers inp ms mid)
    (h2 : Spec.Delivers mid ns rest) : Spec.Delivers inp (ms ++ ns) rest := by
  obtain ⟨r1, a1, rfl, rfl⟩ := h1
  obtain ⟨r2, b1, rfl, rfl⟩ := h2
  refine ⟨r1 ++ r2, ?_, by simp, by simp⟩
  intro r hr
  rcases List.mem_append.1 hr with h | h
  · exact a1 r h
  · exact b1 r h

/-! ### C70 -/

/-- the outcome of reading a variable whose value in the first row of the answer, if any, is `v` -/
def Reads {α : Type} (conv : Option Bytes → Res α) (v : Option (Option Bytes)) (r : MR (Option α)) (c' : Conn) : Prop :=
  (v = none → r = .ok none c') ∧
  (∀ x a, v = some x → conv x = .ok a → r = .ok (some a) c') ∧
  (∀ x e, v = some x → conv x = .err e → r = .err e c')

theorem firstMapped_reads {α : Type} (conv : Option Bytes → Res α) (i : Nat) (rows : List (List (Option Bytes)))
    (hw : ∀ row ∈ rows, i < row.length) (rs : ResultSet) (c : Conn) (rest : Bytes)
    (hc : Collects (mapRow rs.textRow fun row => getColAs conv row i) rs (rows.map fun row => getColAs conv row i) c rest) :
    ∃ c', c'.inp = rest ∧ c'.out = c.out ∧ c'.caps = c.caps ∧
      Reads conv (rows.head?.bind fun row => row[i]?) (Cmd.firstMapped (fun row => getColAs conv row i) rs c) c' := by
  obtain ⟨c', h1, h2, h3, h4⟩ := hc.firstOrNone
  refine ⟨c', h2, h3, h4, ?_⟩
  unfold Cmd.firstMapped
  rw [M.bind_apply, h1, MR.bind_ok, List.head?_map]
  cases rows with
  | nil =>
    refine ⟨fun _ => rfl, ?_, ?_⟩
    · rintro x a ⟨⟩
    · rintro x a ⟨⟩
  | cons row rows =>
    have hi := hw row (by simp)
    have e : getColAs conv row i = conv row[i] := by
      unfold getColAs ColumnExtractor.getCol
      rw [List.getElem?_eq_getElem hi]
    simp only [List.head?_cons, Option.map_some, Option.bind_some, List.getElem?_eq_getElem hi, e]
    refine ⟨?_, ?_, ?_⟩
    · rintro ⟨⟩
    · rintro x a ⟨⟩ ha
      rw [ha]; rfl
    · rintro x er ⟨⟩ ha
      rw [ha]; rfl

/-- the text of a query that shows a variable -/
def Spec.showVariable (global : Bool) (name : List UInt8) : List UInt8 :=
  Spec.ascii (if global then "SHOW GLOBAL VARIABLES LIKE " else "SHOW VARIABLES LIKE ")
    ++ Spec.ascii "'" ++ name ++ Spec.ascii "'"

/-- C70: for every type, name and answer with rows (name, value), `get_var` sends the query for the name, returns the
converted value of the first row, `None` if there is none and the error of the conversion if it fails, and leaves
exactly what follows the answer. -/
theorem C70_get_var {α : Type} (conv : Option Bytes → Res α) (name : Bytes) (global : Bool)
    (hn : name.length + 64 < 255 * 0xffffff) {cols : List (Spec.ColDef × ColumnType)} (hc2 : cols.length = 2) {w s : Nat}
    {rows : List (List (Option Bytes))} {term : Bytes} {c : Conn} (ha : Spec.AnswerOk c.caps cols w s rows term)
    (rest : Bytes) (hd : Spec.Delivers c.inp (Spec.textAnswer c.caps (cols.map (·.1)) w s rows term) rest) :
    ∃ c', c'.inp = rest ∧ c'.caps = c.caps ∧ SentOne c.caps c.out c'.out (.query (Spec.showVariable global name)) ∧
      Reads conv (rows.head?.bind fun row => row[1]?) (Cmd.getVar conv name global c) c' := by
  have hl : (Spec.showVariable global name).length + 1 < 255 * 0xffffff := by
    have : (Spec.showVariable global name).length ≤ name.length + 40 := by
      unfold Spec.showVariable
      cases global <;>
      · simp only [List.length_append, show (Spec.ascii "'").length = 1 from rfl]
        rw [show (Spec.ascii _).length = _ from List.length_map ..]
        simp
        omega
    omega
  obtain ⟨c2, h1, h2, h3, h4, h5⟩ := qry_answer _ hl ha rest hd
  obtain ⟨c3, g1, g2, gc, g3⟩ := firstMapped_reads conv 1 rows (fun row hr => by rw [ha.width row hr, hc2]; norm_num) _ c2
    rest (h5 fun row => getColAs conv row 1)
  refine ⟨c3, g1, gc.trans h2, by rw [g2]; exact h3, ?_⟩
  have hq : (if global then Cmd.str "SHOW GLOBAL VARIABLES LIKE '" ++ name ++ Cmd.str "'"
      else Cmd.str "SHOW VARIABLES LIKE '" ++ name ++ Cmd.str "'") = Spec.showVariable global name := by
    unfold Spec.showVariable
    cases global <;> rfl
  have e : Cmd.getVar conv name global c = Cmd.firstMapped (fun row => getColAs conv row 1) ⟨clientDefs cols, false, none⟩ c2 := by
    unfold Cmd.getVar
    rw [hq, M.bind_apply, h1]
    rfl
  rw [e]
  exact g3

/-- C70: the same for `get_user_var` and its single column. -/
theorem C70_get_user_var {α : Type} (conv : Option Bytes → Res α) (name : Bytes)
    (hn : name.length + 64 < 255 * 0xffffff) {cols : List (Spec.ColDef × ColumnType)} {w s : Nat}
    {rows : List (List (Option Bytes))} {term : Bytes} {c : Conn} (ha : Spec.AnswerOk c.caps cols w s rows term)
    (rest : Bytes) (hd : Spec.Delivers c.inp (Spec.textAnswer c.caps (cols.map (·.1)) w s rows term) rest) :
    ∃ c', c'.inp = rest ∧ c'.caps = c.caps ∧ SentOne c.caps c.out c'.out (.query (Spec.ascii "SELECT @" ++ name)) ∧
      Reads conv (rows.head?.bind fun row => row[0]?) (Cmd.getUserVar conv name c) c' := by
  have hl : (Spec.ascii "SELECT @" ++ name).length + 1 < 255 * 0xffffff := by
    rw [List.length_append, show (Spec.ascii "SELECT @").length = 8 from rfl]
    omega
  obtain ⟨c2, h1, h2, h3, h4, h5⟩ := qry_answer _ hl ha rest hd
  obtain ⟨c3, g1, g2, gc, g3⟩ := firstMapped_reads conv 0 rows
    (fun row hr => by rw [ha.width row hr]; exact List.length_pos_iff.2 ha.cols0) _ c2
    rest (h5 fun row => getColAs conv row 0)
  refine ⟨c3, g1, gc.trans h2, by rw [g2]; exact h3, ?_⟩
  have e : Cmd.getUserVar conv name c = Cmd.firstMapped (fun row => getColAs conv row 0) ⟨clientDefs cols, false, none⟩ c2 := by
    unfold Cmd.getUserVar
    show MR.bind (Query.qry (Spec.ascii "SELECT @" ++ name) c) _ = _
    rw [h1]
    rfl
  rw [e]
  exact g3

/-- C70: a name without quotes and backslashes is the pattern the server reads. (Full claim: every name.) -/
theorem C70_pattern_partial (global : Bool) (name : Bytes) (h1 : 0x27 ∉ name) (h2 : 0x5c ∉ name) :
    ∃ q, Spec.showVariable global name
        = Spec.ascii (if global then "SHOW GLOBAL VARIABLES LIKE " else "SHOW VARIABLES LIKE ") ++ q ∧
      Spec.stringLiteral q = some (name, []) := by
  refine ⟨Spec.ascii "'" ++ name ++ Spec.ascii "'", by unfold Spec.showVariable; simp, ?_⟩
  rw [show Spec.ascii "'" = [0x27] from rfl]
  show Spec.stringLiteral (0x27 :: (name ++ 0x27 :: [])) = _
  show (if (0x27 : UInt8) = 0x27 then Spec.stringBody _ else none) = _
  rw [if_pos rfl]
  exact stringBody_verbatim name [] h1 h2 (by simp)

/-- C70: names are not escaped. Any text (that does not start with a quote) can be put after a complete pattern, outside
of any literal. -/
theorem C70_injection_false (b : UInt8) (tail : Bytes) (hb : b ≠ 0x27) :
    ∃ name q after, Spec.showVariable false name = Spec.ascii "SHOW VARIABLES LIKE " ++ q ∧
      Spec.stringLiteral q = some (Spec.ascii "x", after) ∧ b :: tail <+: after := by
  refine ⟨Spec.ascii "x'" ++ b :: tail, Spec.ascii "'x'" ++ (b :: tail ++ Spec.ascii "'"), b :: tail ++ Spec.ascii "'",
    ?_, ?_, ?_⟩
  · unfold Spec.showVariable
    rw [show Spec.ascii "'x'" = Spec.ascii "'" ++ Spec.ascii "x'" from rfl]
    simp
  · show (if (0x27 : UInt8) = 0x27 then Spec.stringBody ([0x78] ++ 0x27 :: (b :: tail ++ Spec.ascii "'")) else none) = _
    rw [if_pos rfl]
    refine stringBody_verbatim [0x78] _ (by decide) (by decide) ?_
    simpa using hb
  · exact List.prefix_append _ _

/-- a text column -/
def exampleTextDef : Spec.ColDef := exampleDef 0xfd

/-- an answer with one row -/
def exampleVariable : List (List (Option Bytes)) := [[some (Spec.ascii "server_id"), some (Spec.ascii "1")]]

example : Spec.AnswerOk (2 ^ 9) [(exampleTextDef, .varString), (exampleTextDef, .varString)] 0 2 exampleVariable
      (Spec.eofPacket (2 ^ 9) 0 2) ∧
    (∃ inp, Spec.Delivers inp (Spec.textAnswer (2 ^ 9) [exampleTextDef, exampleTextDef] 0 2 exampleVariable
      (Spec.eofPacket (2 ^ 9) 0 2)) []) ∧
    (uintFromText 32).nonNull (some (Spec.ascii "1")) = .ok 1 := by
  have h : Spec.Supported (exampleTextDef, .varString) := by
    refine ⟨?_, by decide⟩
    constructor <;> first | (exact ⟨by decide, by decide⟩) | (exact (by decide))
  refine ⟨⟨by simp, by simp, ?_, by norm_num, by norm_num, ?_, ?_, ?_⟩, delivers_small _ _ (by decide +kernel), by decide +kernel⟩
  · simp only [List.mem_cons, List.not_mem_nil, or_false, or_self, forall_eq]
    exact h
  · simp [exampleVariable]
  · intro row hr s hs
    simp only [exampleVariable, List.mem_singleton] at hr
    subst hr
    simp only [List.mem_cons, List.not_mem_nil, or_false, Option.some.injEq] at hs
    rcases hs with rfl | rfl <;> decide +kernel
  · unfold Spec.IsTerminator
    rw [if_neg (by decide)]
    exact ⟨0, 2, by norm_num, by norm_num, rfl⟩

/-! ### C71 -/

/-- three messages: the statement `q` to prepare, the execution `e`, the closing of the statement `id` -/
def SentStatement (caps : Nat) (before after q e : Bytes) (id : Nat) : Prop :=
  ∃ out1 ps, SentOne caps before out1 (.stmtPrepare q) ∧ Spec.IsMessage ps ∧ Spec.Numbered 0 ps ∧ Spec.payload ps = e ∧
    SentOne caps (out1 ++ Spec.wire ps) after (.stmtClose id)

/-- what setting a variable by the statement `q` and the value `v` should do, when the server prepares the statement
under the id and warnings `p` and describes its parameter by `param` -/
def SetsBy (run : M Unit) (q : Bytes) (v : StmtColumnValue) : Prop :=
  ∀ (p : Spec.PrepareOk), p.stmtId < 2 ^ 32 → p.warnings < 2 ^ 16 →
  ∀ param : Spec.ColDef × ColumnType, Spec.Supported param → ∀ w s, w < 2 ^ 16 → s < 2 ^ 15 →
  ∃ e, Spec.D.all (Spec.D.stmtExecute 1) e = some ⟨p.stmtId, 0, 1, [Spec.serverParam v]⟩ ∧
  ((v.val.writeTo []).1.length + 14 < 255 * 0xffffff → ∀ rest c,
    (∀ f : Spec.OkFields, f.InRange →
      Spec.Delivers c.inp (Spec.prepareResponse c.caps p [param.1] [] w s 0 0 ++ [Spec.okPacket c.caps 0 f]) rest →
      ∃ c', run c = .ok () c' ∧ c'.inp = rest ∧ c'.caps = c.caps ∧ SentStatement c.caps c.out c'.out q e p.stmtId) ∧
    (∀ code state msg, Spec.ErrOk code state msg →
      Spec.Delivers c.inp (Spec.prepareResponse c.caps p [param.1] [] w s 0 0
        ++ [Spec.errPacket (c.caps.testBit Spec.PROTOCOL_41) code state msg]) rest →
      ∃ c', run c = .err (reported c.caps code state msg) c' ∧ c'.inp = rest ∧ c'.caps = c.caps ∧
        SentStatement c.caps c.out c'.out q e p.stmtId) ∧
    (∀ code state msg, Spec.ErrOk code state msg →
      Spec.Delivers c.inp [Spec.errPacket (c.caps.testBit Spec.PROTOCOL_41) code state msg] rest →
      ∃ c', run c = .err (reported c.caps code state msg) c' ∧ c'.inp = rest ∧ c'.caps = c.caps ∧
        SentOne c.caps c.out c'.out (.stmtPrepare q)))

/-- the length of an execution with one parameter -/
theorem execute_length (id : Nat) (v : StmtColumnValue) (hv : v.Sound) (cmd : ComStmtExecute) (e : Bytes)
    (h1 : ComStmtExecute.single id [v] = some cmd) (h2 : ∀ out, cmd.writeTo out = some (out ++ e, e.length)) :
    e.length = (v.val.writeTo []).1.length + 14 := by
  obtain ⟨bm, hbm, hlen, -⟩ := Bitmap.fromIter_spec [v.isNull] 0
  obtain ⟨b, hb, -⟩ := C23_write_partial v.val hv.1 hv.2.1
  have hv0 : v.val.writeTo [] = (b, b.length) := hb []
  unfold ComStmtExecute.single at h1
  rw [List.map_singleton, hbm] at h1
  cases h1
  have hty : Appends (fun out => writeParamType out v)
      (Spec.u8 v.colType.toByte ++ Spec.u8 (if v.unsigned then 0x80 else 0x00)) :=
    appends_mk (fun out => rfl) (.cons (appends_u8 _) (.cons (appends_u8 _) .nil)) (by simp)
  have hall : List.Forall₂ Appends
      [(writeU8 · Command.stmtExecute.toByte), (writeLeU32 · id), (writeU8 · 0), (writeLeU32 · 1), (writeBytes · bm),
        (writeU8 · 1), fun out => writeParamType out v, fun out => v.val.writeTo out]
      [Spec.u8 0x17, Spec.le 4 id, Spec.u8 0, Spec.le 4 1, bm, Spec.u8 1,
        Spec.u8 v.colType.toByte ++ Spec.u8 (if v.unsigned then 0x80 else 0x00), b] :=
    .cons (appends_u8 _) (.cons (appends_u32 _) (.cons (appends_u8 _) (.cons (appends_u32 _) (.cons (appends_bytes bm)
      (.cons (appends_u8 1) (.cons hty (.cons hb .nil)))))))
  have a := h2 []
  have hw := Appends.seq hall []
  simp only [ComStmtExecute.writeTo, List.isEmpty_cons, Bool.false_eq_true, if_false, List.map_singleton, hbm,
    if_true, List.cons_append, List.nil_append] at a
  have := (Option.some.inj a).symm.trans hw
  have := congrArg Prod.snd this
  simp only [List.length_flatten, List.map_cons, List.map_nil, List.sum_cons, List.sum_nil, List.length_append,
    Spec.u8, Spec.length_le, List.length_cons, List.length_nil] at this
  simp only [List.length_singleton] at hlen
  rw [hv0]
  dsimp only
  omega

theorem setsBy (q : Bytes) (hq : q.length + 1 < 255 * 0xffffff) (v : StmtColumnValue) (hv : v.Sound) :
    SetsBy (Stmt.prepare q >>= fun st => st.execClose [v]) q v := by
  intro p hid hwn param hp w s hw hs
  obtain ⟨cmd, e, h1, h2, h3⟩ := C22_server_sees_parameters_partial p.stmtId [v] hid (by simpa using hv)
  refine ⟨e, h3, fun hn rest c => ?_⟩
  rw [← execute_length p.stmtId v hv cmd e h1 h2] at hn
  have prep : ∀ last, Spec.Delivers c.inp (Spec.prepareResponse c.caps p [param.1] [] w s 0 0 ++ [last]) rest →
      ∃ c1 c0 st ps, Stmt.prepare q c = .ok st c1 ∧ SentOne c.caps c.out c1.out (.stmtPrepare q) ∧
        st.stmtId = p.stmtId ∧ st.exec [v] c1 = execLoop c0 ∧ c0.caps = c.caps ∧ c0.out = c1.out ++ Spec.wire ps ∧
        Spec.IsMessage ps ∧ Spec.Numbered 0 ps ∧ Spec.payload ps = e ∧ Spec.Delivers c0.inp [last] rest := by
    intro last hd
    obtain ⟨mid, hd1, hd2⟩ := Delivers.append hd
    obtain ⟨c1, b1, b2, b3, b4⟩ := C50_prepare_partial q hq p hid hwn [param] [] (by simp) (by simp)
      (by simpa using hp) (by simp) w s 0 0 hw hs (by norm_num) (by norm_num) mid c hd1
    obtain ⟨ps, c0, a1, a2, a3, a4, a5, a6, a7, -⟩ := sendMsg_spec e c1 (Nat.div_lt_of_lt_mul (by omega))
    refine ⟨c1, c0, _, ps, b1, b4, rfl, ?_, a7.trans b3, a5, a1, a2, a3, by rw [a6, b2]; exact hd2⟩
    have hsend : PreparedStmt.send ⟨p.stmtId, clientDefs [], clientDefs [param], p.warnings⟩ [v] c1 = .ok () c0 := by
      unfold PreparedStmt.send
      have := h2 []
      rw [List.nil_append] at this
      rw [h1]
      simp only [this]
      exact a4
    unfold PreparedStmt.exec
    show MR.bind _ _ = _
    rw [hsend]
    rfl
  refine ⟨fun f hf hd => ?_, fun code state msg he hd => ?_, fun code state msg he hd => ?_⟩
  · obtain ⟨c1, c0, st, ps, b1, b2, b3, b4, b5, b6, b7, b8, b9, b10⟩ := prep _ hd
    rw [← b5] at b10
    obtain ⟨c2, d1, d2, d3⟩ := execLoop_ok f hf [] rest c0 b10
    obtain ⟨c3, g1, g2, gc, g3⟩ := stmtClose_spec st (b3 ▸ hid) c2
    refine ⟨c3, ?_, g2.trans (Delivers.nil d2), gc.trans (d3.caps.trans b5), c1.out, ps, b2, b7, b8, b9, ?_⟩
    · rw [M.bind_apply, b1, MR.bind_ok]
      unfold PreparedStmt.execClose
      simp only [b4, d1, g1]
    · rw [d3.caps, b5, d3.out, b6, b3] at g3
      exact g3
  · obtain ⟨c1, c0, st, ps, b1, b2, b3, b4, b5, b6, b7, b8, b9, b10⟩ := prep _ hd
    rw [← b5] at b10
    obtain ⟨c2, d1, d2, d3⟩ := execLoop_err code he.code_lt state msg he.state_len he.state_utf8 he.msg_utf8 [] rest c0 b10
    obtain ⟨c3, g1, g2, gc, g3⟩ := stmtClose_spec st (b3 ▸ hid) c2
    refine ⟨c3, ?_, g2.trans (Delivers.nil d2), gc.trans (d3.caps.trans b5), c1.out, ps, b2, b7, b8, b9, ?_⟩
    · rw [M.bind_apply, b1, MR.bind_ok]
      unfold PreparedStmt.execClose
      simp only [b4, d1, g1]
      rw [b5, reported]
    · rw [d3.caps, b5, d3.out, b6, b3] at g3
      exact g3
  · obtain ⟨c1, b1, b2, b3⟩ := C50_prepare_err q hq code he.code_lt state msg he.state_len he.state_utf8 he.msg_utf8 rest c hd
    refine ⟨c1, ?_, b2, b3⟩
    rw [M.bind_apply, b1]
    rfl

/-- the statement that sets a system variable -/
def Spec.setVariable (global : Bool) (name : List UInt8) : List UInt8 :=
  Spec.ascii (if global then "SET @@GLOBAL." else "SET @@") ++ name ++ Spec.ascii " = ?"

/-- C71: for every name and value, `set_var` and `set_user_var` prepare the statement that sets the variable to a
parameter, execute it with exactly that value and close it; they succeed when the server does, and otherwise return its
error, whether it comes from preparing or executing. Nothing is left unread. -/
theorem C71_set_var (name : Bytes) (hn : name.length + 64 < 255 * 0xffffff) (v : StmtColumnValue) (hv : v.Sound)
    (global : Bool) :
    SetsBy (Cmd.setVar name v global) (Spec.setVariable global name) v ∧
    SetsBy (Cmd.setUserVar name v) (Spec.ascii "SET @" ++ name ++ Spec.ascii " = ?") v := by
  constructor
  · have hl : (Spec.setVariable global name).length + 1 < 255 * 0xffffff := by
      unfold Spec.setVariable
      have h1 : (Spec.ascii (if global then "SET @@GLOBAL." else "SET @@")).length ≤ 20 := by cases global <;> decide
      have h2 : (Spec.ascii " = ?").length = 4 := rfl
      simp only [List.length_append]
      omega
    have := setsBy _ hl v hv
    cases global <;> exact this
  · have hl : (Spec.ascii "SET @" ++ name ++ Spec.ascii " = ?").length + 1 < 255 * 0xffffff := by
      have h1 : (Spec.ascii "SET @").length = 5 := rfl
      have h2 : (Spec.ascii " = ?").length = 4 := rfl
      simp only [List.length_append]
      omega
    exact setsBy _ hl v hv

/-- a parameter definition, an OK packet and a string value -/
example : (StmtColumnValue.newVarstring (Spec.ascii "CRC32")).Sound ∧
    ∃ c : Conn, Spec.Delivers c.inp (Spec.prepareResponse c.caps ⟨7, 0⟩ [exampleDef 0xfd] [] 0 2 0 0
      ++ [Spec.okPacket c.caps 0 ⟨0, 0, 2, 0, [], []⟩]) [9] := by
  refine ⟨?_, ?_⟩
  · have h := C22_constructors_sound true 0 0 0 0 0 0 0 0 (Spec.ascii "CRC32") (by norm_num) (by norm_num)
      (by norm_num) (by norm_num) (by decide +kernel) (by decide +kernel) ⟨true, 1, 2, 3, 4, 5⟩
      (by norm_num [MyTime.InRange]) (by simp) ⟨0, 0, 0, 0, 0, 0, 0⟩
      (by norm_num [MyDateTime.InRange]) ⟨2020, 1, 1, 1, 1, 1, 1⟩
    exact h _ (by simp)
  · obtain ⟨inp, h⟩ := delivers_small (Spec.prepareResponse (2 ^ 9) ⟨7, 0⟩ [exampleDef 0xfd] [] 0 2 0 0
      ++ [Spec.okPacket (2 ^ 9) 0 ⟨0, 0, 2, 0, [], []⟩]) [9] (by decide +kernel)
    exact ⟨⟨inp, [], 0, 2 ^ 9, 0⟩, h⟩

/-! ### C72 -/

/-- the answer to `SHOW MASTER LOGS`: name and size of each file, and possibly more columns -/
def Spec.FileRow (row : List (Option (List UInt8))) (name : List UInt8) (size : Nat) : Prop :=
  ∃ t more, row = some name :: some t :: more ∧ validUtf8 name = true ∧ Spec.readNat t = some size ∧ size < 2 ^ 64

theorem fileRow_maps (row : List (Option Bytes)) (name : Bytes) (size : Nat) (h : Spec.FileRow row name size) :
    Cmd.binlogFileMapper row = .ok ⟨name, size⟩ := by
  obtain ⟨t, more, rfl, h1, h2, h3⟩ := h
  have hh : t.head? ≠ some 0x2b := by
    intro hc
    cases t with
    | nil => cases hc
    | cons b t =>
      cases hc
      unfold Spec.readNat Spec.readDigits at h2
      simp [Spec.digit?] at h2
  have hu := ((C66_unsigned 64 t).1 size).2 ⟨by unfold Spec.readUnsigned; rw [if_neg hh]; exact h2, h3⟩
  have hs := (C66_strings name).1 h1
  unfold Cmd.binlogFileMapper getColAs
  show Res.bind (stringFromText.nonNull (some name)) _ = _
  rw [((C66_null 0).2.2.2.2.2.2 stringFromText (some name)).2.1 _ hs]
  show Res.bind ((uintFromText 64).nonNull (some t)) _ = _
  rw [((C66_null 0).2.2.2.2.2.2 (uintFromText 64) (some t)).2.1 _ hu]
  rfl

theorem filesLoop_spec (rs : ResultSet) (hrs : rs.completed = false) (rows : List (List (Option Bytes)))
    (files : List Cmd.BinlogFile) (hf : List.Forall₂ (fun row f => Spec.FileRow row f.filename f.size) rows files)
    (hr : RowsAs rs.textRow rows (rows.map Spec.textRow)) (acc : List Cmd.BinlogFile) (term rest : Bytes) (c : Conn)
    (ht : Spec.IsTerminator c.caps term) (hd : Spec.Delivers c.inp (rows.map Spec.textRow ++ [term]) rest) :
    ∃ c', Cmd.filesLoop rs acc c = .ok (acc ++ files) c' ∧ Moved c c' ∧ c'.inp = rest := by
  induction hf generalizing acc c with
  | nil =>
    obtain ⟨c1, h1, m1, d1⟩ := nextRow_end (mapRow rs.textRow Cmd.binlogFileMapper) rs hrs term [] rest c ht hd
    refine ⟨c1, ?_, m1, Delivers.nil d1⟩
    rw [Cmd.filesLoop, h1]
    simp
  | @cons row f rows files hrow _ ih =>
    unfold RowsAs at hr
    rw [List.map_cons, List.forall₂_cons] at hr
    obtain ⟨⟨hm, l, h2⟩, hrest⟩ := hr
    obtain ⟨c1, h1, m1, d1, l1⟩ := nextRow_row (mapRow rs.textRow Cmd.binlogFileMapper) rs hrs (Spec.textRow row) hm
      (Res.ok f) l (by
        unfold mapRow
        rw [P.bind_apply, h2, R.bind_ok, fileRow_maps row _ _ hrow]
        rfl) (rows.map Spec.textRow ++ [term]) rest c hd
    rw [← m1.caps] at ht
    obtain ⟨c2, g1, g2, g3⟩ := ih hrest (acc ++ [f]) c1 ht d1
    refine ⟨c2, ?_, m1.trans g2, g3⟩
    rw [Cmd.filesLoop, h1]
    simp only [if_pos l1, g1, List.append_assoc, List.singleton_append]

/-- C72: `binlog_files` asks for the logs and returns name and size of every file, in the order of the server, for any
number of files and extra columns, and leaves what follows the answer. -/
theorem C72_binlog_files {cols : List (Spec.ColDef × ColumnType)} {w s : Nat} {rows : List (List (Option Bytes))}
    {term : Bytes} {c : Conn} (ha : Spec.AnswerOk c.caps cols w s rows term) (files : List Cmd.BinlogFile)
    (hf : List.Forall₂ (fun row f => Spec.FileRow row f.filename f.size) rows files) (rest : Bytes)
    (hd : Spec.Delivers c.inp (Spec.textAnswer c.caps (cols.map (·.1)) w s rows term) rest) :
    ∃ c', Cmd.binlogFiles c = .ok files c' ∧ c'.inp = rest ∧ c'.caps = c.caps ∧
      SentOne c.caps c.out c'.out (.query (Spec.ascii "SHOW MASTER LOGS")) := by
  obtain ⟨c2, h1, h2, h3, h4, -⟩ := qry_answer (Spec.ascii "SHOW MASTER LOGS") (by decide +kernel) ha rest hd
  have hlen : (clientDefs cols).length = cols.length := by simp [clientDefs]
  have hpos : 0 < cols.length := List.length_pos_iff.2 ha.cols0
  obtain ⟨c3, g1, g2, g3⟩ := filesLoop_spec ⟨clientDefs cols, false, none⟩ rfl rows files hf
    (textRows_as _ rows (by simpa [hlen] using hpos) (by simpa [hlen] using ha.cols_lt) (by simpa [hlen] using ha.width)
      ha.values) [] term rest c2 (by rw [h2]; exact ha.isEnd) h4
  refine ⟨c3, ?_, g3, g2.caps.trans h2, by rw [g2.out]; exact h3⟩
  show MR.bind (Query.qry (Spec.ascii "SHOW MASTER LOGS") c) _ = _
  rw [h1]
  exact g1

example : List.Forall₂ (fun row (f : Cmd.BinlogFile) => Spec.FileRow row f.filename f.size)
    [[some (Spec.ascii "bin.000001"), some (Spec.ascii "177")],
      [some (Spec.ascii "bin.000002"), some (Spec.ascii "4096"), some (Spec.ascii "No")]]
    [⟨Spec.ascii "bin.000001", 177⟩, ⟨Spec.ascii "bin.000002", 4096⟩] := by
  refine .cons ⟨_, _, rfl, by decide +kernel, by decide +kernel, by decide +kernel⟩ (.cons ⟨_, _, rfl, by decide +kernel, by decide +kernel, by decide +kernel⟩ .nil)

/-! ### C73 -/

/-- C73: when all rows have been read (by `all`; C26 says the same of the other ways), the next statement gets its own
answer. (Full claim: also when the result set is dropped earlier.) -/
theorem C73_after_all_partial (q q' : Bytes) (hq : q.length + 1 < 255 * 0xffffff) (hq' : q'.length + 1 < 255 * 0xffffff)
    {cols : List (Spec.ColDef × ColumnType)} {w s : Nat} {rows : List (List (Option Bytes))} {term : Bytes} {c : Conn}
    (ha : Spec.AnswerOk c.caps cols w s rows term) (code : Nat) (state msg rest : Bytes)
    (he : Spec.ErrOk code state msg)
    (hd : Spec.Delivers c.inp (Spec.textAnswer c.caps (cols.map (·.1)) w s rows term
      ++ [Spec.errPacket (c.caps.testBit Spec.PROTOCOL_41) code state msg]) rest) :
    ∃ c', (Query.qry q >>= fun rs => rs.all rs.textRow >>= fun _ => Query.exec q') c
      = .err (reported c.caps code state msg) c' ∧ c'.inp = rest := by
  obtain ⟨mid, hd1, hd2⟩ := Delivers.append hd
  obtain ⟨c2, h1, h2, h3, h4, -⟩ := qry_answer q hq ha mid hd1
  have hlen : (clientDefs cols).length = cols.length := by simp [clientDefs]
  have hpos : 0 < cols.length := List.length_pos_iff.2 ha.cols0
  obtain ⟨c3, g1, g2, g3⟩ := foldRows_spec _ (fun rows r => rows ++ [r]) rows _
    (textRows_as ⟨clientDefs cols, false, none⟩ rows (by simpa [hlen] using hpos) (by simpa [hlen] using ha.cols_lt)
      (by simpa [hlen] using ha.width) ha.values) ⟨clientDefs cols, false, none⟩ rfl term mid [] c2
      (by rw [h2]; exact ha.isEnd) h4
  rw [← g3, ← h2, ← g2.caps] at hd2
  obtain ⟨c4, k1, k2, -⟩ := (C51_query_exec_partial q' hq' rest c3).2 code state msg he.code_lt he.state_len he.state_utf8
    he.msg_utf8 hd2
  refine ⟨c4, ?_, k2⟩
  rw [M.bind_apply, h1, MR.bind_ok, M.bind_apply]
  show MR.bind (ResultSet.foldRows _ _ _ _ c2) _ = _
  rw [g1, MR.bind_ok, k1, g2.caps, h2, reported]

/-- C73: a result set dropped with rows unread leaves them to the next command. When the next row happens to have the
bytes of an OK packet, the next statement is reported as executed, whatever it is, although the server answered with an
error. -/
theorem C73_dropped_false (q q' : Bytes) (hq : q.length + 1 < 255 * 0xffffff) (hq' : q'.length + 1 < 255 * 0xffffff)
    {cols : List (Spec.ColDef × ColumnType)} {w s : Nat} {row1 row2 : List (Option Bytes)} {term : Bytes} {c : Conn}
    (ha : Spec.AnswerOk c.caps cols w s [row1, row2] term) (f : Spec.OkFields) (hf : f.InRange)
    (hrow : Spec.textRow row2 = Spec.okPacket c.caps 0 f) (code : Nat) (state msg rest : Bytes)
    (hd : Spec.Delivers c.inp (Spec.textAnswer c.caps (cols.map (·.1)) w s [row1, row2] term
      ++ [Spec.errPacket (c.caps.testBit Spec.PROTOCOL_41) code state msg]) rest) :
    ∃ c', (Query.qry q >>= fun rs => rs.nextRow rs.textRow >>= fun _ => Query.exec q') c = .ok () c' ∧
      Spec.Delivers c'.inp [term, Spec.errPacket (c.caps.testBit Spec.PROTOCOL_41) code state msg] rest := by
  obtain ⟨mid, hd1, hd2⟩ := Delivers.append hd
  obtain ⟨c2, h1, h2, h3, h4, -⟩ := qry_answer q hq ha mid hd1
  have hlen : (clientDefs cols).length = cols.length := by simp [clientDefs]
  have hpos : 0 < cols.length := List.length_pos_iff.2 ha.cols0
  have hr := textRows_as ⟨clientDefs cols, false, none⟩ [row1, row2] (by simpa [hlen] using hpos)
    (by simpa [hlen] using ha.cols_lt) (by simpa [hlen] using ha.width) ha.values
  unfold RowsAs at hr
  rw [List.map_cons, List.forall₂_cons] at hr
  obtain ⟨⟨hm, l, hr⟩, -⟩ := hr
  obtain ⟨c3, g1, g2, g3, -⟩ := nextRow_row _ ⟨clientDefs cols, false, none⟩ rfl _ hm row1 l hr
    ([Spec.textRow row2] ++ [term]) mid c2 h4
  obtain ⟨c4, k1, k2, k3, k4, -⟩ := sendMsg_cmd c3 (ComQuery.writeTo [] q') _
    (C19_string_commands c3.caps [] q').1 (by
      have : (ComQuery.writeTo [] q').1 = 0x03 :: q' := rfl
      rw [this, List.length_cons]; exact hq')
  rw [hrow, ← h2, ← g2.caps, ← k4, ← k3] at g3
  obtain ⟨c5, m1, m2, m3⟩ := execLoop_ok f hf [term] mid c4 g3
  refine ⟨c5, ?_, Delivers.join m2 hd2⟩
  rw [M.bind_apply, h1, MR.bind_ok, M.bind_apply, g1, MR.bind_ok]
  show MR.bind (sendMsg _ true c3) _ = _
  rw [k1]
  exact m1

/-- seven columns with empty strings make an OK packet without session tracking -/
example : Spec.textRow (List.replicate 7 (some [])) = Spec.okPacket (2 ^ 9) 0 ⟨0, 0, 0, 0, [], []⟩ ∧
    (⟨0, 0, 0, 0, [], []⟩ : Spec.OkFields).InRange ∧
    Spec.AnswerOk (2 ^ 9) (List.replicate 7 (exampleTextDef, .varString)) 0 2
      [List.replicate 7 (some [0x61]), List.replicate 7 (some [])] (Spec.eofPacket (2 ^ 9) 0 2) := by
  have h : Spec.Supported (exampleTextDef, .varString) := by
    refine ⟨?_, by decide⟩
    constructor <;> first | (exact ⟨by decide, by decide⟩) | (exact (by decide))
  refine ⟨by decide +kernel, by constructor <;> norm_num, ⟨by simp, by simp, ?_, by norm_num, by norm_num, ?_, ?_, ?_⟩⟩
  · intro dc hdc
    rw [List.eq_of_mem_replicate hdc]
    exact h
  · simp
  · intro row hr s hs
    simp only [List.mem_cons, List.not_mem_nil, or_false] at hr
    rcases hr with rfl | rfl <;> · have := List.eq_of_mem_replicate hs; cases this; decide +kernel
  · unfold Spec.IsTerminator
    rw [if_neg (by decide)]
    exact ⟨0, 2, by norm_num, by norm_num, rfl⟩

end Mybin
