/-
C139: success is reported only for what has come to its end; statements without rows, and rows of prepared statements.
-/
import Verif.Props.C139_api
import Verif.Props.C50_C52

namespace Mybin

/-- a message with which a server says that it has done what it was asked -/
def Spec.SaysDone (m : List UInt8) : Prop := m.head? = some 0

/-- a message with which a server says that it has failed -/
def Spec.SaysError (m : List UInt8) : Prop := m.head? = some 0xff

theorem sendMsg_reads_nothing (bs : Bytes) (reset : Bool) (c c' : Conn) (h : sendMsg bs reset c = .ok () c') : c'.inp = c.inp := by
  unfold sendMsg at h
  cases reset
  · exact sendLoop_inp bs c c' (.inl ⟨(), h⟩)
  · exact sendLoop_inp bs { c with pktNr := 0 } c' (.inl ⟨(), h⟩)

theorem execLoop_done (c c' : Conn) (h : execLoop c = .ok () c') :
    ∃ ms m, Spec.Delivers c.inp (ms ++ [m]) c'.inp ∧ Spec.SaysDone m ∧ ∀ x ∈ ms, ¬ Spec.SaysError x := by
  induction hn : c.inp.length using Nat.strong_induction_on generalizing c with
  | _ n ih =>
    rw [execLoop.eq_def] at h
    cases hr : recvMsg c with
    | ok m c1 =>
      rw [hr] at h
      have d := recvMsg_delivers hr
      cases m with
      | nil => cases h
      | cons b t =>
        dsimp only at h
        split at h
        · unfold failWithErrPacket at h
          obtain ⟨_, _, _, h⟩ := run_ok_inv h
          obtain ⟨_, _, _, h⟩ := run_ok_inv h
          cases h
        · rename_i hf
          split at h
          · rename_i hb
            cases hp : M.parse (b :: t) (OkPacket.readFrom c1.caps) c1 with
            | ok v c2 =>
              rw [hp] at h
              have e1 := parse_ok_inv hp
              cases h
              subst e1
              exact ⟨[], _, d, by rw [hb]; rfl, by simp⟩
            | err => rw [hp] at h; cases h
            | panic => rw [hp] at h; cases h
            | hang => rw [hp] at h; cases h
          · split at h
            · obtain ⟨ms, m, d', hm, hx⟩ := ih _ (by omega) c1 h rfl
              refine ⟨[b :: t] ++ ms, m, by rw [List.append_assoc]; exact Delivers.join d d', hm, ?_⟩
              intro x hx'
              rcases List.mem_append.1 hx' with h1 | h1
              · simp only [List.mem_singleton] at h1
                subst h1
                intro he
                exact hf (Option.some.inj he)
              · exact hx x h1
            · cases h
    | err => rw [hr] at h; cases h
    | panic => rw [hr] at h; cases h
    | hang => rw [hr] at h; cases h

/-- C139, statements without rows: a statement is reported as executed only if the last message read is an OK of the server, and none
of the messages before it is an error. -/
theorem C139_exec (q : Bytes) (c c' : Conn) (h : Query.exec q c = .ok () c') :
    ∃ ms m, Spec.Delivers c.inp (ms ++ [m]) c'.inp ∧ Spec.SaysDone m ∧ ∀ x ∈ ms, ¬ Spec.SaysError x := by
  unfold Query.exec at h
  obtain ⟨_, c1, h1, h⟩ := run_ok_inv h
  rw [← sendMsg_reads_nothing _ _ _ _ h1]
  exact execLoop_done c1 c' h

theorem send_reads_nothing (s : PreparedStmt) (ps : List StmtColumnValue) (c c' : Conn) (h : s.send ps c = .ok () c') :
    c'.inp = c.inp := by
  unfold PreparedStmt.send at h
  cases hx : ComStmtExecute.single s.stmtId ps with
  | none => rw [hx] at h; cases h
  | some cmd =>
    rw [hx] at h
    dsimp only at h
    cases hw : cmd.writeTo [] with
    | none => rw [hw] at h; cases h
    | some x =>
      rw [hw] at h
      exact sendMsg_reads_nothing _ _ _ _ h

/-- C139, prepared statements without rows -/
theorem C139_stmt_exec (s : PreparedStmt) (params : List StmtColumnValue) (c c' : Conn) (h : s.exec params c = .ok () c') :
    ∃ ms m, Spec.Delivers c.inp (ms ++ [m]) c'.inp ∧ Spec.SaysDone m ∧ ∀ x ∈ ms, ¬ Spec.SaysError x := by
  unfold PreparedStmt.exec at h
  obtain ⟨_, c1, h1, h⟩ := run_ok_inv h
  rw [← send_reads_nothing _ _ _ _ h1]
  exact execLoop_done c1 c' h

/-- C139, the rows of a prepared statement -/
theorem C139_stmt_query {ρ σ : Type} (read : ResultSet → P ρ) (f : σ → ρ → σ) (start out : σ) (s : PreparedStmt)
    (params : List StmtColumnValue) (rs : ResultSet) (c c1 c2 : Conn)
    (hq : s.qry params c = .ok rs c1) (h : rs.foldRows (read rs) f start c1 = .ok out c2) :
    ∃ ms m, Spec.Delivers c.inp (ms ++ [m]) c2.inp ∧ (Spec.SaysEnd m ∨ out = start ∧ ¬ Spec.SaysError m) := by
  cases hs : rs.completed with
  | false =>
    obtain ⟨ms0, d0⟩ := took_ok (Takes.stmtQry _ _) hq
    obtain ⟨ms, m, d, hm⟩ := foldRows_done _ _ _ _ rs hs _ _ h
    exact ⟨ms0 ++ ms, m, by rw [List.append_assoc]; exact Delivers.join d0 d, .inl hm⟩
  | true =>
    rw [foldRows_finished _ _ _ rs hs] at h
    cases h
    unfold PreparedStmt.qry at hq
    obtain ⟨_, c2, q1, hq⟩ := run_ok_inv hq
    have e0 := send_reads_nothing _ _ _ _ q1
    unfold newResultSet at hq
    obtain ⟨m, c3, q2, hq⟩ := run_ok_inv hq
    obtain ⟨n, c4, q3, hn⟩ := run_ok_inv hq
    obtain ⟨e1, e2⟩ := parseColCnt_stays _ _ _ _ q3
    subst e1
    split at hn
    · have e3 := (MR.ok.inj hn).2
      rw [← e3, ← e0]
      exact ⟨[], m, recvMsg_delivers q2, .inr ⟨rfl, e2⟩⟩
    · obtain ⟨_, _, _, hn⟩ := run_ok_inv hn
      obtain ⟨_, _, _, hn⟩ := run_ok_inv hn
      have := (MR.ok.inj hn).1
      rw [← this] at hs
      cases hs

/-! ### the hypotheses can be met -/

/-- a statement the server answers by OK -/
example : ∃ c c', Query.exec (Spec.ascii "COMMIT") c = .ok () c' := by
  obtain ⟨mid, hd⟩ := delivers_small [Spec.okPacket plainCaps 0 ⟨0, 0, 2, 0, [], []⟩] []
    (by intro m hm; simp only [List.mem_singleton] at hm; subst hm; decide +kernel)
  obtain ⟨c', h, -⟩ := (C51_query_exec_partial (Spec.ascii "COMMIT") (by decide +kernel) [] { inp := mid, caps := plainCaps }).1
    ⟨0, 0, 2, 0, [], []⟩ (by constructor <;> norm_num) hd
  exact ⟨_, c', h⟩

theorem example_send : ∃ e, (PreparedStmt.mk 1 [] [] 0).send [] = sendMsg e true ∧ e.length < 100 := by
  refine ⟨_, rfl, ?_⟩
  decide +kernel

/-- a prepared statement the server answers by OK -/
example : ∃ c c', (PreparedStmt.mk 1 [] [] 0).exec [] c = .ok () c' := by
  obtain ⟨e, he, hl⟩ := example_send
  obtain ⟨mid, hd⟩ := delivers_small [Spec.okPacket plainCaps 0 ⟨0, 0, 2, 0, [], []⟩] []
    (by intro m hm; simp only [List.mem_singleton] at hm; subst hm; decide +kernel)
  obtain ⟨ps, c1, a1, a2, a3, a4, a5, a6, a7, -⟩ := sendMsg_spec e { inp := mid, caps := plainCaps } (Nat.div_lt_of_lt_mul (by omega))
  have hd' : Spec.Delivers c1.inp [Spec.okPacket c1.caps 0 ⟨0, 0, 2, 0, [], []⟩] [] := by rw [a6, a7]; exact hd
  obtain ⟨c2, b1, -⟩ := execLoop_ok ⟨0, 0, 2, 0, [], []⟩ (by constructor <;> norm_num) [] [] c1 hd'
  refine ⟨{ inp := mid, caps := plainCaps }, c2, ?_⟩
  unfold PreparedStmt.exec
  rw [he]
  show MR.bind _ _ = _
  rw [a4]
  exact b1

/-- a prepared statement whose answer has one row -/
example : ∃ c rs c1 c2, (PreparedStmt.mk 1 [] [] 0).qry [] c = .ok rs c1 ∧
    rs.foldRows rs.textRow (fun rows r => rows ++ [r]) [] c1 = .ok [[some (Spec.ascii "f1"), some (Spec.ascii "120")]] c2 := by
  obtain ⟨e, he, hl⟩ := example_send
  obtain ⟨mid, hd⟩ := delivers_small _ [] plain_files_small
  obtain ⟨h1, h2, h3, h4, h5, h6, h7, h8⟩ := plain_files
  obtain ⟨ps, c1, a1, a2, a3, a4, a5, a6, a7, -⟩ := sendMsg_spec e { inp := mid, caps := plainCaps } (Nat.div_lt_of_lt_mul (by omega))
  have hd' : Spec.Delivers c1.inp (Spec.resultSetHead c1.caps
      ([(exampleTextDef, ColumnType.varString), (exampleTextDef, ColumnType.varString)].map (·.1)) 0 2 ++
      ([[some (Spec.ascii "f1"), some (Spec.ascii "120")]].map Spec.textRow ++
        [Spec.okPacket plainCaps 0xfe ⟨0, 0, 2, 0, [], []⟩])) [] := by rw [a6, a7]; exact hd
  obtain ⟨c2, b1, b2, b3⟩ := newResultSet_spec (some 1) _ h1 h2 h3 0 2 h4 h5 _ [] c1 hd'
  obtain ⟨c3, d1, -⟩ := (C26_text_collect ⟨clientDefs [(exampleTextDef, .varString), (exampleTextDef, .varString)], false, some 1⟩ rfl
    (by decide) (by decide) _ h6 h7 _ [] c2 (by rw [b2.caps, a7]; exact h8) b3).all
  refine ⟨{ inp := mid, caps := plainCaps }, _, c2, c3, ?_, d1⟩
  unfold PreparedStmt.qry
  rw [he]
  show MR.bind _ _ = _
  rw [a4]
  exact b1

end Mybin
