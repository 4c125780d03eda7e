/-
C128: `mybinlog dml` on connections that break while a message is being sent.
-/
import Verif.Props.C128_more

namespace Mybin

theorem Breaks.fetchColumns (db tbl : Bytes) : Breaks (fetchColumns db tbl) (fetchColumnsL db tbl) :=
  (Breaks.okCommand _).bind fun _ => .request _ (Quiet.fieldListLoop _)

/-- the helper connection after an event -/
def helperIs (o : DmlOpts) (st : DmlState) (ev : Event) (h : Conn) : DmlNext → Prop
  | .go st' => h = st'.helper
  | .stop => h = st.helper
  | .err _ => helperAfter o st ev = some h
  | .panic => False
  | .hang => False

theorem onRows_helper (limit : Nat) (lines : TableMeta → RowsDataV2 → R (List DmlLine)) (st : DmlState) (data : Bytes)
    (st' : DmlState) (h : (onRows limit lines st data).2 = .go st') : st'.helper = st.helper := by
  unfold onRows at h
  split at h
  · split at h
    · cases h; rfl
    · split at h
      · cases h; rfl
      · split at h
        · split at h
          · cases h; rfl
          · cases h
        · cases h
        · cases h
        · cases h
  · cases h
  · cases h
  · cases h

/-- one event: the helper takes what is sent, or the run ends there -/
theorem onEventL_breaks (ft : FloatText) (o : DmlOpts) (st : DmlState) (ev : Event) (h : Conn)
    (hh : helperIs o st ev h (onEvent ft o st ev).2) : ∃ sent, h.out = st.helper.out ++ sent ∧ ∀ k,
      (sent.length ≤ k → onEventL ft o st k ev = ((onEvent ft o st ev).1, (onEvent ft o st ev).2, ⟨h, k - sent.length⟩)) ∧
      (k < sent.length → ∃ d : Conn, onEventL ft o st k ev = ([], .err .io, ⟨d, 0⟩) ∧ d.out = st.helper.out ++ sent.take k) := by
  have still : h = st.helper → (∀ k, onEventL ft o st k ev = ((onEvent ft o st ev).1, (onEvent ft o st ev).2, ⟨st.helper, k⟩)) →
      ∃ sent, h.out = st.helper.out ++ sent ∧ ∀ k,
      (sent.length ≤ k → onEventL ft o st k ev = ((onEvent ft o st ev).1, (onEvent ft o st ev).2, ⟨h, k - sent.length⟩)) ∧
      (k < sent.length → ∃ d : Conn, onEventL ft o st k ev = ([], .err .io, ⟨d, 0⟩) ∧ d.out = st.helper.out ++ sent.take k) := by
    rintro rfl hL
    exact ⟨[], by simp, fun k => ⟨fun _ => hL k, fun hk => by simp at hk⟩⟩
  by_cases hk : ev.kind = .tableMap
  · have e1 : onEvent ft o st ev = ([], onTableMap o st ev.data) := by
      unfold onEvent
      rw [hk]
    have e2 : ∀ k, onEventL ft o st k ev = ([], onTableMapL o st k ev.data) := by
      intro k
      unfold onEventL
      rw [hk]
    simp only [e1, e2] at hh still ⊢
    unfold helperIs helperAfter at hh
    rw [hk] at hh
    dsimp only at hh
    unfold onTableMap at hh still ⊢
    unfold onTableMapL at still ⊢
    cases hd : TableMapData.readFrom ev.data with
    | ok d r =>
      simp only [hd] at hh still ⊢
      by_cases ht : (st.tbls.lookup d.tableId).isSome ∨ d.tableId ∈ st.skip
      · simp only [if_pos ht] at hh still ⊢
        exact still hh fun _ => trivial
      · simp only [if_neg ht] at hh still ⊢
        cases hm : TableMapData.tableMap d.payload with
        | ok tm r =>
          simp only [hm] at hh still ⊢
          by_cases f1 : ¬ filterOk o.databaseFilter tm.schemaName
          · simp only [if_pos f1] at hh still ⊢
            exact still hh fun _ => trivial
          · simp only [if_neg f1] at hh still ⊢
            by_cases f2 : ¬ filterOk o.tableFilter tm.tableName
            · simp only [if_pos f2] at hh still ⊢
              exact still hh fun _ => trivial
            · simp only [if_neg f2] at hh still ⊢
              clear still
              have hb := Breaks.fetchColumns tm.schemaName tm.tableName st.helper
              cases hf : fetchColumns tm.schemaName tm.tableName st.helper with
              | ok defs h' =>
                simp only [hf] at hh ⊢
                subst hh
                obtain ⟨sent, e, b⟩ := hb h (.inl ⟨_, hf⟩)
                refine ⟨sent, e, fun k => ⟨fun hk => ?_, fun hk => ?_⟩⟩
                · rw [(b k).1 hk, hf]
                  rfl
                · obtain ⟨x, hx, ho⟩ := (b k).2 hk
                  exact ⟨x, by rw [hx], ho⟩
              | err e h' =>
                simp only [hf] at hh ⊢
                cases hh
                obtain ⟨sent, e, b⟩ := hb h (.inr ⟨_, hf⟩)
                refine ⟨sent, e, fun k => ⟨fun hk => ?_, fun hk => ?_⟩⟩
                · rw [(b k).1 hk, hf]
                  rfl
                · obtain ⟨x, hx, ho⟩ := (b k).2 hk
                  exact ⟨x, by rw [hx], ho⟩
              | panic => simp only [hf] at hh
              | hang => simp only [hf] at hh
        | err e r =>
          simp only [hm] at hh still ⊢
          exact still (by cases hh; rfl) fun _ => trivial
        | panic => simp only [hm] at hh
        | hang => simp only [hm] at hh
    | err e r =>
      simp only [hd] at hh still ⊢
      exact still (by cases hh; rfl) fun _ => trivial
    | panic => simp only [hd] at hh
    | hang => simp only [hd] at hh
  · refine still ?_ fun k => ?_
    · cases hn : (onEvent ft o st ev).2 with
      | go st' =>
        rw [hn] at hh
        refine Eq.trans hh ?_
        unfold onEvent at hn
        split at hn
        · exact absurd ‹_› hk
        · exact onRows_helper _ _ _ _ _ hn
        · exact onRows_helper _ _ _ _ _ hn
        · exact onRows_helper _ _ _ _ _ hn
        · split at hn
          · cases hn; rfl
          · cases hn
        · cases hn; rfl
      | stop => rw [hn] at hh; exact hh
      | err e =>
        rw [hn] at hh
        have hh : helperAfter o st ev = some h := hh
        unfold helperAfter at hh
        split at hh
        · exact absurd ‹_› hk
        · cases hh; rfl
      | panic => rw [hn] at hh; exact hh.elim
      | hang => rw [hn] at hh; exact hh.elim
    · unfold onEventL
      split
      · exact absurd ‹_› hk
      · rfl

/-- the loop over the events -/
theorem dmlLoopL_breaks (ft : FloatText) (o : DmlOpts) (s : BinlogStream) (st : DmlState) (c c1 c2 : Conn)
    (h : dmlConns ft o s st c = some (c1, c2)) : c1.out = c.out ∧ ∃ sent, c2.out = st.helper.out ++ sent ∧ ∀ k,
      (sent.length ≤ k → dmlLoopL ft o s st k c = ((dmlLoop ft o s st c).1, (dmlLoop ft o s st c).2, some (c1, c2))) ∧
      (k < sent.length → ∃ lines d1 d2, dmlLoopL ft o s st k c = (lines, .err .io, some (d1, d2)) ∧
        lines <+: (dmlLoop ft o s st c).1 ∧ d1.out = c.out ∧ d2.out = st.helper.out ++ sent.take k) := by
  induction hn : c.inp.length using Nat.strong_induction_on generalizing c s st with
  | _ n ih =>
    have hL := fun k => dmlLoopL.eq_def ft o s st k c
    have hM := dmlLoop.eq_def ft o s st c
    rw [dmlConns.eq_def] at h
    have hq := Quiet.nextEvent s c
    have still : c1.out = c.out → c2 = st.helper →
        (∀ k, dmlLoopL ft o s st k c = ((dmlLoop ft o s st c).1, (dmlLoop ft o s st c).2, some (c1, c2))) →
        c1.out = c.out ∧ ∃ sent, c2.out = st.helper.out ++ sent ∧ ∀ k,
      (sent.length ≤ k → dmlLoopL ft o s st k c = ((dmlLoop ft o s st c).1, (dmlLoop ft o s st c).2, some (c1, c2))) ∧
      (k < sent.length → ∃ lines d1 d2, dmlLoopL ft o s st k c = (lines, .err .io, some (d1, d2)) ∧
        lines <+: (dmlLoop ft o s st c).1 ∧ d1.out = c.out ∧ d2.out = st.helper.out ++ sent.take k) := by
      rintro h1 rfl h2
      exact ⟨h1, [], by simp, fun k => ⟨fun _ => h2 k, fun hk => by simp at hk⟩⟩
    cases hr : s.nextEvent c with
    | ok a c' =>
      have h1 : c'.out = c.out := hq c' (.inl ⟨_, hr⟩)
      obtain ⟨oe, s'⟩ := a
      cases oe with
      | none =>
        simp only [hr] at h hL hM
        cases h
        exact still h1 rfl fun k => by rw [hL k, hM]
      | some ev =>
        simp only [hr] at h hL hM
        have hE := onEventL_breaks ft o st ev
        cases he : onEvent ft o st ev with
        | mk out next =>
          simp only [he] at h hM hE
          cases next with
          | go st' =>
            dsimp only at h hM
            by_cases hi : c'.inp.length < c.inp.length
            · rw [if_pos hi] at h hM
              obtain ⟨s1, e1, b1⟩ := hE st'.helper rfl
              obtain ⟨p1, s2, e2, b2⟩ := ih c'.inp.length (by omega) s' st' c' h rfl
              refine ⟨p1.trans h1, s1 ++ s2, by rw [e2, e1, List.append_assoc], fun k => ⟨fun hk => ?_, fun hk => ?_⟩⟩
              · rw [List.length_append] at hk
                rw [hL k, (b1 k).1 (by omega), hM]
                dsimp only
                rw [if_pos hi, (b2 _).1 (by omega)]
              · rw [List.length_append] at hk
                by_cases hs : s1.length ≤ k
                · obtain ⟨lines, d1, d2, q1, q2, q3, q4⟩ := (b2 (k - s1.length)).2 (by omega)
                  refine ⟨out ++ lines, d1, d2, ?_, ?_, q3.trans h1, ?_⟩
                  · rw [hL k, (b1 k).1 hs]
                    dsimp only
                    rw [if_pos hi, q1]
                  · rw [hM]
                    exact List.prefix_append_right_inj _ |>.2 q2
                  · rw [q4, e1, List.take_append, List.take_of_length_le hs, List.append_assoc]
                · obtain ⟨d, hd, ho⟩ := (b1 k).2 (by omega)
                  refine ⟨[], c', d, by rw [hL k, hd], List.nil_prefix, h1, ?_⟩
                  rw [ho, List.take_append, Nat.sub_eq_zero_of_le (by omega), List.take_zero, List.append_nil]
            · rw [if_neg hi] at h
              cases h
          | stop =>
            cases h
            obtain ⟨s1, e1, b1⟩ := hE st.helper rfl
            have : s1 = [] := by simpa using e1
            subst this
            exact still h1 rfl fun k => by rw [hL k, (b1 k).1 (by simp), hM]
          | err e =>
            dsimp only at h hM
            cases ha : helperAfter o st ev with
            | none => rw [ha] at h; cases h
            | some x =>
              rw [ha] at h
              cases h
              obtain ⟨s1, e1, b1⟩ := hE c2 ha
              refine ⟨h1, s1, e1, fun k => ⟨fun hk => by rw [hL k, (b1 k).1 hk, hM], fun hk => ?_⟩⟩
              obtain ⟨d, hd, ho⟩ := (b1 k).2 hk
              exact ⟨[], c1, d, by rw [hL k, hd], List.nil_prefix, h1, ho⟩
          | panic => cases h
          | hang => cases h
    | err e c' =>
      simp only [hr] at h hL hM
      cases h
      exact still (hq _ (.inr ⟨_, hr⟩)) rfl fun k => by rw [hL k, hM]
    | panic => simp only [hr] at h; cases h
    | hang => simp only [hr] at h; cases h

/-- C128, `mybinlog dml`: `a` and `b` are what the two connections of a run send, if they never fail. If they fail after `k0`
and `k1` bytes, and not all fits, the run ends with an error, and prints the first lines of what it would print: none, if
the connection the events come from is the one that fails. That error is the one of the stream, or one that the run would
end with anyway. The server gets the beginnings of what it would get, and exactly the bytes that fit on the connection that
failed. -/
theorem C128_mybinlog_partial (w : World) (o : ProgOpts) (a b : Bytes) (h : (mybinlog w o).sent = some [a, b]) (k0 k1 : Nat) :
    (a.length ≤ k0 ∧ b.length ≤ k1 → mybinlogL w k0 k1 o = mybinlog w o) ∧
    (k0 < a.length ∨ k1 < b.length → ∃ (lines : List ProgLine) (e : Err) (sent : List Bytes),
      mybinlogL w k0 k1 o = ⟨lines, .err e, some sent⟩ ∧ lines <+: (mybinlog w o).lines ∧
      (e = .io ∨ (mybinlog w o).theEnd = .err e) ∧
      (k0 < a.length ∧ lines = [] ∧ (sent = [a.take k0] ∨ ∃ b', sent = [a.take k0, b'] ∧ b' <+: b ∧ b'.length ≤ k1) ∨
        k1 < b.length ∧ ∃ a', sent = [a', b.take k1] ∧ a' <+: a ∧ a'.length ≤ k0)) := by
  have early : ∀ a b : Bytes, a <+: b → ∀ k, k < a.length → a.take k = b.take k := by
    rintro a _ ⟨t, rfl⟩ k hk
    rw [List.take_append, Nat.sub_eq_zero_of_le hk.le, List.take_zero, List.append_nil]
  have hA := BreaksAt.connect w 0 o.host o.port o.username o.password
  have hB := BreaksAt.connect w 1 o.host o.port o.username o.password
  unfold mybinlog at h ⊢
  unfold mybinlogL
  cases h1 : connect w 0 o.host o.port o.username o.password with
  | ok u c =>
    rw [h1] at h
    cases hcmd : o.cmd with
    | list =>
      rw [hcmd] at h
      dsimp only at h
      split at h <;> cases h
    | dml filename untilNow databaseFilter tableFilter block limit =>
      rw [hcmd] at h
      dsimp only at h ⊢
      obtain ⟨sA, eA, bA⟩ := hA c (.inl ⟨u, h1⟩)
      rw [List.nil_append] at eA
      subst eA
      have run : c.out.length ≤ k0 → connectL w 0 k0 o.host o.port o.username o.password = .ok u ⟨c, k0 - c.out.length⟩ := by
        intro hk
        have := (bA k0).1 hk
        rw [h1] at this
        exact this
      have cut : k0 < c.out.length → ∃ d : Conn, connectL w 0 k0 o.host o.port o.username o.password = .err .io ⟨d, 0⟩ ∧
          d.out = c.out.take k0 := fun hk => (bA k0).2 hk
      cases h2 : connect w 1 o.host o.port o.username o.password with
      | ok v hp =>
        rw [h2] at h
        dsimp only at h ⊢
        obtain ⟨sB, eB, bB⟩ := hB hp (.inl ⟨v, h2⟩)
        rw [List.nil_append] at eB
        subst eB
        have runB : hp.out.length ≤ k1 → connectL w 1 k1 o.host o.port o.username o.password = .ok v ⟨hp, k1 - hp.out.length⟩ := by
          intro hk
          have := (bB k1).1 hk
          rw [h2] at this
          exact this
        have cutB : k1 < hp.out.length → ∃ d : Conn, connectL w 1 k1 o.host o.port o.username o.password = .err .io ⟨d, 0⟩ ∧
            d.out = hp.out.take k1 := fun hk => (bB k1).2 hk
        have pre : c.out <+: a ∧ hp.out <+: b := by
          cases f1 : compileFilter w databaseFilter with
          | none => rw [f1] at h; cases h; exact ⟨List.prefix_refl _, List.prefix_refl _⟩
          | some df =>
            cases f2 : compileFilter w tableFilter with
            | none => rw [f1, f2] at h; cases h; exact ⟨List.prefix_refl _, List.prefix_refl _⟩
            | some tf =>
              rw [f1, f2] at h
              dsimp only at h
              unfold dmlSent at h
              cases h3 : (DmlOpts.request ⟨filename, untilNow, df, tf, !block, limit⟩).requestStream w.uuid w.random c with
              | ok s c3 =>
                rw [h3] at h
                dsimp only at h
                obtain ⟨s3, e3, -⟩ := Frays.requestStream _ _ _ c c3 (.inl ⟨s, h3⟩)
                cases hd : dmlConns w.ft ⟨filename, untilNow, df, tf, !block, limit⟩ s ⟨[], [], 0, hp⟩ c3 with
                | none => rw [hd] at h; cases h
                | some cs =>
                  rw [hd] at h
                  cases h
                  obtain ⟨q1, s4, q2, -⟩ := dmlLoopL_breaks _ _ _ _ _ cs.1 cs.2 hd
                  exact ⟨⟨s3, by rw [q1, e3]⟩, ⟨s4, q2.symm⟩⟩
              | err e c3 =>
                rw [h3] at h
                cases h
                obtain ⟨s3, e3, -⟩ := Frays.requestStream _ _ _ c c3 (.inr ⟨e, h3⟩)
                exact ⟨⟨s3, e3.symm⟩, List.prefix_refl _⟩
              | panic => rw [h3] at h; cases h
              | hang => rw [h3] at h; cases h
        by_cases hk0 : c.out.length ≤ k0
        · rw [run hk0]
          dsimp only
          by_cases hk1 : hp.out.length ≤ k1
          · rw [runB hk1]
            dsimp only
            cases f1 : compileFilter w databaseFilter with
            | none =>
              rw [f1] at h
              cases h
              exact ⟨fun _ => rfl, fun hc => absurd hc (by omega)⟩
            | some df =>
              cases f2 : compileFilter w tableFilter with
              | none =>
                rw [f1, f2] at h
                cases h
                exact ⟨fun _ => rfl, fun hc => absurd hc (by omega)⟩
              | some tf =>
                rw [f1, f2] at h
                dsimp only at h ⊢
                unfold dmlSent at h
                unfold printDmlsL printDmls dmlSent
                have hs := C128_stream_partial (DmlOpts.request ⟨filename, untilNow, df, tf, !block, limit⟩) w.uuid w.random c
                cases h3 : (DmlOpts.request ⟨filename, untilNow, df, tf, !block, limit⟩).requestStream w.uuid w.random c with
                | ok s c3 =>
                  rw [h3] at h
                  dsimp only at h ⊢
                  cases hd : dmlConns w.ft ⟨filename, untilNow, df, tf, !block, limit⟩ s ⟨[], [], 0, hp⟩ c3 with
                  | none => rw [hd] at h; cases h
                  | some cs =>
                    rw [hd] at h
                    cases h
                    obtain ⟨q1, s4, q2, b4⟩ := dmlLoopL_breaks _ _ _ _ _ cs.1 cs.2 hd
                    dsimp only at q2
                    have l4 : cs.2.out.length = hp.out.length + s4.length := by rw [q2, List.length_append]
                    rw [q1]
                    rcases hs c3 (.inl ⟨s, h3⟩) (k0 - c.out.length) with ⟨l3, r3⟩ | ⟨l3, d, e, r3, x3, o3⟩
                    · rw [r3, h3]
                      dsimp only [MR.on]
                      refine ⟨fun hk => ?_, fun hk => ?_⟩
                      · rw [(b4 (k1 - hp.out.length)).1 (by omega)]
                      · obtain ⟨lines, d1, d2, m1, m2, m3, m4⟩ := (b4 (k1 - hp.out.length)).2 (by omega)
                        rw [m1]
                        refine ⟨_, _, _, rfl, m2.map _, .inl rfl, .inr ⟨by omega, c3.out, ?_, List.prefix_refl _, by omega⟩⟩
                        dsimp only
                        rw [m3, m4, q2, List.take_append, List.take_of_length_le hk1]
                    · rw [r3]
                      dsimp only
                      refine ⟨fun hk => absurd hk (by omega), fun _ => ⟨_, _, _, rfl, List.nil_prefix, ?_, .inl ⟨by omega, rfl, .inr
                        ⟨hp.out, ?_, pre.2, hk1⟩⟩⟩⟩
                      · rcases x3 with x3 | x3
                        · exact .inl x3
                        · rw [h3] at x3; cases x3
                      · rw [o3, Nat.add_sub_cancel' hk0]
                | err e c3 =>
                  rw [h3] at h
                  cases h
                  dsimp only
                  rcases hs c3 (.inr ⟨e, h3⟩) (k0 - c.out.length) with ⟨l3, r3⟩ | ⟨l3, d, e', r3, x3, o3⟩
                  · rw [r3, h3]
                    exact ⟨fun _ => rfl, fun hk => absurd hk (by omega)⟩
                  · rw [r3]
                    dsimp only
                    refine ⟨fun hk => absurd hk (by omega), fun _ => ⟨_, _, _, rfl, List.nil_prefix, ?_, .inl ⟨by omega, rfl, .inr
                      ⟨hp.out, ?_, pre.2, hk1⟩⟩⟩⟩
                    · rcases x3 with x3 | x3
                      · exact .inl x3
                      · rw [h3] at x3; cases x3; exact .inr rfl
                    · rw [o3, Nat.add_sub_cancel' hk0]
                | panic => rw [h3] at h; cases h
                | hang => rw [h3] at h; cases h
          · obtain ⟨d, hd, ho⟩ := cutB (by omega)
            rw [hd]
            dsimp only
            have := pre.2.length_le
            refine ⟨fun hk => absurd hk (by omega), fun _ => ⟨_, _, _, rfl, List.nil_prefix, .inl rfl, .inr ⟨by omega, c.out, ?_, pre.1, hk0⟩⟩⟩
            rw [ho, early _ _ pre.2 k1 (by omega)]
        · obtain ⟨d, hd, ho⟩ := cut (by omega)
          rw [hd]
          dsimp only
          have := pre.1.length_le
          refine ⟨fun hk => absurd hk (by omega), fun _ => ⟨_, _, _, rfl, List.nil_prefix, .inl rfl, .inl ⟨by omega, rfl, .inl ?_⟩⟩⟩
          rw [ho, early _ _ pre.1 k0 (by omega)]
      | err e hp =>
        rw [h2] at h
        cases h
        obtain ⟨sB, eB, bB⟩ := hB hp (.inr ⟨e, h2⟩)
        rw [List.nil_append] at eB
        subst eB
        by_cases hk0 : c.out.length ≤ k0
        · rw [run hk0]
          dsimp only
          by_cases hk1 : hp.out.length ≤ k1
          · have := (bB k1).1 hk1
            rw [h2] at this
            dsimp only [MR.on] at this
            rw [this]
            exact ⟨fun _ => rfl, fun hk => absurd hk (by omega)⟩
          · obtain ⟨d, hd, ho⟩ := (bB k1).2 (by omega)
            dsimp only at hd
            rw [hd]
            dsimp only
            refine ⟨fun hk => absurd hk (by omega), fun _ => ⟨_, _, _, rfl, List.nil_prefix, .inl rfl, .inr ⟨by omega, c.out, ?_,
              List.prefix_refl _, hk0⟩⟩⟩
            rw [ho, List.nil_append]
        · obtain ⟨d, hd, ho⟩ := cut (by omega)
          rw [hd]
          dsimp only
          exact ⟨fun hk => absurd hk (by omega), fun _ => ⟨_, _, _, rfl, List.nil_prefix, .inl rfl, .inl ⟨by omega, rfl, .inl (by rw [ho])⟩⟩⟩
      | panic => rw [h2] at h; cases h
      | hang => rw [h2] at h; cases h
  | err e c => rw [h1] at h; cases h
  | panic => rw [h1] at h; cases h
  | hang => rw [h1] at h; cases h

/-- the run of C87 over the example log: it sends on two connections -/
example (ft : FloatText) : ∃ inp1 inp2 a b, (mybinlog (exampleWorld ft inp1 inp2) (exampleProg 0)).sent = some [a, b] := by
  obtain ⟨inp1, inp2, out, -, -, h3⟩ := example_program ft 0
  obtain ⟨sent, hs⟩ := C88_sent_known _ _ (by rw [h3]; exact ⟨by simp, by simp⟩)
  rcases C88_dml _ (exampleProg 0) _ _ _ _ _ _ rfl sent hs with ⟨conn, e, he, -⟩ | ⟨_, _, a, b, -, -, rfl, -⟩
  · unfold mybinlog at h3
    rw [he] at h3
    cases h3
  · exact ⟨inp1, inp2, a, b, hs⟩

end Mybin
