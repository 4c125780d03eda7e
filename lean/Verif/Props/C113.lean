/-
C113: whether a prepared statement is executed only with as many values as it has placeholders.
-/
import Verif.Props.C50_C52

namespace Mybin

/-- C113, for the right number of values: the server, which reads a request by the number of placeholders of the statement,
sees the values that were given. (Full claim: with another number of values nothing is executed. It fails, see below.) -/
theorem C113_right_number_partial (st : PreparedStmt) (hid : st.stmtId < 2 ^ 32) (params : List StmtColumnValue)
    (hsound : ∀ p ∈ params, p.Sound) (hn : params.length = st.paramDefs.length) :
    ∃ cmd e, ComStmtExecute.single st.stmtId params = some cmd ∧ (∀ out, cmd.writeTo out = some (out ++ e, e.length)) ∧
      Spec.D.all (Spec.D.stmtExecute st.paramDefs.length) e = some ⟨st.stmtId, 0, 1, params.map Spec.serverParam⟩ := by
  rw [← hn]
  exact C22_server_sees_parameters_partial st.stmtId params hid hsound

/-- C113 fails: whatever number of parameters the server announced, the same request is sent and the same answer awaited;
a wrong number of values is not an error of the client. -/
theorem C113_unchecked_false (st : PreparedStmt) (defs : List ColumnDefinition) (params : List StmtColumnValue) (c : Conn) :
    PreparedStmt.exec { st with paramDefs := defs } params c = st.exec params c ∧
    PreparedStmt.execClose { st with paramDefs := defs } params c = st.execClose params c ∧
    PreparedStmt.qry { st with paramDefs := defs } params c = st.qry params c := ⟨rfl, rfl, rfl⟩

/-- C113: a request without values for a statement with placeholders is one that the server cannot read -/
theorem C113_none_given (stmtId : Nat) (hid : stmtId < 2 ^ 32) (n : Nat) (hn : 0 < n) :
    ∃ cmd e, ComStmtExecute.single stmtId [] = some cmd ∧ (∀ out, cmd.writeTo out = some (out ++ e, e.length)) ∧
      Spec.D.stmtExecute n e = none := by
  obtain ⟨bm, hbm, hlen, hbits⟩ := Bitmap.fromIter_spec [] 0
  have hhead : List.Forall₂ Appends
      [(writeU8 · Command.stmtExecute.toByte), (writeLeU32 · stmtId), (writeU8 · 0), (writeLeU32 · 1)]
      [Spec.u8 0x17, Spec.le 4 stmtId, Spec.u8 0, Spec.le 4 1] :=
    .cons (appends_u8 _) (.cons (appends_u32 _) (.cons (appends_u8 _) (.cons (appends_u32 _) .nil)))
  refine ⟨⟨.stmtExecute, stmtId, 0, 1, bm, true, []⟩, Spec.u8 0x17 ++ (Spec.le 4 stmtId ++ (Spec.u8 0 ++ Spec.le 4 1)),
    by simp [ComStmtExecute.single, hbm], fun out => ?_, ?_⟩
  · simp only [ComStmtExecute.writeTo, List.isEmpty_nil, if_true, Option.some.injEq]
    have := Appends.seq hhead out
    simpa using this
  · have e : Spec.u8 0x17 ++ (Spec.le 4 stmtId ++ (Spec.u8 0 ++ Spec.le 4 1))
        = Spec.u8 0x17 ++ (Spec.le 4 stmtId ++ (Spec.u8 0 ++ (Spec.le 4 1 ++ []))) := by simp
    rw [e]
    unfold Spec.D.stmtExecute
    rw [Spec.D.bind_some (Spec.D.u8_spec _ _ (by norm_num)),
      Spec.D.bind_some (Spec.D.le_spec 4 _ _ (by omega)),
      Spec.D.bind_some (Spec.D.u8_spec _ _ (by norm_num)),
      Spec.D.bind_some (Spec.D.le_spec 4 _ _ (by norm_num))]
    simp only [if_neg (show ¬ n = 0 by omega)]
    have inner : Spec.D.bytes ((n + 7) / 8) [] = none := by
      unfold Spec.D.bytes
      rw [if_neg]
      simp only [List.length_nil]
      omega
    have none_bind : ∀ {α β : Type} (x : Spec.D α) (f : α → Spec.D β), x [] = none → (x >>= f) [] = none := by
      intro α β x f h
      show Spec.D.bind x f [] = none
      rw [Spec.D.bind, h]
    exact none_bind _ _ (none_bind _ _ inner)

/-- C113 fails: with one value too many the request can be read, and says something else. A statement with one placeholder
that is given two TINYINTs, whatever they are, gets the number 1: the type of the second. -/
theorem C113_extra_false (stmtId : Nat) (hid : stmtId < 2 ^ 32) (a b : Int) :
    ∃ cmd e more, ComStmtExecute.single stmtId [.newTinyint a, .newTinyint b] = some cmd ∧
      (∀ out, cmd.writeTo out = some (out ++ e, e.length)) ∧
      Spec.D.stmtExecute 1 e = some (⟨stmtId, 0, 1, [⟨1, false, some (.tiny 1)⟩]⟩, more) := by
  refine ⟨⟨.stmtExecute, stmtId, 0, 1, [0], true, [.newTinyint a, .newTinyint b]⟩,
    Spec.u8 0x17 ++ (Spec.le 4 stmtId ++ (Spec.u8 0 ++ (Spec.le 4 1 ++ ([0] ++ (Spec.u8 1 ++ ([1, 0] ++ (Spec.u8 1 ++ ([0] ++
      (Spec.u8 (asUnsigned 8 a) ++ Spec.u8 (asUnsigned 8 b)))))))))),
    [0] ++ (Spec.u8 (asUnsigned 8 a) ++ Spec.u8 (asUnsigned 8 b)), rfl, fun out => ?_, ?_⟩
  · have hall : List.Forall₂ Appends
      ([(writeU8 · Command.stmtExecute.toByte), (writeLeU32 · stmtId), (writeU8 · 0), (writeLeU32 · 1),
        (writeBytes · [0]), (writeU8 · 1), fun out => writeParamType out (.newTinyint a), fun out => writeParamType out (.newTinyint b),
        fun out => (StmtColumnValue.newTinyint a).val.writeTo out, fun out => (StmtColumnValue.newTinyint b).val.writeTo out])
      [Spec.u8 0x17, Spec.le 4 stmtId, Spec.u8 0, Spec.le 4 1, [0], Spec.u8 1, [1, 0], [1, 0], Spec.u8 (asUnsigned 8 a),
        Spec.u8 (asUnsigned 8 b)] := by
      have ht : ∀ i : Int, Appends (fun out => writeParamType out (.newTinyint i)) [1, 0] := fun i =>
        appends_mk (fun out => rfl) (.cons (appends_u8 1) (.cons (appends_u8 0) .nil)) rfl
      exact .cons (appends_u8 _) (.cons (appends_u32 _) (.cons (appends_u8 _) (.cons (appends_u32 _)
        (.cons (appends_bytes _) (.cons (appends_u8 _) (.cons (ht a) (.cons (ht b) (.cons (appends_u8 _) (.cons (appends_u8 _) .nil)))))))))
    have := Appends.seq hall out
    simp only [List.flatten_cons, List.flatten_nil, List.append_nil] at this
    exact congrArg some this
  · unfold Spec.D.stmtExecute
    rw [Spec.D.bind_some (Spec.D.u8_spec _ _ (by norm_num)),
      Spec.D.bind_some (Spec.D.le_spec 4 _ _ (by omega)),
      Spec.D.bind_some (Spec.D.u8_spec _ _ (by norm_num)),
      Spec.D.bind_some (Spec.D.le_spec 4 _ _ (by norm_num))]
    rfl

end Mybin
