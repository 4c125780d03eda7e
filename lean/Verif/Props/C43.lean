/-
C43: printing the statements of a binlog.
-/
import Verif.Model.Dml
import Verif.Spec.Dml
import Verif.Props.C34
import Verif.Props.C35
import Verif.Props.C40_C42
import Verif.Props.C74

namespace Mybin
open Spec (Covers Front logged ColKind Cell Image LogItem)

/-! ### the limit -/

/-- the number of statements among the lines -/
def statements (ls : List DmlLine) : Nat := ls.countP fun l => match l with | .stmt _ => true | .note .. => false

/-- the lines up to the `n`-th statement -/
def upTo : Nat → List DmlLine → List DmlLine
  | 0, _ => []
  | _ + 1, [] => []
  | n + 1, .stmt s :: ls => .stmt s :: upTo n ls
  | n + 1, .note d t p :: ls => .note d t p :: upTo (n + 1) ls

@[simp] theorem statements_nil : statements [] = 0 := rfl
@[simp] theorem statements_stmt (s : Bytes) (ls : List DmlLine) : statements (.stmt s :: ls) = statements ls + 1 := by
  simp [statements]
@[simp] theorem statements_note (d t : Bytes) (p : Nat) (ls : List DmlLine) :
    statements (.note d t p :: ls) = statements ls := by simp [statements]
@[simp] theorem statements_append (a b : List DmlLine) : statements (a ++ b) = statements a + statements b := by
  simp [statements]

theorem upTo_zero (ls : List DmlLine) : upTo 0 ls = [] := by rw [upTo]

theorem upTo_nil (n : Nat) : upTo n [] = [] := by cases n <;> rfl

theorem upTo_append_le (n : Nat) (a b : List DmlLine) (h : n ≤ statements a) : upTo n (a ++ b) = upTo n a := by
  induction a generalizing n with
  | nil =>
    have : n = 0 := by simpa using h
    rw [this, upTo_zero, upTo_zero]
  | cons l a ih =>
    cases n with
    | zero => rfl
    | succ n =>
      cases l with
      | stmt s => rw [List.cons_append, upTo, upTo, ih n (by simpa using h)]
      | note d t p => rw [List.cons_append, upTo, upTo, ih (n + 1) (by simpa using h)]

theorem upTo_append_gt (n : Nat) (a b : List DmlLine) (h : statements a < n) :
    upTo n (a ++ b) = a ++ upTo (n - statements a) b := by
  induction a generalizing n with
  | nil => simp
  | cons l a ih =>
    cases n with
    | zero => omega
    | succ n =>
      cases l with
      | stmt s =>
        rw [statements_stmt] at h
        rw [List.cons_append, upTo, ih n (by omega), statements_stmt, List.cons_append]
        congr 3
        omega
      | note d t p =>
        rw [statements_note] at h
        rw [List.cons_append, upTo, ih (n + 1) h, statements_note, List.cons_append]

theorem upTo_all (n : Nat) (a : List DmlLine) (h : statements a < n) : upTo n a = a := by
  have := upTo_append_gt n a [] h
  rwa [List.append_nil, upTo_nil, List.append_nil] at this

theorem statements_upTo (n : Nat) (a : List DmlLine) : statements (upTo n a) = min n (statements a) := by
  induction a generalizing n with
  | nil => rw [upTo_nil]; simp
  | cons l a ih =>
    cases n with
    | zero => simp [upTo]
    | succ n =>
      cases l with
      | stmt s => rw [upTo, statements_stmt, ih, statements_stmt]; omega
      | note d t p => rw [upTo, statements_note, ih, statements_note]

theorem printLines_unlimited (n : Nat) (ls : List DmlLine) : printLines 0 n ls = (ls, some (n + statements ls)) := by
  induction ls generalizing n with
  | nil => rfl
  | cons l ls ih =>
    cases l with
    | stmt s =>
      rw [printLines, if_neg (by simp), ih]
      simp only [statements_stmt, Prod.mk.injEq, Option.some.injEq, true_and]
      omega
    | note d t p => rw [printLines, ih]; simp

theorem printLines_limited (limit n : Nat) (hn : n < limit) (ls : List DmlLine) :
    printLines limit n ls
      = (upTo (limit - n) ls, if limit - n ≤ statements ls then none else some (n + statements ls)) := by
  induction ls generalizing n with
  | nil =>
    rw [printLines, upTo_nil, if_neg (by simp only [statements_nil]; omega)]
    rfl
  | cons l ls ih =>
    obtain ⟨k, hk⟩ : ∃ k, limit - n = k + 1 := ⟨limit - n - 1, by omega⟩
    cases l with
    | stmt s =>
      rw [printLines]
      by_cases h : limit ≤ n + 1
      · have : k = 0 := by omega
        subst this
        rw [if_pos ⟨by omega, h⟩, hk, upTo, upTo_zero, if_pos (by simp)]
      · rw [if_neg (by omega), ih (n + 1) (by omega), show limit - (n + 1) = k by omega, hk, upTo]
        simp only [statements_stmt, Prod.mk.injEq, true_and, Nat.add_le_add_iff_right]
        congr 2
        omega
    | note d t p => rw [printLines, ih n hn, hk, upTo]; simp

/-- the end of a run with a limit, from the unlimited run -/
def cutEnd (left : Nat) (r : List DmlLine × DmlEnd) : List DmlLine × DmlEnd :=
  (upTo left r.1, if left ≤ statements r.1 then .done else r.2)

/-- what an event does, with and without a limit -/
theorem onEvent_limit (ft : FloatText) (o : DmlOpts) (st : DmlState) (ev : Event) (hn : st.nRows < o.limit) :
    (∃ out st', onEvent ft { o with limit := 0 } st ev = (out, .go st') ∧ st'.nRows = st.nRows + statements out ∧
      onEvent ft o st ev = if o.limit - st.nRows ≤ statements out then (upTo (o.limit - st.nRows) out, .stop)
        else (out, .go st')) ∨
    (∃ next, onEvent ft { o with limit := 0 } st ev = ([], next) ∧ onEvent ft o st ev = ([], next) ∧
      ∀ st', next ≠ .go st') := by
  have hrows : ∀ lines : TableMeta → RowsDataV2 → R (List DmlLine),
      (∃ out st', onRows 0 lines st ev.data = (out, .go st') ∧ st'.nRows = st.nRows + statements out ∧
        onRows o.limit lines st ev.data
          = if o.limit - st.nRows ≤ statements out then (upTo (o.limit - st.nRows) out, .stop) else (out, .go st')) ∨
      (∃ next, onRows 0 lines st ev.data = ([], next) ∧ onRows o.limit lines st ev.data = ([], next) ∧
        ∀ st', next ≠ .go st') := by
    intro lines
    unfold onRows
    cases RowsDataV2.readFrom ev.data with
    | ok d r =>
      dsimp only
      by_cases hs : d.tableId ∈ st.skip
      · rw [if_pos hs, if_pos hs]
        exact Or.inl ⟨[], st, rfl, rfl, by rw [if_neg (by simp only [statements_nil]; omega)]⟩
      · rw [if_neg hs, if_neg hs]
        cases st.tbls.lookup d.tableId with
        | none => exact Or.inl ⟨[], st, rfl, rfl, by rw [if_neg (by simp only [statements_nil]; omega)]⟩
        | some tm =>
          dsimp only
          cases lines tm d with
          | ok ls r =>
            dsimp only
            rw [printLines_unlimited, printLines_limited _ _ hn]
            refine Or.inl ⟨ls, { st with nRows := st.nRows + statements ls }, rfl, rfl, ?_⟩
            by_cases h : o.limit - st.nRows ≤ statements ls
            · rw [if_pos h, if_pos h]
            · rw [if_neg h, if_neg h, upTo_all _ _ (by omega)]
          | err e r => exact Or.inr ⟨_, rfl, rfl, by simp⟩
          | panic => exact Or.inr ⟨_, rfl, rfl, by simp⟩
          | hang => exact Or.inr ⟨_, rfl, rfl, by simp⟩
    | err e r => exact Or.inr ⟨_, rfl, rfl, by simp⟩
    | panic => exact Or.inr ⟨_, rfl, rfl, by simp⟩
    | hang => exact Or.inr ⟨_, rfl, rfl, by simp⟩
  have hgo : ∀ st' : DmlState, st'.nRows = st.nRows →
      (∃ out st'', (([], .go st') : List DmlLine × DmlNext) = (out, .go st'') ∧ st''.nRows = st.nRows + statements out ∧
        (([], .go st') : List DmlLine × DmlNext) = if o.limit - st.nRows ≤ statements out
          then (upTo (o.limit - st.nRows) out, .stop) else (out, .go st'')) :=
    fun st' h => ⟨[], st', rfl, by simpa using h, by rw [if_neg (by simp only [statements_nil]; omega)]⟩
  have htm : (∃ out st'', (([], onTableMap o st ev.data) : List DmlLine × DmlNext) = (out, .go st'') ∧
        st''.nRows = st.nRows + statements out ∧
        (([], onTableMap o st ev.data) : List DmlLine × DmlNext) = if o.limit - st.nRows ≤ statements out
          then (upTo (o.limit - st.nRows) out, .stop) else (out, .go st'')) ∨
      (∀ st', onTableMap o st ev.data ≠ .go st') := by
    cases h : onTableMap o st ev.data with
    | go st' =>
      refine Or.inl (hgo st' ?_)
      unfold onTableMap at h
      repeat' split at h
      all_goals cases h
      all_goals rfl
    | _ => exact Or.inr (by simp)
  unfold onEvent
  cases ev.kind
  case tableMap =>
    rcases htm with h | h
    · exact Or.inl h
    · exact Or.inr ⟨_, rfl, rfl, h⟩
  case deleteRowsV2 => exact hrows _
  case updateRowsV2 => exact hrows _
  case writeRowsV2 => exact hrows _
  case rotate =>
    dsimp only
    by_cases h : o.untilNow = true
    · rw [if_pos h]; exact Or.inl (hgo _ rfl)
    · rw [if_neg h]; exact Or.inr ⟨_, rfl, rfl, by simp⟩
  all_goals exact Or.inl (hgo st rfl)

theorem dmlLoop_limit (ft : FloatText) (o : DmlOpts) (s : BinlogStream) (st : DmlState) (c : Conn)
    (hn : st.nRows < o.limit) :
    dmlLoop ft o s st c = cutEnd (o.limit - st.nRows) (dmlLoop ft { o with limit := 0 } s st c) := by
  induction h : c.inp.length using Nat.strong_induction_on generalizing c s st with
  | _ n ih =>
  subst h
  have hpos : ¬ o.limit - st.nRows ≤ statements [] := by simp only [statements_nil]; omega
  rw [dmlLoop.eq_def]
  conv => rhs; rw [dmlLoop.eq_def]
  cases s.nextEvent c with
  | ok r c' =>
    obtain ⟨oe, s'⟩ := r
    cases oe with
    | none => unfold cutEnd; rw [if_neg hpos, upTo_nil]
    | some ev =>
      dsimp only
      rcases onEvent_limit ft o st ev hn with ⟨out, st', h1, h2, h3⟩ | ⟨next, h1, h2, h3⟩
      · rw [h1, h3]
        dsimp only
        by_cases hl : c'.inp.length < c.inp.length
        · rw [if_pos hl]
          by_cases hs : o.limit - st.nRows ≤ statements out
          · rw [if_pos hs]
            unfold cutEnd
            dsimp only
            rw [upTo_append_le _ _ _ hs, if_pos (by rw [statements_append]; omega)]
          · rw [if_neg hs]
            dsimp only
            rw [if_pos hl, ih _ hl s' st' c' (by omega) rfl]
            unfold cutEnd
            dsimp only
            rw [upTo_append_gt _ _ _ (by omega), statements_append, h2,
              show o.limit - st.nRows - statements out = o.limit - (st.nRows + statements out) by omega]
            congr 2
            simp only [eq_iff_iff]
            omega
        · rw [if_neg hl]
          unfold cutEnd
          dsimp only
          by_cases hs : o.limit - st.nRows ≤ statements out
          · rw [if_pos hs, if_pos hs]
          · rw [if_neg hs, if_neg hs, upTo_all _ _ (by omega)]
            dsimp only
            rw [if_neg hl]
      · rw [h1, h2]
        cases next with
        | go st' => exact absurd rfl (h3 st')
        | stop => unfold cutEnd; rw [if_neg hpos, upTo_nil]
        | err e => unfold cutEnd; rw [if_neg hpos, upTo_nil]
        | panic => unfold cutEnd; rw [if_neg hpos, upTo_nil]
        | hang => unfold cutEnd; rw [if_neg hpos, upTo_nil]
  | err e c' => unfold cutEnd; rw [if_neg hpos, upTo_nil]
  | panic => unfold cutEnd; rw [if_neg hpos, upTo_nil]
  | hang => unfold cutEnd; rw [if_neg hpos, upTo_nil]

/-- C43: the limit. For every server, every helper and every option: a run with a limit `n > 0` prints what the run
without a limit prints, cut off right after the `n`-th statement, and then ends without an error, whatever the rest of
the log would have done. When there are fewer statements, the limit changes nothing. -/
theorem C43_limit (ft : FloatText) (o : DmlOpts) (uuid : Bytes) (random : Nat) (conn helper : Conn) (hl : o.limit ≠ 0) :
    let free := printDmls ft { o with limit := 0 } uuid random conn helper
    printDmls ft o uuid random conn helper
      = (upTo o.limit free.1, if o.limit ≤ statements free.1 then .done else free.2) := by
  unfold printDmls
  rw [show ({ o with limit := 0 } : DmlOpts).request = o.request from rfl]
  have hpos : ¬ o.limit ≤ statements [] := by simp only [statements_nil]; omega
  cases o.request.requestStream uuid random conn with
  | ok s c =>
    dsimp only
    rw [dmlLoop_limit ft o s _ c (by show 0 < _; omega)]
    rfl
  | err e c => dsimp only; rw [if_neg hpos, upTo_nil]
  | panic => dsimp only; rw [if_neg hpos, upTo_nil]
  | hang => dsimp only; rw [if_neg hpos, upTo_nil]

/-- C43: a run with a limit prints at most that many statements. -/
theorem C43_at_most (ft : FloatText) (o : DmlOpts) (uuid : Bytes) (random : Nat) (conn helper : Conn) (hl : o.limit ≠ 0) :
    statements (printDmls ft o uuid random conn helper).1 ≤ o.limit := by
  rw [C43_limit ft o uuid random conn helper hl]
  dsimp only
  rw [statements_upTo]
  omega

/-! ### statements that can be written -/

theorem allSome_exists {α β : Type} (f : α → Option β) (Q : β → Prop) (l : List α)
    (h : ∀ a ∈ l, ∃ b, f a = some b ∧ Q b) : ∃ bs, allSome (l.map f) = some bs ∧ ∀ b ∈ bs, Q b := by
  induction l with
  | nil => exact ⟨[], rfl, by simp⟩
  | cons a l ih =>
    obtain ⟨b, h1, h2⟩ := h a List.mem_cons_self
    obtain ⟨bs, h3, h4⟩ := ih fun x hx => h x (List.mem_cons_of_mem _ hx)
    refine ⟨b :: bs, by simp [allSome, h1, h3], ?_⟩
    intro x hx
    rcases List.mem_cons.1 hx with rfl | hx
    · exact h2
    · exact h4 x hx

theorem params_of_text (ft : FloatText) (xs : List (ColumnDefinition × BinlogColumnValue))
    (h : ∀ x ∈ xs, ∃ l, TextOf ft x l) :
    ∃ ps, allSome (xs.map fun x => StmtColumnValue.ofBinlog x.2 (x.1.flags.testBit 5)) = some ps ∧
      ∃ ls, allSome (ps.map (quotedLiteral ft)) = some ls := by
  obtain ⟨ps, h1, h2⟩ := allSome_exists (fun x : ColumnDefinition × BinlogColumnValue =>
      StmtColumnValue.ofBinlog x.2 (x.1.flags.testBit 5)) (fun p => ∃ l, quotedLiteral ft p = some l) xs (by
    intro x hx
    obtain ⟨l, p, text, q, e1, e2, -⟩ := h x hx
    exact ⟨p, e1, _, quotedLiteral_eq ft p text q e2⟩)
  obtain ⟨ls, h3, -⟩ := allSome_exists (quotedLiteral ft) (fun _ => True) ps (fun p hp => by
    obtain ⟨l, hl⟩ := h2 p hp
    exact ⟨l, hl, trivial⟩)
  exact ⟨ps, h1, ls, h3⟩

theorem sqlList_exists (ft : FloatText) (db : Bytes) (frags : List Bytes) (params : List (List StmtColumnValue))
    (h : ∀ ps ∈ params, ∃ ls, allSome (ps.map (quotedLiteral ft)) = some ls) :
    ∃ stmts, PreparedSql.sqlList ft ⟨db, frags, params⟩ = some stmts := by
  obtain ⟨stmts, h1, -⟩ := allSome_exists (fillFragments ft frags) (fun _ => True) params (fun ps hps => by
    obtain ⟨ls, hl⟩ := h ps hps
    exact ⟨_, fillFragments_render ft frags ps ls hl, trivial⟩)
  exact ⟨stmts, h1⟩

/-- C40: the statements of inserted rows are there (no panic) when every logged value has a text. -/
theorem C40_insert_total (ft : FloatText) (db tbl extra bm : Bytes) (n : Nat) (present : List Bool)
    (defs : List ColumnDefinition) (rows : List (List BinlogColumnValue))
    (hc : Covers bm present) (hl : present.length = defs.length) (hf : Front present)
    (hr : ∀ row ∈ rows, row.length = defs.length)
    (ht : ∀ row ∈ rows, ∀ x ∈ logged present defs row, ∃ l, TextOf ft x l) :
    ∃ p stmts, PreparedSql.fromInsert db tbl ⟨extra, n, bm, rows⟩ defs = some p ∧ p.sqlList ft = some stmts := by
  obtain ⟨params, h1, h2⟩ := allSome_exists (rowParams (fun _ => true) (filterColDefs bm defs))
    (fun ps => ∃ ls, allSome (ps.map (quotedLiteral ft)) = some ls) rows (by
      intro row hrow
      rw [rowParams_logged _ bm present defs row hc hl hf (hr row hrow), List.filter_eq_self.2 (fun _ _ => rfl)]
      exact params_of_text ft _ (ht row hrow))
  obtain ⟨stmts, h3⟩ := sqlList_exists ft db (insertFragments db tbl (filterColDefs bm defs)) params h2
  exact ⟨_, stmts, by simp only [PreparedSql.fromInsert, h1, Option.map_some], h3⟩

/-- C40: the same for deleted rows and the values of the key columns. -/
theorem C40_delete_total (ft : FloatText) (db tbl extra bm : Bytes) (n : Nat) (present : List Bool)
    (defs : List ColumnDefinition) (rows : List (List BinlogColumnValue))
    (hc : Covers bm present) (hl : present.length = defs.length) (hf : Front present)
    (hr : ∀ row ∈ rows, row.length = defs.length)
    (ht : ∀ row ∈ rows, ∀ x ∈ logged present defs row, IsKey x.1 = true → ∃ l, TextOf ft x l) :
    ∃ p stmts, PreparedSql.fromDelete db tbl ⟨extra, n, bm, rows⟩ defs = some p ∧ p.sqlList ft = some stmts := by
  obtain ⟨params, h1, h2⟩ := allSome_exists (rowParams (·.key) (filterColDefs bm defs))
    (fun ps => ∃ ls, allSome (ps.map (quotedLiteral ft)) = some ls) rows (by
      intro row hrow
      rw [rowParams_logged _ bm present defs row hc hl hf (hr row hrow)]
      refine params_of_text ft _ fun x hx => ?_
      rw [List.mem_filter, colDef_key] at hx
      exact ht row hrow x hx.1 hx.2)
  have e : ∃ frags, PreparedSql.fromDelete db tbl ⟨extra, n, bm, rows⟩ defs = some ⟨db, frags, params⟩ := by
    simp [PreparedSql.fromDelete, deleteFragments_eq, h1]
  obtain ⟨frags, e⟩ := e
  obtain ⟨stmts, h3⟩ := sqlList_exists ft db frags params h2
  exact ⟨_, stmts, e, h3⟩

/-- C40: the same for updated rows: all values after the change, and the key before. -/
theorem C40_update_total (ft : FloatText) (db tbl extra bb ab : Bytes) (n : Nat) (before after : List Bool)
    (defs : List ColumnDefinition) (rows : List (List BinlogColumnValue × List BinlogColumnValue))
    (hb : Covers bb before) (hbl : before.length = defs.length) (hbf : Front before)
    (ha : Covers ab after) (hal : after.length = defs.length) (haf : Front after)
    (hr : ∀ row ∈ rows, row.1.length = defs.length ∧ row.2.length = defs.length)
    (ht : ∀ row ∈ rows, (∀ x ∈ logged before defs row.1, IsKey x.1 = true → ∃ l, TextOf ft x l) ∧
      ∀ x ∈ logged after defs row.2, ∃ l, TextOf ft x l) :
    ∃ p stmts, PreparedSql.fromUpdate db tbl ⟨extra, n, bb, ab, rows⟩ defs = some p ∧ p.sqlList ft = some stmts := by
  obtain ⟨params, h1, h2⟩ := allSome_exists (updateParams (filterColDefs bb defs) (filterColDefs ab defs))
    (fun ps => ∃ ls, allSome (ps.map (quotedLiteral ft)) = some ls) rows (by
      intro row hrow
      obtain ⟨hlen1, hlen2⟩ := hr row hrow
      obtain ⟨ht1, ht2⟩ := ht row hrow
      unfold updateParams
      rw [rowParams_logged _ ab after defs row.2 ha hal haf hlen2, List.filter_eq_self.2 (fun _ _ => rfl),
        rowParams_logged _ bb before defs row.1 hb hbl hbf hlen1]
      obtain ⟨p1, a1, l1, a2⟩ := params_of_text ft _ ht2
      obtain ⟨p2, b1, l2, b2⟩ := params_of_text ft
        ((logged before defs row.1).filter fun x => (ColDef.of x.1).key) (fun x hx => by
          rw [List.mem_filter, colDef_key] at hx
          exact ht1 x hx.1 hx.2)
      refine ⟨p1 ++ p2, by rw [a1, b1]; rfl, l1 ++ l2, ?_⟩
      rw [List.map_append]
      exact allSome_append _ _ _ _ a2 b2)
  have e : ∃ frags, PreparedSql.fromUpdate db tbl ⟨extra, n, bb, ab, rows⟩ defs = some ⟨db, frags, params⟩ := by
    simp [PreparedSql.fromUpdate, updateFragments_eq, h1]
  obtain ⟨frags, e⟩ := e
  obtain ⟨stmts, h3⟩ := sqlList_exists ft db frags params h2
  exact ⟨_, stmts, e, h3⟩

/-! ### the flow of the log -/

/-- the columns of a table in the catalogue, as a client gets to know them -/
abbrev Catalogue := List UInt8 → List UInt8 → List ColumnDefinition

/-- how the server answers to selecting a database and listing the columns of a table, which are these -/
def Spec.ListsColumns (caps : Nat) (defs : List ColumnDefinition) (msgs : List (List UInt8)) : Prop :=
  ∃ (f : Spec.OkFields) (cols : List (Spec.ColDef × ColumnType × Option Bytes)) (theEnd : Bytes),
    f.InRange ∧ (∀ col ∈ cols, Spec.Listed col) ∧ Spec.IsCommandEnd caps theEnd ∧
      msgs = Spec.okPacket caps 0 f :: Spec.fieldListResponse (cols.map fun col => (col.1, col.2.2)) theEnd ∧
      defs = cols.map fun col => clientDef col.1 col.2.1 (col.2.2.getD [])

/-- the server answers so for each of the tables, one after the other -/
def Spec.ListsTables (caps : Nat) (cat : Catalogue) : List (Bytes × Bytes) → List (List UInt8) → Prop
  | [], msgs => msgs = []
  | (db, tbl) :: qs, msgs => ∃ m1 m2, msgs = m1 ++ m2 ∧ Spec.ListsColumns caps (cat db tbl) m1 ∧
      Spec.ListsTables caps cat qs m2

/-- the question for the columns of a table -/
def Spec.asksColumns (q : Bytes × Bytes) : List Spec.Said :=
  [.command (.initDb q.1), .command (.fieldList q.2 (Spec.ascii "%"))]

/-- the tables whose columns have to be asked for: those wanted, at their first announcement in a log file -/
def Spec.question (wanted : Spec.Table → Bool) (known : Nat → Option Spec.Table) : LogItem → List (Bytes × Bytes)
  | .tableMap id t => if (known id).isNone && wanted t then [(t.schema, t.table)] else []
  | _ => []

def Spec.questions (wanted : Spec.Table → Bool) (known : Nat → Option Spec.Table) : List LogItem → List (Bytes × Bytes)
  | [] => []
  | item :: items => Spec.question wanted known item ++ Spec.questions wanted (item.announce known) items

/-- the lines the rows of an inserted, deleted or updated table stand for -/
def Spec.RowLines (wanted : Spec.Table → Bool) (known : Nat → Option Spec.Table) (id : Nat)
    (lines : Spec.Table → List DmlLine → Prop) (ls : List DmlLine) : Prop :=
  match known id with
  | none => ls = []
  | some t => if wanted t then lines t ls else ls = []

/-- What is to be printed for an event: for rows of a wanted table one statement per row, with the row's own values and
the names of the table and of its columns; nothing else. An update of a table without a key gives a note instead. -/
def Spec.Prints (ft : FloatText) (wanted : Spec.Table → Bool) (cat : Catalogue) (known : Nat → Option Spec.Table)
    (nextPos : Nat) : LogItem → List DmlLine → Prop
  | .insert id ks present rows, ls => Spec.RowLines wanted known id (fun t ls => ∃ decoded stmts,
      List.Forall₂ (fun r vs => RowDenotes ks r.cells vs) rows decoded ∧
      InsertsOwnValues ft t.schema t.table (cat t.schema t.table) present decoded stmts ∧ ls = stmts.map .stmt) ls
  | .delete id ks present rows, ls => Spec.RowLines wanted known id (fun t ls => ∃ decoded stmts,
      List.Forall₂ (fun r vs => RowDenotes ks r.cells vs) rows decoded ∧
      DeletesByOwnKey ft t.schema t.table (cat t.schema t.table) present decoded stmts ∧ ls = stmts.map .stmt) ls
  | .update id ks before after rows, ls => Spec.RowLines wanted known id (fun t ls =>
      if ∃ d ∈ cat t.schema t.table, d.flags.testBit 1 = true ∧ d.flags.testBit 2 = true then ∃ decoded stmts,
        List.Forall₂ (fun r vs => RowDenotes ks r.1.cells vs.1 ∧ RowDenotes ks r.2.cells vs.2) rows decoded ∧
        UpdatesOwnValues ft t.schema t.table (cat t.schema t.table) before after decoded stmts ∧ ls = stmts.map .stmt
      else ls = [.note t.schema t.table nextPos]) ls
  | _, ls => ls = []

/-- what is to be printed for a log, event after event -/
def Spec.PrintsAll (ft : FloatText) (wanted : Spec.Table → Bool) (cat : Catalogue) :
    (Nat → Option Spec.Table) → List (Spec.LogEvent × LogItem) → List DmlLine → Prop
  | _, [], out => out = []
  | known, (e, item) :: more, out => ∃ ls rest, out = ls ++ rest ∧ Spec.Prints ft wanted cat known e.nextPos item ls ∧
      Spec.PrintsAll ft wanted cat (item.announce known) more rest

/-- a table this library can read (see C34), whose name can be sent in a command -/
def TableReadable (t : Spec.Table) : Prop :=
  (t.schema.length < 256 ∧ validUtf8 t.schema) ∧ (t.table.length < 256 ∧ validUtf8 t.table ∧ (0 : UInt8) ∉ t.table) ∧
    t.columns.length + 7 < 2 ^ 32 ∧ t.nullable.length = (t.columns.length + 7) / 8 ∧ (∀ k ∈ t.columns, k.Ok) ∧
    ∃ ms : List ColumnMeta, t.columns.map metaOf = ms.map some

/-- an image of a row this library can read (see C35) -/
def ImageReadable (ks : List ColKind) (present : List Bool) (r : Image) : Prop := r.Ok ks present ∧ WidthCells ks r.cells

/-- the values of the image that are needed have a text in SQL -/
def ImageWritable (ft : FloatText) (ks : List ColKind) (defs : List ColumnDefinition) (present : List Bool)
    (needed : ColumnDefinition → Bool) (r : Image) : Prop :=
  ∀ vs, RowDenotes ks r.cells vs → ∀ x ∈ logged present defs vs, needed x.1 = true → ∃ l, TextOf ft x l

/-- the logged columns are those of the table and of the catalogue, and come first -/
def ColumnsOk (ks : List ColKind) (defs : List ColumnDefinition) (present : List Bool) : Prop :=
  present.length = ks.length ∧ defs.length = ks.length ∧ Front present ∧ true ∈ present

/-- the rows of wanted tables can be read and written -/
def ItemOk (ft : FloatText) (wanted : Spec.Table → Bool) (cat : Catalogue) (known : Nat → Option Spec.Table) :
    LogItem → Prop
  | .tableMap id t => TableReadable t ∧ (known id = none ∨ known id = some t)
  | .insert id ks present rows => ∀ t, known id = some t → wanted t = true → ks = t.columns ∧
      ColumnsOk ks (cat t.schema t.table) present ∧
      ∀ r ∈ rows, ImageReadable ks present r ∧ ImageWritable ft ks (cat t.schema t.table) present (fun _ => true) r
  | .delete id ks present rows => ∀ t, known id = some t → wanted t = true → ks = t.columns ∧
      ColumnsOk ks (cat t.schema t.table) present ∧
      ∀ r ∈ rows, ImageReadable ks present r ∧ ImageWritable ft ks (cat t.schema t.table) present IsKey r
  | .update id ks before after rows => ∀ t, known id = some t → wanted t = true → ks = t.columns ∧
      ColumnsOk ks (cat t.schema t.table) before ∧ ColumnsOk ks (cat t.schema t.table) after ∧
      ∀ r ∈ rows, (ImageReadable ks before r.1 ∧ ImageWritable ft ks (cat t.schema t.table) before IsKey r.1) ∧
        ImageReadable ks after r.2 ∧ ImageWritable ft ks (cat t.schema t.table) after (fun _ => true) r.2
  | _ => True

/-- every event of the log can be printed; table ids keep their meaning within a log file -/
def LogOk (ft : FloatText) (wanted : Spec.Table → Bool) (cat : Catalogue) : (Nat → Option Spec.Table) → List LogItem → Prop
  | _, [] => True
  | known, item :: items => ItemOk ft wanted cat known item ∧ LogOk ft wanted cat (item.announce known) items

/-- the tables that pass both filters -/
def DmlOpts.wanted (o : DmlOpts) (t : Spec.Table) : Bool :=
  (match o.databaseFilter with | none => true | some re => re t.schema)
    && (match o.tableFilter with | none => true | some re => re t.table)

/-- the tables kept by the program are the announced ones -/
def Keeps (wanted : Spec.Table → Bool) (cat : Catalogue) (known : Nat → Option Spec.Table) (st : DmlState) : Prop :=
  ∀ id, match known id with
    | none => st.tbls.lookup id = none ∧ id ∉ st.skip
    | some t =>
      if wanted t then id ∉ st.skip ∧ ∃ ms : List ColumnMeta, t.columns.map metaOf = ms.map some ∧ (∀ k ∈ t.columns, k.Ok) ∧
          t.columns.length + 7 < 2 ^ 32 ∧
          st.tbls.lookup id = some ⟨t.schema, t.table, ms, cat t.schema t.table⟩
      else id ∈ st.skip ∧ st.tbls.lookup id = none

theorem fetchColumns_exchanges (caps : Nat) (db tbl : Bytes) (hdb : db.length < 256)
    (htbl : tbl.length < 256 ∧ (0 : UInt8) ∉ tbl) (defs : List ColumnDefinition) (msgs : List Bytes)
    (h : Spec.ListsColumns caps defs msgs) :
    Exchanges caps (fetchColumns db tbl) msgs defs (Spec.asksColumns (db, tbl)) := by
  obtain ⟨f, cols, theEnd, h1, h2, h3, rfl, rfl⟩ := h
  have e1 : Exchanges caps (Cmd.initDb db) [Spec.okPacket caps 0 f] () [.command (.initDb db)] := by
    intro c rest hc hd
    subst hc
    obtain ⟨c', a1, a2, a3, a4⟩ := (C61_init_db db (by omega) rest c).1 f h1 hd
    exact ⟨c', a1, a2, a3, a4.heard⟩
  have e2 : Exchanges caps (Cmd.fieldList tbl (Cmd.str "%"))
      (Spec.fieldListResponse (cols.map fun col => (col.1, col.2.2)) theEnd)
      (cols.map fun col => clientDef col.1 col.2.1 (col.2.2.getD []))
      [.command (.fieldList tbl (Spec.ascii "%"))] := by
    intro c rest hc hd
    subst hc
    obtain ⟨c', a1, a2, a3, a4⟩ := C64_field_list_partial tbl (Cmd.str "%") htbl.2
      (by rw [show (Cmd.str "%").length = 1 from rfl]; omega) cols h2 theEnd rest c h3 hd
    exact ⟨c', a1, a2, a3, a4.heard⟩
  unfold fetchColumns
  exact Exchanges.congr (e1.bind e2) rfl rfl

theorem ListsTables.append {caps : Nat} {cat : Catalogue} {a b : List (Bytes × Bytes)} {msgs : List Bytes}
    (h : Spec.ListsTables caps cat (a ++ b) msgs) :
    ∃ m1 m2, msgs = m1 ++ m2 ∧ Spec.ListsTables caps cat a m1 ∧ Spec.ListsTables caps cat b m2 := by
  induction a generalizing msgs with
  | nil => exact ⟨[], msgs, rfl, rfl, h⟩
  | cons q a ih =>
    obtain ⟨m1, m2, rfl, h1, h2⟩ := h
    obtain ⟨m3, m4, rfl, h3, h4⟩ := ih h2
    exact ⟨m1 ++ m3, m4, by simp, ⟨m1, m3, rfl, h1, h3⟩, h4⟩

theorem onRows_flow {wanted : Spec.Table → Bool} {cat : Catalogue} {known : Nat → Option Spec.Table} {st : DmlState}
    (hk : Keeps wanted cat known st) (lines : TableMeta → RowsDataV2 → R (List DmlLine)) (data : Bytes) (d : RowsDataV2)
    (r : Bytes) (hd : RowsDataV2.readFrom data = .ok d r) (Q : Spec.Table → List DmlLine → Prop)
    (hl : ∀ t, known d.tableId = some t → wanted t = true → ∀ ms : List ColumnMeta, t.columns.map metaOf = ms.map some →
      (∀ k ∈ t.columns, k.Ok) → t.columns.length + 7 < 2 ^ 32 →
      ∃ ls, lines ⟨t.schema, t.table, ms, cat t.schema t.table⟩ d = .ok ls [] ∧ Q t ls) :
    ∃ ls n, onRows 0 lines st data = (ls, .go { st with nRows := n }) ∧ Spec.RowLines wanted known d.tableId Q ls := by
  have h := hk d.tableId
  unfold onRows Spec.RowLines
  rw [hd]
  dsimp only
  cases hkn : known d.tableId with
  | none =>
    rw [hkn] at h
    dsimp only at h ⊢
    rw [if_neg h.2, h.1]
    exact ⟨[], st.nRows, rfl, rfl⟩
  | some t =>
    rw [hkn] at h
    dsimp only at h ⊢
    by_cases hw : wanted t = true
    · rw [if_pos hw] at h
      obtain ⟨h1, ms, h2, h3, h4, h5⟩ := h
      obtain ⟨ls, g1, g2⟩ := hl t hkn hw ms h2 h3 h4
      rw [if_neg h1, h5]
      dsimp only
      rw [g1]
      dsimp only
      rw [printLines_unlimited]
      exact ⟨ls, _, rfl, by rw [if_pos hw]; exact g2⟩
    · rw [if_neg hw] at h
      rw [if_pos h.1]
      exact ⟨[], st.nRows, rfl, by rw [if_neg hw]⟩

theorem RowDenotes.length : ∀ {ks : List ColKind} {cells : List Cell} {vs : List BinlogColumnValue},
    RowDenotes ks cells vs → vs.length = ks.length
  | [], [], [], _ => rfl
  | _ :: ks, _ :: cells, _ :: vs, h => by
    have := RowDenotes.length (ks := ks) (cells := cells) (vs := vs) h.2
    simp [this]

theorem forall₂_mem_right {α β : Type} {Q : α → β → Prop} {l : List α} {r : List β} (h : List.Forall₂ Q l r) :
    ∀ b ∈ r, ∃ a ∈ l, Q a b := by
  induction h with
  | nil => simp
  | cons h _ ih =>
    intro b hb
    rcases List.mem_cons.1 hb with rfl | hb
    · exact ⟨_, List.mem_cons_self, h⟩
    · obtain ⟨a, h1, h2⟩ := ih b hb
      exact ⟨a, List.mem_cons_of_mem _ h1, h2⟩

theorem keyExists_iff (defs : List ColumnDefinition) :
    keyExists defs = true ↔ ∃ d ∈ defs, d.flags.testBit 1 = true ∧ d.flags.testBit 2 = true := by
  unfold keyExists
  rw [List.any_eq_true]
  have h : ∀ d : ColumnDefinition, hasFlag d.flags 0x02 = d.flags.testBit 1 ∧ hasFlag d.flags 0x04 = d.flags.testBit 2 :=
    fun d => ⟨hasFlag_eq_testBit d.flags 1, hasFlag_eq_testBit d.flags 2⟩
  simp only [Bool.and_eq_true, (h _).1, (h _).2]

theorem insert_lines (ft : FloatText) (t : Spec.Table) (ms : List ColumnMeta) (defs : List ColumnDefinition) (id flags : Nat)
    (extra bm : Bytes) (present : List Bool) (rows : List Image) (hm : t.columns.map metaOf = ms.map some)
    (hk : ∀ k ∈ t.columns, k.Ok) (hn : t.columns.length + 7 < 2 ^ 32) (he : extra.length + 2 < 2 ^ 16)
    (hc : Covers bm present) (ok : ColumnsOk t.columns defs present)
    (hr : ∀ r ∈ rows, ImageReadable t.columns present r ∧ ImageWritable ft t.columns defs present (fun _ => true) r) :
    ∃ ls, rowLines ft PreparedSql.fromInsert ⟨t.schema, t.table, ms, defs⟩
        ⟨id, flags, extra.length + 2, Spec.rowsPayload t.columns extra bm rows⟩ = .ok ls [] ∧
      ∃ decoded stmts, List.Forall₂ (fun r vs => RowDenotes t.columns r.cells vs) rows decoded ∧
        InsertsOwnValues ft t.schema t.table defs present decoded stmts ∧ ls = stmts.map .stmt := by
  obtain ⟨o1, o2, o3, o4⟩ := ok
  obtain ⟨decoded, h1, h2⟩ := C35_rows_partial t.columns ms extra bm present rows hk hm hn he hc o1 o4
    (fun r h => (hr r h).1)
  have hlen : ∀ row ∈ decoded, row.length = defs.length := by
    intro row hrow
    obtain ⟨r, -, h⟩ := forall₂_mem_right h2 row hrow
    rw [h.length, o2]
  obtain ⟨p, stmts, h3, h4⟩ := C40_insert_total ft t.schema t.table extra bm t.columns.length present defs decoded hc
    (o1.trans o2.symm) o3 hlen (by
      intro row hrow x hx
      obtain ⟨r, hr', h⟩ := forall₂_mem_right h2 row hrow
      exact (hr r hr').2 row h x hx rfl)
  refine ⟨stmts.map .stmt, ?_, decoded, stmts, h2,
    C40_insert_partial ft _ _ extra bm _ present defs decoded p stmts hc (o1.trans o2.symm) o3 hlen h3 h4, rfl⟩
  unfold rowLines
  dsimp only
  rw [h1]
  dsimp only
  rw [h3]
  unfold sqlLines
  dsimp only
  rw [h4]

theorem delete_lines (ft : FloatText) (t : Spec.Table) (ms : List ColumnMeta) (defs : List ColumnDefinition) (id flags : Nat)
    (extra bm : Bytes) (present : List Bool) (rows : List Image) (hm : t.columns.map metaOf = ms.map some)
    (hk : ∀ k ∈ t.columns, k.Ok) (hn : t.columns.length + 7 < 2 ^ 32) (he : extra.length + 2 < 2 ^ 16)
    (hc : Covers bm present) (ok : ColumnsOk t.columns defs present)
    (hr : ∀ r ∈ rows, ImageReadable t.columns present r ∧ ImageWritable ft t.columns defs present IsKey r) :
    ∃ ls, rowLines ft PreparedSql.fromDelete ⟨t.schema, t.table, ms, defs⟩
        ⟨id, flags, extra.length + 2, Spec.rowsPayload t.columns extra bm rows⟩ = .ok ls [] ∧
      ∃ decoded stmts, List.Forall₂ (fun r vs => RowDenotes t.columns r.cells vs) rows decoded ∧
        DeletesByOwnKey ft t.schema t.table defs present decoded stmts ∧ ls = stmts.map .stmt := by
  obtain ⟨o1, o2, o3, o4⟩ := ok
  obtain ⟨decoded, h1, h2⟩ := C35_rows_partial t.columns ms extra bm present rows hk hm hn he hc o1 o4
    (fun r h => (hr r h).1)
  have hlen : ∀ row ∈ decoded, row.length = defs.length := by
    intro row hrow
    obtain ⟨r, -, h⟩ := forall₂_mem_right h2 row hrow
    rw [h.length, o2]
  obtain ⟨p, stmts, h3, h4⟩ := C40_delete_total ft t.schema t.table extra bm t.columns.length present defs decoded hc
    (o1.trans o2.symm) o3 hlen (by
      intro row hrow x hx
      obtain ⟨r, hr', h⟩ := forall₂_mem_right h2 row hrow
      exact (hr r hr').2 row h x hx)
  refine ⟨stmts.map .stmt, ?_, decoded, stmts, h2,
    C40_delete_partial ft _ _ extra bm _ present defs decoded p stmts hc (o1.trans o2.symm) o3 hlen h3 h4, rfl⟩
  unfold rowLines
  dsimp only
  rw [h1]
  dsimp only
  rw [h3]
  unfold sqlLines
  dsimp only
  rw [h4]

theorem update_lines (ft : FloatText) (nextPos : Nat) (t : Spec.Table) (ms : List ColumnMeta)
    (defs : List ColumnDefinition) (id flags : Nat) (extra bb ab : Bytes) (before after : List Bool)
    (rows : List (Image × Image)) (hm : t.columns.map metaOf = ms.map some)
    (hk : ∀ k ∈ t.columns, k.Ok) (hn : t.columns.length + 7 < 2 ^ 32) (he : extra.length + 2 < 2 ^ 16)
    (hb : Covers bb before) (ha : Covers ab after) (okb : ColumnsOk t.columns defs before)
    (oka : ColumnsOk t.columns defs after)
    (hr : ∀ r ∈ rows, (ImageReadable t.columns before r.1 ∧ ImageWritable ft t.columns defs before IsKey r.1) ∧
      ImageReadable t.columns after r.2 ∧ ImageWritable ft t.columns defs after (fun _ => true) r.2) :
    ∃ ls, updateLines ft nextPos ⟨t.schema, t.table, ms, defs⟩
        ⟨id, flags, extra.length + 2, Spec.updatePayload t.columns extra bb ab rows⟩ = .ok ls [] ∧
      if ∃ d ∈ defs, d.flags.testBit 1 = true ∧ d.flags.testBit 2 = true then ∃ decoded stmts,
        List.Forall₂ (fun r vs => RowDenotes t.columns r.1.cells vs.1 ∧ RowDenotes t.columns r.2.cells vs.2) rows decoded ∧
        UpdatesOwnValues ft t.schema t.table defs before after decoded stmts ∧ ls = stmts.map .stmt
      else ls = [.note t.schema t.table nextPos] := by
  obtain ⟨o1, o2, o3, o4⟩ := okb
  obtain ⟨q1, q2, q3, q4⟩ := oka
  obtain ⟨decoded, h1, h2⟩ := C35_update_rows_partial t.columns ms extra bb ab before after rows hk hm hn he hb o1 ha q1
    (Or.inl o4) (fun r h => ⟨(hr r h).1.1.1, (hr r h).1.1.2, (hr r h).2.1.1, (hr r h).2.1.2⟩)
  have hlen : ∀ row ∈ decoded, row.1.length = defs.length ∧ row.2.length = defs.length := by
    intro row hrow
    obtain ⟨r, -, h, h'⟩ := forall₂_mem_right h2 row hrow
    rw [h.length, h'.length, o2]
    exact ⟨rfl, rfl⟩
  obtain ⟨p, stmts, h3, h4⟩ := C40_update_total ft t.schema t.table extra bb ab t.columns.length before after defs decoded
    hb (o1.trans o2.symm) o3 ha (q1.trans q2.symm) q3 hlen (by
      intro row hrow
      obtain ⟨r, hr', h, h'⟩ := forall₂_mem_right h2 row hrow
      exact ⟨(hr r hr').1.2 row.1 h, fun x hx => (hr r hr').2.2 row.2 h' x hx rfl⟩)
  unfold updateLines
  dsimp only
  rw [h1]
  dsimp only
  by_cases hkey : keyExists defs = true
  · rw [if_pos hkey]
    rw [h3]
    unfold sqlLines
    dsimp only
    rw [h4]
    refine ⟨_, rfl, ?_⟩
    rw [if_pos ((keyExists_iff defs).1 hkey)]
    exact ⟨decoded, stmts, h2, C40_update_partial ft _ _ extra bb ab _ before after defs decoded p stmts hb
      (o1.trans o2.symm) o3 ha (q1.trans q2.symm) q3 hlen h3 h4, rfl⟩
  · rw [if_neg hkey]
    exact ⟨_, rfl, by rw [if_neg (fun h => hkey ((keyExists_iff defs).2 h))]⟩

/-- what one event does to the helper connection -/
def HelperMoves (caps : Nat) (a b : Conn) (rest : Bytes) (said : List Spec.Said) : Prop :=
  b.inp = rest ∧ b.caps = caps ∧ Spec.Heard caps a.out b.out said

theorem wanted_eq (o : DmlOpts) (t : Spec.Table) :
    o.wanted t = (filterOk o.databaseFilter t.schema && filterOk o.tableFilter t.table) := rfl

theorem Keeps.change {wanted : Spec.Table → Bool} {cat : Catalogue} {known known' : Nat → Option Spec.Table}
    {st st' : DmlState} (id : Nat) (h : Keeps wanted cat known st) (hk : ∀ i, i ≠ id → known' i = known i)
    (ht : ∀ i, i ≠ id → st'.tbls.lookup i = st.tbls.lookup i ∧ (i ∈ st'.skip ↔ i ∈ st.skip))
    (hid : match known' id with
      | none => st'.tbls.lookup id = none ∧ id ∉ st'.skip
      | some t =>
        if wanted t then id ∉ st'.skip ∧ ∃ ms : List ColumnMeta, t.columns.map metaOf = ms.map some ∧
            (∀ k ∈ t.columns, k.Ok) ∧ t.columns.length + 7 < 2 ^ 32 ∧
            st'.tbls.lookup id = some ⟨t.schema, t.table, ms, cat t.schema t.table⟩
        else id ∈ st'.skip ∧ st'.tbls.lookup id = none) : Keeps wanted cat known' st' := by
  intro i
  by_cases hi : i = id
  · subst hi; exact hid
  · have := h i
    rw [hk i hi, (ht i hi).1, (ht i hi).2]
    exact this

theorem onTableMap_flow {o : DmlOpts} {cat : Catalogue} {known : Nat → Option Spec.Table} {st : DmlState}
    (hk : Keeps o.wanted cat known st) (id flags : Nat) (hid : id < 2 ^ 48) (hfl : flags < 2 ^ 16) (t : Spec.Table)
    (ok : TableReadable t) (hkn : known id = none ∨ known id = some t) (caps : Nat) (hc : st.helper.caps = caps)
    (msgs : List Bytes) (rest : Bytes)
    (hm : Spec.ListsTables caps cat (Spec.question o.wanted known (.tableMap id t)) msgs)
    (hd : Spec.Delivers st.helper.inp msgs rest) :
    ∃ st', onTableMap o st (Spec.le 6 id ++ Spec.le 2 flags ++ t.encode) = .go st' ∧
      Keeps o.wanted cat ((LogItem.tableMap id t).announce known) st' ∧ st'.nRows = st.nRows ∧
      HelperMoves caps st.helper st'.helper rest
        ((Spec.question o.wanted known (.tableMap id t)).map Spec.asksColumns).flatten := by
  obtain ⟨hs, ht, hn, hnull, hcol, ms, hms⟩ := ok
  have h := hk id
  have hann : (LogItem.tableMap id t).announce known = fun i => if i = id then some t else known i := rfl
  unfold onTableMap
  rw [List.append_assoc, C34_data id flags t.encode hid hfl]
  dsimp only
  rcases hkn with hkn | hkn
  · rw [hkn] at h
    dsimp only at h
    obtain ⟨h1, h2⟩ := h
    rw [if_neg (by rw [h1]; simpa using h2)]
    have htm := C34_table_map_partial t ms hs ⟨ht.1, ht.2.1⟩ (by omega) hnull hcol hms []
    rw [List.append_nil] at htm
    rw [htm]
    dsimp only
    have hskip : o.wanted t = false →
        Keeps o.wanted cat ((LogItem.tableMap id t).announce known) { st with skip := id :: st.skip } ∧
        HelperMoves caps st.helper st.helper rest
          ((Spec.question o.wanted known (.tableMap id t)).map Spec.asksColumns).flatten := by
      intro hw
      have hq : Spec.question o.wanted known (.tableMap id t) = [] := by simp [Spec.question, hw]
      rw [hq] at hm ⊢
      have : msgs = [] := hm
      subst this
      refine ⟨?_, Delivers.nil hd, hc, Heard.nil _ _⟩
      refine Keeps.change id hk (fun i hi => ?_) (fun i hi => ⟨rfl, by simp [hi]⟩) ?_
      · rw [hann]; dsimp only; rw [if_neg hi]
      · rw [hann]; dsimp only; rw [if_pos rfl]; dsimp only; rw [if_neg (by simp [hw])]; exact ⟨by simp, h1⟩
    by_cases f1 : filterOk o.databaseFilter t.schema = true
    · by_cases f2 : filterOk o.tableFilter t.table = true
      · have hw : o.wanted t = true := by rw [wanted_eq, f1, f2]; rfl
        rw [if_neg (not_not.2 f1), if_neg (not_not.2 f2)]
        have hq : Spec.question o.wanted known (.tableMap id t) = [(t.schema, t.table)] := by
          simp [Spec.question, hw, hkn]
        rw [hq] at hm ⊢
        obtain ⟨m1, m2, rfl, g1, g2⟩ := hm
        have : m2 = [] := g2
        subst this
        rw [List.append_nil] at hd
        obtain ⟨c', a1, a2, a3, a4⟩ := fetchColumns_exchanges caps t.schema t.table hs.1 ⟨ht.1, ht.2.2⟩ _ _ g1 st.helper
          rest hc hd
        rw [a1]
        dsimp only
        refine ⟨_, rfl, ?_, rfl, a2, a3, by simpa using a4⟩
        refine Keeps.change id hk (fun i hi => ?_) (fun i hi => ⟨?_, Iff.rfl⟩) ?_
        · rw [hann]; dsimp only; rw [if_neg hi]
        · dsimp only
          rw [List.lookup_cons, show (i == id) = false from by simpa using hi]
        · rw [hann]
          dsimp only
          rw [if_pos rfl]
          dsimp only
          rw [if_pos hw]
          exact ⟨h2, ms, hms, hcol, hn, by rw [List.lookup_cons, beq_self_eq_true]⟩
      · rw [if_neg (not_not.2 f1), if_pos f2]
        obtain ⟨g1, g2⟩ := hskip (by rw [wanted_eq]; simp [f2])
        exact ⟨_, rfl, g1, rfl, g2⟩
    · rw [if_pos f1]
      obtain ⟨g1, g2⟩ := hskip (by rw [wanted_eq]; simp [f1])
      exact ⟨_, rfl, g1, rfl, g2⟩
  · rw [hkn] at h
    dsimp only at h
    have hq : Spec.question o.wanted known (.tableMap id t) = [] := by simp [Spec.question, hkn]
    have ha : (LogItem.tableMap id t).announce known = known := by
      rw [hann]; funext i
      by_cases hi : i = id
      · subst hi; rw [if_pos rfl, hkn]
      · rw [if_neg hi]
    rw [hq] at hm ⊢
    have : msgs = [] := hm
    subst this
    rw [ha, if_pos ?_]
    · exact ⟨st, rfl, hk, rfl, Delivers.nil hd, hc, Heard.nil _ _⟩
    · by_cases hw : o.wanted t = true
      · rw [if_pos hw] at h
        obtain ⟨-, ms', -, -, -, h5⟩ := h
        exact Or.inl (by rw [h5]; rfl)
      · rw [if_neg hw] at h
        exact Or.inr h.1

theorem kind_of_code {k : LogEventType} {n : Nat} (h : k.toByte = n) (k' : LogEventType) (h' : k'.toByte = n) : k = k' := by
  subst h
  revert h'
  cases k <;> cases k' <;> decide

theorem onEvent_flow {ft : FloatText} {o : DmlOpts} {cat : Catalogue} {known : Nat → Option Spec.Table} {st : DmlState}
    (h0 : o.limit = 0) (hk : Keeps o.wanted cat known st) (crc : Bool) (e : Spec.LogEvent) (item : LogItem) (ev : Event)
    (hseen : Spec.Seen crc e (some ev)) (hsays : e.Says item) (ok : ItemOk ft o.wanted cat known item)
    (hrot : item = .rotate → o.untilNow = true) (caps : Nat) (hc : st.helper.caps = caps) (msgs : List Bytes)
    (rest : Bytes) (hm : Spec.ListsTables caps cat (Spec.question o.wanted known item) msgs)
    (hd : Spec.Delivers st.helper.inp msgs rest) :
    ∃ ls st', onEvent ft o st ev = (ls, .go st') ∧ Spec.Prints ft o.wanted cat known e.nextPos item ls ∧
      Keeps o.wanted cat (item.announce known) st' ∧
      HelperMoves caps st.helper st'.helper rest ((Spec.question o.wanted known item).map Spec.asksColumns).flatten := by
  unfold Spec.Seen at hseen
  by_cases hcode : e.code ∈ Spec.supportedCodes
  swap
  · rw [if_neg hcode] at hseen; cases hseen
  rw [if_pos hcode] at hseen
  obtain ⟨k, hkc, hev⟩ := hseen
  injection hev with hev
  subst hev
  have hquiet : Spec.question o.wanted known item = [] → HelperMoves caps st.helper st.helper rest
      ((Spec.question o.wanted known item).map Spec.asksColumns).flatten := by
    intro hq
    rw [hq] at hm ⊢
    have : msgs = [] := hm
    subst this
    exact ⟨Delivers.nil hd, hc, Heard.nil _ _⟩
  unfold onEvent
  dsimp only
  cases item with
  | tableMap id t =>
    obtain ⟨s1, s2, flags, s3, s4⟩ := hsays
    have : k = .tableMap := kind_of_code (hkc.trans s1) _ rfl
    subst this
    obtain ⟨st', a1, a2, -, a4⟩ := onTableMap_flow hk id flags s2 s3 t ok.1 ok.2 caps hc msgs rest hm hd
    dsimp only
    rw [s4, a1]
    exact ⟨[], st', rfl, rfl, a2, a4⟩
  | insert id ks present rows =>
    obtain ⟨s1, s2, flags, s3, extra, bm, s4, s5, s6⟩ := hsays
    have : k = .writeRowsV2 := kind_of_code (hkc.trans s1) _ rfl
    subst this
    dsimp only
    rw [h0, s6]
    unfold Spec.rowsHead
    simp only [List.append_assoc]
    obtain ⟨ls, n, a1, a2⟩ := onRows_flow hk (rowLines ft PreparedSql.fromInsert) _ _ _
      (C35_data id flags (extra.length + 2) (Spec.rowsPayload ks extra bm rows) s2 s3 s4)
      (fun t ls => ∃ decoded stmts, List.Forall₂ (fun r vs => RowDenotes ks r.cells vs) rows decoded ∧
        InsertsOwnValues ft t.schema t.table (cat t.schema t.table) present decoded stmts ∧ ls = stmts.map .stmt)
      (by
        intro t g1 g2 ms g3 g4 g5
        obtain ⟨rfl, g6, g7⟩ := ok t g1 g2
        exact insert_lines ft t ms _ id flags extra bm present rows g3 g4 g5 s4 s5 g6 g7)
    exact ⟨ls, _, a1, a2, hk, hquiet rfl⟩
  | delete id ks present rows =>
    obtain ⟨s1, s2, flags, s3, extra, bm, s4, s5, s6⟩ := hsays
    have : k = .deleteRowsV2 := kind_of_code (hkc.trans s1) _ rfl
    subst this
    dsimp only
    rw [h0, s6]
    unfold Spec.rowsHead
    simp only [List.append_assoc]
    obtain ⟨ls, n, a1, a2⟩ := onRows_flow hk (rowLines ft PreparedSql.fromDelete) _ _ _
      (C35_data id flags (extra.length + 2) (Spec.rowsPayload ks extra bm rows) s2 s3 s4)
      (fun t ls => ∃ decoded stmts, List.Forall₂ (fun r vs => RowDenotes ks r.cells vs) rows decoded ∧
        DeletesByOwnKey ft t.schema t.table (cat t.schema t.table) present decoded stmts ∧ ls = stmts.map .stmt)
      (by
        intro t g1 g2 ms g3 g4 g5
        obtain ⟨rfl, g6, g7⟩ := ok t g1 g2
        exact delete_lines ft t ms _ id flags extra bm present rows g3 g4 g5 s4 s5 g6 g7)
    exact ⟨ls, _, a1, a2, hk, hquiet rfl⟩
  | update id ks before after rows =>
    obtain ⟨s1, s2, flags, s3, extra, bb, ab, s4, s5, s5', s6⟩ := hsays
    have : k = .updateRowsV2 := kind_of_code (hkc.trans s1) _ rfl
    subst this
    dsimp only
    rw [h0, s6]
    unfold Spec.rowsHead
    simp only [List.append_assoc]
    obtain ⟨ls, n, a1, a2⟩ := onRows_flow hk (updateLines ft e.nextPos) _ _ _
      (C35_data id flags (extra.length + 2) (Spec.updatePayload ks extra bb ab rows) s2 s3 s4)
      (fun t ls => if ∃ d ∈ cat t.schema t.table, d.flags.testBit 1 = true ∧ d.flags.testBit 2 = true then ∃ decoded stmts,
        List.Forall₂ (fun r vs => RowDenotes ks r.1.cells vs.1 ∧ RowDenotes ks r.2.cells vs.2) rows decoded ∧
        UpdatesOwnValues ft t.schema t.table (cat t.schema t.table) before after decoded stmts ∧ ls = stmts.map .stmt
      else ls = [.note t.schema t.table e.nextPos])
      (by
        intro t g1 g2 ms g3 g4 g5
        obtain ⟨rfl, g6, g6', g7⟩ := ok t g1 g2
        exact update_lines ft e.nextPos t ms _ id flags extra bb ab before after rows g3 g4 g5 s4 s5 s5' g6 g6' g7)
    exact ⟨ls, _, a1, a2, hk, hquiet rfl⟩
  | rotate =>
    have : k = .rotate := kind_of_code (hkc.trans hsays) _ rfl
    subst this
    dsimp only
    rw [if_pos (hrot rfl)]
    exact ⟨[], _, rfl, rfl, fun id => ⟨rfl, by simp⟩, hquiet rfl⟩
  | other =>
    have hne : e.code ∉ [4, 19, 20, 21, 22, 23, 24, 25, 30, 31, 32] := hsays
    rw [← hkc] at hne
    refine ⟨[], st, ?_, rfl, hk, hquiet rfl⟩
    cases k <;> first | rfl | exact absurd (by decide) hne

theorem recvMsg_consumes {c c' : Conn} {m : Bytes} (h : recvMsg c = .ok m c') : c'.inp.length < c.inp.length := by
  unfold recvMsg at h
  split at h
  · rename_i h'
    cases h
    obtain ⟨ps, g1, g2, -⟩ := recvLoop_sound _ _ _ _ _ _ h'
    have := wire_pos g1
    rw [g2]
    simp only [List.length_append]
    omega
  · cases h

theorem recvAndParse_consumes {s : BinlogStream} {c c' : Conn} {x : BinlogStreamEvent} (h : s.recvAndParse c = .ok x c') :
    c'.inp.length < c.inp.length := by
  unfold BinlogStream.recvAndParse at h
  cases hr : recvMsg c with
  | ok m c1 =>
    have hlt := recvMsg_consumes hr
    rw [hr] at h
    cases m with
    | nil => cases h
    | cons b t =>
      dsimp only at h
      split at h
      · cases h; exact hlt
      · split at h
        · cases h
        · unfold M.parse at h
          cases hp : s.pv4.parseEvent s.validateChecksum t with
          | ok a r =>
            rw [hp] at h
            cases a <;> (cases h; exact hlt)
          | err e r => rw [hp] at h; cases h
          | panic => rw [hp] at h; cases h
          | hang => rw [hp] at h; cases h
  | err e c1 => rw [hr] at h; cases h
  | panic => rw [hr] at h; cases h
  | hang => rw [hr] at h; cases h

theorem nextLoop_consumes {s : BinlogStream} {c c' : Conn} {x : Option Event × BinlogStream}
    (h : s.nextLoop c = .ok x c') : c'.inp.length < c.inp.length := by
  induction hn : c.inp.length using Nat.strong_induction_on generalizing c with
  | _ n ih =>
    rw [BinlogStream.nextLoop.eq_def] at h
    cases hr : s.recvAndParse c with
    | ok y c1 =>
      have hlt := recvAndParse_consumes hr
      rw [hr] at h
      cases y with
      | single e => cases h; omega
      | unsupported =>
        dsimp only at h
        rw [if_pos hlt] at h
        have := ih _ (by omega) h rfl
        omega
      | theEnd => cases h; omega
    | err e c1 => rw [hr] at h; cases h
    | panic => rw [hr] at h; cases h
    | hang => rw [hr] at h; cases h

/-- an event the library does not support changes nothing -/
theorem dmlLoop_skip (ft : FloatText) (o : DmlOpts) (s : BinlogStream) (st : DmlState) (c c1 : Conn)
    (hs : s.completed = false) (h : s.nextLoop c = s.nextLoop c1) (hlt : c1.inp.length < c.inp.length) :
    dmlLoop ft o s st c = dmlLoop ft o s st c1 := by
  rw [dmlLoop.eq_def]
  conv => rhs; rw [dmlLoop.eq_def]
  have e : ∀ c, s.nextEvent c = s.nextLoop c := fun c => by
    unfold BinlogStream.nextEvent; rw [if_neg (by simp [hs])]
  rw [e, e, h]
  cases hr : s.nextLoop c1 with
  | ok r c' =>
    obtain ⟨oe, s'⟩ := r
    cases oe with
    | none => rfl
    | some ev =>
      dsimp only
      have := nextLoop_consumes hr
      rcases onEvent ft o st ev with ⟨out, next⟩
      cases next with
      | go st' => dsimp only; rw [if_pos (by omega), if_pos this]
      | _ => rfl
  | _ => rfl

/-- Reading a part of the log: it prints what is to be printed, asks for what is to be asked, and then goes on with the
tables of that point of the log. -/
theorem dmlLoop_flow {ft : FloatText} {o : DmlOpts} {cat : Catalogue} (h0 : o.limit = 0) (s : BinlogStream)
    (hs : s.completed = false) (caps : Nat) :
    ∀ (log : List (Spec.LogEvent × LogItem)) (known : Nat → Option Spec.Table) (st : DmlState) (c : Conn)
      (ms : List Bytes) (rest : Bytes) (answers : List Bytes) (hrest : Bytes),
    Keeps o.wanted cat known st → (∀ x ∈ log, x.1.InRange ∧ x.1.Says x.2) →
    (∀ x ∈ log, x.2 = .rotate → o.untilNow = true) → LogOk ft o.wanted cat known (log.map (·.2)) →
    Spec.Delivers c.inp (log.map (fun x => Spec.streamMessage s.pv4.checksum x.1) ++ ms) rest →
    st.helper.caps = caps → Spec.ListsTables caps cat (Spec.questions o.wanted known (log.map (·.2))) answers →
    Spec.Delivers st.helper.inp answers hrest →
    ∃ out st' c', Spec.PrintsAll ft o.wanted cat known log out ∧
      dmlLoop ft o s st c = (out ++ (dmlLoop ft o s st' c').1, (dmlLoop ft o s st' c').2) ∧
      Spec.Delivers c'.inp ms rest ∧ Keeps o.wanted cat ((log.map (·.2)).foldl LogItem.announce known) st' ∧
      HelperMoves caps st.helper st'.helper hrest
        ((Spec.questions o.wanted known (log.map (·.2))).map Spec.asksColumns).flatten
  | [], known, st, c, ms, rest, answers, hrest, hk, _, _, _, hd, hc, hl, ha => by
    have : answers = [] := hl
    subst this
    exact ⟨[], st, c, rfl, rfl, hd, hk, Delivers.nil ha, hc, Heard.nil _ _⟩
  | (e, item) :: log, known, st, c, ms, rest, answers, hrest, hk, hin, hrot, hok, hd, hc, hl, ha => by
    obtain ⟨he, hsays⟩ := hin (e, item) List.mem_cons_self
    simp only [List.map_cons, List.cons_append] at hd hl hok ⊢
    obtain ⟨m1, m2, rfl, l1, l2⟩ := ListsTables.append hl
    obtain ⟨mid, d1, d2⟩ := Delivers.append ha
    obtain ⟨c1, o1, a1, a2, a3, a4, a5⟩ := recvAndParse_event s e he _ rest c hd
    cases o1 with
    | none =>
      have hloop : s.nextLoop c = s.nextLoop c1 := by
        rw [BinlogStream.nextLoop.eq_def, a2]
        dsimp only
        rw [if_pos a5]
      have hcode : e.code ∉ Spec.supportedCodes := by
        intro h
        unfold Spec.Seen at a1
        rw [if_pos h] at a1
        obtain ⟨k, -, h⟩ := a1
        cases h
      have hitem : item = .other := by
        cases item with
        | tableMap => exact absurd (by rw [hsays.1]; decide) hcode
        | insert => exact absurd (by rw [hsays.1]; decide) hcode
        | delete => exact absurd (by rw [hsays.1]; decide) hcode
        | update => exact absurd (by rw [hsays.1]; decide) hcode
        | rotate => exact absurd (by rw [show e.code = 4 from hsays]; decide) hcode
        | other => rfl
      subst hitem
      have : m1 = [] := l1
      subst this
      have hmid : mid = st.helper.inp := (Delivers.nil d1).symm
      rw [hmid] at d2
      obtain ⟨out, st', c', b1, b2, b3, b4, b5⟩ := dmlLoop_flow h0 s hs caps log known st c1 ms rest m2 hrest hk
        (fun x hx => hin x (List.mem_cons_of_mem _ hx)) (fun x hx => hrot x (List.mem_cons_of_mem _ hx)) hok.2 a4 hc l2 d2
      refine ⟨out, st', c', ⟨[], out, rfl, rfl, b1⟩, ?_, b3, b4, b5⟩
      rw [dmlLoop_skip ft o s st c c1 hs hloop a5, b2]
    | some ev =>
      have hloop : s.nextLoop c = .ok (some ev, s) c1 := by
        rw [BinlogStream.nextLoop.eq_def, a2]
      obtain ⟨ls, st1, b1, b2, b3, b4⟩ := onEvent_flow h0 hk s.pv4.checksum e item ev a1 hsays hok.1
        (fun h => hrot (e, item) List.mem_cons_self h) caps hc m1 mid l1 d1
      obtain ⟨g1, g2, g3⟩ := b4
      rw [← g1] at d2
      obtain ⟨out, st', c', f1, f2, f3, f4, f5, f6, f7⟩ := dmlLoop_flow h0 s hs caps log (item.announce known) st1 c1 ms rest
        m2 hrest b3 (fun x hx => hin x (List.mem_cons_of_mem _ hx)) (fun x hx => hrot x (List.mem_cons_of_mem _ hx)) hok.2
        a4 g2 l2 d2
      refine ⟨ls ++ out, st', c', ⟨ls, out, rfl, b2, f1⟩, ?_, f3, f4, f5, f6, ?_⟩
      · rw [dmlLoop.eq_def]
        unfold BinlogStream.nextEvent
        rw [if_neg (by simp [hs]), hloop]
        dsimp only
        rw [b1]
        dsimp only
        rw [if_pos a5, f2, List.append_assoc]
      · show Spec.Heard caps _ _ ((Spec.question o.wanted known item ++ _).map Spec.asksColumns).flatten
        rw [List.map_append, List.flatten_append]
        exact Heard.append g3 f7

/-! ### whole runs -/

/-- how a master answers to the request for a stream, up to the format description, after which events carry checksums
or not -/
def Spec.OpensStream (caps : Nat) (crc : Bool) (msgs : List Bytes) : Prop :=
  ∃ (masterId : Nat) (checksum gtidMode : Bytes) (i j k : Nat) (answers : List Bytes) (rot : Spec.LogEvent) (pos : Nat)
    (file : Bytes) (e : Spec.LogEvent) (f : Spec.Fde) (alg : Nat),
    checksum.length < 251 ∧ Spec.MasterAnswers caps masterId checksum gtidMode i j k answers ∧
    Spec.RotateTo rot pos file ∧ Spec.Describes e f alg ∧ crc = decide (alg = 1) ∧
    msgs = answers ++ [Spec.streamMessage (decide (checksum = Spec.ascii "CRC32")) rot, Spec.streamMessage false e]

theorem requestStream_opens (o : DmlOpts) (hf : o.filename.length < 10 ^ 9 ∧ validUtf8 o.filename = true) (uuid : Bytes)
    (hu : uuid.length = 36) (random : Nat) (hr : random < 2 ^ 32) (c : Conn) (crc : Bool) (opening more : List Bytes)
    (rest : Bytes) (h : Spec.OpensStream c.caps crc opening) (hd : Spec.Delivers c.inp (opening ++ more) rest) :
    ∃ s c', o.request.requestStream uuid random c = .ok s c' ∧ s.completed = false ∧ s.nonBlock = o.nonBlock ∧
      s.pv4.checksum = crc ∧ Spec.Delivers c'.inp more rest := by
  obtain ⟨masterId, checksum, gtidMode, i, j, k, answers, rot, pos, file, e, f, alg, h1, h2, h3, h4, rfl, rfl⟩ := h
  obtain ⟨mid, d1, d2⟩ := Delivers.append hd
  have hok : o.request.Ok := by
    refine ⟨by show 0 < _; norm_num, by show 30 * 10 ^ 9 < _; norm_num, ?_, hf.2, by show 4 < _; norm_num, ?_, ?_⟩
    · exact lt_trans hf.1 (by norm_num)
    · intro s hs; cases hs
    · show SidData.bytesLen [] < _
      norm_num [SidData.bytesLen]
  obtain ⟨c1, a1, a2, -, -⟩ := C74_request_partial o.request hok uuid hu random hr c.caps masterId checksum gtidMode h1
    (by
      have : SidData.bytesLen o.request.sids = 8 := rfl
      have h' : o.request.binlogFilename.length < 10 ^ 9 := hf.1
      rw [this]; omega)
    (fun _ => ⟨by show 4 < _; norm_num, rfl⟩) i j k answers h2 rot pos file h3 e f alg h4 c mid rfl d1
  exact ⟨_, c1, a1, rfl, rfl, rfl, a2 ▸ d2⟩

theorem keeps_nothing (wanted : Spec.Table → Bool) (cat : Catalogue) (helper : Conn) :
    Keeps wanted cat (fun _ => none) ⟨[], [], 0, helper⟩ := fun id => ⟨rfl, by simp⟩

theorem printDmls_cut (ft : FloatText) (o : DmlOpts) (uuid : Bytes) (random : Nat) (conn helper : Conn)
    (out : List DmlLine) (h : printDmls ft { o with limit := 0 } uuid random conn helper = (out, .done)) :
    printDmls ft o uuid random conn helper = (if o.limit = 0 then out else upTo o.limit out, .done) := by
  by_cases hl : o.limit = 0
  · rw [if_pos hl, ← h, show ({ o with limit := 0 } : DmlOpts) = o from by rw [← hl]]
  · rw [if_neg hl, C43_limit ft o uuid random conn helper hl, h]
    simp

/-- C43: a whole log. For every log of any length that the master sends in a stream without waiting: the program prints
the statements of the rows of the tables that pass the filters, in the order of the log, each with the table announced
for its id in the same log file and with the row's own values; nothing else; at most as many as the limit; and it ends
without an error. The log may span files only with `until_now`, else see `C43_first_file_partial`.
Missing from the full claim: logs that break `LogOk`. These are table ids that change their meaning within a log file
(`C43_remap_false`), tables with columns this library cannot read even when they are not wanted
(`C43_unwanted_false`), row events of version 1 (`C43_version1_false`), and the limits of C34, C35, C40 and C64. Updates
without statements are more than those of tables without a key (`C43_key_false`). -/
theorem C43_prints_partial (ft : FloatText) (o : DmlOpts) (hb : o.nonBlock = true)
    (hf : o.filename.length < 10 ^ 9 ∧ validUtf8 o.filename = true) (uuid : Bytes) (hu : uuid.length = 36) (random : Nat)
    (hr : random < 2 ^ 32) (conn helper : Conn) (crc : Bool) (opening : List Bytes)
    (hopen : Spec.OpensStream conn.caps crc opening) (cat : Catalogue) (log : List (Spec.LogEvent × LogItem))
    (hin : ∀ x ∈ log, x.1.InRange ∧ x.1.Says x.2) (hrot : ∀ x ∈ log, x.2 = .rotate → o.untilNow = true)
    (hok : LogOk ft o.wanted cat (fun _ => none) (log.map (·.2))) (eof rest : Bytes)
    (hd : Spec.Delivers conn.inp
      (opening ++ (log.map (fun x => Spec.streamMessage crc x.1) ++ [0xfe :: eof])) rest)
    (answers : List Bytes) (hrest : Bytes)
    (ha : Spec.ListsTables helper.caps cat (Spec.questions o.wanted (fun _ => none) (log.map (·.2))) answers)
    (hh : Spec.Delivers helper.inp answers hrest) :
    ∃ out, Spec.PrintsAll ft o.wanted cat (fun _ => none) log out ∧
      printDmls ft o uuid random conn helper = (if o.limit = 0 then out else upTo o.limit out, .done) := by
  obtain ⟨s, c1, a1, a2, a3, rfl, a5⟩ := requestStream_opens o hf uuid hu random hr conn crc opening _ rest hopen hd
  obtain ⟨out, st', c2, b1, b2, b3, -, -⟩ := dmlLoop_flow (ft := ft) (o := { o with limit := 0 }) (cat := cat) rfl s a2
    helper.caps log (fun _ => none) ⟨[], [], 0, helper⟩ c1 _ rest answers hrest (keeps_nothing _ _ _) hin hrot hok a5 rfl
    ha hh
  refine ⟨out, b1, printDmls_cut ft o uuid random conn helper out ?_⟩
  unfold printDmls
  rw [show ({ o with limit := 0 } : DmlOpts).request = o.request from rfl, a1]
  dsimp only
  obtain ⟨c3, d1, -, -, -⟩ := Delivers.recv b3
  have hend : s.nextEvent c2 = .ok (none, s) c3 := by
    unfold BinlogStream.nextEvent
    rw [if_neg (by simp [a2]), BinlogStream.nextLoop.eq_def]
    have : s.recvAndParse c2 = .ok .theEnd c3 := by
      unfold BinlogStream.recvAndParse
      rw [d1]
      dsimp only
      rw [if_pos (by simp [a3, hb])]
    rw [this]
  have hl : dmlLoop ft { o with limit := 0 } s st' c2 = ([], .done) := by
    rw [dmlLoop.eq_def, hend]
  rw [b2, hl, List.append_nil]

/-- C43: without `until_now` the program ends at the first rotation and prints the statements of the log file up to it,
whatever follows, and whether the stream waits for events or not. (Missing: as above.) -/
theorem C43_first_file_partial (ft : FloatText) (o : DmlOpts) (hnow : o.untilNow = false)
    (hf : o.filename.length < 10 ^ 9 ∧ validUtf8 o.filename = true) (uuid : Bytes) (hu : uuid.length = 36) (random : Nat)
    (hr : random < 2 ^ 32) (conn helper : Conn) (crc : Bool) (opening : List Bytes)
    (hopen : Spec.OpensStream conn.caps crc opening) (cat : Catalogue) (log : List (Spec.LogEvent × LogItem))
    (hin : ∀ x ∈ log, x.1.InRange ∧ x.1.Says x.2) (hrot : ∀ x ∈ log, x.2 ≠ .rotate)
    (hok : LogOk ft o.wanted cat (fun _ => none) (log.map (·.2))) (rot : Spec.LogEvent) (hri : rot.InRange)
    (hrs : rot.Says .rotate) (more : List Bytes) (rest : Bytes)
    (hd : Spec.Delivers conn.inp
      (opening ++ (log.map (fun x => Spec.streamMessage crc x.1) ++ Spec.streamMessage crc rot :: more)) rest)
    (answers : List Bytes) (hrest : Bytes)
    (ha : Spec.ListsTables helper.caps cat (Spec.questions o.wanted (fun _ => none) (log.map (·.2))) answers)
    (hh : Spec.Delivers helper.inp answers hrest) :
    ∃ out, Spec.PrintsAll ft o.wanted cat (fun _ => none) log out ∧
      printDmls ft o uuid random conn helper = (if o.limit = 0 then out else upTo o.limit out, .done) := by
  obtain ⟨s, c1, a1, a2, a3, rfl, a5⟩ := requestStream_opens o hf uuid hu random hr conn crc opening _ rest hopen hd
  obtain ⟨out, st', c2, b1, b2, b3, -, -⟩ := dmlLoop_flow (ft := ft) (o := { o with limit := 0 }) (cat := cat) rfl s a2
    helper.caps log (fun _ => none) ⟨[], [], 0, helper⟩ c1 _ rest answers hrest (keeps_nothing _ _ _) hin
    (fun x hx h => absurd h (hrot x hx)) hok a5 rfl ha hh
  refine ⟨out, b1, printDmls_cut ft o uuid random conn helper out ?_⟩
  unfold printDmls
  rw [show ({ o with limit := 0 } : DmlOpts).request = o.request from rfl, a1]
  dsimp only
  have hcode : rot.code = 4 := hrs
  obtain ⟨c3, oe, d1, d2, -, -⟩ := nextLoop_event s rot hri (by rw [hcode]; decide) more rest c2 b3
  unfold Spec.Seen at d1
  rw [if_pos (by rw [hcode]; decide)] at d1
  obtain ⟨k, hk, rfl⟩ := d1
  have : k = .rotate := kind_of_code (hk.trans hcode) _ rfl
  subst this
  have hl : dmlLoop ft { o with limit := 0 } s st' c2 = ([], .done) := by
    rw [dmlLoop.eq_def]
    unfold BinlogStream.nextEvent
    rw [if_neg (by simp [a2]), d2]
    dsimp only
    have : onEvent ft { o with limit := 0 } st'
        ⟨.rotate, ⟨rot.timestamp, .rotate, rot.serverId, rot.len s.pv4.checksum, rot.nextPos, rot.flags⟩, rot.payload⟩
          = ([], .stop) := by
      unfold onEvent
      dsimp only
      rw [if_neg (by simp [hnow])]
    rw [this]
  rw [b2, hl, List.append_nil]

/-- C43: table metadata does not outlive its log file: what is printed after a rotation is what would be printed for the
rest of the log alone. -/
theorem C43_rotation (ft : FloatText) (wanted : Spec.Table → Bool) (cat : Catalogue) (known : Nat → Option Spec.Table)
    (before after : List (Spec.LogEvent × LogItem)) (e : Spec.LogEvent) (out : List DmlLine) :
    Spec.PrintsAll ft wanted cat known (before ++ (e, .rotate) :: after) out ↔
      ∃ a b, out = a ++ b ∧ Spec.PrintsAll ft wanted cat known before a ∧
        Spec.PrintsAll ft wanted cat (fun _ => none) after b := by
  induction before generalizing known out with
  | nil =>
    constructor
    · rintro ⟨ls, rest, rfl, h1, h2⟩
      have : ls = [] := h1
      subst this
      exact ⟨[], rest, rfl, rfl, h2⟩
    · rintro ⟨a, b, rfl, h1, h2⟩
      have : a = [] := h1
      subst this
      exact ⟨[], b, rfl, rfl, h2⟩
  | cons x before ih =>
    constructor
    · rintro ⟨ls, rest, rfl, h1, h2⟩
      obtain ⟨a, b, rfl, h3, h4⟩ := (ih _ _).1 h2
      exact ⟨ls ++ a, b, by simp, ⟨ls, a, rfl, h1, h3⟩, h4⟩
    · rintro ⟨a, b, rfl, ⟨ls, rest, rfl, h1, h2⟩, h3⟩
      exact ⟨ls, rest ++ b, by simp, h1, (ih _ _).2 ⟨rest, b, rfl, h2, h3⟩⟩

/-! ### where the program differs from the claim -/

/-- C43 fails for row events of version 1 (MySQL 5.1 to 5.5): in every state nothing is printed for them, whatever table
they are of. -/
theorem C43_version1_false (ft : FloatText) (o : DmlOpts) (st : DmlState) (ev : Event)
    (h : ev.kind = .writeRowsV1 ∨ ev.kind = .updateRowsV1 ∨ ev.kind = .deleteRowsV1) :
    onEvent ft o st ev = ([], .go st) := by
  unfold onEvent
  rcases h with h | h | h <;> rw [h]

/-- C43 fails when an id gets another table within a log file: once a table is kept for the id, every other table map of
the id is ignored, and so the rows of the new table are printed as rows of the old one. -/
theorem C43_remap_false (o : DmlOpts) (st : DmlState) (id flags : Nat) (hid : id < 2 ^ 48) (hfl : flags < 2 ^ 16)
    (old : TableMeta) (h : st.tbls.lookup id = some old) (new : Spec.Table) :
    onTableMap o st (Spec.le 6 id ++ Spec.le 2 flags ++ new.encode) = .go st := by
  unfold onTableMap
  rw [List.append_assoc, C34_data id flags new.encode hid hfl]
  dsimp only
  rw [if_pos (Or.inl (by rw [h]; rfl))]

/-- C43 fails when a table that no filter lets through has a SET or a JSON column: its table map ends the run. -/
theorem C43_unwanted_false (ft : FloatText) (o : DmlOpts) (ho : o.databaseFilter = some (fun _ => false)) (st : DmlState)
    (h : st.tbls.lookup 7 = none ∧ 7 ∉ st.skip) (hd : EventHeader) :
    onEvent ft o st ⟨.tableMap, hd, Spec.le 6 7 ++ Spec.le 2 1 ++ Spec.Table.encode ⟨[100], [116], [.set 1], [0]⟩⟩
      = ([], .panic) ∧
    onEvent ft o st ⟨.tableMap, hd, Spec.le 6 7 ++ Spec.le 2 1 ++ Spec.Table.encode ⟨[100], [116], [.json 4], [0]⟩⟩
      = ([], .err .constraint) := by
  have key : ∀ t : Spec.Table, onTableMap o st (Spec.le 6 7 ++ Spec.le 2 1 ++ t.encode)
      = match TableMapData.tableMap t.encode with
        | .ok tm _ => .go { st with skip := 7 :: st.skip }
        | .err e _ => .err e
        | .panic => .panic
        | .hang => .hang := by
    intro t
    unfold onTableMap
    rw [List.append_assoc, C34_data 7 1 t.encode (by norm_num) (by norm_num)]
    dsimp only
    rw [if_neg (by rw [h.1]; simpa using h.2)]
    cases TableMapData.tableMap t.encode with
    | ok tm r => dsimp only; rw [if_pos (by rw [ho]; simp [filterOk])]
    | _ => rfl
  unfold onEvent
  dsimp only
  rw [key, key, C34_unsupported_false.1 (.set 1) (by simp), C34_unsupported_false.2]
  exact ⟨rfl, rfl⟩

/-- C43 fails for updates of a table whose primary key is not flagged as unique as well (a key of two columns, say): the
note is printed although there is a key and the statements could be made. -/
theorem C43_key_false (ft : FloatText) :
    IsKey (exampleCol "id" 2) = true ∧
    ∃ rows p, UpdateRowsV2.readFrom 2 [.long] ([1, 1, 1] ++ ([0] ++ Spec.le 4 7) ++ ([0] ++ Spec.le 4 8)) = .ok rows [] ∧
      PreparedSql.fromUpdate (asc "d") (asc "t") rows [exampleCol "id" 2] = some p ∧
      p.sqlList ft = some [Spec.ascii "UPDATE `d`.`t` SET `id` = 8 WHERE `id` = 7"] ∧
      updateLines ft 99 ⟨asc "d", asc "t", [.long], [exampleCol "id" 2]⟩
        ⟨1, 1, 2, [1, 1, 1] ++ ([0] ++ Spec.le 4 7) ++ ([0] ++ Spec.le 4 8)⟩ = .ok [.note (asc "d") (asc "t") 99] [] := by
  have h : UpdateRowsV2.readFrom 2 [.long] ([1, 1, 1] ++ ([0] ++ Spec.le 4 7) ++ ([0] ++ Spec.le 4 8))
      = .ok ⟨[], 1, [1], [1], [([.long 7], [.long 8])]⟩ [] := by decide +kernel
  refine ⟨by decide, _, ⟨asc "d", [asc "UPDATE `d`.`t` SET `id` = ", asc "?", asc " WHERE `id` = ", asc "?"],
    [[.newInt 8, .newInt 7]]⟩, h, by decide +kernel, rfl, ?_⟩
  unfold updateLines
  dsimp only
  rw [h]
  rfl

/-! ### an example -/

/-- a table with one BIGINT column -/
def exampleTable : Spec.Table := ⟨Spec.ascii "d", Spec.ascii "t", [.longLong], [0]⟩

/-- a row with the value `n` -/
def exampleImage (n : Nat) : Image := ⟨[.value (.num n)], [0]⟩

/-- a table map, two inserted rows, and, in the next log file, a row of the same id without a table map -/
def exampleLog : List (Spec.LogEvent × LogItem) :=
  [(⟨1, 19, 7, 100, 0, Spec.le 6 5 ++ Spec.le 2 1 ++ exampleTable.encode⟩, .tableMap 5 exampleTable),
   (⟨1, 30, 7, 200, 0, Spec.rowsHead 5 1 [] ++ Spec.rowsPayload [.longLong] [] [1] [exampleImage 3, exampleImage 4]⟩,
      .insert 5 [.longLong] [true] [exampleImage 3, exampleImage 4]),
   (⟨1, 4, 7, 300, 0, Spec.le 8 4 ++ Spec.ascii "f2"⟩, .rotate),
   (⟨1, 32, 7, 400, 0, Spec.rowsHead 5 1 [] ++ Spec.rowsPayload [.longLong] [] [1] [exampleImage 3]⟩,
      .delete 5 [.longLong] [true] [exampleImage 3])]

/-- the table in the catalogue -/
def exampleCatalogue : Catalogue := fun _ _ => [clientDef (exampleDef 8) .longLong []]

def exampleOpts (limit : Nat) : DmlOpts := ⟨Spec.ascii "f1", true, some (fun db => db == Spec.ascii "d"), none, true, limit⟩

theorem example_says : ∀ x ∈ exampleLog, x.1.InRange ∧ x.1.Says x.2 := by
  have hc : Covers [1] [true] := covers_of _ _ rfl (by decide)
  intro x hx
  simp only [exampleLog, List.mem_cons, List.not_mem_nil, or_false] at hx
  rcases hx with rfl | rfl | rfl | rfl
  · exact ⟨by unfold Spec.LogEvent.InRange; decide +kernel, rfl, by norm_num, 1, by norm_num, rfl⟩
  · exact ⟨by unfold Spec.LogEvent.InRange; decide +kernel, rfl, by norm_num, 1, by norm_num, [], [1], by norm_num, hc, rfl⟩
  · exact ⟨by unfold Spec.LogEvent.InRange; decide +kernel, rfl⟩
  · exact ⟨by unfold Spec.LogEvent.InRange; decide +kernel, rfl, by norm_num, 1, by norm_num, [], [1], by norm_num, hc, rfl⟩

theorem example_param (n : Nat) :
    StmtColumnValue.ofBinlog (.longLong n) ((clientDef (exampleDef 8) .longLong []).flags.testBit 5)
      = some (.newUnsignedBigint n) := by
  rw [show (clientDef (exampleDef 8) .longLong []).flags.testBit 5 = true by decide +kernel]
  rfl

theorem example_image (ft : FloatText) (n : Nat) (hn : n < 2 ^ 64) :
    ImageReadable [.longLong] [true] (exampleImage n) ∧
    ImageWritable ft [.longLong] (exampleCatalogue [] []) [true] (fun _ => true) (exampleImage n) := by
  refine ⟨⟨⟨⟨hn, trivial⟩, rfl, covers_of [0] [false] rfl (by decide)⟩, trivial, trivial⟩, ?_⟩
  intro vs h x hx _
  cases vs with
  | nil => exact h.elim
  | cons v vs =>
    cases vs with
    | cons _ _ => exact h.2.elim
    | nil =>
      have hv : v = .longLong n := h.1 trivial
      subst hv
      simp only [logged, exampleCatalogue, List.zip_cons_cons, List.zip_nil_right, List.filter_cons,
        if_true, List.filter_nil, List.map_cons, List.map_nil, List.mem_singleton] at hx
      subst hx
      exact ⟨_, _, _, _, example_param n, rfl, rfl⟩

theorem example_logOk (ft : FloatText) (limit : Nat) :
    LogOk ft (exampleOpts limit).wanted exampleCatalogue (fun _ => none) (exampleLog.map (·.2)) := by
  have hf : Front [true] := by
    intro i j h1 h2
    rcases j with _ | j
    · omega
    · simp at h2
  refine ⟨⟨⟨⟨by decide, by decide⟩, ⟨by decide, by decide, by decide⟩, by decide +kernel, by decide, ?_,
    [.longLong], rfl⟩, Or.inl rfl⟩, ?_, trivial, ?_, trivial⟩
  · intro k hk
    have hk : k ∈ [ColKind.longLong] := hk
    simp only [List.mem_singleton] at hk
    subst hk
    trivial
  · intro t ht _
    have ht : some exampleTable = some t := ht
    injection ht with ht
    subst ht
    refine ⟨rfl, ⟨rfl, rfl, hf, by simp⟩, ?_⟩
    intro r hr
    simp only [List.mem_cons, List.not_mem_nil, or_false] at hr
    rcases hr with rfl | rfl
    · exact example_image ft 3 (by norm_num)
    · exact example_image ft 4 (by norm_num)
  · intro t ht _
    cases ht

theorem example_lists : ∃ answers, Spec.ListsTables (2 ^ 9) exampleCatalogue
    (Spec.questions (exampleOpts 0).wanted (fun _ => none) (exampleLog.map (·.2))) answers ∧
    ∀ m ∈ answers, m.length < 0xffffff := by
  have h : Spec.Supported (exampleDef 8, .longLong) := by
    refine ⟨?_, by decide⟩
    constructor <;> first | (exact ⟨by decide, by decide⟩) | (exact (by decide))
  refine ⟨(Spec.okPacket (2 ^ 9) 0 ⟨0, 0, 2, 0, [], []⟩ ::
    Spec.fieldListResponse [(exampleDef 8, none)] (Spec.eofPacket (2 ^ 9) 0 2)) ++ [],
    ⟨_, [], rfl, ⟨⟨0, 0, 2, 0, [], []⟩, [(exampleDef 8, .longLong, none)], Spec.eofPacket (2 ^ 9) 0 2, ?_, ?_, ?_, rfl, rfl⟩,
      rfl⟩, by decide +kernel⟩
  · constructor <;> norm_num
  · intro col hcol
    simp only [List.mem_singleton] at hcol
    subst hcol
    exact ⟨h, by decide, by rintro v ⟨⟩⟩
  · unfold Spec.IsCommandEnd
    rw [if_neg (by decide)]
    exact ⟨0, 2, by norm_num, by norm_num, rfl⟩

theorem example_opens : ∃ opening, Spec.OpensStream (2 ^ 9) true opening ∧ ∀ m ∈ opening, m.length < 0xffffff := by
  let tells : Bytes → List Bytes := fun value => Spec.textAnswer (2 ^ 9) [exampleTextDef, exampleTextDef] 0 2
      [[some (Spec.ascii "x"), some value]] (Spec.eofPacket (2 ^ 9) 0 2)
  let accepts : Nat → List Bytes := fun id => Spec.prepareResponse (2 ^ 9) ⟨id, 0⟩ [exampleTextDef] [] 0 2 0 0
    ++ [Spec.okPacket (2 ^ 9) 0 ⟨0, 0, 2, 0, [], []⟩]
  let msgs : List Bytes := [tells (Spec.ascii "7"), accepts 1, tells (Spec.ascii "CRC32"), accepts 2, tells (Spec.ascii "ON"),
    tells (Spec.ascii "u"), accepts 3, [Spec.okPacket (2 ^ 9) 0 ⟨0, 0, 2, 0, [], []⟩]].flatten
  let rot : Spec.LogEvent := ⟨0, 4, 7, 0, 0, Spec.le 8 4 ++ Spec.ascii "f1"⟩
  let e : Spec.LogEvent := ⟨0, 15, 7, 0, 0, exampleFde.encode ++ Spec.u8 1 ++ Spec.le 4 5⟩
  refine ⟨_, ⟨7, Spec.ascii "CRC32", Spec.ascii "ON", 1, 2, 3, msgs, rot, 4, Spec.ascii "f1", e, exampleFde, 1, by decide +kernel,
    ?_, ?_, ?_, rfl, rfl⟩, ?_⟩
  · exact ⟨Spec.ascii "7", Spec.ascii "u", _, _, _, _, _, _, _, ⟨0, 0, 2, 0, [], []⟩, by decide +kernel, by norm_num,
      by decide +kernel, by decide +kernel, by decide +kernel, example_tells _ (by decide), example_accepts 1 (by norm_num),
      example_tells _ (by decide), example_accepts 2 (by norm_num), example_tells _ (by decide), example_tells _ (by decide),
      example_accepts 3 (by norm_num), by constructor <;> norm_num, rfl⟩
  · exact ⟨by unfold Spec.LogEvent.InRange; decide +kernel, rfl, by norm_num, rfl⟩
  · exact ⟨by unfold Spec.LogEvent.InRange; decide +kernel, exampleFde_ok.1, exampleFde_ok.2, by norm_num, 5, by norm_num, rfl⟩
  · rw [decide_eq_true rfl]
    decide +kernel

/-- A run over the example log prints the two rows and nothing for the row after the rotation; with a limit of one it
prints the first. -/
theorem example_run (ft : FloatText) : ∃ conn helper : Conn, ∀ limit, limit < 2 →
    printDmls ft (exampleOpts limit) (List.replicate 36 0x61) 5 conn helper
      = (if limit = 0 then [.stmt (Spec.ascii "INSERT INTO `d`.`t` (`a`) VALUES (3)"),
          .stmt (Spec.ascii "INSERT INTO `d`.`t` (`a`) VALUES (4)")]
        else [.stmt (Spec.ascii "INSERT INTO `d`.`t` (`a`) VALUES (3)")], .done) := by
  obtain ⟨answers, l1, l2⟩ := example_lists
  obtain ⟨opening, o1, o2⟩ := example_opens
  obtain ⟨inp, hd⟩ := delivers_small (opening ++ (exampleLog.map (fun x => Spec.streamMessage true x.1) ++ [[0xfe]])) [] (by
    intro m hm
    rcases List.mem_append.1 hm with hm | hm
    · exact o2 m hm
    · have : ∀ m ∈ exampleLog.map (fun x => Spec.streamMessage true x.1) ++ [[0xfe]], m.length < 0xffffff := by decide +kernel
      exact this m hm)
  obtain ⟨hinp, hh⟩ := delivers_small answers [] l2
  refine ⟨⟨inp, [], 0, 2 ^ 9, 0⟩, ⟨hinp, [], 0, 2 ^ 9, 0⟩, ?_⟩
  intro limit hlim
  obtain ⟨out, h1, h2⟩ := C43_prints_partial ft (exampleOpts limit) rfl
    ⟨(by decide +kernel : (Spec.ascii "f1").length < 10 ^ 9), (by decide +kernel : validUtf8 (Spec.ascii "f1") = true)⟩
    (List.replicate 36 0x61) (by simp) 5 (by norm_num) ⟨inp, [], 0, 2 ^ 9, 0⟩ ⟨hinp, [], 0, 2 ^ 9, 0⟩ true opening o1
    exampleCatalogue exampleLog example_says (fun _ _ _ => rfl) (example_logOk ft limit) [] [] hd answers [] l1 hh
  obtain ⟨ls, rest, rfl, p1, ls2, rest2, rfl, p2, ls3, rest3, rfl, p3, ls4, rest4, rfl, p4, p5⟩ := h1
  have p1 : ls = [] := p1
  have p3 : ls3 = [] := p3
  have p4 : ls4 = [] := p4
  have p5 : rest4 = [] := p5
  subst p1 p3 p4 p5
  obtain ⟨decoded, stmts, q1, q2, rfl⟩ := p2
  have hrow : ∀ n vs, RowDenotes [.longLong] (exampleImage n).cells vs → vs = [.longLong n] := by
    intro n vs h
    cases vs with
    | nil => exact h.elim
    | cons v vs =>
      cases vs with
      | cons _ _ => exact h.2.elim
      | nil => rw [show v = .longLong n from h.1 trivial]
  cases q1 with
  | cons r1 q1 =>
  cases q1 with
  | cons r2 q1 =>
  cases q1
  rw [hrow 3 _ r1, hrow 4 _ r2] at q2
  cases q2 with
  | cons s1 q2 =>
  cases q2 with
  | cons s2 q2 =>
  cases q2
  obtain ⟨t1, e1, rfl⟩ := s1
  obtain ⟨t2, e2, rfl⟩ := s2
  have htext : ∀ (n : Nat) (ls : List Bytes), List.Forall₂ (TextOf ft) (logged [true] (exampleCatalogue [] []) [.longLong n]) ls →
      ls = [natText n] := by
    intro n ls h
    have h : List.Forall₂ (TextOf ft) [(clientDef (exampleDef 8) .longLong [], .longLong n)] ls := h
    cases h with
    | cons h1 h2 =>
      cases h2
      obtain ⟨p, t, q, e1, e2, rfl⟩ := h1
      injection (example_param n).symm.trans e1 with e1
      subst e1
      injection (show some (natText n, false) = some (t, q) from e2) with e2
      injection e2 with e3 e4
      subst e3 e4
      simp [Spec.quotedIf]
  have e1 := htext 3 t1 e1
  have e2 := htext 4 t2 e2
  subst e1 e2
  rw [h2]
  have : limit = 0 ∨ limit = 1 := by omega
  rcases this with rfl | rfl
  · decide +kernel
  · decide +kernel

/-- lines that are not statements do not count; the run ends with the second statement -/
example : upTo 2 [.stmt [1], .note [2] [3] 4, .stmt [5], .note [6] [7] 8, .stmt [9]]
    = [.stmt [1], .note [2] [3] 4, .stmt [5]] := by decide +kernel

/-- the state in which `C43_remap_false` and `C43_unwanted_false` speak of a table that is known and one that is not -/
example : ∃ st : DmlState, st.tbls.lookup 5 = some ⟨asc "d", asc "t", [.long], [exampleCol "id" 3]⟩ ∧
    st.tbls.lookup 7 = none ∧ 7 ∉ st.skip :=
  ⟨⟨[(5, ⟨asc "d", asc "t", [.long], [exampleCol "id" 3]⟩)], [9], 0, ⟨[], [], 0, 0, 0⟩⟩, rfl, rfl, by decide⟩

end Mybin
