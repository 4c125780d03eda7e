/-
C40, C54: what the statements and records made from row events say when not all columns are logged: the k-th logged
column gets the k-th value of the row, whatever column that is the value of. They are right for every row exactly when
the logged columns come first.
-/
import Verif.Props.C54_C55

namespace Mybin

open Spec (Covers Front logged)

/-- The pairs the code makes: the k-th logged column with the k-th value of the row. -/
def shifted {α β : Type} (present : List Bool) (cols : List α) (row : List β) : List (α × β) :=
  (((present.zip cols).filter (·.1)).map (·.2)).zip row

theorem shifted_front {α β : Type} (present : List Bool) (cols : List α) (row : List β) (h : Front present)
    (hl : present.length = cols.length) (hr : row.length = cols.length) :
    shifted present cols row = logged present cols row := zip_front present cols row h hl hr

theorem zip_shifted (use : ColDef → Bool) (bm : Bytes) (present : List Bool) (defs : List ColumnDefinition)
    (row : List BinlogColumnValue) (h : Covers bm present) (hl : present.length = defs.length) :
    ((filterColDefs bm defs).zip row).filter (fun x => use x.1)
      = ((shifted present defs row).filter fun x => use (ColDef.of x.1)).map fun x => (ColDef.of x.1, x.2) := by
  rw [filterColDefs_eq bm present defs h hl, shifted]
  rw [show (fun x : Bool × ColumnDefinition => ColDef.of x.2) = ColDef.of ∘ (·.2) from rfl, ← List.map_map,
    List.zip_map_left, List.filter_map]
  rfl

theorem rowParams_shifted (use : ColDef → Bool) (bm : Bytes) (present : List Bool) (defs : List ColumnDefinition)
    (row : List BinlogColumnValue) (h : Covers bm present) (hl : present.length = defs.length) :
    rowParams use (filterColDefs bm defs) row
      = allSome (((shifted present defs row).filter fun x => use (ColDef.of x.1)).map fun x =>
          StmtColumnValue.ofBinlog x.2 (x.1.flags.testBit 5)) := by
  unfold rowParams
  rw [zip_shifted use bm present defs row h hl, List.map_map]
  congr 1
  apply List.map_congr_left
  intro x _
  simp [colDef_unsigned]

theorem zip_filter_fst {α β : Type} (use : α → Bool) (cs : List α) : ∀ row : List β, cs.length ≤ row.length →
    ((cs.zip row).filter fun x => use x.1).map (·.1) = cs.filter use := by
  induction cs with
  | nil => intro row _; rfl
  | cons c cs ih =>
    intro row h
    cases row with
    | nil => simp at h
    | cons v row =>
      have := ih row (by simpa using h)
      cases hu : use c <;> simp [hu, this]

theorem shifted_names (use : ColDef → Bool) (bm : Bytes) (present : List Bool)
    (defs : List ColumnDefinition) (row : List BinlogColumnValue) (h : Covers bm present)
    (hl : present.length = defs.length) (hr : row.length = defs.length) :
    ((filterColDefs bm defs).filter use).map (·.name)
      = ((shifted present defs row).filter fun x => use (ColDef.of x.1)).map (·.1.name) := by
  have hlen := filterColDefs_length bm defs
  have e := zip_shifted use bm present defs row h hl
  rw [← zip_filter_fst use (filterColDefs bm defs) row (by omega), e, List.map_map, List.map_map]
  rfl

/-! ### C40 -/

/-- C40, exactly, for INSERT: one statement per row, naming the logged columns; the k-th of them has the text of the
k-th value of the row. -/
theorem C40_insert_exact (ft : FloatText) (db tbl extra bm : Bytes) (n : Nat) (present : List Bool)
    (defs : List ColumnDefinition) (rows : List (List BinlogColumnValue)) (p : PreparedSql) (stmts : List Bytes)
    (hc : Covers bm present) (hl : present.length = defs.length)
    (hr : ∀ row ∈ rows, row.length = defs.length)
    (hp : PreparedSql.fromInsert db tbl ⟨extra, n, bm, rows⟩ defs = some p) (hs : p.sqlList ft = some stmts) :
    List.Forall₂ (fun row stmt => ∃ ls, List.Forall₂ (TextOf ft) (shifted present defs row) ls ∧
      stmt = Spec.insertText db tbl (named (shifted present defs row) ls)) rows stmts := by
  simp only [PreparedSql.fromInsert, Option.map_eq_some_iff] at hp
  obtain ⟨params, hp, rfl⟩ := hp
  refine forall₂_map_both rows params stmts hp hs ?_
  intro row hrow ps stmt h1 h2
  have hlen := hr row hrow
  have e := shifted_names (fun _ => true) bm present defs row hc hl hlen
  rw [List.filter_eq_self.2 (fun _ _ => rfl), List.filter_eq_self.2 (fun _ _ => rfl)] at e
  rw [rowParams_shifted _ bm present defs row hc hl, List.filter_eq_self.2 (fun _ _ => rfl)] at h1
  have hlen2 : ps.length = (filterColDefs bm defs).length := by
    rw [allSome_length h1, List.length_map, ← List.length_map (f := fun x : ColumnDefinition × _ => x.1.name), ← e,
      List.length_map]
  obtain ⟨ls, h3, h4⟩ := fill_panics ft _ ps stmt (by rw [marks_insertFragments, hlen2]) h2
  refine ⟨ls, textOf_of_params ft _ ps ls h1 h3, ?_⟩
  rw [h4, render_insertFragments _ _ _ _ (by rw [allSome_length h3, List.length_map, hlen2]), e]
  rfl

/-- C40, exactly, for DELETE: the condition names the logged key columns, with the values the code pairs them with -/
theorem C40_delete_exact (ft : FloatText) (db tbl extra bm : Bytes) (n : Nat) (present : List Bool)
    (defs : List ColumnDefinition) (rows : List (List BinlogColumnValue)) (p : PreparedSql) (stmts : List Bytes)
    (hc : Covers bm present) (hl : present.length = defs.length)
    (hr : ∀ row ∈ rows, row.length = defs.length)
    (hp : PreparedSql.fromDelete db tbl ⟨extra, n, bm, rows⟩ defs = some p) (hs : p.sqlList ft = some stmts) :
    List.Forall₂ (fun row stmt =>
      let keys := (shifted present defs row).filter fun x => IsKey x.1
      ∃ ls, List.Forall₂ (TextOf ft) keys ls ∧ stmt = Spec.deleteText db tbl (named keys ls)) rows stmts := by
  simp only [PreparedSql.fromDelete, deleteFragments_eq, Option.map_eq_some_iff] at hp
  obtain ⟨params, hp, rfl⟩ := hp
  refine forall₂_map_both rows params stmts hp hs ?_
  intro row hrow ps stmt h1 h2
  have hlen := hr row hrow
  have e := shifted_names (·.key) bm present defs row hc hl hlen
  rw [rowParams_shifted _ bm present defs row hc hl] at h1
  have hlen2 : ps.length = ((filterColDefs bm defs).filter (·.key)).length := by
    rw [allSome_length h1, List.length_map, ← List.length_map (f := fun x : ColumnDefinition × _ => x.1.name), ← e,
      List.length_map]
  obtain ⟨ls, h3, h4⟩ := fill_panics ft _ ps stmt
    (by rw [marks_firstAssign _ _ (delete_head_long db tbl), hlen2]) h2
  simp only [colDef_key] at e h1
  refine ⟨ls, textOf_of_params ft _ ps ls h1 h3, ?_⟩
  rw [h4, render_delete _ _ _ _ (by rw [allSome_length h3, List.length_map, hlen2]), e]
  rfl

/-- C40, exactly, for UPDATE: the columns logged after the change and the key columns logged before it, with the values
the code pairs them with -/
theorem C40_update_exact (ft : FloatText) (db tbl extra bb ab : Bytes) (n : Nat) (before after : List Bool)
    (defs : List ColumnDefinition) (rows : List (List BinlogColumnValue × List BinlogColumnValue))
    (p : PreparedSql) (stmts : List Bytes)
    (hb : Covers bb before) (hbl : before.length = defs.length)
    (ha : Covers ab after) (hal : after.length = defs.length)
    (hr : ∀ row ∈ rows, row.1.length = defs.length ∧ row.2.length = defs.length)
    (hp : PreparedSql.fromUpdate db tbl ⟨extra, n, bb, ab, rows⟩ defs = some p) (hs : p.sqlList ft = some stmts) :
    List.Forall₂ (fun row stmt =>
      let sets := shifted after defs row.2
      let keys := (shifted before defs row.1).filter fun x => IsKey x.1
      ∃ ls ks, List.Forall₂ (TextOf ft) sets ls ∧ List.Forall₂ (TextOf ft) keys ks ∧
        stmt = Spec.updateText db tbl (named sets ls) (named keys ks)) rows stmts := by
  simp only [PreparedSql.fromUpdate, updateFragments_eq, Option.map_eq_some_iff] at hp
  obtain ⟨params, hp, rfl⟩ := hp
  refine forall₂_map_both rows params stmts hp hs ?_
  intro row hrow ps stmt h1 h2
  obtain ⟨hlen1, hlen2⟩ := hr row hrow
  have e1 := shifted_names (fun _ => true) ab after defs row.2 ha hal hlen2
  rw [List.filter_eq_self.2 (fun _ _ => rfl), List.filter_eq_self.2 (fun _ _ => rfl)] at e1
  have e2 := shifted_names (·.key) bb before defs row.1 hb hbl hlen1
  unfold updateParams at h1
  rw [rowParams_shifted _ ab after defs row.2 ha hal, List.filter_eq_self.2 (fun _ _ => rfl),
    rowParams_shifted _ bb before defs row.1 hb hbl] at h1
  generalize hq1 : allSome ((shifted after defs row.2).map _) = q1 at h1
  cases q1 with
  | none => cases h1
  | some p1 =>
    simp only [Option.map_eq_some_iff] at h1
    obtain ⟨p2, hq2, rfl⟩ := h1
    have l1 : p1.length = (filterColDefs ab defs).length := by
      rw [allSome_length hq1, List.length_map, ← List.length_map (f := fun x : ColumnDefinition × _ => x.1.name),
        ← e1, List.length_map]
    have l2 : p2.length = ((filterColDefs bb defs).filter (·.key)).length := by
      rw [allSome_length hq2, List.length_map, ← List.length_map (f := fun x : ColumnDefinition × _ => x.1.name),
        ← e2, List.length_map]
    obtain ⟨ls, h3, h4⟩ := fill_panics ft _ (p1 ++ p2) stmt (by
      rw [marks_append, marks_firstAssign _ _ (update_head_long db tbl), marks_firstAssign _ _ (by decide),
        List.length_append, l1, l2]) h2
    obtain ⟨s1, s2, rfl, h5, h6⟩ := allSome_append_inv _ _ _ _ h3
    simp only [colDef_key] at e2 hq2
    refine ⟨s1, s2, textOf_of_params ft _ p1 s1 hq1 h5, textOf_of_params ft _ p2 s2 hq2 h6, ?_⟩
    rw [h4, render_update _ _ _ _ _ _ (by rw [allSome_length h5, List.length_map, l1])
      (by rw [allSome_length h6, List.length_map, l2]), e1, e2]
    rfl

/-- only the second of two columns logged: the hypotheses hold, and the pair is the wrong one -/
example : Covers [2] [false, true] ∧
    shifted [false, true] ["id", "a"] [BinlogColumnValue.null, .long 7] = [("a", BinlogColumnValue.null)] ∧
    logged [false, true] ["id", "a"] [BinlogColumnValue.null, .long 7] = [("a", BinlogColumnValue.long 7)] :=
  ⟨covers_of _ _ rfl (by decide), rfl, rfl⟩

/-! ### exactly when -/

/-- a row as an event has it: a value for every column, NULL where the column is not logged (C35) -/
def RowOf (present : List Bool) (row : List BinlogColumnValue) : Prop :=
  row.length = present.length ∧ ∀ i : Nat, present[i]? = some false → row[i]? = some BinlogColumnValue.null

theorem not_front (present : List Bool) (h : ¬ Front present) :
    ∃ pre post, present = pre ++ false :: post ∧ (∀ b ∈ pre, b = true) ∧ true ∈ post := by
  induction present with
  | nil => exact absurd (fun i j _ hj => by simp at hj) h
  | cons b present ih =>
    cases b with
    | false =>
      refine ⟨[], present, rfl, by simp, ?_⟩
      by_contra hc
      apply h
      intro i j hij hj
      cases j with
      | zero => omega
      | succ j =>
        rw [List.getElem?_cons_succ] at hj
        exact absurd (List.mem_of_getElem? hj) hc
    | true =>
      have : ¬ Front present := by
        intro hf
        apply h
        intro i j hij hj
        cases i with
        | zero => rfl
        | succ i =>
          cases j with
          | zero => omega
          | succ j => exact hf i j (by omega) hj
      obtain ⟨pre, post, e, h1, h2⟩ := ih this
      exact ⟨true :: pre, post, by rw [e]; rfl, by simpa using h1, h2⟩

/-- the row with zero in every logged column -/
def zeroRow (present : List Bool) : List BinlogColumnValue := present.map fun b => if b then .tiny 0 else .null

theorem zeroRow_ok (present : List Bool) : RowOf present (zeroRow present) := by
  refine ⟨by simp [zeroRow], fun i h => ?_⟩
  unfold zeroRow
  rw [List.getElem?_map, h]
  rfl

theorem logged_zeroRow (present : List Bool) (defs : List ColumnDefinition) :
    ∀ x ∈ logged present defs (zeroRow present), x.2 = .tiny 0 := by
  induction present generalizing defs with
  | nil => intro x hx; simp [logged] at hx
  | cons b present ih =>
    cases defs with
    | nil => intro x hx; simp [logged] at hx
    | cons d defs =>
      intro x hx
      cases b with
      | false => exact ih defs x (by simpa [logged, zeroRow] using hx)
      | true =>
        simp only [logged, zeroRow, List.map_cons, List.zip_cons_cons, List.filter_cons_of_pos, if_true,
          List.mem_cons] at hx
        rcases hx with rfl | hx
        · rfl
        · exact ih defs x hx

theorem shifted_zeroRow (present : List Bool) (defs : List ColumnDefinition) (hl : present.length = defs.length)
    (h : ¬ Front present) : ∃ x ∈ shifted present defs (zeroRow present), x.2 = .null := by
  obtain ⟨pre, post, rfl, h1, h2⟩ := not_front present h
  have hcols : pre.length < (((pre ++ false :: post).zip defs).filter (·.1)).length := by
    have hcount : ∀ (l : List Bool) (ds : List ColumnDefinition), l.length = ds.length →
        ((l.zip ds).filter (·.1)).length = l.count true := by
      intro l
      induction l with
      | nil => intro ds _; rfl
      | cons b l ih =>
        intro ds hh
        cases ds with
        | nil => simp at hh
        | cons d ds =>
          have := ih ds (by simpa using hh)
          cases b <;> simp [this]
    rw [hcount _ _ hl, List.count_append, List.count_cons]
    have e1 : pre.count true = pre.length := List.count_eq_length.2 (fun b hb => (h1 b hb).symm)
    have e2 : 0 < post.count true := List.count_pos_iff.2 h2
    omega
  have hrow : (zeroRow (pre ++ false :: post))[pre.length]? = some BinlogColumnValue.null := by
    simp [zeroRow]
  obtain ⟨c, hc⟩ : ∃ c, ((((pre ++ false :: post).zip defs).filter (·.1)).map (·.2))[pre.length]? = some c :=
    ⟨_, List.getElem?_eq_getElem (by rw [List.length_map]; exact hcols)⟩
  exact ⟨(c, .null), List.mem_of_getElem? (List.getElem?_zip_eq_some.2 ⟨hc, hrow⟩), rfl⟩

theorem textOf_null (ft : FloatText) (d : ColumnDefinition) (l : Bytes) (h : TextOf ft (d, .null) l) :
    l = Spec.ascii "null" := by
  obtain ⟨p, t, q, h1, h2, rfl⟩ := h
  injection (show some StmtColumnValue.newNull = some p from h1) with h1
  subst h1
  injection (show some (Spec.ascii "null", false) = some (t, q) from h2) with h2
  injection h2 with h3 h4
  subst h3 h4
  rfl

theorem zero_literal (ft : FloatText) (u : Bool) :
    ∃ p, StmtColumnValue.ofBinlog (.tiny 0) u = some p ∧ p.toSqlLiteral ft = some (Spec.ascii "0", false) := by
  cases u
  · exact ⟨_, rfl, by rfl⟩
  · exact ⟨_, rfl, by rfl⟩

theorem textOf_zero (ft : FloatText) (d : ColumnDefinition) (l : Bytes) (h : TextOf ft (d, .tiny 0) l) :
    l = Spec.ascii "0" := by
  obtain ⟨p, t, q, h1, h2, rfl⟩ := h
  obtain ⟨p', h3, h4⟩ := zero_literal ft (d.flags.testBit 5)
  rw [h3] at h1
  injection h1 with h1
  subst h1
  rw [h4] at h2
  injection h2 with h2
  injection h2 with h5 h6
  subst h5 h6
  rfl

theorem joined_mem (sep : String) (b : UInt8) (ts : List Bytes) (h : b ∈ Spec.joined sep ts) :
    b ∈ Spec.ascii sep ∨ ∃ t ∈ ts, b ∈ t := by
  induction ts with
  | nil => simp [Spec.joined] at h
  | cons t ts ih =>
    cases ts with
    | nil => exact .inr ⟨t, by simp, by simpa [Spec.joined] using h⟩
    | cons u ts =>
      rw [Spec.joined, List.mem_append, List.mem_append] at h
      · rcases h with (h | h) | h
        · exact .inr ⟨t, by simp, h⟩
        · exact .inl h
        · rcases ih h with h | ⟨x, hx, hb⟩
          · exact .inl h
          · exact .inr ⟨x, List.mem_cons_of_mem _ hx, hb⟩
      · simp

theorem mem_joined (sep : String) (b : UInt8) (ts : List Bytes) (t : Bytes) (ht : t ∈ ts) (hb : b ∈ t) :
    b ∈ Spec.joined sep ts := by
  induction ts with
  | nil => simp at ht
  | cons u ts ih =>
    cases ts with
    | nil =>
      rw [List.mem_singleton] at ht
      subst ht
      simpa [Spec.joined] using hb
    | cons w ts =>
      rw [Spec.joined, List.mem_append, List.mem_append]
      · rcases List.mem_cons.1 ht with rfl | ht
        · exact .inl (.inl hb)
        · exact .inr (ih ht)
      · simp

theorem named_fst (xs : List (ColumnDefinition × BinlogColumnValue)) (ls : List Bytes) (h : ls.length = xs.length) :
    (named xs ls).map (·.1) = xs.map (·.1.name) := by
  unfold named
  rw [List.map_fst_zip]
  simp [h]

theorem named_snd (xs : List (ColumnDefinition × BinlogColumnValue)) (ls : List Bytes) (h : ls.length = xs.length) :
    (named xs ls).map (·.2) = ls := by
  unfold named
  rw [List.map_snd_zip]
  simp [h]

theorem shifted_fst {α β : Type} (present : List Bool) (cols : List α) (row : List β)
    (hl : present.length = cols.length) (hr : row.length = cols.length) :
    (shifted present cols row).map (·.1) = (logged present cols row).map (·.1) := by
  rw [logged_map_fst present cols row hl hr, shifted, List.map_fst_zip]
  rw [List.length_map]
  exact le_trans (List.length_filter_le _ _) (by simp; omega)

/-- every value of a row that holds zeros and NULLs has a literal -/
theorem zeros_convert (ft : FloatText) (cs : List ColDef) (row : List BinlogColumnValue)
    (hrow : ∀ v ∈ row, v = .tiny 0 ∨ v = .null) :
    ∃ ps, rowParams (fun _ => true) cs row = some ps ∧ ∀ p ∈ ps, ∃ l, quotedLiteral ft p = some l := by
  unfold rowParams
  rw [List.filter_eq_self.2 (fun _ _ => rfl)]
  induction cs generalizing row with
  | nil => exact ⟨[], rfl, by simp⟩
  | cons c cs ih =>
    cases row with
    | nil => exact ⟨[], rfl, by simp⟩
    | cons v row =>
      obtain ⟨ps, h1, h2⟩ := ih row (fun v hv => hrow v (List.mem_cons_of_mem _ hv))
      have : ∃ p l, StmtColumnValue.ofBinlog v c.unsigned = some p ∧ quotedLiteral ft p = some l := by
        rcases hrow v List.mem_cons_self with rfl | rfl
        · obtain ⟨p, h3, h4⟩ := zero_literal ft c.unsigned
          exact ⟨p, _, h3, by rw [quotedLiteral, h4]; rfl⟩
        · exact ⟨.newNull, _, rfl, by rfl⟩
      obtain ⟨p, l, h3, h4⟩ := this
      refine ⟨p :: ps, ?_, ?_⟩
      · rw [List.zip_cons_cons, List.map_cons, h3, allSome, h1]; rfl
      · intro q hq
        rcases List.mem_cons.1 hq with rfl | hq
        · exact ⟨l, h4⟩
        · exact h2 q hq

theorem fill_some (ft : FloatText) (fs : List Bytes) : ∀ ps : List StmtColumnValue,
    (∀ p ∈ ps, ∃ l, quotedLiteral ft p = some l) → ∃ s, fillFragments ft fs ps = some s := by
  induction fs with
  | nil => intro ps _; exact ⟨[], by rw [fillFragments]⟩
  | cons f fs ih =>
    intro ps h
    rw [fillFragments.eq_def]
    dsimp only
    by_cases hf : f = asc "?"
    · rw [if_pos hf]
      cases ps with
      | nil => exact ih [] (by simp)
      | cons p ps =>
        obtain ⟨l, hl⟩ := h p List.mem_cons_self
        obtain ⟨s, hs⟩ := ih ps (fun q hq => h q (List.mem_cons_of_mem _ hq))
        exact ⟨l ++ s, by dsimp only; rw [hl]; dsimp only; rw [hs]; rfl⟩
    · rw [if_neg hf]
      obtain ⟨s, hs⟩ := ih ps h
      exact ⟨f ++ s, by rw [hs]; rfl⟩

/-- C40, exactly when: with these columns logged, the INSERT statements give every column its own value in every row
an event can have, if and only if the logged columns come first. -/
theorem C40_insert_iff (ft : FloatText) (db tbl extra bm : Bytes) (n : Nat) (present : List Bool)
    (defs : List ColumnDefinition) (hc : Covers bm present) (hl : present.length = defs.length) :
    (∀ rows p stmts, (∀ row ∈ rows, RowOf present row) →
      PreparedSql.fromInsert db tbl ⟨extra, n, bm, rows⟩ defs = some p → p.sqlList ft = some stmts →
      InsertsOwnValues ft db tbl defs present rows stmts) ↔ Front present := by
  constructor
  · intro h
    by_contra hf
    have hz : ∀ v ∈ zeroRow present, v = .tiny 0 ∨ v = .null := by
      intro v hv
      simp only [zeroRow, List.mem_map] at hv
      obtain ⟨b, _, rfl⟩ := hv
      cases b <;> simp
    obtain ⟨ps, h1, h2⟩ := zeros_convert ft (filterColDefs bm defs) (zeroRow present) hz
    obtain ⟨s, h3⟩ := fill_some ft (insertFragments db tbl (filterColDefs bm defs)) ps h2
    have hp : PreparedSql.fromInsert db tbl ⟨extra, n, bm, [zeroRow present]⟩ defs
        = some ⟨db, insertFragments db tbl (filterColDefs bm defs), [ps]⟩ := by
      simp [PreparedSql.fromInsert, h1, allSome]
    have hs : (PreparedSql.mk db (insertFragments db tbl (filterColDefs bm defs)) [ps]).sqlList ft = some [s] := by
      simp [PreparedSql.sqlList, h3, allSome]
    have hlen : (zeroRow present).length = defs.length := by rw [(zeroRow_ok present).1, hl]
    have own := h [zeroRow present] _ _ (by
      intro row hr
      rw [List.mem_singleton] at hr
      subst hr
      exact zeroRow_ok present) hp hs
    have act := C40_insert_exact ft db tbl extra bm n present defs _ _ _ hc hl (by
      intro row hr
      rw [List.mem_singleton] at hr
      subst hr
      exact hlen) hp hs
    unfold InsertsOwnValues at own
    cases own with
    | cons own _ =>
      cases act with
      | cons act _ =>
        obtain ⟨ls, a1, a2⟩ := own
        obtain ⟨ks, b1, b2⟩ := act
        have la := a1.length_eq
        have lb := b1.length_eq
        rw [a2] at b2
        unfold Spec.insertText at b2
        have names : ((named (logged present defs (zeroRow present)) ls).map (Spec.tick ·.1))
            = (named (shifted present defs (zeroRow present)) ks).map (Spec.tick ·.1) := by
          rw [show (fun x : Bytes × Bytes => Spec.tick x.1) = Spec.tick ∘ (·.1) from rfl, ← List.map_map,
            ← List.map_map, named_fst _ _ la.symm, named_fst _ _ lb.symm]
          have e := congrArg (List.map fun d : ColumnDefinition => d.name)
            (shifted_fst present defs (zeroRow present) hl hlen)
          rw [List.map_map, List.map_map] at e
          exact congrArg (List.map Spec.tick) e.symm
        rw [names, named_snd _ _ la.symm, named_snd _ _ lb.symm] at b2
        have b3 := List.append_cancel_left (List.append_cancel_right b2)
        obtain ⟨x, hx, hx2⟩ := shifted_zeroRow present defs hl hf
        have : ∃ k ∈ ks, k = Spec.ascii "null" := by
          obtain ⟨i, hi, e⟩ := List.getElem_of_mem hx
          have := b1.get hi (by omega)
          refine ⟨ks[i]'(by omega), List.getElem_mem _, textOf_null ft x.1 _ ?_⟩
          rw [← hx2]
          simpa [e] using this
        obtain ⟨k, hk, rfl⟩ := this
        have hn : (0x6e : UInt8) ∈ Spec.joined "," ks := mem_joined "," 0x6e ks _ hk (by decide)
        rw [← b3] at hn
        rcases joined_mem _ _ _ hn with hn | ⟨t, ht, hb⟩
        · exact absurd hn (by decide)
        · obtain ⟨i, hi, e⟩ := List.getElem_of_mem ht
          have hg := a1.get (by omega) hi
          have h0 := logged_zeroRow present defs _ (List.getElem_mem (show i < (logged present defs (zeroRow present)).length by omega))
          have : t = Spec.ascii "0" := by
            refine textOf_zero ft ((logged present defs (zeroRow present))[i]'(by omega)).1 t ?_
            rw [← h0, ← e]
            simpa using hg
          subst this
          exact absurd hb (by decide)
  · intro hf rows p stmts hr hp hs
    exact C40_insert_partial ft db tbl extra bm n present defs rows p stmts hc hl hf
      (fun row h => by rw [(hr row h).1, hl]) hp hs

/-! ### C54 -/

theorem zip_shifted_all (bm : Bytes) (present : List Bool) (defs : List ColumnDefinition)
    (row : List BinlogColumnValue) (h : Covers bm present) (hl : present.length = defs.length) :
    (filterColDefs bm defs).zip row = (shifted present defs row).map fun x => (ColDef.of x.1, x.2) := by
  have := zip_shifted (fun _ => true) bm present defs row h hl
  rwa [List.filter_eq_self.2 (fun _ _ => rfl), List.filter_eq_self.2 (fun _ _ => rfl)] at this

theorem shifted_nodup (present : List Bool) (defs : List ColumnDefinition) (row : List BinlogColumnValue)
    (hl : present.length = defs.length) (hr : row.length = defs.length) (hn : (defs.map (·.name)).Nodup) :
    ((shifted present defs row).map (·.1.name)).Nodup := by
  have e := congrArg (List.map fun d : ColumnDefinition => d.name) (shifted_fst present defs row hl hr)
  rw [List.map_map, List.map_map] at e
  have := logged_nodup present defs row hl hr hn
  exact (show (shifted present defs row).map (·.1.name) = (logged present defs row).map (·.1.name) from e) ▸ this

/-- What the records of inserted or deleted rows say: the k-th logged column has the k-th value of the row. -/
def RecordsShiftedValues (lib : JsonLib) (defs : List ColumnDefinition) (present : List Bool)
    (make : List Bytes → List (Bytes × Json) → JsonRow)
    (rows : List (List BinlogColumnValue)) (recs : List JsonRow) : Prop :=
  List.Forall₂ (fun row rec => ∃ js, List.Forall₂ (JsonOf lib) (shifted present defs row) js ∧
    rec = make (base64Names (shifted present defs row) js) (jsonFields (shifted present defs row) js)) rows recs

theorem json_rows_exact (lib : JsonLib) (bm : Bytes) (present : List Bool) (defs : List ColumnDefinition)
    (make : List Bytes → List (Bytes × Json) → JsonRow) (rows : List (List BinlogColumnValue)) (recs : List JsonRow)
    (hc : Covers bm present) (hl : present.length = defs.length)
    (hn : (defs.map (·.name)).Nodup) (hr : ∀ row ∈ rows, row.length = defs.length)
    (h : allSome (rows.map fun row => (jsonImage lib false ((filterColDefs bm defs).zip row) ([], [])).map
      fun (m, enc) => make enc m) = some recs) : RecordsShiftedValues lib defs present make rows recs := by
  replace h := allSome_forall₂ _ _ _ h
  unfold RecordsShiftedValues
  induction h with
  | nil => exact .nil
  | @cons row rec rows recs h1 _ ih =>
    refine .cons ?_ (ih fun r hm => hr r (List.mem_cons_of_mem _ hm))
    have hlen := hr row List.mem_cons_self
    rw [zip_shifted_all bm present defs row hc hl, Option.map_eq_some_iff] at h1
    obtain ⟨⟨m, enc⟩, h1, rfl⟩ := h1
    obtain ⟨js, h2, h3⟩ := jsonImage_spec lib false _ _ _ _ (shifted_nodup present defs row hl hlen hn)
      (by simp) h1
    injection h3 with h3 h4
    exact ⟨js, h2, by rw [h3, h4]; rfl⟩

/-- C54, exactly, for inserted and deleted rows -/
theorem C54_rows_exact (lib : JsonLib) (db tbl extra bm : Bytes) (n : Nat) (present : List Bool)
    (defs : List ColumnDefinition) (rows : List (List BinlogColumnValue)) (recs : List JsonRow)
    (hc : Covers bm present) (hl : present.length = defs.length)
    (hn : (defs.map (·.name)).Nodup) (hr : ∀ row ∈ rows, row.length = defs.length) :
    (JsonRows.fromInsert lib db tbl ⟨extra, n, bm, rows⟩ defs = some recs →
      RecordsShiftedValues lib defs present
        (fun names fields => ⟨Spec.ascii "insert", names, db, tbl, none, some fields⟩) rows recs) ∧
    (JsonRows.fromDelete lib db tbl ⟨extra, n, bm, rows⟩ defs = some recs →
      RecordsShiftedValues lib defs present
        (fun names fields => ⟨Spec.ascii "delete", names, db, tbl, some fields, none⟩) rows recs) :=
  ⟨fun h => json_rows_exact lib bm present defs
      (fun names fields => ⟨Spec.ascii "insert", names, db, tbl, none, some fields⟩) rows recs hc hl hn hr h,
    fun h => json_rows_exact lib bm present defs
      (fun names fields => ⟨Spec.ascii "delete", names, db, tbl, some fields, none⟩) rows recs hc hl hn hr h⟩

theorem jsonOf_null (lib : JsonLib) (d : ColumnDefinition) (r : Json × Bool) (h : JsonOf lib (d, .null) r) :
    r = (.null, false) := by
  obtain ⟨p, h1, h2⟩ := h
  injection (show some StmtColumnValue.newNull = some p from h1) with h1
  subst h1
  exact (Option.some.inj (show some (Json.null, false) = some r from h2)).symm

theorem zero_json (lib : JsonLib) (u : Bool) :
    ∃ p, StmtColumnValue.ofBinlog (.tiny 0) u = some p ∧ toJsonValue lib p = some (.int 0, false) := by
  cases u
  · exact ⟨_, rfl, by rfl⟩
  · exact ⟨_, rfl, by rfl⟩

theorem jsonOf_zero (lib : JsonLib) (d : ColumnDefinition) (r : Json × Bool) (h : JsonOf lib (d, .tiny 0) r) :
    r = (.int 0, false) := by
  obtain ⟨p, h1, h2⟩ := h
  obtain ⟨p', h3, h4⟩ := zero_json lib (d.flags.testBit 5)
  rw [h3] at h1
  injection h1 with h1
  subst h1
  rw [h4] at h2
  exact (Option.some.inj h2).symm

theorem zeros_image (lib : JsonLib) (xs : List (ColDef × BinlogColumnValue)) :
    ∀ acc, (∀ x ∈ xs, x.2 = .tiny 0 ∨ x.2 = .null) → ∃ r, jsonImage lib false xs acc = some r := by
  induction xs with
  | nil => intro acc _; exact ⟨acc, by rw [jsonImage]⟩
  | cons x xs ih =>
    intro acc h
    obtain ⟨c, v⟩ := x
    obtain ⟨m, enc⟩ := acc
    have : ∃ p j, StmtColumnValue.ofBinlog v c.unsigned = some p ∧ toJsonValue lib p = some j := by
      rcases h (c, v) List.mem_cons_self with e | e
      · obtain ⟨p, h3, h4⟩ := zero_json lib c.unsigned
        dsimp only at e
        subst e
        exact ⟨p, _, h3, h4⟩
      · dsimp only at e
        subst e
        exact ⟨.newNull, _, rfl, rfl⟩
    obtain ⟨p, ⟨jv, e⟩, h1, h2⟩ := this
    rw [jsonImage, h1]
    dsimp only
    rw [h2]
    exact ih _ (fun y hy => h y (List.mem_cons_of_mem _ hy))

/-- C54, exactly when: with these columns logged, the records of inserted rows give every column its own value in every
row an event can have, if and only if the logged columns come first. -/
theorem C54_insert_iff (lib : JsonLib) (db tbl extra bm : Bytes) (n : Nat) (present : List Bool)
    (defs : List ColumnDefinition) (hc : Covers bm present) (hl : present.length = defs.length)
    (hn : (defs.map (·.name)).Nodup) :
    (∀ rows recs, (∀ row ∈ rows, RowOf present row) →
      JsonRows.fromInsert lib db tbl ⟨extra, n, bm, rows⟩ defs = some recs →
      RecordsOwnValues lib defs present
        (fun names fields => ⟨Spec.ascii "insert", names, db, tbl, none, some fields⟩) rows recs) ↔
      Front present := by
  constructor
  · intro h
    by_contra hf
    have hlen : (zeroRow present).length = defs.length := by rw [(zeroRow_ok present).1, hl]
    obtain ⟨r, h1⟩ := zeros_image lib ((filterColDefs bm defs).zip (zeroRow present)) ([], []) (by
      intro x hx
      have := (List.of_mem_zip hx).2
      simp only [zeroRow, List.mem_map] at this
      obtain ⟨b, _, e⟩ := this
      rw [← e]
      cases b <;> simp)
    have hp : JsonRows.fromInsert lib db tbl ⟨extra, n, bm, [zeroRow present]⟩ defs
        = some [⟨asc "insert", r.2, db, tbl, none, some r.1⟩] := by
      simp [JsonRows.fromInsert, h1, allSome]
    have own := h [zeroRow present] _ (by
      intro row hr
      rw [List.mem_singleton] at hr
      subst hr
      exact zeroRow_ok present) hp
    have act := (C54_rows_exact lib db tbl extra bm n present defs _ _ hc hl hn (by
      intro row hr
      rw [List.mem_singleton] at hr
      subst hr
      exact hlen)).1 hp
    cases own with
    | cons own _ =>
      cases act with
      | cons act _ =>
        obtain ⟨js, a1, a2⟩ := own
        obtain ⟨ks, b1, b2⟩ := act
        have la := a1.length_eq
        have lb := b1.length_eq
        rw [a2] at b2
        injection b2 with _ _ _ _ _ b2
        injection b2 with b2
        obtain ⟨x, hx, hx2⟩ := shifted_zeroRow present defs hl hf
        obtain ⟨i, hi, e⟩ := List.getElem_of_mem hx
        have hk := b1.get hi (by omega)
        have hk2 : ks[i]'(by omega) = (Json.null, false) := jsonOf_null lib x.1 _ (by
          rw [← hx2]
          simpa [e] using hk)
        have b3 : (x.1.name, Json.null) ∈ jsonFields (shifted present defs (zeroRow present)) ks := by
          unfold jsonFields
          refine List.mem_map.2 ⟨(x, (Json.null, false)), ?_, rfl⟩
          refine List.mem_of_getElem? (i := i) (List.getElem?_zip_eq_some.2 ⟨?_, ?_⟩)
          · rw [List.getElem?_eq_getElem hi, e]
          · rw [List.getElem?_eq_getElem (by omega), hk2]
        rw [← b2] at b3
        unfold jsonFields at b3
        obtain ⟨⟨y, j⟩, hy, ey⟩ := List.mem_map.1 b3
        obtain ⟨k, hk3, ek⟩ := List.getElem_of_mem hy
        have hk4 : k < (logged present defs (zeroRow present)).length := by
          have := hk3; rw [List.length_zip] at this; omega
        have hk5 : k < js.length := by
          have := hk3; rw [List.length_zip] at this; omega
        have hg := a1.get hk4 hk5
        have h0 := logged_zeroRow present defs _ (List.getElem_mem hk4)
        have hj := jsonOf_zero lib ((logged present defs (zeroRow present))[k]).1 (js[k]) (by
          rw [← h0]; simpa using hg)
        rw [List.getElem_zip] at ek
        injection ek with e1 e2
        rw [← e2, hj] at ey
        injection ey with _ ey
        cases ey
  · intro hf rows recs hr hp
    exact C54_insert_partial lib db tbl extra bm n present defs rows recs hc hl hf hn
      (fun row h => by rw [(hr row h).1, hl]) hp

/-- the row of the example is one an event can have -/
example : RowOf [false, true] [.null, .long 7] :=
  ⟨rfl, fun i h => by
    match i with
    | 0 => rfl
    | 1 => simp at h
    | i + 2 => simp at h⟩

/-! ### repeated names -/

/-- the value of the last column with this name -/
def lastNamed (fields : List (Bytes × Json)) (name : Bytes) : Option Json := fields.reverse.lookup name

theorem lookup_app (a b : List (Bytes × Json)) (n : Bytes) :
    (a ++ b).lookup n = (a.lookup n).or (b.lookup n) := by
  induction a with
  | nil => rfl
  | cons x a ih =>
    obtain ⟨k, v⟩ := x
    rw [List.cons_append, List.lookup_cons, List.lookup_cons, ih]
    cases n == k <;> rfl

theorem lookup_new (m : List (Bytes × Json)) (n : Bytes) (h : n ∉ m.map (·.1)) : m.lookup n = none := by
  rw [List.lookup_eq_none_iff]
  intro p hp
  rw [bne_iff_ne]
  rintro rfl
  exact h (List.mem_map.2 ⟨p, hp, rfl⟩)

theorem lookup_overwrite (m : List (Bytes × Json)) (k : Bytes) (v : Json) (n : Bytes) (h : k ∈ m.map (·.1)) :
    (m.map fun x => if x.1 = k then (k, v) else x).lookup n = if n = k then some v else m.lookup n := by
  induction m with
  | nil => cases h
  | cons x m ih =>
    obtain ⟨a, b⟩ := x
    rw [List.map_cons]
    by_cases e : a = k
    · subst e
      rw [if_pos rfl, List.lookup_cons, List.lookup_cons]
      by_cases e2 : n = a
      · subst e2; simp
      · rw [if_neg e2, (beq_eq_false_iff_ne).2 e2]
        by_cases hk : a ∈ m.map (·.1)
        · simpa [e2] using ih hk
        · have : (m.map fun x => if x.1 = a then (a, v) else x) = m := by
            conv_rhs => rw [← List.map_id m]
            refine List.map_congr_left fun y hy => ?_
            rw [if_neg]
            · rfl
            · rintro rfl; exact hk (List.mem_map.2 ⟨y, hy, rfl⟩)
          rw [this]
    · dsimp only
      rw [if_neg e, List.lookup_cons, List.lookup_cons]
      rw [List.map_cons, List.mem_cons] at h
      have := ih (h.resolve_left (fun hh => e hh.symm))
      by_cases e2 : n = a
      · subst e2; simp [e]
      · rw [(beq_eq_false_iff_ne).2 e2]
        exact this

theorem jsonInsert_lookup (m : List (Bytes × Json)) (k : Bytes) (v : Json) (n : Bytes) :
    (jsonInsert m k v).lookup n = if n = k then some v else m.lookup n := by
  by_cases h : k ∈ m.map (·.1)
  · unfold jsonInsert
    rw [if_pos, lookup_overwrite m k v n h]
    obtain ⟨x, hx, e⟩ := List.mem_map.1 h
    rw [List.any_eq_true]
    exact ⟨x, hx, by simp [e]⟩
  · rw [jsonInsert_new m k v h, lookup_app, List.lookup_cons]
    by_cases e : n = k
    · subst e; rw [lookup_new m n h]; simp
    · rw [(beq_eq_false_iff_ne).2 e, if_neg e]; simp

theorem jsonInsert_nodup (m : List (Bytes × Json)) (k : Bytes) (v : Json) (h : (m.map (·.1)).Nodup) :
    ((jsonInsert m k v).map (·.1)).Nodup := by
  by_cases hk : k ∈ m.map (·.1)
  · unfold jsonInsert
    rw [if_pos]
    · rw [List.map_map, show ((fun x : Bytes × Json => x.1) ∘ fun x => if x.1 = k then (k, v) else x) = (·.1) from ?_]
      · exact h
      · funext x
        by_cases e : x.1 = k <;> simp [e]
    · obtain ⟨x, hx, e⟩ := List.mem_map.1 hk
      rw [List.any_eq_true]
      exact ⟨x, hx, by simp [e]⟩
  · rw [jsonInsert_new m k v hk, List.map_append, List.nodup_append]
    refine ⟨h, by simp, ?_⟩
    intro a ha b hb e
    simp only [List.map_cons, List.map_nil, List.mem_singleton] at hb
    exact hk (hb ▸ e ▸ ha)

theorem jsonImage_last (lib : JsonLib) (dedup : Bool) (xs : List (ColumnDefinition × BinlogColumnValue)) :
    ∀ (m : List (Bytes × Json)) (enc : List Bytes) (r : List (Bytes × Json) × List Bytes),
    (m.map (·.1)).Nodup →
    jsonImage lib dedup (xs.map fun x => (ColDef.of x.1, x.2)) (m, enc) = some r →
    ∃ js, List.Forall₂ (JsonOf lib) xs js ∧ (r.1.map (·.1)).Nodup ∧
      ∀ n, r.1.lookup n = (lastNamed (jsonFields xs js) n).or (m.lookup n) := by
  induction xs with
  | nil =>
    intro m enc r hm h
    simp only [List.map_nil, jsonImage, Option.some.injEq] at h
    subst h
    exact ⟨[], .nil, hm, fun n => rfl⟩
  | cons x xs ih =>
    intro m enc r hm h
    rw [List.map_cons, jsonImage, colDef_unsigned] at h
    cases h1 : StmtColumnValue.ofBinlog x.2 (x.1.flags.testBit 5) with
    | none => rw [h1] at h; cases h
    | some sv =>
      rw [h1] at h
      dsimp only at h
      cases h2 : toJsonValue lib sv with
      | none => rw [h2] at h; cases h
      | some je =>
        obtain ⟨jv, e⟩ := je
        rw [h2] at h
        dsimp only at h
        obtain ⟨js, h3, h4, h5⟩ := ih _ _ r (jsonInsert_nodup m _ jv hm) h
        refine ⟨(jv, e) :: js, .cons ⟨sv, h1, h2⟩ h3, h4, fun n => ?_⟩
        rw [h5 n, jsonInsert_lookup]
        have : jsonFields (x :: xs) ((jv, e) :: js) = (x.1.name, jv) :: jsonFields xs js := rfl
        rw [this, lastNamed, lastNamed, List.reverse_cons, lookup_app, Option.or_assoc]
        congr 1
        rw [List.lookup_cons]
        by_cases e2 : n = x.1.name
        · subst e2; rw [beq_self_eq_true]; simp [ColDef.of]
        · rw [(beq_eq_false_iff_ne).2 e2, show (ColDef.of x.1).name = x.1.name from rfl, if_neg e2]; rfl

/-- C54 when column names are not distinct: a record names each column once, and under a name it has the value of the
last logged column of that name; the values of the others are lost. -/
theorem C54_insert_repeated (lib : JsonLib) (db tbl extra bm : Bytes) (n : Nat) (present : List Bool)
    (defs : List ColumnDefinition) (rows : List (List BinlogColumnValue)) (recs : List JsonRow)
    (hc : Covers bm present) (hl : present.length = defs.length)
    (h : JsonRows.fromInsert lib db tbl ⟨extra, n, bm, rows⟩ defs = some recs) :
    List.Forall₂ (fun row rec => ∃ js fields, List.Forall₂ (JsonOf lib) (shifted present defs row) js ∧
      rec.after = some fields ∧ (fields.map (·.1)).Nodup ∧
      ∀ name, fields.lookup name = lastNamed (jsonFields (shifted present defs row) js) name) rows recs := by
  replace h := allSome_forall₂ _ _ _ h
  dsimp only at h
  induction h with
  | nil => exact .nil
  | @cons row rec rows recs h1 _ ih =>
    refine .cons ?_ ih
    rw [zip_shifted_all bm present defs row hc hl, Option.map_eq_some_iff] at h1
    obtain ⟨⟨m, enc⟩, h1, rfl⟩ := h1
    obtain ⟨js, h2, h3, h4⟩ := jsonImage_last lib false _ _ _ _ (by simp) h1
    exact ⟨js, m, h2, rfl, h3, fun name => by rw [h4 name]; simp⟩

/-- two columns named `a`, both logged: the record has one field -/
example (lib : JsonLib) :
    JsonRows.fromInsert lib (asc "d") (asc "t") ⟨[], 2, [3], [[.tiny 0, .null]]⟩ [exampleCol "a" 0, exampleCol "a" 0]
      = some [⟨asc "insert", [], asc "d", asc "t", none, some [(asc "a", .null)]⟩] := by
  have : filterColDefs [3] [exampleCol "a" 0, exampleCol "a" 0]
      = [ColDef.of (exampleCol "a" 0), ColDef.of (exampleCol "a" 0)] := by decide +kernel
  unfold JsonRows.fromInsert
  dsimp only
  rw [this]
  rfl

end Mybin
