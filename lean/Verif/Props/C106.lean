/-
C106: what `mybinlog dml` prints for a log does not depend on what was done to the tables after the log was written.
The columns are asked for when the log is read, so this fails for every change but one, and what happens instead is
proved. `then` and `now` are the columns of the tables when the log was written and when it is read.
-/
import Verif.Props.C43

namespace Mybin

open Spec (Covers logged Front LogItem Image)

/-! ### tables that have not changed -/

/-- the tables announced in the log, as far as they are wanted, have the same columns in both catalogues -/
def Spec.Unchanged (wanted : Spec.Table → Bool) (old now : Catalogue) (items : List LogItem) : Prop :=
  ∀ id t, LogItem.tableMap id t ∈ items → wanted t = true → now t.schema t.table = old t.schema t.table

theorem announce_agrees {wanted : Spec.Table → Bool} {old now : Catalogue} {known : Nat → Option Spec.Table}
    (hk : ∀ id t, known id = some t → wanted t = true → now t.schema t.table = old t.schema t.table) (item : LogItem)
    (hi : ∀ id t, item = .tableMap id t → wanted t = true → now t.schema t.table = old t.schema t.table) :
    ∀ id t, item.announce known id = some t → wanted t = true → now t.schema t.table = old t.schema t.table := by
  intro id t h hw
  cases item with
  | tableMap i s =>
    have h : (if id = i then some s else known id) = some t := h
    by_cases hid : id = i
    · rw [if_pos hid] at h
      injection h with h
      subst h
      exact hi i s rfl hw
    · rw [if_neg hid] at h
      exact hk id t h hw
  | rotate => cases h
  | insert => exact hk id t h hw
  | delete => exact hk id t h hw
  | update => exact hk id t h hw
  | other => exact hk id t h hw

theorem rowLines_congr {wanted : Spec.Table → Bool} {known : Nat → Option Spec.Table} {id : Nat}
    {P Q : Spec.Table → List DmlLine → Prop} {ls : List DmlLine}
    (h : ∀ t, known id = some t → wanted t = true → (P t ls → Q t ls)) :
    Spec.RowLines wanted known id P ls → Spec.RowLines wanted known id Q ls := by
  unfold Spec.RowLines
  cases hk : known id with
  | none => exact fun h => h
  | some t =>
    dsimp only
    by_cases hw : wanted t = true
    · rw [if_pos hw, if_pos hw]; exact h t hk hw
    · rw [if_neg hw, if_neg hw]; exact fun h => h

theorem prints_congr {ft : FloatText} {wanted : Spec.Table → Bool} {old now : Catalogue}
    {known : Nat → Option Spec.Table}
    (hk : ∀ id t, known id = some t → wanted t = true → now t.schema t.table = old t.schema t.table) (nextPos : Nat)
    (item : LogItem) (ls : List DmlLine) (h : Spec.Prints ft wanted now known nextPos item ls) :
    Spec.Prints ft wanted old known nextPos item ls := by
  cases item with
  | insert id ks present rows =>
    unfold Spec.Prints at h ⊢
    exact rowLines_congr (fun t h1 h2 => by rw [hk id t h1 h2]; exact fun h => h) h
  | delete id ks present rows =>
    unfold Spec.Prints at h ⊢
    exact rowLines_congr (fun t h1 h2 => by rw [hk id t h1 h2]; exact fun h => h) h
  | update id ks before after rows =>
    unfold Spec.Prints at h ⊢
    exact rowLines_congr (fun t h1 h2 => by rw [hk id t h1 h2]; exact fun h => h) h
  | tableMap => exact h
  | rotate => exact h
  | other => exact h

theorem printsAll_congr {ft : FloatText} {wanted : Spec.Table → Bool} {old now : Catalogue} :
    ∀ (log : List (Spec.LogEvent × LogItem)) (known : Nat → Option Spec.Table) (out : List DmlLine),
    (∀ id t, known id = some t → wanted t = true → now t.schema t.table = old t.schema t.table) →
    Spec.Unchanged wanted old now (log.map (·.2)) → Spec.PrintsAll ft wanted now known log out →
    Spec.PrintsAll ft wanted old known log out
  | [], _, _, _, _, h => h
  | (e, item) :: log, known, out, hk, hu, ⟨ls, rest, h1, h2, h3⟩ => by
    refine ⟨ls, rest, h1, prints_congr hk e.nextPos item ls h2, printsAll_congr log _ rest ?_ ?_ h3⟩
    · exact announce_agrees hk item fun id t h => hu id t (by simp [h])
    · exact fun id t h => hu id t (by rw [List.map_cons]; exact List.mem_cons_of_mem _ h)

theorem itemOk_congr {ft : FloatText} {wanted : Spec.Table → Bool} {old now : Catalogue}
    {known : Nat → Option Spec.Table}
    (hk : ∀ id t, known id = some t → wanted t = true → now t.schema t.table = old t.schema t.table) (item : LogItem)
    (h : ItemOk ft wanted old known item) : ItemOk ft wanted now known item := by
  cases item with
  | insert id ks present rows => exact fun t h1 h2 => by rw [hk id t h1 h2]; exact h t h1 h2
  | delete id ks present rows => exact fun t h1 h2 => by rw [hk id t h1 h2]; exact h t h1 h2
  | update id ks before after rows => exact fun t h1 h2 => by rw [hk id t h1 h2]; exact h t h1 h2
  | tableMap => exact h
  | rotate => exact h
  | other => exact h

theorem logOk_congr {ft : FloatText} {wanted : Spec.Table → Bool} {old now : Catalogue} :
    ∀ (items : List LogItem) (known : Nat → Option Spec.Table),
    (∀ id t, known id = some t → wanted t = true → now t.schema t.table = old t.schema t.table) →
    Spec.Unchanged wanted old now items → LogOk ft wanted old known items → LogOk ft wanted now known items
  | [], _, _, _, h => h
  | item :: items, known, hk, hu, h => by
    refine ⟨itemOk_congr hk item h.1, logOk_congr items _ ?_ ?_ h.2⟩
    · exact announce_agrees hk item fun id t h => hu id t (by simp [h])
    · exact fun id t h => hu id t (List.mem_cons_of_mem _ h)

/-- C106: when the wanted tables of the log have the columns they had when it was written, the lines are those of that
time. Missing from the full claim: tables that have changed since (`C106_renamed_false`, `C106_added_false`,
`C106_dropped_false`, and `C106_grown_partial` for what still holds) and tables that are gone (`C106_gone_false`). -/
theorem C106_same_partial (ft : FloatText) (o : DmlOpts) (hb : o.nonBlock = true)
    (hf : o.filename.length < 10 ^ 9 ∧ validUtf8 o.filename = true) (uuid : Bytes) (hu : uuid.length = 36) (random : Nat)
    (hr : random < 2 ^ 32) (conn helper : Conn) (crc : Bool) (opening : List Bytes)
    (hopen : Spec.OpensStream conn.caps crc opening) (old now : Catalogue) (log : List (Spec.LogEvent × LogItem))
    (hsame : Spec.Unchanged o.wanted old now (log.map (·.2)))
    (hin : ∀ x ∈ log, x.1.InRange ∧ x.1.Says x.2) (hrot : ∀ x ∈ log, x.2 = .rotate → o.untilNow = true)
    (hok : LogOk ft o.wanted old (fun _ => none) (log.map (·.2))) (eof rest : Bytes)
    (hd : Spec.Delivers conn.inp
      (opening ++ (log.map (fun x => Spec.streamMessage crc x.1) ++ [0xfe :: eof])) rest)
    (answers : List Bytes) (hrest : Bytes)
    (ha : Spec.ListsTables helper.caps now (Spec.questions o.wanted (fun _ => none) (log.map (·.2))) answers)
    (hh : Spec.Delivers helper.inp answers hrest) :
    ∃ out, Spec.PrintsAll ft o.wanted old (fun _ => none) log out ∧
      printDmls ft o uuid random conn helper = (if o.limit = 0 then out else upTo o.limit out, .done) := by
  obtain ⟨out, h1, h2⟩ := C43_prints_partial ft o hb hf uuid hu random hr conn helper crc opening hopen now log hin hrot
    (logOk_congr _ _ (by simp) hsame hok) eof rest hd answers hrest ha hh
  exact ⟨out, printsAll_congr log _ out (by simp) hsame h1, h2⟩

/-- the log of C43, with the catalogue of C43 changed for all other tables -/
example : Spec.Unchanged (exampleOpts 0).wanted exampleCatalogue
    (fun db tbl => if db = Spec.ascii "d" ∧ tbl = Spec.ascii "t" then exampleCatalogue db tbl else [])
    (exampleLog.map (·.2)) := by
  intro id t h _
  simp only [exampleLog, List.map_cons, List.map_nil, List.mem_cons, List.not_mem_nil, or_false] at h
  rcases h with h | h | h | h
  · injection h with h1 h2
    subst h2
    rfl
  all_goals cases h

/-! ### columns that were added -/

theorem bits_exist (bm : Bytes) : ∃ l : List Bool, Bitmap.toIter bm 0 = some l ∧ l.length = 8 * bm.length ∧
    ∀ i, i < l.length → l[i]? = Spec.bit? bm i := by
  obtain ⟨l, e1, e2, e3⟩ := Bitmap.toIter_eq bm 0 (by omega)
  exact ⟨l, e1, by omega, fun i hi => by rw [e3 i hi, Nat.zero_add]⟩

theorem filterColDefs_grown (bm : Bytes) (present : List Bool) (defs more : List ColumnDefinition)
    (hc : Covers bm present) (hl : present.length = defs.length)
    (hclear : ∀ i, present.length ≤ i → Spec.bit? bm i ≠ some true) :
    filterColDefs bm (defs ++ more) = filterColDefs bm defs := by
  obtain ⟨l, e1, e2, e3⟩ := bits_exist bm
  have hlen : present.length ≤ l.length := by have := hc.1; omega
  unfold filterColDefs
  rw [e1, Option.getD_some]
  congr 1
  have h1 : ∀ more, l.zip (defs ++ more) = (l.take present.length).zip defs ++ (l.drop present.length).zip more := by
    intro more
    rw [← List.zip_append (by rw [List.length_take, hl]; omega), List.take_append_drop]
  have h0 := h1 []
  rw [List.append_nil, List.zip_nil_right, List.append_nil] at h0
  rw [h1, h0, List.filter_append]
  have h2 : ((l.drop present.length).zip more).filter (·.1) = [] := by
    rw [List.filter_eq_nil_iff]
    rintro ⟨b, d⟩ hx hb
    have hb : b = true := hb
    subst hb
    obtain ⟨i, hi, hget⟩ := List.mem_iff_getElem.1 (List.of_mem_zip hx).1
    rw [List.getElem_drop] at hget
    rw [List.length_drop] at hi
    have := e3 (present.length + i) (by omega)
    rw [List.getElem?_eq_getElem (by omega), hget] at this
    exact hclear (present.length + i) (by omega) this.symm
  rw [h2, List.append_nil]

/-- C106: columns added after those of the log do not change the statements, as long as the unused bits of the bitmaps
of the event are clear. Missing: servers that set them (`C106_added_false`). -/
theorem C106_grown_partial (db tbl extra : Bytes) (n : Nat) (defs more : List ColumnDefinition) :
    (∀ (bm : Bytes) (present : List Bool) (rows : List (List BinlogColumnValue)), Covers bm present →
      present.length = defs.length → (∀ i, present.length ≤ i → Spec.bit? bm i ≠ some true) →
      PreparedSql.fromInsert db tbl ⟨extra, n, bm, rows⟩ (defs ++ more)
        = PreparedSql.fromInsert db tbl ⟨extra, n, bm, rows⟩ defs ∧
      PreparedSql.fromDelete db tbl ⟨extra, n, bm, rows⟩ (defs ++ more)
        = PreparedSql.fromDelete db tbl ⟨extra, n, bm, rows⟩ defs) ∧
    (∀ (bb ab : Bytes) (before after : List Bool) (rows : List (List BinlogColumnValue × List BinlogColumnValue)),
      Covers bb before → Covers ab after → before.length = defs.length → after.length = defs.length →
      (∀ i, defs.length ≤ i → Spec.bit? bb i ≠ some true ∧ Spec.bit? ab i ≠ some true) →
      PreparedSql.fromUpdate db tbl ⟨extra, n, bb, ab, rows⟩ (defs ++ more)
        = PreparedSql.fromUpdate db tbl ⟨extra, n, bb, ab, rows⟩ defs) := by
  constructor
  · intro bm present rows hc hl hclear
    simp only [PreparedSql.fromInsert, PreparedSql.fromDelete, filterColDefs_grown bm present defs more hc hl hclear,
      and_self]
  · intro bb ab before after rows h1 h2 h3 h4 h5
    simp only [PreparedSql.fromUpdate,
      filterColDefs_grown bb before defs more h1 h3 (fun i hi => (h5 i (by omega)).1),
      filterColDefs_grown ab after defs more h2 h4 (fun i hi => (h5 i (by omega)).2)]

/-- two columns, the unused bits clear -/
example : Covers [3] [true, true] ∧ ∀ i, 2 ≤ i → Spec.bit? [3] i ≠ some true := by
  refine ⟨covers_of _ _ rfl (by decide), fun i hi => ?_⟩
  unfold Spec.bit?
  by_cases h : i < 8
  · have : i = 2 ∨ i = 3 ∨ i = 4 ∨ i = 5 ∨ i = 6 ∨ i = 7 := by omega
    rcases this with rfl | rfl | rfl | rfl | rfl | rfl <;> decide
  · rw [List.getElem?_eq_none (by simp; omega)]
    simp

theorem bit_ones (k i : Nat) (h : i < 8 * k) : Spec.bit? (List.replicate k 0xff) i = some true := by
  unfold Spec.bit?
  rw [List.getElem?_replicate, if_pos (by omega)]
  have : i % 8 < 8 := Nat.mod_lt _ (by norm_num)
  interval_cases i % 8 <;> rfl

theorem filterColDefs_ones (k : Nat) (defs : List ColumnDefinition) :
    filterColDefs (List.replicate k 0xff) defs = (defs.take (8 * k)).map ColDef.of := by
  obtain ⟨l, e1, e2, e3⟩ := bits_exist (List.replicate k 0xff)
  rw [List.length_replicate] at e2
  have hl : l = List.replicate (8 * k) true := by
    apply List.ext_getElem?
    intro i
    by_cases hi : i < 8 * k
    · rw [e3 i (by omega), bit_ones k i hi, List.getElem?_replicate, if_pos hi]
    · rw [List.getElem?_eq_none (by omega), List.getElem?_eq_none (by simp; omega)]
  unfold filterColDefs
  rw [e1, Option.getD_some, hl]
  have : ∀ (m : Nat) (ds : List ColumnDefinition),
      (((List.replicate m true).zip ds).filter (·.1)).map (fun x => ColDef.of x.2) = (ds.take m).map ColDef.of := by
    intro m
    induction m with
    | zero => intro ds; simp
    | succ m ih =>
      intro ds
      cases ds with
      | nil => simp
      | cons d ds => simp [List.replicate_succ, ih ds]
  exact this _ _

theorem render_missing (fs : List Bytes) : ∀ (lits : List Bytes) (k : Nat),
    render fs (lits ++ List.replicate k []) = render fs lits := by
  induction fs with
  | nil => intro lits k; rw [render_nil, render_nil]
  | cons f fs ih =>
    intro lits k
    rw [render.eq_def]
    conv => rhs; rw [render.eq_def]
    dsimp only
    by_cases hf : f = asc "?"
    · rw [if_pos hf, if_pos hf]
      cases lits with
      | nil =>
        cases k with
        | zero => rfl
        | succ k =>
          have := ih [] k
          rw [List.nil_append] at this
          simp only [List.nil_append, List.replicate_succ]
          exact this
      | cons l lits => simp only [List.cons_append]; rw [ih lits k]
    · rw [if_neg hf, if_neg hf, ih lits k]

/-- C106 fails when a column was added since and the server sets the unused bits of the bitmap of logged columns, as
it does for whole rows (0xff). The printed INSERT names the added columns, up to the next multiple of eight, with no
value for them: the list of values ends in commas, and is no SQL. -/
theorem C106_added_false (ft : FloatText) (db tbl extra : Bytes) (old more : List ColumnDefinition)
    (rows : List (List BinlogColumnValue)) (texts : List (List Bytes)) (hr : ∀ row ∈ rows, row.length = old.length)
    (ht : List.Forall₂ (fun row ls => List.Forall₂ (TextOf ft) (old.zip row) ls) rows texts) :
    let bm : Bytes := List.replicate ((old.length + 7) / 8) 0xff
    let listed := (old ++ more).take (8 * bm.length)
    ∃ p, PreparedSql.fromInsert db tbl ⟨extra, old.length, bm, rows⟩ (old ++ more) = some p ∧
      p.sqlList ft = some (texts.map fun ls => Spec.insertText db tbl
        ((listed.map (·.name)).zip (ls ++ List.replicate (listed.length - old.length) []))) := by
  intro bm listed
  have hbm : bm.length = (old.length + 7) / 8 := List.length_replicate ..
  have hle : old.length ≤ listed.length := by
    simp only [listed, List.length_take, List.length_append]
    omega
  have hlisted : ∃ add, listed = old ++ add := by
    refine ⟨more.take (8 * bm.length - old.length), ?_⟩
    simp only [listed]
    rw [List.take_append, List.take_of_length_le (by omega)]
  obtain ⟨add, hadd⟩ := hlisted
  have hcs : filterColDefs bm (old ++ more) = listed.map ColDef.of := by
    simp only [listed, hbm]
    exact filterColDefs_ones _ _
  have hrows : ∃ params : List (List StmtColumnValue), allSome (rows.map (rowParams (fun _ => true) (listed.map ColDef.of))) = some params ∧
      allSome (params.map (fillFragments ft (insertFragments db tbl (listed.map ColDef.of))))
        = some (texts.map fun ls => Spec.insertText db tbl
          ((listed.map (·.name)).zip (ls ++ List.replicate (listed.length - old.length) []))) := by
    induction ht with
    | nil => exact ⟨[], rfl, rfl⟩
    | @cons row ls rows texts h1 h2 ih =>
      obtain ⟨params, p1, p2⟩ := ih (fun r h => hr r (List.mem_cons_of_mem _ h))
      have hlen := hr row List.mem_cons_self
      have hps : ∃ ps, rowParams (fun _ => true) (listed.map ColDef.of) row = some ps ∧
          allSome (ps.map (quotedLiteral ft)) = some ls := by
        have hz : ((listed.map ColDef.of).zip row) = (old.zip row).map fun x => (ColDef.of x.1, x.2) := by
          rw [hadd, List.map_append, ← List.append_nil row, List.zip_append (by rw [List.length_map, hlen]), List.append_nil,
            List.zip_nil_right, List.append_nil, List.zip_map_left]
          rfl
        unfold rowParams
        rw [hz, List.filter_eq_self.2 (fun _ _ => rfl), List.map_map]
        generalize old.zip row = xs at h1
        clear hz
        induction h1 with
        | nil => exact ⟨[], rfl, rfl⟩
        | @cons x l xs ls hx _ ih2 =>
          obtain ⟨p, text, q, g1, g2, rfl⟩ := hx
          obtain ⟨ps, i1, i2⟩ := ih2
          refine ⟨p :: ps, ?_, ?_⟩
          · simp only [List.map_cons, Function.comp_apply, colDef_unsigned, g1, allSome]
            simp only [Function.comp_def, colDef_unsigned] at i1
            simp only [Function.comp_def, colDef_unsigned]
            rw [i1]; rfl
          · simp only [List.map_cons, quotedLiteral_eq ft p text q g2, allSome, i2]; rfl
      obtain ⟨ps, q1, q2⟩ := hps
      refine ⟨ps :: params, by simp only [List.map_cons, q1, allSome, p1]; rfl, ?_⟩
      have hls : ls.length = old.length := by
        rw [← h1.length_eq, List.length_zip, hlen, Nat.min_self]
      simp only [List.map_cons, fillFragments_render ft _ ps ls q2, allSome, p2]
      rw [← render_missing _ ls (listed.length - old.length), render_insertFragments _ _ _ _ (by
        rw [List.length_append, List.length_replicate, List.length_map]; omega), List.map_map]
      rfl
  obtain ⟨params, h1, h2⟩ := hrows
  exact ⟨⟨db, insertFragments db tbl (listed.map ColDef.of), params⟩,
    by simp only [PreparedSql.fromInsert, hcs, h1, Option.map_some], h2⟩

/-- one column then, two now: the row 3 of the log -/
example (ft : FloatText) :
    List.Forall₂ (fun row ls => List.Forall₂ (TextOf ft) ([exampleCol "id" 2].zip row) ls) [[.long 3]] [[Spec.ascii "3"]] ∧
    Spec.insertText (Spec.ascii "d") (Spec.ascii "t")
        ((([exampleCol "id" 2] ++ [exampleCol "a" 0]).map (·.name)).zip ([Spec.ascii "3"] ++ List.replicate 1 []))
      = Spec.ascii "INSERT INTO `d`.`t` (`id`,`a`) VALUES (3,)" :=
  ⟨.cons (.cons ⟨.newInt 3, Spec.ascii "3", false, rfl, rfl, rfl⟩ .nil) .nil, by decide +kernel⟩

/-! ### columns that were dropped -/

theorem zip_take_congr {α β : Type} : ∀ (cs : List α) (m : Nat) (a b : List β), cs.length ≤ m → a.take m = b.take m →
    cs.zip a = cs.zip b
  | [], _, _, _, _, _ => by simp
  | c :: cs, m, a, b, h, e => by
    cases m with
    | zero => simp at h
    | succ m =>
      cases a with
      | nil =>
        cases b with
        | nil => rfl
        | cons y b => simp at e
      | cons x a =>
        cases b with
        | nil => simp at e
        | cons y b =>
          simp only [List.take_succ_cons, List.cons.injEq] at e
          simp only [List.zip_cons_cons, e.1]
          rw [zip_take_congr cs m a b (by simpa using h) e.2]

theorem rowParams_take (use : ColDef → Bool) (bm : Bytes) (now : List ColumnDefinition) (a b : List BinlogColumnValue)
    (h : a.take now.length = b.take now.length) :
    rowParams use (filterColDefs bm now) a = rowParams use (filterColDefs bm now) b := by
  unfold rowParams
  rw [zip_take_congr _ now.length a b (filterColDefs_length bm now) h]

theorem map_forall₂ {α β : Type} {f : α → β} {r : α → α → Prop} {a b : List α} (hf : ∀ x y, r x y → f x = f y)
    (h : List.Forall₂ r a b) : a.map f = b.map f := by
  induction h with
  | nil => rfl
  | cons h1 _ ih => rw [List.map_cons, List.map_cons, hf _ _ h1, ih]

/-- C106 fails when columns were dropped since: rows are cut to the number of columns of now. Two logs whose rows agree
in that many values give the same statements, whatever the other values are. -/
theorem C106_dropped_false (db tbl extra : Bytes) (n : Nat) (now : List ColumnDefinition) :
    (∀ (bm : Bytes) (rows rows' : List (List BinlogColumnValue)),
      List.Forall₂ (fun a b => a.take now.length = b.take now.length) rows rows' →
      PreparedSql.fromInsert db tbl ⟨extra, n, bm, rows⟩ now = PreparedSql.fromInsert db tbl ⟨extra, n, bm, rows'⟩ now ∧
      PreparedSql.fromDelete db tbl ⟨extra, n, bm, rows⟩ now
        = PreparedSql.fromDelete db tbl ⟨extra, n, bm, rows'⟩ now) ∧
    (∀ (bb ab : Bytes) (rows rows' : List (List BinlogColumnValue × List BinlogColumnValue)),
      List.Forall₂ (fun a b => a.1.take now.length = b.1.take now.length ∧ a.2.take now.length = b.2.take now.length)
        rows rows' →
      PreparedSql.fromUpdate db tbl ⟨extra, n, bb, ab, rows⟩ now
        = PreparedSql.fromUpdate db tbl ⟨extra, n, bb, ab, rows'⟩ now) := by
  constructor
  · intro bm rows rows' h
    have e : ∀ use, rows.map (rowParams use (filterColDefs bm now)) = rows'.map (rowParams use (filterColDefs bm now)) :=
      fun use => map_forall₂ (fun a b => rowParams_take use bm now a b) h
    simp only [PreparedSql.fromInsert, PreparedSql.fromDelete, e, and_self]
  · intro bb ab rows rows' h
    have e : rows.map (updateParams (filterColDefs bb now) (filterColDefs ab now))
        = rows'.map (updateParams (filterColDefs bb now) (filterColDefs ab now)) := by
      refine map_forall₂ (fun a b hab => ?_) h
      unfold updateParams
      rw [rowParams_take _ ab now _ _ hab.2, rowParams_take _ bb now _ _ hab.1]
    simp only [PreparedSql.fromUpdate, e]

/-- two rows that differ in the second of two columns, of which one is left -/
example : List.Forall₂ (fun a b => a.take [exampleCol "id" 2].length = b.take [exampleCol "id" 2].length)
    [[.long 1, .long 2]] [[BinlogColumnValue.long 1, .long 3]] := .cons rfl .nil

/-! ### tables that are gone -/

/-- how the server answers when the database, or the table, does not exist (any more) -/
def Spec.NoSuchTable (caps code : Nat) (state msg : Bytes) (msgs : List Bytes) : Prop :=
  Spec.ErrOk code state msg ∧
    (msgs = [Spec.errPacket (caps.testBit Spec.PROTOCOL_41) code state msg] ∨
      ∃ f : Spec.OkFields, f.InRange ∧
        msgs = [Spec.okPacket caps 0 f, Spec.errPacket (caps.testBit Spec.PROTOCOL_41) code state msg])

theorem fetchColumns_refused (caps : Nat) (db tbl : Bytes) (hdb : db.length < 256)
    (htbl : tbl.length < 256 ∧ (0 : UInt8) ∉ tbl) (code : Nat) (state msg : Bytes) (msgs : List Bytes)
    (h : Spec.NoSuchTable caps code state msg msgs) (c : Conn) (rest : Bytes) (hc : c.caps = caps)
    (hd : Spec.Delivers c.inp msgs rest) :
    ∃ c', fetchColumns db tbl c = .err (reported caps code state msg) c' := by
  subst hc
  obtain ⟨he, rfl | ⟨f, hf, rfl⟩⟩ := h
  · obtain ⟨c1, a1, -⟩ := (C61_init_db db (by omega) rest c).2.1 code state msg he hd
    exact ⟨c1, by unfold fetchColumns; rw [M.bind_apply, a1]; rfl⟩
  · obtain ⟨mid, d1, d2⟩ := Delivers.append (ms := [_]) (ns := [_]) hd
    obtain ⟨c1, a1, a2, a3, -⟩ := (C61_init_db db (by omega) mid c).1 f hf d1
    rw [← a2, ← a3] at d2
    obtain ⟨c2, b1, -⟩ := C64_err tbl (Cmd.str "%") htbl.2
      (by rw [show (Cmd.str "%").length = 1 from rfl]; omega) [] (by simp) code state msg rest c1 he d2
    exact ⟨c2, by unfold fetchColumns; rw [M.bind_apply, a1, MR.bind_ok, b1, a3]⟩

theorem onTableMap_refused {o : DmlOpts} {cat : Catalogue} {known : Nat → Option Spec.Table} {st : DmlState}
    (hk : Keeps o.wanted cat known st) (id flags : Nat) (hid : id < 2 ^ 48) (hfl : flags < 2 ^ 16) (t : Spec.Table)
    (ok : TableReadable t) (hkn : known id = none) (hw : o.wanted t = true) (caps : Nat) (hc : st.helper.caps = caps)
    (code : Nat) (state msg : Bytes) (msgs : List Bytes) (rest : Bytes)
    (hm : Spec.NoSuchTable caps code state msg msgs) (hd : Spec.Delivers st.helper.inp msgs rest) :
    onTableMap o st (Spec.le 6 id ++ Spec.le 2 flags ++ t.encode) = .err (reported caps code state msg) := by
  obtain ⟨hs, ht, hn, hnull, hcol, ms, hms⟩ := ok
  have h := hk id
  rw [hkn] at h
  dsimp only at h
  unfold onTableMap
  rw [List.append_assoc, C34_data id flags t.encode hid hfl]
  dsimp only
  rw [if_neg (by rw [h.1]; simpa using h.2)]
  have htm := C34_table_map_partial t ms hs ⟨ht.1, ht.2.1⟩ (by omega) hnull hcol hms []
  rw [List.append_nil] at htm
  rw [htm]
  dsimp only
  rw [wanted_eq, Bool.and_eq_true] at hw
  rw [if_neg (not_not.2 hw.1), if_neg (not_not.2 hw.2)]
  obtain ⟨c', a1⟩ := fetchColumns_refused caps t.schema t.table hs.1 ⟨ht.1, ht.2.2⟩ code state msg msgs hm st.helper rest
    hc hd
  rw [a1]

/-- C106 fails for tables that are gone: when the server does not know the table (or the database) any more, the run
ends there with the server's error. What was logged before it is printed, nothing of what was logged after it is,
whichever tables it is about. Only a limit that is reached before keeps the run from failing. -/
theorem C106_gone_false (ft : FloatText) (o : DmlOpts)
    (hf : o.filename.length < 10 ^ 9 ∧ validUtf8 o.filename = true) (uuid : Bytes) (hu : uuid.length = 36) (random : Nat)
    (hr : random < 2 ^ 32) (conn helper : Conn) (crc : Bool) (opening : List Bytes)
    (hopen : Spec.OpensStream conn.caps crc opening) (cat : Catalogue) (log : List (Spec.LogEvent × LogItem))
    (hin : ∀ x ∈ log, x.1.InRange ∧ x.1.Says x.2) (hrot : ∀ x ∈ log, x.2 = .rotate → o.untilNow = true)
    (hok : LogOk ft o.wanted cat (fun _ => none) (log.map (·.2)))
    (e : Spec.LogEvent) (he : e.InRange) (id : Nat) (t : Spec.Table) (hs : e.Says (.tableMap id t)) (ht : TableReadable t)
    (hw : o.wanted t = true) (hnew : (log.map (·.2)).foldl LogItem.announce (fun _ => none) id = none)
    (after : List Bytes) (rest : Bytes)
    (hd : Spec.Delivers conn.inp
      (opening ++ (log.map (fun x => Spec.streamMessage crc x.1) ++ Spec.streamMessage crc e :: after)) rest)
    (answers refusal : List Bytes) (hrest : Bytes) (code : Nat) (state msg : Bytes)
    (ha : Spec.ListsTables helper.caps cat (Spec.questions o.wanted (fun _ => none) (log.map (·.2))) answers)
    (hno : Spec.NoSuchTable helper.caps code state msg refusal)
    (hh : Spec.Delivers helper.inp (answers ++ refusal) hrest) :
    ∃ out, Spec.PrintsAll ft o.wanted cat (fun _ => none) log out ∧
      printDmls ft o uuid random conn helper
        = if o.limit = 0 ∨ statements out < o.limit then (out, .err (reported helper.caps code state msg))
          else (upTo o.limit out, .done) := by
  obtain ⟨hmid, hh1, hh2⟩ := Delivers.append hh
  obtain ⟨s, c1, a1, a2, a3, rfl, a5⟩ := requestStream_opens o hf uuid hu random hr conn crc opening _ rest hopen hd
  obtain ⟨out, st', c2, b1, b2, b3, b4, b5, b6, -⟩ := dmlLoop_flow (ft := ft) (o := { o with limit := 0 }) (cat := cat) rfl
    s a2 helper.caps log (fun _ => none) ⟨[], [], 0, helper⟩ c1 _ rest answers hmid (keeps_nothing _ _ _) hin hrot hok a5 rfl
    ha hh1
  have hfree : printDmls ft { o with limit := 0 } uuid random conn helper
      = (out, .err (reported helper.caps code state msg)) := by
    unfold printDmls
    rw [show ({ o with limit := 0 } : DmlOpts).request = o.request from rfl, a1]
    dsimp only
    obtain ⟨hcode, hid, flags, hfl, hpay⟩ := hs
    obtain ⟨c3, oe, d1, d2, -, -⟩ := nextLoop_event s e he (by rw [hcode]; decide) after rest c2 b3
    unfold Spec.Seen at d1
    rw [if_pos (by rw [hcode]; decide)] at d1
    obtain ⟨k, hk, rfl⟩ := d1
    have : k = .tableMap := kind_of_code (hk.trans hcode) _ rfl
    subst this
    have hl : dmlLoop ft { o with limit := 0 } s st' c2 = ([], .err (reported helper.caps code state msg)) := by
      rw [dmlLoop.eq_def]
      unfold BinlogStream.nextEvent
      rw [if_neg (by simp [a2]), d2]
      dsimp only
      have : onEvent ft { o with limit := 0 } st'
          ⟨.tableMap, ⟨e.timestamp, .tableMap, e.serverId, e.len s.pv4.checksum, e.nextPos, e.flags⟩, e.payload⟩
            = ([], .err (reported helper.caps code state msg)) := by
        unfold onEvent
        dsimp only
        rw [hpay, onTableMap_refused (o := { o with limit := 0 }) b4 id flags hid hfl t ht hnew hw helper.caps b6 code
          state msg refusal hrest hno (by rw [b5]; exact hh2)]
      rw [this]
    rw [b2, hl, List.append_nil]
  refine ⟨out, b1, ?_⟩
  by_cases hl : o.limit = 0
  · rw [if_pos (Or.inl hl), ← hfree, show ({ o with limit := 0 } : DmlOpts) = o from by rw [← hl]]
  · rw [C43_limit ft o uuid random conn helper hl, hfree]
    dsimp only
    by_cases h : statements out < o.limit
    · rw [if_pos (Or.inr h), if_neg (by omega), upTo_all _ _ h]
    · rw [if_pos (show o.limit ≤ statements out by omega), if_neg (show ¬ (o.limit = 0 ∨ statements out < o.limit) by omega)]

/-! ### columns that were renamed, and concrete runs -/

/-- the column of `exampleCatalogue` under another name -/
def renamedDef (n : Bytes) : Spec.ColDef := { exampleDef 8 with name := n }

def renamedCatalogue (n : Bytes) : Catalogue := fun _ _ => [clientDef (renamedDef n) .longLong []]

theorem renamed_lines (ft : FloatText) (limit : Nat) (n : Bytes) (out : List DmlLine)
    (h : Spec.PrintsAll ft (exampleOpts limit).wanted (renamedCatalogue n) (fun _ => none) exampleLog out) :
    out = [.stmt (Spec.insertText (Spec.ascii "d") (Spec.ascii "t") [(n, Spec.ascii "3")]),
      .stmt (Spec.insertText (Spec.ascii "d") (Spec.ascii "t") [(n, Spec.ascii "4")])] := by
  obtain ⟨ls, rest, rfl, p1, ls2, rest2, rfl, p2, ls3, rest3, rfl, p3, ls4, rest4, rfl, p4, p5⟩ := h
  have p1 : ls = [] := p1
  have p3 : ls3 = [] := p3
  have p4 : ls4 = [] := p4
  have p5 : rest4 = [] := p5
  subst p1 p3 p4 p5
  obtain ⟨decoded, stmts, q1, q2, rfl⟩ := p2
  have hrow : ∀ n vs, RowDenotes [.longLong] (exampleImage n).cells vs → vs = [.longLong n] := by
    intro n vs h
    cases vs with
    | nil => exact h.elim
    | cons v vs =>
      cases vs with
      | cons _ _ => exact h.2.elim
      | nil => rw [show v = .longLong n from h.1 trivial]
  cases q1 with
  | cons r1 q1 =>
  cases q1 with
  | cons r2 q1 =>
  cases q1
  rw [hrow 3 _ r1, hrow 4 _ r2] at q2
  cases q2 with
  | cons s1 q2 =>
  cases q2 with
  | cons s2 q2 =>
  cases q2
  obtain ⟨t1, e1, rfl⟩ := s1
  obtain ⟨t2, e2, rfl⟩ := s2
  have htext : ∀ (x : Nat) (ls : List Bytes),
      List.Forall₂ (TextOf ft) (logged [true] (renamedCatalogue n [] []) [.longLong x]) ls → ls = [natText x] := by
    intro x ls h
    have h : List.Forall₂ (TextOf ft) [(clientDef (renamedDef n) .longLong [], .longLong x)] ls := h
    cases h with
    | cons h1 h2 =>
      cases h2
      obtain ⟨p, t, q, e1, e2, rfl⟩ := h1
      injection (example_param x).symm.trans e1 with e1
      subst e1
      injection (show some (natText x, false) = some (t, q) from e2) with e2
      injection e2 with e3 e4
      subst e3 e4
      simp [Spec.quotedIf]
  have e1 := htext 3 t1 e1
  have e2 := htext 4 t2 e2
  subst e1 e2
  rfl

theorem renamed_logOk (ft : FloatText) (limit : Nat) (n : Bytes) :
    LogOk ft (exampleOpts limit).wanted (renamedCatalogue n) (fun _ => none) (exampleLog.map (·.2)) := by
  obtain ⟨h1, h2, h3, h4, h5⟩ := example_logOk ft limit
  refine ⟨h1, ?_, h3, ?_, h5⟩
  · intro t ht hw
    obtain ⟨g1, g2, g3⟩ := h2 t ht hw
    refine ⟨g1, ⟨g2.1, g2.2.1, g2.2.2⟩, fun r hr => ⟨(g3 r hr).1, ?_⟩⟩
    have ht : some exampleTable = some t := ht
    injection ht with ht
    subst ht
    simp only [List.mem_cons, List.not_mem_nil, or_false] at hr
    have : ∀ x : Nat, ImageWritable ft [.longLong] (renamedCatalogue n [] []) [true] (fun _ => true) (exampleImage x) := by
      intro x vs h y hy _
      cases vs with
      | nil => exact h.elim
      | cons v vs =>
        cases vs with
        | cons _ _ => exact h.2.elim
        | nil =>
          have hv : v = .longLong x := h.1 trivial
          subst hv
          have hy : y ∈ [(clientDef (renamedDef n) .longLong [], BinlogColumnValue.longLong x)] := hy
          rw [List.mem_singleton] at hy
          subst hy
          exact ⟨_, _, _, _, example_param x, rfl, rfl⟩
    rcases hr with rfl | rfl
    · exact this 3
    · exact this 4
  · intro t ht _
    cases ht

theorem renamed_lists (n : Bytes) (hn : n = Spec.ascii "a" ∨ n = Spec.ascii "b") :
    ∃ answers, Spec.ListsTables (2 ^ 9) (renamedCatalogue n)
      (Spec.questions (exampleOpts 0).wanted (fun _ => none) (exampleLog.map (·.2))) answers ∧
    ∀ m ∈ answers, m.length < 0xffffff := by
  have h : Spec.Supported (renamedDef n, .longLong) := by
    refine ⟨?_, by rcases hn with rfl | rfl <;> decide⟩
    rcases hn with rfl | rfl <;>
    constructor <;> first | (exact ⟨by decide +kernel, by decide +kernel⟩) | (exact (by decide +kernel))
  refine ⟨(Spec.okPacket (2 ^ 9) 0 ⟨0, 0, 2, 0, [], []⟩ ::
    Spec.fieldListResponse [(renamedDef n, none)] (Spec.eofPacket (2 ^ 9) 0 2)) ++ [],
    ⟨_, [], rfl, ⟨⟨0, 0, 2, 0, [], []⟩, [(renamedDef n, .longLong, none)], Spec.eofPacket (2 ^ 9) 0 2, ?_, ?_, ?_, rfl, rfl⟩,
      rfl⟩, ?_⟩
  · constructor <;> norm_num
  · intro col hcol
    simp only [List.mem_singleton] at hcol
    subst hcol
    exact ⟨h, by rcases hn with rfl | rfl <;> decide, by rintro v ⟨⟩⟩
  · unfold Spec.IsCommandEnd
    rw [if_neg (by decide)]
    exact ⟨0, 2, by norm_num, by norm_num, rfl⟩
  · rcases hn with rfl | rfl <;> decide +kernel

/-- C106 fails for columns that were renamed (or reordered, or dropped and replaced) since. The same log is read twice,
from the same stream: the column of the table was called `a` when the log was written, and is called `b` in the second run. The
second run prints statements for the column `b`, which are not those of the catalogue of the time of the log. -/
theorem C106_renamed_false (ft : FloatText) : ∃ conn old now : Conn,
    printDmls ft (exampleOpts 0) (List.replicate 36 0x61) 5 conn old
      = ([.stmt (Spec.ascii "INSERT INTO `d`.`t` (`a`) VALUES (3)"),
          .stmt (Spec.ascii "INSERT INTO `d`.`t` (`a`) VALUES (4)")], .done) ∧
    printDmls ft (exampleOpts 0) (List.replicate 36 0x61) 5 conn now
      = ([.stmt (Spec.ascii "INSERT INTO `d`.`t` (`b`) VALUES (3)"),
          .stmt (Spec.ascii "INSERT INTO `d`.`t` (`b`) VALUES (4)")], .done) ∧
    ¬ Spec.PrintsAll ft (exampleOpts 0).wanted (renamedCatalogue (Spec.ascii "a")) (fun _ => none) exampleLog
      (printDmls ft (exampleOpts 0) (List.replicate 36 0x61) 5 conn now).1 := by
  obtain ⟨opening, o1, o2⟩ := example_opens
  obtain ⟨inp, hd⟩ := delivers_small (opening ++ (exampleLog.map (fun x => Spec.streamMessage true x.1) ++ [[0xfe]])) [] (by
    intro m hm
    rcases List.mem_append.1 hm with hm | hm
    · exact o2 m hm
    · have : ∀ m ∈ exampleLog.map (fun x => Spec.streamMessage true x.1) ++ [[0xfe]], m.length < 0xffffff := by decide +kernel
      exact this m hm)
  have run : ∀ n, n = Spec.ascii "a" ∨ n = Spec.ascii "b" → ∃ helper : Conn,
      printDmls ft (exampleOpts 0) (List.replicate 36 0x61) 5 ⟨inp, [], 0, 2 ^ 9, 0⟩ helper
        = ([.stmt (Spec.insertText (Spec.ascii "d") (Spec.ascii "t") [(n, Spec.ascii "3")]),
            .stmt (Spec.insertText (Spec.ascii "d") (Spec.ascii "t") [(n, Spec.ascii "4")])], .done) := by
    intro n hn
    obtain ⟨answers, l1, l2⟩ := renamed_lists n hn
    obtain ⟨hinp, hh⟩ := delivers_small answers [] l2
    refine ⟨⟨hinp, [], 0, 2 ^ 9, 0⟩, ?_⟩
    obtain ⟨out, h1, h2⟩ := C43_prints_partial ft (exampleOpts 0) rfl
      ⟨(by decide +kernel : (Spec.ascii "f1").length < 10 ^ 9), (by decide +kernel : validUtf8 (Spec.ascii "f1") = true)⟩
      (List.replicate 36 0x61) (by simp) 5 (by norm_num) ⟨inp, [], 0, 2 ^ 9, 0⟩ ⟨hinp, [], 0, 2 ^ 9, 0⟩ true opening o1
      (renamedCatalogue n) exampleLog example_says (fun _ _ _ => rfl) (renamed_logOk ft 0 n) [] [] hd answers [] l1 hh
    rw [h2, if_pos (show (exampleOpts 0).limit = 0 from rfl), renamed_lines ft 0 n out h1]
  obtain ⟨old, r1⟩ := run (Spec.ascii "a") (Or.inl rfl)
  obtain ⟨now, r2⟩ := run (Spec.ascii "b") (Or.inr rfl)
  refine ⟨⟨inp, [], 0, 2 ^ 9, 0⟩, old, now, by rw [r1]; decide +kernel, by rw [r2]; decide +kernel, ?_⟩
  rw [r2]
  intro h
  have := renamed_lines ft 0 _ _ h
  revert this
  decide +kernel

/-- a run over the log of C43 in which the table is announced once more in the second file, and is gone by then -/
example (ft : FloatText) : ∃ conn helper : Conn, ∃ code state msg, Spec.ErrOk code state msg ∧
    printDmls ft (exampleOpts 0) (List.replicate 36 0x61) 5 conn helper
      = ([.stmt (Spec.ascii "INSERT INTO `d`.`t` (`a`) VALUES (3)"),
          .stmt (Spec.ascii "INSERT INTO `d`.`t` (`a`) VALUES (4)")], .err (reported (2 ^ 9) code state msg)) := by
  let e : Spec.LogEvent := ⟨1, 19, 7, 500, 0, Spec.le 6 5 ++ Spec.le 2 1 ++ exampleTable.encode⟩
  obtain ⟨answers, l1, l2⟩ := renamed_lists (Spec.ascii "a") (Or.inl rfl)
  obtain ⟨opening, o1, o2⟩ := example_opens
  obtain ⟨inp, hd⟩ := delivers_small (opening ++ (exampleLog.map (fun x => Spec.streamMessage true x.1)
      ++ [Spec.streamMessage true e])) [] (by
    intro m hm
    rcases List.mem_append.1 hm with hm | hm
    · exact o2 m hm
    · have : ∀ m ∈ exampleLog.map (fun x => Spec.streamMessage true x.1) ++ [Spec.streamMessage true e],
          m.length < 0xffffff := by decide +kernel
      exact this m hm)
  have hno : Spec.NoSuchTable (2 ^ 9) 1146 (Spec.ascii "42S02") (Spec.ascii "gone")
      [Spec.okPacket (2 ^ 9) 0 ⟨0, 0, 2, 0, [], []⟩,
        Spec.errPacket ((2 ^ 9 : Nat).testBit Spec.PROTOCOL_41) 1146 (Spec.ascii "42S02") (Spec.ascii "gone")] := by
    refine ⟨⟨by norm_num, by decide +kernel, by decide +kernel, by decide +kernel⟩,
      Or.inr ⟨⟨0, 0, 2, 0, [], []⟩, ?_, rfl⟩⟩
    constructor <;> norm_num
  obtain ⟨hinp, hh⟩ := delivers_small (answers ++ [Spec.okPacket (2 ^ 9) 0 ⟨0, 0, 2, 0, [], []⟩,
      Spec.errPacket ((2 ^ 9 : Nat).testBit Spec.PROTOCOL_41) 1146 (Spec.ascii "42S02") (Spec.ascii "gone")]) [] (by
    intro m hm
    rcases List.mem_append.1 hm with hm | hm
    · exact l2 m hm
    · have : ∀ m ∈ [Spec.okPacket (2 ^ 9) 0 ⟨0, 0, 2, 0, [], []⟩,
          Spec.errPacket ((2 ^ 9 : Nat).testBit Spec.PROTOCOL_41) 1146 (Spec.ascii "42S02") (Spec.ascii "gone")],
          m.length < 0xffffff := by decide +kernel
      exact this m hm)
  refine ⟨⟨inp, [], 0, 2 ^ 9, 0⟩, ⟨hinp, [], 0, 2 ^ 9, 0⟩, 1146, Spec.ascii "42S02", Spec.ascii "gone", hno.1, ?_⟩
  obtain ⟨out, h1, h2⟩ := C106_gone_false ft (exampleOpts 0)
    ⟨(by decide +kernel : (Spec.ascii "f1").length < 10 ^ 9), (by decide +kernel : validUtf8 (Spec.ascii "f1") = true)⟩
    (List.replicate 36 0x61) (by simp) 5 (by norm_num) ⟨inp, [], 0, 2 ^ 9, 0⟩ ⟨hinp, [], 0, 2 ^ 9, 0⟩ true opening o1
    (renamedCatalogue (Spec.ascii "a")) exampleLog example_says (fun _ _ _ => rfl) (renamed_logOk ft 0 _)
    e (by unfold Spec.LogEvent.InRange; decide +kernel) 5 exampleTable ⟨rfl, by norm_num, 1, by norm_num, rfl⟩
    (example_logOk ft 0).1.1 (by decide +kernel) rfl [] [] hd answers _ [] 1146 (Spec.ascii "42S02") (Spec.ascii "gone") l1 hno hh
  rw [h2, if_pos (Or.inl (show (exampleOpts 0).limit = 0 from rfl)), renamed_lines ft 0 _ out h1]
  congr 1

end Mybin
