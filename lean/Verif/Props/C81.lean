/-
C81: running the statements made from row events on a copy of the tables makes the same changes to its rows.
-/
import Verif.Props.C80
import Verif.Lemmas.Replay

namespace Mybin

open Spec (Covers Front logged ColKind Val Fits Lit Ends FloatRead Stmt Column Row Change Cell Image CellsFit Schema
  Contents LogItem TableId)

/-- the column of the catalogue is this column of the copy -/
def Describes (c : Column) (d : ColumnDefinition) : Prop :=
  d.name = c.name ∧ d.flags.testBit 5 = c.unsigned ∧ IsKey d = c.key

/-- The copy has the table: the columns of the log and of the catalogue, with different names, none with a backtick. -/
structure CopyOf (schema : Schema) (db tbl : Bytes) (kinds : List ColKind) (defs : List ColumnDefinition)
    (cols : List Column) : Prop where
  has : schema (db, tbl) = some cols
  kinds : kinds = cols.map (·.kind)
  defs : List.Forall₂ Describes cols defs
  distinct : (cols.map (·.name)).Nodup
  names : 0x60 ∉ db ∧ 0x60 ∉ tbl ∧ ∀ c ∈ cols, 0x60 ∉ c.name
  some_col : cols ≠ []

/-- the value of a column in an image -/
def Cell.val? : Cell → Option Val
  | .value v => some v
  | _ => none

/-- the row an image is of, when all columns are logged -/
def rowOf (r : Image) : Row := r.cells.map Cell.val?

/-- the values of the columns that are used are decoded and written correctly (see C37 and C79) -/
def RowWritable (ft : FloatText) (fl : FloatRead) (use : Column → Bool) (cols : List Column) (r : Image) : Prop :=
  ∀ y ∈ cols.zip r.cells, use y.1 = true → ∀ v, y.2 = .value v → Sound y.1.kind v ∧ Writable ft fl y.1.kind v

/-! ### one row -/

theorem row_lits (ft : FloatText) (fl : FloatRead) (use : ColumnDefinition → Bool) (use' : Column → Bool)
    (cols : List Column) : ∀ (defs : List ColumnDefinition) (cells : List Cell) (vs : List BinlogColumnValue),
    List.Forall₂ (fun c d => Describes c d ∧ use d = use' c) cols defs → (∀ c ∈ cols, c.kind.Ok) →
    CellsFit (cols.map (·.kind)) cells → RowDenotes (cols.map (·.kind)) cells vs →
    (∀ y ∈ cols.zip cells, use' y.1 = true → ∀ v, y.2 = .value v → Sound y.1.kind v ∧ Writable ft fl y.1.kind v) →
    ∃ ls, Written ft ((defs.zip vs).filter fun x => use x.1) ls ∧
      List.Forall₂ (TakesFrom fl) ((cols.zip (cells.map Cell.val?)).filter fun y => use' y.1) ls := by
  induction cols with
  | nil =>
    intro defs cells vs hd _ _ _ _
    cases hd
    exact ⟨[], by rw [List.zip_nil_left]; exact List.Forall₂.nil, by rw [List.zip_nil_left]; exact List.Forall₂.nil⟩
  | cons c cols ih =>
    intro defs cells vs hd hk hf hr hw
    cases hd with
    | @cons _ d _ defs hd1 hd2 =>
      cases cells with
      | nil => simp [RowDenotes] at hr
      | cons x cells =>
        cases vs with
        | nil => simp [RowDenotes] at hr
        | cons v vs =>
          obtain ⟨hr1, hr2⟩ := hr
          have hf2 : CellsFit (cols.map (·.kind)) cells := by
            cases x <;> simp only [List.map_cons, CellsFit] at hf
            · exact hf
            · exact hf
            · exact hf.2
          obtain ⟨ls, h1, h2⟩ := ih defs cells vs hd2 (fun c h => hk c (List.mem_cons_of_mem _ h)) hf2 hr2
            (fun y hy => hw y (by rw [List.zip_cons_cons]; exact List.mem_cons_of_mem _ hy))
          rw [List.map_cons, List.zip_cons_cons, List.zip_cons_cons]
          cases hu : use' c with
          | false =>
            rw [List.filter_cons_of_neg (by simp [hd1.2, hu]), List.filter_cons_of_neg (by simp [hu])]
            exact ⟨ls, h1, h2⟩
          | true =>
            rw [List.filter_cons_of_pos (by simp [hd1.2, hu]), List.filter_cons_of_pos (by simp [hu])]
            have hnull : v = .null → Cell.val? x = none → ∃ l, WrittenAs ft (d.flags.testBit 5) v l ∧
                c.take fl l = some (Cell.val? x) := by
              rintro rfl hx
              obtain ⟨p, t, q, e1, e2, e3⟩ := C79_null ft (d.flags.testBit 5)
              exact ⟨.null, ⟨p, t, q, e1, e2, fun tail _ => e3 tail⟩, by rw [hx]; rfl⟩
            obtain ⟨l, h3, h4⟩ : ∃ l, WrittenAs ft (d.flags.testBit 5) v l ∧ c.take fl l = some (Cell.val? x) := by
              cases x with
              | absent => exact hnull hr1 rfl
              | null => exact hnull hr1 rfl
              | value w =>
                obtain ⟨hs, hwr⟩ := hw (c, .value w) (by simp) hu w rfl
                obtain ⟨l, e1, e2, e3⟩ := literal_denotes ft fl c.kind w (d.flags.testBit 5) v
                  (hk c List.mem_cons_self) hf.1 hs hwr (hr1 hs)
                refine ⟨l, e1, ?_⟩
                rw [hd1.1.2.1] at e2
                unfold Column.take
                split
                · exact absurd rfl e3
                · rw [e2]; rfl
            exact ⟨l :: ls, .cons h3 h1, .cons h4 h2⟩

/-- all columns are logged -/
theorem logged_all {α β : Type} : ∀ (cols : List α) (row : List β) (n : Nat), n = cols.length →
    logged (List.replicate n true) cols row = cols.zip row := by
  intro cols
  induction cols with
  | nil => intro row n hn; subst hn; rfl
  | cons c cols ih =>
    intro row n hn
    subst hn
    cases row with
    | nil => rfl
    | cons v row =>
      have := ih row _ rfl
      unfold logged at this ⊢
      rw [List.length_cons, List.replicate_succ, List.zip_cons_cons, List.zip_cons_cons,
        List.filter_cons_of_pos (by rfl), List.map_cons, this]

theorem rowDenotes_length (ks : List ColKind) : ∀ (cells : List Cell) (vs : List BinlogColumnValue),
    RowDenotes ks cells vs → cells.length = ks.length ∧ vs.length = ks.length := by
  induction ks with
  | nil => intro cells vs h; cases cells <;> cases vs <;> simp_all [RowDenotes]
  | cons k ks ih =>
    intro cells vs h
    cases cells with
    | nil => simp [RowDenotes] at h
    | cons x cells =>
      cases vs with
      | nil => simp [RowDenotes] at h
      | cons v vs =>
        have := ih cells vs h.2
        simp; omega

theorem use_names (use : ColumnDefinition → Bool) (use' : Column → Bool) (cols : List Column) (defs : List ColumnDefinition)
    (h : List.Forall₂ (fun c d => Describes c d ∧ use d = use' c) cols defs) : ∀ (vs : List BinlogColumnValue) (row : Row),
    vs.length = cols.length → row.length = cols.length →
    ((defs.zip vs).filter fun x => use x.1).map (·.1.name) = ((cols.zip row).filter fun y => use' y.1).map (·.1.name) := by
  induction h with
  | nil => intro vs row _ _; simp
  | @cons c d cols defs h1 _ ih =>
    intro vs row hv hr
    cases vs with
    | nil => cases hv
    | cons v vs =>
      cases row with
      | nil => cases hr
      | cons w row =>
        have := ih vs row (by simpa using hv) (by simpa using hr)
        rw [List.zip_cons_cons, List.zip_cons_cons]
        cases hu : use' c with
        | false =>
          rw [List.filter_cons_of_neg (by simp [h1.2, hu]), List.filter_cons_of_neg (by simp [hu])]
          exact this
        | true =>
          rw [List.filter_cons_of_pos (by simp [h1.2, hu]), List.filter_cons_of_pos (by simp [hu]), List.map_cons,
            List.map_cons, this, h1.1.1]

/-- the statement makes the change -/
def Replays (schema : Schema) (fl : FloatRead) (ch : TableId × Change) (stmt : Bytes) : Prop :=
  ∀ rows : Contents, schema.RowsOk rows → (∃ cols, schema ch.1 = some cols ∧ ch.2.Keyed cols (rows ch.1)) →
    ∃ st, Spec.parse stmt = some st ∧ schema.exec fl rows st = some (rows.apply ch) ∧ schema.RowsOk (rows.apply ch)

theorem rowsOk_apply (schema : Schema) (rows : Contents) (t : TableId) (cols : List Column) (ht : schema t = some cols)
    (h : schema.RowsOk rows) (ch : Change) (hc : ∀ r ∈ ch.apply (rows t), r.length = cols.length) :
    schema.RowsOk (rows.apply (t, ch)) := by
  intro u cs hu r hr
  unfold Contents.apply Contents.set at hr
  dsimp only at hr
  split at hr
  · next e =>
    subst e
    rw [ht] at hu
    injection hu with hu
    subst hu
    exact hc r hr
  · exact h u cs hu r hr

section OneRow

variable {ft : FloatText} {fl : FloatRead} {schema : Schema} {db tbl : Bytes} {kinds : List ColKind}
  {defs : List ColumnDefinition} {cols : List Column} (hcopy : CopyOf schema db tbl kinds defs cols)
  (hk : ∀ k ∈ kinds, k.Ok)

include hcopy

theorem describes_all : List.Forall₂ (fun c d => Describes c d ∧ (fun _ : ColumnDefinition => true) d = (fun _ : Column => true) c)
    cols defs := hcopy.defs.imp fun _ _ h => ⟨h, rfl⟩

theorem describes_key : List.Forall₂ (fun c d => Describes c d ∧ IsKey d = c.key) cols defs :=
  hcopy.defs.imp fun _ _ h => ⟨h, h.2.2⟩

theorem copy_names : ∀ d ∈ defs, 0x60 ∉ d.name := by
  have h := hcopy.names.2.2
  have hd := hcopy.defs
  clear * - h hd
  induction hd with
  | nil => intro d hd; cases hd
  | cons h1 _ ih =>
    intro d hd
    rcases List.mem_cons.1 hd with rfl | hd
    · rw [h1.1]; exact h _ List.mem_cons_self
    · exact ih (fun c hc => h c (List.mem_cons_of_mem _ hc)) d hd

theorem rowOf_length (r : Image) (vs : List BinlogColumnValue) (hd : RowDenotes kinds r.cells vs) :
    (rowOf r).length = cols.length ∧ vs.length = cols.length := by
  have := rowDenotes_length _ _ _ hd
  rw [hcopy.kinds, List.length_map] at this
  exact ⟨by rw [rowOf, List.length_map]; exact this.1, this.2⟩

include hk

/-- the literals of the row's used columns -/
theorem used_lits (use : ColumnDefinition → Bool) (use' : Column → Bool)
    (hu : List.Forall₂ (fun c d => Describes c d ∧ use d = use' c) cols defs) (r : Image) (vs : List BinlogColumnValue)
    (hf : CellsFit kinds r.cells) (hd : RowDenotes kinds r.cells vs) (hw : RowWritable ft fl use' cols r) :
    ∃ ls, Written ft ((defs.zip vs).filter fun x => use x.1) ls ∧
      List.Forall₂ (TakesFrom fl) ((cols.zip (rowOf r)).filter fun y => use' y.1) ls := by
  have e := hcopy.kinds
  subst e
  exact row_lits ft fl use use' cols defs r.cells vs hu
    (fun c hc => hk _ (List.mem_map_of_mem hc)) hf hd hw

theorem used_equations (use : ColumnDefinition → Bool) (use' : Column → Bool)
    (hu : List.Forall₂ (fun c d => Describes c d ∧ use d = use' c) cols defs) (r : Image) (vs : List BinlogColumnValue)
    (hf : CellsFit kinds r.cells) (hd : RowDenotes kinds r.cells vs) (hw : RowWritable ft fl use' cols r)
    (ts : List Bytes) (ht : List.Forall₂ (TextOf ft) ((defs.zip vs).filter fun x => use x.1) ts) :
    ∃ ls, List.Forall₂ (TakesFrom fl) ((cols.zip (rowOf r)).filter fun y => use' y.1) ls ∧
      Equations (named ((defs.zip vs).filter fun x => use x.1) ts) ls ∧
      (named ((defs.zip vs).filter fun x => use x.1) ts).map (·.1)
        = ((cols.zip (rowOf r)).filter fun y => use' y.1).map (·.1.name) := by
  obtain ⟨ls, h1, h2⟩ := used_lits hcopy hk use use' hu r vs hf hd hw
  refine ⟨ls, h2, written_equations ft _ ls h1 (fun x hx => ?_) ts ht, ?_⟩
  · exact copy_names hcopy _ (List.of_mem_zip (List.mem_filter.1 hx).1).1
  · have hl := rowOf_length hcopy r vs hd
    rw [named_names ft _ ts ht, use_names use use' cols defs hu vs (rowOf r) hl.2 hl.1]

theorem replays_insert (r : Image) (vs : List BinlogColumnValue) (hf : CellsFit kinds r.cells)
    (hd : RowDenotes kinds r.cells vs) (hw : RowWritable ft fl (fun _ => true) cols r)
    (ts : List Bytes) (ht : List.Forall₂ (TextOf ft) (defs.zip vs) ts) :
    Replays schema fl ((db, tbl), .insert (rowOf r)) (Spec.insertText db tbl (named (defs.zip vs) ts)) := by
  intro rows hro _
  have hl := rowOf_length hcopy r vs hd
  obtain ⟨ls, h1, h2, h3⟩ := used_equations hcopy hk (fun _ => true) (fun _ => true) (describes_all hcopy) r vs hf hd hw ts
    (by rw [List.filter_eq_self.2 (fun _ _ => rfl)]; exact ht)
  rw [List.filter_eq_self.2 (fun _ _ => rfl)] at h1 h2 h3
  rw [List.filter_eq_self.2 (fun _ _ => rfl), zip_names _ _ hl.1] at h3
  have hne : named (defs.zip vs) ts ≠ [] := by
    intro e
    rw [e] at h3
    exact hcopy.some_col (List.map_eq_nil_iff.1 h3.symm)
  refine ⟨_, parse_insert db tbl _ ls hcopy.names.1 hcopy.names.2.1 h2 hne, ?_, ?_⟩
  · rw [h3, Schema.exec]
    show (schema (db, tbl)).bind _ = _
    rw [hcopy.has, Option.bind_some]
    dsimp only [Stmt.table]
    rw [exec_insert ⟨db, tbl, cols⟩ fl hcopy.distinct (rows (db, tbl)) (rowOf r) ls hl.1 h1]
    rfl
  · refine rowsOk_apply schema rows _ cols hcopy.has hro _ ?_
    intro x hx
    rcases List.mem_append.1 hx with hx | hx
    · exact hro _ _ hcopy.has x hx
    · rw [List.mem_singleton.1 hx]; exact hl.1

theorem key_ne_nil (hkey : ∃ c ∈ cols, c.key = true) (row : Row) (hl : row.length = cols.length) :
    ((cols.zip row).filter fun y => y.1.key).map (·.1.name) ≠ [] := by
  obtain ⟨c, hc, hck⟩ := hkey
  obtain ⟨i, hi, e⟩ := List.getElem_of_mem hc
  intro h
  have h := List.map_eq_nil_iff.1 h
  have : (c, row[i]'(by omega)) ∈ (cols.zip row).filter fun y => y.1.key := by
    rw [List.mem_filter]
    refine ⟨List.mem_iff_getElem.2 ⟨i, by simp; omega, by simp [e]⟩, hck⟩
  rw [h] at this
  cases this

theorem replays_delete (hkey : ∃ c ∈ cols, c.key = true) (r : Image) (vs : List BinlogColumnValue)
    (hf : CellsFit kinds r.cells) (hd : RowDenotes kinds r.cells vs) (hw : RowWritable ft fl (·.key) cols r)
    (ts : List Bytes) (ht : List.Forall₂ (TextOf ft) ((defs.zip vs).filter fun x => IsKey x.1) ts) :
    Replays schema fl ((db, tbl), .delete (rowOf r))
      (Spec.deleteText db tbl (named ((defs.zip vs).filter fun x => IsKey x.1) ts)) := by
  rintro rows hro ⟨cs, hcs, hkeyed⟩
  rw [hcopy.has] at hcs
  injection hcs with hcs
  subst hcs
  have hl := rowOf_length hcopy r vs hd
  obtain ⟨ls, h1, h2, h3⟩ := used_equations hcopy hk IsKey (·.key) (describes_key hcopy) r vs hf hd hw ts ht
  have hne : named ((defs.zip vs).filter fun x => IsKey x.1) ts ≠ [] := by
    intro e
    rw [e] at h3
    exact key_ne_nil hcopy hk hkey (rowOf r) hl.1 h3.symm
  refine ⟨_, parse_delete db tbl _ ls hcopy.names.1 hcopy.names.2.1 h2 hne, ?_, ?_⟩
  · rw [h3, Schema.exec]
    show (schema (db, tbl)).bind _ = _
    rw [hcopy.has, Option.bind_some]
    dsimp only [Stmt.table]
    have := exec_delete ⟨db, tbl, cols⟩ fl hcopy.distinct (rows (db, tbl)) (rowOf r) ls hl.1 (hro _ _ hcopy.has) hkeyed h1
    unfold equationsOf at this
    rw [this]
    rfl
  · refine rowsOk_apply schema rows _ cols hcopy.has hro _ ?_
    intro x hx
    exact hro _ _ hcopy.has x (List.mem_filter.1 hx).1

theorem replays_update (hkey : ∃ c ∈ cols, c.key = true) (r s : Image) (vs us : List BinlogColumnValue)
    (hf : CellsFit kinds r.cells) (hd : RowDenotes kinds r.cells vs) (hw : RowWritable ft fl (·.key) cols r)
    (hf2 : CellsFit kinds s.cells) (hd2 : RowDenotes kinds s.cells us) (hw2 : RowWritable ft fl (fun _ => true) cols s)
    (ts ks : List Bytes) (ht : List.Forall₂ (TextOf ft) (defs.zip us) ts)
    (htk : List.Forall₂ (TextOf ft) ((defs.zip vs).filter fun x => IsKey x.1) ks) :
    Replays schema fl ((db, tbl), .update (rowOf r) (rowOf s))
      (Spec.updateText db tbl (named (defs.zip us) ts) (named ((defs.zip vs).filter fun x => IsKey x.1) ks)) := by
  rintro rows hro ⟨cs, hcs, hkeyed⟩
  rw [hcopy.has] at hcs
  injection hcs with hcs
  subst hcs
  have hl := rowOf_length hcopy r vs hd
  have hl2 := rowOf_length hcopy s us hd2
  obtain ⟨ls, h1, h2, h3⟩ := used_equations hcopy hk IsKey (·.key) (describes_key hcopy) r vs hf hd hw ks htk
  obtain ⟨ms, g1, g2, g3⟩ := used_equations hcopy hk (fun _ => true) (fun _ => true) (describes_all hcopy) s us hf2 hd2 hw2 ts
    (by rw [List.filter_eq_self.2 (fun _ _ => rfl)]; exact ht)
  rw [List.filter_eq_self.2 (fun _ _ => rfl)] at g1 g2 g3
  rw [List.filter_eq_self.2 (fun _ _ => rfl)] at g3
  have hne : named ((defs.zip vs).filter fun x => IsKey x.1) ks ≠ [] := by
    intro e
    rw [e] at h3
    exact key_ne_nil hcopy hk hkey (rowOf r) hl.1 h3.symm
  have hne2 : named (defs.zip us) ts ≠ [] := by
    intro e
    rw [e, zip_names _ _ hl2.1] at g3
    exact hcopy.some_col (List.map_eq_nil_iff.1 g3.symm)
  refine ⟨_, parse_update db tbl _ _ ms ls hcopy.names.1 hcopy.names.2.1 g2 hne2 h2 hne, ?_, ?_⟩
  · rw [h3, g3, Schema.exec]
    show (schema (db, tbl)).bind _ = _
    rw [hcopy.has, Option.bind_some]
    dsimp only [Stmt.table]
    have := exec_update ⟨db, tbl, cols⟩ fl hcopy.distinct (rows (db, tbl)) (rowOf r) (rowOf s) ls ms hl.1 hl2.1
      (hro _ _ hcopy.has) hkeyed h1 g1
    unfold equationsOf at this
    rw [this]
    rfl
  · refine rowsOk_apply schema rows _ cols hcopy.has hro _ ?_
    intro x hx
    obtain ⟨y, hy, rfl⟩ := List.mem_map.1 hx
    split
    · exact hl2.1
    · exact hro _ _ hcopy.has y hy

end OneRow

/-! ### many rows -/

theorem run_replays (schema : Schema) (fl : FloatRead) (chs : List (TableId × Change)) (stmts : List Bytes)
    (h : List.Forall₂ (Replays schema fl) chs stmts) : ∀ rows, schema.RowsOk rows → schema.Keyed rows chs →
    schema.run fl rows stmts = some (chs.foldl Contents.apply rows) := by
  induction h with
  | nil => intro rows _ _; rfl
  | cons h1 _ ih =>
    intro rows hr hk
    obtain ⟨st, e1, e2, e3⟩ := h1 rows hr hk.1
    rw [Schema.run, e1, Option.bind_some, e2, Option.bind_some]
    exact ih _ e3 hk.2

/-- every column is logged -/
abbrev full (kinds : List ColKind) : List Bool := List.replicate kinds.length true

theorem full_front (kinds : List ColKind) : Front (full kinds) := by
  intro i j hij hj
  have hlt : j < (full kinds).length := by
    by_contra hc
    rw [List.getElem?_eq_none (by omega)] at hj
    cases hj
  rw [List.length_replicate] at hlt
  rw [List.getElem?_replicate, if_pos (by omega)]

/-- the image is of a row of the table, with all columns, and its used values are decoded and written correctly -/
def ImageGood (ft : FloatText) (fl : FloatRead) (kinds : List ColKind) (use : Column → Bool) (cols : List Column) (r : Image) : Prop :=
  r.Ok kinds (full kinds) ∧ WidthCells kinds r.cells ∧ RowWritable ft fl use cols r

section Rows

variable {ft : FloatText} {fl : FloatRead} {schema : Schema} {db tbl : Bytes} {kinds : List ColKind}
  {defs : List ColumnDefinition} {cols : List Column} (hcopy : CopyOf schema db tbl kinds defs cols)
  (hk : ∀ k ∈ kinds, k.Ok)

include hcopy

theorem copy_length : defs.length = kinds.length ∧ cols.length = kinds.length := by
  have h := hcopy.defs.length_eq
  rw [hcopy.kinds, List.length_map]
  exact ⟨h.symm, rfl⟩

theorem full_mem : true ∈ full kinds := by
  have h := (copy_length hcopy).2
  have : 0 < cols.length := List.length_pos_iff.2 hcopy.some_col
  exact List.mem_replicate.2 ⟨by omega, rfl⟩

include hk

theorem all_text (r : Image) (vs : List BinlogColumnValue) (hr : ImageGood ft fl kinds (fun _ => true) cols r)
    (hd : RowDenotes kinds r.cells vs) : ∀ x ∈ logged (full kinds) defs vs, ∃ l, TextOf ft x l := by
  rw [logged_all _ _ _ (copy_length hcopy).1.symm]
  obtain ⟨ls, h1, -⟩ := used_lits hcopy hk (fun _ => true) (fun _ => true) (describes_all hcopy) r vs hr.1.1 hd hr.2.2
  rw [List.filter_eq_self.2 (fun _ _ => rfl)] at h1
  exact written_text ft _ ls h1

theorem key_text (r : Image) (vs : List BinlogColumnValue) (hr : ImageGood ft fl kinds (·.key) cols r)
    (hd : RowDenotes kinds r.cells vs) : ∀ x ∈ logged (full kinds) defs vs, IsKey x.1 = true → ∃ l, TextOf ft x l := by
  rw [logged_all _ _ _ (copy_length hcopy).1.symm]
  obtain ⟨ls, h1, -⟩ := used_lits hcopy hk IsKey (·.key) (describes_key hcopy) r vs hr.1.1 hd hr.2.2
  exact fun x hx hi => written_text ft _ ls h1 x (List.mem_filter.2 ⟨hx, hi⟩)

theorem inserts_replay (images : List Image) (decoded : List (List BinlogColumnValue)) (stmts : List Bytes)
    (hr : ∀ r ∈ images, ImageGood ft fl kinds (fun _ => true) cols r)
    (hd : List.Forall₂ (fun r vs => RowDenotes kinds r.cells vs) images decoded)
    (hi : InsertsOwnValues ft db tbl defs (full kinds) decoded stmts) :
    List.Forall₂ (Replays schema fl) (images.map fun r => ((db, tbl), Change.insert (rowOf r))) stmts := by
  unfold InsertsOwnValues at hi
  induction hd generalizing stmts with
  | nil => cases hi; exact .nil
  | @cons r vs images decoded h1 _ ih =>
    cases hi with
    | cons h3 h4 =>
      obtain ⟨ts, ht, rfl⟩ := h3
      rw [logged_all _ _ _ (copy_length hcopy).1.symm] at ht ⊢
      have hg := hr r List.mem_cons_self
      exact .cons (replays_insert hcopy hk r vs hg.1.1 h1 hg.2.2 ts ht)
        (ih _ (fun r h => hr r (List.mem_cons_of_mem _ h)) h4)

theorem deletes_replay (hkey : ∃ c ∈ cols, c.key = true) (images : List Image) (decoded : List (List BinlogColumnValue))
    (stmts : List Bytes) (hr : ∀ r ∈ images, ImageGood ft fl kinds (·.key) cols r)
    (hd : List.Forall₂ (fun r vs => RowDenotes kinds r.cells vs) images decoded)
    (hi : DeletesByOwnKey ft db tbl defs (full kinds) decoded stmts) :
    List.Forall₂ (Replays schema fl) (images.map fun r => ((db, tbl), Change.delete (rowOf r))) stmts := by
  unfold DeletesByOwnKey at hi
  induction hd generalizing stmts with
  | nil => cases hi; exact .nil
  | @cons r vs images decoded h1 _ ih =>
    cases hi with
    | cons h3 h4 =>
      obtain ⟨ts, ht, rfl⟩ := h3
      rw [logged_all _ _ _ (copy_length hcopy).1.symm] at ht ⊢
      have hg := hr r List.mem_cons_self
      exact .cons (replays_delete hcopy hk hkey r vs hg.1.1 h1 hg.2.2 ts ht)
        (ih _ (fun r h => hr r (List.mem_cons_of_mem _ h)) h4)

theorem updates_replay (hkey : ∃ c ∈ cols, c.key = true) (images : List (Image × Image))
    (decoded : List (List BinlogColumnValue × List BinlogColumnValue)) (stmts : List Bytes)
    (hr : ∀ r ∈ images, ImageGood ft fl kinds (·.key) cols r.1 ∧ ImageGood ft fl kinds (fun _ => true) cols r.2)
    (hd : List.Forall₂ (fun r vs => RowDenotes kinds r.1.cells vs.1 ∧ RowDenotes kinds r.2.cells vs.2) images decoded)
    (hi : UpdatesOwnValues ft db tbl defs (full kinds) (full kinds) decoded stmts) :
    List.Forall₂ (Replays schema fl) (images.map fun r => ((db, tbl), Change.update (rowOf r.1) (rowOf r.2))) stmts := by
  unfold UpdatesOwnValues at hi
  induction hd generalizing stmts with
  | nil => cases hi; exact .nil
  | @cons r vs images decoded h1 _ ih =>
    cases hi with
    | cons h3 h4 =>
      obtain ⟨ts, ks, ht, htk, rfl⟩ := h3
      rw [logged_all _ _ _ (copy_length hcopy).1.symm] at ht htk ⊢
      rw [logged_all _ _ _ (copy_length hcopy).1.symm]
      obtain ⟨hg1, hg2⟩ := hr r List.mem_cons_self
      exact .cons (replays_update hcopy hk hkey r.1 r.2 vs.1 vs.2 hg1.1.1 h1.1 hg1.2.2 hg2.1.1 h1.2 hg2.2.2 ts ks ht htk)
        (ih _ (fun r h => hr r (List.mem_cons_of_mem _ h)) h4)

end Rows

theorem forall₂_right {α β : Type} {R : α → β → Prop} {l : List α} {m : List β} (h : List.Forall₂ R l m) :
    ∀ b ∈ m, ∃ a ∈ l, R a b := by
  induction h with
  | nil => intro b hb; cases hb
  | cons h1 _ ih =>
    intro b hb
    rcases List.mem_cons.1 hb with rfl | hb
    · exact ⟨_, List.mem_cons_self, h1⟩
    · obtain ⟨a, ha, h⟩ := ih b hb
      exact ⟨a, List.mem_cons_of_mem _ ha, h⟩

/-- C81 for inserted rows: the bytes of a write event for a table (all columns logged) are decoded, the statements are
made, and a server with a copy of the table that runs them appends the rows of the event, in order, and changes no
other table. (Full claim: all values and all names. Missing: those that C37, C79 and C80 exclude.) -/
theorem C81_insert_partial (ft : FloatText) (fl : FloatRead) (schema : Schema) (db tbl : Bytes) (kinds : List ColKind)
    (ms : List ColumnMeta) (defs : List ColumnDefinition) (cols : List Column)
    (hcopy : CopyOf schema db tbl kinds defs cols) (hk : ∀ k ∈ kinds, k.Ok) (hm : kinds.map metaOf = ms.map some)
    (hn : kinds.length + 7 < 2 ^ 32) (extra bm : Bytes) (he : extra.length + 2 < 2 ^ 16) (hp : Covers bm (full kinds))
    (images : List Image) (hr : ∀ r ∈ images, ImageGood ft fl kinds (fun _ => true) cols r)
    (rows : Contents) (hrows : schema.RowsOk rows) :
    ∃ ev p stmts, RowsV2.readFrom (extra.length + 2) ms (Spec.rowsPayload kinds extra bm images) = .ok ev [] ∧
      PreparedSql.fromInsert db tbl ev defs = some p ∧ p.sqlList ft = some stmts ∧
      schema.run fl rows stmts = some (rows.set (db, tbl) (rows (db, tbl) ++ images.map rowOf)) := by
  obtain ⟨decoded, h1, h2⟩ := C35_rows_partial kinds ms extra bm (full kinds) images hk hm hn he hp
    (List.length_replicate ..) (full_mem hcopy) (fun r h => ⟨(hr r h).1, (hr r h).2.1⟩)
  have hlen := copy_length hcopy
  have hrl : ∀ row ∈ decoded, row.length = defs.length := by
    intro row hrow
    obtain ⟨r, -, hd⟩ := forall₂_right h2 row hrow
    rw [(rowDenotes_length _ _ _ hd).2, hlen.1]
  obtain ⟨p, stmts, h3, h4⟩ := C40_insert_total ft db tbl extra bm kinds.length (full kinds) defs decoded hp
    (by rw [List.length_replicate, hlen.1]) (full_front kinds) hrl (by
      intro row hrow
      obtain ⟨r, hrm, hd⟩ := forall₂_right h2 row hrow
      exact all_text hcopy hk r row (hr r hrm) hd)
  refine ⟨_, p, stmts, h1, h3, h4, ?_⟩
  have h5 := C40_insert_partial ft db tbl extra bm kinds.length (full kinds) defs decoded p stmts hp
    (by rw [List.length_replicate, hlen.1]) (full_front kinds) hrl h3 h4
  rw [run_replays schema fl _ stmts (inserts_replay hcopy hk images decoded stmts hr h2 h5) rows hrows]
  · congr 1
    clear * -
    induction images generalizing rows with
    | nil =>
      funext u
      simp only [List.map_nil, List.foldl_nil, Contents.set, List.append_nil]
      split
      · next e => rw [e]
      · rfl
    | cons r images ih =>
      rw [List.map_cons, List.foldl_cons, ih]
      funext u
      simp only [Contents.apply, Contents.set, Change.apply, if_true, List.map_cons]
      split
      · simp
      · rfl
  · clear * - hcopy
    induction images generalizing rows with
    | nil => trivial
    | cons r images ih => exact ⟨⟨cols, hcopy.has, trivial⟩, ih _⟩

/-- C81 for deleted rows: running the statements removes the rows of the event and no others, provided that each is
known by its key when it is removed. -/
theorem C81_delete_partial (ft : FloatText) (fl : FloatRead) (schema : Schema) (db tbl : Bytes) (kinds : List ColKind)
    (ms : List ColumnMeta) (defs : List ColumnDefinition) (cols : List Column)
    (hcopy : CopyOf schema db tbl kinds defs cols) (hkey : ∃ c ∈ cols, c.key = true) (hk : ∀ k ∈ kinds, k.Ok)
    (hm : kinds.map metaOf = ms.map some)
    (hn : kinds.length + 7 < 2 ^ 32) (extra bm : Bytes) (he : extra.length + 2 < 2 ^ 16) (hp : Covers bm (full kinds))
    (images : List Image) (hr : ∀ r ∈ images, ImageGood ft fl kinds (·.key) cols r)
    (rows : Contents) (hrows : schema.RowsOk rows)
    (hkeyed : schema.Keyed rows (images.map fun r => ((db, tbl), .delete (rowOf r)))) :
    ∃ ev p stmts, RowsV2.readFrom (extra.length + 2) ms (Spec.rowsPayload kinds extra bm images) = .ok ev [] ∧
      PreparedSql.fromDelete db tbl ev defs = some p ∧ p.sqlList ft = some stmts ∧
      schema.run fl rows stmts = some ((images.map fun r => ((db, tbl), .delete (rowOf r))).foldl Contents.apply rows) := by
  obtain ⟨decoded, h1, h2⟩ := C35_rows_partial kinds ms extra bm (full kinds) images hk hm hn he hp
    (List.length_replicate ..) (full_mem hcopy) (fun r h => ⟨(hr r h).1, (hr r h).2.1⟩)
  have hlen := copy_length hcopy
  have hrl : ∀ row ∈ decoded, row.length = defs.length := by
    intro row hrow
    obtain ⟨r, -, hd⟩ := forall₂_right h2 row hrow
    rw [(rowDenotes_length _ _ _ hd).2, hlen.1]
  obtain ⟨p, stmts, h3, h4⟩ := C40_delete_total ft db tbl extra bm kinds.length (full kinds) defs decoded hp
    (by rw [List.length_replicate, hlen.1]) (full_front kinds) hrl (by
      intro row hrow
      obtain ⟨r, hrm, hd⟩ := forall₂_right h2 row hrow
      exact key_text hcopy hk r row (hr r hrm) hd)
  refine ⟨_, p, stmts, h1, h3, h4, ?_⟩
  have h5 := C40_delete_partial ft db tbl extra bm kinds.length (full kinds) defs decoded p stmts hp
    (by rw [List.length_replicate, hlen.1]) (full_front kinds) hrl h3 h4
  exact run_replays schema fl _ stmts (deletes_replay hcopy hk hkey images decoded stmts hr h2 h5) rows hrows hkeyed

/-- C81 for updated rows: running the statements puts the new row of each pair of the event in the place of the old one
and changes no others, provided that each is known by its key when it is changed. -/
theorem C81_update_partial (ft : FloatText) (fl : FloatRead) (schema : Schema) (db tbl : Bytes) (kinds : List ColKind)
    (ms : List ColumnMeta) (defs : List ColumnDefinition) (cols : List Column)
    (hcopy : CopyOf schema db tbl kinds defs cols) (hkey : ∃ c ∈ cols, c.key = true) (hk : ∀ k ∈ kinds, k.Ok)
    (hm : kinds.map metaOf = ms.map some)
    (hn : kinds.length + 7 < 2 ^ 32) (extra bb ab : Bytes) (he : extra.length + 2 < 2 ^ 16)
    (hb : Covers bb (full kinds)) (ha : Covers ab (full kinds)) (images : List (Image × Image))
    (hr : ∀ r ∈ images, ImageGood ft fl kinds (·.key) cols r.1 ∧ ImageGood ft fl kinds (fun _ => true) cols r.2)
    (rows : Contents) (hrows : schema.RowsOk rows)
    (hkeyed : schema.Keyed rows (images.map fun r => ((db, tbl), .update (rowOf r.1) (rowOf r.2)))) :
    ∃ ev p stmts, UpdateRowsV2.readFrom (extra.length + 2) ms (Spec.updatePayload kinds extra bb ab images) = .ok ev [] ∧
      PreparedSql.fromUpdate db tbl ev defs = some p ∧ p.sqlList ft = some stmts ∧
      schema.run fl rows stmts
        = some ((images.map fun r => ((db, tbl), .update (rowOf r.1) (rowOf r.2))).foldl Contents.apply rows) := by
  obtain ⟨decoded, h1, h2⟩ := C35_update_rows_partial kinds ms extra bb ab (full kinds) (full kinds) images hk hm hn he hb
    (List.length_replicate ..) ha (List.length_replicate ..) (Or.inl (full_mem hcopy))
    (fun r h => ⟨(hr r h).1.1, (hr r h).1.2.1, (hr r h).2.1, (hr r h).2.2.1⟩)
  have hlen := copy_length hcopy
  have hrl : ∀ row ∈ decoded, row.1.length = defs.length ∧ row.2.length = defs.length := by
    intro row hrow
    obtain ⟨r, -, hd⟩ := forall₂_right h2 row hrow
    rw [(rowDenotes_length _ _ _ hd.1).2, (rowDenotes_length _ _ _ hd.2).2, hlen.1]
    exact ⟨rfl, rfl⟩
  have hfl : (full kinds).length = defs.length := by rw [List.length_replicate, hlen.1]
  obtain ⟨p, stmts, h3, h4⟩ := C40_update_total ft db tbl extra bb ab kinds.length (full kinds) (full kinds) defs decoded hb
    hfl (full_front kinds) ha hfl (full_front kinds) hrl (by
      intro row hrow
      obtain ⟨r, hrm, hd⟩ := forall₂_right h2 row hrow
      exact ⟨key_text hcopy hk r.1 row.1 (hr r hrm).1 hd.1, all_text hcopy hk r.2 row.2 (hr r hrm).2 hd.2⟩)
  refine ⟨_, p, stmts, h1, h3, h4, ?_⟩
  have h5 := C40_update_partial ft db tbl extra bb ab kinds.length (full kinds) (full kinds) defs decoded p stmts hb
    hfl (full_front kinds) ha hfl (full_front kinds) hrl h3 h4
  exact run_replays schema fl _ stmts (updates_replay hcopy hk hkey images decoded stmts hr h2 h5) rows hrows hkeyed

/-! ### a log -/

/-- the changes a row event makes to the tables that are wanted -/
def changes (wanted : Spec.Table → Bool) (known : Nat → Option Spec.Table) : LogItem → List (TableId × Change)
  | .insert id _ _ rows => ((known id).filter wanted).elim [] fun t => rows.map fun r => ((t.schema, t.table), .insert (rowOf r))
  | .delete id _ _ rows => ((known id).filter wanted).elim [] fun t => rows.map fun r => ((t.schema, t.table), .delete (rowOf r))
  | .update id _ _ _ rows => ((known id).filter wanted).elim [] fun t =>
      rows.map fun r => ((t.schema, t.table), .update (rowOf r.1) (rowOf r.2))
  | _ => []

/-- the changes of a log, in order -/
def logChanges (wanted : Spec.Table → Bool) (known : Nat → Option Spec.Table) : List LogItem → List (TableId × Change)
  | [] => []
  | item :: items => changes wanted known item ++ logChanges wanted (item.announce known) items

/-- The copy has the wanted table of the event with a key, all columns are logged, and the values are decoded and written
correctly. Updates are only printed for tables with a column that is flagged both as primary and as unique key (see C43). -/
def ItemReplayable (ft : FloatText) (fl : FloatRead) (wanted : Spec.Table → Bool) (cat : Catalogue) (schema : Schema)
    (known : Nat → Option Spec.Table) : LogItem → Prop
  | .tableMap id t => TableReadable t ∧ (known id = none ∨ known id = some t)
  | .insert id ks present rows => ∀ t, known id = some t → wanted t = true → ks = t.columns ∧ present = full ks ∧
      ∃ cols, CopyOf schema t.schema t.table ks (cat t.schema t.table) cols ∧ (∀ k ∈ ks, k.Ok) ∧
        ∀ r ∈ rows, ImageGood ft fl ks (fun _ => true) cols r
  | .delete id ks present rows => ∀ t, known id = some t → wanted t = true → ks = t.columns ∧ present = full ks ∧
      ∃ cols, CopyOf schema t.schema t.table ks (cat t.schema t.table) cols ∧ (∃ c ∈ cols, c.key = true) ∧ (∀ k ∈ ks, k.Ok) ∧
        ∀ r ∈ rows, ImageGood ft fl ks (·.key) cols r
  | .update id ks before after rows => ∀ t, known id = some t → wanted t = true → ks = t.columns ∧ before = full ks ∧
      after = full ks ∧
      ∃ cols, CopyOf schema t.schema t.table ks (cat t.schema t.table) cols ∧
        (∃ d ∈ cat t.schema t.table, d.flags.testBit 1 = true ∧ d.flags.testBit 2 = true) ∧ (∀ k ∈ ks, k.Ok) ∧
        ∀ r ∈ rows, ImageGood ft fl ks (·.key) cols r.1 ∧ ImageGood ft fl ks (fun _ => true) cols r.2
  | _ => True

def LogReplayable (ft : FloatText) (fl : FloatRead) (wanted : Spec.Table → Bool) (cat : Catalogue) (schema : Schema) :
    (Nat → Option Spec.Table) → List LogItem → Prop
  | _, [] => True
  | known, item :: items => ItemReplayable ft fl wanted cat schema known item ∧
      LogReplayable ft fl wanted cat schema (item.announce known) items

theorem both_key {cols : List Column} {defs : List ColumnDefinition} (h : List.Forall₂ Describes cols defs)
    (hd : ∃ d ∈ defs, d.flags.testBit 1 = true ∧ d.flags.testBit 2 = true) : ∃ c ∈ cols, c.key = true := by
  obtain ⟨d, hd, h1, -⟩ := hd
  obtain ⟨c, hc, -, -, h2⟩ := forall₂_right h d hd
  exact ⟨c, hc, by rw [← h2, IsKey, h1]; rfl⟩

theorem logOk_of_replayable (ft : FloatText) (fl : FloatRead) (wanted : Spec.Table → Bool) (cat : Catalogue) (schema : Schema)
    (items : List LogItem) : ∀ known, LogReplayable ft fl wanted cat schema known items → LogOk ft wanted cat known items := by
  induction items with
  | nil => intro _ _; trivial
  | cons item items ih =>
    intro known h
    refine ⟨?_, ih _ h.2⟩
    have h := h.1
    cases item with
    | tableMap id t => exact h
    | insert id ks present rows =>
      intro t h1 h2
      obtain ⟨e1, rfl, cols, h3, h4, h5⟩ := h t h1 h2
      refine ⟨e1, ⟨List.length_replicate .., (copy_length h3).1, full_front ks, full_mem h3⟩, fun r hr => ?_⟩
      exact ⟨⟨(h5 r hr).1, (h5 r hr).2.1⟩, fun vs hd x hx _ => all_text h3 h4 r vs (h5 r hr) hd x hx⟩
    | delete id ks present rows =>
      intro t h1 h2
      obtain ⟨e1, rfl, cols, h3, -, h4, h5⟩ := h t h1 h2
      refine ⟨e1, ⟨List.length_replicate .., (copy_length h3).1, full_front ks, full_mem h3⟩, fun r hr => ?_⟩
      exact ⟨⟨(h5 r hr).1, (h5 r hr).2.1⟩, fun vs hd x hx hi => key_text h3 h4 r vs (h5 r hr) hd x hx hi⟩
    | update id ks before after rows =>
      intro t h1 h2
      obtain ⟨e1, rfl, rfl, cols, h3, -, h4, h5⟩ := h t h1 h2
      have hcol : ColumnsOk ks (cat t.schema t.table) (full ks) :=
        ⟨List.length_replicate .., (copy_length h3).1, full_front ks, full_mem h3⟩
      refine ⟨e1, hcol, hcol, fun r hr => ?_⟩
      obtain ⟨g1, g2⟩ := h5 r hr
      exact ⟨⟨⟨g1.1, g1.2.1⟩, fun vs hd x hx hi => key_text h3 h4 r.1 vs g1 hd x hx hi⟩,
        ⟨g2.1, g2.2.1⟩, fun vs hd x hx _ => all_text h3 h4 r.2 vs g2 hd x hx⟩
    | rotate => trivial
    | other => trivial

theorem forall₂_append {α β : Type} {R : α → β → Prop} {a b : List α} {c d : List β} (h1 : List.Forall₂ R a c)
    (h2 : List.Forall₂ R b d) : List.Forall₂ R (a ++ b) (c ++ d) := by
  induction h1 with
  | nil => exact h2
  | cons h _ ih => exact .cons h ih

theorem prints_replays (ft : FloatText) (fl : FloatRead) (wanted : Spec.Table → Bool) (cat : Catalogue) (schema : Schema)
    (log : List (Spec.LogEvent × LogItem)) : ∀ known out, LogReplayable ft fl wanted cat schema known (log.map (·.2)) →
    Spec.PrintsAll ft wanted cat known log out →
    ∃ stmts, out = stmts.map .stmt ∧ List.Forall₂ (Replays schema fl) (logChanges wanted known (log.map (·.2))) stmts := by
  induction log with
  | nil => intro known out _ h; exact ⟨[], h, .nil⟩
  | cons x log ih =>
    rintro known out hl ⟨ls, rest, rfl, h1, h2⟩
    obtain ⟨e, item⟩ := x
    obtain ⟨stmts, rfl, h4⟩ := ih _ _ hl.2 h2
    suffices ∃ s, ls = s.map DmlLine.stmt ∧ List.Forall₂ (Replays schema fl) (changes wanted known item) s by
      obtain ⟨s, rfl, h5⟩ := this
      exact ⟨s ++ stmts, by rw [List.map_append], forall₂_append h5 h4⟩
    have hi := hl.1
    cases item with
    | tableMap id t => exact ⟨[], h1, .nil⟩
    | rotate => exact ⟨[], h1, .nil⟩
    | other => exact ⟨[], h1, .nil⟩
    | insert id ks present rows =>
      simp only [Spec.Prints, Spec.RowLines] at h1
      unfold changes
      dsimp only
      cases hkn : known id with
      | none => rw [hkn] at h1; exact ⟨[], h1, .nil⟩
      | some t =>
        rw [hkn] at h1
        dsimp only at h1
        cases hw : wanted t with
        | false => rw [hw] at h1; exact ⟨[], by simpa using h1, by rw [Option.filter_some, if_neg (by simp [hw])]; exact .nil⟩
        | true =>
          rw [hw, if_pos rfl] at h1
          obtain ⟨decoded, s, g1, g2, rfl⟩ := h1
          obtain ⟨-, rfl, cols, g3, g4, g5⟩ := hi t hkn hw
          refine ⟨s, rfl, ?_⟩
          rw [Option.filter_some, if_pos hw]
          exact inserts_replay g3 g4 rows decoded s g5 g1 g2
    | delete id ks present rows =>
      simp only [Spec.Prints, Spec.RowLines] at h1
      unfold changes
      dsimp only
      cases hkn : known id with
      | none => rw [hkn] at h1; exact ⟨[], h1, .nil⟩
      | some t =>
        rw [hkn] at h1
        dsimp only at h1
        cases hw : wanted t with
        | false => rw [hw] at h1; exact ⟨[], by simpa using h1, by rw [Option.filter_some, if_neg (by simp [hw])]; exact .nil⟩
        | true =>
          rw [hw, if_pos rfl] at h1
          obtain ⟨decoded, s, g1, g2, rfl⟩ := h1
          obtain ⟨-, rfl, cols, g3, g6, g4, g5⟩ := hi t hkn hw
          refine ⟨s, rfl, ?_⟩
          rw [Option.filter_some, if_pos hw]
          exact deletes_replay g3 g4 g6 rows decoded s g5 g1 g2
    | update id ks before after rows =>
      simp only [Spec.Prints, Spec.RowLines] at h1
      unfold changes
      dsimp only
      cases hkn : known id with
      | none => rw [hkn] at h1; exact ⟨[], h1, .nil⟩
      | some t =>
        rw [hkn] at h1
        dsimp only at h1
        cases hw : wanted t with
        | false => rw [hw] at h1; exact ⟨[], by simpa using h1, by rw [Option.filter_some, if_neg (by simp [hw])]; exact .nil⟩
        | true =>
          obtain ⟨-, rfl, rfl, cols, g3, g6, g4, g5⟩ := hi t hkn hw
          rw [hw, if_pos rfl, if_pos g6] at h1
          obtain ⟨decoded, s, g1, g2, rfl⟩ := h1
          refine ⟨s, rfl, ?_⟩
          rw [Option.filter_some, if_pos hw]
          exact updates_replay g3 g4 (both_key g3.defs g6) rows decoded s g5 g1 g2

/-- C81 for the `dump-dml` program: with a stream that sends a log and a helper connection that lists the columns, what
the program prints, run on a server with a copy of the wanted tables, makes exactly the changes of the log to them, in
order, provided that every row changed is known by its key. (Full claim: every log. Missing: what C43 and
`LogReplayable` exclude.) -/
theorem C81_log_partial (ft : FloatText) (fl : FloatRead) (o : DmlOpts) (hb : o.nonBlock = true) (hlim : o.limit = 0)
    (hf : o.filename.length < 10 ^ 9 ∧ validUtf8 o.filename = true) (uuid : Bytes) (hu : uuid.length = 36) (random : Nat)
    (hr : random < 2 ^ 32) (conn helper : Conn) (crc : Bool) (opening : List Bytes)
    (hopen : Spec.OpensStream conn.caps crc opening) (cat : Catalogue) (log : List (Spec.LogEvent × LogItem))
    (hin : ∀ x ∈ log, x.1.InRange ∧ x.1.Says x.2) (hrot : ∀ x ∈ log, x.2 = .rotate → o.untilNow = true)
    (schema : Schema) (hok : LogReplayable ft fl o.wanted cat schema (fun _ => none) (log.map (·.2))) (eof rest : Bytes)
    (hd : Spec.Delivers conn.inp
      (opening ++ (log.map (fun x => Spec.streamMessage crc x.1) ++ [0xfe :: eof])) rest)
    (answers : List Bytes) (hrest : Bytes)
    (ha : Spec.ListsTables helper.caps cat (Spec.questions o.wanted (fun _ => none) (log.map (·.2))) answers)
    (hh : Spec.Delivers helper.inp answers hrest)
    (rows : Contents) (hrows : schema.RowsOk rows)
    (hkeyed : schema.Keyed rows (logChanges o.wanted (fun _ => none) (log.map (·.2)))) :
    ∃ stmts, printDmls ft o uuid random conn helper = (stmts.map .stmt, .done) ∧
      schema.run fl rows stmts
        = some ((logChanges o.wanted (fun _ => none) (log.map (·.2))).foldl Contents.apply rows) := by
  obtain ⟨out, h1, h2⟩ := C43_prints_partial ft o hb hf uuid hu random hr conn helper crc opening hopen cat log hin hrot
    (logOk_of_replayable ft fl o.wanted cat schema _ _ hok) eof rest hd answers hrest ha hh
  obtain ⟨stmts, rfl, h3⟩ := prints_replays ft fl o.wanted cat schema log _ out hok h1
  refine ⟨stmts, by rw [h2, if_pos hlim], run_replays schema fl _ stmts h3 rows hrows hkeyed⟩

/-! ### cases -/

/-- a server with one table `d.t` -/
def oneTable (cols : List Column) : Schema := fun t => if t = (Spec.ascii "d", Spec.ascii "t") then some cols else none

/-- the columns of `exampleCols`: `id`, the key, and `a`, both INT -/
def exampleCopy : List Column := [⟨Spec.ascii "id", .long, false, true⟩, ⟨Spec.ascii "a", .long, false, false⟩]

theorem example_copy : CopyOf (oneTable exampleCopy) (Spec.ascii "d") (Spec.ascii "t") [.long, .long] exampleCols exampleCopy where
  has := rfl
  kinds := rfl
  defs := .cons ⟨rfl, by decide, by decide⟩ (.cons ⟨rfl, by decide, by decide⟩ .nil)
  distinct := by decide
  names := ⟨by decide, by decide, by decide⟩
  some_col := by decide

theorem example_good (ft : FloatText) (fl : FloatRead) (use : Column → Bool) (n : Nat) (hn : n < 2 ^ 32) :
    ImageGood ft fl [.long, .long] use exampleCopy ⟨[.value (.num n), .null], [2]⟩ := by
  refine ⟨⟨⟨hn, trivial⟩, rfl, covers_of [2] [false, true] rfl (by decide)⟩, ⟨trivial, trivial⟩, ?_⟩
  intro y hy _ v hv
  have hy : y ∈ [(Column.mk (Spec.ascii "id") .long false true, Cell.value (.num n)),
    (Column.mk (Spec.ascii "a") .long false false, Cell.null)] := hy
  simp only [List.mem_cons, List.not_mem_nil, or_false] at hy
  rcases hy with rfl | rfl
  · exact ⟨trivial, trivial⟩
  · cases hv

/-- The hypotheses of the theorems for events hold of the row (7, NULL), and a run on a table that has it and (8, 9): the
row is deleted; it is replaced. -/
example (ft : FloatText) (fl : FloatRead) :
    ImageGood ft fl [.long, .long] (fun _ => true) exampleCopy ⟨[.value (.num 7), .null], [2]⟩ ∧
    Covers [3] (full [.long, .long]) ∧
    (∀ rows : Contents, rows = (fun t => if t = (Spec.ascii "d", Spec.ascii "t") then
        [[some (.num 7), none], [some (.num 8), some (.num 9)]] else []) →
      (oneTable exampleCopy).RowsOk rows ∧
      (oneTable exampleCopy).Keyed rows [((Spec.ascii "d", Spec.ascii "t"), .delete [some (.num 7), none])] ∧
      ((oneTable exampleCopy).run fl rows [Spec.ascii "DELETE FROM `d`.`t` WHERE `id` = 7"]).map
        (fun c => c (Spec.ascii "d", Spec.ascii "t")) = some [[some (.num 8), some (.num 9)]] ∧
      ((oneTable exampleCopy).run fl rows [Spec.ascii "UPDATE `d`.`t` SET `id` = 5, `a` = -1 WHERE `id` = 7"]).map
        (fun c => c (Spec.ascii "d", Spec.ascii "t")) = some [[some (.num 5), some (.num 0xffffffff)], [some (.num 8), some (.num 9)]]) := by
  refine ⟨example_good ft fl _ 7 (by norm_num), covers_of [3] [true, true] rfl (by decide), ?_⟩
  rintro rows rfl
  refine ⟨?_, ?_, ?_, ?_⟩
  · intro t cols h r hr
    unfold oneTable at h
    split at h
    · next e =>
      subst e
      injection h with h
      subst h
      have hr : r ∈ [[some (Val.num 7), none], [some (.num 8), some (.num 9)]] := hr
      simp only [List.mem_cons, List.not_mem_nil, or_false] at hr
      rcases hr with rfl | rfl <;> rfl
    · cases h
  · refine ⟨⟨exampleCopy, rfl, by decide, ?_⟩, trivial⟩
    intro r hr hk
    have hr : r ∈ [[some (Val.num 7), none], [some (.num 8), some (.num 9)]] := hr
    simp only [List.mem_cons, List.not_mem_nil, or_false] at hr
    rcases hr with rfl | rfl
    · rfl
    · revert hk; decide
  · rfl
  · rfl

/-- the hypotheses on the log hold of the log of C43: two inserted rows, then the next log file -/
example (ft : FloatText) (fl : FloatRead) :
    LogReplayable ft fl (exampleOpts 0).wanted exampleCatalogue (oneTable [⟨Spec.ascii "a", .longLong, true, false⟩])
      (fun _ => none) (exampleLog.map (·.2)) ∧
    logChanges (exampleOpts 0).wanted (fun _ => none) (exampleLog.map (·.2))
      = [((Spec.ascii "d", Spec.ascii "t"), .insert [some (.num 3)]), ((Spec.ascii "d", Spec.ascii "t"), .insert [some (.num 4)])] := by
  refine ⟨⟨(example_logOk ft 0).1, ?_, trivial, ?_, trivial⟩, rfl⟩
  · intro t ht _
    have ht : some exampleTable = some t := ht
    injection ht with ht
    subst ht
    refine ⟨rfl, rfl, [⟨Spec.ascii "a", .longLong, true, false⟩],
      ⟨rfl, rfl, .cons ⟨rfl, by decide, by decide⟩ .nil, by decide, ⟨by decide, by decide, by decide⟩, by decide⟩, ?_, ?_⟩
    · intro k hk
      simp only [List.mem_singleton] at hk
      subst hk; trivial
    · intro r hr
      have good : ∀ n, n < 2 ^ 64 → ImageGood ft fl [.longLong] (fun _ => true) [⟨Spec.ascii "a", .longLong, true, false⟩] (exampleImage n) := by
        intro n hn
        obtain ⟨h1, h2⟩ := (example_image ft n hn).1
        refine ⟨h1, h2, ?_⟩
        intro y hy _ v _
        have hy : y ∈ [(Column.mk (Spec.ascii "a") .longLong true false, Cell.value (.num n))] := hy
        rw [List.mem_singleton] at hy
        subst hy
        exact ⟨trivial, trivial⟩
      simp only [List.mem_cons, List.not_mem_nil, or_false] at hr
      rcases hr with rfl | rfl
      · exact good 3 (by norm_num)
      · exact good 4 (by norm_num)
  · intro t ht _
    cases ht

/-- C81 fails for a table with a primary key and a unique column that may be NULL: a deleted row with NULL there stays,
because the condition asks for `= null`. -/
theorem C81_null_key_false (ft : FloatText) (fl : FloatRead) :
    let cols : List Column := [⟨Spec.ascii "id", .long, false, true⟩, ⟨Spec.ascii "u", .long, false, true⟩]
    let rows : Contents := fun t => if t = (Spec.ascii "d", Spec.ascii "t") then [[some (.num 7), none]] else []
    ∃ ev p stmts, CopyOf (oneTable cols) (Spec.ascii "d") (Spec.ascii "t") [.long, .long] [exampleCol "id" 2, exampleCol "u" 4] cols ∧
      RowsV2.readFrom 2 [.long, .long] (Spec.rowsPayload [.long, .long] [] [3] [⟨[.value (.num 7), .null], [2]⟩]) = .ok ev [] ∧
      PreparedSql.fromDelete (asc "d") (asc "t") ev [exampleCol "id" 2, exampleCol "u" 4] = some p ∧
      p.sqlList ft = some stmts ∧
      (Change.delete [some (.num 7), none]).apply (rows (Spec.ascii "d", Spec.ascii "t")) = [] ∧
      ((oneTable cols).run fl rows stmts).map (fun c => c (Spec.ascii "d", Spec.ascii "t")) = some [[some (.num 7), none]] := by
  intro cols rows
  refine ⟨⟨[], 2, [3], [[.long 7, .null]]⟩,
    ⟨asc "d", [asc "DELETE FROM `d`.`t` WHERE `id` = ", asc "?", asc " AND `u` = ", asc "?"], [[.newInt 7, .newNull]]⟩,
    [asc "DELETE FROM `d`.`t` WHERE `id` = 7 AND `u` = null"], ?_, by decide +kernel, by decide +kernel, rfl, by decide, ?_⟩
  · exact ⟨rfl, rfl, .cons ⟨rfl, by decide, by decide⟩ (.cons ⟨rfl, by decide, by decide⟩ .nil), by decide,
      ⟨by decide, by decide, by decide⟩, by decide⟩
  · rfl

/-- C81 fails for every table without a key: every statement made for a deleted row is refused by every server. -/
theorem C81_no_key_false (ft : FloatText) (db tbl extra bm : Bytes) (n : Nat) (present : List Bool)
    (defs : List ColumnDefinition) (vs : List BinlogColumnValue) (rows : List (List BinlogColumnValue))
    (hc : Covers bm present) (hl : present.length = defs.length) (hf : Front present)
    (hr : ∀ row ∈ vs :: rows, row.length = defs.length) (hkey : ∀ d ∈ defs, IsKey d = false)
    (hdb : 0x60 ∉ db) (htbl : 0x60 ∉ tbl) :
    ∃ p stmts, PreparedSql.fromDelete db tbl ⟨extra, n, bm, vs :: rows⟩ defs = some p ∧ p.sqlList ft = some stmts ∧
      ∀ (schema : Schema) (fl : FloatRead) (contents : Contents), schema.run fl contents stmts = none := by
  obtain ⟨p, stmts, h1, h2⟩ := C40_delete_total ft db tbl extra bm n present defs (vs :: rows) hc hl hf hr (by
    intro row _ x hx hk
    rw [hkey _ (logged_fst_mem _ _ _ x hx)] at hk
    cases hk)
  refine ⟨p, stmts, h1, h2, ?_⟩
  have h3 := C40_delete_partial ft db tbl extra bm n present defs _ p stmts hc hl hf hr h1 h2
  cases h3 with
  | cons h4 _ =>
    obtain ⟨ts, h5, rfl⟩ := h4
    have hnil : (logged present defs vs).filter (fun x => IsKey x.1) = [] := by
      rw [List.filter_eq_nil_iff]
      intro x hx
      rw [hkey _ (logged_fst_mem _ _ _ x hx)]
      decide
    rw [hnil] at h5 ⊢
    cases h5
    intro schema fl contents
    rw [Schema.run]
    have e : Spec.deleteText db tbl (named [] []) = Spec.ascii "DELETE FROM " ++ (Spec.tick db ++ (Spec.ascii "." ++
        (Spec.tick tbl ++ (Spec.ascii " WHERE " ++ [])))) := by
      simp only [Spec.deleteText, List.append_assoc]
      rfl
    have i1 : Spec.parseInsert (Spec.deleteText db tbl (named [] [])) = none := by rw [e]; rfl
    have i2 : Spec.parseUpdate (Spec.deleteText db tbl (named [] [])) = none := by rw [e]; rfl
    have i3 : Spec.parseDelete (Spec.deleteText db tbl (named [] [])) = none := by
      unfold Spec.parseDelete
      rw [e, strip_append, Option.bind_some, tableName_text db tbl _ hdb htbl (by show some (0x20 : UInt8) ≠ _; decide),
        Option.bind_some, strip_append, Option.bind_some]
      rfl
    rw [Spec.parse, i1, i2, i3]
    rfl

/-- a table with one column and no key -/
example : (∀ d ∈ [exampleCol "a" 0], IsKey d = false) ∧ Covers [1] [true] ∧ Front [true] :=
  ⟨by decide, covers_of [1] [true] rfl (by decide), full_front [.long]⟩

end Mybin
