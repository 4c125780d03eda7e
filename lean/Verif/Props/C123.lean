/-
C123: the filters of the program choose among the lines it would print without them, and change nothing else.
-/
import Verif.Props.C108

namespace Mybin

open Spec (LogEvent LogItem Covers Image ColKind Front)

/-! ### specification -/

/-- what an event of the log is about: the announcement of a table under an id, rows of the table with an id (whatever
they are), the end of a log file, or something else -/
inductive Spec.Topic where
  | table (id : Nat) (t : Spec.Table)
  | rows (id : Nat)
  | fileEnd
  | other

def Spec.Topic.Of (e : LogEvent) : Spec.Topic → Prop
  | .table id t => e.code = 19 ∧ id < 2 ^ 48 ∧ ∃ flags, flags < 2 ^ 16 ∧
      e.payload = Spec.le 6 id ++ Spec.le 2 flags ++ t.encode
  | .rows id => (e.code = 30 ∨ e.code = 31 ∨ e.code = 32) ∧ id < 2 ^ 48 ∧ ∃ flags n body, flags < 2 ^ 16 ∧ n < 2 ^ 16 ∧
      e.payload = Spec.le 6 id ++ Spec.le 2 flags ++ Spec.le 2 n ++ body
  | .fileEnd => e.code = 4
  | .other => e.code ∉ [4, 19, 30, 31, 32]

/-- the tables announced in the log file after an event -/
def Spec.Topic.announce (known : Nat → Option Spec.Table) : Spec.Topic → Nat → Option Spec.Table
  | .table id t => fun i => if i = id then some t else known i
  | .fileEnd => fun _ => none
  | _ => known

/-- the table whose rows an event changes -/
def Spec.Topic.changed (known : Nat → Option Spec.Table) : Spec.Topic → Option Spec.Table
  | .rows id => known id
  | _ => none

/-- the table whose rows each of the events changes -/
def Spec.changedTables : (Nat → Option Spec.Table) → List Spec.Topic → List (Option Spec.Table)
  | _, [] => []
  | known, a :: more => a.changed known :: Spec.changedTables (a.announce known) more

/-- the tables whose columns are asked for: those wanted, at their first announcement in a log file -/
def Spec.asksFor (wanted : Spec.Table → Bool) : (Nat → Option Spec.Table) → List Spec.Topic → List (Bytes × Bytes)
  | _, [] => []
  | known, a :: more =>
    (match a with | .table id t => if (known id).isNone && wanted t then [(t.schema, t.table)] else [] | _ => [])
      ++ Spec.asksFor wanted (a.announce known) more

/-- the announced tables are those this library can read, and keep their id within a log file -/
def Spec.Announced : (Nat → Option Spec.Table) → List Spec.Topic → Prop
  | _, [] => True
  | known, a :: more => (match a with | .table id t => TableReadable t ∧ (known id = none ∨ known id = some t) | _ => True)
      ∧ Spec.Announced (a.announce known) more

/-- the line names the table: as the one inserted into, deleted from or updated, or in a note -/
def Spec.NamesTable (t : Spec.Table) : DmlLine → Prop
  | .note db tbl _ => db = t.schema ∧ tbl = t.table
  | .stmt s => ∃ verb ∈ [Spec.ascii "INSERT INTO `", Spec.ascii "DELETE FROM `", Spec.ascii "UPDATE `"], ∃ more,
      s = verb ++ t.schema ++ Spec.ascii "`.`" ++ t.table ++ Spec.ascii "` " ++ more

/-- the parts of the output that belong to wanted tables -/
def Spec.choose (wanted : Spec.Table → Bool) (tables : List (Option Spec.Table)) (parts : List (List DmlLine)) :
    List (List DmlLine) :=
  ((tables.zip parts).filter fun x => match x.1 with | some t => wanted t | none => false).map (·.2)

/-! ### the lines of an event name its table -/

theorem fill_prefix (ft : FloatText) (p f : Bytes) (fs : List Bytes) (ps : List StmtColumnValue) (s : Bytes)
    (hp : 2 ≤ p.length) (hf : p <+: f) (h : fillFragments ft (f :: fs) ps = some s) : p <+: s := by
  have hne : f ≠ asc "?" := by
    rintro rfl
    have := hf.length_le
    have e : (asc "?").length = 1 := by decide
    omega
  rw [fillFragments.eq_def] at h
  dsimp only at h
  rw [if_neg hne] at h
  cases hg : fillFragments ft fs ps with
  | none => rw [hg] at h; cases h
  | some r =>
    rw [hg] at h
    injection h with h
    subst h
    exact hf.trans (List.prefix_append _ _)

theorem allSome_each {α : Type} : ∀ (l : List (Option α)) (r : List α), allSome l = some r → ∀ a ∈ r, some a ∈ l
  | [], r, h, a, ha => by
    injection h with h
    subst h
    cases ha
  | none :: l, r, h, a, ha => by cases h
  | some b :: l, r, h, a, ha => by
    rw [allSome] at h
    cases hl : allSome l with
    | none => rw [hl] at h; cases h
    | some q =>
      rw [hl] at h
      injection h with h
      subst h
      rcases List.mem_cons.1 ha with rfl | ha
      · exact List.mem_cons_self
      · exact List.mem_cons_of_mem _ (allSome_each l q hl a ha)

theorem sqlLines_prefix (ft : FloatText) (db p f : Bytes) (fs : List Bytes) (params : List (List StmtColumnValue))
    (ls : List DmlLine) (r : Bytes) (hp : 2 ≤ p.length) (hf : p <+: f)
    (h : sqlLines ft (some ⟨db, f :: fs, params⟩) = .ok ls r) : ∀ l ∈ ls, ∃ s, l = .stmt s ∧ p <+: s := by
  unfold sqlLines PreparedSql.sqlList at h
  dsimp only at h
  cases hl : allSome (params.map (fillFragments ft (f :: fs))) with
  | none => rw [hl] at h; cases h
  | some q =>
    rw [hl] at h
    injection h with h
    subst h
    intro l hl'
    obtain ⟨s, hs, rfl⟩ := List.mem_map.1 hl'
    obtain ⟨ps, -, hps⟩ := List.mem_map.1 (allSome_each _ _ hl s hs)
    exact ⟨s, rfl, fill_prefix ft p f fs ps s hp hf hps⟩

theorem pushLast_prefix (p f : Bytes) (fs : List Bytes) (s : Bytes) (hf : p <+: f) :
    ∃ f' fs', pushLast (f :: fs) s = some (f' :: fs') ∧ p <+: f' := by
  induction fs generalizing f with
  | nil => exact ⟨_, _, rfl, hf.trans (List.prefix_append _ _)⟩
  | cons g fs ih =>
    have : ∃ r, pushLast (g :: fs) s = some r := by
      clear ih
      induction fs generalizing g with
      | nil => exact ⟨_, rfl⟩
      | cons a fs ih =>
        obtain ⟨r, hr⟩ := ih a
        exact ⟨g :: r, by rw [pushLast, hr]; rfl; simp⟩
    obtain ⟨r, hr⟩ := this
    exact ⟨f, r, by rw [pushLast, hr]; rfl; simp, hf⟩

theorem assign_prefix (sep : Bytes) (use : ColDef → Bool) (p : Bytes) : ∀ (cs : List ColDef) (idx : Nat) (f : Bytes)
    (fs r : List Bytes), p <+: f → assignFragments sep use idx cs (f :: fs) = some r → ∃ f' fs', r = f' :: fs' ∧ p <+: f'
  | [], idx, f, fs, r, hf, h => by
    injection h with h
    subst h
    exact ⟨f, fs, rfl, hf⟩
  | c :: cs, idx, f, fs, r, hf, h => by
    rw [assignFragments] at h
    split at h
    · split at h
      · exact assign_prefix sep use p cs _ f _ r hf h
      · obtain ⟨f', fs', e, hf'⟩ := pushLast_prefix p f fs (ticked c.name ++ asc " = ") hf
        rw [e] at h
        exact assign_prefix sep use p cs _ f' _ r hf' h
    · exact assign_prefix sep use p cs _ f fs r hf h

theorem names_of_prefix (t : Spec.Table) (verb : String) (pre : Bytes)
    (hv : Spec.ascii verb ∈ [Spec.ascii "INSERT INTO `", Spec.ascii "DELETE FROM `", Spec.ascii "UPDATE `"])
    (hpre : pre = Spec.ascii verb ++ t.schema ++ Spec.ascii "`.`" ++ t.table ++ Spec.ascii "` ") (s : Bytes)
    (h : pre <+: s) : Spec.NamesTable t (.stmt s) := by
  obtain ⟨more, rfl⟩ := h
  exact ⟨_, hv, more, by rw [hpre]⟩

theorem table_head (verb verb' tail : String) (db tbl more : Bytes) (h1 : asc verb ++ asc "`" = Spec.ascii verb')
    (h2 : asc tail = Spec.ascii " " ++ more) :
    Spec.ascii verb' ++ db ++ Spec.ascii "`.`" ++ tbl ++ Spec.ascii "` " <+: asc verb ++ tableText db tbl ++ asc tail := by
  refine ⟨more, ?_⟩
  have e1 : asc "`" ++ asc "." ++ asc "`" = Spec.ascii "`.`" := by decide +kernel
  have e2 : Spec.ascii "` " = asc "`" ++ Spec.ascii " " := by decide +kernel
  unfold tableText ticked
  rw [h2, ← h1, ← e1, e2]
  simp only [List.append_assoc]

theorem head_long (verb : String) (db tbl : Bytes) (h : 2 ≤ (Spec.ascii verb).length) :
    2 ≤ (Spec.ascii verb ++ db ++ Spec.ascii "`.`" ++ tbl ++ Spec.ascii "` ").length := by
  simp only [List.length_append]
  omega

theorem insert_names (ft : FloatText) (t : Spec.Table) (ms : List ColumnMeta) (defs : List ColumnDefinition)
    (d : RowsDataV2) (ls : List DmlLine) (r : Bytes)
    (h : rowLines ft PreparedSql.fromInsert ⟨t.schema, t.table, ms, defs⟩ d = .ok ls r) :
    ∀ l ∈ ls, Spec.NamesTable t l := by
  unfold rowLines at h
  split at h
  · rename_i rows _ _
    unfold PreparedSql.fromInsert at h
    dsimp only at h
    cases hp : allSome (rows.rows.map (rowParams (fun _ => true) (filterColDefs rows.presentBitmap defs))) with
    | none => rw [hp] at h; cases h
    | some params =>
      rw [hp] at h
      intro l hl
      obtain ⟨s, rfl, hs⟩ := sqlLines_prefix ft _ _ _ _ _ _ _ (head_long "INSERT INTO `" t.schema t.table (by decide +kernel))
        ((table_head "INSERT INTO " "INSERT INTO `" " (" t.schema t.table (Spec.ascii "(") (by decide +kernel)
          (by decide +kernel)).trans ((List.prefix_append _ _).trans (List.prefix_append _ _))) h l hl
      exact names_of_prefix t "INSERT INTO `" _ (by simp) rfl s hs
  all_goals cases h

theorem delete_names (ft : FloatText) (t : Spec.Table) (ms : List ColumnMeta) (defs : List ColumnDefinition)
    (d : RowsDataV2) (ls : List DmlLine) (r : Bytes)
    (h : rowLines ft PreparedSql.fromDelete ⟨t.schema, t.table, ms, defs⟩ d = .ok ls r) :
    ∀ l ∈ ls, Spec.NamesTable t l := by
  unfold rowLines at h
  split at h
  · rename_i rows _ _
    unfold PreparedSql.fromDelete at h
    dsimp only at h
    cases hfr : deleteFragments t.schema t.table (filterColDefs rows.presentBitmap defs) with
    | none => rw [hfr] at h; cases h
    | some frags =>
      rw [hfr] at h
      dsimp only at h
      cases hp : allSome (rows.rows.map (rowParams (·.key) (filterColDefs rows.presentBitmap defs))) with
      | none => rw [hp] at h; cases h
      | some params =>
        rw [hp] at h
        unfold deleteFragments at hfr
        obtain ⟨f', fs', rfl, hpre⟩ := assign_prefix _ _ _ _ _ _ _ _
          (table_head "DELETE FROM " "DELETE FROM `" " WHERE " t.schema t.table (Spec.ascii "WHERE ") (by decide +kernel)
            (by decide +kernel)) hfr
        intro l hl
        obtain ⟨s, rfl, hs⟩ := sqlLines_prefix ft _ _ _ _ _ _ _
          (head_long "DELETE FROM `" t.schema t.table (by decide +kernel)) hpre h l hl
        exact names_of_prefix t "DELETE FROM `" _ (by simp) rfl s hs
  all_goals cases h

theorem update_names (ft : FloatText) (pos : Nat) (t : Spec.Table) (ms : List ColumnMeta) (defs : List ColumnDefinition)
    (d : RowsDataV2) (ls : List DmlLine) (r : Bytes)
    (h : updateLines ft pos ⟨t.schema, t.table, ms, defs⟩ d = .ok ls r) : ∀ l ∈ ls, Spec.NamesTable t l := by
  unfold updateLines at h
  split at h
  · rename_i rows _ _
    dsimp only at h
    split at h
    · unfold PreparedSql.fromUpdate at h
      dsimp only at h
      cases hfr : updateFragments t.schema t.table (filterColDefs rows.beforeBitmap defs)
          (filterColDefs rows.afterBitmap defs) with
      | none => rw [hfr] at h; cases h
      | some frags =>
        rw [hfr] at h
        dsimp only at h
        cases hp : allSome (rows.rows.map (updateParams (filterColDefs rows.beforeBitmap defs)
            (filterColDefs rows.afterBitmap defs))) with
        | none => rw [hp] at h; cases h
        | some params =>
          rw [hp] at h
          unfold updateFragments at hfr
          split at hfr
          · cases hfr
          · rename_i out hout
            obtain ⟨f1, fs1, rfl, hpre1⟩ := assign_prefix _ _ _ _ _ _ _ _
              (table_head "UPDATE " "UPDATE `" " SET " t.schema t.table (Spec.ascii "SET ") (by decide +kernel)
                (by decide +kernel)) hout
            obtain ⟨f', fs', rfl, hpre⟩ := assign_prefix _ _ _ _ _ _ _ _ hpre1 hfr
            intro l hl
            obtain ⟨s, rfl, hs⟩ := sqlLines_prefix ft _ _ _ _ _ _ _
              (head_long "UPDATE `" t.schema t.table (by decide +kernel)) hpre h l hl
            exact names_of_prefix t "UPDATE `" _ (by simp) rfl s hs
    · injection h with h
      subst h
      intro l hl
      rw [List.mem_singleton] at hl
      subst hl
      exact ⟨rfl, rfl⟩
  all_goals cases h

/-! ### one event in both runs -/

/-- the same program without filters -/
def DmlOpts.unfiltered (o : DmlOpts) : DmlOpts := { o with databaseFilter := none, tableFilter := none }

theorem unfiltered_wanted (o : DmlOpts) : o.unfiltered.wanted = fun _ => true := rfl

theorem onRows_choose {wanted : Spec.Table → Bool} {cat : Catalogue} {known : Nat → Option Spec.Table} {st st' : DmlState}
    (hk : Keeps wanted cat known st) (hk' : Keeps (fun _ => true) cat known st')
    (lines : TableMeta → RowsDataV2 → R (List DmlLine)) (data : Bytes) (d : RowsDataV2) (r : Bytes)
    (hd : RowsDataV2.readFrom data = .ok d r)
    (hn : ∀ (t : Spec.Table) ms ls r, lines ⟨t.schema, t.table, ms, cat t.schema t.table⟩ d = .ok ls r →
      ∀ l ∈ ls, Spec.NamesTable t l) :
    (∃ ls n n', onRows 0 lines st' data = (ls, .go { st' with nRows := n' }) ∧
      onRows 0 lines st data
        = ((match known d.tableId with | some t => if wanted t then ls else [] | none => []), .go { st with nRows := n }) ∧
      ∀ l ∈ ls, ∃ t, known d.tableId = some t ∧ Spec.NamesTable t l) ∨
    ∃ e, onRows 0 lines st' data = ([], e) ∧ (∀ x, e ≠ .go x) ∧ e ≠ .stop := by
  have h := hk d.tableId
  have h' := hk' d.tableId
  unfold onRows
  rw [hd]
  dsimp only
  cases hkn : known d.tableId with
  | none =>
    rw [hkn] at h h'
    dsimp only at h h' ⊢
    rw [if_neg h.2, h.1, if_neg h'.2, h'.1]
    exact Or.inl ⟨[], st.nRows, st'.nRows, rfl, rfl, by simp⟩
  | some t =>
    rw [hkn] at h h'
    dsimp only at h h' ⊢
    rw [if_pos rfl] at h'
    obtain ⟨g1, ms', g2, -, -, g5⟩ := h'
    rw [if_neg g1, g5]
    dsimp only
    cases hl : lines ⟨t.schema, t.table, ms', cat t.schema t.table⟩ d with
    | ok ls r' =>
      dsimp only
      rw [printLines_unlimited]
      dsimp only
      by_cases hw : wanted t = true
      · rw [if_pos hw] at h
        obtain ⟨h1, ms, h2, -, -, h5⟩ := h
        have hms : ms = ms' := by
          have := h2.symm.trans g2
          exact List.map_injective_iff.2 (Option.some_injective _) this
        subst hms
        rw [if_neg h1, h5]
        dsimp only
        rw [hl]
        dsimp only
        rw [printLines_unlimited]
        exact Or.inl ⟨ls, _, _, rfl, by rw [if_pos hw], fun l hl' => ⟨t, rfl, hn t ms ls r' hl l hl'⟩⟩
      · rw [if_neg hw] at h
        rw [if_pos h.1]
        exact Or.inl ⟨ls, st.nRows, _, rfl, by rw [if_neg hw], fun l hl' => ⟨t, rfl, hn t ms' ls r' hl l hl'⟩⟩
    | err e r' => exact Or.inr ⟨_, rfl, by simp, by simp⟩
    | panic => exact Or.inr ⟨_, rfl, by simp, by simp⟩
    | hang => exact Or.inr ⟨_, rfl, by simp, by simp⟩

theorem seenEvent_of (crc : Bool) (e : LogEvent) (k : LogEventType) (h : e.code = k.toByte)
    (hs : k.toByte ∈ Spec.supportedCodes) :
    seenEvent crc e = some ⟨k, ⟨e.timestamp, k, e.serverId, e.len crc, e.nextPos, e.flags⟩, e.payload⟩ := by
  unfold seenEvent
  rw [h, if_pos hs, tryFrom_toByte]
  rfl

/-- the wanted part of what an event prints -/
def chosenPart (wanted : Spec.Table → Bool) (known : Nat → Option Spec.Table) (a : Spec.Topic) (ls : List DmlLine) :
    List DmlLine :=
  match a.changed known with
  | some t => if wanted t then ls else []
  | none => []

/-! ### whole logs -/

theorem choose_cons (wanted : Spec.Table → Bool) (known : Nat → Option Spec.Table) (a : Spec.Topic) (more : List Spec.Topic)
    (ls : List DmlLine) (parts : List (List DmlLine)) :
    (Spec.choose wanted (Spec.changedTables known (a :: more)) (ls :: parts)).flatten
      = chosenPart wanted known a ls ++ (Spec.choose wanted (Spec.changedTables (a.announce known) more) parts).flatten := by
  rw [Spec.changedTables]
  unfold Spec.choose chosenPart
  rw [List.zip_cons_cons]
  generalize a.changed known = x
  cases x with
  | none => rw [List.filter_cons_of_neg (by simp)]; rfl
  | some t =>
    dsimp only
    by_cases hw : wanted t = true
    · rw [List.filter_cons_of_pos (by simpa using hw), if_pos hw, List.map_cons, List.flatten_cons]
    · rw [List.filter_cons_of_neg (by simpa using hw), if_neg hw, List.nil_append]

theorem choose_empty (wanted : Spec.Table → Bool) (tables : List (Option Spec.Table)) (n : Nat) :
    (Spec.choose wanted tables (List.replicate n [])).flatten = [] := by
  rw [List.flatten_eq_nil_iff]
  intro l hl
  unfold Spec.choose at hl
  obtain ⟨x, hx, rfl⟩ := List.mem_map.1 hl
  have := (List.of_mem_zip (List.mem_of_mem_filter hx)).2
  exact (List.eq_of_mem_replicate this)

/-- the lines of each part name the table of the event -/
def Spec.PartsNamed (tables : List (Option Spec.Table)) (parts : List (List DmlLine)) : Prop :=
  List.Forall₂ (fun t ls => ∀ l ∈ ls, ∃ t', t = some t' ∧ Spec.NamesTable t' l) tables parts

theorem parts_empty : ∀ (known : Nat → Option Spec.Table) (as : List Spec.Topic),
    Spec.PartsNamed (Spec.changedTables known as) (List.replicate as.length [])
  | _, [] => .nil
  | known, a :: as => .cons (by simp) (parts_empty (a.announce known) as)

theorem runLog_choose {ft : FloatText} {o : DmlOpts} {cat : Catalogue} (h0 : o.limit = 0) (crc : Bool)
    (caps caps' : Nat) : ∀ (log : List (LogEvent × Spec.Topic)) (known : Nat → Option Spec.Table) (st st' : DmlState)
      (answers answers' : List Bytes) (rest rest' : Bytes),
    Keeps o.wanted cat known st → Keeps (fun _ => true) cat known st' → (∀ x ∈ log, x.2.Of x.1) →
    Spec.Announced known (log.map (·.2)) →
    st.helper.caps = caps → Spec.ListsTables caps cat (Spec.asksFor o.wanted known (log.map (·.2))) answers →
    Spec.Delivers st.helper.inp answers rest →
    st'.helper.caps = caps' → Spec.ListsTables caps' cat (Spec.asksFor (fun _ => true) known (log.map (·.2))) answers' →
    Spec.Delivers st'.helper.inp answers' rest' →
    (runLog ft o.unfiltered crc st' (log.map (·.1))).2 = .done →
    ∃ parts, Spec.PartsNamed (Spec.changedTables known (log.map (·.2))) parts ∧
      runLog ft o.unfiltered crc st' (log.map (·.1)) = (parts.flatten, .done) ∧
      runLog ft o crc st (log.map (·.1))
        = ((Spec.choose o.wanted (Spec.changedTables known (log.map (·.2))) parts).flatten, .done)
  | [], known, st, st', _, _, _, _, _, _, _, _, _, _, _, _, _, _, _ =>
    ⟨[], .nil, rfl, rfl⟩
  | (e, a) :: log, known, st, st', answers, answers', rest, rest', hk, hk', hof, hann, hc, hl, hd, hc', hl', hd', hdone => by
    have ha := hof (e, a) List.mem_cons_self
    have hof' : ∀ x ∈ log, x.2.Of x.1 := fun x hx => hof x (List.mem_cons_of_mem _ hx)
    simp only [List.map_cons] at hann hl hl' hdone ⊢
    obtain ⟨hann1, hann2⟩ := hann
    -- a step that goes on in both runs
    have go : ∀ ev ls s s', seenEvent crc e = some ev → onEvent ft o.unfiltered st' ev = (ls, .go s') →
        onEvent ft o st ev = (chosenPart o.wanted known a ls, .go s) →
        (∀ l ∈ ls, ∃ t', a.changed known = some t' ∧
          Spec.NamesTable t' l) →
        (∀ hdone' : (runLog ft o.unfiltered crc s' (log.map (·.1))).2 = .done,
          ∃ parts, Spec.PartsNamed (Spec.changedTables (a.announce known) (log.map (·.2))) parts ∧
            runLog ft o.unfiltered crc s' (log.map (·.1)) = (parts.flatten, .done) ∧
            runLog ft o crc s (log.map (·.1))
              = ((Spec.choose o.wanted (Spec.changedTables (a.announce known) (log.map (·.2))) parts).flatten, .done)) →
        ∃ parts, Spec.PartsNamed (Spec.changedTables known (a :: log.map (·.2))) parts ∧
          runLog ft o.unfiltered crc st' (e :: log.map (·.1)) = (parts.flatten, .done) ∧
          runLog ft o crc st (e :: log.map (·.1))
            = ((Spec.choose o.wanted (Spec.changedTables known (a :: log.map (·.2))) parts).flatten, .done) := by
      intro ev ls s s' hs h1 h2 hnm ih
      rw [runLog, hs] at hdone
      dsimp only at hdone
      rw [h1] at hdone
      obtain ⟨parts, p1, p2, p3⟩ := ih hdone
      refine ⟨ls :: parts, .cons hnm p1, ?_, ?_⟩
      · rw [runLog, hs]
        dsimp only
        rw [h1]
        dsimp only
        rw [p2, List.flatten_cons]
      · rw [choose_cons, runLog, hs]
        dsimp only
        rw [h2]
        dsimp only
        rw [p3]
    cases a with
    | other =>
      cases hs : seenEvent crc e with
      | none =>
        rw [runLog, hs] at hdone
        obtain ⟨parts, p1, p2, p3⟩ := runLog_choose h0 crc caps caps' log known st st' answers answers' rest rest' hk hk' hof'
          hann2 hc hl hd hc' hl' hd' hdone
        refine ⟨[] :: parts, .cons (by simp) p1, ?_, ?_⟩
        · rw [runLog, hs]
          exact p2
        · rw [choose_cons, runLog, hs]
          exact p3
      | some ev =>
        have hab : ¬ Spec.AboutRows e := ha
        exact go ev [] st st' hs (onEvent_other ft _ crc st' e ev hs hab) (onEvent_other ft _ crc st e ev hs hab) (by simp)
          fun hx => runLog_choose h0 crc caps caps' log known st st' answers answers' rest rest' hk hk' hof' hann2 hc hl hd
            hc' hl' hd' hx
    | fileEnd =>
      have hs := seenEvent_of crc e .rotate ha (by decide)
      by_cases hu : o.untilNow = true
      · refine go _ [] { st with tbls := [], skip := [] } { st' with tbls := [], skip := [] } hs ?_ ?_ (by simp) ?_
        · unfold onEvent
          dsimp only
          rw [if_pos (show o.unfiltered.untilNow = true from hu)]
        · unfold onEvent
          dsimp only
          rw [if_pos hu]
          rfl
        · intro hx
          exact runLog_choose h0 crc caps caps' log (fun _ => none) { st with tbls := [], skip := [] }
            { st' with tbls := [], skip := [] } answers answers' rest rest' (fun id => ⟨rfl, by simp⟩) (fun id => ⟨rfl, by simp⟩)
            hof' hann2 hc hl hd hc' hl' hd' hx
      · have e1 : runLog ft o.unfiltered crc st' (e :: log.map (·.1)) = ([], .done) := by
          rw [runLog, hs]
          unfold onEvent
          dsimp only
          rw [if_neg (show ¬ o.unfiltered.untilNow = true from hu)]
        have e2 : runLog ft o crc st (e :: log.map (·.1)) = ([], .done) := by
          rw [runLog, hs]
          unfold onEvent
          dsimp only
          rw [if_neg hu]
        refine ⟨List.replicate (Spec.Topic.fileEnd :: log.map (·.2)).length [], parts_empty _ _, ?_, ?_⟩
        · rw [e1, List.flatten_replicate_nil]
        · rw [e2, choose_empty]
    | table id t =>
      obtain ⟨s1, s2, flags, s3, s4⟩ := ha
      have hs := seenEvent_of crc e .tableMap s1 (by decide)
      obtain ⟨m1, m2, rfl, l1, l2⟩ := ListsTables.append hl
      obtain ⟨m1', m2', rfl, l1', l2'⟩ := ListsTables.append hl'
      obtain ⟨mid, d1, d2⟩ := Delivers.append hd
      obtain ⟨mid', d1', d2'⟩ := Delivers.append hd'
      obtain ⟨s, a1, a2, -, a4, a5, -⟩ := onTableMap_flow hk id flags s2 s3 t hann1.1 hann1.2 caps hc m1 mid l1 d1
      obtain ⟨s', b1, b2, -, b4, b5, -⟩ := onTableMap_flow (o := o.unfiltered) hk' id flags s2 s3 t hann1.1 hann1.2 caps' hc' m1'
        mid' l1' d1'
      rw [← a4] at d2
      rw [← b4] at d2'
      refine go _ [] s s' hs ?_ ?_ (by simp) ?_
      · unfold onEvent
        dsimp only
        rw [s4, b1]
      · unfold onEvent
        dsimp only
        rw [s4, a1]
        rfl
      · intro hx
        exact runLog_choose h0 crc caps caps' log _ s s' m2 m2' rest rest' a2 b2 hof' hann2 a5 l2 d2 b5 l2' d2' hx
    | rows id =>
      obtain ⟨s1, s2, flags, n, body, s3, s4, s5⟩ := ha
      have hdata : RowsDataV2.readFrom e.payload = .ok ⟨id, flags, n, body⟩ [] := by
        rw [s5]
        simp only [List.append_assoc]
        exact C35_data id flags n body s2 s3 s4
      have fin : ∀ k (lines : TableMeta → RowsDataV2 → R (List DmlLine)), e.code = k.toByte → k.toByte ∈ Spec.supportedCodes →
          (∀ (o' : DmlOpts) (x : DmlState), o'.limit = 0 →
            onEvent ft o' x ⟨k, ⟨e.timestamp, k, e.serverId, e.len crc, e.nextPos, e.flags⟩, e.payload⟩
              = onRows 0 lines x e.payload) →
          (∀ (t : Spec.Table) ms ls r, lines ⟨t.schema, t.table, ms, cat t.schema t.table⟩ ⟨id, flags, n, body⟩ = .ok ls r →
            ∀ l ∈ ls, Spec.NamesTable t l) →
          ∃ parts, Spec.PartsNamed (Spec.changedTables known (.rows id :: log.map (·.2))) parts ∧
            runLog ft o.unfiltered crc st' (e :: log.map (·.1)) = (parts.flatten, .done) ∧
            runLog ft o crc st (e :: log.map (·.1))
              = ((Spec.choose o.wanted (Spec.changedTables known (.rows id :: log.map (·.2))) parts).flatten, .done) := by
        intro k lines hcode hsup hev hnm
        have hs := seenEvent_of crc e k hcode hsup
        rcases onRows_choose hk hk' lines e.payload _ _ hdata hnm with ⟨ls, n1, n2, r1, r2, r3⟩ | ⟨x, r1, r2, r3⟩
        · refine go _ ls { st with nRows := n1 } { st' with nRows := n2 } hs ?_ ?_ r3 ?_
          · rw [hev o.unfiltered _ h0, r1]
          · rw [hev _ _ h0, r2]
            rfl
          · intro hx
            exact runLog_choose h0 crc caps caps' log known { st with nRows := n1 } { st' with nRows := n2 } answers answers'
              rest rest' hk hk' hof' hann2 hc hl hd hc' hl' hd' hx
        · exfalso
          rw [runLog, hs] at hdone
          dsimp only at hdone
          rw [hev o.unfiltered _ h0, r1] at hdone
          cases x with
          | go y => exact r2 y rfl
          | stop => exact r3 rfl
          | err _ => cases hdone
          | panic => cases hdone
          | hang => cases hdone
      rcases s1 with s1 | s1 | s1
      · exact fin .writeRowsV2 (rowLines ft PreparedSql.fromInsert) s1 (by decide)
          (fun o' x ho => by unfold onEvent; dsimp only; rw [ho]) (fun t ms ls r => insert_names ft t ms _ _ ls r)
      · exact fin .updateRowsV2 (updateLines ft e.nextPos) s1 (by decide)
          (fun o' x ho => by unfold onEvent; dsimp only; rw [ho]) (fun t ms ls r => update_names ft _ t ms _ _ ls r)
      · exact fin .deleteRowsV2 (rowLines ft PreparedSql.fromDelete) s1 (by decide)
          (fun o' x ho => by unfold onEvent; dsimp only; rw [ho]) (fun t ms ls r => delete_names ft t ms _ _ ls r)

/-- C123: a log is read twice, with filters and without. If the run without filters gets to the end, so does the run with
filters, and it prints the lines that the other prints for events of tables that pass the filters, in the same order, and
no others, up to its limit. The lines of an event name its table. The two runs have connections of their own; the log sent
to them is the same, and so are the columns of the tables.
Missing from the full claim: table ids that change their meaning within a log file, and tables the library cannot read
(`TableReadable`), which end the run although no filter lets them through (`C43_unwanted_false`). -/
theorem C123_filters_partial (ft : FloatText) (o : DmlOpts) (hb : o.nonBlock = true)
    (hf : o.filename.length < 10 ^ 9 ∧ validUtf8 o.filename = true) (uuid uuid' : Bytes) (hu : uuid.length = 36)
    (hu' : uuid'.length = 36) (random random' : Nat) (hr : random < 2 ^ 32) (hr' : random' < 2 ^ 32)
    (conn conn' helper helper' : Conn) (crc : Bool) (opening opening' : List Bytes)
    (hopen : Spec.OpensStream conn.caps crc opening) (hopen' : Spec.OpensStream conn'.caps crc opening')
    (log : List (LogEvent × Spec.Topic)) (hin : ∀ x ∈ log, x.1.InRange ∧ x.2.Of x.1) (eof eof' rest rest' : Bytes)
    (hd : Spec.Delivers conn.inp (opening ++ (log.map (fun x => Spec.streamMessage crc x.1) ++ [0xfe :: eof])) rest)
    (hd' : Spec.Delivers conn'.inp (opening' ++ (log.map (fun x => Spec.streamMessage crc x.1) ++ [0xfe :: eof'])) rest')
    (hann : Spec.Announced (fun _ => none) (log.map (·.2))) (cat : Catalogue) (answers answers' : List Bytes)
    (hrest hrest' : Bytes)
    (ha : Spec.ListsTables helper.caps cat (Spec.asksFor o.wanted (fun _ => none) (log.map (·.2))) answers)
    (hh : Spec.Delivers helper.inp answers hrest)
    (ha' : Spec.ListsTables helper'.caps cat (Spec.asksFor (fun _ => true) (fun _ => none) (log.map (·.2))) answers')
    (hh' : Spec.Delivers helper'.inp answers' hrest')
    (hdone : (printDmls ft { o with databaseFilter := none, tableFilter := none, limit := 0 } uuid' random' conn' helper').2
      = .done) :
    ∃ parts, Spec.PartsNamed (Spec.changedTables (fun _ => none) (log.map (·.2))) parts ∧
      printDmls ft { o with databaseFilter := none, tableFilter := none, limit := 0 } uuid' random' conn' helper'
        = (parts.flatten, .done) ∧
      printDmls ft o uuid random conn helper
        = (let chosen := (Spec.choose o.wanted (Spec.changedTables (fun _ => none) (log.map (·.2))) parts).flatten
           if o.limit = 0 then chosen else upTo o.limit chosen, .done) := by
  have hin1 : ∀ e ∈ log.map (·.1), e.InRange := by
    intro e he
    obtain ⟨x, hx, rfl⟩ := List.mem_map.1 he
    exact (hin x hx).1
  have hmap : log.map (fun x => Spec.streamMessage crc x.1) = (log.map (·.1)).map (Spec.streamMessage crc) := by simp
  rw [hmap] at hd hd'
  have e1 := printDmls_runLog ft { o with databaseFilter := none, tableFilter := none, limit := 0 } hb hf uuid' hu' random'
    hr' conn' helper' crc opening' hopen' (log.map (·.1)) hin1 eof' rest' hd'
  have e2 := printDmls_runLog ft { o with limit := 0 } hb hf uuid hu random hr conn helper crc opening hopen
    (log.map (·.1)) hin1 eof rest hd
  rw [e1] at hdone ⊢
  obtain ⟨parts, p1, p2, p3⟩ := runLog_choose (ft := ft) (o := { o with limit := 0 }) (cat := cat) rfl crc helper.caps
    helper'.caps log (fun _ => none) ⟨[], [], 0, helper⟩ ⟨[], [], 0, helper'⟩ answers answers' hrest hrest'
    (keeps_nothing _ _ _) (keeps_nothing _ _ _) (fun x hx => (hin x hx).2) hann rfl ha hh rfl ha' hh' hdone
  exact ⟨parts, p1, p2, printDmls_cut ft o uuid random conn helper _ (e2.trans p3)⟩

/-! ### an example -/

/-- a table like that of C43, in a database that the filter of C43 does not let through -/
def otherTable : Spec.Table := ⟨Spec.ascii "e", Spec.ascii "u", [.longLong], [0]⟩

/-- both tables are announced, and a row is inserted into each -/
def bothLog : List (LogEvent × LogItem) :=
  [(⟨1, 19, 7, 100, 0, Spec.le 6 5 ++ Spec.le 2 1 ++ exampleTable.encode⟩, .tableMap 5 exampleTable),
   (⟨1, 19, 7, 150, 0, Spec.le 6 6 ++ Spec.le 2 1 ++ otherTable.encode⟩, .tableMap 6 otherTable),
   (⟨1, 30, 7, 200, 0, Spec.rowsHead 5 1 [] ++ Spec.rowsPayload [.longLong] [] [1] [exampleImage 3]⟩,
      .insert 5 [.longLong] [true] [exampleImage 3]),
   (⟨1, 30, 7, 300, 0, Spec.rowsHead 6 1 [] ++ Spec.rowsPayload [.longLong] [] [1] [exampleImage 4]⟩,
      .insert 6 [.longLong] [true] [exampleImage 4])]

def bothTopics : List Spec.Topic := [.table 5 exampleTable, .table 6 otherTable, .rows 5, .rows 6]

theorem both_says : ∀ x ∈ bothLog, x.1.InRange ∧ x.1.Says x.2 := by
  have hc : Covers [1] [true] := covers_of _ _ rfl (by decide)
  intro x hx
  simp only [bothLog, List.mem_cons, List.not_mem_nil, or_false] at hx
  rcases hx with rfl | rfl | rfl | rfl
  · exact ⟨by unfold Spec.LogEvent.InRange; decide +kernel, rfl, by norm_num, 1, by norm_num, rfl⟩
  · exact ⟨by unfold Spec.LogEvent.InRange; decide +kernel, rfl, by norm_num, 1, by norm_num, rfl⟩
  · exact ⟨by unfold Spec.LogEvent.InRange; decide +kernel, rfl, by norm_num, 1, by norm_num, [], [1], by norm_num, hc, rfl⟩
  · exact ⟨by unfold Spec.LogEvent.InRange; decide +kernel, rfl, by norm_num, 1, by norm_num, [], [1], by norm_num, hc, rfl⟩

theorem both_of : ∀ x ∈ (bothLog.map (·.1)).zip bothTopics, x.1.InRange ∧ x.2.Of x.1 := by
  intro x hx
  simp only [bothLog, bothTopics, List.map_cons, List.map_nil, List.zip_cons_cons, List.zip_nil_right, List.mem_cons,
    List.not_mem_nil, or_false] at hx
  rcases hx with rfl | rfl | rfl | rfl
  · exact ⟨by unfold Spec.LogEvent.InRange; decide +kernel, rfl, by norm_num, 1, by norm_num, rfl⟩
  · exact ⟨by unfold Spec.LogEvent.InRange; decide +kernel, rfl, by norm_num, 1, by norm_num, rfl⟩
  · exact ⟨by unfold Spec.LogEvent.InRange; decide +kernel, Or.inl rfl, by norm_num, 1, 2, _, by norm_num, by norm_num, rfl⟩
  · exact ⟨by unfold Spec.LogEvent.InRange; decide +kernel, Or.inl rfl, by norm_num, 1, 2, _, by norm_num, by norm_num, rfl⟩

theorem both_readable : TableReadable exampleTable ∧ TableReadable otherTable := by
  constructor
  all_goals
    refine ⟨⟨by decide, by decide⟩, ⟨by decide, by decide, by decide⟩, by decide +kernel, by decide, ?_, [.longLong], rfl⟩
    intro k hk
    have hk : k ∈ [ColKind.longLong] := hk
    simp only [List.mem_singleton] at hk
    subst hk
    trivial

theorem both_logOk (ft : FloatText) : LogOk ft (fun _ => true) exampleCatalogue (fun _ => none) (bothLog.map (·.2)) := by
  have hf : Front [true] := by
    intro i j h1 h2
    rcases j with _ | j
    · omega
    · simp at h2
  refine ⟨⟨both_readable.1, Or.inl rfl⟩, ⟨both_readable.2, Or.inl rfl⟩, ?_, ?_, trivial⟩
  · intro t ht _
    have ht : some exampleTable = some t := ht
    injection ht with ht
    subst ht
    refine ⟨rfl, ⟨rfl, rfl, hf, by simp⟩, ?_⟩
    intro r hr
    rw [List.mem_singleton] at hr
    subst hr
    exact example_image ft 3 (by norm_num)
  · intro t ht _
    have ht : some otherTable = some t := ht
    injection ht with ht
    subst ht
    refine ⟨rfl, ⟨rfl, rfl, hf, by simp⟩, ?_⟩
    intro r hr
    rw [List.mem_singleton] at hr
    subst hr
    exact example_image ft 4 (by norm_num)

theorem lists_append {caps : Nat} {cat : Catalogue} : ∀ {a b : List (Bytes × Bytes)} {m1 m2 : List Bytes},
    Spec.ListsTables caps cat a m1 → Spec.ListsTables caps cat b m2 → Spec.ListsTables caps cat (a ++ b) (m1 ++ m2)
  | [], b, m1, m2, h1, h2 => by
    have : m1 = [] := h1
    subst this
    exact h2
  | (db, tbl) :: a, b, m1, m2, ⟨x, y, e, h1, h2⟩, h3 => by
    subst e
    exact ⟨x, y ++ m2, by rw [List.append_assoc], h1, lists_append h2 h3⟩

/-- Without filters the row of each table is printed; with the filter only that of the wanted table. -/
example (ft : FloatText) : ∃ (conn helper helper' : Conn) (a b : List DmlLine),
    printDmls ft { exampleOpts 0 with databaseFilter := none, tableFilter := none, limit := 0 } (List.replicate 36 0x61) 5 conn
      helper' = (a ++ b, .done) ∧
    printDmls ft (exampleOpts 0) (List.replicate 36 0x61) 5 conn helper = (a, .done) ∧
    (∀ l ∈ a, Spec.NamesTable exampleTable l) ∧ ∀ l ∈ b, Spec.NamesTable otherTable l := by
  obtain ⟨answers, l1, l2⟩ := example_lists
  obtain ⟨opening, o1, o2⟩ := example_opens
  obtain ⟨inp, hd⟩ := delivers_small (opening ++ (bothLog.map (fun x => Spec.streamMessage true x.1) ++ [[0xfe]])) [] (by
    intro m hm
    rcases List.mem_append.1 hm with hm | hm
    · exact o2 m hm
    · have : ∀ m ∈ bothLog.map (fun x => Spec.streamMessage true x.1) ++ [[0xfe]], m.length < 0xffffff := by decide +kernel
      exact this m hm)
  obtain ⟨hinp, hh⟩ := delivers_small answers [] l2
  obtain ⟨hinp', hh'⟩ := delivers_small (answers ++ answers) [] (by
    intro m hm
    rcases List.mem_append.1 hm with hm | hm <;> exact l2 m hm)
  have hq : Spec.questions (exampleOpts 0).wanted (fun _ => none) (exampleLog.map (·.2))
      = [(Spec.ascii "d", Spec.ascii "t")] := by decide +kernel
  rw [hq] at l1
  have l3 : Spec.ListsTables (2 ^ 9) exampleCatalogue [(Spec.ascii "e", Spec.ascii "u")] answers := l1
  have hname : (Spec.ascii "f1").length < 10 ^ 9 ∧ validUtf8 (Spec.ascii "f1") = true := ⟨by decide +kernel, by decide +kernel⟩
  obtain ⟨out, -, h2⟩ := C43_prints_partial ft { exampleOpts 0 with databaseFilter := none, tableFilter := none, limit := 0 } rfl
    hname (List.replicate 36 0x61) (by simp) 5 (by norm_num) ⟨inp, [], 0, 2 ^ 9, 0⟩ ⟨hinp', [], 0, 2 ^ 9, 0⟩ true opening o1
    exampleCatalogue bothLog both_says (fun _ _ _ => rfl) (both_logOk ft) [] [] hd (answers ++ answers) []
    (lists_append l1 l3) hh'
  have hz : ((bothLog.map (·.1)).zip bothTopics).map (fun x => Spec.streamMessage true x.1)
      = bothLog.map (fun x => Spec.streamMessage true x.1) := rfl
  obtain ⟨parts, p1, p2, p3⟩ := C123_filters_partial ft (exampleOpts 0) rfl hname (List.replicate 36 0x61)
    (List.replicate 36 0x61) (by simp) (by simp) 5 5 (by norm_num) (by norm_num) ⟨inp, [], 0, 2 ^ 9, 0⟩ ⟨inp, [], 0, 2 ^ 9, 0⟩
    ⟨hinp, [], 0, 2 ^ 9, 0⟩ ⟨hinp', [], 0, 2 ^ 9, 0⟩ true opening opening o1 o1 ((bothLog.map (·.1)).zip bothTopics) both_of [] []
    [] [] (by rw [hz]; exact hd) (by rw [hz]; exact hd)
    ⟨⟨both_readable.1, Or.inl rfl⟩, ⟨both_readable.2, Or.inl rfl⟩, trivial, trivial, trivial⟩ exampleCatalogue answers
    (answers ++ answers) [] [] l1 hh (lists_append l1 l3) hh' (by rw [h2])
  have p1 : Spec.PartsNamed [none, none, some exampleTable, some otherTable] parts := p1
  obtain ⟨w, ws, q1, g1, rfl⟩ := List.forall₂_cons_left_iff.1 p1
  obtain ⟨x, xs, q2, g2, rfl⟩ := List.forall₂_cons_left_iff.1 g1
  obtain ⟨y, ys, q3, g3, rfl⟩ := List.forall₂_cons_left_iff.1 g2
  obtain ⟨z, zs, q4, g4, rfl⟩ := List.forall₂_cons_left_iff.1 g3
  cases g4
  have hw : w = [] := List.eq_nil_iff_forall_not_mem.2 fun l hl => by obtain ⟨t, h, -⟩ := q1 l hl; cases h
  have hx : x = [] := List.eq_nil_iff_forall_not_mem.2 fun l hl => by obtain ⟨t, h, -⟩ := q2 l hl; cases h
  subst hw hx
  refine ⟨⟨inp, [], 0, 2 ^ 9, 0⟩, ⟨hinp, [], 0, 2 ^ 9, 0⟩, ⟨hinp', [], 0, 2 ^ 9, 0⟩, y, z, ?_, ?_, ?_, ?_⟩
  · rw [p2]
    simp
  · rw [p3]
    show (if (0 : Nat) = 0 then (Spec.choose (exampleOpts 0).wanted [none, none, some exampleTable, some otherTable]
      [[], [], y, z]).flatten else _, DmlEnd.done) = _
    have w1 : (exampleOpts 0).wanted exampleTable = true := by decide +kernel
    have w2 : (exampleOpts 0).wanted otherTable = false := by decide +kernel
    simp [Spec.choose, w1, w2]
  · intro l hl
    obtain ⟨t, h, h'⟩ := q3 l hl
    injection h with h
    subst h
    exact h'
  · intro l hl
    obtain ⟨t, h, h'⟩ := q4 l hl
    injection h with h
    subst h
    exact h'

end Mybin
