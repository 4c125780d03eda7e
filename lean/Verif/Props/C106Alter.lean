/-
C106, whole runs: of the columns of a table, as they are when the log is read, only the names and three flags matter.
-/
import Verif.Props.C106
import Verif.Props.C123

namespace Mybin

open Spec (LogEvent LogItem)

/-! ### specification -/

/-- the column has kept its name, and is as much a primary key (2), a unique key (4) and unsigned (32) as it was; its
type, length, character set, default and all other flags may have changed -/
def Spec.KeptColumn (old now : ColumnDefinition) : Prop :=
  old.name = now.name ∧ old.flags &&& 2 = now.flags &&& 2 ∧ old.flags &&& 4 = now.flags &&& 4 ∧
    old.flags &&& 32 = now.flags &&& 32

/-- the columns of the wanted tables have kept their names and places -/
def Spec.KeptColumns (wanted : Spec.Table → Bool) (old now : Catalogue) (topics : List Spec.Topic) : Prop :=
  ∀ id t, Spec.Topic.table id t ∈ topics → wanted t = true →
    List.Forall₂ Spec.KeptColumn (old t.schema t.table) (now t.schema t.table)

/-! ### the statements do not depend on the type of a column -/

/-- what the statements are made of -/
def ColDef.view (c : ColDef) : Bytes × Bool × Bool := (c.name, c.unsigned, c.key)

theorem insertNames_view : ∀ (cs ds : List ColDef) (i : Nat), cs.map ColDef.view = ds.map ColDef.view →
    insertNames i cs = insertNames i ds
  | [], [], _, _ => rfl
  | [], _ :: _, _, h => by cases h
  | _ :: _, [], _, h => by cases h
  | c :: cs, d :: ds, i, h => by
    rw [List.map_cons, List.map_cons] at h
    injection h with h1 h2
    rw [insertNames, insertNames, insertNames_view cs ds _ h2, show c.name = d.name from congrArg (·.1) h1]

theorem insertMarks_view : ∀ (cs ds : List ColDef) (i : Nat), cs.map ColDef.view = ds.map ColDef.view →
    insertMarks i cs = insertMarks i ds
  | [], [], _, _ => rfl
  | [], _ :: _, _, h => by cases h
  | _ :: _, [], _, h => by cases h
  | c :: cs, d :: ds, i, h => by
    rw [List.map_cons, List.map_cons] at h
    injection h with h1 h2
    rw [insertMarks, insertMarks, insertMarks_view cs ds _ h2]

theorem assign_view (sep : Bytes) (use : ColDef → Bool) (hu : ∀ c d : ColDef, c.view = d.view → use c = use d) :
    ∀ (cs ds : List ColDef) (i : Nat) (out : List Bytes), cs.map ColDef.view = ds.map ColDef.view →
    assignFragments sep use i cs out = assignFragments sep use i ds out
  | [], [], _, _, _ => rfl
  | [], _ :: _, _, _, h => by cases h
  | _ :: _, [], _, _, h => by cases h
  | c :: cs, d :: ds, i, out, h => by
    rw [List.map_cons, List.map_cons] at h
    injection h with h1 h2
    rw [assignFragments, assignFragments, hu c d h1, show c.name = d.name from congrArg (·.1) h1]
    simp only [assign_view sep use hu cs ds _ _ h2]

theorem rowParams_view (use : ColDef → Bool) (hu : ∀ c d : ColDef, c.view = d.view → use c = use d) (cs ds : List ColDef)
    (row : List BinlogColumnValue) (h : cs.map ColDef.view = ds.map ColDef.view) :
    rowParams use cs row = rowParams use ds row := by
  unfold rowParams
  congr 1
  induction cs generalizing ds row with
  | nil =>
    cases ds with
    | nil => rfl
    | cons d ds => cases h
  | cons c cs ih =>
    cases ds with
    | nil => cases h
    | cons d ds =>
      rw [List.map_cons, List.map_cons] at h
      injection h with h1 h2
      cases row with
      | nil => rfl
      | cons v row =>
        have hun : c.unsigned = d.unsigned := congrArg (·.2.1) h1
        rw [List.zip_cons_cons, List.zip_cons_cons, List.filter_cons, List.filter_cons]
        dsimp only
        rw [hu c d h1]
        cases use d
        · exact ih ds row h2
        · rw [if_pos rfl, if_pos rfl, List.map_cons, List.map_cons, ih ds row h2, hun]

theorem of_view {c d : ColumnDefinition} (h : Spec.KeptColumn c d) : (ColDef.of c).view = (ColDef.of d).view := by
  obtain ⟨h1, h2, h3, h4⟩ := h
  unfold ColDef.of ColDef.view hasFlag
  simp only [h1, h2, h3, h4]

theorem filter_view (bm : Bytes) {cs ds : List ColumnDefinition} (h : List.Forall₂ Spec.KeptColumn cs ds) :
    (filterColDefs bm cs).map ColDef.view = (filterColDefs bm ds).map ColDef.view := by
  unfold filterColDefs
  generalize (Bitmap.toIter bm 0).getD [] = bits
  induction h generalizing bits with
  | nil => rfl
  | @cons c d cs ds h1 _ ih =>
    cases bits with
    | nil => rfl
    | cons b bits =>
      rw [List.zip_cons_cons, List.zip_cons_cons, List.filter_cons, List.filter_cons]
      dsimp only
      cases b
      · exact ih bits
      · rw [if_pos rfl, if_pos rfl, List.map_cons, List.map_cons, List.map_cons, List.map_cons, ih bits, of_view h1]

theorem keyExists_kept {cs ds : List ColumnDefinition} (h : List.Forall₂ Spec.KeptColumn cs ds) :
    keyExists cs = keyExists ds := by
  unfold keyExists
  induction h with
  | nil => rfl
  | @cons c d cs ds h1 _ ih =>
    rw [List.any_cons, List.any_cons, ih]
    obtain ⟨-, h2, h3, -⟩ := h1
    unfold hasFlag
    rw [h2, h3]

theorem insertLines_kept (ft : FloatText) (db tbl : Bytes) (ms : List ColumnMeta) (d : RowsDataV2)
    {cs ds : List ColumnDefinition} (h : List.Forall₂ Spec.KeptColumn cs ds) :
    rowLines ft PreparedSql.fromInsert ⟨db, tbl, ms, cs⟩ d = rowLines ft PreparedSql.fromInsert ⟨db, tbl, ms, ds⟩ d := by
  unfold rowLines
  dsimp only
  cases RowsV2.readFrom d.extraDataLen ms d.payload with
  | ok rows _ =>
    dsimp only
    unfold PreparedSql.fromInsert insertFragments
    have hv := filter_view rows.presentBitmap h
    have hp : rowParams (fun _ => true) (filterColDefs rows.presentBitmap cs)
        = rowParams (fun _ => true) (filterColDefs rows.presentBitmap ds) :=
      funext fun row => rowParams_view _ (fun _ _ _ => rfl) _ _ row hv
    simp only [hp, insertNames_view _ _ 0 hv, insertMarks_view _ _ 0 hv]
  | _ => rfl

theorem deleteLines_kept (ft : FloatText) (db tbl : Bytes) (ms : List ColumnMeta) (d : RowsDataV2)
    {cs ds : List ColumnDefinition} (h : List.Forall₂ Spec.KeptColumn cs ds) :
    rowLines ft PreparedSql.fromDelete ⟨db, tbl, ms, cs⟩ d = rowLines ft PreparedSql.fromDelete ⟨db, tbl, ms, ds⟩ d := by
  unfold rowLines
  dsimp only
  cases RowsV2.readFrom d.extraDataLen ms d.payload with
  | ok rows _ =>
    dsimp only
    unfold PreparedSql.fromDelete deleteFragments
    have hv := filter_view rows.presentBitmap h
    have hkey : ∀ c d : ColDef, c.view = d.view → c.key = d.key := fun _ _ h => congrArg (·.2.2) h
    have hp : rowParams (·.key) (filterColDefs rows.presentBitmap cs)
        = rowParams (·.key) (filterColDefs rows.presentBitmap ds) :=
      funext fun row => rowParams_view _ hkey _ _ row hv
    simp only [hp, assign_view _ _ hkey _ _ 0 _ hv]
  | _ => rfl

theorem updateLines_kept (ft : FloatText) (pos : Nat) (db tbl : Bytes) (ms : List ColumnMeta) (d : RowsDataV2)
    {cs ds : List ColumnDefinition} (h : List.Forall₂ Spec.KeptColumn cs ds) :
    updateLines ft pos ⟨db, tbl, ms, cs⟩ d = updateLines ft pos ⟨db, tbl, ms, ds⟩ d := by
  unfold updateLines
  dsimp only
  cases UpdateRowsV2.readFrom d.extraDataLen ms d.payload with
  | ok rows _ =>
    dsimp only
    rw [keyExists_kept h]
    unfold PreparedSql.fromUpdate updateFragments
    have hb := filter_view rows.beforeBitmap h
    have ha := filter_view rows.afterBitmap h
    have hkey : ∀ c d : ColDef, c.view = d.view → c.key = d.key := fun _ _ h => congrArg (·.2.2) h
    have hp : updateParams (filterColDefs rows.beforeBitmap cs) (filterColDefs rows.afterBitmap cs)
        = updateParams (filterColDefs rows.beforeBitmap ds) (filterColDefs rows.afterBitmap ds) := by
      funext row
      unfold updateParams
      rw [rowParams_view _ (fun _ _ _ => rfl) _ _ row.2 ha, rowParams_view _ hkey _ _ row.1 hb]
    simp only [hp, assign_view _ (fun _ => true) (fun _ _ _ => rfl) _ _ 0 _ ha, assign_view _ _ hkey _ _ 0 _ hb]
  | _ => rfl

/-! ### whole runs -/

/-- one event of rows: the same lines, and the same end or counter -/
theorem onRows_kept {wanted : Spec.Table → Bool} {old now : Catalogue} {known : Nat → Option Spec.Table} {st st' : DmlState}
    (hk : Keeps wanted old known st) (hk' : Keeps wanted now known st') (hn : st.nRows = st'.nRows) (limit : Nat)
    (lines : TableMeta → RowsDataV2 → R (List DmlLine)) (data : Bytes) (d : RowsDataV2) (r : Bytes)
    (hd : RowsDataV2.readFrom data = .ok d r)
    (hl : ∀ (t : Spec.Table) ms, known d.tableId = some t → wanted t = true →
      lines ⟨t.schema, t.table, ms, old t.schema t.table⟩ d = lines ⟨t.schema, t.table, ms, now t.schema t.table⟩ d) :
    (∃ out n, onRows limit lines st data = (out, .go { st with nRows := n }) ∧
      onRows limit lines st' data = (out, .go { st' with nRows := n })) ∨
    ∃ out e, onRows limit lines st data = (out, e) ∧ onRows limit lines st' data = (out, e) ∧ ∀ x, e ≠ .go x := by
  have h := hk d.tableId
  have h' := hk' d.tableId
  unfold onRows
  rw [hd]
  dsimp only
  cases hkn : known d.tableId with
  | none =>
    rw [hkn] at h h'
    dsimp only at h h'
    rw [if_neg h.2, h.1, if_neg h'.2, h'.1]
    exact Or.inl ⟨[], st.nRows, rfl, by rw [hn]⟩
  | some t =>
    rw [hkn] at h h'
    dsimp only at h h'
    by_cases hw : wanted t = true
    · rw [if_pos hw] at h h'
      obtain ⟨h1, ms, h2, -, -, h5⟩ := h
      obtain ⟨g1, ms', g2, -, -, g5⟩ := h'
      have hms : ms = ms' := List.map_injective_iff.2 (Option.some_injective _) (h2.symm.trans g2)
      subst hms
      rw [if_neg h1, h5, if_neg g1, g5]
      dsimp only
      rw [hl t ms hkn hw]
      cases lines ⟨t.schema, t.table, ms, now t.schema t.table⟩ d with
      | ok ls _ =>
        dsimp only
        rw [hn]
        rcases printLines limit st'.nRows ls with ⟨out, m⟩
        cases m with
        | none => exact Or.inr ⟨out, .stop, rfl, rfl, by simp⟩
        | some m => exact Or.inl ⟨out, m, rfl, rfl⟩
      | err e _ => exact Or.inr ⟨_, _, rfl, rfl, by simp⟩
      | panic => exact Or.inr ⟨_, _, rfl, rfl, by simp⟩
      | hang => exact Or.inr ⟨_, _, rfl, rfl, by simp⟩
    · rw [if_neg hw] at h h'
      rw [if_pos h.1, if_pos h'.1]
      exact Or.inl ⟨[], st.nRows, rfl, by rw [hn]⟩

theorem runLog_kept {ft : FloatText} {o : DmlOpts} {old now : Catalogue} (crc : Bool) (caps caps' : Nat) :
    ∀ (log : List (LogEvent × Spec.Topic)) (known : Nat → Option Spec.Table) (st st' : DmlState)
      (answers answers' : List Bytes) (rest rest' : Bytes),
    Keeps o.wanted old known st → Keeps o.wanted now known st' → st.nRows = st'.nRows →
    (∀ id t, known id = some t → o.wanted t = true →
      List.Forall₂ Spec.KeptColumn (old t.schema t.table) (now t.schema t.table)) →
    (∀ x ∈ log, x.2.Of x.1) → Spec.Announced known (log.map (·.2)) → Spec.KeptColumns o.wanted old now (log.map (·.2)) →
    st.helper.caps = caps → Spec.ListsTables caps old (Spec.asksFor o.wanted known (log.map (·.2))) answers →
    Spec.Delivers st.helper.inp answers rest →
    st'.helper.caps = caps' → Spec.ListsTables caps' now (Spec.asksFor o.wanted known (log.map (·.2))) answers' →
    Spec.Delivers st'.helper.inp answers' rest' →
    runLog ft o crc st (log.map (·.1)) = runLog ft o crc st' (log.map (·.1))
  | [], _, _, _, _, _, _, _, _, _, _, _, _, _, _, _, _, _, _, _, _ => rfl
  | (e, a) :: log, known, st, st', answers, answers', rest, rest', hk, hk', hn, hkn, hof, hann, hkept, hc, hl, hd, hc', hl',
    hd' => by
    have ha := hof (e, a) List.mem_cons_self
    have hof' : ∀ x ∈ log, x.2.Of x.1 := fun x hx => hof x (List.mem_cons_of_mem _ hx)
    have hkept' : Spec.KeptColumns o.wanted old now (log.map (·.2)) := fun id t h => hkept id t (by
      rw [List.map_cons]; exact List.mem_cons_of_mem _ h)
    simp only [List.map_cons] at hann hl hl' ⊢
    obtain ⟨hann1, hann2⟩ := hann
    have go : ∀ ev ls s s', seenEvent crc e = some ev → onEvent ft o st ev = (ls, .go s) → onEvent ft o st' ev = (ls, .go s') →
        runLog ft o crc s (log.map (·.1)) = runLog ft o crc s' (log.map (·.1)) →
        runLog ft o crc st (e :: log.map (·.1)) = runLog ft o crc st' (e :: log.map (·.1)) := by
      intro ev ls s s' hs h1 h2 ih
      rw [runLog, runLog, hs]
      dsimp only
      rw [h1, h2]
      dsimp only
      rw [ih]
    cases a with
    | other =>
      have ih := runLog_kept (ft := ft) crc caps caps' log known st st' answers answers' rest rest' hk hk' hn hkn hof' hann2 hkept' hc hl
        hd hc' hl' hd'
      cases hs : seenEvent crc e with
      | none => rw [runLog, runLog, hs]; exact ih
      | some ev =>
        have hab : ¬ Spec.AboutRows e := ha
        exact go ev [] st st' hs (onEvent_other ft _ crc st e ev hs hab) (onEvent_other ft _ crc st' e ev hs hab) ih
    | fileEnd =>
      have hs := seenEvent_of crc e .rotate ha (by decide)
      by_cases hu : o.untilNow = true
      · refine go _ [] { st with tbls := [], skip := [] } { st' with tbls := [], skip := [] } hs ?_ ?_ ?_
        · unfold onEvent
          dsimp only
          rw [if_pos hu]
        · unfold onEvent
          dsimp only
          rw [if_pos hu]
        · exact runLog_kept crc caps caps' log (fun _ => none) { st with tbls := [], skip := [] }
            { st' with tbls := [], skip := [] } answers answers' rest rest' (fun id => ⟨rfl, by simp⟩)
            (fun id => ⟨rfl, by simp⟩) hn (by simp) hof' hann2 hkept' hc hl hd hc' hl' hd'
      · rw [runLog, runLog, hs]
        simp only [onEvent, if_neg hu]
    | table id t =>
      obtain ⟨s1, s2, flags, s3, s4⟩ := ha
      have hs := seenEvent_of crc e .tableMap s1 (by decide)
      obtain ⟨m1, m2, rfl, l1, l2⟩ := ListsTables.append hl
      obtain ⟨m1', m2', rfl, l1', l2'⟩ := ListsTables.append hl'
      obtain ⟨mid, d1, d2⟩ := Delivers.append hd
      obtain ⟨mid', d1', d2'⟩ := Delivers.append hd'
      obtain ⟨s, a1, a2, a3, a4, a5, -⟩ := onTableMap_flow hk id flags s2 s3 t hann1.1 hann1.2 caps hc m1 mid l1 d1
      obtain ⟨s', b1, b2, b3, b4, b5, -⟩ := onTableMap_flow hk' id flags s2 s3 t hann1.1 hann1.2 caps' hc' m1' mid' l1' d1'
      rw [← a4] at d2
      rw [← b4] at d2'
      refine go _ [] s s' hs ?_ ?_ ?_
      · unfold onEvent
        dsimp only
        rw [s4, a1]
      · unfold onEvent
        dsimp only
        rw [s4, b1]
      · refine runLog_kept crc caps caps' log _ s s' m2 m2' rest rest' a2 b2 (by rw [a3, b3, hn]) ?_ hof' hann2 hkept' a5 l2 d2
          b5 l2' d2'
        intro i t' hi hw
        have hi : (if i = id then some t else known i) = some t' := hi
        by_cases hid : i = id
        · rw [if_pos hid] at hi
          injection hi with hi
          subst hi
          exact hkept id t (by simp) hw
        · rw [if_neg hid] at hi
          exact hkn i t' hi hw
    | rows id =>
      obtain ⟨s1, s2, flags, n, body, s3, s4, s5⟩ := ha
      have hdata : RowsDataV2.readFrom e.payload = .ok ⟨id, flags, n, body⟩ [] := by
        rw [s5]
        simp only [List.append_assoc]
        exact C35_data id flags n body s2 s3 s4
      have fin : ∀ k (lines : TableMeta → RowsDataV2 → R (List DmlLine)), e.code = k.toByte → k.toByte ∈ Spec.supportedCodes →
          (∀ (x : DmlState), onEvent ft o x ⟨k, ⟨e.timestamp, k, e.serverId, e.len crc, e.nextPos, e.flags⟩, e.payload⟩
              = onRows o.limit lines x e.payload) →
          (∀ (t : Spec.Table) ms, List.Forall₂ Spec.KeptColumn (old t.schema t.table) (now t.schema t.table) →
            lines ⟨t.schema, t.table, ms, old t.schema t.table⟩ ⟨id, flags, n, body⟩
              = lines ⟨t.schema, t.table, ms, now t.schema t.table⟩ ⟨id, flags, n, body⟩) →
          runLog ft o crc st (e :: log.map (·.1)) = runLog ft o crc st' (e :: log.map (·.1)) := by
        intro k lines hcode hsup hev hsame
        have hs := seenEvent_of crc e k hcode hsup
        rcases onRows_kept hk hk' hn o.limit lines e.payload _ _ hdata
          (fun t ms h1 h2 => hsame t ms (hkn id t h1 h2)) with ⟨ls, m, r1, r2⟩ | ⟨ls, x, r1, r2, r3⟩
        · refine go _ ls { st with nRows := m } { st' with nRows := m } hs (by rw [hev, r1]) (by rw [hev, r2]) ?_
          exact runLog_kept crc caps caps' log known { st with nRows := m } { st' with nRows := m } answers answers' rest rest'
            hk hk' rfl hkn hof' hann2 hkept' hc hl hd hc' hl' hd'
        · rw [runLog, runLog, hs]
          dsimp only
          rw [hev, hev, r1, r2]
      rcases s1 with s1 | s1 | s1
      · exact fin .writeRowsV2 (rowLines ft PreparedSql.fromInsert) s1 (by decide) (fun x => rfl)
          (fun t ms h => insertLines_kept ft _ _ ms _ h)
      · exact fin .updateRowsV2 (updateLines ft e.nextPos) s1 (by decide) (fun x => rfl)
          (fun t ms h => updateLines_kept ft _ _ _ ms _ h)
      · exact fin .deleteRowsV2 (rowLines ft PreparedSql.fromDelete) s1 (by decide) (fun x => rfl)
          (fun t ms h => deleteLines_kept ft _ _ ms _ h)

/-- C106: a log is read twice, once when the tables have the columns `old` and once when they have the columns `now`. When
the columns of the wanted tables have kept their names, places, signs and keys, whatever else was changed about them, the
two runs print the same and end in the same way, whatever the rows of the log are, even if they end in an error.
Missing from the full claim: columns that were renamed, added or dropped (`C106_renamed_false`, `C106_added_false`,
`C106_dropped_false`); and as in C123 tables the library cannot read and table ids that change their meaning. -/
theorem C106_altered_partial (ft : FloatText) (o : DmlOpts) (hb : o.nonBlock = true)
    (hf : o.filename.length < 10 ^ 9 ∧ validUtf8 o.filename = true) (uuid uuid' : Bytes) (hu : uuid.length = 36)
    (hu' : uuid'.length = 36) (random random' : Nat) (hr : random < 2 ^ 32) (hr' : random' < 2 ^ 32)
    (conn conn' helper helper' : Conn) (crc : Bool) (opening opening' : List Bytes)
    (hopen : Spec.OpensStream conn.caps crc opening) (hopen' : Spec.OpensStream conn'.caps crc opening')
    (log : List (LogEvent × Spec.Topic)) (hin : ∀ x ∈ log, x.1.InRange ∧ x.2.Of x.1) (eof eof' rest rest' : Bytes)
    (hd : Spec.Delivers conn.inp (opening ++ (log.map (fun x => Spec.streamMessage crc x.1) ++ [0xfe :: eof])) rest)
    (hd' : Spec.Delivers conn'.inp (opening' ++ (log.map (fun x => Spec.streamMessage crc x.1) ++ [0xfe :: eof'])) rest')
    (hann : Spec.Announced (fun _ => none) (log.map (·.2))) (old now : Catalogue)
    (hkept : Spec.KeptColumns o.wanted old now (log.map (·.2))) (answers answers' : List Bytes) (hrest hrest' : Bytes)
    (ha : Spec.ListsTables helper.caps old (Spec.asksFor o.wanted (fun _ => none) (log.map (·.2))) answers)
    (hh : Spec.Delivers helper.inp answers hrest)
    (ha' : Spec.ListsTables helper'.caps now (Spec.asksFor o.wanted (fun _ => none) (log.map (·.2))) answers')
    (hh' : Spec.Delivers helper'.inp answers' hrest') :
    printDmls ft o uuid' random' conn' helper' = printDmls ft o uuid random conn helper := by
  have hin1 : ∀ e ∈ log.map (·.1), e.InRange := by
    intro e he
    obtain ⟨x, hx, rfl⟩ := List.mem_map.1 he
    exact (hin x hx).1
  have hmap : log.map (fun x => Spec.streamMessage crc x.1) = (log.map (·.1)).map (Spec.streamMessage crc) := by simp
  rw [hmap] at hd hd'
  rw [printDmls_runLog ft o hb hf uuid' hu' random' hr' conn' helper' crc opening' hopen' (log.map (·.1)) hin1 eof' rest' hd',
    printDmls_runLog ft o hb hf uuid hu random hr conn helper crc opening hopen (log.map (·.1)) hin1 eof rest hd]
  exact (runLog_kept crc helper.caps helper'.caps log (fun _ => none) ⟨[], [], 0, helper⟩ ⟨[], [], 0, helper'⟩ answers
    answers' hrest hrest' (keeps_nothing _ _ _) (keeps_nothing _ _ _) rfl (by simp) (fun x hx => (hin x hx).2) hann hkept rfl
    ha hh rfl ha' hh').symm

/-! ### an example -/

/-- the column of the table of C43 was a BIGINT and is an INT now -/
def narrowedCatalogue : Catalogue := fun _ _ => [clientDef (exampleDef 3) .long []]

theorem narrowed_lists : ∃ answers, Spec.ListsTables (2 ^ 9) narrowedCatalogue [(Spec.ascii "d", Spec.ascii "t")] answers ∧
    ∀ m ∈ answers, m.length < 0xffffff := by
  have h : Spec.Supported (exampleDef 3, .long) := by
    refine ⟨?_, by decide⟩
    constructor <;> first | (exact ⟨by decide, by decide⟩) | (exact (by decide))
  refine ⟨(Spec.okPacket (2 ^ 9) 0 ⟨0, 0, 2, 0, [], []⟩ ::
    Spec.fieldListResponse [(exampleDef 3, none)] (Spec.eofPacket (2 ^ 9) 0 2)) ++ [],
    ⟨_, [], rfl, ⟨⟨0, 0, 2, 0, [], []⟩, [(exampleDef 3, .long, none)], Spec.eofPacket (2 ^ 9) 0 2, ?_, ?_, ?_, rfl, rfl⟩,
      rfl⟩, by decide +kernel⟩
  · constructor <;> norm_num
  · intro col hcol
    simp only [List.mem_singleton] at hcol
    subst hcol
    exact ⟨h, by decide, by rintro v ⟨⟩⟩
  · unfold Spec.IsCommandEnd
    rw [if_neg (by decide)]
    exact ⟨0, 2, by norm_num, by norm_num, rfl⟩

/-- The log of C123 is read before and after the change. The answers of the server differ, the output does not. -/
example (ft : FloatText) : ∃ (conn helper helper' : Conn), helper.inp ≠ helper'.inp ∧
    printDmls ft (exampleOpts 0) (List.replicate 36 0x61) 5 conn helper'
      = printDmls ft (exampleOpts 0) (List.replicate 36 0x61) 5 conn helper := by
  obtain ⟨answers, l1, l2⟩ := example_lists
  obtain ⟨answers', l1', l2'⟩ := narrowed_lists
  obtain ⟨opening, o1, o2⟩ := example_opens
  obtain ⟨inp, hd⟩ := delivers_small (opening ++ (bothLog.map (fun x => Spec.streamMessage true x.1) ++ [[0xfe]])) [] (by
    intro m hm
    rcases List.mem_append.1 hm with hm | hm
    · exact o2 m hm
    · have : ∀ m ∈ bothLog.map (fun x => Spec.streamMessage true x.1) ++ [[0xfe]], m.length < 0xffffff := by decide +kernel
      exact this m hm)
  obtain ⟨hinp, hh⟩ := delivers_small answers [] l2
  obtain ⟨hinp', hh'⟩ := delivers_small answers' [] l2'
  have hq : Spec.questions (exampleOpts 0).wanted (fun _ => none) (exampleLog.map (·.2))
      = [(Spec.ascii "d", Spec.ascii "t")] := by decide +kernel
  rw [hq] at l1
  have hname : (Spec.ascii "f1").length < 10 ^ 9 ∧ validUtf8 (Spec.ascii "f1") = true := ⟨by decide +kernel, by decide +kernel⟩
  have hz : ((bothLog.map (·.1)).zip bothTopics).map (fun x => Spec.streamMessage true x.1)
      = bothLog.map (fun x => Spec.streamMessage true x.1) := rfl
  refine ⟨⟨inp, [], 0, 2 ^ 9, 0⟩, ⟨hinp, [], 0, 2 ^ 9, 0⟩, ⟨hinp', [], 0, 2 ^ 9, 0⟩, ?_, ?_⟩
  · -- the columns that are told are different
    rintro (e : hinp = hinp')
    subst e
    obtain ⟨m1, m2, rfl, k1, k2⟩ := l1
    have k2 : m2 = [] := k2
    obtain ⟨n1, n2, rfl, k3, k4⟩ := l1'
    have k4 : n2 = [] := k4
    subst k2 k4
    rw [List.append_nil] at hh hh'
    have side : (Spec.ascii "d").length < 256 ∧ (Spec.ascii "t").length < 256 ∧ (0 : UInt8) ∉ Spec.ascii "t" := by
      decide +kernel
    obtain ⟨_, a1, -⟩ := fetchColumns_exchanges (2 ^ 9) (Spec.ascii "d") (Spec.ascii "t") side.1 side.2 _ _ k1
      ⟨hinp, [], 0, 2 ^ 9, 0⟩ [] rfl hh
    obtain ⟨_, a2, -⟩ := fetchColumns_exchanges (2 ^ 9) (Spec.ascii "d") (Spec.ascii "t") side.1 side.2 _ _ k3
      ⟨hinp, [], 0, 2 ^ 9, 0⟩ [] rfl hh'
    rw [a1] at a2
    injection a2 with a2 _
    have a2 : [clientDef (exampleDef 8) .longLong []] = [clientDef (exampleDef 3) .long []] := a2
    exact absurd a2 (by decide)
  · exact C106_altered_partial ft (exampleOpts 0) rfl hname (List.replicate 36 0x61)
      (List.replicate 36 0x61) (by simp) (by simp) 5 5 (by norm_num) (by norm_num) ⟨inp, [], 0, 2 ^ 9, 0⟩ ⟨inp, [], 0, 2 ^ 9, 0⟩
      ⟨hinp, [], 0, 2 ^ 9, 0⟩ ⟨hinp', [], 0, 2 ^ 9, 0⟩ true opening opening o1 o1 ((bothLog.map (·.1)).zip bothTopics) both_of [] []
      [] [] (by rw [hz]; exact hd) (by rw [hz]; exact hd)
      ⟨⟨both_readable.1, Or.inl rfl⟩, ⟨both_readable.2, Or.inl rfl⟩, trivial, trivial, trivial⟩ exampleCatalogue
      narrowedCatalogue (fun _ _ _ _ => .cons ⟨rfl, rfl, rfl, rfl⟩ .nil) answers answers' [] [] l1 hh l1' hh'

end Mybin
