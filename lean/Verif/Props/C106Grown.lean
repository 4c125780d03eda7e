/-
C106, whole runs: columns that are added at the end of a table.
-/
import Verif.Props.C106Alter
import Verif.Props.C80

namespace Mybin

open Spec (LogEvent LogItem)

/-! ### specification -/

/-- a column that is a primary key and a unique key -/
def Spec.KeyColumn (c : ColumnDefinition) : Prop := c.flags &&& 2 = 2 ∧ c.flags &&& 4 = 4

/-- columns were added after those there were; those have kept their names, signs and keys; and the table did not get its
first key in this way -/
def Spec.GrownTable (old now : List ColumnDefinition) : Prop :=
  ∃ kept more, now = kept ++ more ∧ List.Forall₂ Spec.KeptColumn old kept ∧
    ((∃ c ∈ old, Spec.KeyColumn c) ∨ ∀ c ∈ more, ¬ Spec.KeyColumn c)

/-- each wanted table has grown, or is as it was -/
def Spec.GrownColumns (wanted : Spec.Table → Bool) (old now : Catalogue) (topics : List Spec.Topic) : Prop :=
  ∀ id t, Spec.Topic.table id t ∈ topics → wanted t = true → Spec.GrownTable (old t.schema t.table) (now t.schema t.table)

/-- a bitmap for `w` columns whose unused bits are clear -/
def Spec.ClearBitmap (w : Nat) (bm : List UInt8) : Prop := bm.length = (w + 7) / 8 ∧ ∀ i, w ≤ i → Spec.bit? bm i ≠ some true

/-- an event of rows with `w` columns and with bitmaps whose unused bits are clear, one for inserted and deleted rows, two
for updated ones: the table id and flags, the length of the extra data and these, the number of columns, the bitmaps and
the rows -/
def Spec.ClearAbove (w : Nat) (e : LogEvent) : Prop :=
  ∃ head extra bm rest, head.length = 8 ∧ extra.length + 2 < 2 ^ 16 ∧ w + 7 < 2 ^ 32 ∧ Spec.ClearBitmap w bm ∧
    (e.code = 31 → ∃ bm2 rest2, rest = bm2 ++ rest2 ∧ Spec.ClearBitmap w bm2) ∧
    e.payload = head ++ Spec.le 2 (extra.length + 2) ++ extra ++ Spec.lenEncInt w ++ bm ++ rest

/-- the events of the wanted tables have as many columns as the tables had, and the unused bits are clear -/
def Spec.UnusedClear (wanted : Spec.Table → Bool) (old : Catalogue) :
    (Nat → Option Spec.Table) → List (LogEvent × Spec.Topic) → Prop
  | _, [] => True
  | known, (e, a) :: log =>
    (∀ id t, a = .rows id → known id = some t → wanted t = true → Spec.ClearAbove (old t.schema t.table).length e) ∧
      Spec.UnusedClear wanted old (a.announce known) log

/-! ### the lines of one event -/

theorem filterColDefs_clear {w : Nat} {bm : Bytes} (h : Spec.ClearBitmap w bm) (kept more : List ColumnDefinition)
    (hk : kept.length = w) : filterColDefs bm (kept ++ more) = filterColDefs bm kept := by
  obtain ⟨l, e1, e2, e3⟩ := bits_exist bm
  have hw : w ≤ l.length := by have := h.1; omega
  refine filterColDefs_grown bm (l.take w) kept more ⟨?_, ?_⟩ ?_ ?_
  · rw [List.length_take, Nat.min_eq_left hw]; exact h.1
  · intro i b hi
    have hlt : i < (l.take w).length := (List.getElem?_eq_some_iff.1 hi).1
    rw [List.length_take] at hlt
    rw [List.getElem?_take_of_lt (by omega)] at hi
    rw [← e3 i (by omega), hi]
  · rw [List.length_take, Nat.min_eq_left hw, hk]
  · intro i hi
    rw [List.length_take, Nat.min_eq_left hw] at hi
    exact h.2 i hi

theorem hasFlag_iff (f m : Nat) : hasFlag f m = true ↔ f &&& m = m := by
  unfold hasFlag
  simp

theorem keyExists_grown {old now : List ColumnDefinition} (kept more : List ColumnDefinition) (hn : now = kept ++ more)
    (hk : List.Forall₂ Spec.KeptColumn old kept)
    (h : (∃ c ∈ old, Spec.KeyColumn c) ∨ ∀ c ∈ more, ¬ Spec.KeyColumn c) : keyExists now = keyExists old := by
  rw [keyExists_kept hk, hn]
  have e : keyExists (kept ++ more) = (keyExists kept || keyExists more) := by
    unfold keyExists
    rw [List.any_append]
  rw [e]
  rcases h with ⟨c, hc, h1, h2⟩ | h
  · have : keyExists old = true := by
      unfold keyExists
      rw [List.any_eq_true]
      refine ⟨c, hc, ?_⟩
      rw [Bool.and_eq_true, hasFlag_iff, hasFlag_iff]
      exact ⟨h1, h2⟩
    rw [← keyExists_kept hk, this, Bool.true_or]
  · have : keyExists more = false := by
      unfold keyExists
      rw [List.any_eq_false]
      intro c hc
      rw [Bool.and_eq_true, hasFlag_iff, hasFlag_iff]
      exact fun hk => h c hc hk
    rw [this, Bool.or_false]

/-- what follows the table id, the flags and the length in an event -/
theorem clearAbove_body {w n : Nat} {e : LogEvent} {pre body : Bytes} (h : Spec.ClearAbove w e) (hpre : pre.length = 8)
    (hn : n < 2 ^ 16) (hp : e.payload = pre ++ Spec.le 2 n ++ body) :
    ∃ extra bm rest, n = extra.length + 2 ∧ extra.length + 2 < 2 ^ 16 ∧ w + 7 < 2 ^ 32 ∧ Spec.ClearBitmap w bm ∧
      (e.code = 31 → ∃ bm2 rest2, rest = bm2 ++ rest2 ∧ Spec.ClearBitmap w bm2) ∧
      body = extra ++ (Spec.lenEncInt w ++ (bm ++ rest)) := by
  obtain ⟨head, extra, bm, rest, h1, h2, h3, h4, h5, h6⟩ := h
  rw [hp] at h6
  simp only [List.append_assoc] at h6
  obtain ⟨-, h7⟩ := List.append_inj h6 (by omega)
  obtain ⟨h8, h9⟩ := List.append_inj h7 (by simp)
  have h10 := congrArg leVal h8
  rw [leVal_le 2 n (by omega), leVal_le 2 _ (by omega)] at h10
  exact ⟨extra, bm, rest, h10, h2, h3, h4, h5, h9⟩

theorem rows_bitmap {w n : Nat} {extra bm rest : Bytes} (hn : n = extra.length + 2) (he : extra.length + 2 < 2 ^ 16)
    (hw : w + 7 < 2 ^ 32) (hb : bm.length = (w + 7) / 8) (ms : List ColumnMeta) (rows : RowsV2) (r : Bytes)
    (h : RowsV2.readFrom n ms (extra ++ (Spec.lenEncInt w ++ (bm ++ rest))) = .ok rows r) : rows.presentBitmap = bm := by
  subst hn
  unfold RowsV2.readFrom at h
  rw [P.bind_apply, readRowsHeader_spec extra w he hw, R.bind_ok] at h
  dsimp only at h
  rw [P.bind_apply, readLen_append' _ bm _ (by rw [Bitmap.shr3, hb]), R.bind_ok] at h
  have h : R.bind (P.whileRemaining (readImage w (countPresent bm w) bm ms) rest) _ = _ := h
  cases hr : P.whileRemaining (readImage w (countPresent bm w) bm ms) rest with
  | ok x r' =>
    rw [hr, R.bind_ok] at h
    injection h with h _
    rw [← h]
  | _ => rw [hr] at h; cases h

theorem update_bitmaps {w n : Nat} {extra bm bm2 rest : Bytes} (hn : n = extra.length + 2) (he : extra.length + 2 < 2 ^ 16)
    (hw : w + 7 < 2 ^ 32) (hb : bm.length = (w + 7) / 8) (hb2 : bm2.length = (w + 7) / 8) (ms : List ColumnMeta)
    (rows : UpdateRowsV2) (r : Bytes)
    (h : UpdateRowsV2.readFrom n ms (extra ++ (Spec.lenEncInt w ++ (bm ++ (bm2 ++ rest)))) = .ok rows r) :
    rows.beforeBitmap = bm ∧ rows.afterBitmap = bm2 := by
  subst hn
  unfold UpdateRowsV2.readFrom at h
  rw [P.bind_apply, readRowsHeader_spec extra w he hw, R.bind_ok] at h
  dsimp only at h
  rw [P.bind_apply, readLen_append' _ bm _ (by rw [Bitmap.shr3, hb]), R.bind_ok, P.bind_apply,
    readLen_append' _ bm2 _ (by rw [Bitmap.shr3, hb2]), R.bind_ok] at h
  have h : R.bind (P.whileRemaining (readUpdateRow w bm bm2 ms) rest) _ = _ := h
  cases hr : P.whileRemaining (readUpdateRow w bm bm2 ms) rest with
  | ok x r' =>
    rw [hr, R.bind_ok] at h
    injection h with h _
    rw [← h]
    exact ⟨rfl, rfl⟩
  | _ => rw [hr] at h; cases h

theorem rowLines_grown (ft : FloatText) (db tbl : Bytes) (ms : List ColumnMeta) {old now : List ColumnDefinition}
    (h : Spec.GrownTable old now) {e : LogEvent} (hb : Spec.ClearAbove old.length e) {id flags n : Nat} {body : Bytes}
    (hn : n < 2 ^ 16) (hp : e.payload = Spec.le 6 id ++ Spec.le 2 flags ++ Spec.le 2 n ++ body) :
    rowLines ft PreparedSql.fromInsert ⟨db, tbl, ms, old⟩ ⟨id, flags, n, body⟩
      = rowLines ft PreparedSql.fromInsert ⟨db, tbl, ms, now⟩ ⟨id, flags, n, body⟩ ∧
    rowLines ft PreparedSql.fromDelete ⟨db, tbl, ms, old⟩ ⟨id, flags, n, body⟩
      = rowLines ft PreparedSql.fromDelete ⟨db, tbl, ms, now⟩ ⟨id, flags, n, body⟩ := by
  obtain ⟨kept, more, rfl, hk, hkey⟩ := h
  obtain ⟨extra, bm, rest, b1, b2, b3, b4, -, b5⟩ := clearAbove_body hb (by simp) hn hp
  rw [insertLines_kept ft db tbl ms _ hk, deleteLines_kept ft db tbl ms _ hk]
  unfold rowLines
  dsimp only
  cases hr : RowsV2.readFrom n ms body with
  | ok rows r =>
    rw [b5] at hr
    have hbm := rows_bitmap b1 b2 b3 b4.1 ms rows r hr
    have hf := filterColDefs_clear b4 kept more hk.length_eq.symm
    rw [← hbm] at hf
    dsimp only
    unfold PreparedSql.fromInsert PreparedSql.fromDelete
    simp only [hf, and_self]
  | _ => exact ⟨rfl, rfl⟩

theorem updateLines_grown (ft : FloatText) (pos : Nat) (db tbl : Bytes) (ms : List ColumnMeta)
    {old now : List ColumnDefinition} (h : Spec.GrownTable old now) {e : LogEvent} (hb : Spec.ClearAbove old.length e)
    {id flags n : Nat} {body : Bytes} (hcode : e.code = 31) (hn : n < 2 ^ 16)
    (hp : e.payload = Spec.le 6 id ++ Spec.le 2 flags ++ Spec.le 2 n ++ body) :
    updateLines ft pos ⟨db, tbl, ms, old⟩ ⟨id, flags, n, body⟩ = updateLines ft pos ⟨db, tbl, ms, now⟩ ⟨id, flags, n, body⟩ := by
  obtain ⟨kept, more, rfl, hk, hkey⟩ := h
  have hke := keyExists_grown kept more rfl hk hkey
  obtain ⟨extra, bm, rest, b1, b2, b3, b4, b6, b5⟩ := clearAbove_body hb (by simp) hn hp
  obtain ⟨bm2, rest2, rfl, b7⟩ := b6 hcode
  rw [updateLines_kept ft pos db tbl ms _ hk]
  unfold updateLines
  dsimp only
  rw [hke, keyExists_kept hk]
  cases hr : UpdateRowsV2.readFrom n ms body with
  | ok rows r =>
    rw [b5] at hr
    obtain ⟨h1, h2⟩ := update_bitmaps b1 b2 b3 b4.1 b7.1 ms rows r hr
    have hf := filterColDefs_clear b4 kept more hk.length_eq.symm
    have hf2 := filterColDefs_clear b7 kept more hk.length_eq.symm
    rw [← h1] at hf
    rw [← h2] at hf2
    dsimp only
    unfold PreparedSql.fromUpdate
    simp only [hf, hf2]
  | _ => rfl

/-! ### whole runs -/

theorem runLog_grown {ft : FloatText} {o : DmlOpts} {old now : Catalogue} (crc : Bool) (caps caps' : Nat) :
    ∀ (log : List (LogEvent × Spec.Topic)) (known : Nat → Option Spec.Table) (st st' : DmlState)
      (answers answers' : List Bytes) (rest rest' : Bytes),
    Keeps o.wanted old known st → Keeps o.wanted now known st' → st.nRows = st'.nRows →
    (∀ id t, known id = some t → o.wanted t = true →
      Spec.GrownTable (old t.schema t.table) (now t.schema t.table)) →
    (∀ x ∈ log, x.2.Of x.1) → Spec.Announced known (log.map (·.2)) → Spec.GrownColumns o.wanted old now (log.map (·.2)) →
    Spec.UnusedClear o.wanted old known log →
    st.helper.caps = caps → Spec.ListsTables caps old (Spec.asksFor o.wanted known (log.map (·.2))) answers →
    Spec.Delivers st.helper.inp answers rest →
    st'.helper.caps = caps' → Spec.ListsTables caps' now (Spec.asksFor o.wanted known (log.map (·.2))) answers' →
    Spec.Delivers st'.helper.inp answers' rest' →
    runLog ft o crc st (log.map (·.1)) = runLog ft o crc st' (log.map (·.1))
  | [], _, _, _, _, _, _, _, _, _, _, _, _, _, _, _, _, _, _, _, _, _ => rfl
  | (e, a) :: log, known, st, st', answers, answers', rest, rest', hk, hk', hn, hkn, hof, hann, hkept, hcl, hc, hl, hd,
    hc', hl', hd' => by
    obtain ⟨hcl1, hcl2⟩ := hcl
    have ha := hof (e, a) List.mem_cons_self
    have hof' : ∀ x ∈ log, x.2.Of x.1 := fun x hx => hof x (List.mem_cons_of_mem _ hx)
    have hkept' : Spec.GrownColumns o.wanted old now (log.map (·.2)) := fun id t h => hkept id t (by
      rw [List.map_cons]; exact List.mem_cons_of_mem _ h)
    simp only [List.map_cons] at hann hl hl' ⊢
    obtain ⟨hann1, hann2⟩ := hann
    have go : ∀ ev ls s s', seenEvent crc e = some ev → onEvent ft o st ev = (ls, .go s) → onEvent ft o st' ev = (ls, .go s') →
        runLog ft o crc s (log.map (·.1)) = runLog ft o crc s' (log.map (·.1)) →
        runLog ft o crc st (e :: log.map (·.1)) = runLog ft o crc st' (e :: log.map (·.1)) := by
      intro ev ls s s' hs h1 h2 ih
      rw [runLog, runLog, hs]
      dsimp only
      rw [h1, h2]
      dsimp only
      rw [ih]
    cases a with
    | other =>
      have ih := runLog_grown (ft := ft) crc caps caps' log known st st' answers answers' rest rest' hk hk' hn hkn hof' hann2 hkept' hcl2 hc hl
        hd hc' hl' hd'
      cases hs : seenEvent crc e with
      | none => rw [runLog, runLog, hs]; exact ih
      | some ev =>
        have hab : ¬ Spec.AboutRows e := ha
        exact go ev [] st st' hs (onEvent_other ft _ crc st e ev hs hab) (onEvent_other ft _ crc st' e ev hs hab) ih
    | fileEnd =>
      have hs := seenEvent_of crc e .rotate ha (by decide)
      by_cases hu : o.untilNow = true
      · refine go _ [] { st with tbls := [], skip := [] } { st' with tbls := [], skip := [] } hs ?_ ?_ ?_
        · unfold onEvent
          dsimp only
          rw [if_pos hu]
        · unfold onEvent
          dsimp only
          rw [if_pos hu]
        · exact runLog_grown crc caps caps' log (fun _ => none) { st with tbls := [], skip := [] }
            { st' with tbls := [], skip := [] } answers answers' rest rest' (fun id => ⟨rfl, by simp⟩)
            (fun id => ⟨rfl, by simp⟩) hn (by simp) hof' hann2 hkept' hcl2 hc hl hd hc' hl' hd'
      · rw [runLog, runLog, hs]
        simp only [onEvent, if_neg hu]
    | table id t =>
      obtain ⟨s1, s2, flags, s3, s4⟩ := ha
      have hs := seenEvent_of crc e .tableMap s1 (by decide)
      obtain ⟨m1, m2, rfl, l1, l2⟩ := ListsTables.append hl
      obtain ⟨m1', m2', rfl, l1', l2'⟩ := ListsTables.append hl'
      obtain ⟨mid, d1, d2⟩ := Delivers.append hd
      obtain ⟨mid', d1', d2'⟩ := Delivers.append hd'
      obtain ⟨s, a1, a2, a3, a4, a5, -⟩ := onTableMap_flow hk id flags s2 s3 t hann1.1 hann1.2 caps hc m1 mid l1 d1
      obtain ⟨s', b1, b2, b3, b4, b5, -⟩ := onTableMap_flow hk' id flags s2 s3 t hann1.1 hann1.2 caps' hc' m1' mid' l1' d1'
      rw [← a4] at d2
      rw [← b4] at d2'
      refine go _ [] s s' hs ?_ ?_ ?_
      · unfold onEvent
        dsimp only
        rw [s4, a1]
      · unfold onEvent
        dsimp only
        rw [s4, b1]
      · refine runLog_grown crc caps caps' log _ s s' m2 m2' rest rest' a2 b2 (by rw [a3, b3, hn]) ?_ hof' hann2 hkept' hcl2 a5 l2 d2
          b5 l2' d2'
        intro i t' hi hw
        have hi : (if i = id then some t else known i) = some t' := hi
        by_cases hid : i = id
        · rw [if_pos hid] at hi
          injection hi with hi
          subst hi
          exact hkept id t (by simp) hw
        · rw [if_neg hid] at hi
          exact hkn i t' hi hw
    | rows id =>
      obtain ⟨s1, s2, flags, n, body, s3, s4, s5⟩ := ha
      have hdata : RowsDataV2.readFrom e.payload = .ok ⟨id, flags, n, body⟩ [] := by
        rw [s5]
        simp only [List.append_assoc]
        exact C35_data id flags n body s2 s3 s4
      have fin : ∀ k (lines : TableMeta → RowsDataV2 → R (List DmlLine)), e.code = k.toByte → k.toByte ∈ Spec.supportedCodes →
          (∀ (x : DmlState), onEvent ft o x ⟨k, ⟨e.timestamp, k, e.serverId, e.len crc, e.nextPos, e.flags⟩, e.payload⟩
              = onRows o.limit lines x e.payload) →
          (∀ (t : Spec.Table) ms, Spec.GrownTable (old t.schema t.table) (now t.schema t.table) →
            Spec.ClearAbove (old t.schema t.table).length e →
            lines ⟨t.schema, t.table, ms, old t.schema t.table⟩ ⟨id, flags, n, body⟩
              = lines ⟨t.schema, t.table, ms, now t.schema t.table⟩ ⟨id, flags, n, body⟩) →
          runLog ft o crc st (e :: log.map (·.1)) = runLog ft o crc st' (e :: log.map (·.1)) := by
        intro k lines hcode hsup hev hsame
        have hs := seenEvent_of crc e k hcode hsup
        rcases onRows_kept hk hk' hn o.limit lines e.payload _ _ hdata
          (fun t ms h1 h2 => hsame t ms (hkn id t h1 h2) (hcl1 id t rfl h1 h2)) with ⟨ls, m, r1, r2⟩ | ⟨ls, x, r1, r2, r3⟩
        · refine go _ ls { st with nRows := m } { st' with nRows := m } hs (by rw [hev, r1]) (by rw [hev, r2]) ?_
          exact runLog_grown crc caps caps' log known { st with nRows := m } { st' with nRows := m } answers answers' rest rest'
            hk hk' rfl hkn hof' hann2 hkept' hcl2 hc hl hd hc' hl' hd'
        · rw [runLog, runLog, hs]
          dsimp only
          rw [hev, hev, r1, r2]
      rcases s1 with s1 | s1 | s1
      · exact fin .writeRowsV2 (rowLines ft PreparedSql.fromInsert) s1 (by decide) (fun x => rfl)
          (fun t ms h hb => (rowLines_grown ft _ _ ms h hb s4 s5).1)
      · exact fin .updateRowsV2 (updateLines ft e.nextPos) s1 (by decide) (fun x => rfl)
          (fun t ms h hb => updateLines_grown ft _ _ _ ms h hb s1 s4 s5)
      · exact fin .deleteRowsV2 (rowLines ft PreparedSql.fromDelete) s1 (by decide) (fun x => rfl)
          (fun t ms h hb => (rowLines_grown ft _ _ ms h hb s4 s5).2)

/-- C106: a log is read twice, once when the tables have the columns `old` and once when they have the columns `now`. When
columns were added to the wanted tables after those they had, and nothing but the types, defaults and the like of the
others was changed, the two runs print the same and end in the same way, whatever the rows of the log are, as long as the
server leaves the unused bits of its bitmaps clear. Missing from the full claim: servers that set them
(`C106_added_false`), the first key of a table (`C106_first_key_false`), columns that were renamed or dropped
(`C106_renamed_false`, `C106_dropped_false`); and as in C123 tables the library cannot read and table ids that change
their meaning. -/
theorem C106_grown_log_partial (ft : FloatText) (o : DmlOpts) (hb : o.nonBlock = true)
    (hf : o.filename.length < 10 ^ 9 ∧ validUtf8 o.filename = true) (uuid uuid' : Bytes) (hu : uuid.length = 36)
    (hu' : uuid'.length = 36) (random random' : Nat) (hr : random < 2 ^ 32) (hr' : random' < 2 ^ 32)
    (conn conn' helper helper' : Conn) (crc : Bool) (opening opening' : List Bytes)
    (hopen : Spec.OpensStream conn.caps crc opening) (hopen' : Spec.OpensStream conn'.caps crc opening')
    (log : List (LogEvent × Spec.Topic)) (hin : ∀ x ∈ log, x.1.InRange ∧ x.2.Of x.1) (eof eof' rest rest' : Bytes)
    (hd : Spec.Delivers conn.inp (opening ++ (log.map (fun x => Spec.streamMessage crc x.1) ++ [0xfe :: eof])) rest)
    (hd' : Spec.Delivers conn'.inp (opening' ++ (log.map (fun x => Spec.streamMessage crc x.1) ++ [0xfe :: eof'])) rest')
    (hann : Spec.Announced (fun _ => none) (log.map (·.2))) (old now : Catalogue)
    (hgrown : Spec.GrownColumns o.wanted old now (log.map (·.2))) 
    (hclear : Spec.UnusedClear o.wanted old (fun _ => none) log) (answers answers' : List Bytes) (hrest hrest' : Bytes)
    (ha : Spec.ListsTables helper.caps old (Spec.asksFor o.wanted (fun _ => none) (log.map (·.2))) answers)
    (hh : Spec.Delivers helper.inp answers hrest)
    (ha' : Spec.ListsTables helper'.caps now (Spec.asksFor o.wanted (fun _ => none) (log.map (·.2))) answers')
    (hh' : Spec.Delivers helper'.inp answers' hrest') :
    printDmls ft o uuid' random' conn' helper' = printDmls ft o uuid random conn helper := by
  have hin1 : ∀ e ∈ log.map (·.1), e.InRange := by
    intro e he
    obtain ⟨x, hx, rfl⟩ := List.mem_map.1 he
    exact (hin x hx).1
  have hmap : log.map (fun x => Spec.streamMessage crc x.1) = (log.map (·.1)).map (Spec.streamMessage crc) := by simp
  rw [hmap] at hd hd'
  rw [printDmls_runLog ft o hb hf uuid' hu' random' hr' conn' helper' crc opening' hopen' (log.map (·.1)) hin1 eof' rest' hd',
    printDmls_runLog ft o hb hf uuid hu random hr conn helper crc opening hopen (log.map (·.1)) hin1 eof rest hd]
  exact (runLog_grown crc helper.caps helper'.caps log (fun _ => none) ⟨[], [], 0, helper⟩ ⟨[], [], 0, helper'⟩ answers
    answers' hrest hrest' (keeps_nothing _ _ _) (keeps_nothing _ _ _) rfl (by simp) (fun x hx => (hin x hx).2) hann hgrown hclear rfl
    ha hh rfl ha' hh').symm

/-! ### the first key of a table -/

/-- C106 fails when a table gets its first key: where there was a note about an event of updates that cannot be written,
there is none afterwards, whatever the event, the table and the columns. -/
theorem C106_first_key_false (ft : FloatText) (pos : Nat) (db tbl : Bytes) (ms : List ColumnMeta)
    (old more : List ColumnDefinition) (hold : ∀ c ∈ old, ¬ Spec.KeyColumn c) (hmore : ∃ c ∈ more, Spec.KeyColumn c)
    (d : RowsDataV2) (rows : UpdateRowsV2) (r : Bytes) (hd : UpdateRowsV2.readFrom d.extraDataLen ms d.payload = .ok rows r) :
    updateLines ft pos ⟨db, tbl, ms, old⟩ d = .ok [.note db tbl pos] [] ∧
    ∀ ls r', updateLines ft pos ⟨db, tbl, ms, old ++ more⟩ d = .ok ls r' → NoNotes ls := by
  have h1 : keyExists old = false := by
    unfold keyExists
    rw [List.any_eq_false]
    intro c hc
    rw [Bool.and_eq_true, hasFlag_iff, hasFlag_iff]
    exact fun hk => hold c hc hk
  have h2 : keyExists (old ++ more) = true := by
    obtain ⟨c, hc, k1, k2⟩ := hmore
    unfold keyExists
    rw [List.any_eq_true]
    refine ⟨c, List.mem_append_right _ hc, ?_⟩
    rw [Bool.and_eq_true, hasFlag_iff, hasFlag_iff]
    exact ⟨k1, k2⟩
  unfold updateLines
  dsimp only
  rw [hd, h1, h2]
  refine ⟨rfl, fun ls r' h => ?_⟩
  dsimp only at h
  rw [if_pos rfl] at h
  unfold sqlLines at h
  split at h
  · cases h
  · split at h
    · cases h
    · injection h with h _
      rw [← h]
      exact noNotes_stmts _

/-- What is printed instead need not be a statement: a row of a table with one column that is no key, to which a key is
added, is updated from 6 to 7. -/
theorem C106_first_key_text_false (ft : FloatText) :
    updateLines ft 9 ⟨asc "d", asc "t", [.long], [exampleCol "a" 0]⟩
        ⟨5, 0, 2, [1, 1, 1, 0, 6, 0, 0, 0, 0, 7, 0, 0, 0]⟩ = .ok [.note (asc "d") (asc "t") 9] [] ∧
    updateLines ft 9 ⟨asc "d", asc "t", [.long], [exampleCol "a" 0] ++ [exampleCol "id" 6]⟩
        ⟨5, 0, 2, [1, 1, 1, 0, 6, 0, 0, 0, 0, 7, 0, 0, 0]⟩ = .ok [.stmt (asc "UPDATE `d`.`t` SET `a` = 7 WHERE ")] [] ∧
    Spec.parse (asc "UPDATE `d`.`t` SET `a` = 7 WHERE ") = none := by
  have hr : UpdateRowsV2.readFrom 2 [.long] [1, 1, 1, 0, 6, 0, 0, 0, 0, 7, 0, 0, 0]
      = .ok ⟨[], 1, [1], [1], [([.long 6], [.long 7])]⟩ [] := by decide +kernel
  refine ⟨?_, ?_, by decide +kernel⟩
  · unfold updateLines
    dsimp only
    rw [hr]
    rfl
  · unfold updateLines
    dsimp only
    rw [hr]
    have hk : keyExists ([exampleCol "a" 0] ++ [exampleCol "id" 6]) = true := by decide +kernel
    dsimp only
    rw [if_pos hk]
    have hp : PreparedSql.fromUpdate (asc "d") (asc "t") ⟨[], 1, [1], [1], [([.long 6], [.long 7])]⟩
        ([exampleCol "a" 0] ++ [exampleCol "id" 6])
        = some ⟨asc "d", [asc "UPDATE `d`.`t` SET `a` = ", asc "?", asc " WHERE "], [[.newInt 7]]⟩ := by decide +kernel
    rw [hp]
    rfl

/-! ### an example -/

/-- the table of C43 has got a second column -/
def widenedCatalogue : Catalogue := fun _ _ => [clientDef (exampleDef 8) .longLong [], clientDef (exampleDef 3) .long []]

theorem widened_lists : ∃ answers, Spec.ListsTables (2 ^ 9) widenedCatalogue [(Spec.ascii "d", Spec.ascii "t")] answers ∧
    ∀ m ∈ answers, m.length < 0xffffff := by
  have h : Spec.Supported (exampleDef 3, .long) := by
    refine ⟨?_, by decide⟩
    constructor <;> first | (exact ⟨by decide, by decide⟩) | (exact (by decide))
  have h8 : Spec.Supported (exampleDef 8, .longLong) := by
    refine ⟨?_, by decide⟩
    constructor <;> first | (exact ⟨by decide, by decide⟩) | (exact (by decide))
  refine ⟨(Spec.okPacket (2 ^ 9) 0 ⟨0, 0, 2, 0, [], []⟩ ::
    Spec.fieldListResponse [(exampleDef 8, none), (exampleDef 3, none)] (Spec.eofPacket (2 ^ 9) 0 2)) ++ [],
    ⟨_, [], rfl, ⟨⟨0, 0, 2, 0, [], []⟩, [(exampleDef 8, .longLong, none), (exampleDef 3, .long, none)],
      Spec.eofPacket (2 ^ 9) 0 2, ?_, ?_, ?_, rfl, rfl⟩, rfl⟩, by decide +kernel⟩
  · constructor <;> norm_num
  · intro col hcol
    simp only [List.mem_cons, List.not_mem_nil, or_false] at hcol
    rcases hcol with rfl | rfl
    · exact ⟨h8, by decide, by rintro v ⟨⟩⟩
    · exact ⟨h, by decide, by rintro v ⟨⟩⟩
  · unfold Spec.IsCommandEnd
    rw [if_neg (by decide)]
    exact ⟨0, 2, by norm_num, by norm_num, rfl⟩

/-- the log of C123 meets the conditions -/
theorem widened_grown : Spec.GrownColumns (exampleOpts 0).wanted exampleCatalogue widenedCatalogue bothTopics ∧
    Spec.UnusedClear (exampleOpts 0).wanted exampleCatalogue (fun _ => none) ((bothLog.map (·.1)).zip bothTopics) := by
  have hbit : Spec.ClearBitmap 1 [1] := by
    refine ⟨rfl, fun i hi => ?_⟩
    unfold Spec.bit?
    by_cases h : i < 8
    · have : i = 1 ∨ i = 2 ∨ i = 3 ∨ i = 4 ∨ i = 5 ∨ i = 6 ∨ i = 7 := by omega
      rcases this with rfl | rfl | rfl | rfl | rfl | rfl | rfl <;> decide
    · rw [List.getElem?_eq_none (by simp; omega)]
      simp
  refine ⟨fun id t _ _ => ⟨[clientDef (exampleDef 8) .longLong []], [clientDef (exampleDef 3) .long []], rfl,
    .cons ⟨rfl, rfl, rfl, rfl⟩ .nil, Or.inr ?_⟩, ?_, ?_, ?_, ?_, trivial⟩
  · intro c hc
    simp only [List.mem_singleton] at hc
    subst hc
    unfold Spec.KeyColumn
    decide
  · rintro id t ⟨⟩
  · rintro id t ⟨⟩
  · rintro id t ⟨⟩ - -
    exact ⟨Spec.le 6 5 ++ Spec.le 2 1, [], [1], ([exampleImage 3].map (Spec.Image.encode [.longLong])).flatten, by simp,
      by norm_num, (by norm_num : 1 + 7 < 2 ^ 32), hbit, by rintro ⟨⟩, by
        change _ = _ ++ Spec.lenEncInt 1 ++ _ ++ _
        decide +kernel⟩
  · rintro id t ⟨⟩ - -
    exact ⟨Spec.le 6 6 ++ Spec.le 2 1, [], [1], ([exampleImage 4].map (Spec.Image.encode [.longLong])).flatten, by simp,
      by norm_num, (by norm_num : 1 + 7 < 2 ^ 32), hbit, by rintro ⟨⟩, by
        change _ = _ ++ Spec.lenEncInt 1 ++ _ ++ _
        decide +kernel⟩

/-- The log of C123 is read before and after the column is added, and the output is the same. -/
example (ft : FloatText) : ∃ (conn helper helper' : Conn),
    printDmls ft (exampleOpts 0) (List.replicate 36 0x61) 5 conn helper'
      = printDmls ft (exampleOpts 0) (List.replicate 36 0x61) 5 conn helper := by
  obtain ⟨answers, l1, l2⟩ := example_lists
  obtain ⟨answers', l1', l2'⟩ := widened_lists
  obtain ⟨opening, o1, o2⟩ := example_opens
  obtain ⟨inp, hd⟩ := delivers_small (opening ++ (bothLog.map (fun x => Spec.streamMessage true x.1) ++ [[0xfe]])) [] (by
    intro m hm
    rcases List.mem_append.1 hm with hm | hm
    · exact o2 m hm
    · have : ∀ m ∈ bothLog.map (fun x => Spec.streamMessage true x.1) ++ [[0xfe]], m.length < 0xffffff := by decide +kernel
      exact this m hm)
  obtain ⟨hinp, hh⟩ := delivers_small answers [] l2
  obtain ⟨hinp', hh'⟩ := delivers_small answers' [] l2'
  have hq : Spec.questions (exampleOpts 0).wanted (fun _ => none) (exampleLog.map (·.2))
      = [(Spec.ascii "d", Spec.ascii "t")] := by decide +kernel
  rw [hq] at l1
  have hname : (Spec.ascii "f1").length < 10 ^ 9 ∧ validUtf8 (Spec.ascii "f1") = true := ⟨by decide +kernel, by decide +kernel⟩
  have hz : ((bothLog.map (·.1)).zip bothTopics).map (fun x => Spec.streamMessage true x.1)
      = bothLog.map (fun x => Spec.streamMessage true x.1) := rfl
  refine ⟨⟨inp, [], 0, 2 ^ 9, 0⟩, ⟨hinp, [], 0, 2 ^ 9, 0⟩, ⟨hinp', [], 0, 2 ^ 9, 0⟩, ?_⟩
  exact C106_grown_log_partial ft (exampleOpts 0) rfl hname (List.replicate 36 0x61)
    (List.replicate 36 0x61) (by simp) (by simp) 5 5 (by norm_num) (by norm_num) ⟨inp, [], 0, 2 ^ 9, 0⟩ ⟨inp, [], 0, 2 ^ 9, 0⟩
    ⟨hinp, [], 0, 2 ^ 9, 0⟩ ⟨hinp', [], 0, 2 ^ 9, 0⟩ true opening opening o1 o1 ((bothLog.map (·.1)).zip bothTopics) both_of [] []
    [] [] (by rw [hz]; exact hd) (by rw [hz]; exact hd)
    ⟨⟨both_readable.1, Or.inl rfl⟩, ⟨both_readable.2, Or.inl rfl⟩, trivial, trivial, trivial⟩ exampleCatalogue
    widenedCatalogue widened_grown.1 widened_grown.2 answers answers' [] [] l1 hh l1' hh'

end Mybin
