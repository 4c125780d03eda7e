/-
C54: exactly when the records of deleted and updated rows are right for every row.
-/
import Verif.Props.C40_exact

namespace Mybin

open Spec (Covers Front logged)

/-- when the logged columns do not come first, the record of a row of zeros does not have the columns' own values -/
theorem fields_differ (lib : JsonLib) (present : List Bool) (defs : List ColumnDefinition) (hl : present.length = defs.length)
    (hf : ¬ Front present) {js ks : List (Json × Bool)}
    (a1 : List.Forall₂ (JsonOf lib) (logged present defs (zeroRow present)) js)
    (b1 : List.Forall₂ (JsonOf lib) (shifted present defs (zeroRow present)) ks) :
    jsonFields (logged present defs (zeroRow present)) js ≠ jsonFields (shifted present defs (zeroRow present)) ks := by
  intro b2
  have la := a1.length_eq
  have lb := b1.length_eq
  obtain ⟨x, hx, hx2⟩ := shifted_zeroRow present defs hl hf
  obtain ⟨i, hi, e⟩ := List.getElem_of_mem hx
  have hk := b1.get hi (by omega)
  have hk2 : ks[i]'(by omega) = (Json.null, false) := jsonOf_null lib x.1 _ (by
    rw [← hx2]
    simpa [e] using hk)
  have b3 : (x.1.name, Json.null) ∈ jsonFields (shifted present defs (zeroRow present)) ks := by
    unfold jsonFields
    refine List.mem_map.2 ⟨(x, (Json.null, false)), ?_, rfl⟩
    refine List.mem_of_getElem? (i := i) (List.getElem?_zip_eq_some.2 ⟨?_, ?_⟩)
    · rw [List.getElem?_eq_getElem hi, e]
    · rw [List.getElem?_eq_getElem (by omega), hk2]
  rw [← b2] at b3
  unfold jsonFields at b3
  obtain ⟨⟨y, j⟩, hy, ey⟩ := List.mem_map.1 b3
  obtain ⟨k, hk3, ek⟩ := List.getElem_of_mem hy
  have hk4 : k < (logged present defs (zeroRow present)).length := by
    have := hk3; rw [List.length_zip] at this; omega
  have hk5 : k < js.length := by
    have := hk3; rw [List.length_zip] at this; omega
  have hg := a1.get hk4 hk5
  have h0 := logged_zeroRow present defs _ (List.getElem_mem hk4)
  have hj := jsonOf_zero lib ((logged present defs (zeroRow present))[k]).1 (js[k]) (by
    rw [← h0]; simpa using hg)
  rw [List.getElem_zip] at ek
  injection ek with e1 e2
  rw [← e2, hj] at ey
  injection ey with _ ey
  cases ey

theorem zeroRow_image (lib : JsonLib) (dedup : Bool) (xs : List (ColDef × BinlogColumnValue)) :
    ∀ acc, (∀ x ∈ xs, x.2 = .tiny 0 ∨ x.2 = .null) → ∃ r, jsonImage lib dedup xs acc = some r := by
  induction xs with
  | nil => intro acc _; exact ⟨acc, by rw [jsonImage]⟩
  | cons x xs ih =>
    intro acc h
    obtain ⟨c, v⟩ := x
    obtain ⟨m, enc⟩ := acc
    have : ∃ p j, StmtColumnValue.ofBinlog v c.unsigned = some p ∧ toJsonValue lib p = some j := by
      rcases h (c, v) List.mem_cons_self with e | e
      · obtain ⟨p, h3, h4⟩ := zero_json lib c.unsigned
        dsimp only at e
        subst e
        exact ⟨p, _, h3, h4⟩
      · dsimp only at e
        subst e
        exact ⟨.newNull, _, rfl, rfl⟩
    obtain ⟨p, ⟨jv, e⟩, h1, h2⟩ := this
    rw [jsonImage, h1]
    dsimp only
    rw [h2]
    exact ih _ (fun y hy => h y (List.mem_cons_of_mem _ hy))

theorem zip_zeroRow (cs : List ColDef) (present : List Bool) :
    ∀ x ∈ cs.zip (zeroRow present), x.2 = .tiny 0 ∨ x.2 = .null := by
  rintro ⟨c, v⟩ hx
  have := (List.of_mem_zip hx).2
  simp only [zeroRow, List.mem_map] at this
  obtain ⟨b, _, e⟩ := this
  rw [← e]
  cases b <;> simp

/-- C54, exactly when: with these columns logged, the records of deleted rows give every column its own value in every
row an event can have, if and only if the logged columns come first. -/
theorem C54_delete_iff (lib : JsonLib) (db tbl extra bm : Bytes) (n : Nat) (present : List Bool)
    (defs : List ColumnDefinition) (hc : Covers bm present) (hl : present.length = defs.length)
    (hn : (defs.map (·.name)).Nodup) :
    (∀ rows recs, (∀ row ∈ rows, RowOf present row) →
      JsonRows.fromDelete lib db tbl ⟨extra, n, bm, rows⟩ defs = some recs →
      RecordsOwnValues lib defs present
        (fun names fields => ⟨Spec.ascii "delete", names, db, tbl, some fields, none⟩) rows recs) ↔
      Front present := by
  constructor
  · intro h
    by_contra hf
    have hlen : (zeroRow present).length = defs.length := by rw [(zeroRow_ok present).1, hl]
    obtain ⟨r, h1⟩ := zeroRow_image lib false ((filterColDefs bm defs).zip (zeroRow present)) ([], []) (zip_zeroRow _ _)
    have hp : JsonRows.fromDelete lib db tbl ⟨extra, n, bm, [zeroRow present]⟩ defs
        = some [⟨asc "delete", r.2, db, tbl, some r.1, none⟩] := by
      simp [JsonRows.fromDelete, h1, allSome]
    have hone : ∀ row ∈ [zeroRow present], row = zeroRow present := by simp
    have own := h [zeroRow present] _ (fun row hr => by rw [hone row hr]; exact zeroRow_ok present) hp
    have act := (C54_rows_exact lib db tbl extra bm n present defs _ _ hc hl hn
      (fun row hr => by rw [hone row hr]; exact hlen)).2 hp
    cases own with
    | cons own _ =>
      cases act with
      | cons act _ =>
        obtain ⟨js, a1, a2⟩ := own
        obtain ⟨ks, b1, b2⟩ := act
        rw [a2] at b2
        injection b2 with _ _ _ _ b2
        injection b2 with b2
        exact fields_differ lib present defs hl hf a1 b1 b2
  · intro hf rows recs hr hp
    exact C54_delete_partial lib db tbl extra bm n present defs rows recs hc hl hf hn
      (fun row h => by rw [(hr row h).1, hl]) hp

/-- What a record of an updated row says, when the columns of the images have these values. -/
def updateRecord (db tbl : Bytes) (old new : List (ColumnDefinition × BinlogColumnValue)) (bjs ajs : List (Json × Bool)) :
    JsonRow where
  ty := Spec.ascii "update"
  base64Encoded := base64Names old bjs ++ (base64Names new ajs).filter (fun n => !(base64Names old bjs).contains n)
  db := db
  tbl := tbl
  before := some (jsonFields old bjs)
  after := some (jsonFields new ajs)

/-- C54, exactly, for updated rows: in both images the k-th logged column has the k-th value. -/
theorem C54_update_exact (lib : JsonLib) (db tbl extra bb ab : Bytes) (n : Nat) (before after : List Bool)
    (defs : List ColumnDefinition) (rows : List (List BinlogColumnValue × List BinlogColumnValue))
    (recs : List JsonRow)
    (hb : Covers bb before) (hbl : before.length = defs.length)
    (ha : Covers ab after) (hal : after.length = defs.length)
    (hn : (defs.map (·.name)).Nodup)
    (hr : ∀ row ∈ rows, row.1.length = defs.length ∧ row.2.length = defs.length)
    (h : JsonRows.fromUpdate lib db tbl ⟨extra, n, bb, ab, rows⟩ defs = some recs) :
    List.Forall₂ (fun row rec => ∃ bjs ajs,
      List.Forall₂ (JsonOf lib) (shifted before defs row.1) bjs ∧
      List.Forall₂ (JsonOf lib) (shifted after defs row.2) ajs ∧
      rec = updateRecord db tbl (shifted before defs row.1) (shifted after defs row.2) bjs ajs) rows recs := by
  replace h := allSome_forall₂ _ _ _ h
  dsimp only at h
  induction h with
  | nil => exact .nil
  | @cons row rec rows recs h1 _ ih =>
    refine .cons ?_ (ih fun r hm => hr r (List.mem_cons_of_mem _ hm))
    obtain ⟨hlen1, hlen2⟩ := hr row List.mem_cons_self
    unfold jsonUpdateRow at h1
    rw [zip_shifted_all bb before defs row.1 hb hbl, zip_shifted_all ab after defs row.2 ha hal] at h1
    cases h2 : jsonImage lib false ((shifted before defs row.1).map fun x => (ColDef.of x.1, x.2)) ([], []) with
    | none => rw [h2] at h1; cases h1
    | some r =>
      obtain ⟨m, enc⟩ := r
      rw [h2] at h1
      simp only [Option.map_eq_some_iff] at h1
      obtain ⟨⟨m2, enc2⟩, h3, rfl⟩ := h1
      obtain ⟨bjs, h4, h5⟩ := jsonImage_spec lib false _ _ _ _ (shifted_nodup before defs row.1 hbl hlen1 hn)
        (by simp) h2
      obtain ⟨ajs, h6, h7⟩ := jsonImage_spec lib true _ _ _ _ (shifted_nodup after defs row.2 hal hlen2 hn)
        (by simp) h3
      injection h5 with h5 h8
      injection h7 with h7 h9
      refine ⟨bjs, ajs, h4, h6, ?_⟩
      rw [h5, h7, h9, h8]
      rfl

/-- C54, exactly when: with these columns logged before and after the change, the records of updated rows give every
column its own values, for every row an event can have, if and only if in both images the logged columns come first. -/
theorem C54_update_iff (lib : JsonLib) (db tbl extra bb ab : Bytes) (n : Nat) (before after : List Bool)
    (defs : List ColumnDefinition) (hb : Covers bb before) (hbl : before.length = defs.length)
    (ha : Covers ab after) (hal : after.length = defs.length) (hn : (defs.map (·.name)).Nodup) :
    (∀ rows recs, (∀ row ∈ rows, RowOf before row.1 ∧ RowOf after row.2) →
      JsonRows.fromUpdate lib db tbl ⟨extra, n, bb, ab, rows⟩ defs = some recs →
      List.Forall₂ (fun row rec => ∃ bjs ajs,
        List.Forall₂ (JsonOf lib) (logged before defs row.1) bjs ∧
        List.Forall₂ (JsonOf lib) (logged after defs row.2) ajs ∧
        rec = updateRecord db tbl (logged before defs row.1) (logged after defs row.2) bjs ajs) rows recs) ↔
      Front before ∧ Front after := by
  constructor
  · intro h
    obtain ⟨r, h1⟩ := zeroRow_image lib false ((filterColDefs bb defs).zip (zeroRow before)) ([], []) (zip_zeroRow _ _)
    obtain ⟨r2, h2⟩ := zeroRow_image lib true ((filterColDefs ab defs).zip (zeroRow after)) ([], r.2) (zip_zeroRow _ _)
    have hp : JsonRows.fromUpdate lib db tbl ⟨extra, n, bb, ab, [(zeroRow before, zeroRow after)]⟩ defs
        = some [⟨asc "update", r2.2, db, tbl, some r.1, some r2.1⟩] := by
      simp [JsonRows.fromUpdate, jsonUpdateRow, h1, h2, allSome]
    have hone : ∀ row ∈ [(zeroRow before, zeroRow after)], row = (zeroRow before, zeroRow after) := by simp
    have own := h _ _ (fun row hr => by rw [hone row hr]; exact ⟨zeroRow_ok before, zeroRow_ok after⟩) hp
    have act := C54_update_exact lib db tbl extra bb ab n before after defs _ _ hb hbl ha hal hn
      (fun row hr => by
        rw [hone row hr]
        exact ⟨by rw [(zeroRow_ok before).1, hbl], by rw [(zeroRow_ok after).1, hal]⟩) hp
    cases own with
    | cons own _ =>
      cases act with
      | cons act _ =>
        obtain ⟨bjs, ajs, a1, a2, a3⟩ := own
        obtain ⟨bks, aks, b1, b2, b3⟩ := act
        rw [a3] at b3
        unfold updateRecord at b3
        injection b3 with _ _ _ _ e1 e2
        injection e1 with e1
        injection e2 with e2
        constructor
        · by_contra hf
          exact fields_differ lib before defs hbl hf a1 b1 e1
        · by_contra hf
          exact fields_differ lib after defs hal hf a2 b2 e2
  · rintro ⟨hbf, haf⟩ rows recs hr hp
    exact C54_update_partial lib db tbl extra bb ab n before after defs rows recs hb hbl hbf ha hal haf hn
      (fun row h => ⟨by rw [(hr row h).1.1, hbl], by rw [(hr row h).2.1, hal]⟩) hp

/-- both sides occur: a column that is not logged after the change, behind and in front of the others -/
example : Front [true, false] ∧ ¬ Front [false, true] := by
  refine ⟨?_, fun h => by simpa using h 0 1 (by omega) rfl⟩
  intro i j hij hj
  match j with
  | 0 => omega
  | 1 => simp at hj
  | j + 2 => simp at hj

end Mybin
