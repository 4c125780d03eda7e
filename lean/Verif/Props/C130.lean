/-
C130: how the rows of a change are grouped into events does not matter for their JSON records.
-/
import Verif.Model.Json
import Verif.Props.C107

namespace Mybin

open Spec (ColKind Image Covers LogEvent)

/-- The JSON records of a write, update or delete event: its payload is read, its rows are decoded with the columns of
its table, and the records are made. A panic anywhere on the way gives no records. -/
inductive Records (lib : JsonLib) (tm : TableMeta) (e : LogEvent) (recs : List JsonRow) : Prop
  | inserted (d : RowsDataV2) (rows : RowsV2) (hc : e.code = 30) (hd : RowsDataV2.readFrom e.payload = .ok d [])
      (hr : RowsV2.readFrom d.extraDataLen tm.colMetas d.payload = .ok rows [])
      (hj : JsonRows.fromInsert lib tm.db tm.tbl rows tm.colDefs = some recs)
  | updated (d : RowsDataV2) (rows : UpdateRowsV2) (hc : e.code = 31) (hd : RowsDataV2.readFrom e.payload = .ok d [])
      (hr : UpdateRowsV2.readFrom d.extraDataLen tm.colMetas d.payload = .ok rows [])
      (hj : JsonRows.fromUpdate lib tm.db tm.tbl rows tm.colDefs = some recs)
  | deleted (d : RowsDataV2) (rows : RowsV2) (hc : e.code = 32) (hd : RowsDataV2.readFrom e.payload = .ok d [])
      (hr : RowsV2.readFrom d.extraDataLen tm.colMetas d.payload = .ok rows [])
      (hj : JsonRows.fromDelete lib tm.db tm.tbl rows tm.colDefs = some recs)

/-- the records of several events, one event after another -/
def RecordsAll (lib : JsonLib) (tm : TableMeta) (es : List LogEvent) (recs : List JsonRow) : Prop :=
  ∃ parts, List.Forall₂ (Records lib tm) es parts ∧ parts.flatten = recs

/-- Events made of groups of items, with one record for each item, made from the item alone: together they have the
records of all items. -/
theorem grouped_records {α : Type} (told : LogEvent → List JsonRow → Prop) (f : α → Option JsonRow)
    (rel : List α → LogEvent → Prop) (all : List α)
    (h : ∀ g e, (∀ a ∈ g, a ∈ all) → rel g e → ∀ recs, told e recs ↔ allSome (g.map f) = some recs) :
    ∀ (gs : List (List α)) (es : List LogEvent), (∀ a ∈ gs.flatten, a ∈ all) → List.Forall₂ rel gs es → ∀ recs,
      (∃ parts, List.Forall₂ told es parts ∧ parts.flatten = recs) ↔ allSome (gs.flatten.map f) = some recs := by
  intro gs es hsub hgs
  induction hgs with
  | nil =>
    intro recs
    constructor
    · rintro ⟨parts, hp, rfl⟩
      cases hp
      rfl
    · intro he
      cases he
      exact ⟨[], .nil, rfl⟩
  | @cons g e gs es hge _ ih =>
    intro recs
    rw [List.flatten_cons] at hsub
    have h1 := h g e (fun a ha => hsub a (List.mem_append_left _ ha)) hge
    have h2 := ih fun a ha => hsub a (List.mem_append_right _ ha)
    rw [List.flatten_cons, allSome_append_iff]
    constructor
    · rintro ⟨parts, hp, rfl⟩
      cases hp with
      | @cons _ p _ ps hp1 hp2 =>
        exact ⟨p, ps.flatten, rfl, (h1 p).1 hp1, (h2 _).1 ⟨ps, hp2, rfl⟩⟩
    · rintro ⟨l1, l2, rfl, k1, k2⟩
      obtain ⟨ps, q1, rfl⟩ := (h2 l2).2 k2
      exact ⟨l1 :: ps, .cons ((h1 l1).2 k1) q1, rfl⟩

/-- C130 for inserted and deleted rows: the same rows in the same order, grouped into events in two ways. The records of
the events of the one grouping, one event after another, are the records of the events of the other; and if they cannot
all be made for the one, they cannot for the other. (Missing: rows with values that the decoder reads at a wrong width,
see C37.) -/
theorem C130_rows_partial (lib : JsonLib) (tm : TableMeta) (code : Nat) (hc : code = 30 ∨ code = 32) (id : Nat)
    (hid : id < 2 ^ 48) (ks : List ColKind) (hk : ∀ k ∈ ks, k.Ok) (hm : ks.map metaOf = tm.colMetas.map some)
    (hn : ks.length + 7 < 2 ^ 32) (bm : Bytes) (present : List Bool) (hp : Covers bm present)
    (hpl : present.length = ks.length) (hone : true ∈ present) (gs gs' : List (List Image))
    (hsame : gs.flatten = gs'.flatten) (hr : ∀ r ∈ gs.flatten, ImageReadable ks present r) (es es' : List LogEvent)
    (hes : List.Forall₂ (Spec.RowsOf code id ks bm) gs es) (hes' : List.Forall₂ (Spec.RowsOf code id ks bm) gs' es')
    (recs : List JsonRow) : RecordsAll lib tm es recs ↔ RecordsAll lib tm es' recs := by
  obtain ⟨dec, hdec⟩ := rows_uniform ks tm.colMetas bm present gs.flatten hk hm hn hp hpl hone hr
  have hd : ∀ (g : List Image) (e : LogEvent), Spec.RowsOf code id ks bm g e → (∀ a ∈ g, a ∈ gs.flatten) →
      ∃ d x, RowsDataV2.readFrom e.payload = .ok d [] ∧
        RowsV2.readFrom d.extraDataLen tm.colMetas d.payload = .ok ⟨x, ks.length, bm, g.map dec⟩ [] := by
    rintro g e ⟨-, f, hf, x, hx, hpay⟩ hg
    refine ⟨⟨id, f, x.length + 2, Spec.rowsPayload ks x bm g⟩, x, ?_, hdec g hg x hx⟩
    rw [hpay]
    unfold Spec.rowsHead
    simp only [List.append_assoc]
    exact C35_data id f (x.length + 2) _ hid hf hx
  rcases hc with rfl | rfl
  · have key := grouped_records (Records lib tm)
      (fun r => (jsonImage lib false ((filterColDefs bm tm.colDefs).zip (dec r)) ([], [])).map fun (m, enc) =>
        (⟨asc "insert", enc, tm.db, tm.tbl, none, some m⟩ : JsonRow)) (Spec.RowsOf 30 id ks bm) gs.flatten ?_
    · unfold RecordsAll
      rw [key gs es (fun a h => h) hes, key gs' es' (fun a h => hsame ▸ h) hes', hsame]
    · intro g e hg hrel recs
      obtain ⟨d, x, h1, h2⟩ := hd g e hrel hg
      have hcode := hrel.1
      have hj : JsonRows.fromInsert lib tm.db tm.tbl ⟨x, ks.length, bm, g.map dec⟩ tm.colDefs = allSome (g.map fun r =>
          (jsonImage lib false ((filterColDefs bm tm.colDefs).zip (dec r)) ([], [])).map fun (m, enc) =>
            (⟨asc "insert", enc, tm.db, tm.tbl, none, some m⟩ : JsonRow)) := by
        unfold JsonRows.fromInsert
        simp only [List.map_map]
        rfl
      rw [← hj]
      constructor
      · intro ht
        cases ht with
        | inserted d' rows _ k1 k2 k3 => rw [h1] at k1; cases k1; rw [h2] at k2; cases k2; exact k3
        | updated _ _ k0 => omega
        | deleted _ _ k0 => omega
      · exact fun k => .inserted d _ hcode h1 h2 k
  · have key := grouped_records (Records lib tm)
      (fun r => (jsonImage lib false ((filterColDefs bm tm.colDefs).zip (dec r)) ([], [])).map fun (m, enc) =>
        (⟨asc "delete", enc, tm.db, tm.tbl, some m, none⟩ : JsonRow)) (Spec.RowsOf 32 id ks bm) gs.flatten ?_
    · unfold RecordsAll
      rw [key gs es (fun a h => h) hes, key gs' es' (fun a h => hsame ▸ h) hes', hsame]
    · intro g e hg hrel recs
      obtain ⟨d, x, h1, h2⟩ := hd g e hrel hg
      have hcode := hrel.1
      have hj : JsonRows.fromDelete lib tm.db tm.tbl ⟨x, ks.length, bm, g.map dec⟩ tm.colDefs = allSome (g.map fun r =>
          (jsonImage lib false ((filterColDefs bm tm.colDefs).zip (dec r)) ([], [])).map fun (m, enc) =>
            (⟨asc "delete", enc, tm.db, tm.tbl, some m, none⟩ : JsonRow)) := by
        unfold JsonRows.fromDelete
        simp only [List.map_map]
        rfl
      rw [← hj]
      constructor
      · intro ht
        cases ht with
        | inserted _ _ k0 => omega
        | updated _ _ k0 => omega
        | deleted d' rows _ k1 k2 k3 => rw [h1] at k1; cases k1; rw [h2] at k2; cases k2; exact k3
      · exact fun k => .deleted d _ hcode h1 h2 k

/-- C130 for updated rows, with and without a key. (Missing: as in `C130_rows_partial`.) -/
theorem C130_updates_partial (lib : JsonLib) (tm : TableMeta) (id : Nat) (hid : id < 2 ^ 48) (ks : List ColKind)
    (hk : ∀ k ∈ ks, k.Ok) (hm : ks.map metaOf = tm.colMetas.map some) (hn : ks.length + 7 < 2 ^ 32) (bb ab : Bytes)
    (before after : List Bool) (hb : Covers bb before) (hbl : before.length = ks.length) (ha : Covers ab after)
    (hal : after.length = ks.length) (hone : true ∈ before) (gs gs' : List (List (Image × Image)))
    (hsame : gs.flatten = gs'.flatten)
    (hr : ∀ r ∈ gs.flatten, ImageReadable ks before r.1 ∧ ImageReadable ks after r.2) (es es' : List LogEvent)
    (hes : List.Forall₂ (Spec.UpdatesOf id ks bb ab) gs es) (hes' : List.Forall₂ (Spec.UpdatesOf id ks bb ab) gs' es')
    (recs : List JsonRow) : RecordsAll lib tm es recs ↔ RecordsAll lib tm es' recs := by
  obtain ⟨dec, hdec⟩ := updates_uniform ks tm.colMetas bb ab before after gs.flatten hk hm hn hb hbl ha hal hone hr
  have key := grouped_records (Records lib tm)
    (fun r => jsonUpdateRow lib tm.db tm.tbl (filterColDefs bb tm.colDefs) (filterColDefs ab tm.colDefs) (dec r))
    (Spec.UpdatesOf id ks bb ab) gs.flatten ?_
  · unfold RecordsAll
    rw [key gs es (fun a h => h) hes, key gs' es' (fun a h => hsame ▸ h) hes', hsame]
  · intro g e hg hrel recs
    obtain ⟨hcode, f, hf, x, hx, hpay⟩ := hrel
    have h1 : RowsDataV2.readFrom e.payload = .ok ⟨id, f, x.length + 2, Spec.updatePayload ks x bb ab g⟩ [] := by
      rw [hpay]
      unfold Spec.rowsHead
      simp only [List.append_assoc]
      exact C35_data id f (x.length + 2) _ hid hf hx
    have h2 := hdec g hg x hx
    have hj : JsonRows.fromUpdate lib tm.db tm.tbl ⟨x, ks.length, bb, ab, g.map dec⟩ tm.colDefs = allSome (g.map fun r =>
        jsonUpdateRow lib tm.db tm.tbl (filterColDefs bb tm.colDefs) (filterColDefs ab tm.colDefs) (dec r)) := by
      unfold JsonRows.fromUpdate
      simp only [List.map_map]
      rfl
    rw [← hj]
    constructor
    · intro ht
      cases ht with
      | inserted _ _ k0 => omega
      | updated d' rows _ k1 k2 k3 => rw [h1] at k1; cases k1; rw [h2] at k2; cases k2; exact k3
      | deleted _ _ k0 => omega
    · exact fun k => .updated _ _ hcode h1 h2 k

/-- two inserted rows, in one event and in two, in a table with one column: both hypotheses hold, and the records are
made -/
example (lib : JsonLib) :
    let tm : TableMeta := ⟨Spec.ascii "d", Spec.ascii "t", [.longLong], [exampleCol "a" 0]⟩
    let event := fun (n : Nat) (rows : List Image) =>
      (⟨1, 30, 7, n, 0, Spec.rowsHead 5 1 [] ++ Spec.rowsPayload [.longLong] [] [1] rows⟩ : LogEvent)
    let record := fun n : Int => (⟨Spec.ascii "insert", [], Spec.ascii "d", Spec.ascii "t", none, some [(Spec.ascii "a", .int n)]⟩ : JsonRow)
    RecordsAll lib tm [event 200 [exampleImage 3, exampleImage 4]] [record 3, record 4] ∧
      RecordsAll lib tm [event 150 [exampleImage 3], event 200 [exampleImage 4]] [record 3, record 4] := by
  intro tm event record
  have h : RecordsAll lib tm [event 150 [exampleImage 3], event 200 [exampleImage 4]] [record 3, record 4] :=
    ⟨[[record 3], [record 4]], .cons (.inserted ⟨5, 1, 2, Spec.rowsPayload [.longLong] [] [1] [exampleImage 3]⟩
        ⟨[], 1, [1], [[.longLong 3]]⟩ rfl (by decide +kernel) (by decide +kernel) (by with_unfolding_all rfl))
      (.cons (.inserted ⟨5, 1, 2, Spec.rowsPayload [.longLong] [] [1] [exampleImage 4]⟩
        ⟨[], 1, [1], [[.longLong 4]]⟩ rfl (by decide +kernel) (by decide +kernel) (by with_unfolding_all rfl)) .nil), rfl⟩
  refine ⟨?_, h⟩
  have hx : ∀ n rows, Spec.RowsOf 30 5 [.longLong] [1] rows (event n rows) :=
    fun n rows => ⟨rfl, 1, by norm_num, [], by norm_num, rfl⟩
  refine (C130_rows_partial lib tm 30 (Or.inl rfl) 5 (by norm_num) [.longLong] (by simp [ColKind.Ok]) rfl (by norm_num) [1]
    [true] (covers_of _ _ rfl (by decide)) rfl (by simp) [[exampleImage 3], [exampleImage 4]] [[exampleImage 3, exampleImage 4]] rfl ?_ _ _
    (.cons (hx _ _) (.cons (hx _ _) .nil)) (.cons (hx _ _) .nil) _).1 h
  intro r hr
  simp only [List.flatten_cons, List.flatten_nil, List.append_nil, List.cons_append, List.nil_append, List.mem_cons,
    List.not_mem_nil, or_false] at hr
  rcases hr with rfl | rfl
  · exact (example_image ⟨fun _ => [], fun _ => []⟩ 3 (by norm_num)).1
  · exact (example_image ⟨fun _ => [], fun _ => []⟩ 4 (by norm_num)).1

/-- Where grouping matters: a row that has no record, such as one with a text that is not UTF-8 (see C85), takes the
records of the other rows of its event with it. In an event of its own it does not. -/
theorem C130_broken_false (lib : JsonLib) :
    let tm : TableMeta := ⟨Spec.ascii "d", Spec.ascii "t", [.varString 9], [exampleCol "a" 0]⟩
    let event := fun rows : List Image =>
      (⟨1, 30, 7, 200, 0, Spec.rowsHead 5 1 [] ++ Spec.rowsPayload [.varchar 9] [] [1] rows⟩ : LogEvent)
    let text := fun b : Bytes => (⟨[.value (.bytes b)], [0]⟩ : Image)
    (∀ recs, ¬ Records lib tm (event [text (Spec.ascii "x"), text [0xff]]) recs) ∧
      Records lib tm (event [text (Spec.ascii "x")])
        [⟨Spec.ascii "insert", [], Spec.ascii "d", Spec.ascii "t", none, some [(Spec.ascii "a", .str (Spec.ascii "x"))]⟩] := by
  intro tm event text
  refine ⟨?_, ?_⟩
  · intro recs h
    have e1 : RowsDataV2.readFrom (event [text (Spec.ascii "x"), text [0xff]]).payload
        = .ok ⟨5, 1, 2, Spec.rowsPayload [.varchar 9] [] [1] [text (Spec.ascii "x"), text [0xff]]⟩ [] := by decide +kernel
    have e2 : RowsV2.readFrom 2 [.varString 9] (Spec.rowsPayload [.varchar 9] [] [1] [text (Spec.ascii "x"), text [0xff]])
        = .ok ⟨[], 1, [1], [[.varString (Spec.ascii "x")], [.varString [0xff]]]⟩ [] := by decide +kernel
    cases h with
    | inserted d rows _ k1 k2 k3 =>
      rw [e1] at k1
      cases k1
      replace k2 := e2.symm.trans k2
      cases k2
      have e3 : JsonRows.fromInsert lib tm.db tm.tbl
          ⟨[], 1, [1], [[.varString (Spec.ascii "x")], [.varString [0xff]]]⟩ tm.colDefs = none := by
        with_unfolding_all rfl
      rw [e3] at k3
      cases k3
    | updated _ _ k0 => exact absurd k0 (by decide)
    | deleted _ _ k0 => exact absurd k0 (by decide)
  · exact .inserted ⟨5, 1, 2, Spec.rowsPayload [.varchar 9] [] [1] [text (Spec.ascii "x")]⟩
      ⟨[], 1, [1], [[.varString (Spec.ascii "x")]]⟩ rfl (by decide +kernel) (by decide +kernel) (by with_unfolding_all rfl)

end Mybin
