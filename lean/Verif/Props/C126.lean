/-
C126: the SQL statements and the JSON records of a row event tell the same changes. And C125 for whole logs.
-/
import Verif.Props.C125

namespace Mybin

open Spec (ColKind Val Fits Lit FloatRead Column Image Ends DoubleRead DoublesReadBack Covers Schema Contents JsonNumbers TableId
  Change LogItem)

theorem finite_binary64 (n : Nat) (v : ℚ) (h : Spec.double n = some v) : n / 2 ^ 52 % 2 ^ 11 ≠ 2 ^ 11 - 1 := by
  intro e
  unfold Spec.double Spec.binary64 at h
  dsimp only at h
  rw [if_pos e] at h
  cases h

theorem finite_binary32 (n : Nat) (v : ℚ) (h : Spec.single n = some v) : n / 2 ^ 23 % 2 ^ 8 ≠ 2 ^ 8 - 1 := by
  intro e
  unfold Spec.single Spec.binary32 at h
  dsimp only at h
  rw [if_pos e] at h
  cases h

/-- C126: what can be written as an SQL literal can be written as JSON. -/
theorem C126_json_of_sql (k : ColKind) (v : Val) (h : SqlWritable k v) : JsonWritable k v := by
  cases k <;> cases v <;> try exact h
  · obtain ⟨⟨v, hv, -⟩, -⟩ := h
    exact finite_binary32 _ v hv
  · obtain ⟨⟨v, hv, -⟩, -⟩ := h
    exact finite_binary64 _ v hv
  · exact h.1
  · exact h.1

theorem writableImage_of (kinds : List ColKind) (cols : List Column) (r : Image) (h : SqlImage kinds (fun _ => true) cols r) :
    WritableImage kinds cols r :=
  ⟨h.1, h.2.1, fun y hy v hv => ⟨(h.2.2 y hy rfl v hv).1, C126_json_of_sql _ _ (h.2.2 y hy rfl v hv).2⟩⟩

theorem sqlImage_key (kinds : List ColKind) (use : Column → Bool) (cols : List Column) (r : Image)
    (h : SqlImage kinds (fun _ => true) cols r) : SqlImage kinds use cols r :=
  ⟨h.1, h.2.1, fun y hy _ v hv => h.2.2 y hy rfl v hv⟩

theorem knownTable_of {schema : Schema} {db tbl : Bytes} {kinds : List ColKind} {defs : List ColumnDefinition}
    {cols : List Column} (h : CopyOf schema db tbl kinds defs cols) : KnownTable schema db tbl kinds defs cols :=
  ⟨h.has, h.kinds, h.defs.imp fun _ _ hd => ⟨hd.1, hd.2.1⟩, h.distinct, h.some_col⟩

theorem inserts_fold (db tbl : Bytes) (images : List Image) : ∀ rows : Contents,
    (images.map fun r => ((db, tbl), Change.insert (rowOf r))).foldl Contents.apply rows
      = rows.set (db, tbl) (rows (db, tbl) ++ images.map rowOf) := by
  induction images with
  | nil =>
    intro rows
    funext u
    simp only [List.map_nil, List.foldl_nil, Contents.set, List.append_nil]
    split
    · next e => rw [e]
    · rfl
  | cons r images ih =>
    intro rows
    rw [List.map_cons, List.foldl_cons, ih]
    funext u
    simp only [Contents.set, Contents.apply, Change.apply, if_pos, List.map_cons, List.append_assoc, List.singleton_append]
    split <;> rfl

/-- The statements, run by the server on these contents, and the text of the records, read by the consumer, tell the same
changes: these. -/
def TellSame (fl : FloatRead) (dr : DoubleRead) (jn : JsonNumbers) (schema : Schema) (rows : Contents) (stmts : List Bytes)
    (text : Bytes) (changes : List (TableId × Change)) : Prop :=
  schema.run fl rows stmts = some (changes.foldl Contents.apply rows) ∧
    ∃ read, Spec.changeRecords dr text = some read ∧ read.map (Spec.jsonChange jn schema) = changes.map some

section

variable (z : Bool) (fl : FloatRead) (hfl : Spec.ReadsFloats fl) (dr : DoubleRead) (hdr : Spec.ReadsDoubles dr)
  (jn : JsonNumbers) (hjn : Spec.NarrowsExactly jn) (schema : Schema) (db tbl : Bytes) (kinds : List ColKind)
  (ms : List ColumnMeta) (defs : List ColumnDefinition) (cols : List Column) (hdb : validUtf8 db = true)
  (htbl : validUtf8 tbl = true) (hdefs : ∀ d ∈ defs, validUtf8 d.name = true)
  (hcopy : CopyOf schema db tbl kinds defs cols) (hk : ∀ k ∈ kinds, k.Ok) (hm : kinds.map metaOf = ms.map some)
  (hn : kinds.length + 7 < 2 ^ 32)

include hfl hdr hjn hdb htbl hdefs hcopy hk hm hn

/-- C126 for inserted rows: of every row event with all columns and values that `SqlWritable` allows, the statements and the
text of the records tell the same changes, those of the event. (Full claim: all values. False for those the `_false` theorems
below and in C79, C85 and C125 name.) -/
theorem C126_insert_partial (extra bm : Bytes) (he : extra.length + 2 < 2 ^ 16) (hp : Covers bm (full kinds))
    (images : List Image) (hr : ∀ r ∈ images, SqlImage kinds (fun _ => true) cols r) (rows : Contents)
    (hrows : schema.RowsOk rows) :
    ∃ ev p stmts recs, RowsV2.readFrom (extra.length + 2) ms (Spec.rowsPayload kinds extra bm images) = .ok ev [] ∧
      PreparedSql.fromInsert db tbl ev defs = some p ∧ p.sqlList (rustFloats z) = some stmts ∧
      JsonRows.fromInsert jsonLib db tbl ev defs = some recs ∧
      TellSame fl dr jn schema rows stmts (JsonRows.serialize ryuText recs)
        (images.map fun r => ((db, tbl), .insert (rowOf r))) := by
  obtain ⟨ev, p, stmts, h1, h2, h3, h4⟩ := C125_sql_insert_partial z fl hfl schema db tbl kinds ms defs cols hcopy hk hm hn extra bm
    he hp images hr rows hrows
  obtain ⟨ev', recs, read, j1, j2, j3, j4⟩ := C85_text_insert_partial (C125_json dr hdr) hjn hdb htbl hdefs (knownTable_of hcopy)
    hk hm hn extra bm he hp images (fun r h => writableImage_of _ _ _ (hr r h))
  rw [h1] at j1
  injection j1 with j1
  subst j1
  exact ⟨ev, p, stmts, recs, h1, h2, h3, j2, by rw [h4, inserts_fold], read, j3, by rw [j4, List.map_map]; rfl⟩

/-- C126 for deleted rows, if they are known by a key -/
theorem C126_delete_partial (hkey : ∃ c ∈ cols, c.key = true) (extra bm : Bytes) (he : extra.length + 2 < 2 ^ 16)
    (hp : Covers bm (full kinds)) (images : List Image) (hr : ∀ r ∈ images, SqlImage kinds (fun _ => true) cols r)
    (rows : Contents) (hrows : schema.RowsOk rows)
    (hkeyed : schema.Keyed rows (images.map fun r => ((db, tbl), .delete (rowOf r)))) :
    ∃ ev p stmts recs, RowsV2.readFrom (extra.length + 2) ms (Spec.rowsPayload kinds extra bm images) = .ok ev [] ∧
      PreparedSql.fromDelete db tbl ev defs = some p ∧ p.sqlList (rustFloats z) = some stmts ∧
      JsonRows.fromDelete jsonLib db tbl ev defs = some recs ∧
      TellSame fl dr jn schema rows stmts (JsonRows.serialize ryuText recs)
        (images.map fun r => ((db, tbl), .delete (rowOf r))) := by
  obtain ⟨ev, p, stmts, h1, h2, h3, h4⟩ := C125_sql_delete_partial z fl hfl schema db tbl kinds ms defs cols hcopy hk hm hn hkey
    extra bm he hp images (fun r h => sqlImage_key _ _ _ _ (hr r h)) rows hrows hkeyed
  obtain ⟨ev', recs, read, j1, j2, j3, j4⟩ := C85_text_delete_partial (C125_json dr hdr) hjn hdb htbl hdefs (knownTable_of hcopy)
    hk hm hn extra bm he hp images (fun r h => writableImage_of _ _ _ (hr r h))
  rw [h1] at j1
  injection j1 with j1
  subst j1
  exact ⟨ev, p, stmts, recs, h1, h2, h3, j2, h4, read, j3, by rw [j4, List.map_map]; rfl⟩

/-- C126 for updated rows, if they are known by a key -/
theorem C126_update_partial (hkey : ∃ c ∈ cols, c.key = true) (extra bb ab : Bytes) (he : extra.length + 2 < 2 ^ 16)
    (hb : Covers bb (full kinds)) (ha : Covers ab (full kinds)) (images : List (Image × Image))
    (hr : ∀ r ∈ images, SqlImage kinds (fun _ => true) cols r.1 ∧ SqlImage kinds (fun _ => true) cols r.2)
    (rows : Contents) (hrows : schema.RowsOk rows)
    (hkeyed : schema.Keyed rows (images.map fun r => ((db, tbl), .update (rowOf r.1) (rowOf r.2)))) :
    ∃ ev p stmts recs, UpdateRowsV2.readFrom (extra.length + 2) ms (Spec.updatePayload kinds extra bb ab images) = .ok ev [] ∧
      PreparedSql.fromUpdate db tbl ev defs = some p ∧ p.sqlList (rustFloats z) = some stmts ∧
      JsonRows.fromUpdate jsonLib db tbl ev defs = some recs ∧
      TellSame fl dr jn schema rows stmts (JsonRows.serialize ryuText recs)
        (images.map fun r => ((db, tbl), .update (rowOf r.1) (rowOf r.2))) := by
  obtain ⟨ev, p, stmts, h1, h2, h3, h4⟩ := C125_sql_update_partial z fl hfl schema db tbl kinds ms defs cols hcopy hk hm hn hkey
    extra bb ab he hb ha images (fun r h => ⟨sqlImage_key _ _ _ _ (hr r h).1, (hr r h).2⟩) rows hrows hkeyed
  obtain ⟨ev', recs, read, j1, j2, j3, j4⟩ := C85_text_update_partial (C125_json dr hdr) hjn hdb htbl hdefs (knownTable_of hcopy)
    hk hm hn extra bb ab he hb ha images
    (fun r h => ⟨writableImage_of _ _ _ (hr r h).1, writableImage_of _ _ _ (hr r h).2⟩)
  rw [h1] at j1
  injection j1 with j1
  subst j1
  exact ⟨ev, p, stmts, recs, h1, h2, h3, j2, h4, read, j3, by rw [j4, List.map_map]; rfl⟩

end

/-! ### whole logs -/

/-- as `ItemReplayable`, with what that means for floats -/
def ItemWritable (wanted : Spec.Table → Bool) (cat : Catalogue) (schema : Schema) (known : Nat → Option Spec.Table) : LogItem → Prop
  | .tableMap id t => TableReadable t ∧ (known id = none ∨ known id = some t)
  | .insert id ks present rows => ∀ t, known id = some t → wanted t = true → ks = t.columns ∧ present = full ks ∧
      ∃ cols, CopyOf schema t.schema t.table ks (cat t.schema t.table) cols ∧ (∀ k ∈ ks, k.Ok) ∧
        ∀ r ∈ rows, SqlImage ks (fun _ => true) cols r
  | .delete id ks present rows => ∀ t, known id = some t → wanted t = true → ks = t.columns ∧ present = full ks ∧
      ∃ cols, CopyOf schema t.schema t.table ks (cat t.schema t.table) cols ∧ (∃ c ∈ cols, c.key = true) ∧ (∀ k ∈ ks, k.Ok) ∧
        ∀ r ∈ rows, SqlImage ks (·.key) cols r
  | .update id ks before after rows => ∀ t, known id = some t → wanted t = true → ks = t.columns ∧ before = full ks ∧
      after = full ks ∧
      ∃ cols, CopyOf schema t.schema t.table ks (cat t.schema t.table) cols ∧
        (∃ d ∈ cat t.schema t.table, d.flags.testBit 1 = true ∧ d.flags.testBit 2 = true) ∧ (∀ k ∈ ks, k.Ok) ∧
        ∀ r ∈ rows, SqlImage ks (·.key) cols r.1 ∧ SqlImage ks (fun _ => true) cols r.2
  | _ => True

/-- every event of the log, with the tables announced before it -/
def LogWritable (wanted : Spec.Table → Bool) (cat : Catalogue) (schema : Schema) :
    (Nat → Option Spec.Table) → List LogItem → Prop
  | _, [] => True
  | known, item :: items => ItemWritable wanted cat schema known item ∧ LogWritable wanted cat schema (item.announce known) items

theorem imageGood_copy (z : Bool) (fl : FloatRead) (hfl : Spec.ReadsFloats fl) {schema : Schema} {db tbl : Bytes}
    {kinds : List ColKind} {defs : List ColumnDefinition} {cols : List Column} (h : CopyOf schema db tbl kinds defs cols)
    (use : Column → Bool) (r : Image) (hr : SqlImage kinds use cols r) : ImageGood (rustFloats z) fl kinds use cols r := by
  rw [h.kinds] at hr ⊢
  exact imageGood_of z fl hfl use cols r hr

theorem logReplayable_of (z : Bool) (fl : FloatRead) (hfl : Spec.ReadsFloats fl) (wanted : Spec.Table → Bool) (cat : Catalogue)
    (schema : Schema) (items : List LogItem) : ∀ known, LogWritable wanted cat schema known items →
      LogReplayable (rustFloats z) fl wanted cat schema known items := by
  induction items with
  | nil => intro _ _; trivial
  | cons item items ih =>
    intro known h
    refine ⟨?_, ih _ h.2⟩
    have h := h.1
    cases item with
    | tableMap id t => exact h
    | insert id ks present rows =>
      intro t h1 h2
      obtain ⟨e1, e2, cols, h3, h4, h5⟩ := h t h1 h2
      exact ⟨e1, e2, cols, h3, h4, fun r hr => imageGood_copy z fl hfl h3 _ r (h5 r hr)⟩
    | delete id ks present rows =>
      intro t h1 h2
      obtain ⟨e1, e2, cols, h3, h6, h4, h5⟩ := h t h1 h2
      exact ⟨e1, e2, cols, h3, h6, h4, fun r hr => imageGood_copy z fl hfl h3 _ r (h5 r hr)⟩
    | update id ks before after rows =>
      intro t h1 h2
      obtain ⟨e1, e2, e3, cols, h3, h6, h4, h5⟩ := h t h1 h2
      exact ⟨e1, e2, e3, cols, h3, h6, h4, fun r hr =>
        ⟨imageGood_copy z fl hfl h3 _ _ (h5 r hr).1, imageGood_copy z fl hfl h3 _ _ (h5 r hr).2⟩⟩
    | rotate => trivial
    | other => trivial

/-- C125 for the `dump-dml` program: as C81 for a whole log, with the texts that Rust's library makes of floats and a server that
gives a column the float nearest to an exact number. (Full claim: every log. Missing: what C43 and `LogWritable` exclude.) -/
theorem C125_log_partial (z : Bool) (fl : FloatRead) (hfl : Spec.ReadsFloats fl) (o : DmlOpts) (hb : o.nonBlock = true)
    (hlim : o.limit = 0) (hf : o.filename.length < 10 ^ 9 ∧ validUtf8 o.filename = true) (uuid : Bytes) (hu : uuid.length = 36)
    (random : Nat) (hr : random < 2 ^ 32) (conn helper : Conn) (crc : Bool) (opening : List Bytes)
    (hopen : Spec.OpensStream conn.caps crc opening) (cat : Catalogue) (log : List (Spec.LogEvent × LogItem))
    (hin : ∀ x ∈ log, x.1.InRange ∧ x.1.Says x.2) (hrot : ∀ x ∈ log, x.2 = .rotate → o.untilNow = true)
    (schema : Schema) (hok : LogWritable o.wanted cat schema (fun _ => none) (log.map (·.2))) (eof rest : Bytes)
    (hd : Spec.Delivers conn.inp
      (opening ++ (log.map (fun x => Spec.streamMessage crc x.1) ++ [0xfe :: eof])) rest)
    (answers : List Bytes) (hrest : Bytes)
    (ha : Spec.ListsTables helper.caps cat (Spec.questions o.wanted (fun _ => none) (log.map (·.2))) answers)
    (hh : Spec.Delivers helper.inp answers hrest)
    (rows : Contents) (hrows : schema.RowsOk rows)
    (hkeyed : schema.Keyed rows (logChanges o.wanted (fun _ => none) (log.map (·.2)))) :
    ∃ stmts, printDmls (rustFloats z) o uuid random conn helper = (stmts.map .stmt, .done) ∧
      schema.run fl rows stmts
        = some ((logChanges o.wanted (fun _ => none) (log.map (·.2))).foldl Contents.apply rows) :=
  C81_log_partial (rustFloats z) fl o hb hlim hf uuid hu random hr conn helper crc opening hopen cat log hin hrot schema
    (logReplayable_of z fl hfl o.wanted cat schema _ _ hok) eof rest hd answers hrest ha hh rows hrows hkeyed

/-! ### where the two differ -/

theorem one_image (name : Bytes) (k : ColKind) (v : Val) (u : Bool) (hf : Fits k v) (hs : Sound k v) (hw : JsonWritable k v)
    (hwi : WidthSound k v) : WritableImage [k] [⟨name, k, u, false⟩] ⟨[.value v], [0]⟩ := by
  refine ⟨⟨⟨hf, trivial⟩, rfl, covers_of [0] [false] rfl (by decide)⟩, ⟨hwi, trivial⟩, fun y hy w hv => ?_⟩
  rw [List.mem_singleton.1 hy] at hv ⊢
  injection hv with hv
  subst hv
  exact ⟨hs, hw⟩

theorem one_copy (k : ColKind) : CopyOf (oneTable [⟨Spec.ascii "a", k, false, false⟩]) (Spec.ascii "d") (Spec.ascii "t") [k]
    [exampleCol "a" 0] [⟨Spec.ascii "a", k, false, false⟩] :=
  ⟨by unfold oneTable; rw [if_pos rfl], rfl, .cons ⟨rfl, show (exampleCol "a" 0).flags.testBit 5 = false by decide, show IsKey (exampleCol "a" 0) = false by decide⟩ .nil,
    by simp, ⟨by decide +kernel, by decide +kernel, fun c hc => by
      rw [List.mem_singleton.1 hc]
      show 0x60 ∉ Spec.ascii "a"
      decide +kernel⟩, by simp⟩

/-- the records of a row of a table with one column -/
theorem one_row (dr : DoubleRead) (hdr : Spec.ReadsDoubles dr) (jn : JsonNumbers) (hjn : Spec.NarrowsExactly jn) (k : ColKind)
    (m : ColumnMeta) (v : Val) (hk : k.Ok) (hm : metaOf k = some m) (hf : Fits k v) (hs : Sound k v) (hw : JsonWritable k v)
    (hwi : WidthSound k v) :
    ∃ ev recs read, RowsV2.readFrom 2 [m] (Spec.rowsPayload [k] [] [1] [⟨[.value v], [0]⟩]) = .ok ev [] ∧
      JsonRows.fromInsert jsonLib (Spec.ascii "d") (Spec.ascii "t") ev [exampleCol "a" 0] = some recs ∧
      Spec.changeRecords dr (JsonRows.serialize ryuText recs) = some read ∧
      read.map (Spec.jsonChange jn (oneTable [⟨Spec.ascii "a", k, false, false⟩]))
        = [some ((Spec.ascii "d", Spec.ascii "t"), .insert [some v])] :=
  C85_text_insert_partial (ms := [m]) (C125_json dr hdr) hjn (by decide +kernel) (by decide +kernel)
    (fun d hd => by rw [List.mem_singleton.1 hd]; decide +kernel) (knownTable_of (one_copy k))
    (fun k' hk' => by rw [List.mem_singleton.1 hk']; exact hk) (by rw [List.map_singleton, hm, List.map_singleton]) (by simp)
    [] [1] (by decide) (covers_of [1] [true] rfl (by decide)) [⟨[.value v], [0]⟩]
    (fun r hr => by rw [List.mem_singleton.1 hr]; exact one_image _ _ _ _ hf hs hw hwi)

/-- C126 fails for text with a backslash: of a row with `C:\\new` the record says so, and the statement inserts a text with a
new line. -/
theorem C126_backslash_false (ft : FloatText) (fl : FloatRead) (dr : DoubleRead) (hdr : Spec.ReadsDoubles dr) (jn : JsonNumbers)
    (hjn : Spec.NarrowsExactly jn) :
    let schema := oneTable [⟨Spec.ascii "a", .varchar 10, false, false⟩]
    ∃ ev p stmts recs read,
      RowsV2.readFrom 2 [.varString 10] (Spec.rowsPayload [.varchar 10] [] [1] [⟨[.value (.bytes (Spec.ascii "C:\\new"))], [0]⟩])
        = .ok ev [] ∧
      PreparedSql.fromInsert (Spec.ascii "d") (Spec.ascii "t") ev [exampleCol "a" 0] = some p ∧ p.sqlList ft = some stmts ∧
      JsonRows.fromInsert jsonLib (Spec.ascii "d") (Spec.ascii "t") ev [exampleCol "a" 0] = some recs ∧
      Spec.changeRecords dr (JsonRows.serialize ryuText recs) = some read ∧
      read.map (Spec.jsonChange jn schema)
        = [some ((Spec.ascii "d", Spec.ascii "t"), .insert [some (.bytes (Spec.ascii "C:\\new"))])] ∧
      (schema.run fl (fun _ => []) stmts).map (fun c => c (Spec.ascii "d", Spec.ascii "t"))
        = some [[some (.bytes (Spec.ascii "C:\new"))]] := by
  intro schema
  obtain ⟨ev, recs, read, h1, h2, h3, h4⟩ := one_row dr hdr jn hjn (.varchar 10) (.varString 10)
    (.bytes (Spec.ascii "C:\\new")) (by simp only [ColKind.Ok]; decide) rfl (by simp only [Fits]; decide +kernel)
    (by simp only [Sound]) (by simp only [JsonWritable]; decide +kernel) (by simp only [WidthSound])
  have e : RowsV2.readFrom 2 [.varString 10] (Spec.rowsPayload [.varchar 10] [] [1] [⟨[.value (.bytes (Spec.ascii "C:\\new"))], [0]⟩])
      = .ok ⟨[], 1, [1], [[.varString (Spec.ascii "C:\\new")]]⟩ [] := by decide +kernel
  rw [e] at h1
  injection h1 with h1
  subst h1
  refine ⟨_, ⟨asc "d", [asc "INSERT INTO `d`.`t` (`a`) VALUES (", asc "?", asc ")"], [[.newVarstring (Spec.ascii "C:\\new")]]⟩,
    [asc "INSERT INTO `d`.`t` (`a`) VALUES ('C:\\new')"], recs, read, e, by decide +kernel, ?_, h2, h3, h4, ?_⟩
  · have : (StmtColumnValue.newVarstring (Spec.ascii "C:\\new")).toSqlLiteral ft = some (Spec.ascii "C:\\new", true) := by
      simp only [StmtColumnValue.newVarstring, StmtColumnValue.toSqlLiteral]
      decide +kernel
    have q : quotedLiteral ft (.newVarstring (Spec.ascii "C:\\new")) = some (asc "'C:\\new'") := by
      unfold quotedLiteral
      rw [this]
      decide +kernel
    simp only [PreparedSql.sqlList, List.map_cons, List.map_nil, fillFragments, q]
    decide +kernel
  · rfl

/-- C126 fails for a negative zero: the record says -0, and the statement inserts 0. -/
theorem C126_negative_zero_false (z : Bool) (fl : FloatRead) (hfl : Spec.ReadsFloats fl) (dr : DoubleRead)
    (hdr : Spec.ReadsDoubles dr) (jn : JsonNumbers) (hjn : Spec.NarrowsExactly jn) :
    let schema := oneTable [⟨Spec.ascii "a", .double, false, false⟩]
    ∃ ev p stmts recs read,
      RowsV2.readFrom 2 [.double 8] (Spec.rowsPayload [.double] [] [1] [⟨[.value (.num (2 ^ 63))], [0]⟩]) = .ok ev [] ∧
      PreparedSql.fromInsert (Spec.ascii "d") (Spec.ascii "t") ev [exampleCol "a" 0] = some p ∧
      p.sqlList (rustFloats z) = some stmts ∧
      JsonRows.fromInsert jsonLib (Spec.ascii "d") (Spec.ascii "t") ev [exampleCol "a" 0] = some recs ∧
      Spec.changeRecords dr (JsonRows.serialize ryuText recs) = some read ∧
      read.map (Spec.jsonChange jn schema) = [some ((Spec.ascii "d", Spec.ascii "t"), .insert [some (.num (2 ^ 63))])] ∧
      (schema.run fl (fun _ => []) stmts).map (fun c => c (Spec.ascii "d", Spec.ascii "t")) = some [[some (.num 0)]] := by
  intro schema
  obtain ⟨ev, recs, read, h1, h2, h3, h4⟩ := one_row dr hdr jn hjn .double (.double 8) (.num (2 ^ 63)) trivial rfl
    (by simp only [Fits]; decide) (by simp only [Sound]) (by simp only [JsonWritable]; decide) (by simp only [WidthSound])
  have e : RowsV2.readFrom 2 [.double 8] (Spec.rowsPayload [.double] [] [1] [⟨[.value (.num (2 ^ 63))], [0]⟩])
      = .ok ⟨[], 1, [1], [[.double (2 ^ 63)]]⟩ [] := by decide +kernel
  rw [e] at h1
  injection h1 with h1
  subst h1
  have hz : fl.f64 0 0 = 0 := (hfl.zero 0).2
  cases z with
  | true =>
    refine ⟨_, ⟨asc "d", [asc "INSERT INTO `d`.`t` (`a`) VALUES (", asc "?", asc ")"], [[.newDouble (2 ^ 63)]]⟩,
      [asc "INSERT INTO `d`.`t` (`a`) VALUES (-0)"], recs, read, e, by decide +kernel, by decide +kernel, h2, h3, h4, ?_⟩
    rw [← hz]
    rfl
  | false =>
    refine ⟨_, ⟨asc "d", [asc "INSERT INTO `d`.`t` (`a`) VALUES (", asc "?", asc ")"], [[.newDouble (2 ^ 63)]]⟩,
      [asc "INSERT INTO `d`.`t` (`a`) VALUES (0)"], recs, read, e, by decide +kernel, by decide +kernel, h2, h3, h4, ?_⟩
    rw [← hz]
    rfl

/-! ### a case -/

/-- a table with a key, a DOUBLE and a VARCHAR -/
def mixedCols : List Column :=
  [⟨Spec.ascii "id", .long, false, true⟩, ⟨Spec.ascii "x", .double, false, false⟩, ⟨Spec.ascii "s", .varchar 10, false, false⟩]

example : CopyOf (oneTable mixedCols) (Spec.ascii "d") (Spec.ascii "t") [.long, .double, .varchar 10]
    [exampleCol "id" 2, exampleCol "x" 0, exampleCol "s" 0] mixedCols :=
  ⟨rfl, rfl, .cons ⟨rfl, by decide, by decide⟩ (.cons ⟨rfl, by decide, by decide⟩ (.cons ⟨rfl, by decide, by decide⟩ .nil)),
    by decide +kernel, ⟨by decide +kernel, by decide +kernel, by decide +kernel⟩, by simp [mixedCols]⟩

-- the row (7, 0.1, 'ab') meets the hypotheses
example : SqlImage [.long, .double, .varchar 10] (fun _ => true) mixedCols
    ⟨[.value (.num 7), .value (.num 0x3fb999999999999a), .value (.bytes (Spec.ascii "ab"))], [0]⟩ := by
  refine ⟨⟨⟨(by norm_num [Fits]), (by norm_num [Fits]), ?_, trivial⟩, rfl, covers_of [0] [false, false, false] rfl (by decide)⟩,
    ⟨trivial, trivial, trivial, trivial⟩, ?_⟩
  · simp only [Fits]
    decide +kernel
  intro y hy _ v hv
  simp only [mixedCols, List.zip_cons_cons, List.zip_nil_right, List.mem_cons, List.not_mem_nil, or_false] at hy
  rcases hy with rfl | rfl | rfl <;> (injection hv with hv; subst hv)
  · exact ⟨trivial, trivial⟩
  · exact ⟨trivial, ⟨_, rfl, Or.inr (by decide +kernel)⟩, by decide⟩
  · refine ⟨trivial, ?_⟩
    simp only [SqlWritable]
    decide +kernel

end Mybin
