/-
C125: floating-point numbers survive as text. With the texts that Rust's library and `serde_json` make of floats, and with the
numbers that `str::parse` makes of texts (Model/Floats.lean), instead of assumptions about them.
-/
import Verif.Props.C81
import Verif.Props.C100
import Verif.Props.C66_C69
import Verif.Lemmas.FloatDigits

namespace Mybin

open Spec (ColKind Val Fits Lit FloatRead Column Image Ends DoubleRead DoublesReadBack Covers Schema Contents)

/-! ### in SQL statements -/

/-- The values whose text denotes them, as in C79, with what that means for floats: FLOATs but a negative zero and the two
largest, and DOUBLEs but a negative zero that are zero or, without their sign, at least 10^-48 and less than 10^64. -/
def SqlWritable : ColKind → Val → Prop
  | .float, .num n => (∃ v, Spec.single n = some v ∧ |v| < 2 ^ 128 - 2 ^ 104) ∧ n ≠ 2 ^ 31
  | .double, .num n => (∃ v, Spec.double n = some v ∧ (v = 0 ∨ (1 / 10 ^ 48 ≤ |v| ∧ |v| < 10 ^ 64))) ∧ n ≠ 2 ^ 63
  | .date, .date y m d => Spec.dateOk y m d = true
  | .datetime2 _, .datetime y m d _ _ _ us => Spec.dateOk y m d = true ∧ us = 0
  | .bit n, .bytes b => b.length = 1 ∧ ∀ x ∈ b, x.toNat < 2 ^ n
  | .decimal p s, .decimal _ n => NoInnerZeros (p - s) s n
  | .varchar _, .bytes b | .char _, .bytes b =>
    validUtf8 b = true ∧ 0x5c ∉ b ∧ (0x27 ∉ b ∨ ∀ x ∈ b, x < 0x80)
  | _, _ => True

section

variable {f : FloatFmt} {value : Nat → Option ℚ} {bits : Nat}

/-- the magnitude of a value -/
theorem abs_value (hf : IsFormat f value bits) {n : Nat} {v : ℚ} (hn : n < 2 ^ bits) (h : value n = some v) :
    n % f.signBit < f.top ∧ (f.mag (n % f.signBit) : ℚ) = |v| * 2 ^ f.scale := by
  have ht := hf.top_lt
  have hS := scale_pos f
  obtain ⟨j, hj, ⟨rfl, e⟩ | ⟨rfl, e⟩⟩ := value_cases hf hn h
  · rw [Nat.mod_eq_of_lt (by omega)]
    refine ⟨hj, ?_⟩
    have h0 : (0 : ℚ) ≤ f.mag n := Nat.cast_nonneg _
    rw [← e]
    have : 0 ≤ v := by rw [← e] at h0; exact nonneg_of_mul_nonneg_left h0 hS
    rw [abs_of_nonneg this]
  · rw [Nat.add_mod_right, Nat.mod_eq_of_lt (by omega)]
    refine ⟨hj, ?_⟩
    have h0 : (0 : ℚ) ≤ f.mag j := Nat.cast_nonneg _
    have e' : (f.mag j : ℚ) = -v * 2 ^ f.scale := by rw [neg_mul, e, neg_neg]
    rw [e']
    have : 0 ≤ -v := by rw [e'] at h0; exact nonneg_of_mul_nonneg_left h0 hS
    rw [← abs_neg, abs_of_nonneg this]

/-- the text of a number that is not zero, and its sign -/
theorem display_count (z : Bool) {n : Nat} (ht : n % f.signBit < f.top) (h0 : n % f.signBit ≠ 0) :
    let x := FloatFmt.fixed (f.shortest (n % f.signBit)).1 (f.shortest (n % f.signBit)).2
    f.display z n = (if n / f.signBit = 1 then asc "-" else []) ++ FloatFmt.pointText x.1 x.2 ∧
    Spec.digitCount (f.display z n) = Spec.digitCount (FloatFmt.pointText x.1 x.2) := by
  dsimp only
  have e : f.display z n = (if n / f.signBit = 1 then asc "-" else []) ++
      FloatFmt.pointText (FloatFmt.fixed (f.shortest (n % f.signBit)).1 (f.shortest (n % f.signBit)).2).1
        (FloatFmt.fixed (f.shortest (n % f.signBit)).1 (f.shortest (n % f.signBit)).2).2 := by
    unfold FloatFmt.display
    dsimp only
    rw [if_neg (by omega), if_neg h0, if_neg (show n % f.signBit ≠ f.top by omega)]
  refine ⟨e, ?_⟩
  rw [e, digitCount_append]
  have : Spec.digitCount (if n / f.signBit = 1 then asc "-" else []) = 0 := by
    split
    · decide +kernel
    · rfl
  rw [this, Nat.zero_add]

/-- numbers that are neither very small nor very large have at most 65 digits -/
theorem display_short (hf : IsFormat f value bits) (hfr : f.frac ≤ 52) (z : Bool) {n : Nat} {v : ℚ} (hn : n < 2 ^ bits)
    (h : value n = some v) (hv : v = 0 ∨ (1 / 10 ^ 48 ≤ |v| ∧ |v| < 10 ^ 64)) : Spec.digitCount (f.display z n) ≤ 65 := by
  obtain ⟨h1, h2⟩ := abs_value hf hn h
  have hS := scale_pos f
  by_cases h0 : n % f.signBit = 0
  · unfold FloatFmt.display
    dsimp only
    rw [h0, if_neg (by omega), if_pos rfl]
    split <;> decide +kernel
  · rw [(display_count z h1 h0).2]
    have hm : (f.mag 0 : ℚ) < f.mag (n % f.signBit) := (mag_cast_lt f).2 (by omega)
    rw [f.mag_zero, Nat.cast_zero] at hm
    rcases hv with rfl | ⟨hlo, hhi⟩
    · rw [h2] at hm; simp at hm
    · apply fixed_count f hfr _ (by omega)
      · rw [h2]
        apply mul_le_mul_of_nonneg_right _ hS.le
        rw [zpow_neg, show (48 : Int) = ((48 : Nat) : Int) from rfl, zpow_natCast, ← one_div]
        exact hlo
      · rw [h2]
        apply mul_lt_mul_of_pos_right _ hS
        rw [show (64 : Int) = ((64 : Nat) : Int) from rfl, zpow_natCast]
        exact hhi

end

/-- C125: the text of every DOUBLE that is zero or between 10^-48 and 10^64 (without its sign) has at most 65 digits, as many as
an exact number can have; the same of every FLOAT. -/
theorem C125_digits (z : Bool) (n : Nat) (v : ℚ) :
    (n < 2 ^ 64 → Spec.double n = some v → (v = 0 ∨ (1 / 10 ^ 48 ≤ |v| ∧ |v| < 10 ^ 64)) →
      Spec.digitCount ((rustFloats z).f64 n) ≤ 65) ∧
    (n < 2 ^ 32 → Spec.single n = some v → Spec.digitCount ((rustFloats z).f32 n) ≤ 65) := by
  refine ⟨fun hn h hv => display_short isFormat_double (by decide) z hn h hv, fun hn h => ?_⟩
  refine display_short isFormat_single (by decide) z hn h ?_
  obtain ⟨h1, h2⟩ := abs_value isFormat_single hn h
  have hs : f32Fmt.scale = 149 := by decide +kernel
  have ht : (f32Fmt.mag f32Fmt.top : ℚ) = 2 ^ 277 := by
    have : f32Fmt.mag f32Fmt.top = 2 ^ 277 := by decide +kernel
    rw [this]; norm_num
  have hm : (f32Fmt.mag (n % f32Fmt.signBit) : ℚ) < f32Fmt.mag f32Fmt.top := (mag_cast_lt _).2 h1
  rw [hs] at h2
  by_cases h0 : n % f32Fmt.signBit = 0
  · left
    rw [h0, f32Fmt.mag_zero, Nat.cast_zero] at h2
    have : |v| = 0 := by
      rcases mul_eq_zero.1 h2.symm with h | h
      · exact h
      · exact absurd h (by positivity)
    exact abs_eq_zero.1 this
  · right
    have hm1 : (f32Fmt.mag 1 : ℚ) ≤ f32Fmt.mag (n % f32Fmt.signBit) := (mag_cast_le _).2 (by omega)
    have e1 : f32Fmt.mag 1 = 1 := by decide +kernel
    rw [e1, Nat.cast_one, h2] at hm1
    rw [ht, h2] at hm
    constructor
    · rw [div_le_iff₀ (by positivity)]
      have : (2 : ℚ) ^ 149 ≤ 10 ^ 48 := by norm_num
      calc (1 : ℚ) ≤ |v| * 2 ^ 149 := hm1
        _ ≤ |v| * 10 ^ 48 := mul_le_mul_of_nonneg_left this (abs_nonneg v)
    · have : (2 : ℚ) ^ 277 = 2 ^ 128 * 2 ^ 149 := by rw [← pow_add]
      rw [this] at hm
      have := lt_of_mul_lt_mul_right hm (by positivity)
      exact this.trans (by norm_num)

theorem writable_double (z : Bool) (fl : FloatRead) (hfl : Spec.ReadsFloats fl) (n : Nat) (hn : n < 2 ^ 64)
    (h : SqlWritable .double (.num n)) : Writable (rustFloats z) fl .double (.num n) := by
  obtain ⟨⟨v, hv, hb⟩, hz⟩ := h
  obtain ⟨i, s, h1, h2, h3⟩ := display_literal isFormat_double z hn (by rw [hv]; rfl) (show n ≠ f64Fmt.signBit from hz)
  refine ⟨i, s, fun tail ht => h1 tail (apart_of_ends tail ht), ?_⟩
  obtain ⟨h4, h5⟩ := h2 ((C125_digits z n v).1 hn hv hb)
  rcases h3 with ⟨rfl, rfl⟩ | ⟨hi, -, h3⟩
  · exact (hfl.zero s).2
  · exact h3 _ (hfl.double i s hi h4 h5)

theorem writable_float (z : Bool) (fl : FloatRead) (hfl : Spec.ReadsFloats fl) (n : Nat) (hn : n < 2 ^ 32)
    (h : SqlWritable .float (.num n)) : Writable (rustFloats z) fl .float (.num n) := by
  obtain ⟨⟨v, hv, hb⟩, hz⟩ := h
  obtain ⟨i, s, h1, h2, h3⟩ := display_literal isFormat_single z hn (by rw [hv]; rfl) (show n ≠ f32Fmt.signBit from hz)
  refine ⟨i, s, fun tail ht => h1 tail (apart_of_ends tail ht), ?_⟩
  obtain ⟨h4, h5⟩ := h2 ((C125_digits z n v).2 hn hv)
  rcases h3 with ⟨rfl, rfl⟩ | ⟨hi, ⟨m, m1, m2, m3, hA⟩, h3⟩
  · exact (hfl.zero s).1
  · refine h3 _ (hfl.float i s hi h4 h5 ?_)
    obtain ⟨-, e⟩ := abs_value isFormat_single hn hv
    rw [m3] at e
    have hs : f32Fmt.scale = 149 := by decide +kernel
    have el : (f32Fmt.mag (f32Fmt.top - 1) : ℚ) = (2 ^ 128 - 2 ^ 104) * 2 ^ f32Fmt.scale := by
      have : f32Fmt.mag (f32Fmt.top - 1) = (2 ^ 128 - 2 ^ 104) * 2 ^ 149 := by decide +kernel
      rw [this, hs]; norm_num
    have hlt : (f32Fmt.mag m : ℚ) < f32Fmt.mag (f32Fmt.top - 1) := by
      rw [e, el]; exact mul_lt_mul_of_pos_right hb (scale_pos _)
    have hm := (mag_cast_lt _).1 hlt
    have hlt' : (f32Fmt.mag (m + 1) : ℚ) ≤ f32Fmt.mag (f32Fmt.top - 1) := (mag_cast_le _).2 (by omega)
    have := hA.1.2
    have : |(i : ℚ) / 10 ^ s| * 2 ^ f32Fmt.scale ≤ (2 ^ 128 - 2 ^ 104) * 2 ^ f32Fmt.scale := by
      rw [← el]; linarith
    exact le_of_mul_le_mul_right this (scale_pos _)

theorem writable_of (z : Bool) (fl : FloatRead) (hfl : Spec.ReadsFloats fl) (k : ColKind) (v : Val) (hf : Fits k v)
    (h : SqlWritable k v) : Writable (rustFloats z) fl k v := by
  cases k <;> cases v <;> try exact h
  · exact writable_float z fl hfl _ (by simpa only [Fits] using hf) h
  · exact writable_double z fl hfl _ (by simpa only [Fits] using hf) h

/-- C125: the value of every column, FLOATs and DOUBLEs with it: the bytes of the row image are decoded, the text made of the
decoded value with Rust's texts of floats is put into a statement, and a server that gives a column the float nearest to an
exact number reads it as a literal that gives the column the value of the row. (Full claim: every value. It fails for the
values that `Sound` and `SqlWritable` exclude: see C37, C79 and the `_false` theorems below.) -/
theorem C125_sql_value_partial (z : Bool) (fl : FloatRead) (hfl : Spec.ReadsFloats fl) (k : ColKind) (m : ColumnMeta) (v : Val)
    (u : Bool) (hk : k.Ok) (hm : metaOf k = some m) (hv : Fits k v) (hs : Sound k v) (hw : SqlWritable k v) (rest : Bytes) :
    ∃ c p text quote l, BinlogColumnValue.readFrom m (Spec.storeVal k v ++ rest) = .ok c rest ∧
      StmtColumnValue.ofBinlog c u = some p ∧ p.toSqlLiteral (rustFloats z) = some (text, quote) ∧
      (∀ tail, Ends tail → Spec.literal (Spec.quotedIf quote text ++ tail) = some (l, tail)) ∧
      Spec.assign fl u k l = some v :=
  C79_value_partial (rustFloats z) fl k m v u hk hm hv hs (writable_of z fl hfl k v hv hw) rest

/-- the image is of a row of the table, with all columns; the values of the columns that are used are decoded correctly and
have a text that denotes them -/
def SqlImage (kinds : List ColKind) (use : Column → Bool) (cols : List Column) (r : Image) : Prop :=
  r.Ok kinds (full kinds) ∧ WidthCells kinds r.cells ∧
    ∀ y ∈ cols.zip r.cells, use y.1 = true → ∀ v, y.2 = .value v → Sound y.1.kind v ∧ SqlWritable y.1.kind v

theorem imageGood_of (z : Bool) (fl : FloatRead) (hfl : Spec.ReadsFloats fl) (use : Column → Bool) (cols : List Column) (r : Image)
    (h : SqlImage (cols.map (·.kind)) use cols r) : ImageGood (rustFloats z) fl (cols.map (·.kind)) use cols r := by
  refine ⟨h.1, h.2.1, fun y hy hu v hv => ?_⟩
  obtain ⟨h1, h2⟩ := h.2.2 y hy hu v hv
  exact ⟨h1, writable_of z fl hfl _ _ (cellsFit_zip cols r.cells h.1.1 y hy v hv) h2⟩

section

variable (z : Bool) (fl : FloatRead) (hfl : Spec.ReadsFloats fl) (schema : Schema) (db tbl : Bytes) (kinds : List ColKind)
  (ms : List ColumnMeta) (defs : List ColumnDefinition) (cols : List Column)
  (hcopy : CopyOf schema db tbl kinds defs cols) (hk : ∀ k ∈ kinds, k.Ok) (hm : kinds.map metaOf = ms.map some)
  (hn : kinds.length + 7 < 2 ^ 32)

include hfl hcopy hk hm hn

/-- C125, the statements of inserted rows, as in C81: run on a copy of the table they insert the rows of the event, with their
FLOATs and DOUBLEs. -/
theorem C125_sql_insert_partial (extra bm : Bytes) (he : extra.length + 2 < 2 ^ 16) (hp : Covers bm (full kinds))
    (images : List Image) (hr : ∀ r ∈ images, SqlImage kinds (fun _ => true) cols r)
    (rows : Contents) (hrows : schema.RowsOk rows) :
    ∃ ev p stmts, RowsV2.readFrom (extra.length + 2) ms (Spec.rowsPayload kinds extra bm images) = .ok ev [] ∧
      PreparedSql.fromInsert db tbl ev defs = some p ∧ p.sqlList (rustFloats z) = some stmts ∧
      schema.run fl rows stmts = some (rows.set (db, tbl) (rows (db, tbl) ++ images.map rowOf)) :=
  C81_insert_partial (rustFloats z) fl schema db tbl kinds ms defs cols hcopy hk hm hn extra bm he hp images
    (fun r h => by
      have := hr r h
      rw [hcopy.kinds] at this ⊢
      exact imageGood_of z fl hfl _ cols r this) rows hrows

/-- C125, the statements of deleted rows -/
theorem C125_sql_delete_partial (hkey : ∃ c ∈ cols, c.key = true) (extra bm : Bytes) (he : extra.length + 2 < 2 ^ 16)
    (hp : Covers bm (full kinds)) (images : List Image) (hr : ∀ r ∈ images, SqlImage kinds (·.key) cols r)
    (rows : Contents) (hrows : schema.RowsOk rows)
    (hkeyed : schema.Keyed rows (images.map fun r => ((db, tbl), .delete (rowOf r)))) :
    ∃ ev p stmts, RowsV2.readFrom (extra.length + 2) ms (Spec.rowsPayload kinds extra bm images) = .ok ev [] ∧
      PreparedSql.fromDelete db tbl ev defs = some p ∧ p.sqlList (rustFloats z) = some stmts ∧
      schema.run fl rows stmts
        = some ((images.map fun r => ((db, tbl), Spec.Change.delete (rowOf r))).foldl Spec.Contents.apply rows) :=
  C81_delete_partial (rustFloats z) fl schema db tbl kinds ms defs cols hcopy hkey hk hm hn extra bm he hp images
    (fun r h => by
      have := hr r h
      rw [hcopy.kinds] at this ⊢
      exact imageGood_of z fl hfl _ cols r this) rows hrows hkeyed

/-- C125, the statements of updated rows -/
theorem C125_sql_update_partial (hkey : ∃ c ∈ cols, c.key = true) (extra bb ab : Bytes) (he : extra.length + 2 < 2 ^ 16)
    (hb : Covers bb (full kinds)) (ha : Covers ab (full kinds)) (images : List (Image × Image))
    (hr : ∀ r ∈ images, SqlImage kinds (·.key) cols r.1 ∧ SqlImage kinds (fun _ => true) cols r.2)
    (rows : Contents) (hrows : schema.RowsOk rows)
    (hkeyed : schema.Keyed rows (images.map fun r => ((db, tbl), .update (rowOf r.1) (rowOf r.2)))) :
    ∃ ev p stmts, UpdateRowsV2.readFrom (extra.length + 2) ms (Spec.updatePayload kinds extra bb ab images) = .ok ev [] ∧
      PreparedSql.fromUpdate db tbl ev defs = some p ∧ p.sqlList (rustFloats z) = some stmts ∧
      schema.run fl rows stmts = some
        ((images.map fun r => ((db, tbl), Spec.Change.update (rowOf r.1) (rowOf r.2))).foldl Spec.Contents.apply rows) :=
  C81_update_partial (rustFloats z) fl schema db tbl kinds ms defs cols hcopy hkey hk hm hn extra bb ab he hb ha images
    (fun r h => by
      have := hr r h
      rw [hcopy.kinds] at this ⊢
      exact ⟨imageGood_of z fl hfl _ cols _ this.1, imageGood_of z fl hfl _ cols _ this.2⟩) rows hrows hkeyed

end

/-! ### in JSON records -/

/-- C125: every finite double is written in JSON as a number with a fraction or an exponent, and every consumer that reads
numbers as the nearest double reads it as this double, with its sign. This is the assumption of C85 and C100. -/
theorem C125_json (dr : DoubleRead) (hdr : Spec.ReadsDoubles dr) : DoublesReadBack ryuText dr := by
  intro n hn h
  refine ryu_reads dr hdr n hn ?_
  unfold Spec.double
  rw [Option.isSome_map]
  exact h

/-- C125: the text of the records of every row event, with `serde_json`'s texts of floats, is read by such a consumer as the
records that were made (C100). -/
theorem C125_json_text (dr : DoubleRead) (hdr : Spec.ReadsDoubles dr) (db tbl : Bytes) (defs : List ColumnDefinition)
    (hdb : validUtf8 db = true) (htbl : validUtf8 tbl = true) (hdefs : ∀ d ∈ defs, validUtf8 d.name = true) :
    (∀ ev recs, JsonRows.fromInsert jsonLib db tbl ev defs = some recs →
      Spec.TextOfRecords dr recs (JsonRows.serialize ryuText recs)) ∧
    (∀ ev recs, JsonRows.fromDelete jsonLib db tbl ev defs = some recs →
      Spec.TextOfRecords dr recs (JsonRows.serialize ryuText recs)) ∧
    (∀ ev recs, JsonRows.fromUpdate jsonLib db tbl ev defs = some recs →
      Spec.TextOfRecords dr recs (JsonRows.serialize ryuText recs)) :=
  C100_text ryuText dr (C125_json dr hdr) db tbl defs hdb htbl hdefs

/-! ### in query results -/

theorem limit_double : f64Fmt.limit = 2 ^ 1024 - 2 ^ 970 := by
  have hs : f64Fmt.scale = 1074 := by decide +kernel
  have e1 : (f64Fmt.mag (f64Fmt.top - 1) : ℚ) = (2 ^ 53 - 1) * 2 ^ 2045 := by
    have : f64Fmt.mag (f64Fmt.top - 1) = (2 ^ 53 - 1) * 2 ^ 2045 := by decide +kernel
    rw [this]; push_cast; norm_num
  have e2 : (f64Fmt.mag f64Fmt.top : ℚ) = 2 ^ 53 * 2 ^ 2045 := by
    have : f64Fmt.mag f64Fmt.top = 2 ^ 53 * 2 ^ 2045 := by decide +kernel
    rw [this]; push_cast; rfl
  unfold FloatFmt.limit
  rw [e1, e2, hs, div_div, div_eq_iff (by positivity)]
  rw [show (2 : ℚ) ^ 1024 = 2 ^ 54 * 2 ^ 970 by rw [← pow_add], show (2 : ℚ) ^ 2045 = 2 ^ 970 * (2 * 2 ^ 1074) by
      rw [← pow_succ', ← pow_add], show (2 : ℚ) ^ 54 = 2 * 2 ^ 53 by rw [← pow_succ']]
  ring

theorem limit_single : f32Fmt.limit = 2 ^ 128 - 2 ^ 103 := by
  have hs : f32Fmt.scale = 149 := by decide +kernel
  have e1 : f32Fmt.mag (f32Fmt.top - 1) = (2 ^ 24 - 1) * 2 ^ 253 := by decide +kernel
  have e2 : f32Fmt.mag f32Fmt.top = 2 ^ 24 * 2 ^ 253 := by decide +kernel
  unfold FloatFmt.limit
  rw [e1, e2, hs]
  norm_num

section

variable {f : FloatFmt} {value : Nat → Option ℚ} {bits : Nat}

/-- the quotient of which `str::parse` takes the nearest float -/
theorem parsed_quotient (f : FloatFmt) (n : Nat) (k : Int) :
    0 < 10 ^ (-k).toNat ∧
      (n : ℚ) * 10 ^ k * 2 ^ f.scale * ((10 ^ (-k).toNat : Nat) : ℚ) = ((n * 10 ^ k.toNat * 2 ^ f.scale : Nat) : ℚ) := by
  refine ⟨Nat.pow_pos (by omega), ?_⟩
  push_cast
  by_cases h : 0 ≤ k
  · obtain ⟨j, rfl⟩ := Int.eq_ofNat_of_zero_le h
    simp only [Int.toNat_natCast, Int.toNat_neg_natCast, zpow_natCast, pow_zero, mul_one]
  · obtain ⟨j, rfl⟩ : ∃ j : Nat, k = -(j : Int) := ⟨(-k).toNat, by omega⟩
    simp only [neg_neg, Int.toNat_natCast, Int.toNat_neg_natCast, pow_zero, zpow_neg, zpow_natCast]
    field_simp

theorem numberChars_ascii (t : Bytes) (v : Spec.JValue) (h : Spec.jsonNumber t = some (v, [])) : validUtf8 t = true := by
  obtain ⟨b, r, e, hc, -⟩ := jsonNumber_front t v [] h
  rw [List.append_nil] at e
  subst e
  refine validUtf8_ascii _ fun x hx => ?_
  have := (hc x hx).2
  simp only [UInt8.le_iff_toNat_le, UInt8.toNat_ofNat] at this ⊢
  omega

/-- the nearest float, with a sign -/
theorem nearest_signed (hf : IsFormat f value bits) (ht : 1 < f.top) (neg : Bool) (num den : Nat) (hden : 0 < den) (y : ℚ)
    (hy : y * 2 ^ f.scale * den = num) (hl : y < f.limit) :
    Spec.Nearest value bits (f.round num den + if neg then f.signBit else 0) ((if neg then -1 else 1) * y) ∧
      (y = 0 → f.round num den = 0) ∧
      ∀ n v, value n = some v → v ≠ 0 → Spec.Nearest value bits n ((if neg then -1 else 1) * y) →
        n = f.round num den + if neg then f.signBit else 0 := by
  have hS := scale_pos f
  have hd : (0 : ℚ) < den := by exact_mod_cast hden
  have h0 : 0 ≤ y := by
    have : (0 : ℚ) ≤ y * (2 ^ f.scale * den) := by rw [← mul_assoc, hy]; exact Nat.cast_nonneg _
    exact nonneg_of_mul_nonneg_left this (by positivity)
  obtain ⟨r1, r2, r3⟩ := round_nearest hf ht num den hden y hy hl
  have htl := hf.top_lt
  have one : ∀ n v, value n = some v → v ≠ 0 → Spec.Nearest value bits n y → n = f.round num den := by
    intro n v hv hv0 hn
    rcases round_cases f num den hden y hy with ⟨e, h⟩ | ⟨h1, h2, h⟩ | ⟨e, h⟩
    · exfalso
      obtain ⟨hnb, v', hv', hmin⟩ := hn
      rw [hv] at hv'
      injection hv' with hv'
      subst hv'
      have hz : value 0 = some 0 := by rw [value_of_lt hf (by omega), f.mag_zero]; simp
      have a := hmin 0 0 (Nat.two_pow_pos _) hz (Ne.symm hv0)
      obtain ⟨-, z, hz', hzm⟩ := zero_nearest hf (by omega) y h0 h
      rw [hz] at hz'
      injection hz' with hz'
      subst hz'
      have b := hzm n v hnb hv hv0
      have hd := le_antisymm a.1 b.1
      have hev := a.2 hd
      have hd' : |y * 2 ^ f.scale - v * 2 ^ f.scale| = |y * 2 ^ f.scale| := by
        rw [← dist_scaled, hd, dist_scaled, zero_mul, sub_zero]
      have hX : 0 ≤ y * 2 ^ f.scale := mul_nonneg h0 hS.le
      have hW : v * 2 ^ f.scale ≠ 0 := mul_ne_zero hv0 hS.ne'
      obtain ⟨j, hj, hc⟩ := value_cases hf hnb hv
      generalize y * 2 ^ f.scale = X at *
      generalize v * 2 ^ f.scale = W at *
      rw [abs_of_nonneg hX] at hd'
      have hW2 : W = 2 * X := by
        rcases abs_cases (X - W) with ⟨e', _⟩ | ⟨e', _⟩ <;> rw [e'] at hd'
        · exact absurd (by linarith) hW
        · linarith
      have hj0 : j ≠ 0 := by
        rintro rfl
        rw [f.mag_zero, Nat.cast_zero, neg_zero] at hc
        rcases hc with hc | hc <;> exact hW hc.2
      have hm1 : (f.mag 1 : ℚ) ≤ f.mag j := (mag_cast_le f).2 (by omega)
      have hm0 : (0 : ℚ) ≤ f.mag 1 := Nat.cast_nonneg _
      rcases hc with ⟨rfl, hc⟩ | ⟨rfl, hc⟩
      · have : n = 1 := mag_cast_inj f (le_antisymm (by linarith) hm1)
        omega
      · have : (f.mag j : ℚ) = 0 := by linarith
        exact hW (by rw [hc, this, neg_zero])
    · exact nearest_eq hf h1 h2 h hn
    · exfalso
      omega
  cases neg with
  | true =>
    simp only [if_true, neg_one_mul]
    refine ⟨?_, r3, fun n v hv hv0 hn => ?_⟩
    · have := nearest_flip hf r2
      unfold FloatFmt.flip at this
      rwa [if_pos (by omega)] at this
    · have hnb := hn.1
      have h1 := nearest_flip hf hn
      rw [neg_neg] at h1
      have h2 := one (f.flip n) (-v) (by rw [value_flip hf hnb, hv]; rfl) (neg_ne_zero.2 hv0) h1
      have hb := hf.bits_eq
      unfold FloatFmt.flip at h2
      split at h2
      · omega
      · omega
  | false =>
    simp only [Bool.false_eq_true, if_false, one_mul, Nat.add_zero]
    exact ⟨r2, r3, one⟩

/-- a numeral is read as the nearest float, or infinity -/
theorem parse_nearest (hf : IsFormat f value bits) (ht : 1 < f.top) (hev : f.top % 2 = 0) (names : Bytes → Option Nat) (t w : Bytes)
    (neg : Bool) (fr : Option Bytes) (e : Option (Bool × Bytes)) (x : ℚ)
    (h : Spec.jsonNumber t = some (.number neg w fr e, [])) (hx : Spec.numeral neg w fr e = some x) :
    ∃ n, fromText (parseFloat f names) (some t) = .ok (some n) ∧
      (|x| < f.limit → Spec.Nearest value bits n x ∧ (x = 0 → n = if neg then f.signBit else 0) ∧
        ∀ m v, value m = some v → v ≠ 0 → Spec.Nearest value bits m x → m = n) ∧
      (f.limit ≤ |x| → n = f.top + if neg then f.signBit else 0) := by
  obtain ⟨N, k, h1, h2⟩ := parseFloat_number f names t w neg fr e h
  rw [hx] at h1
  injection h1 with h1
  obtain ⟨q1, q2⟩ := parsed_quotient f N k
  have hy0 : (0 : ℚ) ≤ (N : ℚ) * 10 ^ k := mul_nonneg (Nat.cast_nonneg _) (ten_zpow_pos k).le
  rw [mul_assoc] at h1
  generalize hY : (N : ℚ) * 10 ^ k = y at *
  have habs : |x| = y := by
    rw [h1]
    cases neg with
    | true => rw [if_pos rfl, neg_one_mul, abs_neg, abs_of_nonneg hy0]
    | false => rw [if_neg (by simp), one_mul, abs_of_nonneg hy0]
  refine ⟨f.round (N * 10 ^ k.toNat * 2 ^ f.scale) (10 ^ (-k).toNat) + if neg then f.signBit else 0, ?_, fun hl => ?_,
    fun hl => ?_⟩
  · unfold fromText
    dsimp only
    rw [numberChars_ascii t _ h, h2]
    rfl
  · rw [habs] at hl
    obtain ⟨r1, r2, r3⟩ := nearest_signed hf ht neg _ _ q1 y q2 hl
    rw [← h1] at r1 r3
    refine ⟨r1, fun h0 => ?_, r3⟩
    rw [r2 (by rw [← habs, h0, abs_zero]), Nat.zero_add]
  · rw [habs] at hl
    rw [round_infinite ht _ _ q1 y q2 hl hev]

end

/-- C125: a number in the text of a query result (in the notation of JSON, RFC 8259, section 6) is read as an `f64` that is the
nearest to it, the even one of two, and zero keeps its sign; a number too large for an `f64` is read as infinity with its sign.
-/
theorem C125_query_double (names : Bytes → Option Nat) (t w : Bytes) (neg : Bool) (f : Option Bytes) (e : Option (Bool × Bytes))
    (x : ℚ) (h : Spec.jsonNumber t = some (.number neg w f e, [])) (hx : Spec.numeral neg w f e = some x) :
    ∃ n, f64FromText names (some t) = .ok (some n) ∧
      (|x| < 2 ^ 1024 - 2 ^ 970 → Spec.Nearest Spec.double 64 n x ∧ (x = 0 → n = if neg then 2 ^ 63 else 0)) ∧
      (2 ^ 1024 - 2 ^ 970 ≤ |x| → n = 0x7ff0000000000000 + if neg then 2 ^ 63 else 0) := by
  have := parse_nearest isFormat_double (by decide +kernel) (by decide +kernel) names t w neg f e x h hx
  rw [limit_double] at this
  obtain ⟨n, h1, h2, h3⟩ := this
  exact ⟨n, h1, fun hl => ⟨(h2 hl).1, (h2 hl).2.1⟩, h3⟩

/-- C125: the same for an `f32` -/
theorem C125_query_float (names : Bytes → Option Nat) (t w : Bytes) (neg : Bool) (f : Option Bytes) (e : Option (Bool × Bytes))
    (x : ℚ) (h : Spec.jsonNumber t = some (.number neg w f e, [])) (hx : Spec.numeral neg w f e = some x) :
    ∃ n, f32FromText names (some t) = .ok (some n) ∧
      (|x| < 2 ^ 128 - 2 ^ 103 → Spec.Nearest Spec.single 32 n x ∧ (x = 0 → n = if neg then 2 ^ 31 else 0)) ∧
      (2 ^ 128 - 2 ^ 103 ≤ |x| → n = 0x7f800000 + if neg then 2 ^ 31 else 0) := by
  have := parse_nearest isFormat_single (by decide +kernel) (by decide +kernel) names t w neg f e x h hx
  rw [limit_single] at this
  obtain ⟨n, h1, h2, h3⟩ := this
  exact ⟨n, h1, fun hl => ⟨(h2 hl).1, (h2 hl).2.1⟩, h3⟩

/-- C125: a DOUBLE of a query result is read as the same `f64` as from a prepared statement, whenever the server writes it as a
number to which it is the nearest double (C124 for doubles). -/
theorem C125_query_binary (names : Bytes → Option Nat) (t w : Bytes) (neg : Bool) (f : Option Bytes)
    (e : Option (Bool × Bytes)) (x : ℚ) (h : Spec.jsonNumber t = some (.number neg w f e, []))
    (hx : Spec.numeral neg w f e = some x) (hl : |x| < 2 ^ 1024 - 2 ^ 970) (n : Nat) (hn : Spec.Nearest Spec.double 64 n x)
    (h0 : Spec.double n ≠ some 0) :
    f64FromText names (some t) = .ok (some n) ∧ f64FromBinary (.double n) = .ok (some n) := by
  refine ⟨?_, rfl⟩
  obtain ⟨r, h1, h2, -⟩ := parse_nearest isFormat_double (by decide +kernel) (by decide +kernel) names t w neg f e x h hx
  rw [limit_double] at h2
  obtain ⟨-, v, hv, -⟩ := id hn
  have := (h2 hl).2.2 n v hv (fun h => h0 (by rw [hv, h])) hn
  rw [this]
  exact h1

/-! ### such servers and consumers exist -/

/-- every decimal of 65 digits is below the bound where doubles end -/
theorem decimal_lt_limit : (10 : ℚ) ^ 65 < 2 ^ 1024 - 2 ^ 970 := by
  have e : (2 : ℚ) ^ 1024 = 2 ^ 54 * 2 ^ 970 := by rw [← pow_add]
  have h : (2 : ℚ) ^ 216 ≤ 2 ^ 970 := pow_le_pow_right₀ (by norm_num) (by omega)
  rw [e]
  clear e
  generalize (2 : ℚ) ^ 970 = b at *
  norm_num at h ⊢
  linarith

theorem int_sign_abs (i : Int) : (i : ℚ) = (if i < 0 then -1 else 1) * (i.natAbs : ℚ) := by
  have : (i.natAbs : ℚ) = ((i.natAbs : Int) : ℚ) := rfl
  rw [this]
  split
  · have : (i.natAbs : Int) = -i := by omega
    rw [this]; push_cast; ring
  · have : (i.natAbs : Int) = i := by omega
    rw [this, one_mul]

theorem int_quotient_abs (i : Int) (s : Nat) : |(i : ℚ) / 10 ^ s| = (i.natAbs : ℚ) / 10 ^ s := by
  have h : (0 : ℚ) ≤ (i.natAbs : ℚ) / 10 ^ s := div_nonneg (Nat.cast_nonneg _) (by positivity)
  generalize hq : (i.natAbs : ℚ) = q at *
  rw [int_sign_abs i, hq]
  split
  · rw [neg_one_mul, neg_div, abs_neg, abs_of_nonneg h]
  · rw [one_mul, abs_of_nonneg h]

/-- the float nearest to `i / 10 ^ s` -/
def nearestFloat (f : FloatFmt) (i : Int) (s : Nat) : Nat :=
  f.round (i.natAbs * 2 ^ f.scale) (10 ^ s) + if i < 0 then f.signBit else 0

theorem nearestFloat_spec {f : FloatFmt} {value : Nat → Option ℚ} {bits : Nat} (hf : IsFormat f value bits) (ht : 1 < f.top)
    (i : Int) (s : Nat) (h : |(i : ℚ) / 10 ^ s| < f.limit) :
    Spec.Nearest value bits (nearestFloat f i s) (i / 10 ^ s) ∧ (i = 0 → nearestFloat f i s = 0) := by
  have ha := int_quotient_abs i s
  rw [ha] at h
  have hq : (i.natAbs : ℚ) / 10 ^ s * 2 ^ f.scale * ((10 ^ s : Nat) : ℚ) = ((i.natAbs * 2 ^ f.scale : Nat) : ℚ) := by
    push_cast; field_simp
  obtain ⟨h1, h2, -⟩ := nearest_signed hf ht (decide (i < 0)) _ _ (Nat.pow_pos (by omega)) _ hq h
  constructor
  · have e : (if decide (i < 0) = true then (-1 : ℚ) else 1) * ((i.natAbs : ℚ) / 10 ^ s) = (i : ℚ) / 10 ^ s := by
      have := int_sign_abs i
      generalize (i.natAbs : ℚ) = q at *
      rw [this]
      by_cases hi : i < 0 <;> simp [hi, neg_div]
    rw [e] at h1
    unfold nearestFloat
    simpa using h1
  · rintro rfl
    unfold nearestFloat
    rw [if_neg (by omega), Nat.add_zero]
    exact h2 (by simp)

/-- there is a server that reads numbers so -/
theorem readsFloats_exists : ∃ fl, Spec.ReadsFloats fl := by
  refine ⟨⟨nearestFloat f32Fmt, nearestFloat f64Fmt⟩, fun s => ⟨?_, ?_⟩, fun i s _ _ _ h => ?_, fun i s _ h1 _ => ?_⟩
  · refine (nearestFloat_spec isFormat_single (by decide +kernel) 0 s ?_).2 rfl
    rw [limit_single]; simp; norm_num
  · refine (nearestFloat_spec isFormat_double (by decide +kernel) 0 s ?_).2 rfl
    rw [limit_double, Int.cast_zero, zero_div, abs_zero]
    exact lt_trans (by norm_num) decimal_lt_limit
  · refine (nearestFloat_spec isFormat_single (by decide +kernel) i s ?_).1
    rw [limit_single]
    exact lt_of_le_of_lt h (by norm_num)
  · refine (nearestFloat_spec isFormat_double (by decide +kernel) i s ?_).1
    rw [limit_double]
    rw [int_quotient_abs]
    have h2 : (i.natAbs : ℚ) < 10 ^ 65 := by exact_mod_cast h1
    have h10 : (1 : ℚ) ≤ 10 ^ s := one_le_pow₀ (by norm_num)
    have h3 : (i.natAbs : ℚ) / 10 ^ s ≤ i.natAbs :=
      (div_le_iff₀ (by positivity)).2 (le_mul_of_one_le_right (Nat.cast_nonneg _) h10)
    exact lt_of_le_of_lt h3 (h2.trans decimal_lt_limit)

/-- there is a consumer that reads numbers so -/
theorem readsDoubles_exists : ∃ dr, Spec.ReadsDoubles dr := by
  have num : ∀ neg w f e x, Spec.numeral neg w f e = some x → ∃ N : Nat, ∃ k : Int,
      x = (if neg then -1 else 1) * ((N : ℚ) * 10 ^ k) := by
    intro neg w f e x h
    unfold Spec.numeral at h
    rw [Option.bind_eq_some_iff] at h
    obtain ⟨N, -, h⟩ := h
    rw [Option.map_eq_some_iff] at h
    obtain ⟨k, -, h⟩ := h
    exact ⟨N, _, by rw [← h, mul_assoc]⟩
  classical
  have rd : ∀ neg w f e, ∃ n, (Spec.numeral neg w f e = some 0 → n = if neg then 2 ^ 63 else 0) ∧
      ∀ x, Spec.numeral neg w f e = some x → |x| < 2 ^ 1024 - 2 ^ 970 → Spec.Nearest Spec.double 64 n x := by
    intro neg w f e
    cases hx : Spec.numeral neg w f e with
    | none => exact ⟨0, by simp, by simp⟩
    | some x =>
      obtain ⟨N, k, rfl⟩ := num neg w f e x hx
      obtain ⟨q1, q2⟩ := parsed_quotient f64Fmt N k
      have hy0 : (0 : ℚ) ≤ (N : ℚ) * 10 ^ k := mul_nonneg (Nat.cast_nonneg _) (ten_zpow_pos k).le
      generalize (N : ℚ) * 10 ^ k = y at *
      have habs : |(if neg then -1 else 1) * y| = y := by
        cases neg with
        | true => rw [if_pos rfl, neg_one_mul, abs_neg, abs_of_nonneg hy0]
        | false => rw [if_neg (by simp), one_mul, abs_of_nonneg hy0]
      have key := nearest_signed isFormat_double (by decide +kernel) neg _ _ q1 y q2
      rw [limit_double] at key
      refine ⟨f64Fmt.round (N * 10 ^ k.toNat * 2 ^ f64Fmt.scale) (10 ^ (-k).toNat) + if neg then f64Fmt.signBit else 0,
        fun h0 => ?_, fun x' hx' hl => ?_⟩
      · injection h0 with h0
        have hy : y = 0 := by rw [← habs, h0, abs_zero]
        have := (key (by rw [hy]; exact lt_trans (by norm_num) decimal_lt_limit)).2.1 hy
        rw [this, Nat.zero_add]
        rfl
      · injection hx' with hx'
        subst hx'
        rw [habs] at hl
        exact (key hl).1
  choose dr h1 h2 using rd
  exact ⟨dr, h1, fun neg w f e x hx _ hl => h2 neg w f e x hx hl⟩

/-! ### where it fails -/

/-- C125 fails for large DOUBLEs in SQL: from 10^66 on every double is written with more than 65 digits, more than an exact
number can have. -/
theorem C125_large_false (z : Bool) (n : Nat) (v : ℚ) (hn : n < 2 ^ 64) (h : Spec.double n = some v) (hv : 10 ^ 66 ≤ |v|) :
    65 < Spec.digitCount ((rustFloats z).f64 n) := by
  obtain ⟨h1, h2⟩ := abs_value isFormat_double hn h
  have hS := scale_pos f64Fmt
  have h0 : n % f64Fmt.signBit ≠ 0 := by
    intro h0
    rw [h0, f64Fmt.mag_zero, Nat.cast_zero] at h2
    rcases mul_eq_zero.1 h2.symm with h | h
    · rw [h] at hv; norm_num at hv
    · exact hS.ne' h
  show 65 < Spec.digitCount (f64Fmt.display z n)
  rw [(display_count z h1 h0).2]
  refine (fixed_count_large f64Fmt _ (by omega) ?_).2.2
  rw [h2]
  exact mul_le_mul_of_nonneg_right hv hS.le

/-- C125 fails for small DOUBLEs in SQL: 10^-100 is written with 101 digits. -/
theorem C125_small_false (z : Bool) :
    (rustFloats z).f64 0x2b2bff2ee48e0530 = asc "0." ++ List.replicate 99 0x30 ++ asc "1" ∧
      Spec.digitCount ((rustFloats z).f64 0x2b2bff2ee48e0530) = 101 := by
  cases z <;> decide +kernel

/-- C125 fails for a negative zero in SQL: whichever text it has, a server that takes the literal as an exact number gives the
column the zero without a sign. -/
theorem C125_negative_zero_false (z : Bool) (fl : FloatRead) (hfl : Spec.ReadsFloats fl) :
    (∃ l, Spec.literal ((rustFloats z).f64 (2 ^ 63)) = some (l, []) ∧ Spec.assign fl false .double l = some (.num 0)) ∧
      ∃ l, Spec.literal ((rustFloats z).f32 (2 ^ 31)) = some (l, []) ∧ Spec.assign fl false .float l = some (.num 0) := by
  have h : Spec.literal ((rustFloats z).f64 (2 ^ 63)) = some (.number 0 0, []) ∧
      Spec.literal ((rustFloats z).f32 (2 ^ 31)) = some (.number 0 0, []) := by
    cases z <;> decide +kernel
  refine ⟨⟨_, h.1, ?_⟩, ⟨_, h.2, ?_⟩⟩
  · simp only [Spec.assign, (hfl.zero 0).2]
  · simp only [Spec.assign, (hfl.zero 0).1]

/-- C125 fails for the largest FLOAT in SQL: its text is a number above it, which is out of the range of FLOAT columns. -/
theorem C125_largest_false (z : Bool) :
    Spec.single 0x7f7fffff = some (2 ^ 128 - 2 ^ 104) ∧
      (rustFloats z).f32 0x7f7fffff = asc "340282350000000000000000000000000000000" ∧
      (340282350000000000000000000000000000000 : ℚ) > 2 ^ 128 - 2 ^ 104 := by
  refine ⟨by decide +kernel, ?_, by norm_num⟩
  cases z <;> decide +kernel

/-- C125 fails for FLOATs in query results: a server writes them with six digits (MySQL manual, problems with floating-point
values), so the FLOAT 16777216 arrives as `16777200` and is read as another `f32` than from a prepared statement. -/
theorem C125_query_float_false (names : Bytes → Option Nat) :
    Spec.single 0x4b800000 = some 16777216 ∧ f32FromBinary (.float 0x4b800000) = .ok (some 0x4b800000) ∧
      f32FromText names (some (asc "16777200")) = .ok (some 0x4b7ffff0) := by
  refine ⟨by decide +kernel, rfl, ?_⟩
  have h : Spec.jsonNumber (asc "16777200") = some (.number false (asc "16777200") none none, []) := by
    rw [show asc "16777200" = [0x31, 0x36, 0x37, 0x37, 0x37, 0x32, 0x30, 0x30] by decide +kernel]; rfl
  have e : parseNumeral (asc "16777200") = some (16777200, 0) := by decide +kernel
  have hr : f32Fmt.round (16777200 * 10 ^ (0 : Int).toNat * 2 ^ f32Fmt.scale) (10 ^ (-(0 : Int)).toNat) = 0x4b7ffff0 := by
    decide +kernel
  have : parseFloat f32Fmt names (asc "16777200") = some 0x4b7ffff0 := by
    unfold parseFloat
    dsimp only
    rw [if_neg (by decide +kernel), e]
    dsimp only
    rw [hr, Option.map_some, if_neg (by decide +kernel)]
  unfold f32FromText fromText
  dsimp only
  rw [numberChars_ascii _ _ h, this]
  rfl

/-! ### cases -/

-- the texts of some numbers: 0.1, -2.5, 1e100, 5e-324 and the FLOAT 0.1
example : (rustFloats true).f64 0x3fb999999999999a = asc "0.1" ∧ (rustFloats true).f64 0xc004000000000000 = asc "-2.5" ∧
    (rustFloats true).f32 0x3dcccccd = asc "0.1" ∧ ryuText 0x54b249ad2594c37d = asc "1e100" ∧ ryuText 1 = asc "5e-324" ∧
    ryuText 0xc004000000000000 = asc "-2.5" ∧ ryuText 0x3fb999999999999a = asc "0.1" := by decide +kernel

-- they meet the hypotheses of the theorems about SQL
example : SqlWritable .double (.num 0x3fb999999999999a) ∧ SqlWritable .double (.num 0xc004000000000000) ∧
    SqlWritable .float (.num 0x3dcccccd) := by
  refine ⟨⟨⟨_, rfl, Or.inr ?_⟩, by decide⟩, ⟨⟨_, rfl, Or.inr ?_⟩, by decide⟩, ⟨⟨_, rfl, ?_⟩, by decide⟩⟩ <;> decide +kernel

-- and 1e100 those of `C125_large_false`
example : ∃ v, Spec.double 0x54b249ad2594c37d = some v ∧ 10 ^ 66 ≤ |v| := ⟨_, rfl, by decide +kernel⟩

-- the text of a query result: `-1.25e2` is read as the double -125
example (names : Bytes → Option Nat) : f64FromText names (some (asc "-1.25e2")) = .ok (some 0xc05f400000000000) := by
  refine (C125_query_binary names (asc "-1.25e2") (asc "1") true (some (asc "25")) (some (false, asc "2")) (-125)
    ?_ (by decide +kernel) ?_ _ ?_ (by decide +kernel)).1
  · rw [show asc "-1.25e2" = [0x2d, 0x31, 0x2e, 0x32, 0x35, 0x65, 0x32] by decide +kernel, show asc "1" = [0x31] by decide +kernel,
      show asc "25" = [0x32, 0x35] by decide +kernel, show asc "2" = [0x32] by decide +kernel]
    rfl
  · exact lt_trans (by norm_num) decimal_lt_limit
  · refine ⟨by decide, -125, by decide +kernel, fun m w _ _ _ => ⟨by simp, fun _ => rfl⟩⟩

end Mybin
