/-
C85: a JSON change record tells the change of the row it was made from.
-/
import Verif.Spec.JsonRead
import Verif.Props.C83
import Verif.Props.C81

namespace Mybin

open Spec (Covers Front logged ColKind Val Fits Lit Column Row Change Cell Image CellsFit Schema TableId JsonNumbers)

/-! ### base64 -/

theorem base64_index (n : Nat) (h : n < 64) : Spec.base64Index (Spec.base64Char n) = some n ∧ Spec.base64Char n ≠ 0x3d := by
  have : ∀ n < 64, Spec.base64Index (Spec.base64Char n) = some n ∧ Spec.base64Char n ≠ 0x3d := by decide +kernel
  exact this n h

theorem unbase64_base64 (b : Bytes) : Spec.unbase64 (Spec.base64 b) = some b := by
  have ofNat : ∀ (x : UInt8) (n : Nat), n = x.toNat → UInt8.ofNat n = x := by
    rintro x n rfl
    exact UInt8.ofNat_toNat
  induction b using Spec.base64.induct with
  | case1 => rfl
  | case2 a =>
    have ha := a.toNat_lt
    obtain ⟨h1, _⟩ := base64_index (a.toNat / 4) (by omega)
    obtain ⟨h2, _⟩ := base64_index (a.toNat % 4 * 16) (by omega)
    rw [Spec.base64, Spec.unbase64, h1, h2, Option.bind_some, Option.bind_some, if_pos rfl, if_pos ⟨rfl, rfl, by omega⟩,
      ofNat a _ (by omega)]
  | case3 a b =>
    have ha := a.toNat_lt
    have hb := b.toNat_lt
    obtain ⟨h1, _⟩ := base64_index (a.toNat / 4) (by omega)
    obtain ⟨h2, _⟩ := base64_index (a.toNat % 4 * 16 + b.toNat / 16) (by omega)
    obtain ⟨h3, h3'⟩ := base64_index (b.toNat % 16 * 4) (by omega)
    rw [Spec.base64, Spec.unbase64, h1, h2, Option.bind_some, Option.bind_some, if_neg h3', h3, Option.bind_some, if_pos rfl,
      if_pos ⟨rfl, by omega⟩, ofNat a _ (by omega), ofNat b _ (by omega)]
  | case4 a b c t ih =>
    have ha := a.toNat_lt
    have hb := b.toNat_lt
    have hc := c.toNat_lt
    obtain ⟨h1, _⟩ := base64_index (a.toNat / 4) (by omega)
    obtain ⟨h2, _⟩ := base64_index (a.toNat % 4 * 16 + b.toNat / 16) (by omega)
    obtain ⟨h3, h3'⟩ := base64_index (b.toNat % 16 * 4 + c.toNat / 64) (by omega)
    obtain ⟨h4, h4'⟩ := base64_index (c.toNat % 64) (by omega)
    rw [Spec.base64, Spec.unbase64, h1, h2, Option.bind_some, Option.bind_some, if_neg h3', h3, Option.bind_some,
      if_neg h4', h4, Option.bind_some, ih, ofNat a _ (by omega), ofNat b _ (by omega), ofNat c _ (by omega)]
    rfl

example : Spec.base64 (Spec.ascii "Many") = Spec.ascii "TWFueQ==" := by decide +kernel

/-! ### values -/

/-- The values whose JSON form denotes them: all but DATETIMEs with a fraction, dates that the calendar does not have,
BIT values of more than eight bits, DECIMALs with inner zeros, strings that are not UTF-8, and floats that are not finite
(FLOATs: that are not the same after widening and narrowing). -/
def JsonFine (lib : JsonLib) (jn : JsonNumbers) : ColKind → Val → Prop
  | .float, .num n => jsonFloat (lib.widen n) = some (.float (lib.widen n)) ∧ jn.narrow (lib.widen n) = n
  | .double, .num n => n / 2 ^ 52 % 2 ^ 11 ≠ 2 ^ 11 - 1
  | .date, .date y m d => Spec.dateOk y m d = true
  | .datetime2 _, .datetime y m d _ _ _ us => Spec.dateOk y m d = true ∧ us = 0
  | .bit n, .bytes b => b.length = 1 ∧ ∀ x ∈ b, x.toNat < 2 ^ n
  | .decimal p s, .decimal _ n => NoInnerZeros (p - s) s n
  | .varchar _, .bytes b | .char _, .bytes b => validUtf8 b = true
  | _, _ => True

/-- the JSON form of a date and time, with or without a fraction, is read as that date and time -/
theorem C85_datetime_text (t : MyDateTime) (hy : t.year < 10 ^ 4) (hm : t.month < 10 ^ 2) (hd : t.day < 10 ^ 2)
    (hh : t.hour < 24) (hmi : t.minute < 60) (hs : t.second < 60) (hu : t.micro < 10 ^ 6) (ct : ColumnType) (u : Bool)
    (lib : JsonLib) :
    ∃ s, toJsonValue lib ⟨ct, u, .dateTime t⟩ = some (.str s, false) ∧
      toJsonValue lib ⟨ct, u, .timestamp t⟩ = some (.str s, false) ∧
      Spec.readDateTime s = some ((t.year, t.month, t.day), t.hour, t.minute, t.second, t.micro) := by
  refine ⟨jsonDateTime t, rfl, rfl, ?_⟩
  have e : jsonDateTime t = dateTimeText t ++ microText t.micro := by
    unfold jsonDateTime dateTimeText microText
    by_cases h : t.micro = 0
    · rw [if_pos h, if_pos h, List.append_nil]
    · rw [if_neg h, if_neg h]; simp only [List.append_assoc]
  rw [e]
  exact readDateTime_text t t.micro hy hm hd hh hmi hs hu

theorem padText_two_three (h : Nat) (hh : h < 1000) : padText 2 h = padText (if 100 ≤ h then 3 else 2) h := by
  by_cases h1 : 100 ≤ h
  · rw [if_pos h1, padText_three h h1 hh, padText, natText_three h h1 hh]
    rfl
  · rw [if_neg h1]

/-- the JSON form of a time is read as that time -/
theorem C85_time_text (neg : Bool) (h mi s us : Nat) (hh : h < 1000) (hm : mi < 60) (hs : s < 60) (hu : us < 10 ^ 6)
    (ct : ColumnType) (u : Bool) (lib : JsonLib) :
    ∃ t, toJsonValue lib ⟨ct, u, .time ⟨neg, h / 24, h % 24, mi, s, us⟩⟩ = some (.str t, false) ∧
      Spec.readTime t = some (neg, h, mi, s, us) := by
  refine ⟨_, ?_, readTime_text neg h mi s us hh hm hs hu⟩
  have e : h / 24 * 24 + h % 24 = h := by omega
  simp only [toJsonValue, jsonTime, e]
  rw [if_neg (by omega), Option.map_some, ← padText_two_three h hh]
  unfold microText
  by_cases hz : us = 0
  · subst hz
    cases neg <;> simp [List.append_assoc]
  · have hz' : (us == 0) = false := by simpa using hz
    rw [if_neg hz, hz']
    cases neg <;> simp [List.append_assoc]

/-- Every such value: its JSON form is read as the value. -/
theorem json_denotes (lib : JsonLib) (hb : lib.base64 = Spec.base64) (jn : JsonNumbers) (c : Column) (v : Val)
    (x : BinlogColumnValue) (hk : c.kind.Ok) (hv : Fits c.kind v) (hs : Sound c.kind v) (hw : JsonFine lib jn c.kind v)
    (hd : Denotes c.kind v x) :
    ∃ p j enc, StmtColumnValue.ofBinlog x c.unsigned = some p ∧ toJsonValue lib p = some (j, enc) ∧
      Spec.jsonValue jn c enc j = some (some v) ∧ (enc = true ↔ ∃ p, c.kind = .blob p) := by
  obtain ⟨name, k, u, key⟩ := c
  dsimp only at *
  have int : ∀ (w n : Nat) (x : BinlogColumnValue), BinlogInt x w n → 0 < w → n < 2 ^ w →
      Spec.assign jn.round u k (.number (Spec.intValue w u n) 0) = Spec.storeInt w u (Spec.intValue w u n) →
      (∀ p, k ≠ .blob p) →
      ∃ p j enc, StmtColumnValue.ofBinlog x u = some p ∧ toJsonValue lib p = some (j, enc) ∧
        Spec.jsonValue jn ⟨name, k, u, key⟩ enc j = some (some (.num n)) ∧ (enc = true ↔ ∃ p, k = .blob p) := by
    intro w n x hx hw hn ha hb
    obtain ⟨p, e1, e2⟩ := C55_binlog_json lib x w n u hx
    refine ⟨p, _, _, e1, e2, ?_, by simp [hb]⟩
    simp only [Spec.jsonValue, ha]
    have : Spec.storeInt w u (Spec.intValue w u n) = some (.num n) := by
      unfold Spec.intValue
      cases u with
      | true => exact storeInt_unsigned w n hn
      | false => rw [if_neg (by decide), ← asSigned_eq_twos hw hn]; exact storeInt_signed w n hw hn
    rw [this]; rfl
  cases k <;> cases v <;> first
  | exact (show False from hd).elim
  | skip
  case tiny.num n =>
    simp only [Denotes] at hd; subst hd
    have hn : n < 2 ^ 8 := by simpa only [Fits] using hv
    exact int 8 n _ (.tiny n hn) (by omega) hn rfl (by simp)
  case short.num n =>
    simp only [Denotes] at hd; subst hd
    have hn : n < 2 ^ 16 := by simpa only [Fits] using hv
    exact int 16 n _ (.short n hn) (by omega) hn rfl (by simp)
  case int24.num n =>
    simp only [Denotes] at hd; subst hd
    have hn : n < 2 ^ 24 := by simpa only [Fits] using hv
    exact int 24 n _ (.int24 n hn) (by omega) hn rfl (by simp)
  case long.num n =>
    simp only [Denotes] at hd; subst hd
    have hn : n < 2 ^ 32 := by simpa only [Fits] using hv
    exact int 32 n _ (.long n hn) (by omega) hn rfl (by simp)
  case longLong.num n =>
    simp only [Denotes] at hd; subst hd
    have hn : n < 2 ^ 64 := by simpa only [Fits] using hv
    exact int 64 n _ (.longLong n hn) (by omega) hn rfl (by simp)
  case float.num n =>
    simp only [Denotes] at hd; subst hd
    obtain ⟨h1, h2⟩ := hw
    exact ⟨_, .float (lib.widen n), false, rfl, by simp only [toJsonValue, StmtColumnValue.newFloat, h1]; rfl,
      by simp only [Spec.jsonValue, h2], by simp⟩
  case double.num n =>
    simp only [Denotes] at hd; subst hd
    have hw : n / 2 ^ 52 % 2 ^ 11 ≠ 2 ^ 11 - 1 := hw
    refine ⟨_, .float n, false, rfl, ?_, by simp only [Spec.jsonValue], by simp⟩
    have hn : n < 2 ^ 64 := by simpa only [Fits] using hv
    simp only [toJsonValue, StmtColumnValue.newDouble, jsonFloat]
    rw [if_neg hw, Nat.mod_eq_of_lt hn]; rfl
  case year.year y =>
    simp only [Denotes] at hd; subst hd
    have hy : y = 0 ∨ (1901 ≤ y ∧ y ≤ 2155) := by simpa only [Fits] using hv
    refine ⟨_, .int y, false, rfl, ?_, ?_, by simp⟩
    · rfl
    · simp only [Spec.jsonValue, Spec.assign]
      rw [if_pos (by omega)]; rfl
  case date.date y m d =>
    simp only [Denotes] at hd; subst hd
    have hv : y ≤ 9999 ∧ m ≤ 12 ∧ d ≤ 31 := hv
    have hw : Spec.dateOk y m d = true := hw
    obtain ⟨b1, b2, b3, b4, b5⟩ := dateOk_bounds y m d hw
    refine ⟨StmtColumnValue.newDate ⟨y, m, d, 0, 0, 0, 0⟩, .str (dateText y m d), false, ?_, ?_, ?_, by simp⟩
    · simp only [StmtColumnValue.ofBinlog, chronoDateTime]
      rw [if_pos ⟨⟨b1, b2⟩, ⟨b3, b5⟩, by omega, by omega, by omega, by omega⟩]
      rfl
    · simp only [StmtColumnValue.newDate, toJsonValue]
      rw [asUnsigned_nat y (by omega), Nat.mod_eq_of_lt (by omega), Nat.mod_eq_of_lt (by omega)]
    · have e := readYmd_dateText y m d [] (by omega) (by omega) (by omega) noDigit_nil
      rw [List.append_nil] at e
      simp [Spec.jsonValue, Spec.assign, e, hw]
  case timestamp2.timestamp f secs us =>
    simp only [Denotes] at hd
    obtain ⟨rfl, rfl⟩ := hd
    have hv : secs < 2 ^ 32 ∧ _ := hv
    obtain ⟨y, m, d, h, mi, s, e, ok, h1970, hh, hmi, hss, he⟩ := chronoTimestamp_spec secs
    obtain ⟨b1, b2, b3, b4, b5⟩ := dateOk_bounds y m d ok
    have hy := year_of_seconds y m d h mi s (by omega)
    obtain ⟨t, e1, e2, e3⟩ := C85_datetime_text ⟨y, m, d, h, mi, s, 0⟩ (show y < 10 ^ 4 by omega) (show m < 10 ^ 2 by omega)
      (show d < 10 ^ 2 by omega) hh hmi hss (show 0 < 10 ^ 6 by norm_num) .timestamp false lib
    refine ⟨StmtColumnValue.newTimestamp ⟨y, m, d, h, mi, s, 0⟩, .str t, false, ?_, ?_, ?_, by simp⟩
    · simp only [StmtColumnValue.ofBinlog, e]
    · rw [← e2]
      simp only [StmtColumnValue.newTimestamp]
      rw [asUnsigned_nat y (by omega), Nat.mod_eq_of_lt (by omega), Nat.mod_eq_of_lt (by omega), Nat.mod_eq_of_lt (by omega),
        Nat.mod_eq_of_lt (by omega), Nat.mod_eq_of_lt (by omega)]
    · simp only [Spec.jsonValue, Spec.assign, e3, Option.bind_some, Bool.false_eq_true, if_false]
      rw [if_pos ⟨ok, hh, hmi, hss, h1970, by simp⟩, he]; rfl
  case datetime2.datetime f y m d h mi s us =>
    simp only [Denotes] at hd; subst hd
    obtain ⟨hw, rfl⟩ : Spec.dateOk y m d = true ∧ us = 0 := hw
    obtain ⟨v1, v2, v3, v4, v5, v6, v7, v8, v9⟩ : Spec.DateTimeOk f y m d h mi s 0 := hv
    obtain ⟨b1, b2, b3, b4, b5⟩ := dateOk_bounds y m d hw
    obtain ⟨t, e1, e2, e3⟩ := C85_datetime_text ⟨y, m, d, h, mi, s, 0⟩ (show y < 10 ^ 4 by omega) (show m < 10 ^ 2 by omega)
      (show d < 10 ^ 2 by omega) v4 v5 v6 (show 0 < 10 ^ 6 by norm_num) .timestamp false lib
    refine ⟨StmtColumnValue.newTimestamp ⟨y, m, d, h, mi, s, 0⟩, .str t, false, ?_, ?_, ?_, by simp⟩
    · simp only [StmtColumnValue.ofBinlog, chronoDateTime]
      rw [if_pos ⟨⟨b1, b2⟩, ⟨b3, b5⟩, by omega, by omega, by omega, by omega⟩]
      rfl
    · rw [← e2]
      simp only [StmtColumnValue.newTimestamp]
      rw [asUnsigned_nat y (by omega), Nat.mod_eq_of_lt (by omega), Nat.mod_eq_of_lt (by omega), Nat.mod_eq_of_lt (by omega),
        Nat.mod_eq_of_lt (by omega), Nat.mod_eq_of_lt (by omega)]
    · simp only [Spec.jsonValue, Spec.assign, e3, Option.bind_some, Bool.false_eq_true, if_false]
      rw [if_pos ⟨hw, v4, v5, v6, by simp⟩]; rfl
  case time2.time f neg h mi s us =>
    simp only [Denotes] at hd; subst hd
    obtain ⟨v1, v2, v3, ⟨v4, v5, v6⟩, v7⟩ : Spec.TimeOk f neg h mi s us := hv
    obtain ⟨t, e1, e2⟩ := C85_time_text neg h mi s us (by omega) v2 v3 v5 .time false lib
    refine ⟨_, .str t, false, rfl, e1, ?_, by simp⟩
    simp only [Spec.jsonValue, Spec.assign, e2, Option.bind_some, Bool.false_eq_true, if_false]
    rw [if_pos ⟨by omega, v2, v3, v6⟩]; rfl
  case bit.bytes n b =>
    simp only [Denotes] at hd; subst hd
    have hl : b.length = (n + 7) / 8 := by simpa only [Fits] using hv
    obtain ⟨h1, h2⟩ := hw
    obtain ⟨x, rfl⟩ := List.length_eq_one_iff.1 h1
    have hx := h2 x (by simp)
    refine ⟨_, .int x.toNat, false, rfl, ?_, ?_, by simp⟩
    · simp [toJsonValue, StmtColumnValue.newBit, bitSum]
    · simp only [Spec.jsonValue, Spec.assign]
      rw [if_pos ⟨by omega, by exact_mod_cast hx⟩, ← hl]
      have := x.toNat_lt
      simp [Spec.be, Spec.le]
  case decimal.decimal p s neg n =>
    obtain ⟨l, ⟨pp, text, quote, h1, h2, h3⟩, h4, h5⟩ := lit_decimal ⟨fun _ => [], fun _ => []⟩ jn.round p s neg n u x hk hv hs hw hd
    obtain ⟨ip, fp, rfl, -⟩ := hd
    simp only [StmtColumnValue.ofBinlog, Option.map_eq_some_iff] at h1
    obtain ⟨cs, h1, rfl⟩ := h1
    simp only [StmtColumnValue.toSqlLiteral, StmtColumnValue.newDecimal, Option.map_eq_some_iff, Prod.mk.injEq] at h2
    obtain ⟨t, h2, rfl, rfl⟩ := h2
    have h3 := h3 [] (Or.inl rfl)
    simp only [Spec.quotedIf, Bool.false_eq_true, if_false, List.append_nil] at h3
    refine ⟨_, .str t, false, by simp only [StmtColumnValue.ofBinlog, h1]; rfl, ?_, ?_, by simp⟩
    · simp only [toJsonValue, StmtColumnValue.newDecimal, h2]; rfl
    · simp only [Spec.jsonValue, Bool.false_eq_true, if_false, h3, Option.bind_some, if_true, h4]; rfl
  case enum.num p n =>
    simp only [Denotes] at hd; subst hd
    have hn : n < 256 ^ p := by simpa only [Fits] using hv
    refine ⟨_, .int n, false, rfl, ?_, ?_, by simp⟩
    · by_cases h : p = 1 <;> simp [toJsonValue, StmtColumnValue.newUnsignedBigint, h, MyEnum.toU64]
    · simp only [Spec.jsonValue, Spec.assign]
      rw [if_pos ⟨by omega, by exact_mod_cast hn⟩]; rfl
  case blob.bytes p b =>
    simp only [Denotes] at hd; subst hd
    have hn : b.length < 256 ^ p := by simpa only [Fits] using hv
    refine ⟨_, .str (Spec.base64 b), true, rfl, ?_, ?_, by simp⟩
    · rw [← hb]; rfl
    · simp only [Spec.jsonValue, if_true, unbase64_base64, Option.bind_some, Spec.assign]
      rw [if_pos hn]; rfl
  case varchar.bytes m b =>
    simp only [Denotes] at hd; subst hd
    have hn : b.length ≤ m := by simpa only [Fits] using hv
    have hw : validUtf8 b = true := hw
    refine ⟨_, .str b, false, rfl, ?_, ?_, by simp⟩
    · simp only [toJsonValue, StmtColumnValue.newVarstring, utf8Unwrap, hw, if_true]; rfl
    · simp only [Spec.jsonValue, Bool.false_eq_true, if_false, Spec.assign]
      rw [if_pos hn]; rfl
  case char.bytes m b =>
    simp only [Denotes] at hd; subst hd
    have hn : b.length ≤ m := by simpa only [Fits] using hv
    have hw : validUtf8 b = true := hw
    refine ⟨_, .str b, false, rfl, ?_, ?_, by simp⟩
    · simp only [toJsonValue, StmtColumnValue.newVarstring, utf8Unwrap, hw, if_true]; rfl
    · simp only [Spec.jsonValue, Bool.false_eq_true, if_false, Spec.assign]
      rw [if_pos hn]; rfl

/-- C85 for one value: for every value of every column kind that the decoder supports, in a signed or an unsigned column:
the bytes of the row image are decoded, and the JSON form of the decoded value is read as the value of the row. (Full
claim: every value. It fails for the values excluded by `Sound`, see C37, and by `JsonFine`, see below.) -/
theorem C85_value_partial (lib : JsonLib) (hb : lib.base64 = Spec.base64) (jn : JsonNumbers) (c : Column) (m : ColumnMeta)
    (v : Val) (hk : c.kind.Ok) (hm : metaOf c.kind = some m) (hv : Fits c.kind v) (hs : Sound c.kind v)
    (hw : JsonFine lib jn c.kind v) (rest : Bytes) :
    ∃ x p j enc, BinlogColumnValue.readFrom m (Spec.storeVal c.kind v ++ rest) = .ok x rest ∧
      StmtColumnValue.ofBinlog x c.unsigned = some p ∧ toJsonValue lib p = some (j, enc) ∧
      Spec.jsonValue jn c enc j = some (some v) := by
  obtain ⟨x, h1, h2⟩ := C37_decode_partial c.kind m v hk hm hv hs rest
  obtain ⟨p, j, enc, h3, h4, h5, -⟩ := json_denotes lib hb jn c v x hk hv hs hw h2
  exact ⟨x, p, j, enc, h1, h3, h4, h5⟩

/-! ### rows -/

/-- the column of the catalogue is this column of the table -/
def JDescribes (c : Column) (d : ColumnDefinition) : Prop := d.name = c.name ∧ d.flags.testBit 5 = c.unsigned

/-- The consumer knows the table: the columns of the log and of the catalogue, with different names. -/
structure KnownTable (schema : Schema) (db tbl : Bytes) (kinds : List ColKind) (defs : List ColumnDefinition)
    (cols : List Column) : Prop where
  has : schema (db, tbl) = some cols
  kinds : kinds = cols.map (·.kind)
  defs : List.Forall₂ JDescribes cols defs
  distinct : (cols.map (·.name)).Nodup
  some_col : cols ≠ []

/-- the image is of a row of the table, with all columns, and its values are decoded correctly and have a JSON form -/
def JImageGood (lib : JsonLib) (jn : JsonNumbers) (kinds : List ColKind) (cols : List Column) (r : Image) : Prop :=
  r.Ok kinds (full kinds) ∧ WidthCells kinds r.cells ∧
    ∀ y ∈ cols.zip r.cells, ∀ v, y.2 = .value v → Sound y.1.kind v ∧ JsonFine lib jn y.1.kind v

/-- a column that a consumer reads as base64 -/
def IsBlob (c : Column) : Prop := ∃ p, c.kind = .blob p

/-- the JSON form `j` of a column and value -/
def Tells (jn : JsonNumbers) (y : Column × Option Val) (j : Json × Bool) : Prop :=
  (∀ e, (y.2 ≠ none → (e = true ↔ IsBlob y.1)) → Spec.jsonValue jn y.1 e j.1 = some y.2) ∧
  (j.2 = true → IsBlob y.1) ∧ (y.2 ≠ none → IsBlob y.1 → j.2 = true)

theorem row_json (lib : JsonLib) (hb : lib.base64 = Spec.base64) (jn : JsonNumbers) (cols : List Column) :
    ∀ (defs : List ColumnDefinition) (cells : List Cell) (vs : List BinlogColumnValue),
    List.Forall₂ JDescribes cols defs → (∀ c ∈ cols, c.kind.Ok) →
    CellsFit (cols.map (·.kind)) cells → RowDenotes (cols.map (·.kind)) cells vs →
    (∀ y ∈ cols.zip cells, ∀ v, y.2 = .value v → Sound y.1.kind v ∧ JsonFine lib jn y.1.kind v) →
    ∃ js, List.Forall₂ (JsonOf lib) (defs.zip vs) js ∧
      jsonFields (defs.zip vs) js = (cols.zip js).map (fun z => (z.1.name, z.2.1)) ∧
      base64Names (defs.zip vs) js = ((cols.zip js).filter (·.2.2)).map (·.1.name) ∧
      List.Forall₂ (Tells jn) (cols.zip (cells.map Cell.val?)) js := by
  induction cols with
  | nil =>
    intro defs cells vs hd _ _ _ _
    cases hd
    exact ⟨[], .nil, rfl, rfl, .nil⟩
  | cons c cols ih =>
    intro defs cells vs hd hk hf hr hw
    cases hd with
    | @cons _ d _ defs hd1 hd2 =>
      cases cells with
      | nil => simp [RowDenotes] at hr
      | cons x cells =>
        cases vs with
        | nil => simp [RowDenotes] at hr
        | cons v vs =>
          obtain ⟨hr1, hr2⟩ := hr
          have hf2 : CellsFit (cols.map (·.kind)) cells := by
            cases x <;> simp only [List.map_cons, CellsFit] at hf
            · exact hf
            · exact hf
            · exact hf.2
          obtain ⟨js, h1, h2, h3, h4⟩ := ih defs cells vs hd2 (fun c h => hk c (List.mem_cons_of_mem _ h)) hf2 hr2
            (fun y hy => hw y (by rw [List.zip_cons_cons]; exact List.mem_cons_of_mem _ hy))
          have hnull : v = .null → Cell.val? x = none → ∃ j, JsonOf lib (d, v) j ∧ Tells jn (c, Cell.val? x) j := by
            rintro rfl hx
            refine ⟨(.null, false), ⟨_, rfl, rfl⟩, ?_⟩
            rw [hx]
            exact ⟨fun _ _ => rfl, by simp, fun h => absurd rfl h⟩
          obtain ⟨j, h5, h6⟩ : ∃ j, JsonOf lib (d, v) j ∧ Tells jn (c, Cell.val? x) j := by
            cases x with
            | absent => exact hnull hr1 rfl
            | null => exact hnull hr1 rfl
            | value w =>
              obtain ⟨hs, hwr⟩ := hw (c, .value w) (by simp) w rfl
              obtain ⟨p, j, enc, e1, e2, e3, e4⟩ := json_denotes lib hb jn c w v (hk c List.mem_cons_self) hf.1 hs hwr (hr1 hs)
              refine ⟨(j, enc), ⟨p, by rw [hd1.2]; exact e1, e2⟩, fun e he => ?_, e4.1, fun _ => e4.2⟩
              have : e = enc := by
                have he := he (by simp [Cell.val?])
                have e4 : enc = true ↔ IsBlob c := e4
                rw [Bool.eq_iff_iff, e4]; exact he
              subst this
              exact e3
          refine ⟨j :: js, .cons h5 h1, ?_, ?_, .cons h6 h4⟩
          · unfold jsonFields at h2 ⊢
            rw [List.zip_cons_cons, List.zip_cons_cons, List.zip_cons_cons, List.map_cons, List.map_cons, h2, hd1.1]
          · unfold base64Names at h3 ⊢
            rw [List.zip_cons_cons, List.zip_cons_cons, List.zip_cons_cons]
            cases hj : j.2
            · rw [List.filter_cons_of_neg (by simp [hj]), List.filter_cons_of_neg (by simp [hj])]; exact h3
            · rw [List.filter_cons_of_pos (by simp [hj]), List.filter_cons_of_pos (by simp [hj]), List.map_cons, List.map_cons,
                h3, hd1.1]

theorem find_nodup {β : Type} (l : List (Bytes × β)) (hn : (l.map (·.1)).Nodup) (x : Bytes × β) (hx : x ∈ l) :
    l.find? (fun f => decide (f.1 = x.1)) = some x := by
  induction l with
  | nil => cases hx
  | cons a l ih =>
    rw [List.map_cons, List.nodup_cons] at hn
    rcases List.mem_cons.1 hx with rfl | hx
    · rw [List.find?_cons_of_pos (by simp)]
    · rw [List.find?_cons_of_neg, ih hn.2 hx]
      simp only [decide_eq_true_eq]
      intro e
      exact hn.1 (e ▸ List.mem_map_of_mem hx)

/-- reading a row from its fields -/
theorem jsonRow_reads (jn : JsonNumbers) (enc : List Bytes) (fields : List (Bytes × Json)) (cols : List Column) :
    ∀ (row : Row) (js : List (Json × Bool)), row.length = cols.length → List.Forall₂ (Tells jn) (cols.zip row) js →
    (∀ z ∈ cols.zip js, fields.find? (fun f => decide (f.1 = z.1.name)) = some (z.1.name, z.2.1)) →
    (∀ y ∈ cols.zip row, y.2 ≠ none → (y.1.name ∈ enc ↔ IsBlob y.1)) →
    Spec.jsonRow jn enc fields cols = some row := by
  induction cols with
  | nil =>
    intro row js hl _ _ _
    rw [List.length_eq_zero_iff.1 hl]; rfl
  | cons c cols ih =>
    intro row js hl h hf he
    cases row with
    | nil => cases hl
    | cons v row =>
      rw [List.zip_cons_cons] at h
      cases h with
      | @cons _ j _ js h1 h2 =>
        rw [Spec.jsonRow, hf (c, j) (by simp), Option.bind_some,
          h1.1 (decide (c.name ∈ enc)) (by simpa using he (c, v) (by simp)), Option.bind_some,
          ih row js (by simpa using hl) h2 (fun z hz => hf z (by rw [List.zip_cons_cons]; exact List.mem_cons_of_mem _ hz))
            (fun y hy => he y (by rw [List.zip_cons_cons]; exact List.mem_cons_of_mem _ hy))]
        rfl

theorem forall₂_zip {α β : Type} {R : α → β → Prop} {l : List α} {m : List β} (h : List.Forall₂ R l m) :
    ∀ z ∈ l.zip m, R z.1 z.2 := by
  induction h with
  | nil => intro z hz; cases hz
  | cons h1 _ ih =>
    intro z hz
    rcases List.mem_cons.1 hz with rfl | hz
    · exact h1
    · exact ih z hz

/-- the columns of the fields -/
theorem fields_find (cols : List Column) (hn : (cols.map (·.name)).Nodup) (js : List (Json × Bool)) :
    ∀ z ∈ cols.zip js, ((cols.zip js).map fun z => (z.1.name, z.2.1)).find? (fun f => decide (f.1 = z.1.name))
      = some (z.1.name, z.2.1) := by
  intro z hz
  refine find_nodup _ ?_ (z.1.name, z.2.1) (List.mem_map_of_mem hz)
  have hs : (((cols.zip js).map fun z => (z.1.name, z.2.1)).map (·.1)).Sublist (cols.map (·.name)) := by
    rw [List.map_map]
    clear hz hn
    induction cols generalizing js with
    | nil => simp
    | cons c cols ih =>
      cases js with
      | nil => simp
      | cons j js =>
        rw [List.zip_cons_cons, List.map_cons, List.map_cons]
        exact (ih js).cons₂ _
  exact hs.nodup hn

/-- which names are listed as base64 -/
theorem listed_iff (jn : JsonNumbers) (cols : List Column) (row : Row) (js : List (Json × Bool))
    (hn : (cols.map (·.name)).Nodup) (hl : row.length = cols.length) (h : List.Forall₂ (Tells jn) (cols.zip row) js) :
    (∀ c ∈ cols, c.name ∈ ((cols.zip js).filter (·.2.2)).map (·.1.name) → IsBlob c) ∧
    (∀ y ∈ cols.zip row, y.2 ≠ none → IsBlob y.1 → y.1.name ∈ ((cols.zip js).filter (·.2.2)).map (·.1.name)) := by
  induction cols generalizing row js with
  | nil => exact ⟨fun c hc => (by cases hc), fun y hy => (by cases hy)⟩
  | cons c cols ih =>
    cases row with
    | nil => cases hl
    | cons v row =>
      rw [List.zip_cons_cons] at h
      cases h with
      | @cons _ j _ js h1 h2 =>
        rw [List.map_cons, List.nodup_cons] at hn
        obtain ⟨ih1, ih2⟩ := ih row js hn.2 (by simpa using hl) h2
        rw [List.zip_cons_cons, List.zip_cons_cons]
        have hmem : ∀ n, n ∈ ((cols.zip js).filter (·.2.2)).map (·.1.name) → n ∈ cols.map (·.name) := by
          intro n hn
          obtain ⟨z, hz, rfl⟩ := List.mem_map.1 hn
          exact List.mem_map_of_mem (List.of_mem_zip (List.mem_filter.1 hz).1).1
        refine ⟨?_, ?_⟩
        · intro d hd hm
          rcases List.mem_cons.1 hd with rfl | hd
          · cases hj : j.2
            · rw [List.filter_cons_of_neg (by simp [hj])] at hm
              exact absurd (hmem _ hm) hn.1
            · exact h1.2.1 hj
          · refine ih1 d hd ?_
            cases hj : j.2
            · rwa [List.filter_cons_of_neg (by simp [hj])] at hm
            · rw [List.filter_cons_of_pos (by simp [hj]), List.map_cons] at hm
              rcases List.mem_cons.1 hm with e | hm
              · exact absurd (e ▸ List.mem_map_of_mem hd) hn.1
              · exact hm
        · intro y hy hv hblob
          rcases List.mem_cons.1 hy with rfl | hy
          · rw [List.filter_cons_of_pos (by simpa using h1.2.2 hv hblob)]
            exact List.mem_cons_self
          · have := ih2 y hy hv hblob
            cases hj : j.2
            · rwa [List.filter_cons_of_neg (by simp [hj])]
            · rw [List.filter_cons_of_pos (by simp [hj]), List.map_cons]
              exact List.mem_cons_of_mem _ this

theorem jsonOf_unique (lib : JsonLib) {xs : List (ColumnDefinition × BinlogColumnValue)} {js js' : List (Json × Bool)}
    (h : List.Forall₂ (JsonOf lib) xs js) (h' : List.Forall₂ (JsonOf lib) xs js') : js = js' := by
  induction h generalizing js' with
  | nil => cases h'; rfl
  | cons h1 _ ih =>
    cases h' with
    | cons h2 h3 =>
      obtain ⟨p, a1, a2⟩ := h1
      obtain ⟨q, b1, b2⟩ := h2
      rw [a1] at b1
      cases b1
      rw [a2] at b2
      cases b2
      rw [ih h3]

theorem hasJson_of (lib : JsonLib) {xs : List (ColumnDefinition × BinlogColumnValue)} {js : List (Json × Bool)}
    (h : List.Forall₂ (JsonOf lib) xs js) : ∀ x ∈ xs, HasJson lib x.2 := by
  induction h with
  | nil => intro x hx; cases hx
  | @cons y j _ _ h1 _ ih =>
    intro x hx
    rcases List.mem_cons.1 hx with rfl | hx
    · exact (C83_json_value lib x.1 x.2).1 ⟨j, h1⟩
    · exact ih x hx

section Records

variable {lib : JsonLib} (hb : lib.base64 = Spec.base64) {jn : JsonNumbers} {schema : Schema} {db tbl : Bytes}
  {kinds : List ColKind} {defs : List ColumnDefinition} {cols : List Column}
  (hknow : KnownTable schema db tbl kinds defs cols) (hk : ∀ k ∈ kinds, k.Ok)

include hknow

theorem known_length : defs.length = kinds.length ∧ cols.length = kinds.length := by
  have h := hknow.defs.length_eq
  rw [hknow.kinds, List.length_map]
  exact ⟨h.symm, rfl⟩

theorem known_full : true ∈ full kinds := by
  have h := (known_length hknow).2
  have : 0 < cols.length := List.length_pos_iff.2 hknow.some_col
  exact List.mem_replicate.2 ⟨by omega, rfl⟩

theorem known_row (r : Image) (vs : List BinlogColumnValue) (hd : RowDenotes kinds r.cells vs) :
    (rowOf r).length = cols.length := by
  have := rowDenotes_length _ _ _ hd
  rw [hknow.kinds, List.length_map] at this
  rw [rowOf, List.length_map]; exact this.1

theorem known_nodup : (defs.map (·.name)).Nodup := by
  have : defs.map (·.name) = cols.map (·.name) := by
    have h := hknow.defs
    clear * - h
    induction h with
    | nil => rfl
    | cons h1 _ ih => rw [List.map_cons, List.map_cons, ih, h1.1]
  rw [this]; exact hknow.distinct

include hb hk

theorem known_json (r : Image) (vs : List BinlogColumnValue) (hr : JImageGood lib jn kinds cols r)
    (hd : RowDenotes kinds r.cells vs) :
    ∃ js, List.Forall₂ (JsonOf lib) (logged (full kinds) defs vs) js ∧
      jsonFields (logged (full kinds) defs vs) js = (cols.zip js).map (fun z => (z.1.name, z.2.1)) ∧
      base64Names (logged (full kinds) defs vs) js = ((cols.zip js).filter (·.2.2)).map (·.1.name) ∧
      List.Forall₂ (Tells jn) (cols.zip (rowOf r)) js := by
  rw [logged_all _ _ _ (known_length hknow).1.symm]
  have e := hknow.kinds
  subst e
  exact row_json lib hb jn cols defs r.cells vs hknow.defs (fun c hc => hk _ (List.mem_map_of_mem hc)) hr.1.1 hd hr.2.2

/-- the records of inserted or deleted rows -/
theorem records_read (make : List Bytes → List (Bytes × Json) → JsonRow) (change : Row → TableId × Change)
    (hmake : ∀ enc fields row, Spec.jsonRow jn enc fields cols = some row →
      Spec.jsonChange jn schema (make enc fields) = some (change row))
    (images : List Image) (decoded : List (List BinlogColumnValue)) (recs : List JsonRow)
    (hr : ∀ r ∈ images, JImageGood lib jn kinds cols r)
    (hd : List.Forall₂ (fun r vs => RowDenotes kinds r.cells vs) images decoded)
    (h : RecordsOwnValues lib defs (full kinds) make decoded recs) :
    recs.map (Spec.jsonChange jn schema) = images.map fun r => some (change (rowOf r)) := by
  unfold RecordsOwnValues at h
  induction hd generalizing recs with
  | nil => cases h; rfl
  | @cons r vs images decoded hd1 hd2 ih =>
    cases h with
    | @cons _ rec _ recs h1 h2 =>
      rw [List.map_cons, List.map_cons, ih recs (fun r hm => hr r (List.mem_cons_of_mem _ hm)) h2]
      congr 1
      obtain ⟨js', g1, rfl⟩ := h1
      obtain ⟨js, k1, k2, k3, k4⟩ := known_json hb hknow hk r vs (hr r List.mem_cons_self) hd1
      rw [jsonOf_unique lib g1 k1, k2, k3]
      have hl := known_row hknow r vs hd1
      obtain ⟨l1, l2⟩ := listed_iff jn cols (rowOf r) js hknow.distinct hl k4
      exact hmake _ _ _ (jsonRow_reads jn _ _ cols _ js hl k4 (fields_find cols hknow.distinct js)
        (fun y hy hv => ⟨l1 y.1 (List.of_mem_zip hy).1, l2 y hy hv⟩))

end Records

/-- C85 for inserted rows: every row event whose values are decoded correctly and have a JSON form is decoded, the
records are made, one for each row, and a consumer that knows the table reads in each the row that was inserted.
(Missing: events without some columns, see C54; values excluded by `JsonFine`.) -/
theorem C85_insert_partial (lib : JsonLib) (hb : lib.base64 = Spec.base64) (jn : JsonNumbers) (schema : Schema)
    (db tbl : Bytes) (kinds : List ColKind) (ms : List ColumnMeta) (defs : List ColumnDefinition) (cols : List Column)
    (hknow : KnownTable schema db tbl kinds defs cols) (hk : ∀ k ∈ kinds, k.Ok) (hm : kinds.map metaOf = ms.map some)
    (hn : kinds.length + 7 < 2 ^ 32) (extra bm : Bytes) (he : extra.length + 2 < 2 ^ 16) (hp : Covers bm (full kinds))
    (images : List Image) (hr : ∀ r ∈ images, JImageGood lib jn kinds cols r) :
    ∃ ev recs, RowsV2.readFrom (extra.length + 2) ms (Spec.rowsPayload kinds extra bm images) = .ok ev [] ∧
      JsonRows.fromInsert lib db tbl ev defs = some recs ∧
      recs.map (Spec.jsonChange jn schema) = images.map fun r => some ((db, tbl), .insert (rowOf r)) := by
  obtain ⟨decoded, h1, h2⟩ := C35_rows_partial kinds ms extra bm (full kinds) images hk hm hn he hp
    (List.length_replicate ..) (known_full hknow) (fun r h => ⟨(hr r h).1, (hr r h).2.1⟩)
  have hlen := known_length hknow
  have hfl : (full kinds).length = defs.length := by rw [List.length_replicate, hlen.1]
  have hrl : ∀ row ∈ decoded, row.length = defs.length := by
    intro row hrow
    obtain ⟨r, -, hd⟩ := forall₂_right h2 row hrow
    rw [(rowDenotes_length _ _ _ hd).2, hlen.1]
  obtain ⟨recs, h3⟩ := (C83_json_partial lib db tbl extra bm kinds.length (full kinds) defs decoded hp hfl (full_front kinds)
    hrl).1.2 (by
      intro row hrow
      obtain ⟨r, hrm, hd⟩ := forall₂_right h2 row hrow
      obtain ⟨js, k1, -⟩ := known_json hb hknow hk r row (hr r hrm) hd
      exact hasJson_of lib k1)
  refine ⟨_, recs, h1, h3, ?_⟩
  refine records_read hb hknow hk _ (fun row => ((db, tbl), .insert row)) ?_ images decoded recs hr h2
    (C54_insert_partial lib db tbl extra bm kinds.length (full kinds) defs decoded recs hp hfl (full_front kinds)
      (known_nodup hknow) hrl h3)
  intro enc fields row h
  unfold Spec.jsonChange
  simp only [hknow.has, Option.bind_some, if_true, h, Option.map_some]

/-- C85 for deleted rows -/
theorem C85_delete_partial (lib : JsonLib) (hb : lib.base64 = Spec.base64) (jn : JsonNumbers) (schema : Schema)
    (db tbl : Bytes) (kinds : List ColKind) (ms : List ColumnMeta) (defs : List ColumnDefinition) (cols : List Column)
    (hknow : KnownTable schema db tbl kinds defs cols) (hk : ∀ k ∈ kinds, k.Ok) (hm : kinds.map metaOf = ms.map some)
    (hn : kinds.length + 7 < 2 ^ 32) (extra bm : Bytes) (he : extra.length + 2 < 2 ^ 16) (hp : Covers bm (full kinds))
    (images : List Image) (hr : ∀ r ∈ images, JImageGood lib jn kinds cols r) :
    ∃ ev recs, RowsV2.readFrom (extra.length + 2) ms (Spec.rowsPayload kinds extra bm images) = .ok ev [] ∧
      JsonRows.fromDelete lib db tbl ev defs = some recs ∧
      recs.map (Spec.jsonChange jn schema) = images.map fun r => some ((db, tbl), .delete (rowOf r)) := by
  obtain ⟨decoded, h1, h2⟩ := C35_rows_partial kinds ms extra bm (full kinds) images hk hm hn he hp
    (List.length_replicate ..) (known_full hknow) (fun r h => ⟨(hr r h).1, (hr r h).2.1⟩)
  have hlen := known_length hknow
  have hfl : (full kinds).length = defs.length := by rw [List.length_replicate, hlen.1]
  have hrl : ∀ row ∈ decoded, row.length = defs.length := by
    intro row hrow
    obtain ⟨r, -, hd⟩ := forall₂_right h2 row hrow
    rw [(rowDenotes_length _ _ _ hd).2, hlen.1]
  obtain ⟨recs, h3⟩ := (C83_json_partial lib db tbl extra bm kinds.length (full kinds) defs decoded hp hfl (full_front kinds)
    hrl).2.2 (by
      intro row hrow
      obtain ⟨r, hrm, hd⟩ := forall₂_right h2 row hrow
      obtain ⟨js, k1, -⟩ := known_json hb hknow hk r row (hr r hrm) hd
      exact hasJson_of lib k1)
  refine ⟨_, recs, h1, h3, ?_⟩
  refine records_read hb hknow hk _ (fun row => ((db, tbl), .delete row)) ?_ images decoded recs hr h2
    (C54_delete_partial lib db tbl extra bm kinds.length (full kinds) defs decoded recs hp hfl (full_front kinds)
      (known_nodup hknow) hrl h3)
  intro enc fields row h
  unfold Spec.jsonChange
  simp only [hknow.has, Option.bind_some]
  rw [if_neg (by decide), if_pos trivial]
  simp only [h, Option.map_some]

/-- C85 for updated rows: both images -/
theorem C85_update_partial (lib : JsonLib) (hb : lib.base64 = Spec.base64) (jn : JsonNumbers) (schema : Schema)
    (db tbl : Bytes) (kinds : List ColKind) (ms : List ColumnMeta) (defs : List ColumnDefinition) (cols : List Column)
    (hknow : KnownTable schema db tbl kinds defs cols) (hk : ∀ k ∈ kinds, k.Ok) (hm : kinds.map metaOf = ms.map some)
    (hn : kinds.length + 7 < 2 ^ 32) (extra bb ab : Bytes) (he : extra.length + 2 < 2 ^ 16)
    (hbc : Covers bb (full kinds)) (hac : Covers ab (full kinds)) (images : List (Image × Image))
    (hr : ∀ r ∈ images, JImageGood lib jn kinds cols r.1 ∧ JImageGood lib jn kinds cols r.2) :
    ∃ ev recs, UpdateRowsV2.readFrom (extra.length + 2) ms (Spec.updatePayload kinds extra bb ab images) = .ok ev [] ∧
      JsonRows.fromUpdate lib db tbl ev defs = some recs ∧
      recs.map (Spec.jsonChange jn schema) = images.map fun r => some ((db, tbl), .update (rowOf r.1) (rowOf r.2)) := by
  obtain ⟨decoded, h1, h2⟩ := C35_update_rows_partial kinds ms extra bb ab (full kinds) (full kinds) images hk hm hn he hbc
    (List.length_replicate ..) hac (List.length_replicate ..) (Or.inl (known_full hknow))
    (fun r h => ⟨(hr r h).1.1, (hr r h).1.2.1, (hr r h).2.1, (hr r h).2.2.1⟩)
  have hlen := known_length hknow
  have hfl : (full kinds).length = defs.length := by rw [List.length_replicate, hlen.1]
  have hrl : ∀ row ∈ decoded, row.1.length = defs.length ∧ row.2.length = defs.length := by
    intro row hrow
    obtain ⟨r, -, hd⟩ := forall₂_right h2 row hrow
    rw [(rowDenotes_length _ _ _ hd.1).2, (rowDenotes_length _ _ _ hd.2).2, hlen.1]
    exact ⟨rfl, rfl⟩
  obtain ⟨recs, h3⟩ := (C83_json_update_partial lib db tbl extra bb ab kinds.length (full kinds) (full kinds) defs decoded hbc
    hfl (full_front kinds) hac hfl (full_front kinds) hrl).2 (by
      intro row hrow
      obtain ⟨r, hrm, hd⟩ := forall₂_right h2 row hrow
      obtain ⟨js, k1, -⟩ := known_json hb hknow hk r.1 row.1 (hr r hrm).1 hd.1
      obtain ⟨js', k2, -⟩ := known_json hb hknow hk r.2 row.2 (hr r hrm).2 hd.2
      exact ⟨hasJson_of lib k1, hasJson_of lib k2⟩)
  refine ⟨_, recs, h1, h3, ?_⟩
  have h4 := C54_update_partial lib db tbl extra bb ab kinds.length (full kinds) (full kinds) defs decoded recs hbc
    hfl (full_front kinds) hac hfl (full_front kinds) (known_nodup hknow) hrl h3
  clear h1 h3 hrl
  induction h2 generalizing recs with
  | nil => cases h4; rfl
  | @cons r vs images decoded hd1 hd2 ih =>
    cases h4 with
    | @cons _ rec _ recs h1 h2 =>
      rw [List.map_cons, List.map_cons, ih (fun r hm => hr r (List.mem_cons_of_mem _ hm)) recs h2]
      congr 1
      obtain ⟨bjs', ajs', g1, g2, rfl⟩ := h1
      obtain ⟨hr1, hr2⟩ := hr r List.mem_cons_self
      obtain ⟨js, k1, k2, k3, k4⟩ := known_json hb hknow hk r.1 vs.1 hr1 hd1.1
      obtain ⟨js2, q1, q2, q3, q4⟩ := known_json hb hknow hk r.2 vs.2 hr2 hd1.2
      rw [jsonOf_unique lib g1 k1, jsonOf_unique lib g2 q1, k2, k3, q2, q3]
      have hl := known_row hknow r.1 vs.1 hd1.1
      have hl2 := known_row hknow r.2 vs.2 hd1.2
      obtain ⟨l1, l2⟩ := listed_iff jn cols (rowOf r.1) js hknow.distinct hl k4
      obtain ⟨m1, m2⟩ := listed_iff jn cols (rowOf r.2) js2 hknow.distinct hl2 q4
      generalize hB : ((cols.zip js).filter (·.2.2)).map (·.1.name) = B at l1 l2
      generalize hA : ((cols.zip js2).filter (·.2.2)).map (·.1.name) = A at m1 m2
      have hblob : ∀ c ∈ cols, c.name ∈ B ++ A.filter (fun n => !B.contains n) → IsBlob c := by
        intro c hc hm
        rcases List.mem_append.1 hm with hm | hm
        · exact l1 c hc hm
        · exact m1 c hc (List.mem_filter.1 hm).1
      have e1 := jsonRow_reads jn (B ++ A.filter (fun n => !B.contains n)) _ cols _ js hl k4
        (fields_find cols hknow.distinct js)
        (fun y hy hv => ⟨hblob y.1 (List.of_mem_zip hy).1, fun hbl => List.mem_append_left _ (l2 y hy hv hbl)⟩)
      have e2 := jsonRow_reads jn (B ++ A.filter (fun n => !B.contains n)) _ cols _ js2 hl2 q4
        (fields_find cols hknow.distinct js2)
        (fun y hy hv => ⟨hblob y.1 (List.of_mem_zip hy).1, fun hbl => by
          by_cases hin : y.1.name ∈ B
          · exact List.mem_append_left _ hin
          · exact List.mem_append_right _ (List.mem_filter.2 ⟨m2 y hy hv hbl, by simpa using hin⟩)⟩)
      unfold Spec.jsonChange
      simp only [hknow.has, Option.bind_some]
      rw [if_neg (by decide), if_neg (by decide), if_pos trivial]
      simp only [e1, e2, Option.bind_some, Option.map_some]

/-! ### cases -/

theorem example_known : KnownTable (oneTable exampleCopy) (Spec.ascii "d") (Spec.ascii "t") [.long, .long] exampleCols exampleCopy where
  has := rfl
  kinds := rfl
  defs := .cons ⟨rfl, by decide⟩ (.cons ⟨rfl, by decide⟩ .nil)
  distinct := by decide
  some_col := by decide

/-- The hypotheses hold of the row (7, NULL), and the record of its insertion. -/
example (lib : JsonLib) (jn : JsonNumbers) :
    JImageGood lib jn [.long, .long] exampleCopy ⟨[.value (.num 7), .null], [2]⟩ ∧ Covers [3] (full [.long, .long]) ∧
    JsonRows.fromInsert lib (Spec.ascii "d") (Spec.ascii "t") ⟨[], 2, [3], [[.long 7, .null]]⟩ exampleCols
      = some [⟨Spec.ascii "insert", [], Spec.ascii "d", Spec.ascii "t", none,
          some [(Spec.ascii "id", .int 7), (Spec.ascii "a", .null)]⟩] ∧
    Spec.jsonChange jn (oneTable exampleCopy) ⟨Spec.ascii "insert", [], Spec.ascii "d", Spec.ascii "t", none,
        some [(Spec.ascii "id", .int 7), (Spec.ascii "a", .null)]⟩
      = some ((Spec.ascii "d", Spec.ascii "t"), .insert [some (.num 7), none]) := by
  refine ⟨⟨⟨⟨(by norm_num [Fits]), trivial⟩, rfl, covers_of [2] [false, true] rfl (by decide)⟩, ⟨trivial, trivial⟩, ?_⟩,
    covers_of [3] [true, true] rfl (by decide), (by with_unfolding_all rfl), (by with_unfolding_all rfl)⟩
  intro y hy v hv
  have hy : y ∈ [(Column.mk (Spec.ascii "id") .long false true, Cell.value (.num 7)),
    (Column.mk (Spec.ascii "a") .long false false, Cell.null)] := hy
  simp only [List.mem_cons, List.not_mem_nil, or_false] at hy
  rcases hy with rfl | rfl
  · exact ⟨trivial, trivial⟩
  · cases hv

/-- C85 fails for a DATETIME(6) with a fraction: the record of an inserted 2024-02-29 10:20:30.5 tells 10:20:30. -/
theorem C85_fraction_false (lib : JsonLib) (jn : JsonNumbers) :
    let cols : List Column := [⟨Spec.ascii "a", .datetime2 6, false, false⟩]
    ∃ ev recs, KnownTable (oneTable cols) (Spec.ascii "d") (Spec.ascii "t") [.datetime2 6] [exampleCol "a" 0] cols ∧
      RowsV2.readFrom 2 [.dateTime 6] (Spec.rowsPayload [.datetime2 6] [] [1] [⟨[.value (.datetime 2024 2 29 10 20 30 500000)], [0]⟩])
        = .ok ev [] ∧
      JsonRows.fromInsert lib (Spec.ascii "d") (Spec.ascii "t") ev [exampleCol "a" 0] = some recs ∧
      recs.map (Spec.jsonChange jn (oneTable cols))
        = [some ((Spec.ascii "d", Spec.ascii "t"), .insert [some (.datetime 2024 2 29 10 20 30 0)])] := by
  intro cols
  refine ⟨⟨[], 1, [1], [[.dateTime ⟨2024, 2, 29, 10, 20, 30, 500000⟩]]⟩, [⟨Spec.ascii "insert", [], Spec.ascii "d", Spec.ascii "t", none,
    some [(Spec.ascii "a", .str (Spec.ascii "2024-02-29 10:20:30"))]⟩], ⟨rfl, rfl, .cons ⟨rfl, by decide⟩ .nil, by decide, by decide⟩,
    by decide +kernel, (by with_unfolding_all rfl), (by with_unfolding_all rfl)⟩

/-- C85 fails for a BIT(16): the record of an inserted 258 tells 513, for the bytes are in the other order. -/
theorem C85_bit_false (lib : JsonLib) (jn : JsonNumbers) :
    let cols : List Column := [⟨Spec.ascii "a", .bit 16, false, false⟩]
    ∃ ev recs, KnownTable (oneTable cols) (Spec.ascii "d") (Spec.ascii "t") [.bit 16] [exampleCol "a" 0] cols ∧
      RowsV2.readFrom 2 [.bit 0 2] (Spec.rowsPayload [.bit 16] [] [1] [⟨[.value (.bytes [1, 2])], [0]⟩]) = .ok ev [] ∧
      JsonRows.fromInsert lib (Spec.ascii "d") (Spec.ascii "t") ev [exampleCol "a" 0] = some recs ∧
      recs.map (Spec.jsonChange jn (oneTable cols))
        = [some ((Spec.ascii "d", Spec.ascii "t"), .insert [some (.bytes [2, 1])])] := by
  intro cols
  refine ⟨⟨[], 1, [1], [[.bit [1, 2]]]⟩, [⟨Spec.ascii "insert", [], Spec.ascii "d", Spec.ascii "t", none,
    some [(Spec.ascii "a", .int 513)]⟩], ⟨rfl, rfl, .cons ⟨rfl, by decide⟩ .nil, by decide, by decide⟩,
    by decide +kernel, (by with_unfolding_all rfl), (by with_unfolding_all rfl)⟩

/-- C85 fails for the date 0000-00-00, that a server may store: no record is made, the program panics. -/
theorem C85_zero_date_false (lib : JsonLib) :
    ∃ ev, RowsV2.readFrom 2 [.date] (Spec.rowsPayload [.date] [] [1] [⟨[.value (.date 0 0 0)], [0]⟩]) = .ok ev [] ∧
      JsonRows.fromInsert lib (Spec.ascii "d") (Spec.ascii "t") ev [exampleCol "a" 0] = none :=
  ⟨⟨[], 1, [1], [[.date 0 0 0]]⟩, by decide +kernel, by with_unfolding_all rfl⟩

end Mybin
