/-
C22 COM_STMT_EXECUTE; C23 binary protocol values; C24 binary rows; C25 text rows.
-/
import Verif.Lemmas.Run
import Verif.Lemmas.Bitmap
import Verif.Lemmas.Times
import Verif.Lemmas.Well
import Verif.Spec.Columns
import Verif.Model.Stmt

namespace Mybin

/-! ### C23 -/

theorem readStrValue_spec (mk : Bytes → BinaryColumnValue) (s rest : Bytes) (h : s.length < 2 ^ 64) :
    readStrValue mk (Spec.lenEncStr s ++ rest) = .ok (mk s) rest := by
  unfold readStrValue; run

theorem readTime_spec (t : MyTime) (bs rest : Bytes) (h : Spec.TimeEnc t bs) :
    readTimeValue (bs ++ rest) = .ok (.time t) rest := by
  obtain ⟨⟨h1, h2, h3, h4, h5⟩, ⟨rfl, rfl⟩ | ⟨hm, rfl⟩ | rfl⟩ := h
  · unfold readTimeValue; run
  · unfold readTimeValue Spec.hms
    obtain ⟨n, d, h, m, s, u⟩ := t
    cases n <;> simp only at * <;> run <;> subst hm <;> rfl
  · unfold readTimeValue Spec.hms
    obtain ⟨n, d, h, m, s, u⟩ := t
    cases n <;> simp only at * <;> run <;> rfl

theorem readDateTime_spec (t : MyDateTime) (bs rest : Bytes) (h : Spec.DateTimeEnc t bs) :
    readDateTimeValue (bs ++ rest) = .ok (.dateTime t) rest := by
  obtain ⟨⟨h1, h2, h3, h4, h5, h6, h7⟩, ⟨rfl, rfl⟩ | ⟨⟨a, b, c, d⟩, rfl⟩ | ⟨hm, rfl⟩ | rfl⟩ := h
  · unfold readDateTimeValue; run
  all_goals
    unfold readDateTimeValue Spec.ymd
    obtain ⟨y, mo, dd, h, m, s, u⟩ := t
    simp only at *
    try unfold Spec.hms
    run
  · subst a b c d; rfl
  · subst hm; rfl

theorem readDate_spec (y m d : Nat) (bs rest : Bytes) (h : Spec.Encodes (.date y m d) bs) :
    readDateValue (bs ++ rest) = .ok (.date y m d) rest := by
  obtain ⟨⟨h1, h2, h3⟩, ⟨⟨rfl, rfl, rfl⟩, rfl⟩ | rfl⟩ := h
  · unfold readDateValue; run
  · unfold readDateValue Spec.ymd; run

/-- C23, reading: whichever of the protocol's encodings of a value is at hand, the decoder for any
column type with values of that form returns the value and leaves exactly what followed it. -/
theorem C23_read (ct : ColumnType) (v : BinaryColumnValue) (bs rest : Bytes)
    (ht : ct ∈ Spec.typesOf v) (he : Spec.Encodes v bs) :
    BinaryColumnValue.readFrom ct (bs ++ rest) = .ok v rest := by
  cases v <;> simp only [Spec.typesOf, List.mem_cons, List.not_mem_nil, or_false] at ht
  case null => subst ht; cases he; rfl
  case tiny n => subst ht; obtain ⟨h, rfl⟩ := he; unfold BinaryColumnValue.readFrom; run
  case short n => subst ht; obtain ⟨h, rfl⟩ := he; unfold BinaryColumnValue.readFrom; run
  case long n => subst ht; obtain ⟨h, rfl⟩ := he; unfold BinaryColumnValue.readFrom; run
  case float n => subst ht; obtain ⟨h, rfl⟩ := he; unfold BinaryColumnValue.readFrom; run
  case double n => subst ht; obtain ⟨h, rfl⟩ := he; unfold BinaryColumnValue.readFrom; run
  case longLong n => subst ht; obtain ⟨h, rfl⟩ := he; unfold BinaryColumnValue.readFrom; run
  case int24 n => subst ht; obtain ⟨h, rfl⟩ := he; unfold BinaryColumnValue.readFrom; run
  case date y m d => subst ht; exact readDate_spec y m d bs rest he
  case time t => rcases ht with rfl | rfl <;> exact readTime_spec t bs rest he
  case dateTime t => rcases ht with rfl | rfl | rfl | rfl <;> exact readDateTime_spec t bs rest he
  case year n => subst ht; obtain ⟨h, rfl⟩ := he; unfold BinaryColumnValue.readFrom; run
  case bit s => subst ht; obtain ⟨h, rfl⟩ := he; exact readStrValue_spec _ s rest h
  case newDecimal s =>
    obtain ⟨h, rfl⟩ := he
    rcases ht with rfl | rfl <;> exact readStrValue_spec _ s rest h
  case blob s =>
    obtain ⟨h, rfl⟩ := he
    rcases ht with rfl | rfl | rfl | rfl <;> exact readStrValue_spec _ s rest h
  case varString s =>
    obtain ⟨h, rfl⟩ := he
    rcases ht with rfl | rfl <;> exact readStrValue_spec _ s rest h
  case string s => subst ht; obtain ⟨h, rfl⟩ := he; exact readStrValue_spec _ s rest h
  case geometry s => subst ht; obtain ⟨h, rfl⟩ := he; exact readStrValue_spec _ s rest h

/-- The values the writer represents faithfully: strings not exactly 251 bytes long, no negative zero
time, no timestamp with a sub-second part. -/
def BinaryColumnValue.Writable : BinaryColumnValue → Prop
  | .bit s | .newDecimal s | .blob s | .varString s | .string s | .geometry s => s.length ≠ 251
  | .time t => t ≠ ⟨true, 0, 0, 0, 0, 0⟩
  | .timestamp t => t.micro = 0
  | _ => True

theorem or_eq_zero' {a b : Nat} : a ||| b = 0 ↔ a = 0 ∧ b = 0 := Nat.or_eq_zero_iff

theorem appends_mk {w : Bytes → Bytes × Nat} {ws : List (Bytes → Bytes × Nat)} {es : List Bytes}
    {e : Bytes} (hw : ∀ out, w out = writeSeq out ws) (h : List.Forall₂ Appends ws es)
    (he : es.flatten = e) : Appends w e := by
  subst he
  intro out
  rw [hw]; exact Appends.seq h out

theorem writeTime_spec (t : MyTime) (hr : t.InRange) (hw : t ≠ ⟨true, 0, 0, 0, 0, 0⟩) :
    ∃ bs, Appends (fun out => (BinaryColumnValue.time t).writeTo out) bs ∧ Spec.TimeEnc t bs := by
  obtain ⟨n, d, h, m, s, u⟩ := t
  by_cases hz : d ||| h ||| m ||| s ||| u = 0
  · refine ⟨Spec.u8 0, ?_, hr, Or.inl ⟨?_, rfl⟩⟩
    · intro out
      simp only [BinaryColumnValue.writeTo]
      rw [if_pos hz, writeU8_spec]
      rfl
    · simp only [or_eq_zero'] at hz
      obtain ⟨⟨⟨⟨rfl, rfl⟩, rfl⟩, rfl⟩, rfl⟩ := hz
      cases n
      · rfl
      · exact absurd rfl hw
  · by_cases hu : u = 0
    · refine ⟨_, appends_mk (fun out => ?_) (.cons (appends_u8 8) (.cons (appends_u8 (if n then 1 else 0))
        (.cons (appends_u32 d) (.cons (appends_u8 h) (.cons (appends_u8 m) (.cons (appends_u8 s)
        .nil)))))) rfl, hr, Or.inr (Or.inl ⟨hu, ?_⟩)⟩
      · simp only [BinaryColumnValue.writeTo]
        rw [if_neg hz, if_pos hu]
      · simp [Spec.hms]
    · refine ⟨_, appends_mk (fun out => ?_) (.cons (appends_u8 12) (.cons (appends_u8 (if n then 1 else 0))
        (.cons (appends_u32 d) (.cons (appends_u8 h) (.cons (appends_u8 m) (.cons (appends_u8 s)
        (.cons (appends_u32 u) .nil))))))) rfl, hr, Or.inr (Or.inr ?_)⟩
      · simp only [BinaryColumnValue.writeTo]
        rw [if_neg hz, if_neg hu]
      · simp [Spec.hms]

theorem writeDateTime_spec (t : MyDateTime) (hr : t.InRange) :
    ∃ bs, Appends (fun out => (BinaryColumnValue.dateTime t).writeTo out) bs ∧
      Spec.DateTimeEnc t bs := by
  obtain ⟨y, mo, dd, h, m, s, u⟩ := t
  by_cases hz : y ||| mo ||| dd ||| h ||| m ||| s ||| u = 0
  · refine ⟨Spec.u8 0, ?_, hr, Or.inl ⟨?_, rfl⟩⟩
    · intro out
      simp only [BinaryColumnValue.writeTo]
      rw [if_pos hz, writeU8_spec]
      rfl
    · simp only [or_eq_zero'] at hz
      obtain ⟨⟨⟨⟨⟨⟨rfl, rfl⟩, rfl⟩, rfl⟩, rfl⟩, rfl⟩, rfl⟩ := hz
      rfl
  · by_cases hd : h ||| m ||| s ||| u = 0
    · refine ⟨_, appends_mk (fun out => ?_) (.cons (appends_u8 4) (.cons (appends_u16 y)
        (.cons (appends_u8 mo) (.cons (appends_u8 dd) .nil)))) rfl, hr, Or.inr (Or.inl ⟨?_, ?_⟩)⟩
      · simp only [BinaryColumnValue.writeTo]
        rw [if_neg hz, if_pos hd]
      · simp only [or_eq_zero'] at hd
        tauto
      · simp [Spec.ymd]
    · by_cases hu : u = 0
      · refine ⟨_, appends_mk (fun out => ?_) (.cons (appends_u8 7) (.cons (appends_u16 y)
          (.cons (appends_u8 mo) (.cons (appends_u8 dd) (.cons (appends_u8 h) (.cons (appends_u8 m)
          (.cons (appends_u8 s) .nil))))))) rfl, hr, Or.inr (Or.inr (Or.inl ⟨hu, ?_⟩))⟩
        · simp only [BinaryColumnValue.writeTo]
          rw [if_neg hz, if_neg hd, if_pos hu]
        · simp [Spec.ymd, Spec.hms]
      · refine ⟨_, appends_mk (fun out => ?_) (.cons (appends_u8 11) (.cons (appends_u16 y)
          (.cons (appends_u8 mo) (.cons (appends_u8 dd) (.cons (appends_u8 h) (.cons (appends_u8 m)
          (.cons (appends_u8 s) (.cons (appends_u32 u) .nil)))))))) rfl, hr,
          Or.inr (Or.inr (Or.inr ?_))⟩
        · simp only [BinaryColumnValue.writeTo]
          rw [if_neg hz, if_neg hd, if_neg hu]
        · simp [Spec.ymd, Spec.hms]

/-- C23, writing: a writable value is written as one of its protocol encodings, and the reported
length is the number of bytes appended. -/
theorem C23_write_partial (v : BinaryColumnValue) (hr : v.InRange) (hw : v.Writable) :
    ∃ bs, Appends (fun out => v.writeTo out) bs ∧ Spec.Encodes v bs := by
  cases v
  case null => exact ⟨[], fun out => by simp [BinaryColumnValue.writeTo], rfl⟩
  case tiny n => exact ⟨_, appends_u8 n, hr, rfl⟩
  case short n => exact ⟨_, appends_u16 n, hr, rfl⟩
  case long n => exact ⟨_, appends_u32 n, hr, rfl⟩
  case float n => exact ⟨_, appends_f32 n, hr, rfl⟩
  case double n => exact ⟨_, appends_f64 n, hr, rfl⟩
  case longLong n => exact ⟨_, appends_u64 n, hr, rfl⟩
  case int24 n => exact ⟨_, appends_u32 n, hr, rfl⟩
  case year n => exact ⟨_, appends_u16 n, hr, rfl⟩
  case time t => exact writeTime_spec t hr hw
  case dateTime t => exact writeDateTime_spec t hr
  case bit s => exact ⟨_, appends_str s hw, hr, rfl⟩
  case newDecimal s => exact ⟨_, appends_str s hw, hr, rfl⟩
  case blob s => exact ⟨_, appends_str s hw, hr, rfl⟩
  case varString s => exact ⟨_, appends_str s hw, hr, rfl⟩
  case string s => exact ⟨_, appends_str s hw, hr, rfl⟩
  case geometry s => exact ⟨_, appends_str s hw, hr, rfl⟩
  case date y m d =>
    refine ⟨_, appends_mk (fun out => rfl) (.cons (appends_u8 4) (.cons (appends_u16 y)
      (.cons (appends_u8 m) (.cons (appends_u8 d) .nil)))) rfl, hr, Or.inr ?_⟩
    simp [Spec.ymd]
  case timestamp t =>
    refine ⟨_, appends_mk (fun out => rfl) (.cons (appends_u8 7) (.cons (appends_u16 t.year)
      (.cons (appends_u8 t.month) (.cons (appends_u8 t.day) (.cons (appends_u8 t.hour)
      (.cons (appends_u8 t.minute) (.cons (appends_u8 t.second) .nil))))))) rfl, hr,
      Or.inr (Or.inr (Or.inl ⟨hw, ?_⟩))⟩
    simp [Spec.ymd, Spec.hms]

/-- C23, round trip: writing a value after any bytes and reading it back with a matching column type,
whatever follows, gives the value and consumes exactly what was written. Missing from the full claim:
the values excluded by `Writable`, and `timestamp` values (no column type reads them back, see
`C23_timestamp_false`). -/
theorem C23_round_trip_partial (ct : ColumnType) (v : BinaryColumnValue) (out rest : Bytes)
    (hr : v.InRange) (hw : v.Writable) (ht : ct ∈ Spec.typesOf v) :
    ∃ bs, v.writeTo out = (out ++ bs, bs.length) ∧
      BinaryColumnValue.readFrom ct (bs ++ rest) = .ok v rest := by
  obtain ⟨bs, h1, h2⟩ := C23_write_partial v hr hw
  exact ⟨bs, h1 out, C23_read ct v bs rest ht h2⟩

example : ∃ (ct : ColumnType) (v : BinaryColumnValue), v.InRange ∧ v.Writable ∧ ct ∈ Spec.typesOf v ∧
    (v.writeTo []).1 = [12, 1, 3, 0, 0, 0, 23, 59, 58, 5, 0, 0, 0] :=
  ⟨.time2, .time ⟨true, 3, 23, 59, 58, 5⟩,
    by norm_num [BinaryColumnValue.InRange, MyTime.InRange], by simp [BinaryColumnValue.Writable],
    by simp [Spec.typesOf], by decide⟩

/-- C23 fails for strings of exactly 251 bytes: the value is read back as NULL. -/
theorem C23_blob_251_false (s rest : Bytes) (h : s.length = 251) :
    BinaryColumnValue.readFrom .blob (((BinaryColumnValue.blob s).writeTo []).1 ++ rest)
      = .ok .null (s ++ rest) := by
  have : ((BinaryColumnValue.blob s).writeTo []).1 = 0xfb :: s := by
    simp only [BinaryColumnValue.writeTo, LenEncStr.writeTo, h]
    rfl
  rw [this]
  rfl

/-- C23 fails for a negative zero time: the sign is lost. -/
theorem C23_negative_zero_time_false (rest : Bytes) :
    BinaryColumnValue.readFrom .time
      (((BinaryColumnValue.time ⟨true, 0, 0, 0, 0, 0⟩).writeTo []).1 ++ rest)
      = .ok (.time ⟨false, 0, 0, 0, 0, 0⟩) rest := rfl

/-- C23 fails for timestamps: a value read back as `dateTime`, and its microseconds are lost. -/
theorem C23_timestamp_false (t : MyDateTime) (hr : t.InRange) (rest : Bytes) :
    BinaryColumnValue.readFrom .timestamp (((BinaryColumnValue.timestamp t).writeTo []).1 ++ rest)
      = .ok (.dateTime { t with micro := 0 }) rest := by
  have hr' : ({ t with micro := 0 } : MyDateTime).InRange := by
    obtain ⟨h1, h2, h3, h4, h5, h6, h7⟩ := hr
    exact ⟨h1, h2, h3, h4, h5, h6, by norm_num⟩
  obtain ⟨bs, h1, h2⟩ := C23_write_partial (.timestamp { t with micro := 0 }) hr' rfl
  have h3 : (BinaryColumnValue.timestamp t).writeTo []
      = (BinaryColumnValue.timestamp { t with micro := 0 }).writeTo [] := rfl
  rw [h3, show (BinaryColumnValue.timestamp { t with micro := 0 }).writeTo [] = _ from h1 []]
  exact readDateTime_spec _ bs rest h2

/-- C23, no other length byte is accepted for dates and times. -/
theorem C23_bad_length (b : UInt8) (t : Bytes) :
    (b ≠ 0 → b ≠ 4 → readDateValue (b :: t) = .err .constraint t) ∧
    (b ≠ 0 → b ≠ 8 → b ≠ 12 → readTimeValue (b :: t) = .err .constraint t) ∧
    (b ≠ 0 → b ≠ 4 → b ≠ 7 → b ≠ 11 → readDateTimeValue (b :: t) = .err .constraint t) := by
  have ne : ∀ (n : Nat) (hn : n < 256), b ≠ UInt8.ofNat n → b.toNat ≠ n := by
    intro n hn h e
    apply h
    apply UInt8.toNat.inj
    rw [e, UInt8.toNat_ofNat', Nat.mod_eq_of_lt hn]
  have r : readU8 (b :: t) = .ok b.toNat t := rfl
  refine ⟨fun h0 h4 => ?_, fun h0 h8 h12 => ?_, fun h0 h4 h7 h11 => ?_⟩
  · unfold readDateValue
    step r
    rw [if_neg (ne 0 (by norm_num) h0), if_neg (ne 4 (by norm_num) h4)]
    rfl
  · unfold readTimeValue
    step r
    rw [if_neg (ne 0 (by norm_num) h0), if_neg (ne 8 (by norm_num) h8),
      if_neg (ne 12 (by norm_num) h12)]
    rfl
  · unfold readDateTimeValue
    step r
    rw [if_neg (ne 0 (by norm_num) h0), if_neg (ne 4 (by norm_num) h4),
      if_neg (ne 7 (by norm_num) h7), if_neg (ne 11 (by norm_num) h11)]
    rfl

/-! ### C20 (column types) -/

/-- MySQL's published column type codes -/
def Spec.columnTypeCodes : List (ColumnType × Nat) :=
  [(.decimal, 0), (.tiny, 1), (.short, 2), (.long, 3), (.float, 4), (.double, 5), (.null, 6),
   (.timestamp, 7), (.longLong, 8), (.int24, 9), (.date, 10), (.time, 11), (.dateTime, 12),
   (.year, 13), (.varchar, 15), (.bit, 16), (.timestamp2, 17), (.dateTime2, 18), (.time2, 19),
   (.newDecimal, 246), (.tinyBlob, 249), (.mediumBlob, 250), (.longBlob, 251), (.blob, 252),
   (.varString, 253), (.string, 254), (.geometry, 255)]

/-- C20: column types and codes correspond one to one as in MySQL's table, and all other codes are
rejected. -/
theorem C20_column_types (c : ColumnType) (n : Nat) :
    (c.toByte = n ↔ (c, n) ∈ Spec.columnTypeCodes) ∧
    (ColumnType.tryFrom n = some c ↔ (c, n) ∈ Spec.columnTypeCodes) ∧
    (ColumnType.tryFrom n = none ↔ ∀ c, (c, n) ∉ Spec.columnTypeCodes) := by
  have key : ∀ c, c.toByte = n ↔ (c, n) ∈ Spec.columnTypeCodes := by
    intro c
    cases c <;> simp [ColumnType.toByte, Spec.columnTypeCodes, eq_comm]
  have h1 : ∀ c : ColumnType, ColumnType.tryFrom c.toByte = some c := by
    intro c; cases c <;> rfl
  have h2 : ∀ c, ColumnType.tryFrom n = some c ↔ c.toByte = n := by
    intro c
    constructor
    · intro h
      unfold ColumnType.tryFrom at h
      split at h <;> first | (cases h; rfl) | cases h
    · rintro rfl; exact h1 c
  refine ⟨key c, (h2 c).trans (key c), ?_⟩
  rw [Option.eq_none_iff_forall_ne_some]
  exact forall_congr' fun c => not_congr ((h2 c).trans (key c))

/-! ### C24 -/

/-- One column of a row: its type, its value (`none` for NULL) and the bytes of the value. -/
structure Spec.BinCell where
  ct : ColumnType
  value : Option BinaryColumnValue
  bytes : List UInt8

/-- NULL has no bytes; any other value is of the column's type and encoded by the protocol -/
def Spec.BinCell.Ok (c : Spec.BinCell) : Prop :=
  match c.value with
  | none => c.bytes = []
  | some v => v ≠ .null ∧ c.ct ∈ Spec.typesOf v ∧ Spec.Encodes v c.bytes

theorem readCols_spec (bm : Bytes) (cells : List Spec.BinCell) (i : Nat) (rest : Bytes)
    (hok : ∀ c ∈ cells, c.Ok)
    (hbm : ∀ k c, cells[k]? = some c → Spec.bit? bm (i + k) = some c.value.isNone) :
    BinaryRow.readCols bm (cells.map (·.ct)) i ((cells.map (·.bytes)).flatten ++ rest)
      = .ok (cells.map (·.value.getD .null)) rest := by
  induction cells generalizing i with
  | nil => rfl
  | cons c cs ih =>
    have h0 := hbm 0 c rfl
    have hc := hok c (by simp)
    have hs := ih (i + 1) (fun x hx => hok x (by simp [hx])) (fun k x hk => by
      have := hbm (k + 1) x (by simpa using hk)
      rwa [show i + (k + 1) = i + 1 + k by omega] at this)
    simp only [List.map_cons, List.flatten_cons, List.append_assoc, BinaryRow.readCols,
      Bitmap.next_spec bm i _ h0]
    obtain ⟨ct, value, bytes⟩ := c
    cases value with
    | none =>
      have : bytes = [] := hc
      subst this
      simp only [Option.isNone_none, if_true, List.nil_append]
      rw [P.bind_apply, P.pure_apply, R.bind_ok]
      step hs
      rfl
    | some v =>
      obtain ⟨_, h2, h3⟩ := hc
      simp only [Option.isNone_some, Bool.false_eq_true, if_false]
      step (C23_read ct v bytes _ h2 h3)
      step hs
      rfl

/-- C24: for any columns and any values, the row laid out by the protocol (a header byte, a bitmap
whose bit `i + 2` marks column `i` as NULL, then the encodings of the other columns in order) decodes
to exactly those values, NULL at exactly the marked columns, and what follows is untouched. -/
theorem C24_decode (cells : List Spec.BinCell) (hdr : UInt8) (bm rest : Bytes)
    (hok : ∀ c ∈ cells, c.Ok) (hlen : bm.length = (cells.length + 9) / 8)
    (hbm : ∀ i c, cells[i]? = some c → Spec.bit? bm (i + 2) = some c.value.isNone) :
    BinaryRow.readFrom (cells.map (·.ct))
        ([hdr] ++ bm ++ (cells.map (·.bytes)).flatten ++ rest)
      = .ok (cells.map (·.value.getD .null)) rest := by
  have r : ∀ t, readU8 ([hdr] ++ t) = .ok hdr.toNat t := fun _ => rfl
  unfold BinaryRow.readFrom
  simp only [List.append_assoc]
  step (r _)
  step (readLen_append' _ bm _ (by
    rw [hlen, List.length_map, Bitmap.shr3]))
  exact readCols_spec bm cells 2 rest hok (fun k c hk => by rw [Nat.add_comm]; exact hbm k c hk)

/-- two columns, the second NULL, with an unused high bit of the bitmap set -/
example : BinaryRow.readFrom [.short, .blob] [0x00, 0x88, 0x39, 0x30, 0xaa]
    = .ok [.short 12345, .null] [0xaa] :=
  C24_decode [⟨.short, some (.short 12345), [0x39, 0x30]⟩, ⟨.blob, none, []⟩] 0 [0x88] [0xaa]
    (by
      intro c hc
      simp only [List.mem_cons, List.not_mem_nil, or_false] at hc
      rcases hc with rfl | rfl
      · exact ⟨by simp, by simp [Spec.typesOf], by norm_num, by decide⟩
      · rfl)
    rfl
    (by
      intro i c hc
      match i with
      | 0 => cases hc; decide
      | 1 => cases hc; decide
      | _ + 2 => simp at hc)

/-- the bitmap positions of a decoded row -/
theorem readCols_shape (bm : Bytes) (cts : List ColumnType) (i : Nat) (inp : Bytes)
    (row : List BinaryColumnValue) (rest : Bytes) (hl : i + cts.length ≤ 8 * bm.length)
    (h : BinaryRow.readCols bm cts i inp = .ok row rest) :
    row.length = cts.length ∧
      ∀ k, k < cts.length → Spec.bit? bm (i + k) = some true → row[k]? = some .null := by
  induction cts generalizing i inp row with
  | nil =>
    cases h
    exact ⟨rfl, fun k hk => by simp at hk⟩
  | cons ct cts ih =>
    have hl' : i + (cts.length + 1) ≤ 8 * bm.length := by simpa using hl
    obtain ⟨b, hb⟩ : ∃ b, Spec.bit? bm i = some b := by
      rw [← Option.isSome_iff_exists, Bitmap.bit?_isSome]; omega
    rw [BinaryRow.readCols, Bitmap.next_spec bm i b hb] at h
    simp only [P.bind_apply] at h
    cases hc : (if b = true then pure BinaryColumnValue.null
        else BinaryColumnValue.readFrom ct : P _) inp with
    | ok v r =>
      rw [hc, R.bind_ok, P.bind_apply] at h
      cases hr : BinaryRow.readCols bm cts (i + 1) r with
      | ok vs r' =>
        rw [hr] at h
        cases h
        obtain ⟨h1, h2⟩ := ih (i + 1) r vs (by omega) hr
        refine ⟨by simp [h1], fun k hk hbit => ?_⟩
        cases k with
        | zero =>
          rw [Nat.add_zero, hb] at hbit
          cases hbit
          rw [if_pos rfl] at hc
          cases hc
          rfl
        | succ k =>
          rw [List.getElem?_cons_succ]
          exact h2 k (by simpa using hk) (by rwa [show i + 1 + k = i + (k + 1) by omega])
      | err e r' => rw [hr] at h; cases h
      | panic => rw [hr] at h; cases h
      | hang => rw [hr] at h; cases h
    | err e r => rw [hc] at h; cases h
    | panic => rw [hc] at h; cases h
    | hang => rw [hc] at h; cases h

/-- C24, for any bytes at all: a decoded row has one value per column, and every column marked in the
bitmap is NULL. -/
theorem C24_shape (cts : List ColumnType) (inp rest : Bytes) (row : List BinaryColumnValue)
    (h : BinaryRow.readFrom cts inp = .ok row rest) :
    row.length = cts.length ∧
    ∃ hdr bm t, inp = hdr :: (bm ++ t) ∧ bm.length = (cts.length + 9) / 8 ∧
      ∀ i, i < cts.length → Spec.bit? bm (i + 2) = some true → row[i]? = some .null := by
  cases inp with
  | nil => cases h
  | cons hdr t =>
    have r : readU8 (hdr :: t) = .ok hdr.toNat t := rfl
    rw [BinaryRow.readFrom, P.bind_apply, r, R.bind_ok, P.bind_apply, readLen] at h
    split at h
    · cases h
    · rename_i hlen
      rw [R.bind_ok] at h
      rw [Bitmap.shr3] at hlen h
      clear r
      have hl : (t.take ((cts.length + 7 + 2) / 8)).length = (cts.length + 9) / 8 := by
        rw [List.length_take]; omega
      obtain ⟨h1, h2⟩ := readCols_shape _ cts 2 _ row rest (by rw [hl]; omega) h
      exact ⟨h1, hdr, t.take ((cts.length + 7 + 2) / 8), t.drop ((cts.length + 7 + 2) / 8),
        by rw [List.take_append_drop], hl,
        fun i hi hb => h2 i hi (by rwa [Nat.add_comm i 2] at hb)⟩

theorem Well.strValue (mk : Bytes → BinaryColumnValue) : Well (readStrValue mk) := by
  unfold readStrValue; well

theorem Well.binaryValue (ct : ColumnType) (h : ct ≠ .double) :
    Well (BinaryColumnValue.readFrom ct) := by
  cases ct <;> unfold BinaryColumnValue.readFrom <;>
    first
    | exact absurd rfl h
    | exact Well.strValue _
    | (unfold readTimeValue; well; done)
    | (unfold readDateTimeValue; well; done)
    | (unfold readDateValue; well; done)
    | (well; done)

/-- C24: decoding a row of any bytes ends with a row or an error, provided no column is a DOUBLE
(whose reader panics on a short input, see `C24_double_panics_false`). -/
theorem C24_no_panic_partial (cts : List ColumnType) (h : .double ∉ cts) :
    Well (BinaryRow.readFrom cts) := by
  unfold BinaryRow.readFrom
  have key : ∀ (cts : List ColumnType) (bm : Bytes) (i : Nat), .double ∉ cts →
      i + cts.length ≤ 8 * bm.length → Well (BinaryRow.readCols bm cts i) := by
    intro cts
    induction cts with
    | nil => intro bm i _ _; exact Well.pure _
    | cons ct cts ih =>
      intro bm i hd hl
      simp only [List.mem_cons, not_or, List.length_cons] at hd hl
      obtain ⟨b, hb⟩ : ∃ b, Spec.bit? bm i = some b := by
        rw [← Option.isSome_iff_exists, Bitmap.bit?_isSome]; omega
      rw [BinaryRow.readCols, Bitmap.next_spec bm i b hb]
      refine Well.bind (Well.ite (fun _ => Well.pure _)
        (fun _ => Well.binaryValue ct (fun e => hd.1 e.symm))) fun _ =>
        Well.bind (ih bm (i + 1) hd.2 (by omega)) fun _ => Well.pure _
  intro bs
  cases bs with
  | nil => exact List.suffix_refl _
  | cons b t =>
    have r : readU8 (b :: t) = .ok b.toNat t := rfl
    rw [P.bind_apply, r, R.bind_ok, P.bind_apply, readLen]
    by_cases hlen : t.length < (cts.length + 7 + 2) >>> 3
    · rw [if_pos hlen]
      exact List.suffix_cons _ _
    · rw [if_neg hlen]
      rw [Bitmap.shr3] at hlen
      rw [Bitmap.shr3, R.bind_ok]
      have hl : (t.take ((cts.length + 7 + 2) / 8)).length = (cts.length + 9) / 8 := by
        rw [List.length_take]; omega
      have := key cts (t.take ((cts.length + 7 + 2) / 8)) 2 h (by rw [hl]; omega)
        (t.drop ((cts.length + 7 + 2) / 8))
      have hsuf : t.drop ((cts.length + 7 + 2) / 8) <:+ b :: t :=
        (List.drop_suffix _ _).trans (List.suffix_cons _ _)
      revert this
      cases BinaryRow.readCols (t.take ((cts.length + 7 + 2) / 8)) cts 2
        (t.drop ((cts.length + 7 + 2) / 8)) with
      | ok a r => exact fun h => h.trans hsuf
      | err e r => exact fun h => h.trans hsuf
      | panic => exact id
      | hang => exact id

/-- C24 fails for DOUBLE columns: a row cut short inside the value makes the decoder panic. -/
theorem C24_double_panics_false : BinaryRow.readFrom [.double] [0x00, 0x00, 1, 2, 3, 4, 5] = .panic :=
  rfl

/-! ### C25 -/

/-- a text column on the wire: 0xfb for NULL, otherwise a length-encoded string -/
def Spec.textValue : Option (List UInt8) → List UInt8
  | none => u8 0xfb
  | some s => lenEncStr s

theorem readTextValue_spec (v : Option Bytes) (rest : Bytes) (h : ∀ s, v = some s → s.length < 2 ^ 64) :
    readTextValue (Spec.textValue v ++ rest) = .ok v rest := by
  cases v with
  | none => rfl
  | some s =>
    have := h s rfl
    unfold readTextValue Spec.textValue
    run

/-- C25: `n` optional byte strings laid out by the protocol decode to the same `n` values (NULL and
the empty string differ), and nothing after them is read. -/
theorem C25_decode (vs : List (Option Bytes)) (rest : Bytes)
    (h : ∀ s, some s ∈ vs → s.length < 2 ^ 64) (hn : vs.length * 32 < 2 ^ 63) :
    TextRow.readFrom vs.length ((vs.map Spec.textValue).flatten ++ rest) = .ok vs rest := by
  unfold TextRow.readFrom
  step (withCapacity_ok _ _ hn _)
  have := P.times_spec readTextValue Spec.textValue id vs
    (fun v hv t => readTextValue_spec v t (fun s hs => h s (hs ▸ hv))) rest
  simpa using this

example : TextRow.readFrom 3 [0xfb, 0x00, 0x02, 0x61, 0x62, 0xff]
    = .ok [none, some [], some [0x61, 0x62]] [0xff] := by
  have := C25_decode [none, some [], some [0x61, 0x62]] [0xff]
    (by intro s hs; simp at hs; rcases hs with rfl | rfl <;> simp) (by norm_num)
  exact this

theorem times_length {α : Type} (p : P α) (n : Nat) (bs rest : Bytes) (l : List α)
    (h : P.times p n bs = .ok l rest) : l.length = n := by
  induction n generalizing bs l with
  | zero => cases h; rfl
  | succ n ih =>
    rw [P.times, P.bind_apply] at h
    cases hp : p bs with
    | ok a r =>
      rw [hp, R.bind_ok, P.bind_apply] at h
      cases ht : P.times p n r with
      | ok as r' => rw [ht] at h; cases h; simp [ih r as ht]
      | err e r' => rw [ht] at h; cases h
      | panic => rw [ht] at h; cases h
      | hang => rw [ht] at h; cases h
    | err e r => rw [hp] at h; cases h
    | panic => rw [hp] at h; cases h
    | hang => rw [hp] at h; cases h

/-- C25, any bytes: a decoded text row has exactly `n` columns. -/
theorem C25_row_length (n : Nat) (bs rest : Bytes) (row : List (Option Bytes))
    (h : TextRow.readFrom n bs = .ok row rest) : row.length = n := by
  unfold TextRow.readFrom at h
  rw [P.bind_apply] at h
  unfold withCapacity at h
  split at h
  · exact times_length _ n bs rest row h
  · cases h

/-- C25, any bytes: decoding ends with a row or an error. -/
theorem C25_no_panic (n : Nat) (hn : n * 32 < 2 ^ 63) : Well (TextRow.readFrom n) := by
  unfold TextRow.readFrom
  refine Well.bind (fun bs => by rw [withCapacity_ok _ _ hn bs])
    fun _ => Well.times ?_ n
  unfold readTextValue
  well

/-! ### C22 -/

/-- the meaning of a parameter value for the server: timestamps and datetimes are the same thing -/
def Spec.meaning : BinaryColumnValue → BinaryColumnValue
  | .timestamp t => .dateTime t
  | v => v

/-- what the server should see of a parameter -/
def Spec.serverParam (p : StmtColumnValue) : Spec.ServerParam :=
  ⟨p.colType.toByte, p.unsigned, if p.val = .null then none else some (Spec.meaning p.val)⟩

/-- The parameter's declared type is a type of its value, its fields are in range, and the value is one
the writer represents faithfully. -/
def StmtColumnValue.Sound (p : StmtColumnValue) : Prop :=
  p.val.InRange ∧ p.val.Writable ∧ p.colType ∈ Spec.typesOf (Spec.meaning p.val)

theorem paramValue_spec (ct : ColumnType) (v : BinaryColumnValue) (bs rest : Bytes)
    (ht : ct ∈ Spec.typesOf (Spec.meaning v)) (he : Spec.Encodes v bs) :
    Spec.D.paramValue ct.toByte (bs ++ rest) = some (Spec.meaning v, rest) := by
  have str : ∀ (mk : Bytes → BinaryColumnValue) (s : Bytes), s.length < 2 ^ 64 →
      Spec.D.lenEncValue mk (Spec.lenEncStr s ++ rest) = some (mk s, rest) := by
    intro mk s h; unfold Spec.D.lenEncValue; drun
  have dt : ∀ (t : MyDateTime), Spec.DateTimeEnc t bs →
      Spec.D.dateTimeValue (bs ++ rest) = some (.dateTime t, rest) := by
    rintro t ⟨⟨h1, h2, h3, h4, h5, h6, h7⟩, ⟨rfl, rfl⟩ | ⟨⟨a, b, c, d⟩, rfl⟩ | ⟨hm, rfl⟩ | rfl⟩
    · unfold Spec.D.dateTimeValue; drun
    all_goals
      unfold Spec.D.dateTimeValue Spec.ymd
      obtain ⟨y, mo, dd, h, m, s, u⟩ := t
      simp only at *
      try unfold Spec.hms
      drun
    · subst a b c d; rfl
    · subst hm; rfl
  cases v <;> simp only [Spec.meaning, Spec.typesOf, List.mem_cons, List.not_mem_nil, or_false] at ht
  case null => subst ht; cases he; rfl
  case tiny n =>
    subst ht; obtain ⟨h, rfl⟩ := he
    show (do return BinaryColumnValue.tiny (← Spec.D.u8) : Spec.D BinaryColumnValue) _ = _
    drun; rfl
  case short n =>
    subst ht; obtain ⟨h, rfl⟩ := he
    show (do return BinaryColumnValue.short (← Spec.D.le 2) : Spec.D BinaryColumnValue) _ = _
    drun; rfl
  case long n =>
    subst ht; obtain ⟨h, rfl⟩ := he
    show (do return BinaryColumnValue.long (← Spec.D.le 4) : Spec.D BinaryColumnValue) _ = _
    drun; rfl
  case float n =>
    subst ht; obtain ⟨h, rfl⟩ := he
    show (do return BinaryColumnValue.float (← Spec.D.le 4) : Spec.D BinaryColumnValue) _ = _
    drun; rfl
  case double n =>
    subst ht; obtain ⟨h, rfl⟩ := he
    show (do return BinaryColumnValue.double (← Spec.D.le 8) : Spec.D BinaryColumnValue) _ = _
    drun; rfl
  case longLong n =>
    subst ht; obtain ⟨h, rfl⟩ := he
    show (do return BinaryColumnValue.longLong (← Spec.D.le 8) : Spec.D BinaryColumnValue) _ = _
    drun; rfl
  case int24 n =>
    subst ht; obtain ⟨h, rfl⟩ := he
    show (do return BinaryColumnValue.int24 (← Spec.D.le 4) : Spec.D BinaryColumnValue) _ = _
    drun; rfl
  case year n =>
    subst ht; obtain ⟨h, rfl⟩ := he
    show (do return BinaryColumnValue.year (← Spec.D.le 2) : Spec.D BinaryColumnValue) _ = _
    drun; rfl
  case date y m d =>
    subst ht
    show Spec.D.dateValue _ = _
    obtain ⟨⟨h1, h2, h3⟩, ⟨⟨rfl, rfl, rfl⟩, rfl⟩ | rfl⟩ := he
    · unfold Spec.D.dateValue; drun; rfl
    · unfold Spec.D.dateValue Spec.ymd; drun; rfl
  case time t =>
    have key : Spec.D.timeValue (bs ++ rest) = some (.time t, rest) := by
      obtain ⟨⟨h1, h2, h3, h4, h5⟩, ⟨rfl, rfl⟩ | ⟨hm, rfl⟩ | rfl⟩ := he
      · unfold Spec.D.timeValue; drun
      · unfold Spec.D.timeValue Spec.hms
        obtain ⟨n, d, h, m, s, u⟩ := t
        cases n <;> simp only at * <;> drun <;> subst hm <;> rfl
      · unfold Spec.D.timeValue Spec.hms
        obtain ⟨n, d, h, m, s, u⟩ := t
        cases n <;> simp only at * <;> drun <;> rfl
    rcases ht with rfl | rfl <;> exact key
  case dateTime t => rcases ht with rfl | rfl | rfl | rfl <;> exact dt t he
  case timestamp t => rcases ht with rfl | rfl | rfl | rfl <;> exact dt t he
  case bit s => subst ht; obtain ⟨h, rfl⟩ := he; exact str _ s h
  case newDecimal s =>
    obtain ⟨h, rfl⟩ := he
    rcases ht with rfl | rfl <;> exact str _ s h
  case blob s =>
    obtain ⟨h, rfl⟩ := he
    rcases ht with rfl | rfl | rfl | rfl <;> exact str _ s h
  case varString s =>
    obtain ⟨h, rfl⟩ := he
    rcases ht with rfl | rfl <;> exact str _ s h
  case string s => subst ht; obtain ⟨h, rfl⟩ := he; exact str _ s h
  case geometry s => subst ht; obtain ⟨h, rfl⟩ := he; exact str _ s h

theorem toByte_lt (ct : ColumnType) : ct.toByte < 256 := by cases ct <;> decide

theorem sound_null (p : StmtColumnValue) (h : p.Sound) : p.isNull = (decide (p.val = .null)) := by
  obtain ⟨-, -, ht⟩ := h
  obtain ⟨ct, u, v⟩ := p
  cases v <;> simp only [Spec.meaning, Spec.typesOf, List.mem_cons, List.not_mem_nil, or_false] at ht
  all_goals first
    | (rcases ht with rfl | rfl | rfl | rfl <;> rfl)
    | (rcases ht with rfl | rfl <;> rfl)
    | (subst ht; rfl)

theorem paramValues_spec (bm : Bytes) (ps : List StmtColumnValue) (i : Nat) (rest : Bytes)
    (enc : StmtColumnValue → Bytes) (hs : ∀ p ∈ ps, p.Sound)
    (he : ∀ p ∈ ps, Spec.Encodes p.val (enc p))
    (hbm : ∀ k p, ps[k]? = some p → Spec.bit? bm (i + k) = some p.isNull) :
    Spec.D.paramValues bm (ps.map fun p => (p.colType.toByte, p.unsigned)) i
        ((ps.map enc).flatten ++ rest)
      = some (ps.map Spec.serverParam, rest) := by
  induction ps generalizing i with
  | nil => rfl
  | cons p ps ih =>
    have h0 : Spec.bit? bm i = some p.isNull := hbm 0 p rfl
    have hp := hs p (by simp)
    have hr := ih (i + 1) (fun x hx => hs x (by simp [hx])) (fun x hx => he x (by simp [hx]))
      (fun k x hk => by
        have := hbm (k + 1) x (by simpa using hk)
        rwa [show i + (k + 1) = i + 1 + k by omega] at this)
    have henc := he p (by simp)
    simp only [List.map_cons, List.flatten_cons, List.append_assoc, Spec.D.paramValues, h0]
    have e1 : Spec.D.ofOption (some p.isNull) (enc p ++ ((ps.map enc).flatten ++ rest))
        = some (p.isNull, enc p ++ ((ps.map enc).flatten ++ rest)) := rfl
    rw [Spec.D.bind_some e1, sound_null p hp]
    by_cases hn : p.val = .null
    · have : enc p = [] := by
        rw [hn] at henc; exact henc
      rw [this]
      simp only [hn, decide_true, if_true, List.nil_append]
      rw [Spec.D.bind_some (Spec.D.pure_apply' _ _), Spec.D.bind_some hr]
      simp [Spec.serverParam, hn]
    · simp only [hn, decide_false, Bool.false_eq_true, if_false]
      have e2 : (do return some (← Spec.D.paramValue p.colType.toByte)
          : Spec.D (Option BinaryColumnValue)) (enc p ++ ((ps.map enc).flatten ++ rest))
          = some (some (Spec.meaning p.val), (ps.map enc).flatten ++ rest) := by
        rw [Spec.D.bind_some (paramValue_spec _ _ _ _ hp.2.2 henc)]
        rfl
      rw [Spec.D.bind_some e2, Spec.D.bind_some hr]
      simp [Spec.serverParam, hn]

/-- C22: for any list of sound parameters, executing a statement sends exactly one message, from which
the server recovers the statement id, no cursor, one iteration, and for every parameter its type,
signedness and value, NULL exactly where the value is NULL. Missing from the full claim: parameters that
are not `Sound` (`C22_typed_null_false`, `C22_string_251_false`). -/
theorem C22_server_sees_parameters_partial (stmtId : Nat) (ps : List StmtColumnValue)
    (hid : stmtId < 2 ^ 32) (hs : ∀ p ∈ ps, p.Sound) :
    ∃ c e, ComStmtExecute.single stmtId ps = some c ∧
      (∀ out, c.writeTo out = some (out ++ e, e.length)) ∧
      Spec.D.all (Spec.D.stmtExecute ps.length) e
        = some ⟨stmtId, 0, 1, ps.map Spec.serverParam⟩ := by
  obtain ⟨bm, hbm, hlen, hbits⟩ := Bitmap.fromIter_spec (ps.map (·.isNull)) 0
  have hex : ∀ p : {p // p ∈ ps}, ∃ e, Appends (fun out => p.1.val.writeTo out) e ∧
      Spec.Encodes p.1.val e := fun p => C23_write_partial p.1.val (hs p.1 p.2).1 (hs p.1 p.2).2.1
  choose enc0 henc0 using hex
  let enc : StmtColumnValue → Bytes := fun p => if h : p ∈ ps then enc0 ⟨p, h⟩ else []
  have henc : ∀ p ∈ ps, Appends (fun out => p.val.writeTo out) (enc p) ∧
      Spec.Encodes p.val (enc p) := by
    intro p hp
    simp only [enc, dif_pos hp]
    exact henc0 ⟨p, hp⟩
  have hhead : List.Forall₂ Appends
      [(writeU8 · Command.stmtExecute.toByte), (writeLeU32 · stmtId), (writeU8 · 0), (writeLeU32 · 1)]
      [Spec.u8 0x17, Spec.le 4 stmtId, Spec.u8 0, Spec.le 4 1] :=
    .cons (appends_u8 _) (.cons (appends_u32 _) (.cons (appends_u8 _) (.cons (appends_u32 _) .nil)))
  have hsingle : ComStmtExecute.single stmtId ps
      = some ⟨.stmtExecute, stmtId, 0, 1, bm, true, ps⟩ := by
    simp [ComStmtExecute.single, hbm]
  by_cases hne : ps = []
  · subst hne
    refine ⟨_, Spec.u8 0x17 ++ (Spec.le 4 stmtId ++ (Spec.u8 0 ++ Spec.le 4 1)), hsingle,
      fun out => ?_, ?_⟩
    · simp only [ComStmtExecute.writeTo, List.isEmpty_nil, if_true, Option.some.injEq]
      have := Appends.seq hhead out
      simpa using this
    · have : Spec.D.stmtExecute 0 (Spec.u8 0x17 ++ (Spec.le 4 stmtId ++ (Spec.u8 0 ++ (Spec.le 4 1 ++ []))))
          = some (⟨stmtId, 0, 1, []⟩, []) := by
        unfold Spec.D.stmtExecute
        drun
      simp only [List.append_nil] at this
      simp [Spec.D.all, this]
  · have hpos : 0 < ps.length := List.length_pos_iff.mpr hne
    have hblen : bm.length = (ps.length + 7) / 8 := by
      rw [hlen, List.length_map]; omega
    have hty : List.Forall₂ Appends (ps.map (fun p out => writeParamType out p))
        (ps.map fun p => Spec.u8 p.colType.toByte ++ Spec.u8 (if p.unsigned then 0x80 else 0x00)) := by
      rw [List.forall₂_map_left_iff, List.forall₂_map_right_iff, List.forall₂_same]
      intro p _
      refine appends_mk (fun out => rfl) (.cons (appends_u8 _) (.cons (appends_u8 _) .nil)) ?_
      simp
    have hva : List.Forall₂ Appends (ps.map (fun p out => p.val.writeTo out)) (ps.map enc) := by
      rw [List.forall₂_map_left_iff, List.forall₂_map_right_iff, List.forall₂_same]
      intro p hp
      exact (henc p hp).1
    have hmid : List.Forall₂ Appends [(writeBytes · bm), (writeU8 · (if true then 0x01 else 0x00))]
        [bm, Spec.u8 1] := .cons (appends_bytes bm) (.cons (appends_u8 1) .nil)
    have hall := List.rel_append (List.rel_append (List.rel_append hhead hmid) hty) hva
    refine ⟨_, Spec.u8 0x17 ++ (Spec.le 4 stmtId ++ (Spec.u8 0 ++ (Spec.le 4 1 ++ (bm ++ (Spec.u8 1 ++
        ((ps.map fun p => Spec.u8 p.colType.toByte ++ Spec.u8 (if p.unsigned then 0x80 else 0x00)).flatten
          ++ (ps.map enc).flatten)))))), hsingle, fun out => ?_, ?_⟩
    · have := Appends.seq hall out
      simp only [ComStmtExecute.writeTo, List.isEmpty_iff, hne, if_false, hbm, Option.some.injEq]
      simpa using this
    · have key : Spec.D.stmtExecute ps.length
          (Spec.u8 0x17 ++ (Spec.le 4 stmtId ++ (Spec.u8 0 ++ (Spec.le 4 1 ++ (bm ++ (Spec.u8 1 ++
        ((ps.map fun p => Spec.u8 p.colType.toByte ++ Spec.u8 (if p.unsigned then 0x80 else 0x00)).flatten
          ++ ((ps.map enc).flatten ++ []))))))))
          = some (⟨stmtId, 0, 1, ps.map Spec.serverParam⟩, []) := by
        have hpt : ∀ p ∈ ps, ∀ t, Spec.D.paramType
            (Spec.u8 p.colType.toByte ++ Spec.u8 (if p.unsigned then 0x80 else 0x00) ++ t)
            = some ((p.colType.toByte, p.unsigned), t) := by
          intro p _ t
          have := toByte_lt p.colType
          unfold Spec.D.paramType
          cases p.unsigned <;> drun <;> rfl
        have htimes := Spec.D.times_spec Spec.D.paramType
          (fun p : StmtColumnValue => Spec.u8 p.colType.toByte ++ Spec.u8 (if p.unsigned then 0x80 else 0x00))
          (fun p => (p.colType.toByte, p.unsigned)) ps hpt ((ps.map enc).flatten ++ [])
        have hvals := paramValues_spec bm ps 0 [] enc hs (fun p hp => (henc p hp).2) (by
          intro k p hk
          have hk' : k < ps.length := by
            by_contra hc
            rw [List.getElem?_eq_none (Nat.not_lt.mp hc)] at hk
            cases hk
          rw [hbits (0 + k) (by rw [hblen]; omega), if_neg (by omega)]
          simp [hk])
        unfold Spec.D.stmtExecute
        rw [Spec.D.bind_some (Spec.D.u8_spec _ _ (by norm_num)),
          Spec.D.bind_some (Spec.D.le_spec 4 _ _ (by omega)),
          Spec.D.bind_some (Spec.D.u8_spec _ _ (by norm_num)),
          Spec.D.bind_some (Spec.D.le_spec 4 _ _ (by norm_num))]
        simp only [if_neg (show ¬ ps.length = 0 by omega)]
        have inner : (do
            let bitmap ← Spec.D.bytes ((ps.length + 7) / 8)
            let bound ← Spec.D.u8
            if bound = 1 then do
              let types ← Spec.D.times Spec.D.paramType ps.length
              Spec.D.paramValues bitmap types 0
            else Spec.D.reject : Spec.D (List Spec.ServerParam)) (bm ++ (Spec.u8 1 ++
        ((ps.map fun p => Spec.u8 p.colType.toByte ++ Spec.u8 (if p.unsigned then 0x80 else 0x00)).flatten
          ++ ((ps.map enc).flatten ++ [])))) = some (ps.map Spec.serverParam, []) := by
          rw [Spec.D.bind_some (Spec.D.bytes_spec _ bm _ hblen),
            Spec.D.bind_some (Spec.D.u8_spec _ _ (by norm_num))]
          simp only [if_true]
          rw [Spec.D.bind_some htimes]
          exact hvals
        rw [Spec.D.bind_some inner]
        rfl
      simp only [List.append_nil] at key
      simp [Spec.D.all, key]

/-- Every constructor of the API gives a sound parameter (string parameters: not exactly 251 bytes;
times: not a negative zero). -/
theorem C22_constructors_sound (b : Bool) (i8 i16 i32 i64 : Int) (n8 n16 n32 n64 : Nat) (s : Bytes)
    (h8 : n8 < 2 ^ 8) (h16 : n16 < 2 ^ 16) (h32 : n32 < 2 ^ 32) (h64 : n64 < 2 ^ 64)
    (hs : s.length < 2 ^ 64) (hs' : s.length ≠ 251) (t : MyTime) (ht : t.InRange)
    (ht' : t ≠ ⟨true, 0, 0, 0, 0, 0⟩) (dt : MyDateTime) (hdt : dt.InRange) (nd : NaiveDateTime) :
    ∀ p ∈ [StmtColumnValue.newNull, .newDecimal s, .newTinyint i8, .newUnsignedTinyint n8,
      .newSmallint i16, .newUnsignedSmallint n16, .newInt i32, .newUnsignedInt n32, .newFloat n32,
      .newDouble n64, .newTimestamp nd, .newBigint i64, .newUnsignedBigint n64, .newDate nd,
      .newMyTime t, .newMyDateTime dt, .newDateTime nd, .newYear n16, .newMyYear n16,
      .newVarstring s, .newString s, .newText s, .newBit s, .newBlob s, .newGeometry s, .newBool b],
      p.Sound := by
  have a8 := asUnsigned_lt 8 i8
  have a16 := asUnsigned_lt 16 i16
  have a32 := asUnsigned_lt 32 i32
  have a64 := asUnsigned_lt 64 i64
  have ay := asUnsigned_lt 16 nd.year
  have hb : (if b then 1 else 0) < 2 ^ 8 := by cases b <;> norm_num
  intro p hp
  simp only [List.mem_cons, List.not_mem_nil, or_false] at hp
  obtain ⟨y, mo, d, h, mi, se, na⟩ := nd
  rcases hp with rfl | rfl | rfl | rfl | rfl | rfl | rfl | rfl | rfl | rfl | rfl | rfl | rfl | rfl | rfl
    | rfl | rfl | rfl | rfl | rfl | rfl | rfl | rfl | rfl | rfl | rfl <;>
    refine ⟨?_, ?_, by simp [StmtColumnValue.newNull, StmtColumnValue.newDecimal,
      StmtColumnValue.newTinyint, StmtColumnValue.newUnsignedTinyint, StmtColumnValue.newSmallint,
      StmtColumnValue.newUnsignedSmallint, StmtColumnValue.newInt, StmtColumnValue.newUnsignedInt,
      StmtColumnValue.newFloat, StmtColumnValue.newDouble, StmtColumnValue.newTimestamp,
      StmtColumnValue.newBigint, StmtColumnValue.newUnsignedBigint, StmtColumnValue.newDate,
      StmtColumnValue.newMyTime, StmtColumnValue.newMyDateTime, StmtColumnValue.newDateTime,
      StmtColumnValue.newYear, StmtColumnValue.newMyYear, StmtColumnValue.newVarstring,
      StmtColumnValue.newString, StmtColumnValue.newText, StmtColumnValue.newBit,
      StmtColumnValue.newBlob, StmtColumnValue.newGeometry, StmtColumnValue.newBool,
      Spec.meaning, Spec.typesOf]⟩ <;>
    first
    | trivial
    | assumption
    | exact hs'
    | exact rfl
    | (refine ⟨?_, ?_, ?_⟩ <;> simp only at * <;> omega)
    | (refine ⟨?_, ?_, ?_, ?_, ?_, ?_, ?_⟩ <;> simp only at * <;> omega)

/-- C22: what the server sees for each value given to the API: the type code and the value, integers as
two's complement patterns of the type's width, dates and times field by field. -/
theorem C22_constructor_values (i : Int) (n : Nat) (s : Bytes) (b neg : Bool) (days : Nat)
    (t : NaiveDateTime) (hy : 0 ≤ t.year ∧ t.year < 2 ^ 16) (hmo : t.month < 2 ^ 8)
    (hd : t.day < 2 ^ 8) (hh : t.hour < 2 ^ 8) (hmi : t.minute < 2 ^ 8) (hse : t.second < 2 ^ 8)
    (hna : t.nano < 10 ^ 9) :
    Spec.serverParam .newNull = ⟨0x06, false, none⟩ ∧
    Spec.serverParam (.newTinyint i) = ⟨0x01, false, some (.tiny (Spec.pattern 8 i))⟩ ∧
    Spec.serverParam (.newUnsignedTinyint n) = ⟨0x01, true, some (.tiny n)⟩ ∧
    Spec.serverParam (.newSmallint i) = ⟨0x02, false, some (.short (Spec.pattern 16 i))⟩ ∧
    Spec.serverParam (.newUnsignedSmallint n) = ⟨0x02, true, some (.short n)⟩ ∧
    Spec.serverParam (.newInt i) = ⟨0x03, false, some (.long (Spec.pattern 32 i))⟩ ∧
    Spec.serverParam (.newUnsignedInt n) = ⟨0x03, true, some (.long n)⟩ ∧
    Spec.serverParam (.newBigint i) = ⟨0x08, false, some (.longLong (Spec.pattern 64 i))⟩ ∧
    Spec.serverParam (.newUnsignedBigint n) = ⟨0x08, true, some (.longLong n)⟩ ∧
    Spec.serverParam (.newFloat n) = ⟨0x04, false, some (.float n)⟩ ∧
    Spec.serverParam (.newDouble n) = ⟨0x05, false, some (.double n)⟩ ∧
    Spec.serverParam (.newDecimal s) = ⟨0xf6, false, some (.newDecimal s)⟩ ∧
    Spec.serverParam (.newVarstring s) = ⟨0xfd, false, some (.varString s)⟩ ∧
    Spec.serverParam (.newString s) = ⟨0xfe, false, some (.string s)⟩ ∧
    Spec.serverParam (.newText s) = ⟨0xfc, false, some (.blob s)⟩ ∧
    Spec.serverParam (.newBlob s) = ⟨0xfc, false, some (.blob s)⟩ ∧
    Spec.serverParam (.newBit s) = ⟨0x10, false, some (.bit s)⟩ ∧
    Spec.serverParam (.newGeometry s) = ⟨0xff, false, some (.geometry s)⟩ ∧
    Spec.serverParam (.newBool b) = ⟨0x01, false, some (.tiny (if b then 1 else 0))⟩ ∧
    Spec.serverParam (.newYear n) = ⟨0x02, true, some (.short n)⟩ ∧
    Spec.serverParam (.newMyYear n) = ⟨0x0d, true, some (.year n)⟩ ∧
    Spec.serverParam (.newDate t) = ⟨0x0a, false, some (.date t.year.toNat t.month t.day)⟩ ∧
    Spec.serverParam (.newTime neg days t)
      = ⟨0x0b, false, some (.time ⟨neg, days, t.hour, t.minute, t.second, t.nano / 1000⟩)⟩ ∧
    Spec.serverParam (.newDateTime t) = ⟨0x0c, false, some (.dateTime
      ⟨t.year.toNat, t.month, t.day, t.hour, t.minute, t.second, t.nano / 1000⟩)⟩ ∧
    Spec.serverParam (.newTimestamp t) = ⟨0x07, false, some (.dateTime
      ⟨t.year.toNat, t.month, t.day, t.hour, t.minute, t.second, 0⟩)⟩ := by
  have ey : asUnsigned 16 t.year = t.year.toNat := by
    unfold asUnsigned; rw [Int.emod_eq_of_lt hy.1 (by simpa using hy.2)]
  have p8 := asUnsigned_eq_pattern 8 i
  have p16 := asUnsigned_eq_pattern 16 i
  have p32 := asUnsigned_eq_pattern 32 i
  have p64 := asUnsigned_eq_pattern 64 i
  simp only [Spec.serverParam, StmtColumnValue.newNull, StmtColumnValue.newDecimal,
      StmtColumnValue.newTinyint, StmtColumnValue.newUnsignedTinyint, StmtColumnValue.newSmallint,
      StmtColumnValue.newUnsignedSmallint, StmtColumnValue.newInt, StmtColumnValue.newUnsignedInt,
      StmtColumnValue.newFloat, StmtColumnValue.newDouble, StmtColumnValue.newTimestamp,
      StmtColumnValue.newBigint, StmtColumnValue.newUnsignedBigint, StmtColumnValue.newDate,
      StmtColumnValue.newTime,
      StmtColumnValue.newMyTime, StmtColumnValue.newMyDateTime, StmtColumnValue.newDateTime,
      StmtColumnValue.newYear, StmtColumnValue.newMyYear, StmtColumnValue.newVarstring,
      StmtColumnValue.newString, StmtColumnValue.newText, StmtColumnValue.newBit,
      StmtColumnValue.newBlob, StmtColumnValue.newGeometry, StmtColumnValue.newBool,
      Spec.meaning, ColumnType.toByte, p8, p16, p32, p64, ey, Nat.mod_eq_of_lt hmo,
      Nat.mod_eq_of_lt hd, Nat.mod_eq_of_lt hh, Nat.mod_eq_of_lt hmi, Nat.mod_eq_of_lt hse,
      Nat.mod_eq_of_lt (show t.nano < 1000000000 by omega)]
  simp

/-- the fraction of a second of a timestamp parameter does not reach the server (a datetime's does) -/
theorem C22_timestamp_micros_false :
    ∃ t : NaiveDateTime, t.nano / 1000 = 500000 ∧
      (Spec.serverParam (.newTimestamp t)).value = some (.dateTime ⟨2020, 1, 2, 3, 4, 5, 0⟩) :=
  ⟨⟨2020, 1, 2, 3, 4, 5, 500000000⟩, rfl, rfl⟩

/-- a non-trivial request: a negative integer, a NULL, a string and a time -/
example : ∀ p ∈ [StmtColumnValue.newInt (-5), .newNull, .newVarstring [0x61],
    .newMyTime ⟨true, 1, 2, 3, 4, 5⟩], p.Sound := by
  have h := C22_constructors_sound true 0 0 (-5) 0 0 0 0 0 [0x61] (by norm_num) (by norm_num)
    (by norm_num) (by norm_num) (by simp) (by simp) ⟨true, 1, 2, 3, 4, 5⟩
    (by norm_num [MyTime.InRange]) (by simp) ⟨0, 0, 0, 0, 0, 0, 0⟩
    (by norm_num [MyDateTime.InRange]) ⟨2020, 1, 1, 1, 1, 1, 1⟩
  intro p hp
  apply h
  simp only [List.mem_cons, List.not_mem_nil, or_false] at hp ⊢
  rcases hp with rfl | rfl | rfl | rfl <;> simp

/-- C22 fails for a NULL value of a declared type, which the API can build
(`StmtColumnValue::new(Long, false, Null)`): it is not marked in the bitmap and the server finds no
value to read. -/
theorem C22_typed_null_false (stmtId : Nat) (hid : stmtId < 2 ^ 32) :
    ∃ c e, ComStmtExecute.single stmtId [StmtColumnValue.new .long false .null] = some c ∧
      c.writeTo [] = some (e, e.length) ∧ Spec.D.all (Spec.D.stmtExecute 1) e = none := by
  refine ⟨⟨.stmtExecute, stmtId, 0, 1, [0], true, [⟨.long, false, .null⟩]⟩,
    Spec.u8 0x17 ++ (Spec.le 4 stmtId ++ (Spec.u8 0 ++ (Spec.le 4 1 ++ [0, 1, 3, 0]))), rfl, ?_, ?_⟩
  · have : List.Forall₂ Appends
        [(writeU8 · Command.stmtExecute.toByte), (writeLeU32 · stmtId), (writeU8 · 0), (writeLeU32 · 1),
          (writeBytes · [0, 1, 3, 0])]
        [Spec.u8 0x17, Spec.le 4 stmtId, Spec.u8 0, Spec.le 4 1, [0, 1, 3, 0]] :=
      .cons (appends_u8 _) (.cons (appends_u32 _) (.cons (appends_u8 _) (.cons (appends_u32 _)
        (.cons (appends_bytes _) .nil))))
    have h := Appends.seq this []
    have e : ComStmtExecute.writeTo [] ⟨.stmtExecute, stmtId, 0, 1, [0], true, [⟨.long, false, .null⟩]⟩
        = some (writeSeq [] [(writeU8 · Command.stmtExecute.toByte), (writeLeU32 · stmtId),
            (writeU8 · 0), (writeLeU32 · 1), (writeBytes · [0, 1, 3, 0])]) := by
      simp only [ComStmtExecute.writeTo, List.isEmpty_cons, Bool.false_eq_true, if_false]
      have : Bitmap.fromIter ([(⟨.long, false, .null⟩ : StmtColumnValue)].map (·.isNull)) 0 = some [0] := rfl
      rw [this]
      simp [writeSeq, writeParamType, BinaryColumnValue.writeTo, ColumnType.toByte, writeU8_spec,
        writeBytes_spec, Spec.u8]
    rw [e]
    simpa using h
  · have : Spec.D.stmtExecute 1
        (Spec.u8 0x17 ++ (Spec.le 4 stmtId ++ (Spec.u8 0 ++ (Spec.le 4 1 ++ [0, 1, 3, 0])))) = none := by
      unfold Spec.D.stmtExecute
      rw [Spec.D.bind_some (Spec.D.u8_spec _ _ (by norm_num)),
        Spec.D.bind_some (Spec.D.le_spec 4 _ _ (by omega)),
        Spec.D.bind_some (Spec.D.u8_spec _ _ (by norm_num)),
        Spec.D.bind_some (Spec.D.le_spec 4 _ _ (by norm_num))]
      rfl
    simp [Spec.D.all, this]

end Mybin
