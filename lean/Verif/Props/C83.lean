/-
C83: which values cannot be written. Making SQL or JSON from the rows of an event ends in a panic exactly when one of
the values that are to be written is of one of a few listed kinds.
-/
import Verif.Props.C79
import Verif.Props.C43
import Verif.Props.C54_C55

namespace Mybin

open Spec

/-- the date is one of the calendar and the time one of a day (a second may last two million microseconds) -/
def HasDateTime (t : MyDateTime) : Prop :=
  Spec.dateOk t.year t.month t.day = true ∧ t.hour < 24 ∧ t.minute < 60 ∧ t.second < 60 ∧ t.micro < 2000000

/-- there are digits for all the positions of the number (or none at all) -/
def HasDigits (d : MyDecimal) : Prop := d.buf = [] ∨ (d.intg + 8) / 9 + (d.frac + 8) / 9 ≤ d.buf.length

/-- the values that have an SQL text: not dates outside the calendar, not a time whose hours (the days, as a signed
number, times 24 plus the hours) do not fit in 32 bits, no bit strings beyond 64 bits, no text that is not UTF-8
unless it has a quote in it, no spatial values -/
def HasSql : BinlogColumnValue → Prop
  | .date y m d => Spec.dateOk y m d = true
  | .dateTime t => HasDateTime t
  | .time t => -2 ^ 31 ≤ Spec.twos 32 t.days * 24 ∧ Spec.twos 32 t.days * 24 + t.hour < 2 ^ 31
  | .bit bs => bs.length ≤ 8
  | .newDecimal d => HasDigits d
  | .varString bs | .string bs => 0x27 ∈ bs ∨ validUtf8 bs = true
  | .geometry _ => False
  | _ => True

/-- an `f64` that is a number -/
def IsFinite (bits : Nat) : Prop := bits / 2 ^ 52 % 2 ^ 11 ≠ 2 ^ 11 - 1

/-- the values that have a JSON form: as for SQL, but the hours are unsigned, a quote makes no difference, and floats
have to be finite -/
def HasJson (lib : JsonLib) : BinlogColumnValue → Prop
  | .date y m d => Spec.dateOk y m d = true
  | .dateTime t => HasDateTime t
  | .time t => t.days * 24 + t.hour < 2 ^ 32
  | .bit bs => bs.length ≤ 8
  | .newDecimal d => HasDigits d
  | .varString bs | .string bs => validUtf8 bs = true
  | .geometry _ => False
  | .float n => IsFinite (lib.widen n)
  | .double n => IsFinite n
  | _ => True

theorem bitSum_isSome (bs : Bytes) : ∀ i, (∃ n, bitSum i bs = some n) ↔ bs = [] ∨ i + bs.length ≤ 8 := by
  induction bs with
  | nil => intro i; simp [bitSum]
  | cons b t ih =>
    intro i
    rw [bitSum]
    by_cases h : 64 ≤ i * 8
    · rw [if_pos h]
      simp
      omega
    · rw [if_neg h]
      have := ih (i + 1)
      simp only [Option.map_eq_some_iff, reduceCtorEq, false_or, List.length_cons]
      constructor
      · rintro ⟨n, m, h1, h2⟩
        rcases this.1 ⟨m, h1⟩ with rfl | h3
        · simp; omega
        · omega
      · intro h1
        obtain ⟨m, hm⟩ := this.2 (by right; omega)
        exact ⟨_, m, hm, rfl⟩

theorem display_isSome (d : MyDecimal) : (∃ s, d.display = some s) ↔ HasDigits d := by
  unfold MyDecimal.display HasDigits
  by_cases h0 : d.buf = []
  · simp [h0]
  · rw [if_neg h0]
    have hi : (if d.intg - d.intg / 9 * 9 > 0 then 1 else 0) + d.intg / 9 = (d.intg + 8) / 9 := by
      split <;> omega
    simp only [hi, h0, false_or]
    by_cases h1 : d.buf.length < (d.intg + 8) / 9
    · rw [if_pos h1]; simp; omega
    · rw [if_neg h1]
      by_cases h2 : d.frac = 0
      · rw [if_pos h2, h2]; simp; omega
      · rw [if_neg h2]
        by_cases h3 : d.buf.length < (d.intg + 8) / 9 + d.frac / 9
        · rw [if_pos h3]; simp; omega
        · rw [if_neg h3]
          by_cases h4 : d.frac - d.frac / 9 * 9 > 0
          · rw [if_pos h4]
            cases hb : d.buf[(d.intg + 8) / 9 + d.frac / 9]? with
            | none =>
              rw [List.getElem?_eq_none_iff] at hb
              simp; omega
            | some l =>
              have := (List.getElem?_eq_some_iff.1 hb).1
              simp; omega
          · rw [if_neg h4]; simp; omega

theorem display_ascii (d : MyDecimal) (s : List Char) (h : d.display = some s) : validUtf8 (ascChars s) = true := by
  have hs : ∀ c ∈ s, c = '-' ∨ c = '.' ∨ c.isDigit = true := by
    have hdig : ∀ (l : List Nat), ∀ c ∈ (l.map (Nat.toDigits 10)).flatten, c = '-' ∨ c = '.' ∨ c.isDigit = true :=
      fun l c hc => Or.inr (Or.inr (isDigit_flatten l c hc))
    have hsign : ∀ c ∈ (if d.negative then ['-'] else []), c = '-' ∨ c = '.' ∨ c.isDigit = true := by
      intro c hc; split at hc <;> simp_all
    unfold MyDecimal.display at h
    split at h
    · cases h; intro c hc; simp at hc; subst hc; decide
    · dsimp only at h
      generalize (if d.intg - d.intg / 9 * 9 > 0 then 1 else 0) + d.intg / 9 = nInt at h
      generalize (if d.negative then ['-'] else []) = sign at h hsign
      split at h
      · cases h
      · split at h
        · cases h
          intro c hc
          rcases List.mem_append.1 hc with hc | hc
          · exact hsign c hc
          · exact hdig _ c hc
        · split at h
          · cases h
          · split at h
            · split at h
              · cases h
              · cases h
                intro c hc
                simp only [List.mem_append, List.mem_singleton] at hc
                rcases hc with (((hc | hc) | hc) | hc) | hc
                · exact hsign c hc
                · exact hdig _ c hc
                · exact Or.inr (Or.inl hc)
                · exact hdig _ c hc
                · exact Or.inr (Or.inr (Nat.isDigit_of_mem_toDigits (by omega) (by omega) hc))
            · cases h
              intro c hc
              simp only [List.mem_append, List.mem_singleton] at hc
              rcases hc with ((hc | hc) | hc) | hc
              · exact hsign c hc
              · exact hdig _ c hc
              · exact Or.inr (Or.inl hc)
              · exact hdig _ c hc
  apply validUtf8_ascii
  intro b hb
  obtain ⟨x, hx, rfl⟩ := List.mem_map.1 hb
  rcases hs x hx with rfl | rfl | h
  · decide
  · decide
  · exact UInt8.le_trans (digit_of_isDigit x h).2.1 (by decide)

theorem chrono_isSome (t : MyDateTime) :
    (∃ x, chronoDateTime t.year t.month t.day t.hour t.minute t.second t.micro = some x) ↔ HasDateTime t := by
  have e : Spec.monthDays t.year t.month = daysInMonth t.year t.month := by
    unfold Spec.monthDays daysInMonth
    simp only [Spec.leapYear, decide_eq_true_eq, List.mem_cons, List.not_mem_nil, or_false]
  unfold chronoDateTime HasDateTime Spec.dateOk
  rw [e, decide_eq_true_eq]
  constructor
  · rintro ⟨x, hx⟩
    split at hx
    · rename_i h
      obtain ⟨⟨h1, h2⟩, ⟨h3, h4⟩, h5⟩ := h
      exact ⟨⟨h1, h2, h3, h4⟩, h5⟩
    · cases hx
  · rintro ⟨⟨h1, h2, h3, h4⟩, h5⟩
    exact ⟨_, if_pos ⟨⟨h1, h2⟩, ⟨h3, h4⟩, h5⟩⟩

theorem utf8_isSome (bs : Bytes) : (∃ x, utf8Unwrap bs = some x) ↔ validUtf8 bs = true := by
  unfold utf8Unwrap
  by_cases h : validUtf8 bs = true <;> simp [h]

theorem timeText_isSome (t : MyTime) (h : t.days < 2 ^ 32) :
    (∃ x, timeText t = some x) ↔ -2 ^ 31 ≤ Spec.twos 32 t.days * 24 ∧ Spec.twos 32 t.days * 24 + t.hour < 2 ^ 31 := by
  unfold timeText
  rw [asSigned_eq_twos (by decide) h]
  generalize Spec.twos 32 t.days * 24 = d
  dsimp only
  by_cases hc : d < -2 ^ 31 ∨ 2 ^ 31 ≤ d ∨ 2 ^ 31 ≤ d + t.hour
  · rw [if_pos hc]
    simp only [reduceCtorEq, exists_const, false_iff]
    omega
  · rw [if_neg hc]
    simp only [Option.some.injEq, exists_eq', true_iff]
    omega

theorem jsonTime_isSome (t : MyTime) : (∃ x, jsonTime t = some x) ↔ t.days * 24 + t.hour < 2 ^ 32 := by
  unfold jsonTime
  dsimp only
  by_cases hc : 2 ^ 32 ≤ t.days * 24 + t.hour
  · rw [if_pos hc]; simp only [reduceCtorEq, exists_const, false_iff]; omega
  · rw [if_neg hc]; simp only [Option.some.injEq, exists_eq', true_iff]; omega

/-- the days of a time are a 32-bit field -/
def DaysFit (v : BinlogColumnValue) : Prop := ∀ t, v = .time t → t.days < 2 ^ 32

/-- C83: exactly the values listed in `HasSql` can be written as SQL, whatever the column. -/
theorem C83_sql_value (ft : FloatText) (d : ColumnDefinition) (v : BinlogColumnValue) (hd : DaysFit v) :
    (∃ l, TextOf ft (d, v) l) ↔ HasSql v := by
  have key : (∃ l, TextOf ft (d, v) l) ↔
      ∃ p x, StmtColumnValue.ofBinlog v (d.flags.testBit 5) = some p ∧ p.toSqlLiteral ft = some x := by
    constructor
    · rintro ⟨l, p, text, q, h1, h2, -⟩; exact ⟨p, _, h1, h2⟩
    · rintro ⟨p, ⟨text, q⟩, h1, h2⟩; exact ⟨_, p, text, q, h1, h2, rfl⟩
  rw [key]
  generalize d.flags.testBit 5 = u
  cases v with
  | null => exact ⟨fun _ => trivial, fun _ => ⟨_, _, rfl, rfl⟩⟩
  | tiny n => cases u <;> exact ⟨fun _ => trivial, fun _ => ⟨_, _, rfl, rfl⟩⟩
  | short n => cases u <;> exact ⟨fun _ => trivial, fun _ => ⟨_, _, rfl, rfl⟩⟩
  | long n => cases u <;> exact ⟨fun _ => trivial, fun _ => ⟨_, _, rfl, rfl⟩⟩
  | float n => exact ⟨fun _ => trivial, fun _ => ⟨_, _, rfl, rfl⟩⟩
  | double n => exact ⟨fun _ => trivial, fun _ => ⟨_, _, rfl, rfl⟩⟩
  | timestamp n => exact ⟨fun _ => trivial, fun _ => ⟨_, _, rfl, rfl⟩⟩
  | longLong n => cases u <;> exact ⟨fun _ => trivial, fun _ => ⟨_, _, rfl, rfl⟩⟩
  | int24 n =>
    refine ⟨fun _ => trivial, fun _ => ?_⟩
    simp only [StmtColumnValue.ofBinlog]
    split
    · exact ⟨_, _, rfl, rfl⟩
    · split <;> exact ⟨_, _, rfl, rfl⟩
  | year n => exact ⟨fun _ => trivial, fun _ => ⟨_, _, rfl, rfl⟩⟩
  | enum e => exact ⟨fun _ => trivial, fun _ => ⟨_, _, rfl, rfl⟩⟩
  | blob bs => exact ⟨fun _ => trivial, fun _ => ⟨_, _, rfl, rfl⟩⟩
  | geometry bs => exact ⟨fun ⟨p, x, h, _⟩ => (by cases h), fun h => h.elim⟩
  | date y m d' =>
    have h := chrono_isSome ⟨y, m, d', 0, 0, 0, 0⟩
    simp only [StmtColumnValue.ofBinlog, HasSql, Option.map_eq_some_iff]
    constructor
    · rintro ⟨p, x, ⟨a, ha, -⟩, -⟩
      exact (h.1 ⟨a, ha⟩).1
    · intro hd'
      obtain ⟨a, ha⟩ := h.2 ⟨hd', (by decide : 0 < 24), (by decide : 0 < 60), (by decide : 0 < 60), (by decide : 0 < 2000000)⟩
      exact ⟨_, _, ⟨a, ha, rfl⟩, rfl⟩
  | dateTime t =>
    have h := chrono_isSome t
    simp only [StmtColumnValue.ofBinlog, HasSql, Option.map_eq_some_iff]
    constructor
    · rintro ⟨p, x, ⟨a, ha, -⟩, -⟩
      exact h.1 ⟨a, ha⟩
    · intro hd'
      obtain ⟨a, ha⟩ := h.2 hd'
      exact ⟨_, _, ⟨a, ha, rfl⟩, rfl⟩
  | time t =>
    have h := timeText_isSome t (hd t rfl)
    simp only [StmtColumnValue.ofBinlog, HasSql, Option.some.injEq]
    rw [← h]
    constructor
    · rintro ⟨p, x, rfl, hx⟩
      simp only [StmtColumnValue.toSqlLiteral, StmtColumnValue.newMyTime, Option.map_eq_some_iff] at hx
      obtain ⟨a, ha, -⟩ := hx
      exact ⟨a, ha⟩
    · rintro ⟨a, ha⟩
      refine ⟨_, (a, true), rfl, ?_⟩
      simp only [StmtColumnValue.toSqlLiteral, StmtColumnValue.newMyTime, ha, Option.map_some]
  | bit bs =>
    have h := bitSum_isSome bs 0
    have h8 : (bs = [] ∨ 0 + bs.length ≤ 8) ↔ bs.length ≤ 8 := by
      constructor
      · rintro (rfl | h)
        · simp
        · omega
      · intro h; right; omega
    simp only [StmtColumnValue.ofBinlog, HasSql, Option.some.injEq]
    rw [← h8, ← h]
    constructor
    · rintro ⟨p, x, rfl, hx⟩
      simp only [StmtColumnValue.toSqlLiteral, StmtColumnValue.newBit, Option.map_eq_some_iff] at hx
      obtain ⟨a, ha, -⟩ := hx
      exact ⟨a, ha⟩
    · rintro ⟨a, ha⟩
      refine ⟨_, (natText a, false), rfl, ?_⟩
      simp only [StmtColumnValue.toSqlLiteral, StmtColumnValue.newBit, ha, Option.map_some]
  | newDecimal d' =>
    simp only [StmtColumnValue.ofBinlog, HasSql, Option.map_eq_some_iff]
    rw [← display_isSome]
    constructor
    · rintro ⟨p, x, ⟨a, ha, -⟩, -⟩
      exact ⟨a, ha⟩
    · rintro ⟨a, ha⟩
      refine ⟨_, (ascChars a, false), ⟨a, ha, rfl⟩, ?_⟩
      simp only [StmtColumnValue.toSqlLiteral, StmtColumnValue.newDecimal, utf8Unwrap,
        display_ascii d' a ha, if_true, Option.map_some]
  | varString bs =>
    simp only [StmtColumnValue.ofBinlog, HasSql, Option.some.injEq]
    have h := C42_panic_iff ft bs
    constructor
    · rintro ⟨p, x, rfl, hx⟩
      by_contra hc
      rw [not_or] at hc
      rw [h.2 ⟨hc.1, by simpa using hc.2⟩] at hx
      cases hx
    · intro hc
      cases hx : StmtColumnValue.toSqlLiteral ft (.newVarstring bs) with
      | some x => exact ⟨_, x, rfl, hx⟩
      | none =>
        obtain ⟨h1, h2⟩ := h.1 hx
        rcases hc with hc | hc
        · exact absurd hc h1
        · rw [hc] at h2; cases h2
  | string bs =>
    simp only [StmtColumnValue.ofBinlog, HasSql, Option.some.injEq]
    have h := C42_panic_iff ft bs
    constructor
    · rintro ⟨p, x, rfl, hx⟩
      by_contra hc
      rw [not_or] at hc
      rw [h.2 ⟨hc.1, by simpa using hc.2⟩] at hx
      cases hx
    · intro hc
      cases hx : StmtColumnValue.toSqlLiteral ft (.newVarstring bs) with
      | some x => exact ⟨_, x, rfl, hx⟩
      | none =>
        obtain ⟨h1, h2⟩ := h.1 hx
        rcases hc with hc | hc
        · exact absurd hc h1
        · rw [hc] at h2; cases h2

/-- C83: exactly the values listed in `HasJson` can be written as JSON. -/
theorem C83_json_value (lib : JsonLib) (d : ColumnDefinition) (v : BinlogColumnValue) :
    (∃ r, JsonOf lib (d, v) r) ↔ HasJson lib v := by
  have key : (∃ r, JsonOf lib (d, v) r) ↔
      ∃ p x, StmtColumnValue.ofBinlog v (d.flags.testBit 5) = some p ∧ toJsonValue lib p = some x := by
    constructor
    · rintro ⟨r, p, h1, h2⟩; exact ⟨p, _, h1, h2⟩
    · rintro ⟨p, x, h1, h2⟩; exact ⟨x, p, h1, h2⟩
  rw [key]
  generalize d.flags.testBit 5 = u
  have hfl : ∀ bits, (∃ x, jsonFloat bits = some x) ↔ IsFinite bits := by
    intro bits
    unfold jsonFloat IsFinite
    by_cases h : bits / 2 ^ 52 % 2 ^ 11 = 2 ^ 11 - 1 <;> simp [h]
  have hstr : ∀ bs : Bytes, (∃ p x, some (StmtColumnValue.newVarstring bs) = some p ∧ toJsonValue lib p = some x) ↔
      validUtf8 bs = true := by
    intro bs
    rw [← utf8_isSome]
    constructor
    · rintro ⟨p, x, h1, hx⟩
      cases h1
      simp only [toJsonValue, StmtColumnValue.newVarstring, Option.map_eq_some_iff] at hx
      obtain ⟨a, ha, -⟩ := hx
      exact ⟨a, ha⟩
    · rintro ⟨a, ha⟩
      refine ⟨_, (.str a, false), rfl, ?_⟩
      simp only [toJsonValue, StmtColumnValue.newVarstring, ha, Option.map_some]
  cases v with
  | null => exact ⟨fun _ => trivial, fun _ => ⟨_, _, rfl, rfl⟩⟩
  | tiny n => cases u <;> exact ⟨fun _ => trivial, fun _ => ⟨_, _, rfl, rfl⟩⟩
  | short n => cases u <;> exact ⟨fun _ => trivial, fun _ => ⟨_, _, rfl, rfl⟩⟩
  | long n => cases u <;> exact ⟨fun _ => trivial, fun _ => ⟨_, _, rfl, rfl⟩⟩
  | float n =>
    simp only [StmtColumnValue.ofBinlog, HasJson, Option.some.injEq]
    rw [← hfl]
    constructor
    · rintro ⟨p, x, rfl, hx⟩
      simp only [toJsonValue, StmtColumnValue.newFloat, Option.map_eq_some_iff] at hx
      obtain ⟨a, ha, -⟩ := hx
      exact ⟨a, ha⟩
    · rintro ⟨a, ha⟩
      refine ⟨_, (a, false), rfl, ?_⟩
      simp only [toJsonValue, StmtColumnValue.newFloat, ha, Option.map_some]
  | double n =>
    simp only [StmtColumnValue.ofBinlog, HasJson, Option.some.injEq]
    rw [← hfl]
    constructor
    · rintro ⟨p, x, rfl, hx⟩
      simp only [toJsonValue, StmtColumnValue.newDouble, Option.map_eq_some_iff] at hx
      obtain ⟨a, ha, -⟩ := hx
      exact ⟨a, ha⟩
    · rintro ⟨a, ha⟩
      refine ⟨_, (a, false), rfl, ?_⟩
      simp only [toJsonValue, StmtColumnValue.newDouble, ha, Option.map_some]
  | timestamp n => exact ⟨fun _ => trivial, fun _ => ⟨_, _, rfl, rfl⟩⟩
  | longLong n => cases u <;> exact ⟨fun _ => trivial, fun _ => ⟨_, _, rfl, rfl⟩⟩
  | int24 n =>
    refine ⟨fun _ => trivial, fun _ => ?_⟩
    simp only [StmtColumnValue.ofBinlog]
    split
    · exact ⟨_, _, rfl, rfl⟩
    · split <;> exact ⟨_, _, rfl, rfl⟩
  | year n => exact ⟨fun _ => trivial, fun _ => ⟨_, _, rfl, rfl⟩⟩
  | enum e => exact ⟨fun _ => trivial, fun _ => ⟨_, _, rfl, rfl⟩⟩
  | blob bs => exact ⟨fun _ => trivial, fun _ => ⟨_, _, rfl, rfl⟩⟩
  | geometry bs => exact ⟨fun ⟨p, x, h, _⟩ => (by cases h), fun h => h.elim⟩
  | date y m d' =>
    have h := chrono_isSome ⟨y, m, d', 0, 0, 0, 0⟩
    simp only [StmtColumnValue.ofBinlog, HasJson, Option.map_eq_some_iff]
    constructor
    · rintro ⟨p, x, ⟨a, ha, -⟩, -⟩
      exact (h.1 ⟨a, ha⟩).1
    · intro hd'
      obtain ⟨a, ha⟩ := h.2 ⟨hd', (by decide : 0 < 24), (by decide : 0 < 60), (by decide : 0 < 60), (by decide : 0 < 2000000)⟩
      exact ⟨_, _, ⟨a, ha, rfl⟩, rfl⟩
  | dateTime t =>
    have h := chrono_isSome t
    simp only [StmtColumnValue.ofBinlog, HasJson, Option.map_eq_some_iff]
    constructor
    · rintro ⟨p, x, ⟨a, ha, -⟩, -⟩
      exact h.1 ⟨a, ha⟩
    · intro hd'
      obtain ⟨a, ha⟩ := h.2 hd'
      exact ⟨_, _, ⟨a, ha, rfl⟩, rfl⟩
  | time t =>
    simp only [StmtColumnValue.ofBinlog, HasJson, Option.some.injEq]
    rw [← jsonTime_isSome]
    constructor
    · rintro ⟨p, x, rfl, hx⟩
      simp only [toJsonValue, StmtColumnValue.newMyTime, Option.map_eq_some_iff] at hx
      obtain ⟨a, ha, -⟩ := hx
      exact ⟨a, ha⟩
    · rintro ⟨a, ha⟩
      refine ⟨_, (.str a, false), rfl, ?_⟩
      simp only [toJsonValue, StmtColumnValue.newMyTime, ha, Option.map_some]
  | bit bs =>
    have h := bitSum_isSome bs 0
    have h8 : (bs = [] ∨ 0 + bs.length ≤ 8) ↔ bs.length ≤ 8 := by
      constructor
      · rintro (rfl | h)
        · simp
        · omega
      · intro h; right; omega
    simp only [StmtColumnValue.ofBinlog, HasJson, Option.some.injEq]
    rw [← h8, ← h]
    constructor
    · rintro ⟨p, x, rfl, hx⟩
      cases hb : bitSum 0 bs with
      | none => rw [toJsonValue] at hx; simp only [StmtColumnValue.newBit, hb] at hx; cases hx
      | some n => exact ⟨n, rfl⟩
    · rintro ⟨a, ha⟩
      refine ⟨_, (.int a, false), rfl, ?_⟩
      rw [toJsonValue]
      simp only [StmtColumnValue.newBit, ha]
      rfl
  | newDecimal d' =>
    simp only [StmtColumnValue.ofBinlog, HasJson, Option.map_eq_some_iff]
    rw [← display_isSome]
    constructor
    · rintro ⟨p, x, ⟨a, ha, -⟩, -⟩
      exact ⟨a, ha⟩
    · rintro ⟨a, ha⟩
      refine ⟨_, (.str (ascChars a), false), ⟨a, ha, rfl⟩, ?_⟩
      simp only [toJsonValue, StmtColumnValue.newDecimal, utf8Unwrap, display_ascii d' a ha, if_true, Option.map_some]
  | varString bs => exact hstr bs
  | string bs => exact hstr bs


/-! ### rows -/

theorem exists_forall₂ {α β : Type} {R : α → β → Prop} {l : List α} {l' : List β} (h : List.Forall₂ R l l') :
    ∀ a ∈ l, ∃ b, R a b := by
  induction h with
  | nil => intro a ha; cases ha
  | cons h1 _ ih =>
    intro a ha
    rcases List.mem_cons.1 ha with rfl | ha
    · exact ⟨_, h1⟩
    · exact ih a ha

/-- the days of all times are 32-bit fields -/
def RowDaysFit (row : List BinlogColumnValue) : Prop := ∀ v ∈ row, DaysFit v

theorem logged_mem (present : List Bool) (defs : List ColumnDefinition) (row : List BinlogColumnValue)
    (x : ColumnDefinition × BinlogColumnValue) (h : x ∈ logged present defs row) : x.2 ∈ row := by
  unfold logged at h
  obtain ⟨y, hy, rfl⟩ := List.mem_map.1 h
  exact (List.of_mem_zip (List.of_mem_zip (List.mem_of_mem_filter hy)).2).2

/-- C83: the statements for inserted rows are made exactly when every logged value can be written. (Logged columns
first, see `C40_insert_false`.) -/
theorem C83_insert_partial (ft : FloatText) (db tbl extra bm : Bytes) (n : Nat) (present : List Bool)
    (defs : List ColumnDefinition) (rows : List (List BinlogColumnValue))
    (hc : Covers bm present) (hl : present.length = defs.length) (hf : Front present)
    (hr : ∀ row ∈ rows, row.length = defs.length) (hd : ∀ row ∈ rows, RowDaysFit row) :
    (∃ p stmts, PreparedSql.fromInsert db tbl ⟨extra, n, bm, rows⟩ defs = some p ∧ p.sqlList ft = some stmts) ↔
      ∀ row ∈ rows, ∀ x ∈ logged present defs row, HasSql x.2 := by
  constructor
  · rintro ⟨p, stmts, hp, hs⟩ row hrow x hx
    obtain ⟨stmt, ls, h1, -⟩ := exists_forall₂
      (C40_insert_partial ft db tbl extra bm n present defs rows p stmts hc hl hf hr hp hs) row hrow
    exact (C83_sql_value ft x.1 x.2 (hd row hrow _ (logged_mem _ _ _ _ hx))).1 (exists_forall₂ h1 x hx)
  · intro h
    exact C40_insert_total ft db tbl extra bm n present defs rows hc hl hf hr fun row hrow x hx =>
      (C83_sql_value ft x.1 x.2 (hd row hrow _ (logged_mem _ _ _ _ hx))).2 (h row hrow x hx)

/-- C83: for deleted rows the values of the key columns matter, and only they. -/
theorem C83_delete_partial (ft : FloatText) (db tbl extra bm : Bytes) (n : Nat) (present : List Bool)
    (defs : List ColumnDefinition) (rows : List (List BinlogColumnValue))
    (hc : Covers bm present) (hl : present.length = defs.length) (hf : Front present)
    (hr : ∀ row ∈ rows, row.length = defs.length) (hd : ∀ row ∈ rows, RowDaysFit row) :
    (∃ p stmts, PreparedSql.fromDelete db tbl ⟨extra, n, bm, rows⟩ defs = some p ∧ p.sqlList ft = some stmts) ↔
      ∀ row ∈ rows, ∀ x ∈ logged present defs row, IsKey x.1 = true → HasSql x.2 := by
  constructor
  · rintro ⟨p, stmts, hp, hs⟩ row hrow x hx hk
    obtain ⟨stmt, ls, h1, -⟩ := exists_forall₂
      (C40_delete_partial ft db tbl extra bm n present defs rows p stmts hc hl hf hr hp hs) row hrow
    exact (C83_sql_value ft x.1 x.2 (hd row hrow _ (logged_mem _ _ _ _ hx))).1
      (exists_forall₂ h1 x (List.mem_filter.2 ⟨hx, hk⟩))
  · intro h
    exact C40_delete_total ft db tbl extra bm n present defs rows hc hl hf hr fun row hrow x hx hk =>
      (C83_sql_value ft x.1 x.2 (hd row hrow _ (logged_mem _ _ _ _ hx))).2 (h row hrow x hx hk)

/-- C83: for updated rows the values after the change and those of the key before it. -/
theorem C83_update_partial (ft : FloatText) (db tbl extra bb ab : Bytes) (n : Nat) (before after : List Bool)
    (defs : List ColumnDefinition) (rows : List (List BinlogColumnValue × List BinlogColumnValue))
    (hb : Covers bb before) (hbl : before.length = defs.length) (hbf : Front before)
    (ha : Covers ab after) (hal : after.length = defs.length) (haf : Front after)
    (hr : ∀ row ∈ rows, row.1.length = defs.length ∧ row.2.length = defs.length)
    (hd : ∀ row ∈ rows, RowDaysFit row.1 ∧ RowDaysFit row.2) :
    (∃ p stmts, PreparedSql.fromUpdate db tbl ⟨extra, n, bb, ab, rows⟩ defs = some p ∧ p.sqlList ft = some stmts) ↔
      ∀ row ∈ rows, (∀ x ∈ logged before defs row.1, IsKey x.1 = true → HasSql x.2) ∧
        ∀ x ∈ logged after defs row.2, HasSql x.2 := by
  constructor
  · rintro ⟨p, stmts, hp, hs⟩ row hrow
    obtain ⟨stmt, ls, ks, h1, h2, -⟩ := exists_forall₂
      (C40_update_partial ft db tbl extra bb ab n before after defs rows p stmts hb hbl hbf ha hal haf hr hp hs) row hrow
    refine ⟨fun x hx hk => ?_, fun x hx => ?_⟩
    · exact (C83_sql_value ft x.1 x.2 ((hd row hrow).1 _ (logged_mem _ _ _ _ hx))).1
        (exists_forall₂ h2 x (List.mem_filter.2 ⟨hx, hk⟩))
    · exact (C83_sql_value ft x.1 x.2 ((hd row hrow).2 _ (logged_mem _ _ _ _ hx))).1 (exists_forall₂ h1 x hx)
  · intro h
    exact C40_update_total ft db tbl extra bb ab n before after defs rows hb hbl hbf ha hal haf hr fun row hrow =>
      ⟨fun x hx hk => (C83_sql_value ft x.1 x.2 ((hd row hrow).1 _ (logged_mem _ _ _ _ hx))).2 ((h row hrow).1 x hx hk),
       fun x hx => (C83_sql_value ft x.1 x.2 ((hd row hrow).2 _ (logged_mem _ _ _ _ hx))).2 ((h row hrow).2 x hx)⟩

theorem jsonImage_isSome (lib : JsonLib) (dedup : Bool) (xs : List (ColumnDefinition × BinlogColumnValue)) :
    ∀ acc, (∃ r, jsonImage lib dedup (xs.map fun x => (ColDef.of x.1, x.2)) acc = some r) ↔
      ∀ x ∈ xs, HasJson lib x.2 := by
  induction xs with
  | nil => intro acc; simp [jsonImage]
  | cons x xs ih =>
    rintro ⟨m, enc⟩
    have hv := C83_json_value lib x.1 x.2
    rw [List.map_cons, jsonImage, colDef_unsigned, List.forall_mem_cons, ← hv]
    cases h1 : StmtColumnValue.ofBinlog x.2 (x.1.flags.testBit 5) with
    | none =>
      dsimp only
      constructor
      · rintro ⟨r, hr⟩; cases hr
      · rintro ⟨⟨r, p, hp, -⟩, -⟩
        dsimp only at hp
        rw [h1] at hp; cases hp
    | some sv =>
      dsimp only
      cases h2 : toJsonValue lib sv with
      | none =>
        dsimp only
        constructor
        · rintro ⟨r, hr⟩; cases hr
        · rintro ⟨⟨r, p, hp, hq⟩, -⟩
          dsimp only at hp
          rw [h1] at hp; cases hp
          rw [h2] at hq; cases hq
      | some je =>
        obtain ⟨jv, e⟩ := je
        dsimp only
        rw [ih]
        exact ⟨fun h => ⟨⟨_, sv, h1, h2⟩, h⟩, fun h => h.2⟩

theorem allSome_isSome {α β : Type} (f : α → Option β) (l : List α) :
    (∃ r, allSome (l.map f) = some r) ↔ ∀ a ∈ l, ∃ b, f a = some b := by
  induction l with
  | nil => simp [allSome]
  | cons a l ih =>
    rw [List.map_cons, List.forall_mem_cons, ← ih]
    cases h : f a with
    | none => simp [allSome]
    | some b => simp [allSome]

/-- C83: JSON records for inserted and deleted rows are made exactly when every logged value can be written. -/
theorem C83_json_partial (lib : JsonLib) (db tbl extra bm : Bytes) (n : Nat) (present : List Bool)
    (defs : List ColumnDefinition) (rows : List (List BinlogColumnValue))
    (hc : Covers bm present) (hl : present.length = defs.length) (hf : Front present)
    (hr : ∀ row ∈ rows, row.length = defs.length) :
    ((∃ recs, JsonRows.fromInsert lib db tbl ⟨extra, n, bm, rows⟩ defs = some recs) ↔
      ∀ row ∈ rows, ∀ x ∈ logged present defs row, HasJson lib x.2) ∧
    ((∃ recs, JsonRows.fromDelete lib db tbl ⟨extra, n, bm, rows⟩ defs = some recs) ↔
      ∀ row ∈ rows, ∀ x ∈ logged present defs row, HasJson lib x.2) := by
  have key : ∀ row ∈ rows,
      ((∃ r, jsonImage lib false ((filterColDefs bm defs).zip row) ([], []) = some r) ↔
        ∀ x ∈ logged present defs row, HasJson lib x.2) := by
    intro row hrow
    rw [zip_filterColDefs_all bm present defs row hc hl hf (hr row hrow)]
    exact jsonImage_isSome lib false _ _
  unfold JsonRows.fromInsert JsonRows.fromDelete
  dsimp only
  rw [allSome_isSome, allSome_isSome]
  constructor
  · refine forall_congr' fun row => forall_congr' fun hrow => ?_
    rw [← key row hrow]
    simp only [Option.map_eq_some_iff]
    exact ⟨fun ⟨_, a, h, _⟩ => ⟨a, h⟩, fun ⟨a, h⟩ => ⟨_, a, h, rfl⟩⟩
  · refine forall_congr' fun row => forall_congr' fun hrow => ?_
    rw [← key row hrow]
    simp only [Option.map_eq_some_iff]
    exact ⟨fun ⟨_, a, h, _⟩ => ⟨a, h⟩, fun ⟨a, h⟩ => ⟨_, a, h, rfl⟩⟩

/-- C83: and those for updated rows when every value before and after can. -/
theorem C83_json_update_partial (lib : JsonLib) (db tbl extra bb ab : Bytes) (n : Nat) (before after : List Bool)
    (defs : List ColumnDefinition) (rows : List (List BinlogColumnValue × List BinlogColumnValue))
    (hb : Covers bb before) (hbl : before.length = defs.length) (hbf : Front before)
    (ha : Covers ab after) (hal : after.length = defs.length) (haf : Front after)
    (hr : ∀ row ∈ rows, row.1.length = defs.length ∧ row.2.length = defs.length) :
    (∃ recs, JsonRows.fromUpdate lib db tbl ⟨extra, n, bb, ab, rows⟩ defs = some recs) ↔
      ∀ row ∈ rows, (∀ x ∈ logged before defs row.1, HasJson lib x.2) ∧
        ∀ x ∈ logged after defs row.2, HasJson lib x.2 := by
  unfold JsonRows.fromUpdate
  dsimp only
  rw [allSome_isSome]
  refine forall_congr' fun row => forall_congr' fun hrow => ?_
  unfold jsonUpdateRow
  rw [zip_filterColDefs_all bb before defs row.1 hb hbl hbf (hr row hrow).1,
    zip_filterColDefs_all ab after defs row.2 ha hal haf (hr row hrow).2]
  have h1 := jsonImage_isSome lib false (logged before defs row.1) ([], [])
  cases e1 : jsonImage lib false ((logged before defs row.1).map fun x => (ColDef.of x.1, x.2)) ([], []) with
  | none =>
    rw [e1] at h1
    dsimp only
    constructor
    · rintro ⟨b, hb'⟩; cases hb'
    · intro h
      obtain ⟨r, hr'⟩ := h1.2 h.1
      cases hr'
  | some r =>
    obtain ⟨m, enc⟩ := r
    dsimp only
    have h2 := jsonImage_isSome lib true (logged after defs row.2) ([], enc)
    simp only [Option.map_eq_some_iff]
    rw [e1] at h1
    have h1' := h1.1 ⟨_, rfl⟩
    rw [← h2]
    exact ⟨fun ⟨_, a, h, _⟩ => ⟨h1', a, h⟩, fun ⟨_, a, h⟩ => ⟨_, a, h, rfl⟩⟩

/-! ### values from the log -/

theorem P.times_ok_length {α : Type} (p : P α) (n : Nat) : ∀ (bs r : Bytes) (l : List α),
    P.times p n bs = .ok l r → l.length = n := by
  induction n with
  | zero => intro bs r l h; cases h; rfl
  | succ n ih =>
    intro bs r l h
    rw [P.times, P.bind_eq_ok] at h
    obtain ⟨a, r1, -, h⟩ := h
    rw [P.bind_eq_ok] at h
    obtain ⟨as, r2, h1, h⟩ := h
    cases h
    rw [List.length_cons, ih _ _ _ h1]

theorem readDigits_hasDigits (intg frac : Nat) (neg : Bool) (bs r : Bytes) (d : MyDecimal)
    (h : MyDecimal.readDigits intg frac neg bs = .ok d r) : HasDigits d := by
  unfold MyDecimal.readDigits at h
  rw [P.bind_eq_ok] at h
  obtain ⟨first, r1, h1, h⟩ := h
  rw [P.bind_eq_ok] at h
  obtain ⟨ints, r2, h2, h⟩ := h
  rw [P.bind_eq_ok] at h
  obtain ⟨fracs, r3, h3, h⟩ := h
  rw [P.bind_eq_ok] at h
  obtain ⟨last, r4, h4, h⟩ := h
  cases h
  have e2 := P.times_ok_length _ _ _ _ _ h2
  have e3 := P.times_ok_length _ _ _ _ _ h3
  have e1 : intg - intg / 9 * 9 > 0 → first.length = 1 := by
    intro hp
    rw [if_pos hp, P.bind_eq_ok] at h1
    obtain ⟨f, r', -, h1⟩ := h1
    cases h1; rfl
  have e4 : frac - frac / 9 * 9 > 0 → last.length = 1 := by
    intro hp
    rw [if_pos hp, P.bind_eq_ok] at h4
    obtain ⟨f, r', -, h4⟩ := h4
    rw [P.bind_eq_ok] at h4
    obtain ⟨f, r', -, h4⟩ := h4
    cases h4; rfl
  right
  simp only [List.length_append, e2, e3]
  omega

theorem mod_small (hours : Nat) (h : hours < 2048) :
    -2 ^ 31 ≤ Spec.twos 32 (hours / 24) * 24 ∧ Spec.twos 32 (hours / 24) * 24 + ((hours - hours / 24 * 24) % 256 : Nat) < 2 ^ 31 := by
  have hd : hours / 24 < 2 ^ 31 := by omega
  have : Spec.twos 32 (hours / 24) = ((hours / 24 : Nat) : Int) := by
    rw [← asSigned_eq_twos (by decide) (by omega), asSigned, if_pos (by omega)]
  rw [this]
  omega

theorem decoded_kinds (m : ColumnMeta) (bs r : Bytes) (v : BinlogColumnValue)
    (h : BinlogColumnValue.readFrom m bs = .ok v r) :
    DaysFit v ∧ (HasSql v ∨ (∃ y mo d, v = .date y mo d) ∨ (∃ t, v = .dateTime t) ∨ (∃ b, v = .bit b) ∨
      ∃ b, (v = .varString b ∨ v = .string b) ∧ 0x27 ∉ b ∧ validUtf8 b = false) := by
  have easy : ∀ w, v = w → (∀ t, w ≠ .time t) → HasSql w → DaysFit v ∧ (HasSql v ∨ (∃ y mo d, v = .date y mo d) ∨
      (∃ t, v = .dateTime t) ∨ (∃ b, v = .bit b) ∨
      ∃ b, (v = .varString b ∨ v = .string b) ∧ 0x27 ∉ b ∧ validUtf8 b = false) := by
    rintro w rfl hw hs
    exact ⟨fun t ht => absurd ht (hw t), Or.inl hs⟩
  have time : ∀ t : MyTime, v = .time t → (∃ hours, hours < 2048 ∧ t.days = hours / 24 ∧
      t.hour = (hours - hours / 24 * 24) % 256) → DaysFit v ∧ (HasSql v ∨ (∃ y mo d, v = .date y mo d) ∨
      (∃ t, v = .dateTime t) ∨ (∃ b, v = .bit b) ∨
      ∃ b, (v = .varString b ∨ v = .string b) ∧ 0x27 ∉ b ∧ validUtf8 b = false) := by
    rintro t rfl ⟨hours, h1, h2, h3⟩
    refine ⟨?_, Or.inl ?_⟩
    · intro t' ht
      cases ht
      omega
    · show -2 ^ 31 ≤ Spec.twos 32 t.days * 24 ∧ Spec.twos 32 t.days * 24 + t.hour < 2 ^ 31
      rw [h2, h3]
      exact mod_small hours h1
  have text : ∀ b, v = .varString b ∨ v = .string b → DaysFit v ∧ (HasSql v ∨ (∃ y mo d, v = .date y mo d) ∨
      (∃ t, v = .dateTime t) ∨ (∃ b, v = .bit b) ∨
      ∃ b, (v = .varString b ∨ v = .string b) ∧ 0x27 ∉ b ∧ validUtf8 b = false) := by
    intro b hb
    refine ⟨?_, ?_⟩
    · intro t ht; rcases hb with rfl | rfl <;> cases ht
    · by_cases hq : 0x27 ∈ b
      · left; rcases hb with rfl | rfl <;> exact Or.inl hq
      · cases hv : validUtf8 b with
        | true => left; rcases hb with rfl | rfl <;> exact Or.inr hv
        | false => exact Or.inr (Or.inr (Or.inr (Or.inr ⟨b, hb, hq, hv⟩)))
  have hms : ∀ p : Nat, (p >>> 12) % (1 <<< 10) < 2048 := by
    intro p
    have : (p >>> 12) % (1 <<< 10) < 1 <<< 10 := Nat.mod_lt _ (by decide)
    exact Nat.lt_trans this (by decide)
  unfold BinlogColumnValue.readFrom at h
  cases m with
  | decimal => cases h
  | geometry n => cases h
  | null => cases h; exact easy _ rfl (by simp) trivial
  | tiny => rw [P.bind_eq_ok] at h; obtain ⟨n, r1, -, h⟩ := h; cases h; exact easy _ rfl (by simp) trivial
  | short => rw [P.bind_eq_ok] at h; obtain ⟨n, r1, -, h⟩ := h; cases h; exact easy _ rfl (by simp) trivial
  | long => rw [P.bind_eq_ok] at h; obtain ⟨n, r1, -, h⟩ := h; cases h; exact easy _ rfl (by simp) trivial
  | float _ => rw [P.bind_eq_ok] at h; obtain ⟨n, r1, -, h⟩ := h; cases h; exact easy _ rfl (by simp) trivial
  | double _ => rw [P.bind_eq_ok] at h; obtain ⟨n, r1, -, h⟩ := h; cases h; exact easy _ rfl (by simp) trivial
  | timestamp _ => rw [P.bind_eq_ok] at h; obtain ⟨n, r1, -, h⟩ := h; cases h; exact easy _ rfl (by simp) trivial
  | longLong => rw [P.bind_eq_ok] at h; obtain ⟨n, r1, -, h⟩ := h; cases h; exact easy _ rfl (by simp) trivial
  | int24 => rw [P.bind_eq_ok] at h; obtain ⟨n, r1, -, h⟩ := h; cases h; exact easy _ rfl (by simp) trivial
  | year => rw [P.bind_eq_ok] at h; obtain ⟨n, r1, -, h⟩ := h; cases h; exact easy _ rfl (by simp) trivial
  | date =>
    rw [P.bind_eq_ok] at h; obtain ⟨n, r1, -, h⟩ := h; cases h
    exact ⟨fun t ht => (by cases ht), Or.inr (Or.inl ⟨_, _, _, rfl⟩)⟩
  | dateTime _ =>
    rw [P.bind_eq_ok] at h; obtain ⟨n, r1, -, h⟩ := h; cases h
    exact ⟨fun t ht => (by cases ht), Or.inr (Or.inr (Or.inl ⟨_, rfl⟩))⟩
  | bit a b =>
    dsimp only at h
    generalize b + (if a > 0 then 1 else 0) = len at h
    split at h
    · rw [P.bind_eq_ok] at h; obtain ⟨n, r1, -, h⟩ := h; cases h
      exact ⟨fun t ht => (by cases ht), Or.inr (Or.inr (Or.inr (Or.inl ⟨_, rfl⟩)))⟩
    · cases h
  | time =>
    rw [P.bind_eq_ok] at h; obtain ⟨n, r1, hn, h⟩ := h; cases h
    refine time _ rfl ⟨(if (n &&& 0x800000 == 0x800000) = true then 2 ^ 32 - (n ||| 0xff000000) else n) / 10000, ?_, rfl, rfl⟩
    have hlt : n < 2 ^ 24 := by
      by_cases hb : 3 ≤ bs.length
      · rw [(fixedRead_leU24 bs).1 hb] at hn
        cases hn
        have := leVal_lt (bs.take 3)
        rwa [List.length_take, Nat.min_eq_left hb] at this
      · rw [(fixedRead_leU24 bs).2 (by omega)] at hn
        cases hn
    have : 0xff000000 ≤ (n ||| 0xff000000) := Nat.right_le_or
    split <;> omega
  | time2 f =>
    rw [P.bind_eq_ok] at h; obtain ⟨t, r1, ht, h⟩ := h; cases h
    unfold MyTime.fromBinlog at ht
    rw [P.bind_eq_ok] at ht
    obtain ⟨⟨packed, neg⟩, r2, -, ht⟩ := ht
    cases ht
    exact time _ rfl ⟨_, hms _, rfl, rfl⟩
  | newDecimal p f =>
    dsimp only at h
    split at h
    · rw [P.bind_eq_ok] at h; obtain ⟨d, r1, hd, h⟩ := h; cases h
      refine easy _ rfl (by simp) ?_
      unfold MyDecimal.readFrom at hd
      cases bs with
      | nil => cases hd; exact Or.inl rfl
      | cons b t => exact readDigits_hasDigits _ _ _ _ _ _ hd
    · cases h
  | enum p =>
    dsimp only at h
    have hp : (∃ (rd : P Nat) (mk : Nat → MyEnum), readEnum p = (rd >>= fun n => pure (.enum (mk n)))) ∨
        readEnum p = P.fail .constraint := by
      unfold readEnum
      split
      · exact Or.inl ⟨_, _, rfl⟩
      · exact Or.inl ⟨_, _, rfl⟩
      · exact Or.inl ⟨_, _, rfl⟩
      · exact Or.inl ⟨_, _, rfl⟩
      · exact Or.inl ⟨_, _, rfl⟩
      · exact Or.inr rfl
    rcases hp with ⟨rd, mk, hp⟩ | hp
    · rw [hp, P.bind_eq_ok] at h; obtain ⟨n, r1, -, h⟩ := h; cases h; exact easy _ rfl (by simp) trivial
    · rw [hp] at h; cases h
  | blob p =>
    rw [P.bind_eq_ok] at h; obtain ⟨n, r1, -, h⟩ := h
    rw [P.bind_eq_ok] at h; obtain ⟨b, r1, -, h⟩ := h
    cases h; exact easy _ rfl (by simp) trivial
  | varString n =>
    rw [P.bind_eq_ok] at h; obtain ⟨len, r1, -, h⟩ := h
    split at h
    · rw [P.bind_eq_ok] at h; obtain ⟨b, r1, -, h⟩ := h
      cases h; exact text _ (Or.inl rfl)
    · cases h
  | string n =>
    rw [P.bind_eq_ok] at h; obtain ⟨len, r1, -, h⟩ := h
    rw [P.bind_eq_ok] at h; obtain ⟨b, r1, -, h⟩ := h
    cases h; exact text _ (Or.inr rfl)

/-- C83: whatever bytes a value of a row is decoded from, it can be written as SQL unless it is a date outside the
calendar, a bit string of more than 64 bits or text that is not UTF-8: times, numbers and the rest always can. -/
theorem C83_decoded (m : ColumnMeta) (bs r : Bytes) (v : BinlogColumnValue)
    (h : BinlogColumnValue.readFrom m bs = .ok v r) :
    DaysFit v ∧ (HasSql v ∨ (∃ y mo d, v = .date y mo d ∧ Spec.dateOk y mo d = false) ∨
      (∃ t, v = .dateTime t ∧ ¬ HasDateTime t) ∨ (∃ b, v = .bit b ∧ 8 < b.length) ∨
      ∃ b, (v = .varString b ∨ v = .string b) ∧ 0x27 ∉ b ∧ validUtf8 b = false) := by
  obtain ⟨h1, h2⟩ := decoded_kinds m bs r v h
  refine ⟨h1, ?_⟩
  by_cases hs : HasSql v
  · exact Or.inl hs
  · rcases h2 with h2 | ⟨y, mo, d, rfl⟩ | ⟨t, rfl⟩ | ⟨b, rfl⟩ | h2
    · exact Or.inl h2
    · exact Or.inr (Or.inl ⟨y, mo, d, rfl, by simpa [HasSql] using hs⟩)
    · exact Or.inr (Or.inr (Or.inl ⟨t, rfl, hs⟩))
    · exact Or.inr (Or.inr (Or.inr (Or.inl ⟨b, rfl, by simpa [HasSql] using hs⟩)))
    · exact Or.inr (Or.inr (Or.inr (Or.inr h2)))

/-- a row with a NULL, an unsigned number, a date and a text with an accent can be written -/
example : ∀ v ∈ [BinlogColumnValue.null, .long 7, .date 2024 2 29, .varString [0xc3, 0xa9]], HasSql v := by
  intro v hv
  simp only [List.mem_cons, List.not_mem_nil, or_false] at hv
  rcases hv with rfl | rfl | rfl | rfl
  · trivial
  · trivial
  · show Spec.dateOk 2024 2 29 = true
    decide
  · exact Or.inr (by decide)

/-- the zero date, a BIT of nine bytes (which no table has) and Latin-1 text cannot -/
example : ¬ HasSql (.date 0 0 0) ∧ ¬ HasSql (.bit (List.replicate 9 0)) ∧ ¬ HasSql (.varString [0xe9]) := by
  refine ⟨?_, by simp [HasSql], ?_⟩
  · show ¬ Spec.dateOk 0 0 0 = true
    decide
  rintro (h | h)
  · revert h; decide
  · revert h; decide

end Mybin
