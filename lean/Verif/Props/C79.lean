/-
C79: a value in a statement made from a row event denotes the value of the row.
-/
import Verif.Props.C37
import Verif.Props.C40_C42
import Verif.Props.C54_C55
import Verif.Props.C66_C69
import Verif.Lemmas.Literal
import Verif.Lemmas.Civil

namespace Mybin

open Spec (ColKind Val Fits storeVal Lit Ends FloatRead)

/-- The values whose text denotes them: all but DATETIMEs with a fraction, dates that the calendar does not have, BIT
values of more than eight bits, DECIMALs with inner zeros, and strings with a backslash, that are not UTF-8, or that
have both a quote and other characters than ASCII. For floats: those whose text is read back. -/
def Writable (ft : FloatText) (fl : FloatRead) : ColKind → Val → Prop
  | .float, .num n =>
    ∃ i s, (∀ tail, Ends tail → Spec.literal (ft.f32 n ++ tail) = some (.number i s, tail)) ∧ fl.f32 i s = n
  | .double, .num n =>
    ∃ i s, (∀ tail, Ends tail → Spec.literal (ft.f64 n ++ tail) = some (.number i s, tail)) ∧ fl.f64 i s = n
  | .date, .date y m d => Spec.dateOk y m d = true
  | .datetime2 _, .datetime y m d _ _ _ us => Spec.dateOk y m d = true ∧ us = 0
  | .bit n, .bytes b => b.length = 1 ∧ ∀ x ∈ b, x.toNat < 2 ^ n
  | .decimal p s, .decimal _ n => NoInnerZeros (p - s) s n
  | .varchar _, .bytes b | .char _, .bytes b =>
    validUtf8 b = true ∧ 0x5c ∉ b ∧ (0x27 ∉ b ∨ ∀ x ∈ b, x < 0x80)
  | _, _ => True

/-- the text of the decoded value `c` in a statement is read as the literal `l` -/
def WrittenAs (ft : FloatText) (u : Bool) (c : BinlogColumnValue) (l : Lit) : Prop :=
  ∃ p text quote, StmtColumnValue.ofBinlog c u = some p ∧ p.toSqlLiteral ft = some (text, quote) ∧
    ∀ tail, Ends tail → Spec.literal (Spec.quotedIf quote text ++ tail) = some (l, tail)

theorem apart_of_ends (t : Bytes) (h : Ends t) : Apart t := by
  rcases h with rfl | ⟨b, r, rfl, h⟩
  · intro b hb; cases hb
  · intro c hc
    injection hc with hc
    subst hc
    rcases h with rfl | rfl | rfl <;> decide

theorem noQuote_of_ends (t : Bytes) (h : Ends t) : t.head? ≠ some 0x27 := by
  rcases h with rfl | ⟨b, r, rfl, h⟩
  · simp
  · intro hc
    injection hc with hc
    subst hc
    rcases h with h | h | h <;> exact absurd h (by decide)

/-! ### integers -/

theorem storeInt_unsigned (w n : Nat) (h : n < 2 ^ w) : Spec.storeInt w true (n : Int) = some (.num n) := by
  have h' : (n : Int) < 2 ^ w := by exact_mod_cast h
  rw [Spec.storeInt, if_pos]
  · congr 2
    unfold Spec.pattern
    rw [← Int.natCast_mod, Nat.mod_eq_of_lt h]; rfl
  · rw [if_pos rfl]; exact ⟨by omega, h'⟩

theorem storeInt_signed (w n : Nat) (hw : 0 < w) (h : n < 2 ^ w) :
    Spec.storeInt w false (asSigned w n) = some (.num n) := by
  have e := asUnsigned_asSigned w n hw h
  rw [asUnsigned_eq_pattern] at e
  rw [Spec.storeInt, if_pos, e]
  rw [if_neg (by decide)]
  obtain ⟨v, rfl⟩ : ∃ v, w = v + 1 := ⟨w - 1, by omega⟩
  have h2 : (2 : Nat) ^ (v + 1) = 2 * 2 ^ v := by rw [pow_succ]; ring
  have hp : (2 : Int) ^ v = ((2 ^ v : Nat) : Int) := by push_cast; rfl
  have hq : (2 : Int) ^ (v + 1) = ((2 ^ (v + 1) : Nat) : Int) := by push_cast; rfl
  unfold asSigned
  simp only [Nat.add_sub_cancel]
  rw [hp, hq]
  split <;> constructor <;> push_cast <;> omega

/-! ### decimals -/

theorem digit_of_isDigit (c : Char) (h : c.isDigit = true) :
    0x30 ≤ UInt8.ofNat c.toNat ∧ UInt8.ofNat c.toNat ≤ 0x39 ∧
      Spec.digit? (UInt8.ofNat c.toNat) = some (c.toNat - 48) := by
  have h1 : 48 ≤ c.toNat ∧ c.toNat ≤ 57 := by
    simp only [Char.isDigit, ge_iff_le, Bool.and_eq_true, decide_eq_true_eq] at h
    exact ⟨UInt32.le_iff_toNat_le.1 h.1, UInt32.le_iff_toNat_le.1 h.2⟩
  generalize c.toNat = n at *
  have : n = 48 ∨ n = 49 ∨ n = 50 ∨ n = 51 ∨ n = 52 ∨ n = 53 ∨ n = 54 ∨ n = 55 ∨ n = 56 ∨ n = 57 := by omega
  rcases this with rfl | rfl | rfl | rfl | rfl | rfl | rfl | rfl | rfl | rfl <;> decide

theorem readDigits_chars (l : List Char) (h : ∀ c ∈ l, c.isDigit = true) : ∀ acc,
    Spec.readDigits acc (ascChars l) = some (Nat.ofDigitChars 10 l acc) := by
  induction l with
  | nil => intro acc; rfl
  | cons c l ih =>
    intro acc
    have hd := (digit_of_isDigit c (h c List.mem_cons_self)).2.2
    show Spec.readDigits acc (UInt8.ofNat c.toNat :: ascChars l) = _
    rw [Spec.readDigits, hd]
    dsimp only
    rw [ih (fun c hc => h c (List.mem_cons_of_mem _ hc)), Nat.ofDigitChars_cons]
    congr 2
    have : '0'.toNat = 48 := rfl
    rw [this]; ring

theorem allDigits_chars (l : List Char) (h : ∀ c ∈ l, c.isDigit = true) : AllDigits (ascChars l) := by
  intro b hb
  obtain ⟨c, hc, rfl⟩ := List.mem_map.1 hb
  have := digit_of_isDigit c (h c hc)
  exact ⟨this.1, this.2.1⟩

theorem readNat_chars (l : List Char) (hne : l ≠ []) (h : ∀ c ∈ l, c.isDigit = true) :
    Spec.readNat (ascChars l) = some (Nat.ofDigitChars 10 l 0) := by
  rw [Spec.readNat, if_neg (by simpa [ascChars] using hne), readDigits_chars l h]

theorem ascChars_append (a b : List Char) : ascChars (a ++ b) = ascChars a ++ ascChars b := List.map_append

/-- the text of a decimal is read as its units and scale -/
theorem literal_decimal (neg : Bool) (ip fp : List Char) (s n : Nat) (hne : ip ≠ [])
    (hd : ∀ c ∈ ip ++ fp, c.isDigit = true) (hi : Nat.ofDigitChars 10 ip 0 = n / 10 ^ s) (hl : fp.length = s)
    (hf : Nat.ofDigitChars 10 fp 0 = n % 10 ^ s) (tail : Bytes) (ht : Apart tail) :
    Spec.literal (ascChars ((if neg then ['-'] else []) ++ ip ++ (if s = 0 then [] else '.' :: fp)) ++ tail)
      = some (.number (if neg then -(n : Int) else n) s, tail) := by
  have hdi := allDigits_chars ip (fun c hc => hd c (List.mem_append_left _ hc))
  have hdf := allDigits_chars fp (fun c hc => hd c (List.mem_append_right _ hc))
  have core : Spec.unsignedNumber (ascChars ip ++ (ascChars (if s = 0 then [] else '.' :: fp) ++ tail)) = some (n, s, tail) := by
    by_cases hs : s = 0
    · rw [if_pos hs]
      subst hs
      have := unsignedNumber_whole (ascChars ip) tail n hdi (by
        rw [readNat_chars ip hne (fun c hc => hd c (List.mem_append_left _ hc)), hi]; simp) ht
      simpa [ascChars] using this
    · rw [if_neg hs]
      have := unsignedNumber_point (ascChars ip) (ascChars fp) tail n hdi hdf (by
        rw [← ascChars_append, readNat_chars _ (by simp [hne]) hd, Nat.ofDigitChars_append, hi,
          Nat.ofDigitChars_eq_ofDigitChars_zero, hf, hl, Nat.div_add_mod]) ht
      rw [show (ascChars fp).length = s by rw [ascChars, List.length_map, hl]] at this
      exact this
  obtain ⟨c, t, e⟩ := List.exists_cons_of_ne_nil hne
  have hc := digit_of_isDigit c (hd c (by rw [e]; simp))
  cases neg with
  | false =>
    rw [if_neg (by decide), List.nil_append, ascChars_append, List.append_assoc,
      literal_digit _ (UInt8.ofNat c.toNat) (by rw [e]; rfl) ⟨hc.1, hc.2.1⟩, core]
    rfl
  | true =>
    rw [if_pos rfl, ascChars_append, ascChars_append, List.append_assoc, List.append_assoc]
    show Spec.literal (0x2d :: (ascChars ip ++ _)) = _
    rw [literal_minus, core]
    rfl

theorem baseValue_inj : ∀ (a b : List Nat), a.length = b.length → (∀ g ∈ a, g < 10 ^ 9) → (∀ g ∈ b, g < 10 ^ 9) →
    Spec.baseValue a = Spec.baseValue b → a = b := by
  intro a
  induction a using List.reverseRecOn with
  | nil => intro b hl _ _ _; exact (List.length_eq_zero_iff.1 hl.symm).symm
  | append_singleton a x ih =>
    intro b hl ha hb he
    induction b using List.reverseRecOn with
    | nil => simp at hl
    | append_singleton b y _ =>
      unfold Spec.baseValue at he
      rw [List.foldl_append, List.foldl_append] at he
      simp only [List.foldl_cons, List.foldl_nil] at he
      have hx := ha x (by simp)
      have hy := hb y (by simp)
      have h1 : x = y := by omega
      have h2 := ih b (by simpa using hl) (fun g hg => ha g (by simp [hg])) (fun g hg => hb g (by simp [hg]))
        (by unfold Spec.baseValue; omega)
      rw [h1, h2]

/-- a DECIMAL value has one decoded form -/
theorem denotes_unique (k : ColKind) (v : Val) (c c' : BinlogColumnValue) (h : Denotes k v c) (h' : Denotes k v c') : c = c' := by
  cases k <;> cases v <;> simp only [Denotes] at h h' <;>
    first
    | (rw [h, h'])
    | (rw [h.2, h'.2])
    | exact h.elim
    | skip
  obtain ⟨ip, fp, rfl, a1, a2, a3, a4, a5⟩ := h
  obtain ⟨ip', fp', rfl, b1, b2, b3, b4, b5⟩ := h'
  have e1 := baseValue_inj ip ip' (by omega) (fun g hg => a3 g (by simp [hg])) (fun g hg => b3 g (by simp [hg])) (by omega)
  have e2 := baseValue_inj fp fp' (by omega) (fun g hg => a3 g (by simp [hg])) (fun g hg => b3 g (by simp [hg])) (by
    rw [← b5] at a5
    exact Nat.eq_of_mul_eq_mul_right (Nat.pow_pos (by omega)) a5)
  rw [e1, e2]

/-! ### the literal of each value -/

theorem dateOk_bounds (y m d : Nat) (h : Spec.dateOk y m d = true) : 1 ≤ m ∧ m ≤ 12 ∧ 1 ≤ d ∧ d ≤ 31 ∧ d ≤ daysInMonth y m := by
  simp only [Spec.dateOk, decide_eq_true_eq] at h
  obtain ⟨h1, h2, h3, h4⟩ := h
  have e : Spec.monthDays y m = daysInMonth y m := by
    unfold Spec.monthDays daysInMonth
    simp only [Spec.leapYear, decide_eq_true_eq, List.mem_cons, List.not_mem_nil, or_false]
  have : daysInMonth y m ≤ 31 := by
    unfold daysInMonth
    split
    · split <;> omega
    · split <;> omega
  rw [e] at h4
  exact ⟨h1, h2, h3, by omega, h4⟩

theorem asUnsigned_nat (n : Nat) (h : n < 2 ^ 16) : asUnsigned 16 (n : Int) = n := by
  unfold asUnsigned
  omega

/-- a text of digits and separators in quotes -/
theorem literal_quoted (t tail : Bytes) (h1 : 0x27 ∉ t) (h2 : 0x5c ∉ t) (ht : Ends tail) :
    Spec.literal (Spec.quotedIf true t ++ tail) = some (.text t, tail) := by
  have e : Spec.quotedIf true t ++ tail = 0x27 :: (t ++ 0x27 :: tail) := by
    simp only [Spec.quotedIf, if_true, List.append_assoc]; rfl
  rw [e]
  refine literal_quote t _ tail ?_
  rw [Spec.stringLiteral, if_pos rfl]
  exact stringBody_verbatim t tail h1 h2 (noQuote_of_ends tail ht)

/-- no quote and no backslash -/
def Harmless (t : Bytes) : Prop := 0x27 ∉ t ∧ 0x5c ∉ t

theorem harmless_digits (t : Bytes) (h : AllDigits t) : Harmless t :=
  ⟨fun hc => absurd (h _ hc) (by decide), fun hc => absurd (h _ hc) (by decide)⟩

theorem harmless_append (a b : Bytes) (ha : Harmless a) (hb : Harmless b) : Harmless (a ++ b) := by
  constructor
  · rw [List.mem_append]; exact fun h => h.elim ha.1 hb.1
  · rw [List.mem_append]; exact fun h => h.elim ha.2 hb.2

theorem harmless_asc : Harmless (asc "-") ∧ Harmless (asc " ") ∧ Harmless (asc ":") ∧ Harmless (asc ".") ∧ Harmless [] := by
  refine ⟨⟨?_, ?_⟩, ⟨?_, ?_⟩, ⟨?_, ?_⟩, ⟨?_, ?_⟩, ⟨?_, ?_⟩⟩ <;> decide

theorem harmless_pad (w n : Nat) : Harmless (padText w n) := harmless_digits _ (padText_digits w n)

theorem harmless_date (y m d : Nat) : Harmless (dateText y m d) :=
  harmless_append _ _ (harmless_append _ _ (harmless_append _ _ (harmless_append _ _ (harmless_pad 4 y) harmless_asc.1)
    (harmless_pad 2 m)) harmless_asc.1) (harmless_pad 2 d)

theorem harmless_ms (m s : Nat) : Harmless (msText m s) :=
  harmless_append _ _ (harmless_append _ _ (harmless_pad 2 m) harmless_asc.2.2.1) (harmless_pad 2 s)

theorem harmless_dateTime (t : MyDateTime) : Harmless (dateTimeText t) :=
  harmless_append _ _ (harmless_append _ _ (harmless_append _ _ (harmless_append _ _ (harmless_date _ _ _) harmless_asc.2.1)
    (harmless_pad 2 _)) harmless_asc.2.2.1) (harmless_ms _ _)

theorem harmless_micro (us : Nat) : Harmless (microText us) := by
  unfold microText
  split
  · exact harmless_asc.2.2.2.2
  · exact harmless_append _ _ harmless_asc.2.2.2.1 (harmless_pad 6 us)

theorem newTimestamp_literal (ft : FloatText) (y m d h mi s ns : Nat) (hy : y ≤ 9999) (hd : m ≤ 12 ∧ d ≤ 31)
    (hh : h < 24) (hm : mi < 60) (hs : s < 60) :
    (StmtColumnValue.newTimestamp ⟨y, m, d, h, mi, s, ns⟩).toSqlLiteral ft
      = some (dateTimeText ⟨y, m, d, h, mi, s, 0⟩, true) := by
  simp only [StmtColumnValue.newTimestamp, StmtColumnValue.toSqlLiteral]
  rw [asUnsigned_nat y (by omega), Nat.mod_eq_of_lt (by omega), Nat.mod_eq_of_lt (by omega), Nat.mod_eq_of_lt (by omega),
    Nat.mod_eq_of_lt (by omega), Nat.mod_eq_of_lt (by omega)]

theorem readDateTime_plain (y m d h mi s : Nat) (hy : y ≤ 9999) (hd : m ≤ 12 ∧ d ≤ 31) (hh : h < 24) (hm : mi < 60)
    (hs : s < 60) : Spec.readDateTime (dateTimeText ⟨y, m, d, h, mi, s, 0⟩) = some ((y, m, d), h, mi, s, 0) := by
  have := readDateTime_text ⟨y, m, d, h, mi, s, 0⟩ 0 (show y < 10 ^ 4 by omega) (show m < 10 ^ 2 by omega)
    (show d < 10 ^ 2 by omega) hh hm hs (by omega)
  rw [show microText 0 = [] from rfl, List.append_nil] at this
  exact this

/-- the year of a TIMESTAMP -/
theorem year_of_seconds (y m d h mi s : Nat) (hs : Spec.epochSeconds y m d h mi s < 2 ^ 32) : y ≤ 9999 := by
  by_contra hc
  have h1 : 365 * y ≤ Spec.dayNumber y m d := by
    unfold Spec.dayNumber
    rw [years_sum]; omega
  have h2 : Spec.dayNumber 1970 1 1 = 719528 := by
    unfold Spec.dayNumber; rw [years_sum]; rfl
  unfold Spec.epochSeconds at hs
  rw [h2] at hs
  omega

/-- a MEDIUMINT with the sign bit is extended to 32 bits -/
theorem int24_text (ft : FloatText) (n : Nat) (hn : n < 2 ^ 24) :
    (if n &&& 0x800000 = 0x800000 then StmtColumnValue.newInt (asSigned 32 (n ||| 0xff000000))
      else StmtColumnValue.newInt (asSigned 32 n)).toSqlLiteral ft = some (intText (asSigned 24 n), false) := by
  have hb : n &&& 0x800000 = (n.testBit 23).toNat * 2 ^ 23 := Nat.and_two_pow n 23
  have ht : n.testBit 23 = decide (2 ^ 23 ≤ n) := by
    rw [Nat.testBit_eq_decide_div_mod_eq]
    congr 1
    apply propext
    omega
  have hor : n ||| 0xff000000 = n + 0xff000000 := by
    have := Nat.two_pow_add_eq_or_of_lt hn 255
    rw [Nat.lor_comm]
    exact (this.symm.trans (by omega))
  rw [hb, ht, hor]
  by_cases h : 2 ^ 23 ≤ n
  · rw [decide_eq_true h, if_pos (by decide)]
    have e : asSigned 32 (n + 0xff000000) = asSigned 24 n := by
      unfold asSigned
      simp only [Nat.add_one_sub_one]
      rw [if_neg (by omega), if_neg (by omega)]
      push_cast; omega
    simp only [StmtColumnValue.newInt, StmtColumnValue.toSqlLiteral, Bool.false_eq_true, if_false]
    rw [asUnsigned_asSigned 32 _ (by omega) (by omega), e]
  · rw [decide_eq_false h, if_neg (by decide)]
    have e : asSigned 32 n = asSigned 24 n := by
      unfold asSigned
      rw [if_pos (by omega), if_pos (by omega)]
    simp only [StmtColumnValue.newInt, StmtColumnValue.toSqlLiteral, Bool.false_eq_true, if_false]
    rw [asUnsigned_asSigned 32 _ (by omega) (by omega), e]

theorem string_text (ft : FloatText) (b : Bytes) (h1 : validUtf8 b = true) (h2 : 0x5c ∉ b)
    (h3 : 0x27 ∉ b ∨ ∀ x ∈ b, x < 0x80) :
    ∃ text, (StmtColumnValue.newVarstring b).toSqlLiteral ft = some (text, true) ∧
      ∀ tail, Ends tail → Spec.literal (Spec.quotedIf true text ++ tail) = some (.text b, tail) := by
  obtain ⟨text, e, _⟩ := C42_string_partial ft .varString false (.varString b) b [] (Or.inl rfl) h1 h2 h3 (by simp)
  refine ⟨text, e, fun tail ht => ?_⟩
  obtain ⟨text', e', e2⟩ := C42_string_partial ft .varString false (.varString b) b tail (Or.inl rfl) h1 h2 h3
    (noQuote_of_ends tail ht)
  rw [e] at e'
  injection e' with e'
  injection e' with e'
  subst e'
  have es : Spec.quotedIf true text ++ tail = 0x27 :: (text ++ 0x27 :: tail) := by
    simp only [Spec.quotedIf, if_true, List.append_assoc]; rfl
  rw [es] at e2 ⊢
  exact literal_quote b _ tail e2

theorem lit_tiny (ft : FloatText) (fl : FloatRead) (n : Nat) (u : Bool) (c : BinlogColumnValue)
    (hk : ColKind.Ok .tiny) (hv : Fits .tiny (.num n)) (hs : Sound .tiny (.num n))
    (hw : Writable ft fl .tiny (.num n)) (hd : Denotes .tiny (.num n) c) :
    ∃ l, WrittenAs ft u c l ∧ Spec.assign fl u .tiny l = some (.num n) ∧ l ≠ .null := by
  simp only [Denotes] at hd
  subst hd
  have hn : n < 2 ^ 8 := by simpa only [Fits] using hv
  cases u
  · refine ⟨.number (asSigned 8 n) 0, ⟨_, intText (asSigned 8 n), false, rfl, ?_, fun tail ht =>
      literal_intText _ _ (apart_of_ends _ ht)⟩, by simp only [Spec.assign]; exact storeInt_signed 8 n (by omega) hn, by simp⟩
    simp only [StmtColumnValue.toSqlLiteral, StmtColumnValue.newTinyint, Bool.false_eq_true, if_false,
      asUnsigned_asSigned 8 n (by omega) hn]
  · exact ⟨.number n 0, ⟨_, natText n, false, rfl, rfl, fun tail ht =>
      literal_natText _ _ (apart_of_ends _ ht)⟩, by simp only [Spec.assign]; exact storeInt_unsigned 8 n hn, by simp⟩

theorem lit_short (ft : FloatText) (fl : FloatRead) (n : Nat) (u : Bool) (c : BinlogColumnValue)
    (hk : ColKind.Ok .short) (hv : Fits .short (.num n)) (hs : Sound .short (.num n))
    (hw : Writable ft fl .short (.num n)) (hd : Denotes .short (.num n) c) :
    ∃ l, WrittenAs ft u c l ∧ Spec.assign fl u .short l = some (.num n) ∧ l ≠ .null := by
  simp only [Denotes] at hd
  subst hd
  have hn : n < 2 ^ 16 := by simpa only [Fits] using hv
  cases u
  · refine ⟨.number (asSigned 16 n) 0, ⟨_, intText (asSigned 16 n), false, rfl, ?_, fun tail ht =>
      literal_intText _ _ (apart_of_ends _ ht)⟩, by simp only [Spec.assign]; exact storeInt_signed 16 n (by omega) hn, by simp⟩
    simp only [StmtColumnValue.toSqlLiteral, StmtColumnValue.newSmallint, Bool.false_eq_true, if_false,
      asUnsigned_asSigned 16 n (by omega) hn]
  · exact ⟨.number n 0, ⟨_, natText n, false, rfl, rfl, fun tail ht =>
      literal_natText _ _ (apart_of_ends _ ht)⟩, by simp only [Spec.assign]; exact storeInt_unsigned 16 n hn, by simp⟩

theorem lit_long (ft : FloatText) (fl : FloatRead) (n : Nat) (u : Bool) (c : BinlogColumnValue)
    (hk : ColKind.Ok .long) (hv : Fits .long (.num n)) (hs : Sound .long (.num n))
    (hw : Writable ft fl .long (.num n)) (hd : Denotes .long (.num n) c) :
    ∃ l, WrittenAs ft u c l ∧ Spec.assign fl u .long l = some (.num n) ∧ l ≠ .null := by
  simp only [Denotes] at hd
  subst hd
  have hn : n < 2 ^ 32 := by simpa only [Fits] using hv
  cases u
  · refine ⟨.number (asSigned 32 n) 0, ⟨_, intText (asSigned 32 n), false, rfl, ?_, fun tail ht =>
      literal_intText _ _ (apart_of_ends _ ht)⟩, by simp only [Spec.assign]; exact storeInt_signed 32 n (by omega) hn, by simp⟩
    simp only [StmtColumnValue.toSqlLiteral, StmtColumnValue.newInt, Bool.false_eq_true, if_false,
      asUnsigned_asSigned 32 n (by omega) hn]
  · exact ⟨.number n 0, ⟨_, natText n, false, rfl, rfl, fun tail ht =>
      literal_natText _ _ (apart_of_ends _ ht)⟩, by simp only [Spec.assign]; exact storeInt_unsigned 32 n hn, by simp⟩

theorem lit_longLong (ft : FloatText) (fl : FloatRead) (n : Nat) (u : Bool) (c : BinlogColumnValue)
    (hk : ColKind.Ok .longLong) (hv : Fits .longLong (.num n)) (hs : Sound .longLong (.num n))
    (hw : Writable ft fl .longLong (.num n)) (hd : Denotes .longLong (.num n) c) :
    ∃ l, WrittenAs ft u c l ∧ Spec.assign fl u .longLong l = some (.num n) ∧ l ≠ .null := by
  simp only [Denotes] at hd
  subst hd
  have hn : n < 2 ^ 64 := by simpa only [Fits] using hv
  cases u
  · refine ⟨.number (asSigned 64 n) 0, ⟨_, intText (asSigned 64 n), false, rfl, ?_, fun tail ht =>
      literal_intText _ _ (apart_of_ends _ ht)⟩, by simp only [Spec.assign]; exact storeInt_signed 64 n (by omega) hn, by simp⟩
    simp only [StmtColumnValue.toSqlLiteral, StmtColumnValue.newBigint, Bool.false_eq_true, if_false,
      asUnsigned_asSigned 64 n (by omega) hn]
  · exact ⟨.number n 0, ⟨_, natText n, false, rfl, rfl, fun tail ht =>
      literal_natText _ _ (apart_of_ends _ ht)⟩, by simp only [Spec.assign]; exact storeInt_unsigned 64 n hn, by simp⟩

theorem lit_int24 (ft : FloatText) (fl : FloatRead) (n : Nat) (u : Bool) (c : BinlogColumnValue)
    (hk : ColKind.Ok .int24) (hv : Fits .int24 (.num n)) (hs : Sound .int24 (.num n))
    (hw : Writable ft fl .int24 (.num n)) (hd : Denotes .int24 (.num n) c) :
    ∃ l, WrittenAs ft u c l ∧ Spec.assign fl u .int24 l = some (.num n) ∧ l ≠ .null := by
  simp only [Denotes] at hd
  subst hd
  have hn : n < 2 ^ 24 := by simpa only [Fits] using hv
  cases u
  · refine ⟨.number (asSigned 24 n) 0, ⟨_, intText (asSigned 24 n), false, rfl, ?_, fun tail ht =>
      literal_intText _ _ (apart_of_ends _ ht)⟩, by simp only [Spec.assign]; exact storeInt_signed 24 n (by omega) hn, by simp⟩
    simp only [StmtColumnValue.ofBinlog, Bool.false_eq_true, if_false] at *
    exact int24_text ft n hn
  · exact ⟨.number n 0, ⟨_, natText n, false, rfl, rfl, fun tail ht =>
      literal_natText _ _ (apart_of_ends _ ht)⟩, by simp only [Spec.assign]; exact storeInt_unsigned 24 n hn, by simp⟩

theorem lit_float (ft : FloatText) (fl : FloatRead) (n : Nat) (u : Bool) (c : BinlogColumnValue)
    (hk : ColKind.Ok .float) (hv : Fits .float (.num n)) (hs : Sound .float (.num n))
    (hw : Writable ft fl .float (.num n)) (hd : Denotes .float (.num n) c) :
    ∃ l, WrittenAs ft u c l ∧ Spec.assign fl u .float l = some (.num n) ∧ l ≠ .null := by
  simp only [Denotes] at hd
  subst hd
  obtain ⟨i, s, h1, h2⟩ := hw
  exact ⟨.number i s, ⟨_, ft.f32 n, false, rfl, rfl, h1⟩, by simp only [Spec.assign, h2], by simp⟩

theorem lit_double (ft : FloatText) (fl : FloatRead) (n : Nat) (u : Bool) (c : BinlogColumnValue)
    (hk : ColKind.Ok .double) (hv : Fits .double (.num n)) (hs : Sound .double (.num n))
    (hw : Writable ft fl .double (.num n)) (hd : Denotes .double (.num n) c) :
    ∃ l, WrittenAs ft u c l ∧ Spec.assign fl u .double l = some (.num n) ∧ l ≠ .null := by
  simp only [Denotes] at hd
  subst hd
  obtain ⟨i, s, h1, h2⟩ := hw
  exact ⟨.number i s, ⟨_, ft.f64 n, false, rfl, rfl, h1⟩, by simp only [Spec.assign, h2], by simp⟩

theorem lit_year (ft : FloatText) (fl : FloatRead) (y : Nat) (u : Bool) (c : BinlogColumnValue)
    (hk : ColKind.Ok .year) (hv : Fits .year (.year y)) (hs : Sound .year (.year y))
    (hw : Writable ft fl .year (.year y)) (hd : Denotes .year (.year y) c) :
    ∃ l, WrittenAs ft u c l ∧ Spec.assign fl u .year l = some (.year y) ∧ l ≠ .null := by
  simp only [Denotes] at hd
  subst hd
  have hy : y = 0 ∨ (1901 ≤ y ∧ y ≤ 2155) := by simpa only [Fits] using hv
  refine ⟨.number y 0, ⟨_, natText y, false, rfl, rfl, fun tail ht => literal_natText _ _ (apart_of_ends _ ht)⟩, ?_, by simp⟩
  simp only [Spec.assign]
  rw [if_pos (by omega)]; rfl

theorem lit_date (ft : FloatText) (fl : FloatRead) (y : Nat) (m : Nat) (d : Nat) (u : Bool) (c : BinlogColumnValue)
    (hk : ColKind.Ok .date) (hv : Fits .date (.date y m d)) (hs : Sound .date (.date y m d))
    (hw : Writable ft fl .date (.date y m d)) (hd : Denotes .date (.date y m d) c) :
    ∃ l, WrittenAs ft u c l ∧ Spec.assign fl u .date l = some (.date y m d) ∧ l ≠ .null := by
  simp only [Denotes] at hd
  subst hd
  have hv : y ≤ 9999 ∧ m ≤ 12 ∧ d ≤ 31 := hv
  have hw : Spec.dateOk y m d = true := hw
  obtain ⟨b1, b2, b3, b4, b5⟩ := dateOk_bounds y m d hw
  refine ⟨.text (dateText y m d), ⟨StmtColumnValue.newDate ⟨y, m, d, 0, 0, 0, 0⟩, dateText y m d, true, ?_, ?_, fun tail ht =>
    literal_quoted _ _ (harmless_date _ _ _).1 (harmless_date _ _ _).2 ht⟩, ?_, by simp⟩
  · simp only [StmtColumnValue.ofBinlog, chronoDateTime]
    rw [if_pos ⟨⟨b1, b2⟩, ⟨b3, b5⟩, by omega, by omega, by omega, by omega⟩]
    rfl
  · simp only [StmtColumnValue.newDate, StmtColumnValue.toSqlLiteral]
    rw [asUnsigned_nat y (by omega), Nat.mod_eq_of_lt (by omega), Nat.mod_eq_of_lt (by omega)]
  · have e := readYmd_dateText y m d [] (by omega) (by omega) (by omega) noDigit_nil
    rw [List.append_nil] at e
    simp only [Spec.assign, e, Option.bind_some, hw, and_self, if_true]

theorem lit_timestamp2 (ft : FloatText) (fl : FloatRead) (f : Nat) (secs : Nat) (us : Nat) (u : Bool) (c : BinlogColumnValue)
    (hk : ColKind.Ok (.timestamp2 f)) (hv : Fits (.timestamp2 f) (.timestamp secs us)) (hs : Sound (.timestamp2 f) (.timestamp secs us))
    (hw : Writable ft fl (.timestamp2 f) (.timestamp secs us)) (hd : Denotes (.timestamp2 f) (.timestamp secs us) c) :
    ∃ l, WrittenAs ft u c l ∧ Spec.assign fl u (.timestamp2 f) l = some (.timestamp secs us) ∧ l ≠ .null := by
  simp only [Denotes] at hd
  obtain ⟨rfl, rfl⟩ := hd
  have hv : secs < 2 ^ 32 ∧ _ := hv
  obtain ⟨y, m, d, h, mi, s, e, ok, h1970, hh, hmi, hss, he⟩ := chronoTimestamp_spec secs
  obtain ⟨b1, b2, b3, b4, b5⟩ := dateOk_bounds y m d ok
  have hy := year_of_seconds y m d h mi s (by omega)
  refine ⟨.text (dateTimeText ⟨y, m, d, h, mi, s, 0⟩), ⟨_, dateTimeText ⟨y, m, d, h, mi, s, 0⟩, true, rfl, ?_, fun tail ht =>
    literal_quoted _ _ (harmless_dateTime _).1 (harmless_dateTime _).2 ht⟩, ?_, by simp⟩
  · rw [e]
    exact newTimestamp_literal ft y m d h mi s 0 hy ⟨b2, b4⟩ hh hmi hss
  · have e2 := readDateTime_plain y m d h mi s hy ⟨b2, b4⟩ hh hmi hss
    simp only [Spec.assign, e2, Option.bind_some]
    rw [if_pos ⟨ok, hh, hmi, hss, h1970, by simp⟩, he]

theorem lit_time2 (ft : FloatText) (fl : FloatRead) (f : Nat) (neg : Bool) (h : Nat) (mi : Nat) (s : Nat) (us : Nat) (u : Bool) (c : BinlogColumnValue)
    (hk : ColKind.Ok (.time2 f)) (hv : Fits (.time2 f) (.time neg h mi s us)) (hs : Sound (.time2 f) (.time neg h mi s us))
    (hw : Writable ft fl (.time2 f) (.time neg h mi s us)) (hd : Denotes (.time2 f) (.time neg h mi s us) c) :
    ∃ l, WrittenAs ft u c l ∧ Spec.assign fl u (.time2 f) l = some (.time neg h mi s us) ∧ l ≠ .null := by
  simp only [Denotes] at hd
  subst hd
  obtain ⟨v1, v2, v3, ⟨v4, v5, v6⟩, v7⟩ : Spec.TimeOk f neg h mi s us := hv
  have e := timeText_eq neg h mi s us (by omega)
  refine ⟨.text _, ⟨_, _, true, rfl, by simp only [StmtColumnValue.newMyTime, StmtColumnValue.toSqlLiteral, e]; rfl, fun tail ht =>
    literal_quoted _ _ ?_ ?_ ht⟩, ?_, by simp⟩
  case refine_3 =>
    have e2 := readTime_text neg h mi s us (by omega) v2 v3 v5
    simp only [Spec.assign, e2, Option.bind_some]
    rw [if_pos ⟨by omega, v2, v3, v6⟩]
  all_goals
    have hh : Harmless ((if neg then asc "-" else [])
        ++ (padText (if 100 ≤ h then 3 else 2) h ++ (asc ":" ++ msText mi s ++ microText us))) := by
      refine harmless_append _ _ ?_ (harmless_append _ _ (harmless_pad _ _) (harmless_append _ _ (harmless_append _ _
        harmless_asc.2.2.1 (harmless_ms _ _)) (harmless_micro _)))
      split
      · exact harmless_asc.1
      · exact harmless_asc.2.2.2.2
  · exact hh.1
  · exact hh.2

theorem lit_datetime2 (ft : FloatText) (fl : FloatRead) (f : Nat) (y : Nat) (m : Nat) (d : Nat) (h : Nat) (mi : Nat) (s : Nat) (us : Nat) (u : Bool) (c : BinlogColumnValue)
    (hk : ColKind.Ok (.datetime2 f)) (hv : Fits (.datetime2 f) (.datetime y m d h mi s us)) (hs : Sound (.datetime2 f) (.datetime y m d h mi s us))
    (hw : Writable ft fl (.datetime2 f) (.datetime y m d h mi s us)) (hd : Denotes (.datetime2 f) (.datetime y m d h mi s us) c) :
    ∃ l, WrittenAs ft u c l ∧ Spec.assign fl u (.datetime2 f) l = some (.datetime y m d h mi s us) ∧ l ≠ .null := by
  simp only [Denotes] at hd
  subst hd
  obtain ⟨hw, rfl⟩ : Spec.dateOk y m d = true ∧ us = 0 := hw
  obtain ⟨v1, v2, v3, v4, v5, v6, v7, v8, v9⟩ : Spec.DateTimeOk f y m d h mi s 0 := hv
  obtain ⟨b1, b2, b3, b4, b5⟩ := dateOk_bounds y m d hw
  refine ⟨.text (dateTimeText ⟨y, m, d, h, mi, s, 0⟩), ⟨StmtColumnValue.newTimestamp ⟨y, m, d, h, mi, s, 0⟩, dateTimeText ⟨y, m, d, h, mi, s, 0⟩, true, ?_, ?_, fun tail ht =>
    literal_quoted _ _ (harmless_dateTime _).1 (harmless_dateTime _).2 ht⟩, ?_, by simp⟩
  · simp only [StmtColumnValue.ofBinlog, chronoDateTime]
    rw [if_pos ⟨⟨b1, b2⟩, ⟨b3, b5⟩, by omega, by omega, by omega, by omega⟩]
    rfl
  · exact newTimestamp_literal ft y m d h mi s 0 (by omega) ⟨b2, b4⟩ v4 v5 v6
  · have e2 := readDateTime_plain y m d h mi s (by omega) ⟨b2, b4⟩ v4 v5 v6
    simp only [Spec.assign, e2, Option.bind_some]
    rw [if_pos ⟨hw, v4, v5, v6, by simp⟩]

theorem lit_bit (ft : FloatText) (fl : FloatRead) (n : Nat) (b : Bytes) (u : Bool) (c : BinlogColumnValue)
    (hk : ColKind.Ok (.bit n)) (hv : Fits (.bit n) (.bytes b)) (hs : Sound (.bit n) (.bytes b))
    (hw : Writable ft fl (.bit n) (.bytes b)) (hd : Denotes (.bit n) (.bytes b) c) :
    ∃ l, WrittenAs ft u c l ∧ Spec.assign fl u (.bit n) l = some (.bytes b) ∧ l ≠ .null := by
  simp only [Denotes] at hd
  subst hd
  have hl : b.length = (n + 7) / 8 := by simpa only [Fits] using hv
  obtain ⟨h1, h2⟩ := hw
  obtain ⟨x, rfl⟩ := List.length_eq_one_iff.1 h1
  have hx := h2 x (by simp)
  refine ⟨.number x.toNat 0, ⟨_, natText x.toNat, false, rfl, ?_, fun tail ht => literal_natText _ _ (apart_of_ends _ ht)⟩, ?_, by simp⟩
  · simp [StmtColumnValue.toSqlLiteral, StmtColumnValue.newBit, bitSum]
  · simp only [Spec.assign]
    rw [if_pos ⟨by omega, by exact_mod_cast hx⟩, ← hl]
    have := x.toNat_lt
    simp [Spec.be, Spec.le]

theorem lit_decimal (ft : FloatText) (fl : FloatRead) (p : Nat) (s : Nat) (neg : Bool) (n : Nat) (u : Bool) (c : BinlogColumnValue)
    (hk : ColKind.Ok (.decimal p s)) (hv : Fits (.decimal p s) (.decimal neg n)) (hs : Sound (.decimal p s) (.decimal neg n))
    (hw : Writable ft fl (.decimal p s) (.decimal neg n)) (hd : Denotes (.decimal p s) (.decimal neg n) c) :
    ∃ l, WrittenAs ft u c l ∧ Spec.assign fl u (.decimal p s) l = some (.decimal neg n) ∧ l ≠ .null := by
  simp only [Denotes] at hd
  have h3 : n < 10 ^ p ∧ (neg = true → n ≠ 0) ∧ s ≤ p := by simpa only [Fits] using hv
  obtain ⟨h1, h2, hsp⟩ := h3
  have hs : (p - s) % 9 ≠ 0 := hs
  have hw : NoInnerZeros (p - s) s n := hw
  have hn : n < 10 ^ (p - s + s) := by rw [Nat.sub_add_cancel hsp]; exact h1
  obtain ⟨d, ip, fp, e1, e2, hne, hdig, hi, hl, hf⟩ := C38_display_partial (p - s) s neg n hs hn hw []
  obtain ⟨ip', fp', e1', b1, b2, b3, b4, b5⟩ := C38_decode_partial (p - s) s neg n hs hn []
  rw [e1] at e1'
  injection e1' with e1'
  have hc : c = .newDecimal d := denotes_unique (.decimal p s) (.decimal neg n) c _ hd ⟨ip', fp', by rw [e1'], b1, b2, b3, b4, b5⟩
  subst hc
  refine ⟨.number (if neg then -(n : Int) else n) s, ⟨.newDecimal (ascChars ((if neg then ['-'] else []) ++ ip ++ (if s = 0 then [] else '.' :: fp))), _, false, ?_, ?_, fun tail ht =>
    literal_decimal neg ip fp s n hne hdig hi hl hf tail (apart_of_ends _ ht)⟩, ?_, by simp⟩
  · simp only [StmtColumnValue.ofBinlog, e2, Option.map_some]
  · simp only [StmtColumnValue.newDecimal, StmtColumnValue.toSqlLiteral, utf8Unwrap]
    rw [if_pos]; · rfl
    apply validUtf8_ascii
    intro b hb
    obtain ⟨x, hx, rfl⟩ := List.mem_map.1 hb
    have hx : x = '-' ∨ x = '.' ∨ x.isDigit = true := by
      rcases List.mem_append.1 hx with hx | hx
      · rcases List.mem_append.1 hx with hx | hx
        · left; cases neg <;> simp_all
        · exact Or.inr (Or.inr (hdig x (List.mem_append_left _ hx)))
      · by_cases h0 : s = 0
        · rw [if_pos h0] at hx; cases hx
        · rw [if_neg h0] at hx
          rcases List.mem_cons.1 hx with hx | hx
          · exact Or.inr (Or.inl hx)
          · exact Or.inr (Or.inr (hdig x (List.mem_append_right _ hx)))
    rcases hx with rfl | rfl | hx
    · decide
    · decide
    · exact UInt8.le_trans (digit_of_isDigit x hx).2.1 (by decide)
  · simp only [Spec.assign]
    have e : (if neg then -(n : Int) else (n : Int)).natAbs = n := by cases neg <;> simp
    rw [e, Nat.sub_self, pow_zero, Nat.mul_one, if_pos ⟨le_refl _, h1⟩]
    cases neg with
    | false => simp
    | true =>
      have := h2 rfl
      simp; omega

theorem lit_enum (ft : FloatText) (fl : FloatRead) (p : Nat) (n : Nat) (u : Bool) (c : BinlogColumnValue)
    (hk : ColKind.Ok (.enum p)) (hv : Fits (.enum p) (.num n)) (hs : Sound (.enum p) (.num n))
    (hw : Writable ft fl (.enum p) (.num n)) (hd : Denotes (.enum p) (.num n) c) :
    ∃ l, WrittenAs ft u c l ∧ Spec.assign fl u (.enum p) l = some (.num n) ∧ l ≠ .null := by
  simp only [Denotes] at hd
  subst hd
  have hn : n < 256 ^ p := by simpa only [Fits] using hv
  refine ⟨.number n 0, ⟨_, natText n, false, rfl, ?_, fun tail ht => literal_natText _ _ (apart_of_ends _ ht)⟩, ?_, by simp⟩
  · by_cases h : p = 1 <;> simp [StmtColumnValue.toSqlLiteral, StmtColumnValue.newUnsignedBigint, h, MyEnum.toU64]
  · simp only [Spec.assign]
    rw [if_pos ⟨by omega, by exact_mod_cast hn⟩]; rfl

theorem lit_blob (ft : FloatText) (fl : FloatRead) (p : Nat) (b : Bytes) (u : Bool) (c : BinlogColumnValue)
    (hk : ColKind.Ok (.blob p)) (hv : Fits (.blob p) (.bytes b)) (hs : Sound (.blob p) (.bytes b))
    (hw : Writable ft fl (.blob p) (.bytes b)) (hd : Denotes (.blob p) (.bytes b) c) :
    ∃ l, WrittenAs ft u c l ∧ Spec.assign fl u (.blob p) l = some (.bytes b) ∧ l ≠ .null := by
  simp only [Denotes] at hd
  subst hd
  have hn : b.length < 256 ^ p := by simpa only [Fits] using hv
  obtain ⟨text, e1, e2⟩ : ∃ text, (StmtColumnValue.newBlob b).toSqlLiteral ft = some (text, false) ∧
      ∀ rest, Spec.literal (text ++ rest) = some (.bytes b, rest) := by
    refine ⟨_, rfl, fun rest => ?_⟩
    obtain ⟨text, a1, a2⟩ := C42_blob ft .blob false (.blob b) b rest (Or.inl rfl)
    have a1 : some (asc "x'" ++ hexText b ++ asc "'", false) = some (text, false) := a1
    injection a1 with a1
    injection a1 with a1
    subst a1
    have e : asc "x'" ++ hexText b ++ asc "'" ++ rest = 0x78 :: 0x27 :: (hexText b ++ asc "'" ++ rest) := by
      simp only [List.append_assoc]; rfl
    rw [Spec.literal, a2]
    rw [e]
    rfl
  exact ⟨.bytes b, ⟨_, text, false, rfl, e1, fun tail _ => e2 tail⟩, by simp only [Spec.assign]; rw [if_pos hn], by simp⟩

theorem lit_varchar (ft : FloatText) (fl : FloatRead) (m : Nat) (b : Bytes) (u : Bool) (c : BinlogColumnValue)
    (hk : ColKind.Ok (.varchar m)) (hv : Fits (.varchar m) (.bytes b)) (hs : Sound (.varchar m) (.bytes b))
    (hw : Writable ft fl (.varchar m) (.bytes b)) (hd : Denotes (.varchar m) (.bytes b) c) :
    ∃ l, WrittenAs ft u c l ∧ Spec.assign fl u (.varchar m) l = some (.bytes b) ∧ l ≠ .null := by
  simp only [Denotes] at hd
  subst hd
  have hn : b.length ≤ m := by simpa only [Fits] using hv
  obtain ⟨h1, h2, h3⟩ := hw
  obtain ⟨text, e1, e2⟩ := string_text ft b h1 h2 h3
  exact ⟨.text b, ⟨_, text, true, rfl, e1, e2⟩, by simp only [Spec.assign]; rw [if_pos hn], by simp⟩

theorem lit_char (ft : FloatText) (fl : FloatRead) (m : Nat) (b : Bytes) (u : Bool) (c : BinlogColumnValue)
    (hk : ColKind.Ok (.char m)) (hv : Fits (.char m) (.bytes b)) (hs : Sound (.char m) (.bytes b))
    (hw : Writable ft fl (.char m) (.bytes b)) (hd : Denotes (.char m) (.bytes b) c) :
    ∃ l, WrittenAs ft u c l ∧ Spec.assign fl u (.char m) l = some (.bytes b) ∧ l ≠ .null := by
  simp only [Denotes] at hd
  subst hd
  have hn : b.length ≤ m := by simpa only [Fits] using hv
  obtain ⟨h1, h2, h3⟩ := hw
  obtain ⟨text, e1, e2⟩ := string_text ft b h1 h2 h3
  exact ⟨.text b, ⟨_, text, true, rfl, e1, e2⟩, by simp only [Spec.assign]; rw [if_pos hn], by simp⟩

/-- Every writable value: the text made from the decoded value is read as a literal that gives the value back. -/
theorem literal_denotes (ft : FloatText) (fl : FloatRead) (k : ColKind) (v : Val) (u : Bool) (c : BinlogColumnValue)
    (hk : k.Ok) (hv : Fits k v) (hs : Sound k v) (hw : Writable ft fl k v) (hd : Denotes k v c) :
    ∃ l, WrittenAs ft u c l ∧ Spec.assign fl u k l = some v ∧ l ≠ .null := by
  cases k <;> cases v <;> first
  | exact (show False from hd).elim
  | exact lit_tiny ft fl _ u c hk hv hs hw hd
  | exact lit_short ft fl _ u c hk hv hs hw hd
  | exact lit_long ft fl _ u c hk hv hs hw hd
  | exact lit_longLong ft fl _ u c hk hv hs hw hd
  | exact lit_int24 ft fl _ u c hk hv hs hw hd
  | exact lit_float ft fl _ u c hk hv hs hw hd
  | exact lit_double ft fl _ u c hk hv hs hw hd
  | exact lit_year ft fl _ u c hk hv hs hw hd
  | exact lit_date ft fl _ _ _ u c hk hv hs hw hd
  | exact lit_timestamp2 ft fl _ _ _ u c hk hv hs hw hd
  | exact lit_time2 ft fl _ _ _ _ _ _ u c hk hv hs hw hd
  | exact lit_datetime2 ft fl _ _ _ _ _ _ _ _ u c hk hv hs hw hd
  | exact lit_bit ft fl _ _ u c hk hv hs hw hd
  | exact lit_decimal ft fl _ _ _ _ u c hk hv hs hw hd
  | exact lit_enum ft fl _ _ u c hk hv hs hw hd
  | exact lit_blob ft fl _ _ u c hk hv hs hw hd
  | exact lit_varchar ft fl _ _ u c hk hv hs hw hd
  | exact lit_char ft fl _ _ u c hk hv hs hw hd

/-- C79: for every value of every column kind that the decoder supports, in a signed or an unsigned column: the bytes of
the row image are decoded, and the text made from the decoded value, put into a statement, is read by the server as a
literal that gives the column the value of the row. (Full claim: every value. It fails for the values excluded by
`Sound`, see C37, and by `Writable`, see the `_false` theorems below and C38, C42.) -/
theorem C79_value_partial (ft : FloatText) (fl : FloatRead) (k : ColKind) (m : ColumnMeta) (v : Val) (u : Bool)
    (hk : k.Ok) (hm : metaOf k = some m) (hv : Fits k v) (hs : Sound k v) (hw : Writable ft fl k v) (rest : Bytes) :
    ∃ c p text quote l, BinlogColumnValue.readFrom m (storeVal k v ++ rest) = .ok c rest ∧
      StmtColumnValue.ofBinlog c u = some p ∧ p.toSqlLiteral ft = some (text, quote) ∧
      (∀ tail, Ends tail → Spec.literal (Spec.quotedIf quote text ++ tail) = some (l, tail)) ∧
      Spec.assign fl u k l = some v := by
  obtain ⟨c, h1, h2⟩ := C37_decode_partial k m v hk hm hv hs rest
  obtain ⟨l, ⟨p, text, quote, h3, h4, h5⟩, h6, _⟩ := literal_denotes ft fl k v u c hk hv hs hw h2
  exact ⟨c, p, text, quote, l, h1, h3, h4, h5, h6⟩

/-- C79: NULL is written as NULL -/
theorem C79_null (ft : FloatText) (u : Bool) :
    ∃ p text quote, StmtColumnValue.ofBinlog .null u = some p ∧ p.toSqlLiteral ft = some (text, quote) ∧
      ∀ tail, Spec.literal (Spec.quotedIf quote text ++ tail) = some (.null, tail) := by
  refine ⟨.newNull, Spec.ascii "null", false, rfl, rfl, fun tail => ?_⟩
  show Spec.literal (0x6e :: 0x75 :: 0x6c :: 0x6c :: tail) = _
  have e2 : Spec.strip (Spec.ascii "null") (0x6e :: 0x75 :: 0x6c :: 0x6c :: tail) = some tail := strip_append (Spec.ascii "null") tail
  have e1 : Spec.strip (Spec.ascii "x'") (0x6e :: 0x75 :: 0x6c :: 0x6c :: tail) = none := rfl
  rw [Spec.literal, e1, e2, if_neg (by simp), if_neg (by simp), if_pos (by simp)]
  rfl

/-- hypotheses of `C79_value_partial`: a MEDIUMINT -2, a TIMESTAMP, a DECIMAL(10,2), a TIME(6) and a string with a quote -/
example (ft : FloatText) (fl : FloatRead) :
    (Fits .int24 (.num 0xfffffe) ∧ Writable ft fl .int24 (.num 0xfffffe)) ∧
    (Fits (.timestamp2 0) (.timestamp 1600000000 0) ∧ Sound (.timestamp2 0) (.timestamp 1600000000 0)) ∧
    (Fits (.decimal 10 2) (.decimal true 12345) ∧ Sound (.decimal 10 2) (.decimal true 12345) ∧
      Writable ft fl (.decimal 10 2) (.decimal true 12345)) ∧
    Fits (.time2 6) (.time true 101 2 3 4) ∧
    Writable ft fl (.varchar 20) (.bytes (Spec.ascii "it's")) := by
  refine ⟨⟨(by decide : 0xfffffe < 2 ^ 24), trivial⟩, ⟨⟨by decide, by decide, by decide, by decide⟩, rfl⟩,
    ⟨⟨by decide, by decide, by decide⟩, (by decide : (10 - 2) % 9 ≠ 0), ?_, ?_, ?_⟩, ⟨by decide, by decide, by decide, ⟨by decide, by decide, by decide⟩, by decide⟩,
    by decide, by decide, Or.inr (by decide)⟩
  · intro k hk; revert hk; simp
  · intro k hk; revert hk; simp
  · intro _; decide

/-- the texts of some values -/
example (ft : FloatText) :
    (StmtColumnValue.ofBinlog (.int24 0xfffffe) false).bind (·.toSqlLiteral ft) = some (Spec.ascii "-2", false) ∧
    (StmtColumnValue.ofBinlog (.timestamp 1600000000) false).bind (·.toSqlLiteral ft)
      = some (Spec.ascii "2020-09-13 12:26:40", true) ∧
    (StmtColumnValue.ofBinlog (.time ⟨true, 4, 5, 2, 3, 4⟩) false).bind (·.toSqlLiteral ft)
      = some (Spec.ascii "-101:02:03.000004", true) := by
  refine ⟨?_, ?_, ?_⟩ <;> rfl

/-- C79 fails: the fraction of a DATETIME is lost. The row has 2020-01-02 03:04:05.5; the text gives
2020-01-02 03:04:05. -/
theorem C79_datetime_fraction_false (ft : FloatText) (fl : FloatRead) :
    ∃ c p text, Fits (.datetime2 1) (.datetime 2020 1 2 3 4 5 500000) ∧
      BinlogColumnValue.readFrom (.dateTime 1) (storeVal (.datetime2 1) (.datetime 2020 1 2 3 4 5 500000)) = .ok c [] ∧
      StmtColumnValue.ofBinlog c false = some p ∧ p.toSqlLiteral ft = some (text, true) ∧
      Spec.literal (Spec.quotedIf true text) = some (.text text, []) ∧
      Spec.assign fl false (.datetime2 1) (.text text) = some (.datetime 2020 1 2 3 4 5 0) := by
  refine ⟨.dateTime ⟨2020, 1, 2, 3, 4, 5, 500000⟩, .newTimestamp ⟨2020, 1, 2, 3, 4, 5, 500000000⟩,
    Spec.ascii "2020-01-02 03:04:05", ⟨by decide, by decide, by decide, by decide, by decide, by decide, by decide, by decide, by decide⟩,
    by decide +kernel, by decide +kernel, rfl, by decide +kernel, rfl⟩

/-- C79 fails: a DATE or DATETIME with a zero part, which a server stores, makes the conversion panic. -/
theorem C79_zero_date_false :
    (Fits .date (.date 0 0 0) ∧ BinlogColumnValue.readFrom .date (storeVal .date (.date 0 0 0)) = .ok (.date 0 0 0) [] ∧
      StmtColumnValue.ofBinlog (.date 0 0 0) false = none) ∧
    (Fits (.datetime2 0) (.datetime 2020 0 0 0 0 0 0) ∧
      BinlogColumnValue.readFrom (.dateTime 0) (storeVal (.datetime2 0) (.datetime 2020 0 0 0 0 0 0))
        = .ok (.dateTime ⟨2020, 0, 0, 0, 0, 0, 0⟩) [] ∧
      StmtColumnValue.ofBinlog (.dateTime ⟨2020, 0, 0, 0, 0, 0, 0⟩) false = none) := by
  refine ⟨⟨⟨by decide, by decide, by decide⟩, by decide +kernel, rfl⟩,
    ⟨by decide, by decide, by decide, by decide, by decide, by decide, by decide, by decide, by decide⟩, by decide +kernel, rfl⟩

/-- C79: exactly the dates that the calendar does not have panic -/
theorem C79_date_panic_iff (y m d : Nat) (u : Bool) :
    StmtColumnValue.ofBinlog (.date y m d) u = none ↔ Spec.dateOk y m d = false := by
  have e : Spec.monthDays y m = daysInMonth y m := by
    unfold Spec.monthDays daysInMonth
    simp only [Spec.leapYear, decide_eq_true_eq, List.mem_cons, List.not_mem_nil, or_false]
  simp only [StmtColumnValue.ofBinlog, Option.map_eq_none_iff, chronoDateTime, Spec.dateOk, e, decide_eq_false_iff_not]
  constructor
  · intro h hc
    rw [if_pos ⟨⟨hc.1, hc.2.1⟩, ⟨hc.2.2.1, hc.2.2.2⟩, by omega, by omega, by omega, by omega⟩] at h
    cases h
  · intro h
    rw [if_neg]
    exact fun hc => h ⟨hc.1.1, hc.1.2, hc.2.1.1, hc.2.1.2⟩

/-- C79 fails: the bytes of a BIT value are put together in the wrong order. A BIT(16) with the value 1 is written as
256. -/
theorem C79_bit_false (ft : FloatText) (fl : FloatRead) :
    ∃ c p text, Fits (.bit 16) (.bytes (Spec.be 2 1)) ∧
      BinlogColumnValue.readFrom (.bit 0 2) (storeVal (.bit 16) (.bytes (Spec.be 2 1))) = .ok c [] ∧
      StmtColumnValue.ofBinlog c false = some p ∧ p.toSqlLiteral ft = some (text, false) ∧
      Spec.literal text = some (.number 256 0, []) ∧
      Spec.assign fl false (.bit 16) (.number 256 0) = some (.bytes (Spec.be 2 256)) := by
  refine ⟨.bit [0, 1], .newBit [0, 1], Spec.ascii "256", (by decide : _ = _), by decide +kernel, by decide +kernel,
    ?_, by decide +kernel, by simp only [Spec.assign]; decide +kernel⟩
  show (bitSum 0 [0, 1]).map (fun n => (natText n, false)) = _
  decide +kernel

/-- C79 fails: there is no conversion for spatial values -/
theorem C79_geometry_false (bs : Bytes) (u : Bool) : StmtColumnValue.ofBinlog (.geometry bs) u = none := rfl

end Mybin
