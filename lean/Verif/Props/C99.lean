/-
C99: a value given as a parameter, and read back from a result row that returns it, is the value that was given.
-/
import Verif.Model.ToCol
import Verif.Props.C22_C25
import Verif.Props.C66_C69
import Verif.Props.C89_C90
import Verif.Lemmas.Literal

namespace Mybin

/-! ### the specification -/

/-- The arguments that come back unchanged: all values of the Rust type, except
 * dates of a year that does not fit in 16 bits,
 * times of day with a fraction finer than a microsecond, or in a leap second,
 * a negative time of zero,
 * texts and byte strings (also the text of a decimal) of exactly 251 bytes,
 * `MyDateTime`, which cannot be read from a binary row at all. -/
def Spec.ComesBack : RustArg → Prop
  | .i8 i => Spec.SignedRange 8 i
  | .u8 n => n < 2 ^ 8
  | .i16 i => Spec.SignedRange 16 i
  | .u16 n => n < 2 ^ 16
  | .i32 i => Spec.SignedRange 32 i
  | .u32 n => n < 2 ^ 32
  | .i64 i => Spec.SignedRange 64 i
  | .u64 n => n < 2 ^ 64
  | .bigDecimal d => d.scale < 2 ^ 63 ∧ d.display.length < 2 ^ 64 ∧ d.display.length ≠ 251
  | .f32 n => n < 2 ^ 32
  | .f64 n => n < 2 ^ 64
  | .naiveDate d => 0 ≤ d.year ∧ d.year < 2 ^ 16 ∧ Spec.IsDate d.year.toNat d.month d.day
  | .myTime t => t.InRange ∧ t ≠ ⟨true, 0, 0, 0, 0, 0⟩
  | .naiveDateTime t => 0 ≤ t.year ∧ t.year < 2 ^ 16 ∧ Spec.IsDate t.year.toNat t.month t.day ∧
      t.hour < 24 ∧ t.minute < 60 ∧ t.second < 60 ∧ t.nano < 10 ^ 9 ∧ 1000 ∣ t.nano
  | .myYear n => n < 2 ^ 16
  | .myBit bs => bs.length < 2 ^ 64 ∧ bs.length ≠ 251
  | .bool _ => True
  | .string s => validUtf8 s = true ∧ s.length < 2 ^ 64 ∧ s.length ≠ 251
  | .time negative days tm => days < 2 ^ 32 ∧ tm.hour < 24 ∧ tm.minute < 60 ∧ tm.second < 60 ∧ tm.nano < 10 ^ 9 ∧
      1000 ∣ tm.nano ∧ ¬ (negative = true ∧ days = 0 ∧ tm.hour = 0 ∧ tm.minute = 0 ∧ tm.second = 0 ∧ tm.nano = 0)
  | .bytes bs => bs.length < 2 ^ 64 ∧ bs.length ≠ 251
  | .myDateTime _ => False

/-- reading a column as the type of the argument (byte strings as `Bytes`, a time given in parts as `MyTime`, where the
fraction is in microseconds) gives the argument; a decimal is the same number, whatever its scale -/
def Spec.ReadsBack (v : BinaryColumnValue) : RustArg → Prop
  | .i8 i => sintFromBinary 8 v = .ok (some i)
  | .u8 n => uintFromBinary 8 v = .ok (some n)
  | .i16 i => sintFromBinary 16 v = .ok (some i)
  | .u16 n => uintFromBinary 16 v = .ok (some n)
  | .i32 i => sintFromBinary 32 v = .ok (some i)
  | .u32 n => uintFromBinary 32 v = .ok (some n)
  | .i64 i => sintFromBinary 64 v = .ok (some i)
  | .u64 n => uintFromBinary 64 v = .ok (some n)
  | .bigDecimal d => ∃ r, decimalFromBinary v = .ok (some r) ∧ r.value = d.value
  | .f32 n => f32FromBinary v = .ok (some n)
  | .f64 n => f64FromBinary v = .ok (some n)
  | .naiveDate d => dateFromBinary v = .ok (some (d.year.toNat, d.month, d.day))
  | .myTime t => timeFromBinary v = .ok (some t)
  | .naiveDateTime t => naiveDateTimeFromBinary v
      = .ok (some ⟨t.year.toNat, t.month, t.day, t.hour, t.minute, t.second, t.nano / 1000⟩)
  | .myYear n => yearFromBinary v = .ok (some n)
  | .myBit bs => bitFromBinary v = .ok (some bs)
  | .bool b => boolFromBinary v = .ok (some b)
  | .string s => stringFromBinary v = .ok (some s)
  | .time negative days tm => timeFromBinary v
      = .ok (some ⟨negative, days, tm.hour, tm.minute, tm.second, tm.nano / 1000⟩)
  | .bytes bs => bytesFromBinary v = .ok (some bs)
  | .myDateTime t => myDateTimeFromBinary v = .ok (some t)

/-- an optional argument: `None` comes back as NULL, which every optional type reads as `None` (C67_null) -/
def Spec.OptReadsBack (a : Option RustArg) (v : BinaryColumnValue) : Prop :=
  match a with
  | none => v = .null
  | some a => Spec.ReadsBack v a

/-! ### decimals as text -/

theorem readDigits_trailing (acc k : Nat) : Spec.readDigits acc (List.replicate k 0x30) = some (acc * 10 ^ k) := by
  induction k generalizing acc with
  | zero => simp [Spec.readDigits]
  | succ k ih =>
    rw [List.replicate_succ, Spec.readDigits, show Spec.digit? 0x30 = some 0 from rfl]
    dsimp only
    rw [ih, Nat.add_zero, Nat.mul_assoc, ← Nat.pow_succ']

/-- the text of a decimal is that of a DECIMAL of the same value -/
theorem display_text (d : BigDec) : ∃ (t : Spec.DecText) (n : Nat), d.display = t.text ∧ t.Digits n ∧
    (t.frac.length : Int) = max d.scale 0 ∧
    d.value = (if t.negative then -1 else 1) * (n / 10 ^ t.frac.length : Rat) := by
  have hne := natText_ne_nil d.unscaled.natAbs
  have hr := readDigits_natText d.unscaled.natAbs
  have hsign : (d.unscaled : Rat) = (if decide (d.unscaled < 0) then -1 else 1) * (d.unscaled.natAbs : Rat) := by
    by_cases h : d.unscaled < 0
    · simp only [h, decide_true, if_true]
      have e : d.unscaled = -1 * (d.unscaled.natAbs : Int) := by omega
      generalize d.unscaled.natAbs = n at e ⊢
      rw [e]; push_cast; ring
    · simp only [h, decide_false, Bool.false_eq_true, if_false]
      have e : d.unscaled = 1 * (d.unscaled.natAbs : Int) := by omega
      generalize d.unscaled.natAbs = n at e ⊢
      rw [e]; push_cast; ring
  unfold BigDec.display BigDec.value
  dsimp only
  by_cases h1 : ((natText d.unscaled.natAbs).length : Int) ≤ d.scale
  · refine ⟨⟨decide (d.unscaled < 0), [0x30], List.replicate (d.scale.toNat - (natText d.unscaled.natAbs).length) 0x30
      ++ natText d.unscaled.natAbs⟩, d.unscaled.natAbs, ?_, ?_, ?_, ?_⟩
    · rw [if_pos h1]
      unfold Spec.DecText.text
      have hf : List.replicate (d.scale.toNat - (natText d.unscaled.natAbs).length) (0x30 : UInt8)
          ++ natText d.unscaled.natAbs ≠ [] := by simp [hne]
      dsimp only
      rw [if_neg hf]
      by_cases h : d.unscaled < 0 <;> simp [h, hne, show Spec.ascii "-" = [0x2d] from rfl, show Spec.ascii "." = [0x2e] from rfl]
    · unfold Spec.DecText.Digits Spec.readNat
      rw [if_neg (by simp), ← List.append_assoc]
      have : [(0x30 : UInt8)] ++ List.replicate (d.scale.toNat - (natText d.unscaled.natAbs).length) 0x30
          = List.replicate (d.scale.toNat - (natText d.unscaled.natAbs).length + 1) 0x30 := by
        rw [List.replicate_succ]; rfl
      rw [this, readDigits_zeros, hr]
      simp
    · have := List.length_pos_iff.2 hne
      simp only [List.length_append, List.length_replicate]
      omega
    · dsimp only
      have hl : ((List.replicate (d.scale.toNat - (natText d.unscaled.natAbs).length) (0x30 : UInt8)
          ++ natText d.unscaled.natAbs).length : Int) = d.scale := by
        simp only [List.length_append, List.length_replicate]
        omega
      rw [show ∀ x : Rat, x ^ d.scale = x ^ _ from fun x => by rw [← zpow_natCast, hl], hsign]
      ring
  · by_cases h2 : d.scale < 0
    · refine ⟨⟨decide (d.unscaled < 0), natText d.unscaled.natAbs ++ List.replicate (-d.scale).toNat 0x30, []⟩,
        d.unscaled.natAbs * 10 ^ (-d.scale).toNat, ?_, ?_, ?_, ?_⟩
      · rw [if_neg h1, if_pos h2]
        unfold Spec.DecText.text
        rw [if_pos rfl, if_pos rfl]
        by_cases h : d.unscaled < 0 <;> simp [h, show Spec.ascii "-" = [0x2d] from rfl]
      · unfold Spec.DecText.Digits Spec.readNat
        rw [if_neg (by simp [hne]), List.append_nil, readDigits_append, hr, Option.bind_some, readDigits_trailing]
        simp
      · simp; omega
      · dsimp only
        have hs : d.scale = -(((-d.scale).toNat : Nat) : Int) := by omega
        rw [hsign]
        conv_lhs => rw [hs]
        rw [zpow_neg, zpow_natCast]
        push_cast
        simp only [List.length_nil, pow_zero, div_one, div_inv_eq_mul]
        ring
    · have hk : d.scale.toNat ≤ (natText d.unscaled.natAbs).length := by omega
      refine ⟨⟨decide (d.unscaled < 0), (natText d.unscaled.natAbs).take ((natText d.unscaled.natAbs).length - d.scale.toNat),
        (natText d.unscaled.natAbs).drop ((natText d.unscaled.natAbs).length - d.scale.toNat)⟩,
        d.unscaled.natAbs, ?_, ?_, ?_, ?_⟩
      · rw [if_neg h1, if_neg h2]
        unfold Spec.DecText.text
        dsimp only
        by_cases h : d.unscaled < 0 <;>
          simp [h, show Spec.ascii "-" = [0x2d] from rfl, show Spec.ascii "." = [0x2e] from rfl]
      · unfold Spec.DecText.Digits
        dsimp only
        rw [List.take_append_drop, readNat_natText]
      · simp only [List.length_drop]; omega
      · dsimp only
        have hl : (((natText d.unscaled.natAbs).drop ((natText d.unscaled.natAbs).length - d.scale.toNat)).length : Int)
            = d.scale := by
          simp only [List.length_drop]
          omega
        rw [show ∀ x : Rat, x ^ d.scale = x ^ _ from fun x => by rw [← zpow_natCast, hl], hsign]
        ring


/-! ### one argument -/

theorem nano_micro (n : Nat) (h : n < 10 ^ 9) : n % 1000000000 / 1000 = n / 1000 ∧ n / 1000 < 1000000 := by omega

theorem asUnsigned_year (y : Int) (h0 : 0 ≤ y) (h1 : y < 2 ^ 16) : asUnsigned 16 y = y.toNat := by
  unfold asUnsigned; rw [Int.emod_eq_of_lt h0 (by simpa using h1)]

theorem isDate_lt {y m d : Nat} (h : Spec.IsDate y m d) : m < 2 ^ 8 ∧ d < 2 ^ 8 := by
  have h := (dateExists_iff y m d).2 h
  unfold dateExists at h
  have h := of_decide_eq_true h
  have : daysInMonth y m ≤ 31 := by
    unfold daysInMonth; split <;> (try split) <;> omega
  omega

/-- the parameter made of an argument that comes back is one the server sees as it is, and its value reads back -/
theorem arg_sound (a : RustArg) (h : Spec.ComesBack a) :
    a.toCol.Sound ∧ a.toCol.val ≠ .null ∧ Spec.ReadsBack (Spec.meaning a.toCol.val) a := by
  have z : (0 : Nat) < 2 ^ 8 ∧ (0 : Nat) < 2 ^ 16 ∧ (0 : Nat) < 2 ^ 32 ∧ (0 : Nat) < 2 ^ 64 := by norm_num
  have t0 : (⟨false, 0, 0, 0, 0, 0⟩ : MyTime).InRange := by norm_num [MyTime.InRange]
  have d0 : (⟨0, 0, 0, 0, 0, 0, 0⟩ : MyDateTime).InRange := by norm_num [MyDateTime.InRange]
  have sound := fun (b : Bool) i8 i16 i32 i64 n8 n16 n32 n64 s h8 h16 h32 h64 hs hs' t ht ht' nd p hp =>
    C22_constructors_sound b i8 i16 i32 i64 n8 n16 n32 n64 s h8 h16 h32 h64 hs hs' t ht ht' _ d0 nd p hp
  let nd : NaiveDateTime := ⟨0, 0, 0, 0, 0, 0, 0⟩
  have ss : ∀ s : Bytes, s.length < 2 ^ 64 → s.length ≠ 251 → ∀ p ∈ [StmtColumnValue.newDecimal s, .newVarstring s,
      .newBit s, .newBlob s], p.Sound := by
    intro s hs hs' p hp
    refine sound false 0 0 0 0 0 0 0 0 s z.1 z.2.1 z.2.2.1 z.2.2.2 hs hs' _ t0 (by simp) nd p ?_
    simp only [List.mem_cons, List.not_mem_nil, or_false] at hp ⊢
    rcases hp with rfl | rfl | rfl | rfl <;> simp
  have si : ∀ (b : Bool) i8 i16 i32 i64 nd, ∀ p ∈ [StmtColumnValue.newTinyint i8, .newSmallint i16, .newInt i32,
      .newBigint i64, .newDate nd, .newDateTime nd, .newBool b], p.Sound := by
    intro b i8 i16 i32 i64 nd p hp
    refine sound b i8 i16 i32 i64 0 0 0 0 [] z.1 z.2.1 z.2.2.1 z.2.2.2 (by simp) (by simp) _ t0 (by simp) nd p ?_
    simp only [List.mem_cons, List.not_mem_nil, or_false] at hp ⊢
    rcases hp with rfl | rfl | rfl | rfl | rfl | rfl | rfl <;> simp
  have st : ∀ t : MyTime, t.InRange → t ≠ ⟨true, 0, 0, 0, 0, 0⟩ → (StmtColumnValue.newMyTime t).Sound := by
    intro t ht ht'
    exact sound false 0 0 0 0 0 0 0 0 [] z.1 z.2.1 z.2.2.1 z.2.2.2 (by simp) (by simp) t ht ht' nd _ (by simp)
  cases a with
  | i8 i =>
    refine ⟨si false i 0 0 0 nd _ (by simp [RustArg.toCol]), by simp [RustArg.toCol, StmtColumnValue.newTinyint], ?_⟩
    have := (C67_same_sign_partial i 8 8 (by simp) (by simp) (by simp)).1 h
    show sintFromBinary 8 (.tiny (asUnsigned 8 i)) = _
    rw [asUnsigned_eq_pattern]; exact this
  | i16 i =>
    refine ⟨si false 0 i 0 0 nd _ (by simp [RustArg.toCol]), by simp [RustArg.toCol, StmtColumnValue.newSmallint], ?_⟩
    have := (C67_same_sign_partial i 16 16 (by simp) (by simp) (by simp)).1 h
    show sintFromBinary 16 (.short (asUnsigned 16 i)) = _
    rw [asUnsigned_eq_pattern]; exact this
  | i32 i =>
    refine ⟨si false 0 0 i 0 nd _ (by simp [RustArg.toCol]), by simp [RustArg.toCol, StmtColumnValue.newInt], ?_⟩
    have := (C67_same_sign_partial i 32 32 (by simp) (by simp) (by simp)).1 h
    show sintFromBinary 32 (.long (asUnsigned 32 i)) = _
    rw [asUnsigned_eq_pattern]; exact this
  | i64 i =>
    refine ⟨si false 0 0 0 i nd _ (by simp [RustArg.toCol]), by simp [RustArg.toCol, StmtColumnValue.newBigint], ?_⟩
    have := (C67_same_sign_partial i 64 64 (by simp) (by simp) (by simp)).1 h
    show sintFromBinary 64 (.longLong (asUnsigned 64 i)) = _
    rw [asUnsigned_eq_pattern]; exact this
  | u8 n =>
    refine ⟨⟨h, trivial, by simp [RustArg.toCol, StmtColumnValue.newUnsignedTinyint, Spec.meaning, Spec.typesOf]⟩,
      by simp [RustArg.toCol, StmtColumnValue.newUnsignedTinyint], ?_⟩
    show Res.ok (some (n % 2 ^ 8)) = _
    rw [Nat.mod_eq_of_lt h]
  | u16 n =>
    refine ⟨⟨h, trivial, by simp [RustArg.toCol, StmtColumnValue.newUnsignedSmallint, Spec.meaning, Spec.typesOf]⟩,
      by simp [RustArg.toCol, StmtColumnValue.newUnsignedSmallint], ?_⟩
    show Res.ok (some (n % 2 ^ 16)) = _
    rw [Nat.mod_eq_of_lt h]
  | u32 n =>
    refine ⟨⟨h, trivial, by simp [RustArg.toCol, StmtColumnValue.newUnsignedInt, Spec.meaning, Spec.typesOf]⟩,
      by simp [RustArg.toCol, StmtColumnValue.newUnsignedInt], ?_⟩
    show Res.ok (some (n % 2 ^ 32)) = _
    rw [Nat.mod_eq_of_lt h]
  | u64 n =>
    refine ⟨⟨h, trivial, by simp [RustArg.toCol, StmtColumnValue.newUnsignedBigint, Spec.meaning, Spec.typesOf]⟩,
      by simp [RustArg.toCol, StmtColumnValue.newUnsignedBigint], ?_⟩
    show Res.ok (some (n % 2 ^ 64)) = _
    rw [Nat.mod_eq_of_lt h]
  | bigDecimal d =>
    refine ⟨ss _ h.2.1 h.2.2 _ (by simp [RustArg.toCol]), by simp [RustArg.toCol, StmtColumnValue.newDecimal], ?_⟩
    obtain ⟨t, n, ht, hd, hl, hv⟩ := display_text d
    obtain ⟨r, -, hr, -, hv'⟩ := C90_decimal t n hd (by have := h.1; omega)
    refine ⟨r, ?_, hv'.trans hv.symm⟩
    show decimalFromBinary (.newDecimal d.display) = _
    rw [ht]; exact hr
  | f32 n =>
    exact ⟨⟨h, trivial, by simp [RustArg.toCol, StmtColumnValue.newFloat, Spec.meaning, Spec.typesOf]⟩,
      by simp [RustArg.toCol, StmtColumnValue.newFloat], rfl⟩
  | f64 n =>
    exact ⟨⟨h, trivial, by simp [RustArg.toCol, StmtColumnValue.newDouble, Spec.meaning, Spec.typesOf]⟩,
      by simp [RustArg.toCol, StmtColumnValue.newDouble], rfl⟩
  | naiveDate d =>
    refine ⟨si false 0 0 0 0 d _ (by simp [RustArg.toCol]), by simp [RustArg.toCol, StmtColumnValue.newDate], ?_⟩
    obtain ⟨h0, h1, h2⟩ := h
    obtain ⟨hm, hd⟩ := isDate_lt h2
    show dateFromBinary (.date (asUnsigned 16 d.year) (d.month % 2 ^ 8) (d.day % 2 ^ 8)) = _
    rw [asUnsigned_year _ h0 h1, Nat.mod_eq_of_lt hm, Nat.mod_eq_of_lt hd]
    exact (C69_dates_partial _ _ _ h2).1
  | myTime t =>
    exact ⟨st t h.1 h.2, by simp [RustArg.toCol, StmtColumnValue.newMyTime], rfl⟩
  | naiveDateTime t =>
    refine ⟨si false 0 0 0 0 t _ (by simp [RustArg.toCol]),
      by simp [RustArg.toCol, StmtColumnValue.newDateTime, StmtColumnValue.newMyDateTime], ?_⟩
    obtain ⟨h0, h1, h2, hh, hmi, hs, hn, -⟩ := h
    obtain ⟨hm, hd⟩ := isDate_lt h2
    obtain ⟨e1, e2⟩ := nano_micro t.nano hn
    show naiveDateTimeFromBinary (.dateTime ⟨asUnsigned 16 t.year, t.month % 2 ^ 8, t.day % 2 ^ 8, t.hour % 2 ^ 8,
      t.minute % 2 ^ 8, t.second % 2 ^ 8, t.nano % 1000000000 / 1000⟩) = _
    rw [asUnsigned_year _ h0 h1, Nat.mod_eq_of_lt hm, Nat.mod_eq_of_lt hd, e1,
      Nat.mod_eq_of_lt (show t.hour < 2 ^ 8 by omega), Nat.mod_eq_of_lt (show t.minute < 2 ^ 8 by omega),
      Nat.mod_eq_of_lt (show t.second < 2 ^ 8 by omega)]
    exact ((C69_dates_partial _ _ _ h2).2 _ rfl rfl rfl hh hmi hs e2).1
  | myYear n =>
    exact ⟨⟨h, trivial, by simp [RustArg.toCol, StmtColumnValue.newMyYear, Spec.meaning, Spec.typesOf]⟩,
      by simp [RustArg.toCol, StmtColumnValue.newMyYear], rfl⟩
  | myBit bs =>
    exact ⟨ss _ h.1 h.2 _ (by simp [RustArg.toCol]), by simp [RustArg.toCol, StmtColumnValue.newBit], rfl⟩
  | bool b =>
    refine ⟨si b 0 0 0 0 nd _ (by simp [RustArg.toCol]), by simp [RustArg.toCol, StmtColumnValue.newBool], ?_⟩
    cases b <;> rfl
  | string s =>
    exact ⟨ss _ h.2.1 h.2.2 _ (by simp [RustArg.toCol]), by simp [RustArg.toCol, StmtColumnValue.newVarstring],
      ((C67_strings s).1 h.1).1⟩
  | time negative days tm =>
    obtain ⟨hd, hh, hmi, hs, hn, hk, hz⟩ := h
    obtain ⟨e1, e2⟩ := nano_micro tm.nano hn
    have e : RustArg.toCol (.time negative days tm)
        = .newMyTime ⟨negative, days, tm.hour, tm.minute, tm.second, tm.nano / 1000⟩ := by
      show StmtColumnValue.newMyTime _ = _
      rw [e1, Nat.mod_eq_of_lt (show tm.hour < 2 ^ 8 by omega), Nat.mod_eq_of_lt (show tm.minute < 2 ^ 8 by omega),
        Nat.mod_eq_of_lt (show tm.second < 2 ^ 8 by omega)]
    rw [e]
    refine ⟨st _ ?_ ?_, by simp [StmtColumnValue.newMyTime], rfl⟩
    · unfold MyTime.InRange; dsimp only; omega
    · intro hc
      simp only [MyTime.mk.injEq] at hc
      obtain ⟨k, hk⟩ := hk
      exact hz ⟨hc.1, hc.2.1, hc.2.2.1, hc.2.2.2.1, hc.2.2.2.2.1, by omega⟩
  | bytes bs =>
    exact ⟨ss _ h.1 h.2 _ (by simp [RustArg.toCol]), by simp [RustArg.toCol, StmtColumnValue.newBlob], rfl⟩
  | myDateTime t => exact absurd h (by simp [Spec.ComesBack])

/-! ### C99 -/

/-- C99: give any list of arguments (`None` for NULL) to a prepared statement. The command is one from which the server
decodes, with the type codes in it, one value per argument; and whenever it sends a binary row of these values, whichever of
the encodings of the protocol it picks, of columns of any type such values can have, the row is decoded, and each column read
as the type of its argument is the argument again, `None` being NULL.
(Full claim: for all values of the Rust types; see the exceptions in `Spec.ComesBack` and below.) -/
theorem C99_echo_partial (stmtId : Nat) (as : List (Option RustArg)) (hid : stmtId < 2 ^ 32)
    (h : ∀ a, some a ∈ as → Spec.ComesBack a) :
    ∃ c e seen, ComStmtExecute.single stmtId (as.map RustArg.optToCol) = some c ∧
      c.writeTo [] = some (e, e.length) ∧ Spec.D.all (Spec.D.stmtExecute as.length) e = some seen ∧
      ∀ (cells : List Spec.BinCell) (hdr : UInt8) (bm rest : Bytes),
        cells.map (·.value) = seen.params.map (·.value) → (∀ c ∈ cells, c.Ok) → bm.length = (cells.length + 9) / 8 →
        (∀ (i : Nat) c, cells[i]? = some c → Spec.bit? bm (i + 2) = some c.value.isNone) →
        ∃ row, BinaryRow.readFrom (cells.map (·.ct)) ([hdr] ++ bm ++ (cells.map (·.bytes)).flatten ++ rest) = .ok row rest ∧
          List.Forall₂ Spec.OptReadsBack as row := by
  have hs : ∀ p ∈ as.map RustArg.optToCol, p.Sound := by
    intro p hp
    obtain ⟨a, ha, rfl⟩ := List.mem_map.1 hp
    cases a with
    | none => exact ⟨trivial, trivial, by simp [RustArg.optToCol, StmtColumnValue.newNull, Spec.meaning, Spec.typesOf]⟩
    | some a => exact (arg_sound a (h a ha)).1
  obtain ⟨c, e, h1, h2, h3⟩ := C22_server_sees_parameters_partial stmtId _ hid hs
  rw [List.length_map] at h3
  refine ⟨c, e, _, h1, by simpa using h2 [], h3, ?_⟩
  intro cells hdr bm rest hv hok hl hb
  refine ⟨_, C24_decode cells hdr bm rest hok hl hb, ?_⟩
  rw [show cells.map (fun c => c.value.getD .null) = (cells.map (·.value)).map (·.getD .null) by simp, hv]
  dsimp only
  simp only [List.map_map, List.forall₂_map_right_iff]
  refine List.forall₂_same.2 fun a ha => ?_
  cases a with
  | none => rfl
  | some a =>
    obtain ⟨-, hn, hr⟩ := arg_sound a (h a ha)
    show Spec.ReadsBack (((Spec.serverParam a.toCol).value).getD .null) a
    unfold Spec.serverParam
    rw [if_neg hn]
    exact hr


/-- an `i32`, a decimal, a date, a NULL, a date and time, and a text: all come back -/
example : ∀ a, some a ∈ [some (RustArg.i32 (-5)), some (.bigDecimal ⟨-12345, 3⟩), some (.naiveDate ⟨2020, 2, 29, 0, 0, 0, 0⟩),
    none, some (.naiveDateTime ⟨1999, 12, 31, 23, 59, 59, 999999000⟩), some (.string (Spec.ascii "it"))] →
    Spec.ComesBack a := by
  intro a ha
  simp only [List.mem_cons, Option.some.injEq, reduceCtorEq, List.not_mem_nil, or_false, false_or] at ha
  have d1 : Spec.IsDate 2020 2 29 := (dateExists_iff _ _ _).1 (by decide)
  have d2 : Spec.IsDate 1999 12 31 := (dateExists_iff _ _ _).1 (by decide)
  rcases ha with rfl | rfl | rfl | rfl | rfl
  · norm_num [Spec.ComesBack, Spec.SignedRange]
  · have : (BigDec.mk (-12345) 3).display.length = 7 := by decide +kernel
    simp only [Spec.ComesBack, this]; norm_num
  · exact ⟨by norm_num, by norm_num, d1⟩
  · exact ⟨by norm_num, by norm_num, d2, by norm_num, by norm_num, by norm_num, by norm_num, ⟨999999, rfl⟩⟩
  · exact ⟨by decide +kernel, by decide, by decide⟩

/-- the texts of some decimals -/
example : (BigDec.mk (-12345) 3).display = Spec.ascii "-12.345" ∧ (BigDec.mk 5 3).display = Spec.ascii "0.005" ∧
    (BigDec.mk 12 (-2)).display = Spec.ascii "1200" ∧ (BigDec.mk 0 0).display = Spec.ascii "0" := by decide +kernel

/-! ### what does not come back -/

/-- whatever a reader gives has a property -/
def Yields {α : Type} (p : P α) (Q : α → Prop) : Prop := ∀ bs a rest, p bs = .ok a rest → Q a

theorem Yields.bind {α β : Type} {p : P α} {f : α → P β} {Q : β → Prop} (h : ∀ a, Yields (f a) Q) :
    Yields (p >>= f) Q := by
  intro bs b rest hb
  rw [P.bind_apply] at hb
  cases hr : p bs with
  | ok a r => rw [hr] at hb; exact h a r b rest hb
  | _ => rw [hr] at hb; cases hb

theorem Yields.then {α β : Type} {p : P α} {f : α → P β} {O : α → Prop} {Q : β → Prop} (hp : Yields p O)
    (h : ∀ a, O a → Yields (f a) Q) : Yields (p >>= f) Q := by
  intro bs b rest hb
  rw [P.bind_apply] at hb
  cases hr : p bs with
  | ok a r => rw [hr] at hb; exact h a (hp bs a r hr) r b rest hb
  | _ => rw [hr] at hb; cases hb

theorem Yields.pure {α : Type} {a : α} {Q : α → Prop} (h : Q a) : Yields (pure a) Q := by
  rintro bs b rest hb
  cases hb; exact h

theorem Yields.fail {α : Type} {e : Err} {Q : α → Prop} : Yields (P.fail e) Q := by
  rintro bs b rest hb
  cases hb

theorem Yields.ite {α : Type} {c : Prop} [Decidable c] {p q : P α} {Q : α → Prop} (h1 : Yields p Q) (h2 : Yields q Q) :
    Yields (if c then p else q) Q := by
  split
  · exact h1
  · exact h2

/-- no value of a binary row is a timestamp: they are all read as date and time -/
theorem value_not_timestamp (ct : ColumnType) : Yields (BinaryColumnValue.readFrom ct) fun v => ∀ t, v ≠ .timestamp t := by
  have str : ∀ mk : Bytes → BinaryColumnValue, (∀ s t, mk s ≠ .timestamp t) →
      Yields (readStrValue mk) fun v => ∀ t, v ≠ .timestamp t := by
    intro mk hmk
    refine Yields.bind fun v => ?_
    cases v
    · exact Yields.pure (by simp)
    · exact Yields.fail
    · exact Yields.pure (hmk _)
  cases ct <;>
    first
    | exact str _ (by simp)
    | (unfold BinaryColumnValue.readFrom
       try unfold readDateValue
       try unfold readTimeValue
       try unfold readDateTimeValue
       repeat' first
         | exact Yields.pure (by simp)
         | exact Yields.fail
         | refine Yields.bind fun _ => ?_
         | refine Yields.ite ?_ ?_)

theorem readCols_not_timestamp (bm : Bytes) (cts : List ColumnType) (i : Nat) :
    Yields (BinaryRow.readCols bm cts i) fun row => ∀ v ∈ row, ∀ t, v ≠ .timestamp t := by
  induction cts generalizing i with
  | nil => exact Yields.pure (by simp)
  | cons ct cts ih =>
    unfold BinaryRow.readCols
    split
    · intro bs a rest h; cases h
    · exact Yields.pure (by simp)
    · refine Yields.then (Yields.ite (Yields.pure (by simp)) (value_not_timestamp ct)) fun col hc => ?_
      refine Yields.then (ih _) fun cols hs => Yields.pure fun v hv => ?_
      rcases List.mem_cons.1 hv with rfl | hv
      · exact hc
      · exact hs v hv

/-- C99 fails for `MyDateTime`: whatever the server sends, no column of a binary row can be read as one, it is an error
(or `None`, for NULL), so no argument of this type ever comes back. -/
theorem C99_my_date_time_false (cts : List ColumnType) (bs rest : Bytes) (row : List BinaryColumnValue)
    (h : BinaryRow.readFrom cts bs = .ok row rest) (v : BinaryColumnValue) (hv : v ∈ row) :
    (∀ t, ¬ Spec.ReadsBack v (.myDateTime t)) ∧ (v = .null ∨ myDateTimeFromBinary v = .err .typeMismatch) := by
  have hy : Yields (BinaryRow.readFrom cts) fun row => ∀ v ∈ row, ∀ t, v ≠ .timestamp t :=
    Yields.bind fun _ => Yields.bind fun bm => readCols_not_timestamp bm cts 2
  have hn := hy bs row rest h v hv
  cases v <;> simp [Spec.ReadsBack, myDateTimeFromBinary] at *

example : BinaryRow.readFrom [.dateTime] ([0x00, 0x00] ++ ([4] ++ [0xe4, 0x07, 2, 29]))
    = .ok [.dateTime ⟨2020, 2, 29, 0, 0, 0, 0⟩] [] := by decide +kernel

/-- C99 fails for dates (and date-times) of a year outside of 0 to 65535: the server gets a date of another year. -/
theorem C99_year_false (d : NaiveDateTime) (h : d.year < 0 ∨ 2 ^ 16 ≤ d.year) :
    (∃ y m dd, (Spec.serverParam (RustArg.naiveDate d).toCol).value = some (.date y m dd) ∧ (y : Int) ≠ d.year) ∧
    ∃ t, (Spec.serverParam (RustArg.naiveDateTime d).toCol).value = some (.dateTime t) ∧ (t.year : Int) ≠ d.year := by
  have hlt := asUnsigned_lt 16 d.year
  have hne : ((asUnsigned 16 d.year : Nat) : Int) ≠ d.year := by omega
  exact ⟨⟨_, _, _, rfl, hne⟩, _, rfl, hne⟩

/-- year 67556 is taken as 2020 -/
example : (Spec.serverParam (RustArg.naiveDate ⟨67556, 2, 29, 0, 0, 0, 0⟩).toCol).value = some (.date 2020 2 29) := by
  decide +kernel

/-- C99 fails for a fraction of a second that is not a number of microseconds, and within a leap second: the server gets
another fraction. -/
theorem C99_fraction_false (d : NaiveDateTime) (negative : Bool) (days : Nat) (h : ¬ 1000 ∣ d.nano ∨ 10 ^ 9 ≤ d.nano) :
    (∃ t, (Spec.serverParam (RustArg.naiveDateTime d).toCol).value = some (.dateTime t) ∧ t.micro * 1000 ≠ d.nano) ∧
    ∃ t, (Spec.serverParam (RustArg.time negative days d).toCol).value = some (.time t) ∧ t.micro * 1000 ≠ d.nano := by
  have hne : d.nano % 1000000000 / 1000 * 1000 ≠ d.nano := by omega
  exact ⟨⟨_, rfl, hne⟩, _, rfl, hne⟩

/-- C99 fails for a negative time of zero: the server gets one that is not negative. -/
theorem C99_negative_zero_false (stmtId : Nat) (hid : stmtId < 2 ^ 32) :
    ∃ c e, ComStmtExecute.single stmtId [RustArg.optToCol (some (.myTime ⟨true, 0, 0, 0, 0, 0⟩))] = some c ∧
      c.writeTo [] = some (e, e.length) ∧
      Spec.D.all (Spec.D.stmtExecute 1) e = some ⟨stmtId, 0, 1, [⟨0x0b, false, some (.time ⟨false, 0, 0, 0, 0, 0⟩)⟩]⟩ := by
  obtain ⟨c, e, h1, h2, h3⟩ := C22_server_sees_parameters_partial stmtId [.newMyTime ⟨false, 0, 0, 0, 0, 0⟩] hid
    (by
      intro p hp
      obtain rfl := List.mem_singleton.1 hp
      exact ⟨by norm_num [StmtColumnValue.newMyTime, BinaryColumnValue.InRange, MyTime.InRange],
        by simp [StmtColumnValue.newMyTime, BinaryColumnValue.Writable],
        by simp [StmtColumnValue.newMyTime, Spec.meaning, Spec.typesOf]⟩)
  refine ⟨⟨.stmtExecute, stmtId, 0, 1, [0], true, _⟩, e, rfl, ?_, h3⟩
  have h2 := h2 []
  have h1 : c = ⟨.stmtExecute, stmtId, 0, 1, [0], true, [.newMyTime ⟨false, 0, 0, 0, 0, 0⟩]⟩ :=
    (Option.some.inj h1).symm
  rw [h1] at h2
  exact h2

/-- C99 fails for a text of exactly 251 bytes (and so do byte strings, bits and decimals): the server cannot decode the
command, as it takes the length for a NULL. -/
theorem C99_text_251_false (stmtId : Nat) (hid : stmtId < 2 ^ 32) (s : Bytes) (hs : s.length = 251) (a : RustArg)
    (ha : a = .string s ∨ a = .bytes s ∨ a = .myBit s ∨ ∃ d : BigDec, a = .bigDecimal d ∧ d.display = s) :
    ∃ c e, ComStmtExecute.single stmtId [RustArg.optToCol (some a)] = some c ∧
      c.writeTo [] = some (e, e.length) ∧ Spec.D.all (Spec.D.stmtExecute 1) e = none := by
  obtain ⟨ct, mk, hcol, hw, hct, hcode⟩ : ∃ (ct : ColumnType) (mk : Bytes → BinaryColumnValue),
      RustArg.optToCol (some a) = ⟨ct, false, mk s⟩ ∧ (∀ out, (mk s).writeTo out = (LenEncStr.bytes s).writeTo out) ∧
      ct ≠ .null ∧ (ct = .varString ∨ ct = .blob ∨ ct = .bit ∨ ct = .newDecimal) := by
    rcases ha with rfl | rfl | rfl | ⟨d, rfl, rfl⟩
    · exact ⟨.varString, .varString, rfl, fun _ => rfl, by simp, by simp⟩
    · exact ⟨.blob, .blob, rfl, fun _ => rfl, by simp, by simp⟩
    · exact ⟨.bit, .bit, rfl, fun _ => rfl, by simp, by simp⟩
    · exact ⟨.newDecimal, .newDecimal, rfl, fun _ => rfl, by simp, by simp⟩
  have hnull : (⟨ct, false, mk s⟩ : StmtColumnValue).isNull = false := by simp [StmtColumnValue.isNull, hct]
  have hbm : Bitmap.fromIter ([(⟨ct, false, mk s⟩ : StmtColumnValue)].map (·.isNull)) 0 = some [0] := by
    rw [List.map_singleton, hnull]; rfl
  rw [hcol]
  have hwr : ∀ out, (mk s).writeTo out = (out ++ 0xfb :: s, 252) := by
    intro out
    rw [hw]
    simp only [LenEncStr.writeTo, hs]
    rw [show (LenEncInt.ofU64 251).writeTo out = (out ++ [0xfb], 1) from rfl]
    simp
  refine ⟨⟨.stmtExecute, stmtId, 0, 1, [0], true, [⟨ct, false, mk s⟩]⟩,
    Spec.u8 0x17 ++ (Spec.le 4 stmtId ++ (Spec.u8 0 ++ (Spec.le 4 1 ++ ([0] ++ (Spec.u8 1 ++ (Spec.u8 ct.toByte ++ (Spec.u8 0 ++
      (0xfb :: s)))))))), ?_, ?_, ?_⟩
  · unfold ComStmtExecute.single; rw [hbm]
  · have : List.Forall₂ Appends
        [(writeU8 · Command.stmtExecute.toByte), (writeLeU32 · stmtId), (writeU8 · 0), (writeLeU32 · 1),
          (writeBytes · [0]), (writeU8 · 1), (fun out => writeParamType out ⟨ct, false, mk s⟩), (fun out => (mk s).writeTo out)]
        [Spec.u8 0x17, Spec.le 4 stmtId, Spec.u8 0, Spec.le 4 1, [0], Spec.u8 1, Spec.u8 ct.toByte ++ Spec.u8 0, 0xfb :: s] :=
      .cons (appends_u8 _) (.cons (appends_u32 _) (.cons (appends_u8 _) (.cons (appends_u32 _)
        (.cons (appends_bytes _) (.cons (appends_u8 _) (.cons (appends_mk (fun out => rfl) (.cons (appends_u8 _) (.cons (appends_u8 _) .nil)) (by simp)) (.cons (fun out => by rw [hwr, List.length_cons, hs]) .nil)))))))
    have h := Appends.seq this []
    simp only [ComStmtExecute.writeTo, List.isEmpty_cons, Bool.false_eq_true, if_false, hbm, Option.some.injEq]
    simpa using h
  · have : Spec.D.stmtExecute 1 (Spec.u8 0x17 ++ (Spec.le 4 stmtId ++ (Spec.u8 0 ++ (Spec.le 4 1 ++ ([0] ++ (Spec.u8 1 ++
        (Spec.u8 ct.toByte ++ (Spec.u8 0 ++ (0xfb :: s))))))))) = none := by
      unfold Spec.D.stmtExecute
      rw [Spec.D.bind_some (Spec.D.u8_spec _ _ (by norm_num)),
        Spec.D.bind_some (Spec.D.le_spec 4 _ _ (by omega)),
        Spec.D.bind_some (Spec.D.u8_spec _ _ (by norm_num)),
        Spec.D.bind_some (Spec.D.le_spec 4 _ _ (by norm_num))]
      rcases hcode with rfl | rfl | rfl | rfl <;> rfl
    unfold Spec.D.all
    rw [this]

end Mybin
