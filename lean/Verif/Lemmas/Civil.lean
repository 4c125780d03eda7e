/-
The date of a day number: the computation over 400-year periods gives the date of the calendar.
-/
import Verif.Model.Sql
import Verif.Spec.Replay
import Mathlib.Tactic.IntervalCases

namespace Mybin

/-- days of the years before `y` -/
theorem years_sum (y : Nat) :
    ((List.range y).map Spec.yearDays).sum = 365 * y + (y + 3) / 4 - (y + 99) / 100 + (y + 399) / 400 := by
  induction y with
  | zero => rfl
  | succ y ih =>
    rw [List.range_succ, List.map_append, List.sum_append, ih]
    simp only [List.map_cons, List.map_nil, List.sum_cons, List.sum_nil, Spec.yearDays, Spec.leapYear, decide_eq_true_eq]
    split <;> omega

/-- days of a year before a month -/
theorem months_sum (y m : Nat) (h1 : 1 ≤ m) (h2 : m ≤ 12) :
    ((List.range (m - 1)).map fun i => Spec.monthDays y (i + 1)).sum
      = if m ≤ 2 then 31 * (m - 1) else (153 * (m - 3) + 2) / 5 + 59 + (if Spec.leapYear y then 1 else 0) := by
  have : m = 1 ∨ m = 2 ∨ m = 3 ∨ m = 4 ∨ m = 5 ∨ m = 6 ∨ m = 7 ∨ m = 8 ∨ m = 9 ∨ m = 10 ∨ m = 11 ∨ m = 12 := by omega
  cases hl : Spec.leapYear y <;>
    rcases this with rfl | rfl | rfl | rfl | rfl | rfl | rfl | rfl | rfl | rfl | rfl | rfl <;>
      simp [List.range_succ, Spec.monthDays, hl]

/-- days of the first `y` years of a period of 400 years that begins on the first of March -/
def eraDays (y : Nat) : Nat := 365 * y + y / 4 - y / 100

/-- the day of the period without the leap days before it -/
def eraSteps (doe : Nat) : Nat := doe - doe / 1460 + doe / 36524 - doe / 146096

theorem eraSteps_step (d : Nat) (h : d + 1 < 146097) : eraSteps d ≤ eraSteps (d + 1) := by
  unfold eraSteps
  have h1 : (d + 1) / 1460 = d / 1460 ∨ (d + 1) / 1460 = d / 1460 + 1 := by omega
  have h2 : (d + 1) / 146096 = 0 ∨ (d = 146095 ∧ (d + 1) / 146096 = 1) := by omega
  have h3 : d / 146096 = 0 := by omega
  rcases h2 with h2 | ⟨rfl, h2⟩
  · omega
  · decide

theorem eraSteps_mono (a b : Nat) (h : a ≤ b) (hb : b < 146097) : eraSteps a ≤ eraSteps b := by
  obtain ⟨k, rfl⟩ := Nat.exists_eq_add_of_le h
  induction k with
  | zero => exact le_refl _
  | succ k ih => exact le_trans (ih (by omega) (by omega)) (eraSteps_step (a + k) (by omega))

theorem eraSteps_before : ∀ y, y < 401 → 0 < y → eraSteps (eraDays y - 1) < 365 * y := by decide +kernel
theorem eraSteps_after : ∀ y, y < 400 → 365 * y ≤ eraSteps (eraDays y) := by decide +kernel
theorem eraSteps_last : eraSteps 146096 < 365 * 400 := by decide

/-- the year within a period of 400 years that begins on the first of March -/
theorem yoe_spec (doe : Nat) (h : doe < 146097) :
    eraSteps doe / 365 < 400 ∧ eraDays (eraSteps doe / 365) ≤ doe ∧
      (doe < eraDays (eraSteps doe / 365 + 1) ∨ (eraSteps doe / 365 = 399 ∧ doe = 146096)) := by
  have h0 : eraSteps doe / 365 < 400 := by
    have := eraSteps_mono doe 146096 (by omega) (by omega)
    have := eraSteps_last
    omega
  generalize hy : eraSteps doe / 365 = y at *
  refine ⟨h0, ?_, ?_⟩
  · by_contra hc
    have hpos : 0 < y := by
      rcases Nat.eq_zero_or_pos y with rfl | h
      · simp [eraDays] at hc
      · exact h
    have h1 := eraSteps_before y (by omega) hpos
    have hle : eraDays y ≤ 146097 := by unfold eraDays; omega
    have h2 := eraSteps_mono doe (eraDays y - 1) (by omega) (by omega)
    omega
  · by_cases h9 : y = 399
    · subst h9
      have : eraDays (399 + 1) = 146096 := by decide
      rw [this]
      by_cases hd : doe = 146096
      · exact Or.inr ⟨rfl, hd⟩
      · left; omega
    · left
      by_contra hc
      have h1 := eraSteps_after (y + 1) (by omega)
      have h2 := eraSteps_mono (eraDays (y + 1)) doe (by omega) h
      omega

/-- the years before a year, by four hundreds -/
theorem years_next (y : Nat) :
    ((List.range (y + 1)).map Spec.yearDays).sum = 365 * y + y / 4 - y / 100 + y / 400 + 366 := by
  rw [years_sum]; omega

theorem years_next_leap (y : Nat) :
    ((List.range y).map Spec.yearDays).sum + (if Spec.leapYear y then 1 else 0)
      = 365 * y + y / 4 - y / 100 + y / 400 + 1 := by
  have := years_next y
  rw [List.range_succ, List.map_append, List.sum_append] at this
  simp only [List.map_cons, List.map_nil, List.sum_cons, List.sum_nil, Spec.yearDays] at this
  split at this <;> rename_i h <;> simp only [h, if_true] <;> simp <;> omega

/-- the days of the March-based year `yoe + 400 * era` -/
theorem civil_date (era yoe doy : Nat) (hy : yoe < 400) (hdoy : doy < 366)
    (hlast : doy = 365 → Spec.leapYear (yoe + era * 400 + 1) = true) :
    let mp := (5 * doy + 2) / 153
    let d := doy - (153 * mp + 2) / 5 + 1
    let m := if mp < 10 then mp + 3 else mp - 9
    let y := yoe + era * 400 + (if m ≤ 2 then 1 else 0)
    Spec.dateOk y m d = true ∧ Spec.dayNumber y m d = era * 146097 + eraDays yoe + doy + 60 := by
  intro mp d m y
  have hmp : mp < 12 := by omega
  have hb : eraDays yoe = 365 * yoe + yoe / 4 - yoe / 100 := rfl
  have hlow : (153 * mp + 2) / 5 ≤ doy := by omega
  have hd : d = doy - (153 * mp + 2) / 5 + 1 := rfl
  by_cases h10 : mp < 10
  · have hm : m = mp + 3 := if_pos h10
    have hy2 : y = yoe + era * 400 := by
      show yoe + era * 400 + (if m ≤ 2 then 1 else 0) = _
      rw [if_neg (by omega)]; rfl
    refine ⟨?_, ?_⟩
    · simp only [Spec.dateOk, Spec.monthDays, decide_eq_true_eq, List.mem_cons, List.not_mem_nil, or_false]
      rw [if_neg (by omega)]
      refine ⟨by omega, by omega, by omega, ?_⟩
      have : mp = 0 ∨ mp = 1 ∨ mp = 2 ∨ mp = 3 ∨ mp = 4 ∨ mp = 5 ∨ mp = 6 ∨ mp = 7 ∨ mp = 8 ∨ mp = 9 := by omega
      split <;> omega
    · unfold Spec.dayNumber
      rw [months_sum y m (by omega) (by omega), if_neg (by omega)]
      have := years_next_leap y
      rw [hy2] at *
      rw [hm] at *
      rw [show mp + 3 - 3 = mp by omega]
      have e4 : (yoe + era * 400) / 4 = yoe / 4 + era * 100 := by omega
      have e100 : (yoe + era * 400) / 100 = yoe / 100 + era * 4 := by omega
      have e400 : (yoe + era * 400) / 400 = era := by omega
      rw [e4, e100, e400] at this
      omega
  · have hm : m = mp - 9 := if_neg h10
    have hy2 : y = yoe + era * 400 + 1 := by
      show yoe + era * 400 + (if m ≤ 2 then 1 else 0) = _
      rw [if_pos (by omega)]
    have hmp2 : mp = 10 ∨ mp = 11 := by omega
    refine ⟨?_, ?_⟩
    · simp only [Spec.dateOk, Spec.monthDays, decide_eq_true_eq, List.mem_cons, List.not_mem_nil, or_false]
      refine ⟨by omega, by omega, by omega, ?_⟩
      rw [hy2]
      rcases hmp2 with h | h
      · rw [if_neg (by omega), if_neg (by omega)]; omega
      · rw [if_pos (by omega)]
        by_cases h365 : doy = 365
        · rw [if_pos (hlast h365)]; omega
        · split <;> omega
    · unfold Spec.dayNumber
      rw [months_sum y m (by omega) (by omega), if_pos (by omega), hy2, years_next]
      have e4 : (yoe + era * 400) / 4 = yoe / 4 + era * 100 := by omega
      have e100 : (yoe + era * 400) / 100 = yoe / 100 + era * 4 := by omega
      have e400 : (yoe + era * 400) / 400 = era := by omega
      rw [e4, e100, e400]
      rcases hmp2 with h | h <;> omega

theorem leap_of (era yoe : Nat) (h : eraDays yoe + 365 < eraDays (yoe + 1)) :
    Spec.leapYear (yoe + era * 400 + 1) = true := by
  unfold eraDays at h
  simp only [Spec.leapYear, decide_eq_true_eq]
  have h4 : (yoe + 1) / 4 = yoe / 4 + 1 ∧ (yoe + 1) % 4 = 0 ∨ (yoe + 1) / 4 = yoe / 4 ∧ (yoe + 1) % 4 ≠ 0 := by omega
  have h100 : (yoe + 1) / 100 = yoe / 100 + 1 ∧ (yoe + 1) % 100 = 0 ∨ (yoe + 1) / 100 = yoe / 100 ∧ (yoe + 1) % 100 ≠ 0 := by
    omega
  omega

/-- `NaiveDateTime::from_timestamp` gives the date and time of the calendar -/
theorem chronoTimestamp_spec (secs : Nat) :
    ∃ y m d h mi s : Nat, chronoTimestamp secs = ⟨y, m, d, h, mi, s, 0⟩ ∧
      Spec.dateOk y m d = true ∧ 1970 ≤ y ∧ h < 24 ∧ mi < 60 ∧ s < 60 ∧ Spec.epochSeconds y m d h mi s = secs := by
  let z := secs / 86400 + 719468
  let era := z / 146097
  let doe := z % 146097
  let yoe := (doe - doe / 1460 + doe / 36524 - doe / 146096) / 365
  let doy := doe - (365 * yoe + yoe / 4 - yoe / 100)
  let mp := (5 * doy + 2) / 153
  let d := doy - (153 * mp + 2) / 5 + 1
  let m := if mp < 10 then mp + 3 else mp - 9
  let y := yoe + era * 400 + (if m ≤ 2 then 1 else 0)
  have hdoe : doe < 146097 := Nat.mod_lt _ (by omega)
  obtain ⟨h1, h2, h3⟩ := yoe_spec doe hdoe
  replace h1 : yoe < 400 := h1
  replace h2 : eraDays yoe ≤ doe := h2
  replace h3 : doe < eraDays (yoe + 1) ∨ (yoe = 399 ∧ doe = 146096) := h3
  have hdoy : doy = doe - eraDays yoe := rfl
  have e1 : eraDays yoe = 365 * yoe + yoe / 4 - yoe / 100 := rfl
  have e2 : eraDays (yoe + 1) = 365 * (yoe + 1) + (yoe + 1) / 4 - (yoe + 1) / 100 := rfl
  have hz : z = era * 146097 + doe := by
    have := Nat.div_add_mod z 146097
    show z = z / 146097 * 146097 + z % 146097
    omega
  have hlt : doy < 366 := by
    rcases h3 with h3 | ⟨h3, h4⟩
    · omega
    · rw [hdoy, e1, h3, h4]; decide
  have hleap : doy = 365 → Spec.leapYear (yoe + era * 400 + 1) = true := by
    intro h
    rcases h3 with h3 | ⟨h3, h4⟩
    · exact leap_of era yoe (by omega)
    · rw [h3]
      simp only [Spec.leapYear, decide_eq_true_eq]
      omega
  obtain ⟨hok, hday⟩ := civil_date era yoe doy h1 hlt hleap
  replace hok : Spec.dateOk y m d = true := hok
  replace hday : Spec.dayNumber y m d = era * 146097 + eraDays yoe + doy + 60 := hday
  have h1970 : Spec.dayNumber 1970 1 1 = 719528 := by
    unfold Spec.dayNumber; rw [years_sum]; rfl
  have hyear : 1970 ≤ y := by
    by_contra hc
    have hm1 : 1 ≤ m ∧ m ≤ 12 ∧ 1 ≤ d ∧ d ≤ Spec.monthDays y m := by
      simpa only [Spec.dateOk, decide_eq_true_eq] using hok
    have hm2 : Spec.monthDays y m ≤ 31 := by
      unfold Spec.monthDays
      split
      · split <;> omega
      · split <;> omega
    have : Spec.dayNumber y m d < 719528 := by
      unfold Spec.dayNumber
      rw [years_sum, months_sum y m hm1.1 hm1.2.1]
      have h31 := hm1.2.2.2
      unfold Spec.monthDays at h31
      simp only [Spec.leapYear, List.mem_cons, List.not_mem_nil, or_false, decide_eq_true_eq] at h31 ⊢
      split_ifs at h31 ⊢ <;> omega
    omega
  refine ⟨y, m, d, secs % 86400 / 3600, secs % 3600 / 60, secs % 60, ?_, hok, hyear, by omega, by omega, by omega, ?_⟩
  · rfl
  · unfold Spec.epochSeconds
    rw [hday, h1970]
    omega

end Mybin
