/-
C39: TIME and DATETIME values in row events.
-/
import Verif.Lemmas.BinlogCol

namespace Mybin

theorem negI64_spec (n : Nat) (h : n ≠ 2 ^ 63) (bs : Bytes) :
    negI64 n bs = .ok ((2 ^ 64 - n) % 2 ^ 64) bs := by
  unfold negI64
  rw [if_neg h]; rfl

/-- taking a packed time apart -/
theorem MyTime.ofPacked_spec (neg : Bool) (h m s us q : Nat) (hh : h ≤ 838) (hm : m < 60) (hs : s < 60)
    (hus : us < 10 ^ 6) :
    MyTime.ofPacked (q * 2 ^ 48 + Spec.packedHms h m s * 2 ^ 24 + us) neg
      = ⟨neg, h / 24, h % 24, m, s, us⟩ := by
  have e24 : ∀ x : Nat, x &&& 0xffffff = x % 2 ^ 24 := fun x => Nat.and_two_pow_sub_one_eq_mod x 24
  unfold MyTime.ofPacked
  simp only [e24, Nat.shiftRight_eq_div_pow, Nat.shiftLeft_eq]
  have hH : Spec.packedHms h m s = h * 4096 + m * 64 + s := rfl
  generalize Spec.packedHms h m s = H at hH ⊢
  have a1 : (q * 2 ^ 48 + H * 2 ^ 24 + us) % 2 ^ 24 = us := by omega
  have a2 : (q * 2 ^ 48 + H * 2 ^ 24 + us) / 2 ^ 24 % 2 ^ 24 = H := by omega
  rw [a1, a2]
  have b1 : H / 2 ^ 12 % (1 * 2 ^ 10) = h := by omega
  have b2 : H / 2 ^ 6 % (1 * 2 ^ 6) = m := by omega
  have b3 : H % (1 * 2 ^ 6) = s := by omega
  rw [b1, b2, b3]
  have b4 : (h - h / 24 * 24) % 256 = h % 24 := by omega
  rw [b4]

theorem packedTime_pos (h m s us : Nat) :
    Spec.packedTime false h m s us = ((Spec.packedHms h m s * 2 ^ 24 + us : Nat) : Int) := by
  unfold Spec.packedTime; rw [if_neg (by simp)]

theorem packedTime_neg (h m s us : Nat) :
    Spec.packedTime true h m s us = -((Spec.packedHms h m s * 2 ^ 24 + us : Nat) : Int) := by
  unfold Spec.packedTime; rw [if_pos rfl]

theorem pattern_nat (w n : Nat) (h : n < 2 ^ w) : Spec.pattern w (n : Int) = n := by
  unfold Spec.pattern
  rw [← Int.natCast_mod, Int.toNat_natCast, Nat.mod_eq_of_lt h]

theorem time_aux (k us : Nat) (h : k + us < 2 ^ 47) :
    (k + 2 ^ 47 + us + 2 ^ 64 - 0x800000000000) % 2 ^ 64 = k + us := by omega

theorem R.ok_congr {α : Type} {a b : α} {r : Bytes} (h : a = b) : R.ok a r = R.ok b r := by rw [h]

theorem time_pos (frac h m s us : Nat) (ok : Spec.TimeOk frac false h m s us) (rest : Bytes) :
    MyTime.fromBinlog frac (Spec.time2 frac (Spec.packedTime false h m s us) ++ rest)
      = .ok ⟨false, h / 24, h % 24, m, s, us⟩ rest := by
  obtain ⟨hh, hm, hs, ⟨hf, hus, hd⟩, -⟩ := ok
  rw [packedTime_pos]
  have hH : Spec.packedHms h m s = h * 4096 + m * 64 + s := rfl
  generalize hH2 : Spec.packedHms h m s = H at hH ⊢
  have hHlt : H < 2 ^ 22 := by omega
  have hint : Spec.pattern 24 (2 ^ 23 + (((H * 2 ^ 24 + us : Nat) : Int)) / 2 ^ 24) = 2 ^ 23 + H := by
    rw [show (2 ^ 23 + (((H * 2 ^ 24 + us : Nat) : Int)) / 2 ^ 24) = ((2 ^ 23 + H : Nat) : Int) by omega]
    exact pattern_nat _ _ (by omega)
  have htm : Int.tmod (((H * 2 ^ 24 + us : Nat) : Int)) (2 ^ 24) = (us : Int) := by
    rw [Int.tmod_eq_emod_of_nonneg (by omega)]
    omega
  have hneg : ((2 ^ 23 + H) &&& 0x800000 != 0x800000) = false := by
    rw [show (0x800000 : Nat) = 2 ^ 23 by norm_num, and_top 23 _ (by omega)]
    simp
  have fin : ∀ bs t, packedTimeParts (2 ^ 23 + H) frac (t ++ bs) = .ok (H * 2 ^ 24 + us) bs →
      MyTime.fromBinlog frac (Spec.be 3 (2 ^ 23 + H) ++ (t ++ bs)) = .ok ⟨false, h / 24, h % 24, m, s, us⟩ bs := by
    intro bs t ht
    unfold MyTime.fromBinlog packedFromTimeBinary
    rw [P.bind_apply]
    have : (do
        let hms ← readBeU24
        let negative := hms &&& 0x800000 != 0x800000
        let packed ← packedTimeParts hms frac
        let packed ← (if negative then negI64 packed else pure packed : P Nat)
        return (packed, negative) : P (Nat × Bool)) (Spec.be 3 (2 ^ 23 + H) ++ (t ++ bs))
        = .ok (H * 2 ^ 24 + us, false) bs := by
      step (readBeU24_be _ _ (by omega))
      simp only [hneg]
      step ht
      rfl
    rw [this, R.bind_ok]
    have := MyTime.ofPacked_spec false h m s us 0 hh hm hs hus
    rw [hH2, Nat.zero_mul, Nat.zero_add] at this
    dsimp only
    rw [this]
    rfl
  have hi : (2 ^ 23 + H + 2 ^ 32 - 0x800000) % 2 ^ 32 = H := by omega
  unfold Spec.time2
  simp only [hint, htm]
  by_cases f0 : frac = 0
  · subst f0
    have : us = 0 := by omega
    subst this
    rw [if_pos rfl]
    refine fin rest [] ?_
    unfold packedTimeParts
    rw [if_pos rfl, hi, Nat.shiftLeft_eq, P.pure_apply, List.nil_append]; exact R.ok_congr (by omega)
  · rw [if_neg f0]
    by_cases f2 : frac ≤ 2
    · rw [if_pos f2, List.append_assoc]
      refine fin rest _ ?_
      have hus' : us % 10000 = 0 := by
        have : frac = 1 ∨ frac = 2 := by omega
        rcases this with rfl | rfl <;> omega
      rw [show ((us : Int)).tdiv 10000 = ((us / 10000 : Nat) : Int) by
        rw [Int.tdiv_eq_ediv_of_nonneg (by omega)]; omega, pattern_nat _ _ (by omega)]
      unfold packedTimeParts
      rw [if_neg f0, if_pos (by omega), hi, Nat.shiftLeft_eq]
      step (readU8_u8 (us / 10000) _ (by omega))
      rw [P.pure_apply]
      exact R.ok_congr (by omega)
    · rw [if_neg f2]
      by_cases f4 : frac ≤ 4
      · rw [if_pos f4, List.append_assoc]
        refine fin rest _ ?_
        have hus' : us % 100 = 0 := by
          have : frac = 3 ∨ frac = 4 := by omega
          rcases this with rfl | rfl <;> omega
        rw [show ((us : Int)).tdiv 100 = ((us / 100 : Nat) : Int) by
          rw [Int.tdiv_eq_ediv_of_nonneg (by omega)]; omega, pattern_nat _ _ (by omega)]
        unfold packedTimeParts
        rw [if_neg f0, if_neg (by omega), if_pos (by omega), hi, Nat.shiftLeft_eq]
        step (readBeU16_be (us / 100) _ (by omega))
        rw [P.pure_apply]
        exact R.ok_congr (by omega)
      · rw [if_neg f4]
        rw [show (((H * 2 ^ 24 + us : Nat) : Int)) + 2 ^ 47 = ((H * 2 ^ 24 + us + 2 ^ 47 : Nat) : Int) by omega,
          pattern_nat _ _ (by omega), show (6 : Nat) = 3 + 3 by norm_num, spec_be_add,
          show (H * 2 ^ 24 + us + 2 ^ 47) / 256 ^ 3 = 2 ^ 23 + H by omega,
          show (H * 2 ^ 24 + us + 2 ^ 47) % 256 ^ 3 = us by omega, List.append_assoc]
        refine fin rest _ ?_
        unfold packedTimeParts
        rw [if_neg f0, if_neg (by omega), if_neg (by omega), if_pos (by omega)]
        step (readBeU24_be us _ (by omega))
        rw [P.pure_apply, Nat.shiftLeft_eq]
        rw [show (2 ^ 23 + H) * 2 ^ 24 = H * 2 ^ 24 + 2 ^ 47 by omega]
        rw [time_aux (H * 2 ^ 24) us (by omega)]

theorem time_neg (frac h m s us : Nat) (ok : Spec.TimeOk frac true h m s us)
    (hx : frac = 0 ∨ 5 ≤ frac ∨ us = 0) (rest : Bytes) :
    MyTime.fromBinlog frac (Spec.time2 frac (Spec.packedTime true h m s us) ++ rest)
      = .ok ⟨true, h / 24, h % 24, m, s, us⟩ rest := by
  obtain ⟨hh, hm, hs, ⟨hf, hus, hd⟩, hnz⟩ := ok
  have hnz := hnz rfl
  rw [packedTime_neg] at hnz ⊢
  have hH : Spec.packedHms h m s = h * 4096 + m * 64 + s := rfl
  generalize hH2 : Spec.packedHms h m s = H at hH hnz ⊢
  have hHlt : H < 2 ^ 22 := by omega
  have fin : ∀ v bs t p q, v < 2 ^ 23 → packedTimeParts v frac (t ++ bs) = .ok p bs → p ≠ 2 ^ 63 →
      (2 ^ 64 - p) % 2 ^ 64 = q * 2 ^ 48 + H * 2 ^ 24 + us →
      MyTime.fromBinlog frac (Spec.be 3 v ++ (t ++ bs)) = .ok ⟨true, h / 24, h % 24, m, s, us⟩ bs := by
    intro v bs t p q hv ht hp he
    have hneg : (v &&& 0x800000 != 0x800000) = true := by
      rw [show (0x800000 : Nat) = 2 ^ 23 by norm_num, and_top 23 _ (by omega)]
      simpa using hv
    unfold MyTime.fromBinlog packedFromTimeBinary
    rw [P.bind_apply]
    have : (do
        let hms ← readBeU24
        let negative := hms &&& 0x800000 != 0x800000
        let packed ← packedTimeParts hms frac
        let packed ← (if negative then negI64 packed else pure packed : P Nat)
        return (packed, negative) : P (Nat × Bool)) (Spec.be 3 v ++ (t ++ bs))
        = .ok ((2 ^ 64 - p) % 2 ^ 64, true) bs := by
      step (readBeU24_be _ _ (by omega))
      simp only [hneg, if_true]
      step ht
      step (negI64_spec p hp bs)
      rfl
    rw [this, R.bind_ok]
    have := MyTime.ofPacked_spec true h m s us q hh hm hs hus
    rw [hH2] at this
    dsimp only
    rw [he, this]
    rfl
  unfold Spec.time2
  by_cases f5 : 5 ≤ frac
  · rw [if_neg (by omega), if_neg (by omega), if_neg (by omega)]
    have hb : H * 2 ^ 24 + us < 2 ^ 47 := by omega
    have hpos : 0 < H * 2 ^ 24 + us := by omega
    rw [show -((H * 2 ^ 24 + us : Nat) : Int) + 2 ^ 47 = ((2 ^ 47 - (H * 2 ^ 24 + us) : Nat) : Int) by omega,
      pattern_nat _ _ (by omega), show (6 : Nat) = 3 + 3 by norm_num, spec_be_add, List.append_assoc]
    generalize hw : 2 ^ 47 - (H * 2 ^ 24 + us) = w
    refine fin _ rest _ (2 ^ 64 - (H * 2 ^ 24 + us)) 0 (by omega) ?_ (by omega) (by omega)
    unfold packedTimeParts
    rw [if_neg (by omega), if_neg (by omega), if_neg (by omega), if_pos (by omega)]
    step (readBeU24_be (w % 256 ^ 3) _ (by omega))
    rw [P.pure_apply, Nat.shiftLeft_eq]
    exact R.ok_congr (by omega)
  · have hus0 : us = 0 := by
      rcases hx with rfl | h | h
      · omega
      · omega
      · exact h
    subst hus0
    rw [Nat.add_zero] at hnz ⊢
    have hHpos : 0 < H := by omega
    have hint : Spec.pattern 24 (2 ^ 23 + (-((H * 2 ^ 24 : Nat) : Int)) / 2 ^ 24) = 2 ^ 23 - H := by
      rw [show (2 ^ 23 + (-((H * 2 ^ 24 : Nat) : Int)) / 2 ^ 24) = ((2 ^ 23 - H : Nat) : Int) by omega]
      exact pattern_nat _ _ (by omega)
    have htm : Int.tmod (-((H * 2 ^ 24 : Nat) : Int)) (2 ^ 24) = 0 := by
      rw [Int.neg_tmod, Int.tmod_eq_emod_of_nonneg (by omega)]
      omega
    simp only [hint, htm]
    have hi : (2 ^ 23 - H + 2 ^ 32 - 0x800000) % 2 ^ 32 = 2 ^ 32 - H := by omega
    have hp0 : Spec.pattern 8 (Int.tdiv 0 10000) = 0 := by decide
    have hp1 : Spec.pattern 16 (Int.tdiv 0 100) = 0 := by decide
    by_cases f0 : frac = 0
    · subst f0
      rw [if_pos rfl]
      refine fin _ rest [] ((2 ^ 32 - H) * 2 ^ 24) (2 ^ 16 - 2 ^ 8) (by omega) ?_ (by omega) (by omega)
      unfold packedTimeParts
      rw [if_pos rfl, hi, Nat.shiftLeft_eq, P.pure_apply, List.nil_append]
    · rw [if_neg f0]
      by_cases f2 : frac ≤ 2
      · rw [if_pos f2, List.append_assoc, hp0]
        refine fin _ rest _ ((2 ^ 32 - H) * 2 ^ 24) (2 ^ 16 - 2 ^ 8) (by omega) ?_ (by omega) (by omega)
        unfold packedTimeParts
        rw [if_neg f0, if_pos (by omega), hi, Nat.shiftLeft_eq]
        step (readU8_u8 0 rest (by omega))
        rw [P.pure_apply]
        exact R.ok_congr (by omega)
      · rw [if_neg f2, if_pos (by omega), List.append_assoc, hp1]
        refine fin _ rest _ ((2 ^ 32 - H) * 2 ^ 24) (2 ^ 16 - 2 ^ 8) (by omega) ?_ (by omega) (by omega)
        unfold packedTimeParts
        rw [if_neg f0, if_neg (by omega), if_pos (by omega), hi, Nat.shiftLeft_eq]
        step (readBeU16_be 0 rest (by omega))
        rw [P.pure_apply]
        exact R.ok_congr (by omega)

/-- C39: TIME values. (Full claim: every value and every precision. It is false for negative values with
a fraction and 1 to 4 decimals: `C39_negative_fraction_false`.) The result has the hours split in days and
hours. -/
theorem C39_time_partial (frac : Nat) (neg : Bool) (h m s us : Nat) (ok : Spec.TimeOk frac neg h m s us)
    (hx : neg = true → frac = 0 ∨ 5 ≤ frac ∨ us = 0) (rest : Bytes) :
    MyTime.fromBinlog frac (Spec.time2 frac (Spec.packedTime neg h m s us) ++ rest)
      = .ok ⟨neg, h / 24, h % 24, m, s, us⟩ rest := by
  cases neg with
  | false => exact time_pos frac h m s us ok rest
  | true => exact time_neg frac h m s us ok (hx rfl) rest

/-- -00:00:01.5 in a TIME(1) column decodes as another value -/
theorem C39_negative_fraction_false :
    Spec.TimeOk 1 true 0 0 1 500000 ∧
    MyTime.fromBinlog 1 (Spec.time2 1 (Spec.packedTime true 0 0 1 500000))
      ≠ .ok ⟨true, 0, 0, 0, 1, 500000⟩ [] := by
  refine ⟨⟨by omega, by omega, by omega, ⟨by omega, by omega, by norm_num⟩, ?_⟩, ?_⟩
  · intro _; decide
  · decide +kernel

/-- C39: DATETIME values. -/
theorem C39_datetime (frac y mo d h mi s us : Nat) (ok : Spec.DateTimeOk frac y mo d h mi s us)
    (rest : Bytes) :
    MyDateTime.fromBinlog frac (Spec.datetime2 frac y mo d h mi s us ++ rest)
      = .ok ⟨y, mo, d, h, mi, s, us⟩ rest := by
  obtain ⟨hy, hmo, hd, hh, hmi, hs, hf, hus, hdv⟩ := ok
  have hH : Spec.packedHms h mi s = h * 4096 + mi * 64 + s := rfl
  unfold Spec.datetime2
  generalize Spec.packedHms h mi s = H at hH ⊢
  have hHlt : H < 2 ^ 17 := by omega
  generalize hN : ((y * 13 + mo) * 32 + d) * 2 ^ 17 + H = N
  have hNlt : N < 2 ^ 39 := by omega
  rw [List.append_assoc]
  have e24 : ∀ x : Nat, x &&& 0xffffff = x % 2 ^ 24 := fun x => Nat.and_two_pow_sub_one_eq_mod x 24
  have e40 : ∀ x : Nat, x &&& 0xffffffffff = x % 2 ^ 40 := fun x => Nat.and_two_pow_sub_one_eq_mod x 40
  have hof : MyDateTime.ofPacked (N * 2 ^ 24 + us) = ⟨y, mo, d, h, mi, s, us⟩ := by
    unfold MyDateTime.ofPacked
    simp only [e24, e40, Nat.shiftRight_eq_div_pow, Nat.shiftLeft_eq]
    have a1 : (N * 2 ^ 24 + us) % 2 ^ 24 = us := by omega
    have a2 : (N * 2 ^ 24 + us) / 2 ^ 24 % 2 ^ 40 = N := by omega
    rw [a1, a2]
    have b1 : N / 2 ^ 17 = (y * 13 + mo) * 32 + d := by omega
    have b2 : N % (1 * 2 ^ 17) = H := by omega
    rw [b1, b2]
    have c1 : ((y * 13 + mo) * 32 + d) / 2 ^ 5 = y * 13 + mo := by omega
    have c2 : ((y * 13 + mo) * 32 + d) % (1 * 2 ^ 5) = d := by omega
    rw [c1, c2]
    have d1 : (y * 13 + mo) / 13 % 2 ^ 16 = y := by omega
    have d2 : (y * 13 + mo) % 13 = mo := by omega
    have d3 : H / 2 ^ 12 % 256 = h := by omega
    have d4 : H / 2 ^ 6 % (1 * 2 ^ 6) = mi := by omega
    have d5 : H % (1 * 2 ^ 6) = s := by omega
    rw [d1, d2, d3, d4, d5]
  have hneg : ((2 ^ 39 + N) &&& 0x8000000000 != 0x8000000000) = false := by
    rw [show (0x8000000000 : Nat) = 2 ^ 39 by norm_num, and_top 39 _ (by omega)]
    simp
  have hint : ((2 ^ 39 + N + 2 ^ 64 - 0x8000000000) % 2 ^ 64) <<< 24 % 2 ^ 64 = N * 2 ^ 24 := by
    rw [Nat.shiftLeft_eq]; omega
  have parts : packedDateTimeParts (2 ^ 39 + N) frac (Spec.fraction frac us ++ rest)
      = .ok (N * 2 ^ 24 + us) rest := by
    unfold packedDateTimeParts Spec.fraction
    rw [hint]
    by_cases f0 : frac = 0
    · subst f0
      rw [if_pos rfl, if_pos rfl]
      have : us = 0 := by omega
      subst this
      rw [P.pure_apply, List.nil_append, Nat.add_zero]
    · rw [if_neg f0, if_neg f0]
      by_cases f2 : frac ≤ 2
      · rw [if_pos (by omega), if_pos f2]
        have hus' : us % 10000 = 0 := by
          have : frac = 1 ∨ frac = 2 := by omega
          rcases this with rfl | rfl <;> omega
        step (readU8_u8 (us / 10000) rest (by omega))
        rw [P.pure_apply]
        rw [Nat.div_mul_cancel (Nat.dvd_of_mod_eq_zero hus')]
      · rw [if_neg (by omega), if_neg f2]
        by_cases f4 : frac ≤ 4
        · rw [if_pos (by omega), if_pos f4]
          have hus' : us % 100 = 0 := by
            have : frac = 3 ∨ frac = 4 := by omega
            rcases this with rfl | rfl <;> omega
          step (readBeU16_be (us / 100) rest (by omega))
          rw [P.pure_apply]
          rw [Nat.div_mul_cancel (Nat.dvd_of_mod_eq_zero hus')]
        · rw [if_neg (by omega), if_neg f4, if_pos (by omega)]
          step (readBeU24_be us rest (by omega))
          rw [P.pure_apply]
  unfold MyDateTime.fromBinlog packedFromDateTimeBinary
  rw [P.bind_apply, P.bind_apply, readBeU40_be _ _ (by omega), R.bind_ok]
  simp only [hneg]
  rw [P.bind_apply, parts, R.bind_ok]
  show (R.ok (N * 2 ^ 24 + us) rest).bind _ = _
  rw [R.bind_ok, hof]
  rfl

/-- C39: TIME values of tables made before MySQL 5.6, of either sign and up to the largest number of
hours a TIME can have (838). (A negative value is not zero.) -/
theorem C39_old_time (neg : Bool) (h m s : Nat) (hh : h ≤ 838) (hm : m < 60) (hs : s < 60)
    (hz : neg = true → h * 10000 + m * 100 + s ≠ 0) (rest : Bytes) :
    BinlogColumnValue.readFrom .time (Spec.time1 neg h m s ++ rest)
      = .ok (.time ⟨neg, h / 24, h % 24, m, s, 0⟩) rest := by
  unfold BinlogColumnValue.readFrom Spec.time1
  generalize hn : h * 10000 + m * 100 + s = n at hz
  have hlt : n < 2 ^ 23 := by omega
  have hI : ((h : Int) * 10000 + m * 100 + s) = (n : Int) := by omega
  simp only [hI]
  have core : ∀ k, k < 2 ^ 24 → (k &&& 0x800000 == 0x800000) = neg →
      (if neg then 2 ^ 32 - (k ||| 0xff000000) else k) = n →
      ((readLeU24 >>= fun k => (pure (BinlogColumnValue.time (oldTime k)) : P _)) (Spec.le 3 k ++ rest))
        = .ok (.time ⟨neg, h / 24, h % 24, m, s, 0⟩) rest := by
    intro k hk h1 h2
    step (readLeU24_le k rest hk)
    rw [P.pure_apply]
    unfold oldTime
    simp only [h1, h2]
    have a1 : n / 10000 = h := by omega
    have a2 : n / 100 % 100 = m := by omega
    have a3 : n % 100 = s := by omega
    have a4 : (h - h / 24 * 24) % 256 = h % 24 := by omega
    rw [a1, a2, a3, a4]
  cases neg with
  | false =>
    simp only [Bool.false_eq_true, if_false]
    have hp : Spec.pattern 24 (n : Int) = n := by unfold Spec.pattern; omega
    rw [hp]
    refine core n (by omega) ?_ (by simp)
    have := and_top 23 n (by omega)
    rw [decide_eq_true (by omega)] at this
    rw [show (0x800000 : Nat) = 2 ^ 23 by norm_num]
    simpa using this
  | true =>
    simp only [if_true]
    have hz := hz rfl
    have hp : Spec.pattern 24 (-(n : Int)) = 2 ^ 24 - n := by unfold Spec.pattern; omega
    rw [hp]
    refine core (2 ^ 24 - n) (by omega) ?_ ?_
    · have := and_top 23 (2 ^ 24 - n) (by omega)
      rw [decide_eq_false (by omega)] at this
      rw [show (0x800000 : Nat) = 2 ^ 23 by norm_num]
      simpa using this
    · have hor : (2 ^ 24 - n ||| 0xff000000) = 2 ^ 24 - n + 0xff000000 := by
        rw [show (0xff000000 : Nat) = 2 ^ 24 * 255 by norm_num, Nat.lor_comm,
          ← Nat.two_pow_add_eq_or_of_lt (by omega)]
        omega
      rw [if_pos rfl, hor]
      omega

/-- C39: five zero bytes in a DATETIME column (never written by a server) are a panic. -/
theorem C39_zero_bytes_false : MyDateTime.fromBinlog 0 [0, 0, 0, 0, 0] = .panic := by decide +kernel

/-- -838:59:59, the least TIME -/
example : BinlogColumnValue.readFrom .time (Spec.time1 true 838 59 59)
    = .ok (.time ⟨true, 34, 22, 59, 59, 0⟩) [] := by
  simpa using C39_old_time true 838 59 59 (by omega) (by omega) (by omega) (by simp) []

/-- the values at the ends of the ranges satisfy the hypotheses -/
example : Spec.TimeOk 6 true 838 59 59 999999 ∧ Spec.TimeOk 3 false 0 0 0 1000 ∧
    Spec.DateTimeOk 2 9999 12 31 23 59 59 990000 ∧ Spec.DateTimeOk 0 0 0 0 0 0 0 0 := by
  refine ⟨⟨by omega, by omega, by omega, ⟨by omega, by omega, by norm_num⟩, fun _ => by decide⟩,
    ⟨by omega, by omega, by omega, ⟨by omega, by omega, by norm_num⟩, fun h => by cases h⟩,
    ⟨by omega, by omega, by omega, by omega, by omega, by omega, by omega, by omega, by norm_num⟩,
    ⟨by omega, by omega, by omega, by omega, by omega, by omega, by omega, by omega, by norm_num⟩⟩

end Mybin
