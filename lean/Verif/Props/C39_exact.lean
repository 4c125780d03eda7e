/-
C39, exactly: which TIME values of row events are read as they are, and what the others are read as.
-/
import Verif.Props.C39

namespace Mybin

theorem MyTime.ofPacked_any (neg : Bool) (h m s us q : Nat) (hh : h ≤ 838) (hm : m < 60) (hs : s < 60)
    (hus : us < 2 ^ 24) :
    MyTime.ofPacked (q * 2 ^ 48 + Spec.packedHms h m s * 2 ^ 24 + us) neg
      = ⟨neg, h / 24, h % 24, m, s, us⟩ := by
  have e24 : ∀ x : Nat, x &&& 0xffffff = x % 2 ^ 24 := fun x => Nat.and_two_pow_sub_one_eq_mod x 24
  unfold MyTime.ofPacked
  simp only [e24, Nat.shiftRight_eq_div_pow, Nat.shiftLeft_eq]
  have hH : Spec.packedHms h m s = h * 4096 + m * 64 + s := rfl
  generalize Spec.packedHms h m s = H at hH ⊢
  have a1 : (q * 2 ^ 48 + H * 2 ^ 24 + us) % 2 ^ 24 = us := by omega
  have a2 : (q * 2 ^ 48 + H * 2 ^ 24 + us) / 2 ^ 24 % 2 ^ 24 = H := by omega
  rw [a1, a2]
  have b1 : H / 2 ^ 12 % (1 * 2 ^ 10) = h := by omega
  have b2 : H / 2 ^ 6 % (1 * 2 ^ 6) = m := by omega
  have b3 : H % (1 * 2 ^ 6) = s := by omega
  rw [b1, b2, b3]
  have b4 : (h - h / 24 * 24) % 256 = h % 24 := by omega
  rw [b4]

theorem floor_neg (B H us : Nat) (h0 : 0 < us) (h : us < B) :
    (-((H * B + us : Nat) : Int)) / (B : Int) = -((H + 1 : Nat) : Int) := by
  rw [show (-((H * B + us : Nat) : Int)) = ((B : Int) - us) + (B : Int) * (-((H + 1 : Nat) : Int)) by
    push_cast; ring]
  rw [Int.add_mul_ediv_left _ _ (by omega), Int.ediv_eq_zero_of_lt (by omega) (by omega), Int.zero_add]

theorem int_part (H us : Nat) (hH : H < 2 ^ 22) (h0 : 0 < us) (h : us < 10 ^ 6) :
    Spec.pattern 24 (2 ^ 23 + (-((H * 2 ^ 24 + us : Nat) : Int)) / 2 ^ 24) = 2 ^ 23 - (H + 1) := by
  have := floor_neg (2 ^ 24) H us h0 (by omega)
  rw [show ((2 ^ 24 : Nat) : Int) = 2 ^ 24 by norm_num] at this
  rw [this]
  generalize hK : H + 1 = K
  have hK2 : K ≤ 2 ^ 23 := by omega
  rw [show (2 ^ 23 + -(K : Int)) = ((2 ^ 23 - K : Nat) : Int) by omega]
  exact pattern_nat _ _ (by omega)

theorem low_part (B H us : Nat) (h : us < B) :
    Int.tmod (-((H * B + us : Nat) : Int)) (B : Int) = -(us : Int) := by
  rw [Int.neg_tmod, Int.tmod_eq_emod_of_nonneg (by omega)]
  rw [← Int.natCast_mod, Nat.mul_comm, Nat.mul_add_mod, Nat.mod_eq_of_lt h]

theorem pattern_neg (w x : Nat) (h0 : 0 < x) (h : x ≤ 2 ^ w) : Spec.pattern w (-(x : Int)) = 2 ^ w - x := by
  unfold Spec.pattern
  rw [← Int.add_emod_right, show (-(x : Int) + (2 ^ w : Nat)) = ((2 ^ w - x : Nat) : Int) by push_cast [h]; ring,
    ← Int.natCast_mod, Int.toNat_natCast]
  exact Nat.mod_eq_of_lt (by omega)

theorem tdiv_neg (us d : Nat) : Int.tdiv (-(us : Int)) (d : Int) = -((us / d : Nat) : Int) := by
  rw [Int.neg_tdiv, Int.tdiv_eq_ediv_of_nonneg (by omega), Int.natCast_ediv]

theorem frac_byte (us : Nat) (h : us % 10000 = 0) (hu : us < 10 ^ 6) (h0 : us ≠ 0) :
    Spec.pattern 8 (Int.tdiv (-(us : Int)) 10000) = 256 - us / 10000 := by
  have e := tdiv_neg us 10000
  rw [Nat.cast_ofNat] at e
  rw [e, pattern_neg 8 (us / 10000) (by omega) (by omega)]
  norm_num

theorem frac_word (us : Nat) (h : us % 100 = 0) (hu : us < 10 ^ 6) (h0 : us ≠ 0) :
    Spec.pattern 16 (Int.tdiv (-(us : Int)) 100) = 65536 - us / 100 := by
  have e := tdiv_neg us 100
  rw [Nat.cast_ofNat] at e
  rw [e, pattern_neg 16 (us / 100) (by omega) (by omega)]
  norm_num

theorem neg_sum (H y z : Nat) (hH : H < 2 ^ 22) (hy0 : 0 < y) (hz : z + y = 2 ^ 24) :
    (2 ^ 32 - (H + 1)) * 2 ^ 24 + y ≠ 2 ^ 63 ∧
    (2 ^ 64 - ((2 ^ 32 - (H + 1)) * 2 ^ 24 + y)) % 2 ^ 64 = (2 ^ 16 - 2 ^ 8) * 2 ^ 48 + H * 2 ^ 24 + z := by
  obtain ⟨a, ha⟩ : ∃ a, a + (H + 1) = 2 ^ 32 := ⟨2 ^ 32 - (H + 1), Nat.sub_add_cancel (by omega)⟩
  rw [show 2 ^ 32 - (H + 1) = a from by rw [← ha, Nat.add_sub_cancel]]
  have e : (a * 2 ^ 24 + y) + ((2 ^ 16 - 2 ^ 8) * 2 ^ 48 + H * 2 ^ 24 + z) = 2 ^ 64 := by omega
  rw [← e, Nat.add_sub_cancel_left, e]
  exact ⟨by omega, Nat.mod_eq_of_lt (by omega)⟩

theorem frac_two (us : Nat) (h : us % 10000 = 0) (hu : us < 10 ^ 6) (h0 : us ≠ 0) :
    us + 14217216 + (256 - us / 10000) * 10000 = 2 ^ 24 ∧ 0 < (256 - us / 10000) * 10000 ∧
    256 - us / 10000 < 256 := by
  obtain ⟨x, rfl⟩ : ∃ x, us = 10000 * x := ⟨us / 10000, by omega⟩
  rw [Nat.mul_div_cancel_left _ (by norm_num)]
  omega

theorem frac_four (us : Nat) (h : us % 100 = 0) (hu : us < 10 ^ 6) (h0 : us ≠ 0) :
    us + 10223616 + (65536 - us / 100) * 100 = 2 ^ 24 ∧ 0 < (65536 - us / 100) * 100 ∧
    65536 - us / 100 < 65536 := by
  obtain ⟨x, rfl⟩ : ∃ x, us = 100 * x := ⟨us / 100, by omega⟩
  rw [Nat.mul_div_cancel_left _ (by norm_num)]
  omega

theorem int_sub (H : Nat) (hH : H < 2 ^ 22) : 2 ^ 23 - (H + 1) < 2 ^ 23 ∧
    (2 ^ 23 - (H + 1) + 2 ^ 32 - 0x800000) % 2 ^ 32 = 2 ^ 32 - (H + 1) := by
  obtain ⟨a, ha⟩ : ∃ a, a + (H + 1) = 2 ^ 23 := ⟨2 ^ 23 - (H + 1), Nat.sub_add_cancel (by omega)⟩
  obtain ⟨b, hb⟩ : ∃ b, b + (H + 1) = 2 ^ 32 := ⟨2 ^ 32 - (H + 1), Nat.sub_add_cancel (by omega)⟩
  rw [show 2 ^ 32 - (H + 1) = b from by rw [← hb, Nat.add_sub_cancel],
    show 2 ^ 23 - (H + 1) = a from by rw [← ha, Nat.add_sub_cancel]]
  have : a + 2 ^ 32 - 0x800000 = b := by omega
  rw [this]
  exact ⟨by omega, Nat.mod_eq_of_lt (by omega)⟩

/-- C39, what the other values are read as: a negative TIME with a fraction and one to four decimals is read with more
than ten million microseconds too many. -/
theorem C39_negative_exact (frac h m s us : Nat) (ok : Spec.TimeOk frac true h m s us) (hf1 : 1 ≤ frac)
    (hf4 : frac ≤ 4) (h0 : us ≠ 0) (rest : Bytes) :
    MyTime.fromBinlog frac (Spec.time2 frac (Spec.packedTime true h m s us) ++ rest)
      = .ok ⟨true, h / 24, h % 24, m, s, us + if frac ≤ 2 then 14217216 else 10223616⟩ rest := by
  obtain ⟨hh, hm, hs, ⟨hf, hus, hd⟩, -⟩ := ok
  rw [packedTime_neg]
  have hH : Spec.packedHms h m s = h * 4096 + m * 64 + s := rfl
  generalize hH2 : Spec.packedHms h m s = H at hH ⊢
  have hHlt : H < 2 ^ 22 := by omega
  have fin : ∀ v bs t p q x, v < 2 ^ 23 → packedTimeParts v frac (t ++ bs) = .ok p bs → p ≠ 2 ^ 63 → x < 2 ^ 24 →
      (2 ^ 64 - p) % 2 ^ 64 = q * 2 ^ 48 + H * 2 ^ 24 + x →
      MyTime.fromBinlog frac (Spec.be 3 v ++ (t ++ bs)) = .ok ⟨true, h / 24, h % 24, m, s, x⟩ bs := by
    intro v bs t p q x hv ht hp hx he
    have hneg : (v &&& 0x800000 != 0x800000) = true := by
      rw [show (0x800000 : Nat) = 2 ^ 23 by norm_num, and_top 23 _ (by omega)]
      simpa using hv
    unfold MyTime.fromBinlog packedFromTimeBinary
    rw [P.bind_apply]
    have : (do
        let hms ← readBeU24
        let negative := hms &&& 0x800000 != 0x800000
        let packed ← packedTimeParts hms frac
        let packed ← (if negative then negI64 packed else pure packed : P Nat)
        return (packed, negative) : P (Nat × Bool)) (Spec.be 3 v ++ (t ++ bs))
        = .ok ((2 ^ 64 - p) % 2 ^ 64, true) bs := by
      step (readBeU24_be _ _ (by omega))
      simp only [hneg, if_true]
      step ht
      step (negI64_spec p hp bs)
      rfl
    rw [this, R.bind_ok]
    have := MyTime.ofPacked_any true h m s x q hh hm hs hx
    rw [hH2] at this
    dsimp only
    rw [he, this]
    rfl
  have hint := int_part H us hHlt (by omega) hus
  have htm := low_part (2 ^ 24) H us (by omega)
  rw [show ((2 ^ 24 : Nat) : Int) = 2 ^ 24 by norm_num] at htm
  obtain ⟨hv, hi⟩ := int_sub H hHlt
  unfold Spec.time2
  simp only [hint, htm]
  rw [if_neg (by omega)]
  by_cases f2 : frac ≤ 2
  · have hdv : us % 10000 = 0 := by
      have : (10000 : Nat) ∣ 10 ^ (6 - frac) := by
        rw [show (10000 : Nat) = 10 ^ 4 by norm_num]
        exact Nat.pow_dvd_pow _ (by omega)
      exact Nat.mod_eq_zero_of_dvd (Nat.dvd_trans this (Nat.dvd_of_mod_eq_zero hd))
    have hp := frac_byte us hdv hus h0
    rw [if_pos f2, if_pos f2, List.append_assoc, hp]
    obtain ⟨y1, y2, y4⟩ := frac_two us hdv hus h0
    have ns := neg_sum H ((256 - us / 10000) * 10000) _ hHlt y2 y1
    refine fin _ rest _ _ (2 ^ 16 - 2 ^ 8) _ hv ?_ ns.1 (Nat.lt_of_lt_of_le (Nat.add_lt_add_right hus _) (by norm_num)) ns.2
    unfold packedTimeParts
    rw [if_neg (by omega), if_pos (by omega), hi, Nat.shiftLeft_eq]
    step (readU8_u8 (256 - us / 10000) rest y4)
    rw [P.pure_apply]
  · have hdv : us % 100 = 0 := by
      have : (100 : Nat) ∣ 10 ^ (6 - frac) := by
        rw [show (100 : Nat) = 10 ^ 2 by norm_num]
        exact Nat.pow_dvd_pow _ (by omega)
      exact Nat.mod_eq_zero_of_dvd (Nat.dvd_trans this (Nat.dvd_of_mod_eq_zero hd))
    have hp := frac_word us hdv hus h0
    rw [if_neg f2, if_pos hf4, if_neg f2, List.append_assoc, hp]
    obtain ⟨y1, y2, y4⟩ := frac_four us hdv hus h0
    have ns := neg_sum H ((65536 - us / 100) * 100) _ hHlt y2 y1
    refine fin _ rest _ _ (2 ^ 16 - 2 ^ 8) _ hv ?_ ns.1 (Nat.lt_of_lt_of_le (Nat.add_lt_add_right hus _) (by norm_num)) ns.2
    unfold packedTimeParts
    rw [if_neg (by omega), if_neg (by omega), if_pos (by omega), hi, Nat.shiftLeft_eq]
    step (readBeU16_be (65536 - us / 100) rest y4)
    rw [P.pure_apply]

/-- C39, exactly which TIME values are read as they are -/
theorem C39_time_iff (frac : Nat) (neg : Bool) (h m s us : Nat) (ok : Spec.TimeOk frac neg h m s us) (rest : Bytes) :
    MyTime.fromBinlog frac (Spec.time2 frac (Spec.packedTime neg h m s us) ++ rest)
      = .ok ⟨neg, h / 24, h % 24, m, s, us⟩ rest ↔ (neg = true → frac = 0 ∨ 5 ≤ frac ∨ us = 0) := by
  constructor
  · rintro h1 rfl
    by_contra hc
    rw [C39_negative_exact frac h m s us ok (by omega) (by omega) (by omega) rest] at h1
    injection h1 with h1
    injection h1 with _ _ _ _ _ h1
    split at h1 <;> omega
  · intro hx
    exact C39_time_partial frac neg h m s us ok hx rest

/-- -01:02:03.5 in a TIME(1) column -/
example : Spec.TimeOk 1 true 1 2 3 500000 := by
  refine ⟨by omega, by omega, by omega, ⟨by omega, by omega, by norm_num⟩, ?_⟩
  intro _
  decide

end Mybin
