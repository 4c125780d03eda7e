/-
C38: DECIMAL values in row images.
-/
import Verif.Lemmas.Decimal

namespace Mybin

theorem digBytes_eq (d : Nat) (h : d < 9) : digToBytes d = Spec.digBytes d := by
  have : ∀ d, d < 9 → digToBytes d = Spec.digBytes d := by decide
  exact this d h

theorem digBytes_small (d : Nat) (h0 : 0 < d) (h : d < 9) :
    1 ≤ Spec.digBytes d ∧ Spec.digBytes d ≤ 4 ∧ 10 ^ d ≤ 128 * 256 ^ (Spec.digBytes d - 1) ∧
      10 ^ d ≤ 256 ^ Spec.digBytes d := by
  have : ∀ d, d < 9 → 0 < d → 1 ≤ Spec.digBytes d ∧ Spec.digBytes d ≤ 4 ∧
      10 ^ d ≤ 128 * 256 ^ (Spec.digBytes d - 1) ∧ 10 ^ d ≤ 256 ^ Spec.digBytes d := by decide +kernel
  exact this d h h0

/-- the groups of digits a DECIMAL decodes to -/
def decimalGroups (intg frac n : Nat) : List Nat :=
  let i := n / 10 ^ frac
  let f := n % 10 ^ frac
  (if 0 < intg % 9 then [i / (10 ^ 9) ^ (intg / 9)] else []) ++ Spec.groups (intg / 9) i
    ++ Spec.groups (frac / 9) (f / 10 ^ (frac % 9))
    ++ (if 0 < frac % 9 then [f % 10 ^ (frac % 9) * 10 ^ (9 - frac % 9)] else [])

theorem flipTop_append (a b : Bytes) (h : a ≠ []) : Spec.flipTop (a ++ b) = Spec.flipTop a ++ b := by
  match a, h with
  | x :: t, _ => rfl

theorem decimal_split (intg frac : Nat) (neg : Bool) (n : Nat) (h : 0 < intg % 9) :
    Spec.decimal intg frac neg n =
      Spec.flipTop (inv neg (Spec.be (Spec.digBytes (intg % 9)) (n / 10 ^ frac / (10 ^ 9) ^ (intg / 9))))
      ++ (((Spec.groups (intg / 9) (n / 10 ^ frac)).map fun g => inv neg (Spec.be 4 g)).flatten
      ++ (((Spec.groups (frac / 9) (n % 10 ^ frac / 10 ^ (frac % 9))).map fun g => inv neg (Spec.be 4 g)).flatten
      ++ inv neg (Spec.be (Spec.digBytes (frac % 9)) (n % 10 ^ frac % 10 ^ (frac % 9))))) := by
  have hd := digBytes_small (intg % 9) h (Nat.mod_lt _ (by omega))
  unfold Spec.decimal
  have e : ∀ x : Bytes, (if neg then x.map (~~~ ·) else x) = inv neg x := fun _ => rfl
  simp only [e, inv_append, List.append_assoc, inv_flatten, List.map_map]
  rw [flipTop_append]
  · rfl
  · intro hc
    have := congrArg List.length hc
    rw [inv_length, be_length] at this
    simp at this
    omega

theorem readFragments (neg : Bool) (m x : Nat) (t : Bytes) :
    P.times (readFragment neg) m (((Spec.groups m x).map fun g => inv neg (Spec.be 4 g)).flatten ++ t)
      = .ok (Spec.groups m x) t := by
  have := P.times_spec (readFragment neg) (fun g => inv neg (Spec.be 4 g)) id (Spec.groups m x)
    (fun g hg t => readFragment_inv neg g (by have := groups_lt m x g hg; omega) t) t
  rwa [groups_length, List.map_id] at this

/-- what the decoder returns -/
theorem decimal_read (intg frac : Nat) (neg : Bool) (n : Nat) (hi : intg % 9 ≠ 0) (hn : n < 10 ^ (intg + frac))
    (rest : Bytes) :
    MyDecimal.readFrom intg frac (Spec.decimal intg frac neg n ++ rest)
      = .ok ⟨intg, frac, neg, decimalGroups intg frac n⟩ rest := by
  have hi : 0 < intg % 9 := by omega
  have hd := digBytes_small (intg % 9) hi (Nat.mod_lt _ (by omega))
  have hib : n / 10 ^ frac < 10 ^ intg := by
    rw [Nat.div_lt_iff_lt_mul (Nat.pow_pos (by omega)), ← Nat.pow_add]; exact hn
  have hhd : n / 10 ^ frac / (10 ^ 9) ^ (intg / 9) < 10 ^ (intg % 9) := by
    rw [Nat.div_lt_iff_lt_mul (Nat.pow_pos (by norm_num)), ← Nat.pow_mul, ← Nat.pow_add]
    rw [show intg % 9 + 9 * (intg / 9) = intg by omega]
    exact hib
  have digits : MyDecimal.readDigits intg frac neg (Spec.decimal intg frac neg n ++ rest)
      = .ok ⟨intg, frac, neg, decimalGroups intg frac n⟩ rest := by
    rw [decimal_split _ _ _ _ hi, List.append_assoc, List.append_assoc, List.append_assoc]
    simp only [decimalGroups, if_pos hi]
    unfold MyDecimal.readDigits
    rw [show intg - intg / 9 * 9 = intg % 9 by omega, show frac - frac / 9 * 9 = frac % 9 by omega]
    rw [if_pos hi, digBytes_eq _ (Nat.mod_lt _ (by omega)), digBytes_eq _ (Nat.mod_lt _ (by omega))]
    rw [P.bind_apply, P.bind_apply, readExtra_true _ _ _ hd.1 hd.2.1 (by omega), R.bind_ok, P.pure_apply, R.bind_ok]
    step (readFragments neg _ _ _)
    step (readFragments neg _ _ _)
    by_cases hf : 0 < frac % 9
    · have hfd := digBytes_small (frac % 9) hf (Nat.mod_lt _ (by omega))
      have hm : n % 10 ^ frac % 10 ^ (frac % 9) < 10 ^ (frac % 9) := Nat.mod_lt _ (Nat.pow_pos (by omega))
      rw [if_pos hf, if_pos hf]
      rw [P.bind_apply, P.bind_apply, readExtra_false _ _ _ hfd.1 hfd.2.1 (by omega), R.bind_ok, P.bind_apply]
      have hlt : n % 10 ^ frac % 10 ^ (frac % 9) * 10 ^ (9 - frac % 9) < 2 ^ 32 := by
        calc _ < 10 ^ (frac % 9) * 10 ^ (9 - frac % 9) :=
              Nat.mul_lt_mul_of_pos_right hm (Nat.pow_pos (by omega))
          _ = 10 ^ 9 := by rw [← Nat.pow_add]; congr 1; omega
          _ < _ := by norm_num
      rw [mulU32, if_pos hlt]
      rfl
    · rw [if_neg hf, if_neg hf]
      have : frac % 9 = 0 := by omega
      rw [this]
      have : inv neg (Spec.be (Spec.digBytes 0) (n % 10 ^ frac % 10 ^ 0)) = [] := by
        apply List.eq_nil_of_length_eq_zero
        rw [inv_length, be_length]; rfl
      rw [this]
      rfl
  have hne := digits
  rw [decimal_split _ _ _ _ hi] at hne ⊢
  obtain ⟨x, t, hx, hlt⟩ := be_head_small _ _ hd.1 (lt_of_lt_of_le hhd hd.2.2.1)
  obtain ⟨b, t', hb, hs⟩ := sign_byte neg x t hlt
  rw [hx, hb] at hne ⊢
  rw [List.cons_append, List.cons_append] at hne ⊢
  unfold MyDecimal.readFrom
  dsimp only
  rw [hs]
  exact hne

theorem decimalGroups_spec (intg frac n : Nat) (hi : intg % 9 ≠ 0) (hn : n < 10 ^ (intg + frac)) :
    (decimalGroups intg frac n).length = (intg + 8) / 9 + (frac + 8) / 9 ∧
    (∀ g ∈ decimalGroups intg frac n, g < 10 ^ 9) ∧
    Spec.baseValue ((decimalGroups intg frac n).take ((intg + 8) / 9)) = n / 10 ^ frac ∧
    Spec.baseValue ((decimalGroups intg frac n).drop ((intg + 8) / 9)) * 10 ^ frac
      = n % 10 ^ frac * 10 ^ (9 * ((frac + 8) / 9)) := by
  have hi : 0 < intg % 9 := by omega
  have hib : n / 10 ^ frac < 10 ^ intg := by
    rw [Nat.div_lt_iff_lt_mul (Nat.pow_pos (by omega)), ← Nat.pow_add]; exact hn
  have hhd : n / 10 ^ frac / (10 ^ 9) ^ (intg / 9) < 10 ^ (intg % 9) := by
    rw [Nat.div_lt_iff_lt_mul (Nat.pow_pos (by norm_num)), ← Nat.pow_mul, ← Nat.pow_add]
    rw [show intg % 9 + 9 * (intg / 9) = intg by omega]
    exact hib
  have h99 : (10 : Nat) ^ (intg % 9) ≤ 10 ^ 9 := Nat.pow_le_pow_right (by omega) (by omega)
  unfold decimalGroups
  simp only [if_pos hi]
  have hlen : ([n / 10 ^ frac / (10 ^ 9) ^ (intg / 9)] ++ Spec.groups (intg / 9) (n / 10 ^ frac)).length = (intg + 8) / 9 := by
    simp [groups_length]; omega
  rw [List.append_assoc, List.take_left' hlen, List.drop_left' hlen]
  refine ⟨?_, ?_, ?_, ?_⟩
  · rw [List.length_append, hlen, List.length_append, groups_length]
    split <;> simp <;> omega
  · intro g hg
    simp only [List.mem_append, List.mem_singleton] at hg
    rcases hg with (rfl | hg) | hg | hg
    · omega
    · exact groups_lt _ _ g hg
    · exact groups_lt _ _ g hg
    · split at hg
      · simp only [List.mem_singleton] at hg
        subst hg
        calc _ < 10 ^ (frac % 9) * 10 ^ (9 - frac % 9) :=
              Nat.mul_lt_mul_of_pos_right (Nat.mod_lt _ (Nat.pow_pos (by omega))) (Nat.pow_pos (by omega))
          _ = 10 ^ 9 := by rw [← Nat.pow_add]; congr 1; omega
      · cases hg
  · rw [baseValue_append, baseValue_singleton, groups_length, baseValue_groups, Nat.mul_comm]
    exact Nat.div_add_mod _ _
  · have hf : n % 10 ^ frac < 10 ^ frac := Nat.mod_lt _ (Nat.pow_pos (by omega))
    generalize n % 10 ^ frac = f at hf ⊢
    have hfd : f / 10 ^ (frac % 9) < (10 ^ 9) ^ (frac / 9) := by
      rw [Nat.div_lt_iff_lt_mul (Nat.pow_pos (by norm_num)), ← Nat.pow_mul, ← Nat.pow_add]
      rw [show 9 * (frac / 9) + frac % 9 = frac by omega]
      exact hf
    by_cases h0 : 0 < frac % 9
    · rw [if_pos h0, baseValue_append, baseValue_singleton, baseValue_groups, Nat.mod_eq_of_lt hfd]
      rw [show (frac + 8) / 9 = frac / 9 + 1 by omega, List.length_singleton, Nat.pow_one]
      have e : (10 : Nat) ^ 9 = 10 ^ (frac % 9) * 10 ^ (9 - frac % 9) := by
        rw [← Nat.pow_add]; congr 1; omega
      have e2 : f / 10 ^ (frac % 9) * 10 ^ 9 + f % 10 ^ (frac % 9) * 10 ^ (9 - frac % 9)
          = f * 10 ^ (9 - frac % 9) := by
        conv_rhs => rw [← Nat.div_add_mod f (10 ^ (frac % 9))]
        rw [e]; ring
      rw [e2, Nat.mul_assoc, ← Nat.pow_add]
      congr 2; omega
    · have h0 : frac % 9 = 0 := by omega
      rw [if_neg (by omega), List.append_nil, baseValue_groups, Nat.mod_eq_of_lt hfd, h0]
      rw [Nat.pow_zero, Nat.div_one]
      congr 2; omega

/-- C38: every DECIMAL whose number of integer digits is not a multiple of nine decodes to its value: the
sign, and digit groups (base 10^9, integer groups first) whose integer part and fraction are the number's.
(Full claim: every DECIMAL, and the text form. Both fail: `C38_nine_digits_false`, `C38_display_false`.) -/
theorem C38_decode_partial (intg frac : Nat) (neg : Bool) (n : Nat) (hi : intg % 9 ≠ 0)
    (hn : n < 10 ^ (intg + frac)) (rest : Bytes) :
    ∃ ip fp, MyDecimal.readFrom intg frac (Spec.decimal intg frac neg n ++ rest)
        = .ok ⟨intg, frac, neg, ip ++ fp⟩ rest ∧
      ip.length = (intg + 8) / 9 ∧ fp.length = (frac + 8) / 9 ∧ (∀ g ∈ ip ++ fp, g < 10 ^ 9) ∧
      Spec.baseValue ip = n / 10 ^ frac ∧
      Spec.baseValue fp * 10 ^ frac = n % 10 ^ frac * 10 ^ (9 * ((frac + 8) / 9)) := by
  obtain ⟨h1, h2, h3, h4⟩ := decimalGroups_spec intg frac n hi hn
  refine ⟨(decimalGroups intg frac n).take ((intg + 8) / 9), (decimalGroups intg frac n).drop ((intg + 8) / 9),
    ?_, ?_, ?_, ?_, h3, h4⟩
  · rw [List.take_append_drop]; exact decimal_read intg frac neg n hi hn rest
  · rw [List.length_take]; omega
  · rw [List.length_drop]; omega
  · rw [List.take_append_drop]; exact h2

/-- 123.45 in a DECIMAL(5,2), -1234567890.000000001 in a DECIMAL(19,9) -/
example : MyDecimal.readFrom 3 2 (Spec.decimal 3 2 false 12345) = .ok ⟨3, 2, false, [123, 450000000]⟩ [] ∧
    MyDecimal.readFrom 10 9 (Spec.decimal 10 9 true 1234567890000000001)
      = .ok ⟨10, 9, true, [1, 234567890, 1]⟩ [] := by decide +kernel

/-- C38: 1 in a DECIMAL(9,0) column decodes as 2147483649; 0.5 in a DECIMAL(1,1) column panics. -/
theorem C38_nine_digits_false :
    MyDecimal.readFrom 9 0 (Spec.decimal 9 0 false 1) = .ok ⟨9, 0, false, [2147483649]⟩ [] ∧
    MyDecimal.readFrom 0 1 (Spec.decimal 0 1 false 5) = .panic := by decide +kernel

/-! ### the text form -/

theorem toDigits_length (n k : Nat) (h : 10 ^ k ≤ n) (h2 : n < 10 ^ (k + 1)) : (Nat.toDigits 10 n).length = k + 1 := by
  have a : (Nat.toDigits 10 n).length ≤ k + 1 := (Nat.length_toDigits_le_iff (by omega) (by omega)).2 h2
  by_cases hk : k = 0
  · subst hk
    have := Nat.length_toDigits_pos (b := 10) (n := n)
    omega
  · have b : ¬ (Nat.toDigits 10 n).length ≤ k := fun hc =>
      absurd ((Nat.length_toDigits_le_iff (by omega) (by omega)).1 hc) (by omega)
    omega

theorem isDigit_flatten (l : List Nat) : ∀ c ∈ (l.map (Nat.toDigits 10)).flatten, c.isDigit = true := by
  intro c hc
  simp only [List.mem_flatten, List.mem_map] at hc
  obtain ⟨_, ⟨g, _, rfl⟩, hc⟩ := hc
  exact Nat.isDigit_of_mem_toDigits (by omega) (by omega) hc

theorem numeral_groups (l : List Nat) (h : ∀ g ∈ l, 10 ^ 8 ≤ g ∧ g < 10 ^ 9) :
    ((l.map (Nat.toDigits 10)).flatten).length = 9 * l.length ∧
    ∀ init, Nat.ofDigitChars 10 (l.map (Nat.toDigits 10)).flatten init
      = init * (10 ^ 9) ^ l.length + Spec.baseValue l := by
  induction l with
  | nil => exact ⟨rfl, fun init => by simp [Spec.baseValue]⟩
  | cons g t ih =>
    obtain ⟨ih1, ih2⟩ := ih (fun x hx => h x (by simp [hx]))
    obtain ⟨h8, h9⟩ := h g (by simp)
    have hl := toDigits_length g 8 h8 h9
    refine ⟨?_, fun init => ?_⟩
    · simp only [List.map_cons, List.flatten_cons, List.length_append, List.length_cons, hl, ih1]; ring
    · rw [List.map_cons, List.flatten_cons, Nat.ofDigitChars_append, ih2, Nat.ofDigitChars_eq_ofDigitChars_zero,
        Nat.ofDigitChars_ten_toDigits, hl]
      rw [show ∀ a l, a :: l = [a] ++ l from fun _ _ => rfl, baseValue_append, baseValue_singleton,
        List.length_append, Nat.pow_add (10 ^ 9)]
      simp only [List.length_singleton, Nat.pow_one]
      ring

/-- no group of nine digits, counted from the point, starts with a zero digit, apart from the first one of
the integer part -/
def NoInnerZeros (intg frac n : Nat) : Prop :=
  (∀ k < intg / 9, 10 ^ 8 ≤ n / 10 ^ frac / (10 ^ 9) ^ k % 10 ^ 9) ∧
  (∀ k < frac / 9, 10 ^ 8 ≤ n % 10 ^ frac / 10 ^ (frac % 9) / (10 ^ 9) ^ k % 10 ^ 9) ∧
  (0 < frac % 9 → 10 ^ (frac % 9 - 1) ≤ n % 10 ^ frac % 10 ^ (frac % 9))

/-- C38: the text of a decoded DECIMAL denotes its value (sign, integer numeral, and exactly `frac`
decimals) when no inner group of nine digits starts with a zero digit. (Full claim: every value. It fails
otherwise: `C38_display_false`.) -/
theorem C38_display_partial (intg frac : Nat) (neg : Bool) (n : Nat) (hi : intg % 9 ≠ 0)
    (hn : n < 10 ^ (intg + frac)) (hz : NoInnerZeros intg frac n) (rest : Bytes) :
    ∃ d ip fp, MyDecimal.readFrom intg frac (Spec.decimal intg frac neg n ++ rest) = .ok d rest ∧
      d.display = some ((if neg then ['-'] else []) ++ ip ++ (if frac = 0 then [] else '.' :: fp)) ∧
      ip ≠ [] ∧ (∀ c ∈ ip ++ fp, c.isDigit = true) ∧ Nat.ofDigitChars 10 ip 0 = n / 10 ^ frac ∧
      fp.length = frac ∧ Nat.ofDigitChars 10 fp 0 = n % 10 ^ frac := by
  have hi' : 0 < intg % 9 := by omega
  obtain ⟨hz1, hz2, hz3⟩ := hz
  have hfl : n % 10 ^ frac < 10 ^ frac := Nat.mod_lt _ (Nat.pow_pos (by omega))
  have g1 : ∀ g ∈ Spec.groups (intg / 9) (n / 10 ^ frac), 10 ^ 8 ≤ g ∧ g < 10 ^ 9 := by
    intro g hg
    refine ⟨?_, groups_lt _ _ g hg⟩
    simp only [Spec.groups, List.mem_map, List.mem_reverse, List.mem_range] at hg
    obtain ⟨k, hk, rfl⟩ := hg
    exact hz1 k hk
  have g2 : ∀ g ∈ Spec.groups (frac / 9) (n % 10 ^ frac / 10 ^ (frac % 9)), 10 ^ 8 ≤ g ∧ g < 10 ^ 9 := by
    intro g hg
    refine ⟨?_, groups_lt _ _ g hg⟩
    simp only [Spec.groups, List.mem_map, List.mem_reverse, List.mem_range] at hg
    obtain ⟨k, hk, rfl⟩ := hg
    exact hz2 k hk
  obtain ⟨l1, n1⟩ := numeral_groups _ g1
  obtain ⟨l2, n2⟩ := numeral_groups _ g2
  have hval := (decimalGroups_spec intg frac n hi hn).2.2.1
  generalize hA : n / 10 ^ frac / (10 ^ 9) ^ (intg / 9) = a
  generalize hG1 : Spec.groups (intg / 9) (n / 10 ^ frac) = G1 at *
  generalize hG2 : Spec.groups (frac / 9) (n % 10 ^ frac / 10 ^ (frac % 9)) = G2 at *
  have hl1 : G1.length = intg / 9 := by rw [← hG1, groups_length]
  have hl2 : G2.length = frac / 9 := by rw [← hG2, groups_length]
  have hbuf : decimalGroups intg frac n = ([a] ++ G1) ++ (G2 ++
      (if 0 < frac % 9 then [n % 10 ^ frac % 10 ^ (frac % 9) * 10 ^ (9 - frac % 9)] else [])) := by
    simp only [decimalGroups, if_pos hi', hA, hG1, hG2, List.append_assoc]
  have hnInt : 1 + intg / 9 = ([a] ++ G1).length := by simp [hl1]; omega
  have hip : Nat.ofDigitChars 10 (([a] ++ G1).map (Nat.toDigits 10)).flatten 0 = n / 10 ^ frac := by
    rw [hbuf, List.take_left' (by rw [← hnInt]; omega), baseValue_append, baseValue_singleton] at hval
    rw [List.map_append, List.flatten_append, Nat.ofDigitChars_append, n1]
    simp only [List.map_cons, List.map_nil, List.flatten_cons, List.flatten_nil, List.append_nil,
      Nat.ofDigitChars_ten_toDigits]
    exact hval
  have hne : (([a] ++ G1).map (Nat.toDigits 10)).flatten ≠ [] := by
    intro hc
    have := congrArg List.length hc
    simp only [List.singleton_append, List.map_cons, List.flatten_cons, List.length_append, List.length_nil] at this
    have := Nat.length_toDigits_pos (b := 10) (n := a)
    omega
  have hdisp : ∀ last : List Nat, (MyDecimal.mk intg frac neg (([a] ++ G1) ++ (G2 ++ last))).display
      = if frac = 0 then some ((if neg then ['-'] else []) ++ (([a] ++ G1).map (Nat.toDigits 10)).flatten)
        else if 0 < frac % 9 then
          match last[0]? with
          | none => none
          | some l => some (((if neg then ['-'] else []) ++ (([a] ++ G1).map (Nat.toDigits 10)).flatten)
              ++ ['.'] ++ (G2.map (Nat.toDigits 10)).flatten ++ Nat.toDigits 10 (l / 10 ^ (9 - frac % 9)))
        else some (((if neg then ['-'] else []) ++ (([a] ++ G1).map (Nat.toDigits 10)).flatten)
              ++ ['.'] ++ (G2.map (Nat.toDigits 10)).flatten) := by
    intro last
    unfold MyDecimal.display
    simp only [show intg - intg / 9 * 9 = intg % 9 by omega, show frac - frac / 9 * 9 = frac % 9 by omega]
    rw [if_neg (by simp), if_pos hi', hnInt, if_neg (by simp), List.take_left' rfl, List.drop_left' rfl]
    rw [← hl2, List.take_left' rfl, if_neg (c := _ < _) (by simp only [List.length_append]; omega)]
    rw [List.getElem?_append_right (by omega), List.getElem?_append_right (by omega)]
    simp only [Nat.add_sub_cancel_left, Nat.sub_self]
    cases last <;> rfl
  refine ⟨_, (([a] ++ G1).map (Nat.toDigits 10)).flatten, (G2.map (Nat.toDigits 10)).flatten ++
    (if 0 < frac % 9 then Nat.toDigits 10 (n % 10 ^ frac % 10 ^ (frac % 9)) else []),
    decimal_read intg frac neg n hi hn rest, ?_, hne, ?_, hip, ?_, ?_⟩
  · rw [hbuf, hdisp]
    by_cases f0 : frac = 0
    · rw [if_pos f0, if_pos f0, List.append_nil]
    · rw [if_neg f0, if_neg f0]
      by_cases f1 : 0 < frac % 9
      · rw [if_pos f1, if_pos f1, if_pos f1]
        simp only [List.getElem?_cons_zero]
        rw [Nat.mul_div_cancel _ (Nat.pow_pos (by omega))]
        simp
      · rw [if_neg f1, if_neg f1]
        simp
  · intro c hc
    rcases List.mem_append.1 hc with hc | hc
    · exact isDigit_flatten _ c hc
    · rcases List.mem_append.1 hc with hc | hc
      · exact isDigit_flatten _ c hc
      · split at hc
        · exact Nat.isDigit_of_mem_toDigits (by omega) (by omega) hc
        · cases hc
  · rw [List.length_append, l2, hl2]
    split
    · rename_i f1
      rw [toDigits_length _ (frac % 9 - 1) (hz3 f1)]
      · omega
      · rw [show frac % 9 - 1 + 1 = frac % 9 by omega]
        exact Nat.mod_lt _ (Nat.pow_pos (by omega))
    · simp; omega
  · rw [Nat.ofDigitChars_append, n2, Nat.zero_mul, Nat.zero_add, ← hG2, baseValue_groups]
    have hfd : n % 10 ^ frac / 10 ^ (frac % 9) < (10 ^ 9) ^ (frac / 9) := by
      rw [Nat.div_lt_iff_lt_mul (Nat.pow_pos (by norm_num)), ← Nat.pow_mul, ← Nat.pow_add]
      rw [show 9 * (frac / 9) + frac % 9 = frac by omega]
      exact hfl
    rw [Nat.mod_eq_of_lt hfd]
    split
    · rename_i f1
      rw [Nat.ofDigitChars_eq_ofDigitChars_zero, Nat.ofDigitChars_ten_toDigits,
        toDigits_length _ (frac % 9 - 1) (hz3 f1)]
      · rw [show frac % 9 - 1 + 1 = frac % 9 by omega]
        exact Nat.div_add_mod _ _
      · rw [show frac % 9 - 1 + 1 = frac % 9 by omega]
        exact Nat.mod_lt _ (Nat.pow_pos (by omega))
    · rw [show frac % 9 = 0 by omega, Nat.ofDigitChars_nil, Nat.pow_zero, Nat.div_one]

/-- -12345678901234567890.25 meets the conditions -/
example : (20 % 9 ≠ 0) ∧ 1234567890123456789025 < 10 ^ (20 + 2) ∧ NoInnerZeros 20 2 1234567890123456789025 := by
  refine ⟨by omega, by norm_num, ?_, ?_, ?_⟩
  · intro k hk
    have : k = 0 ∨ k = 1 := by omega
    rcases this with rfl | rfl <;> norm_num
  · intro k hk; omega
  · norm_num

/-- C38: 1.05 is shown as "1.5", and 1000000005 as "15". -/
theorem C38_display_false :
    (∃ d, MyDecimal.readFrom 1 2 (Spec.decimal 1 2 false 105) = .ok d [] ∧ d.display = some ['1', '.', '5']) ∧
    (∃ d, MyDecimal.readFrom 10 0 (Spec.decimal 10 0 false 1000000005) = .ok d [] ∧
      d.display = some ['1', '5']) := by
  refine ⟨⟨⟨1, 2, false, [1, 50000000]⟩, ?_, ?_⟩, ⟨10, 0, false, [1, 5]⟩, ?_, ?_⟩ <;> decide +kernel

/-- C38 fails at the end of the data: a DECIMAL of which not a single byte is there is not an error; it is read as a zero
without a sign, whatever its size. -/
theorem C38_missing_false (intg frac : Nat) :
    ∃ d, MyDecimal.readFrom intg frac [] = .ok d [] ∧ d.intg = intg ∧ d.frac = frac ∧ d.negative = false ∧ d.display = some ['0'] :=
  ⟨_, rfl, rfl, rfl, rfl, rfl⟩

end Mybin
