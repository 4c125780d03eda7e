/-
C38, exactly: what a DECIMAL decodes to when its number of integer digits is a multiple of nine, and which
values are shown right.
-/
import Verif.Props.C38

namespace Mybin

/-! ### the flipped top bit -/

theorem beVal_inj (a b : Bytes) (hl : a.length = b.length) (hv : beVal a = beVal b) : a = b := by
  induction a generalizing b with
  | nil => cases b with
    | nil => rfl
    | cons => simp at hl
  | cons x t ih =>
    cases b with
    | nil => simp at hl
    | cons y s =>
      have hl' : t.length = s.length := by simpa using hl
      rw [beVal_cons, beVal_cons, hl'] at hv
      have h1 := beVal_lt t
      have h2 := beVal_lt s
      rw [hl'] at h1
      generalize 256 ^ s.length = k at *
      have hk : 0 < k := by omega
      have e1 : (x.toNat * k + beVal t) / k = x.toNat := by
        rw [Nat.mul_comm, Nat.mul_add_div hk, Nat.div_eq_of_lt h1, Nat.add_zero]
      have e2 : (y.toNat * k + beVal s) / k = y.toNat := by
        rw [Nat.mul_comm, Nat.mul_add_div hk, Nat.div_eq_of_lt h2, Nat.add_zero]
      have hx : x.toNat = y.toNat := by rw [← e1, ← e2, hv]
      rw [hx] at hv
      rw [UInt8.toNat_inj.1 hx, ih s hl' (by omega)]

theorem flip_be (L v : Nat) (neg : Bool) (h1 : 1 ≤ L) (hv : v < 128 * 256 ^ (L - 1)) :
    Spec.flipTop (inv neg (Spec.be L v)) = inv neg (Spec.be L (v + 128 * 256 ^ (L - 1))) := by
  have hp : 256 ^ L = 256 * 256 ^ (L - 1) := by rw [← Nat.pow_succ']; congr 1; omega
  have hp2 : 2 ^ (8 * (L - 1) + 7) = 128 * 256 ^ (L - 1) := by
    rw [Nat.pow_add, Nat.pow_mul]; norm_num [Nat.mul_comm]
  have hl : (inv neg (Spec.be L v)).length = L := by rw [inv_length, be_length]
  have hb := beVal_inv neg L v (by omega)
  have hr := beVal_inv neg L (v + 128 * 256 ^ (L - 1)) (by omega)
  generalize inv neg (Spec.be L v) = bs at hl hb
  match bs, hl with
  | [], hl => simp at hl; omega
  | x :: t, hl =>
    have hl' : t.length = L - 1 := by simp at hl; omega
    apply beVal_inj
    · rw [inv_length, be_length]; simpa [Spec.flipTop] using hl
    · rw [beVal_flipTop, hb, hr, hl']
      generalize 256 ^ (L - 1) = k at *
      cases neg
      · simp only [Bool.false_eq_true, if_false]
        rw [xor_top_low _ _ (by omega)]; omega
      · simp only [if_true]
        rw [xor_top_high _ _ (by omega) (by rw [Nat.pow_succ]; omega)]; omega

/-- add to the first of a list of numbers -/
def raiseFirst (x : Nat) : List Nat → List Nat
  | [] => []
  | g :: t => (g + x) :: t

theorem flip_groups (neg : Bool) (l : List Nat) (h : ∀ g ∈ l, g < 10 ^ 9) (hne : l ≠ []) :
    Spec.flipTop ((l.map fun g => inv neg (Spec.be 4 g)).flatten)
      = ((raiseFirst (2 ^ 31) l).map fun g => inv neg (Spec.be 4 g)).flatten := by
  match l, hne with
  | g :: t, _ =>
    have hg := h g (by simp)
    rw [List.map_cons, List.flatten_cons, flipTop_append, flip_be 4 g neg (by omega) (by omega)]
    · rfl
    · intro hc
      have := congrArg List.length hc
      rw [inv_length, be_length] at this
      simp at this

theorem readGroups (neg : Bool) (l : List Nat) (h : ∀ g ∈ l, g < 2 ^ 32) (m : Nat) (hm : l.length = m) (t : Bytes) :
    P.times (readFragment neg) m ((l.map fun g => inv neg (Spec.be 4 g)).flatten ++ t) = .ok l t := by
  have := P.times_spec (readFragment neg) (fun g => inv neg (Spec.be 4 g)) id l
    (fun g hg t => readFragment_inv neg g (h g hg) t) t
  rwa [hm, List.map_id] at this

theorem raise_lt (l : List Nat) (h : ∀ g ∈ l, g < 10 ^ 9) : ∀ g ∈ raiseFirst (2 ^ 31) l, g < 2 ^ 32 := by
  match l with
  | [] => intro g hg; cases hg
  | a :: t =>
    intro g hg
    rcases List.mem_cons.1 hg with rfl | hg
    · have := h a (by simp); omega
    · have := h g (by simp [hg]); omega

theorem raise_length (x : Nat) (l : List Nat) : (raiseFirst x l).length = l.length := by
  cases l <;> rfl

theorem baseValue_raise (x : Nat) (l : List Nat) (h : l ≠ []) :
    Spec.baseValue (raiseFirst x l) = Spec.baseValue l + x * (10 ^ 9) ^ (l.length - 1) := by
  match l, h with
  | g :: t, _ =>
    rw [raiseFirst, show ∀ a l, a :: l = [a] ++ l from fun _ _ => rfl, baseValue_append, baseValue_singleton,
      show ∀ a l, a :: l = [a] ++ l from fun _ _ => rfl, baseValue_append, baseValue_singleton]
    simp only [List.length_append, List.length_singleton, Nat.add_sub_cancel_left]
    ring

theorem raise_append (x : Nat) (a b : List Nat) (h : a ≠ []) : raiseFirst x (a ++ b) = raiseFirst x a ++ b := by
  match a, h with
  | _ :: _, _ => rfl

/-- the last group -/
theorem readLast (neg : Bool) (frac f : Nat) (hf : 0 < frac % 9) (rest : Bytes) :
    (do
      let f ← readExtraFragment false (digToBytes (frac % 9)) neg
      let f ← mulU32 f (10 ^ (9 - frac % 9))
      return [f] : P (List Nat)) (inv neg (Spec.be (Spec.digBytes (frac % 9)) (f % 10 ^ (frac % 9))) ++ rest)
      = .ok [f % 10 ^ (frac % 9) * 10 ^ (9 - frac % 9)] rest := by
  have hfd := digBytes_small (frac % 9) hf (Nat.mod_lt _ (by omega))
  have hm : f % 10 ^ (frac % 9) < 10 ^ (frac % 9) := Nat.mod_lt _ (Nat.pow_pos (by omega))
  rw [digBytes_eq _ (Nat.mod_lt _ (by omega)), P.bind_apply, readExtra_false _ _ _ hfd.1 hfd.2.1 (by omega), R.bind_ok,
    P.bind_apply]
  have hlt : f % 10 ^ (frac % 9) * 10 ^ (9 - frac % 9) < 2 ^ 32 := by
    calc _ < 10 ^ (frac % 9) * 10 ^ (9 - frac % 9) := Nat.mul_lt_mul_of_pos_right hm (Nat.pow_pos (by omega))
      _ = 10 ^ 9 := by rw [← Nat.pow_add]; congr 1; omega
      _ < _ := by norm_num
  rw [mulU32, if_pos hlt]
  rfl

theorem readDigits_raised (intg frac : Nat) (neg : Bool) (n : Nat) (hi : intg % 9 = 0) (l : List Nat)
    (hl : l = raiseFirst (2 ^ 31) (Spec.groups (intg / 9) (n / 10 ^ frac)
      ++ Spec.groups (frac / 9) (n % 10 ^ frac / 10 ^ (frac % 9)))) (rest : Bytes) :
    MyDecimal.readDigits intg frac neg ((l.map fun g => inv neg (Spec.be 4 g)).flatten
        ++ (inv neg (Spec.be (Spec.digBytes (frac % 9)) (n % 10 ^ frac % 10 ^ (frac % 9))) ++ rest))
      = .ok ⟨intg, frac, neg, l ++
        (if 0 < frac % 9 then [n % 10 ^ frac % 10 ^ (frac % 9) * 10 ^ (9 - frac % 9)] else [])⟩ rest := by
  have hlt : ∀ g ∈ l, g < 2 ^ 32 := by
    subst hl
    apply raise_lt
    intro g hg
    rcases List.mem_append.1 hg with hg | hg <;> exact groups_lt _ _ g hg
  have hlen : l.length = intg / 9 + frac / 9 := by
    rw [hl, raise_length, List.length_append, groups_length, groups_length]
  clear hl
  conv_lhs => rw [← List.take_append_drop (intg / 9) l]
  rw [List.map_append, List.flatten_append, List.append_assoc]
  unfold MyDecimal.readDigits
  rw [show intg - intg / 9 * 9 = 0 by omega, show frac - frac / 9 * 9 = frac % 9 by omega]
  rw [if_neg (by omega), P.bind_apply, P.pure_apply, R.bind_ok]
  step (readGroups neg _ (fun g hg => hlt g (List.mem_of_mem_take hg)) _ (by rw [List.length_take]; omega) _)
  step (readGroups neg _ (fun g hg => hlt g (List.mem_of_mem_drop hg)) _ (by rw [List.length_drop]; omega) _)
  by_cases hf : 0 < frac % 9
  · rw [if_pos hf, if_pos hf, P.bind_apply, readLast neg frac _ hf, R.bind_ok, P.pure_apply]
    simp
  · rw [if_neg hf, if_neg hf, P.bind_apply, P.pure_apply, R.bind_ok, P.pure_apply]
    have : inv neg (Spec.be (Spec.digBytes (frac % 9)) (n % 10 ^ frac % 10 ^ (frac % 9))) = [] := by
      apply List.eq_nil_of_length_eq_zero
      rw [inv_length, be_length, show frac % 9 = 0 by omega]; rfl
    rw [this]
    simp

theorem decimal_split_nine (intg frac : Nat) (neg : Bool) (n : Nat) (hi : intg % 9 = 0) :
    Spec.decimal intg frac neg n =
      Spec.flipTop (((Spec.groups (intg / 9) (n / 10 ^ frac)
        ++ Spec.groups (frac / 9) (n % 10 ^ frac / 10 ^ (frac % 9))).map fun g => inv neg (Spec.be 4 g)).flatten
      ++ inv neg (Spec.be (Spec.digBytes (frac % 9)) (n % 10 ^ frac % 10 ^ (frac % 9)))) := by
  unfold Spec.decimal
  have e : ∀ x : Bytes, (if neg then x.map (~~~ ·) else x) = inv neg x := fun _ => rfl
  have e0 : ∀ v, Spec.be (Spec.digBytes (intg % 9)) v = [] := by
    intro v
    apply List.eq_nil_of_length_eq_zero
    rw [be_length, hi]; rfl
  simp only [e, e0, List.nil_append]
  simp only [inv_append, List.append_assoc, inv_flatten, List.map_map, List.map_append,
    List.flatten_append]
  rfl

theorem decimal_read_nine (intg frac : Nat) (neg : Bool) (n : Nat) (hi : intg % 9 = 0) (h : 9 ≤ intg ∨ 9 ≤ frac)
    (rest : Bytes) :
    MyDecimal.readFrom intg frac (Spec.decimal intg frac neg n ++ rest)
      = .ok ⟨intg, frac, neg, raiseFirst (2 ^ 31) (decimalGroups intg frac n)⟩ rest := by
  have hd := readDigits_raised intg frac neg n hi _ rfl rest
  rw [decimal_split_nine _ _ _ _ hi]
  have hg : decimalGroups intg frac n = (Spec.groups (intg / 9) (n / 10 ^ frac)
        ++ Spec.groups (frac / 9) (n % 10 ^ frac / 10 ^ (frac % 9)))
      ++ (if 0 < frac % 9 then [n % 10 ^ frac % 10 ^ (frac % 9) * 10 ^ (9 - frac % 9)] else []) := by
    simp only [decimalGroups, hi, Nat.lt_irrefl, if_false, List.nil_append]
  have hlt : ∀ g ∈ Spec.groups (intg / 9) (n / 10 ^ frac)
      ++ Spec.groups (frac / 9) (n % 10 ^ frac / 10 ^ (frac % 9)), g < 10 ^ 9 := by
    intro g hg
    rcases List.mem_append.1 hg with hg | hg <;> exact groups_lt _ _ g hg
  have hlen : (Spec.groups (intg / 9) (n / 10 ^ frac)
      ++ Spec.groups (frac / 9) (n % 10 ^ frac / 10 ^ (frac % 9))).length = intg / 9 + frac / 9 := by
    rw [List.length_append, groups_length, groups_length]
  rw [hg]
  generalize Spec.groups (intg / 9) (n / 10 ^ frac)
      ++ Spec.groups (frac / 9) (n % 10 ^ frac / 10 ^ (frac % 9)) = l at *
  have hne : l ≠ [] := by intro hc; rw [hc] at hlen; simp at hlen; omega
  rw [raise_append _ _ _ hne]
  have hfl : (l.map fun g => inv neg (Spec.be 4 g)).flatten ≠ [] := by
    match l, hne with
    | g :: t, _ =>
      intro hc
      have := congrArg List.length hc
      rw [List.map_cons, List.flatten_cons, List.length_append, inv_length, be_length] at this
      simp at this
  rw [flipTop_append _ _ hfl, List.append_assoc]
  rw [← flip_groups neg l hlt hne] at hd
  generalize inv neg (Spec.be (Spec.digBytes (frac % 9)) (n % 10 ^ frac % 10 ^ (frac % 9))) ++ rest = tl at hd ⊢
  match l, hne with
  | g :: t, _ =>
    have hg9 := hlt g (by simp)
    obtain ⟨x, s, hx, hx2⟩ := be_head_small 4 g (by omega) (by omega)
    have hm : ((g :: t).map fun g => inv neg (Spec.be 4 g)).flatten
        = inv neg (x :: s) ++ (t.map fun g => inv neg (Spec.be 4 g)).flatten := by
      rw [List.map_cons, List.flatten_cons, hx]
    rw [hm, flipTop_append _ _ (by cases neg <;> simp [inv])] at hd ⊢
    obtain ⟨b, t', hb, hs⟩ := sign_byte neg x s hx2
    rw [hb] at hd ⊢
    rw [List.cons_append, List.cons_append] at hd ⊢
    unfold MyDecimal.readFrom
    dsimp only
    rw [hs]
    exact hd

theorem decimalGroups_nine (intg frac n : Nat) (hi : intg % 9 = 0) (hn : n < 10 ^ (intg + frac)) :
    (decimalGroups intg frac n).length = (intg + 8) / 9 + (frac + 8) / 9 ∧
    Spec.baseValue (decimalGroups intg frac n) * 10 ^ frac = n * 10 ^ (9 * ((frac + 8) / 9)) := by
  have hib : n / 10 ^ frac < 10 ^ intg := by
    rw [Nat.div_lt_iff_lt_mul (Nat.pow_pos (by omega)), ← Nat.pow_add]; exact hn
  have hlen : ∀ f, (Spec.groups (frac / 9) (f / 10 ^ (frac % 9))
      ++ (if 0 < frac % 9 then [f % 10 ^ (frac % 9) * 10 ^ (9 - frac % 9)] else [])).length = (frac + 8) / 9 := by
    intro f
    rw [List.length_append, groups_length]
    split <;> simp <;> omega
  have hg : decimalGroups intg frac n = Spec.groups (intg / 9) (n / 10 ^ frac)
        ++ (Spec.groups (frac / 9) (n % 10 ^ frac / 10 ^ (frac % 9))
      ++ (if 0 < frac % 9 then [n % 10 ^ frac % 10 ^ (frac % 9) * 10 ^ (9 - frac % 9)] else [])) := by
    simp only [decimalGroups, hi, Nat.lt_irrefl, if_false, List.nil_append, List.append_assoc]
  refine ⟨by rw [hg, List.length_append, hlen, groups_length]; omega, ?_⟩
  have hf := (decimalGroups_spec 1 frac (n % 10 ^ frac) (by omega)
    (lt_of_lt_of_le (Nat.mod_lt _ (Nat.pow_pos (by omega))) (Nat.pow_le_pow_right (by omega) (by omega)))).2.2.2
  have hd : (decimalGroups 1 frac (n % 10 ^ frac)).drop ((1 + 8) / 9)
      = Spec.groups (frac / 9) (n % 10 ^ frac / 10 ^ (frac % 9))
      ++ (if 0 < frac % 9 then [n % 10 ^ frac % 10 ^ (frac % 9) * 10 ^ (9 - frac % 9)] else []) := by
    simp only [decimalGroups, Nat.mod_mod]
    rfl
  rw [hd, Nat.mod_mod] at hf
  rw [hg, baseValue_append, hlen, baseValue_groups, Nat.add_mul, hf]
  rw [Nat.mod_eq_of_lt (by rw [← Nat.pow_mul, show 9 * (intg / 9) = intg by omega]; exact hib), ← Nat.pow_mul]
  conv_rhs => rw [← Nat.div_add_mod n (10 ^ frac)]
  ring

/-- C38, exactly, for the columns where decoding fails: when the number of integer digits is a multiple of
nine, and there is a full group of nine digits, the first group is read 2147483648 too big: the groups of
digits (base 10^9, together `9 * ((frac + 8) / 9)` decimals) stand for the value plus that, at the first
group's place. -/
theorem C38_nine_digits_exact (intg frac : Nat) (neg : Bool) (n : Nat) (hi : intg % 9 = 0)
    (h : 9 ≤ intg ∨ 9 ≤ frac) (hn : n < 10 ^ (intg + frac)) (rest : Bytes) :
    ∃ gs, MyDecimal.readFrom intg frac (Spec.decimal intg frac neg n ++ rest) = .ok ⟨intg, frac, neg, gs⟩ rest ∧
      gs.length = intg / 9 + (frac + 8) / 9 ∧
      Spec.baseValue gs * 10 ^ frac = n * 10 ^ (9 * ((frac + 8) / 9))
        + 2147483648 * (10 ^ 9) ^ (gs.length - 1) * 10 ^ frac := by
  obtain ⟨h1, h2⟩ := decimalGroups_nine intg frac n hi hn
  refine ⟨_, decimal_read_nine intg frac neg n hi h rest, by rw [raise_length, h1]; omega, ?_⟩
  have hne : decimalGroups intg frac n ≠ [] := by intro hc; rw [hc] at h1; simp at h1; omega
  rw [baseValue_raise _ _ hne, raise_length, Nat.add_mul, h2, show (2 : Nat) ^ 31 = 2147483648 by norm_num]

example : (18 : Nat) % 9 = 0 ∧ (9 ≤ 18 ∨ 9 ≤ 2) ∧ 123 < 10 ^ (18 + 2) ∧
    MyDecimal.readFrom 18 2 (Spec.decimal 18 2 true 123) = .ok ⟨18, 2, true, [2147483648, 1, 230000000]⟩ [] := by
  decide +kernel

/-- C38, exactly, for the columns without integer digits and at most eight decimals: with two decimals the value is
read 1.28 too big, with four decimals 3.2768 too big, otherwise reading panics. -/
theorem C38_fraction_exact (frac : Nat) (h0 : 0 < frac) (h9 : frac < 9) (neg : Bool) (n : Nat) (hn : n < 10 ^ frac)
    (rest : Bytes) :
    MyDecimal.readFrom 0 frac (Spec.decimal 0 frac neg n ++ rest)
      = if frac = 2 then .ok ⟨0, 2, neg, [(n + 128) * 10 ^ 7]⟩ rest
        else if frac = 4 then .ok ⟨0, 4, neg, [(n + 32768) * 10 ^ 5]⟩ rest else .panic := by
  have hm : frac % 9 = frac := Nat.mod_eq_of_lt h9
  have hd := digBytes_small frac h0 h9
  have hs : Spec.decimal 0 frac neg n
      = Spec.flipTop (inv neg (Spec.be (Spec.digBytes frac) n)) := by
    rw [decimal_split_nine _ _ _ _ (by omega)]
    simp only [hm, Nat.div_eq_of_lt h9, Nat.mod_eq_of_lt hn]
    rfl
  have hlt : n < 128 * 256 ^ (Spec.digBytes frac - 1) := by omega
  have hp : 256 ^ Spec.digBytes frac = 256 * 256 ^ (Spec.digBytes frac - 1) := by
    rw [← Nat.pow_succ']; congr 1; omega
  have key : MyDecimal.readDigits 0 frac neg (Spec.decimal 0 frac neg n ++ rest)
      = if (n + 128 * 256 ^ (Spec.digBytes frac - 1)) * 10 ^ (9 - frac) < 2 ^ 32
        then .ok ⟨0, frac, neg, [(n + 128 * 256 ^ (Spec.digBytes frac - 1)) * 10 ^ (9 - frac)]⟩ rest
        else .panic := by
    rw [hs, flip_be _ _ _ hd.1 hlt]
    unfold MyDecimal.readDigits
    rw [show frac - frac / 9 * 9 = frac by omega, show frac / 9 = 0 by omega]
    simp only [P.bind_apply, P.pure_apply, R.bind_ok, P.times, Nat.zero_div, Nat.zero_mul, Nat.sub_self,
      gt_iff_lt, Nat.lt_irrefl, if_false]
    rw [if_pos h0, P.bind_apply, digBytes_eq _ h9, readExtra_false _ _ _ hd.1 hd.2.1 (by omega), R.bind_ok, P.bind_apply]
    unfold mulU32
    split <;> rfl
  have hread : MyDecimal.readFrom 0 frac (Spec.decimal 0 frac neg n ++ rest)
      = MyDecimal.readDigits 0 frac neg (Spec.decimal 0 frac neg n ++ rest) := by
    obtain ⟨x, s, hx, hx2⟩ := be_head_small _ _ hd.1 hlt
    obtain ⟨b, t', hb, hsg⟩ := sign_byte neg x s hx2
    rw [hs, hx, hb, List.cons_append]
    unfold MyDecimal.readFrom
    dsimp only
    rw [hsg]
  rw [hread, key]
  have : frac = 1 ∨ frac = 2 ∨ frac = 3 ∨ frac = 4 ∨ frac = 5 ∨ frac = 6 ∨ frac = 7 ∨ frac = 8 := by omega
  rcases this with rfl | rfl | rfl | rfl | rfl | rfl | rfl | rfl <;>
    simp only [Spec.digBytes, List.getD_cons_succ, List.getD_cons_zero] <;> norm_num at hn ⊢ <;>
    omega

/-- C38: exactly the DECIMALs with a number of integer digits that is not a multiple of nine decode to their value. -/
theorem C38_decode_iff (intg frac : Nat) (neg : Bool) (n : Nat) (h0 : 0 < intg + frac) (hn : n < 10 ^ (intg + frac))
    (rest : Bytes) :
    (∃ ip fp, MyDecimal.readFrom intg frac (Spec.decimal intg frac neg n ++ rest)
        = .ok ⟨intg, frac, neg, ip ++ fp⟩ rest ∧
      fp.length = (frac + 8) / 9 ∧
      Spec.baseValue ip = n / 10 ^ frac ∧
      Spec.baseValue fp * 10 ^ frac = n % 10 ^ frac * 10 ^ (9 * ((frac + 8) / 9)))
    ↔ intg % 9 ≠ 0 := by
  refine ⟨?_, fun hi => ?_⟩
  · rintro ⟨ip, fp, hr, hl, hv1, hv2⟩ hi
    have hv : Spec.baseValue (ip ++ fp) * 10 ^ frac = n * 10 ^ (9 * ((frac + 8) / 9)) := by
      rw [baseValue_append, Nat.add_mul, hv2, hl, hv1, ← Nat.pow_mul]
      conv_rhs => rw [← Nat.div_add_mod n (10 ^ frac)]
      ring
    by_cases h9 : 9 ≤ intg ∨ 9 ≤ frac
    · obtain ⟨gs, hr2, -, hv3⟩ := C38_nine_digits_exact intg frac neg n hi h9 hn rest
      rw [hr2] at hr
      injection hr with hr _
      injection hr with _ _ _ hr
      subst hr
      rw [hv3] at hv
      have : 0 < 2147483648 * (10 ^ 9) ^ ((ip ++ fp).length - 1) * 10 ^ frac := by positivity
      omega
    · have hi0 : intg = 0 := by omega
      subst hi0
      rw [C38_fraction_exact frac (by omega) (by omega) neg n (by simpa using hn)] at hr
      split at hr
      · rename_i h2
        subst h2
        injection hr with hr _
        injection hr with _ _ _ hr
        rw [← hr, baseValue_singleton] at hv
        norm_num at hv
        omega
      · split at hr
        · rename_i h4
          subst h4
          injection hr with hr _
          injection hr with _ _ _ hr
          rw [← hr, baseValue_singleton] at hv
          norm_num at hv
          omega
        · cases hr
  · obtain ⟨ip, fp, h1, -, h3, -, h5, h6⟩ := C38_decode_partial intg frac neg n hi hn rest
    exact ⟨ip, fp, h1, h3, h5, h6⟩

example : 0 < 9 + 0 ∧ 1 < 10 ^ (9 + 0) ∧ ¬ 9 % 9 ≠ 0 ∧ 0 < 10 + 2 ∧ 105 < 10 ^ (10 + 2) ∧ 10 % 9 ≠ 0 := by decide

/-! ### the text form -/

theorem toDigits_len_iff (g r : Nat) (hr : 0 < r) (h : g < 10 ^ r) :
    (Nat.toDigits 10 g).length ≤ r ∧ ((Nat.toDigits 10 g).length = r ↔ 10 ^ (r - 1) ≤ g ∨ r = 1) := by
  have a : (Nat.toDigits 10 g).length ≤ r := (Nat.length_toDigits_le_iff (by omega) hr).2 h
  have hpos := Nat.length_toDigits_pos (b := 10) (n := g)
  refine ⟨a, ?_⟩
  by_cases h1 : r = 1
  · subst h1; constructor <;> intro _ <;> omega
  · have hk := Nat.length_toDigits_le_iff (b := 10) (n := g) (k := r - 1) (by omega) (by omega)
    constructor
    · intro hl
      left
      by_contra hc
      have := hk.2 (by omega)
      omega
    · rintro (hl | hl)
      · by_contra hc
        have := hk.1 (by omega)
        omega
      · omega

/-- how the digit groups of the integer part read -/
theorem int_numeral (m x p : Nat) (hp : p ≤ x / (10 ^ 9) ^ m) :
    Nat.ofDigitChars 10 ((Spec.groups m x).map (Nat.toDigits 10)).flatten p ≤ x ∧
    (Nat.ofDigitChars 10 ((Spec.groups m x).map (Nat.toDigits 10)).flatten p = x ↔
      p = x / (10 ^ 9) ^ m ∧ ∀ k < m, 10 ^ 8 ≤ x / (10 ^ 9) ^ k % 10 ^ 9 ∨ x / (10 ^ 9) ^ (k + 1) = 0) := by
  induction m generalizing p with
  | zero =>
    simp only [Nat.pow_zero, Nat.div_one] at hp ⊢
    simp [Spec.groups, hp]
  | succ m ih =>
    have hq : x / (10 ^ 9) ^ m = x / (10 ^ 9) ^ (m + 1) * 10 ^ 9 + x / (10 ^ 9) ^ m % 10 ^ 9 := by
      rw [Nat.pow_succ (10 ^ 9) m, ← Nat.div_div_eq_div_mul]
      generalize x / (10 ^ 9) ^ m = y
      omega
    have hg : x / (10 ^ 9) ^ m % 10 ^ 9 < 10 ^ 9 := Nat.mod_lt _ (by norm_num)
    obtain ⟨l1, l2⟩ := toDigits_len_iff _ 9 (by omega) hg
    rw [groups_succ, List.map_cons, List.flatten_cons, Nat.ofDigitChars_append,
      Nat.ofDigitChars_eq_ofDigitChars_zero (init := p), Nat.ofDigitChars_ten_toDigits]
    generalize x / (10 ^ 9) ^ m % 10 ^ 9 = g at *
    generalize hQ : x / (10 ^ 9) ^ (m + 1) = q at *
    generalize (Nat.toDigits 10 g).length = d at *
    have hD : 10 ^ d ≤ 10 ^ 9 := Nat.pow_le_pow_right (by omega) l1
    have hmul : 10 ^ d * p ≤ q * 10 ^ 9 := by rw [Nat.mul_comm]; exact Nat.mul_le_mul hp hD
    obtain ⟨i1, i2⟩ := ih (10 ^ d * p + g) (by rw [hq]; omega)
    refine ⟨i1, i2.trans ?_⟩
    have hstep : 10 ^ d * p + g = x / (10 ^ 9) ^ m ↔ p = q ∧ (10 ^ 8 ≤ g ∨ q = 0) := by
      rw [hq]
      constructor
      · intro he
        have he : 10 ^ d * p = q * 10 ^ 9 := by omega
        have hpq : p = q := by
          by_contra hne
          have : p < q := by omega
          have h1 : 10 ^ d * p ≤ 10 ^ 9 * p := Nat.mul_le_mul_right _ hD
          omega
        refine ⟨hpq, ?_⟩
        by_cases h8 : 10 ^ 8 ≤ g
        · exact Or.inl h8
        · right
          have hlt : d < 9 := by
            have : ¬ d = 9 := fun hc => by
              rcases l2.1 hc with h | h <;> omega
            omega
          have h1 : 10 ^ d ≤ 10 ^ 8 := Nat.pow_le_pow_right (by omega) (by omega)
          have h2 : 10 ^ d * p ≤ 10 ^ 8 * p := Nat.mul_le_mul_right _ h1
          omega
      · rintro ⟨rfl, h | h⟩
        · rw [l2.2 (Or.inl h)]; omega
        · subst h; simp
    rw [hstep]
    constructor
    · rintro ⟨⟨h1, h2⟩, h3⟩
      refine ⟨h1, fun k hk => ?_⟩
      by_cases hkm : k = m
      · subst hkm
        rw [hQ, hq, Nat.mul_comm, Nat.mul_add_mod, Nat.mod_eq_of_lt hg]
        exact h2
      · exact h3 k (by omega)
    · rintro ⟨h1, h3⟩
      refine ⟨⟨h1, ?_⟩, fun k hk => h3 k (by omega)⟩
      have := h3 m (by omega)
      rwa [hQ, hq, Nat.mul_comm, Nat.mul_add_mod, Nat.mod_eq_of_lt hg] at this

/-- the digits shown for the last `9 * m + r` decimals of `f` -/
def fracText (m r f : Nat) : List Char :=
  ((Spec.groups m (f / 10 ^ r)).map (Nat.toDigits 10)).flatten ++ (if 0 < r then Nat.toDigits 10 (f % 10 ^ r) else [])

theorem frac_step (g A B D v F : Nat) (hA : 0 < A) (hB : 0 < B) (hD : 0 < D) (hDN : D ≤ 10 ^ 9) (h : F * B ≤ v * A) :
    (g * A + F) * (D * B) ≤ (B * g + v) * (A * 10 ^ 9) ∧
    ((g * A + F) * (D * B) = (B * g + v) * (A * 10 ^ 9) ↔
      (D = 10 ^ 9 ∧ F * B = v * A) ∨ (g = 0 ∧ F = 0 ∧ v = 0)) := by
  generalize (10 : Nat) ^ 9 = N at *
  have e1 : (g * A + F) * (D * B) = g * A * B * D + F * B * D := by ring
  have e2 : (B * g + v) * (A * N) = g * A * B * N + v * A * N := by ring
  rw [e1, e2]
  have i1 : g * A * B * D ≤ g * A * B * N := Nat.mul_le_mul_left _ hDN
  have i2 : F * B * D ≤ v * A * D := Nat.mul_le_mul_right _ h
  have i3 : v * A * D ≤ v * A * N := Nat.mul_le_mul_left _ hDN
  refine ⟨by omega, ?_, ?_⟩
  · intro he
    have j1 : g * A * B * D = g * A * B * N := by omega
    have j2 : F * B * D = v * A * D := by omega
    have j3 : v * A * D = v * A * N := by omega
    by_cases hN : D = N
    · exact Or.inl ⟨hN, Nat.eq_of_mul_eq_mul_right hD j2⟩
    · right
      have z : ∀ y, y * D = y * N → y = 0 := fun y hy => by
        by_contra hc
        exact hN (Nat.eq_of_mul_eq_mul_left (by omega) hy)
      have z1 := z _ j1
      have z2 := z _ j3
      have hg : g = 0 := by
        rcases Nat.mul_eq_zero.1 z1 with h | h
        · rcases Nat.mul_eq_zero.1 h with h | h <;> omega
        · omega
      have hv : v = 0 := by rcases Nat.mul_eq_zero.1 z2 with h | h <;> omega
      rw [z2] at h
      have hF : F = 0 := by rcases Nat.mul_eq_zero.1 (Nat.le_zero.1 h) with h | h <;> omega
      exact ⟨hg, hF, hv⟩
  · rintro (⟨rfl, he⟩ | ⟨rfl, rfl, rfl⟩)
    · rw [he]
    · simp

/-- how the digits of the fraction read -/
theorem frac_numeral (m r f : Nat) :
    f % (10 ^ r * (10 ^ 9) ^ m) * 10 ^ (fracText m r f).length
      ≤ Nat.ofDigitChars 10 (fracText m r f) 0 * (10 ^ r * (10 ^ 9) ^ m) ∧
    (f % (10 ^ r * (10 ^ 9) ^ m) * 10 ^ (fracText m r f).length
      = Nat.ofDigitChars 10 (fracText m r f) 0 * (10 ^ r * (10 ^ 9) ^ m) ↔
      (∀ k < m, 10 ^ 8 ≤ f / 10 ^ r / (10 ^ 9) ^ k % 10 ^ 9 ∨ f % (10 ^ r * (10 ^ 9) ^ (k + 1)) = 0) ∧
      (0 < r → 10 ^ (r - 1) ≤ f % 10 ^ r ∨ f % 10 ^ r = 0)) := by
  induction m with
  | zero =>
    simp only [fracText, Nat.pow_zero, Nat.mul_one, Nat.not_lt_zero, false_implies, implies_true, true_and]
    have hnil : ((Spec.groups 0 (f / 10 ^ r)).map (Nat.toDigits 10)).flatten = [] := rfl
    rw [hnil, List.nil_append]
    by_cases hr : 0 < r
    · rw [if_pos hr, Nat.ofDigitChars_ten_toDigits]
      have hv : f % 10 ^ r < 10 ^ r := Nat.mod_lt _ (Nat.pow_pos (by omega))
      obtain ⟨l1, l2⟩ := toDigits_len_iff _ r hr hv
      generalize f % 10 ^ r = v at *
      refine ⟨Nat.mul_le_mul_left _ (Nat.pow_le_pow_right (by omega) l1), ?_⟩
      constructor
      · intro he _
        by_cases hv0 : v = 0
        · exact Or.inr hv0
        · left
          have := Nat.pow_right_injective (le_refl 2 |>.trans (by omega) : 2 ≤ 10) (Nat.eq_of_mul_eq_mul_left (by omega) he)
          rcases l2.1 this with h | h
          · exact h
          · subst h; simp; omega
      · intro h
        rcases h hr with h | h
        · rw [l2.2 (Or.inl h)]
        · simp [h]
    · have : r = 0 := by omega
      subst this
      simp [Nat.mod_one]
  | succ m ih =>
    obtain ⟨ih1, ih2⟩ := ih
    have hg : f / 10 ^ r / (10 ^ 9) ^ m % 10 ^ 9 < 10 ^ 9 := Nat.mod_lt _ (by norm_num)
    obtain ⟨l1, l2⟩ := toDigits_len_iff _ 9 (by omega) hg
    have ht : fracText (m + 1) r f = Nat.toDigits 10 (f / 10 ^ r / (10 ^ 9) ^ m % 10 ^ 9) ++ fracText m r f := by
      simp only [fracText, groups_succ, List.map_cons, List.flatten_cons, List.append_assoc]
    have hF : f % (10 ^ r * (10 ^ 9) ^ (m + 1))
        = f / 10 ^ r / (10 ^ 9) ^ m % 10 ^ 9 * (10 ^ r * (10 ^ 9) ^ m) + f % (10 ^ r * (10 ^ 9) ^ m) := by
      rw [Nat.pow_succ, ← Nat.mul_assoc, Nat.mod_mul, Nat.div_div_eq_div_mul]
      ring
    have hlow : ∀ k < m + 1, f % (10 ^ r * (10 ^ 9) ^ (m + 1)) = 0 → f % (10 ^ r * (10 ^ 9) ^ k) = 0 := by
      intro k hk h0
      apply Nat.mod_eq_zero_of_dvd
      exact (Nat.mul_dvd_mul_left _ (Nat.pow_dvd_pow _ (by omega))).trans (Nat.dvd_of_mod_eq_zero h0)
    have hlast : f % (10 ^ r * (10 ^ 9) ^ (m + 1)) = 0 → f % 10 ^ r = 0 := by
      intro h0
      have := hlow 0 (by omega) h0
      simpa using this
    have hall : f % (10 ^ r * (10 ^ 9) ^ (m + 1)) = 0 →
        (∀ k < m + 1, 10 ^ 8 ≤ f / 10 ^ r / (10 ^ 9) ^ k % 10 ^ 9 ∨ f % (10 ^ r * (10 ^ 9) ^ (k + 1)) = 0) ∧
        (0 < r → 10 ^ (r - 1) ≤ f % 10 ^ r ∨ f % 10 ^ r = 0) := by
      intro h0
      refine ⟨fun k hk => Or.inr ?_, fun _ => Or.inr (hlast h0)⟩
      by_cases hkm : k = m
      · subst hkm; exact h0
      · exact hlow _ (by omega) h0
    have hs := frac_step (f / 10 ^ r / (10 ^ 9) ^ m % 10 ^ 9) (10 ^ r * (10 ^ 9) ^ m) (10 ^ (fracText m r f).length)
      (10 ^ (Nat.toDigits 10 (f / 10 ^ r / (10 ^ 9) ^ m % 10 ^ 9)).length) (Nat.ofDigitChars 10 (fracText m r f) 0)
      (f % (10 ^ r * (10 ^ 9) ^ m)) (by positivity) (by positivity) (by positivity)
      (Nat.pow_le_pow_right (by omega) l1) ih1
    rw [ht, List.length_append, Nat.pow_add 10 (List.length (Nat.toDigits 10 _)), Nat.ofDigitChars_append, Nat.ofDigitChars_ten_toDigits,
      Nat.ofDigitChars_eq_ofDigitChars_zero, Nat.pow_succ (10 ^ 9) m, ← Nat.mul_assoc (10 ^ r)]
    rw [Nat.pow_succ, ← Nat.mul_assoc] at hF
    rw [hF]
    refine ⟨hs.1, hs.2.trans ?_⟩
    rw [Nat.pow_succ, ← Nat.mul_assoc] at hall
    constructor
    · rintro (⟨hD, he⟩ | ⟨h1, h2, h3⟩)
      · obtain ⟨c1, c2⟩ := ih2.1 he
        refine ⟨fun k hk => ?_, c2⟩
        by_cases hkm : k = m
        · subst hkm
          left
          have := Nat.pow_right_injective (by omega : 2 ≤ 10) hD
          rcases l2.1 this with h | h
          · exact h
          · omega
        · exact c1 k (by omega)
      · apply hall
        rw [hF, h1, h2]; simp
    · rintro ⟨c1, c2⟩
      have hm := c1 m (by omega)
      rw [Nat.pow_succ (10 ^ 9) m, ← Nat.mul_assoc] at hm
      have he := ih2.2 ⟨fun k hk => c1 k (by omega), c2⟩
      rcases hm with hm | hm
      · left
        exact ⟨by rw [l2.2 (Or.inl hm)], he⟩
      · right
        have h2 : f % (10 ^ r * (10 ^ 9) ^ m) = 0 := by
          rw [hF] at hm; omega
        have h1 : f / 10 ^ r / (10 ^ 9) ^ m % 10 ^ 9 = 0 := by
          rw [hF] at hm
          have : f / 10 ^ r / (10 ^ 9) ^ m % 10 ^ 9 * (10 ^ r * (10 ^ 9) ^ m) = 0 := by omega
          rcases Nat.mul_eq_zero.1 this with h | h
          · exact h
          · have : 0 < 10 ^ r * (10 ^ 9) ^ m := by positivity
            omega
        refine ⟨h1, h2, ?_⟩
        rw [h2, Nat.zero_mul] at he
        have : 0 < 10 ^ r * (10 ^ 9) ^ m := by positivity
        rcases Nat.mul_eq_zero.1 he.symm with h | h <;> omega

/-- what is shown -/
theorem display_decoded (intg frac : Nat) (neg : Bool) (n : Nat) (hi : intg % 9 ≠ 0) :
    (MyDecimal.mk intg frac neg (decimalGroups intg frac n)).display
      = some ((if neg then ['-'] else []) ++ (Nat.toDigits 10 (n / 10 ^ frac / (10 ^ 9) ^ (intg / 9))
          ++ ((Spec.groups (intg / 9) (n / 10 ^ frac)).map (Nat.toDigits 10)).flatten)
        ++ (if frac = 0 then [] else '.' :: fracText (frac / 9) (frac % 9) (n % 10 ^ frac))) := by
  have hi' : 0 < intg % 9 := by omega
  simp only [decimalGroups, if_pos hi', fracText]
  generalize n / 10 ^ frac / (10 ^ 9) ^ (intg / 9) = a
  generalize hG1 : Spec.groups (intg / 9) (n / 10 ^ frac) = G1
  generalize hG2 : Spec.groups (frac / 9) (n % 10 ^ frac / 10 ^ (frac % 9)) = G2
  have hl1 : G1.length = intg / 9 := by rw [← hG1, groups_length]
  have hl2 : G2.length = frac / 9 := by rw [← hG2, groups_length]
  have hnInt : 1 + intg / 9 = ([a] ++ G1).length := by simp [hl1]; omega
  generalize n % 10 ^ frac % 10 ^ (frac % 9) = v
  generalize hlast : (if 0 < frac % 9 then [v * 10 ^ (9 - frac % 9)] else []) = last
  unfold MyDecimal.display
  simp only [show intg - intg / 9 * 9 = intg % 9 by omega, show frac - frac / 9 * 9 = frac % 9 by omega]
  rw [List.append_assoc, if_neg (by simp), if_pos hi', hnInt, if_neg (by simp), List.take_left' rfl, List.drop_left' rfl]
  rw [← hl2, List.take_left' rfl, if_neg (c := _ < _) (by simp only [List.length_append]; omega)]
  rw [List.getElem?_append_right (by omega), List.getElem?_append_right (by omega)]
  simp only [Nat.add_sub_cancel_left, Nat.sub_self]
  by_cases f0 : frac = 0
  · rw [if_pos f0, if_pos f0]; simp
  · rw [if_neg f0, if_neg f0]
    subst hlast
    by_cases f1 : 0 < frac % 9
    · rw [if_pos f1, if_pos f1, if_pos f1]
      simp only [List.getElem?_cons_zero]
      rw [Nat.mul_div_cancel _ (Nat.pow_pos (by omega))]
      simp
    · rw [if_neg f1, if_neg f1]
      simp
      omega

/-- Where the digits of `n`, a number with `frac` decimals, are cut into groups of nine, from the point to both sides,
and the leading zeros of every group are left out, nothing is lost: in the integer part a group with a leading
zero has only zeros before it; among the decimals, a group with a leading zero is zero and has only zeros after it
(a last group of fewer than nine decimals likewise). -/
def HarmlessZeros (intg frac n : Nat) : Prop :=
  (∀ k < intg / 9, 10 ^ 8 ≤ n / 10 ^ frac / (10 ^ 9) ^ k % 10 ^ 9 ∨ n / 10 ^ frac / (10 ^ 9) ^ (k + 1) = 0) ∧
  (∀ k < frac / 9, 10 ^ 8 ≤ n % 10 ^ frac / 10 ^ (frac % 9) / (10 ^ 9) ^ k % 10 ^ 9
    ∨ n % 10 ^ frac % (10 ^ (frac % 9) * (10 ^ 9) ^ (k + 1)) = 0) ∧
  (0 < frac % 9 → 10 ^ (frac % 9 - 1) ≤ n % 10 ^ frac % 10 ^ (frac % 9) ∨ n % 10 ^ frac % 10 ^ (frac % 9) = 0)

/-- C38: exactly which decoded DECIMALs are shown right. The text is a sign, digits, and, if the column has decimals,
a point and digits; it denotes the value if and only if no zero that counts is left out. -/
theorem C38_display_iff (intg frac : Nat) (neg : Bool) (n : Nat) (hi : intg % 9 ≠ 0)
    (hn : n < 10 ^ (intg + frac)) (rest : Bytes) :
    ∃ d ip fp, MyDecimal.readFrom intg frac (Spec.decimal intg frac neg n ++ rest) = .ok d rest ∧
      d.display = some ((if neg then ['-'] else []) ++ ip ++ (if frac = 0 then [] else '.' :: fp)) ∧
      ip ≠ [] ∧ (∀ c ∈ ip ++ fp, c.isDigit = true) ∧
      (Nat.ofDigitChars 10 ip 0 = n / 10 ^ frac ∧
        Nat.ofDigitChars 10 fp 0 * 10 ^ frac = n % 10 ^ frac * 10 ^ fp.length
        ↔ HarmlessZeros intg frac n) := by
  refine ⟨_, _, _, decimal_read intg frac neg n hi hn rest, display_decoded intg frac neg n hi, ?_, ?_, ?_⟩
  · intro hc
    have := congrArg List.length hc
    simp only [List.length_append, List.length_nil] at this
    have := Nat.length_toDigits_pos (b := 10) (n := n / 10 ^ frac / (10 ^ 9) ^ (intg / 9))
    omega
  · intro c hc
    have hdig : ∀ g, ∀ c ∈ Nat.toDigits 10 g, c.isDigit = true := fun g c hc =>
      Nat.isDigit_of_mem_toDigits (by omega) (by omega) hc
    rcases List.mem_append.1 hc with hc | hc
    · rcases List.mem_append.1 hc with hc | hc
      · exact hdig _ c hc
      · exact isDigit_flatten _ c hc
    · rw [fracText] at hc
      rcases List.mem_append.1 hc with hc | hc
      · exact isDigit_flatten _ c hc
      · split at hc
        · exact hdig _ c hc
        · cases hc
  · rw [Nat.ofDigitChars_append, Nat.ofDigitChars_ten_toDigits]
    have h1 := (int_numeral (intg / 9) (n / 10 ^ frac) _ (le_refl _)).2
    have h2 := (frac_numeral (frac / 9) (frac % 9) (n % 10 ^ frac)).2
    have hp : 10 ^ (frac % 9) * (10 ^ 9) ^ (frac / 9) = 10 ^ frac := by
      rw [← Nat.pow_mul, ← Nat.pow_add]; congr 1; omega
    rw [hp, Nat.mod_mod] at h2
    rw [h1, eq_comm (a := _ * 10 ^ frac), h2]
    simp only [HarmlessZeros, true_and]

/-- 5 in a DECIMAL(10,0) is shown right, as "05"; -1.00 in a DECIMAL(3,2) as "-1.0"; 1.05 is not. -/
example : HarmlessZeros 10 0 5 ∧ HarmlessZeros 1 2 100 ∧ ¬ HarmlessZeros 1 2 105 := by
  refine ⟨⟨fun k hk => ?_, fun k hk => ?_, fun h => ?_⟩, ⟨fun k hk => ?_, fun k hk => ?_, fun _ => ?_⟩, ?_⟩
  · have : k = 0 := by omega
    subst this; norm_num
  · omega
  · omega
  · omega
  · omega
  · norm_num
  · rintro ⟨-, -, h⟩
    norm_num at h

end Mybin
