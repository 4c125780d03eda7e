/-
Facts for the DECIMAL decoder: inverted bytes, digit groups, decimal numerals.
-/
import Verif.Lemmas.BinlogCol
import Mathlib.Tactic.Ring

namespace Mybin

theorem beVal_append (a b : Bytes) : beVal (a ++ b) = beVal a * 256 ^ b.length + beVal b := by
  induction a with
  | nil => simp [beVal, leVal]
  | cons x t ih =>
    rw [List.cons_append, beVal_cons, beVal_cons, ih, List.length_append, Nat.pow_add]
    ring

theorem compl_toNat (x : UInt8) : (~~~ x).toNat = 255 - x.toNat := by
  have h : ∀ n, n < 256 → (~~~ (UInt8.ofNat n)).toNat = 255 - n := by decide +kernel
  have := h x.toNat x.toNat_lt
  rwa [UInt8.ofNat_toNat] at this

theorem beVal_compl (bs : Bytes) : beVal (bs.map (~~~ ·)) = 256 ^ bs.length - 1 - beVal bs := by
  induction bs with
  | nil => rfl
  | cons x t ih =>
    rw [List.map_cons, beVal_cons, ih, beVal_cons, compl_toNat, List.length_map, List.length_cons, Nat.pow_succ]
    have h1 := beVal_lt t
    have h2 := x.toNat_lt
    have h3 : x.toNat + (255 - x.toNat) = 255 := by omega
    generalize 255 - x.toNat = y at h3 ⊢
    generalize x.toNat = z at h3 ⊢
    generalize 256 ^ t.length = k at h1 ⊢
    have : (z + y) * k = 255 * k := by rw [h3]
    rw [Nat.add_mul] at this
    omega

theorem flip_toNat (x : UInt8) : (x ^^^ 0x80).toNat = x.toNat ^^^ 128 := by
  rw [UInt8.toNat_xor]; rfl

theorem beVal_flipTop (x : UInt8) (t : Bytes) :
    beVal (Spec.flipTop (x :: t)) = beVal (x :: t) ^^^ 2 ^ (8 * t.length + 7) := by
  have h1 := beVal_lt t
  have h2 := x.toNat_lt
  have hp : 2 ^ (8 * t.length + 7) = 128 * 256 ^ t.length := by
    rw [Nat.pow_add, Nat.pow_mul]; norm_num [Nat.mul_comm]
  rw [Spec.flipTop, beVal_cons, beVal_cons, flip_toNat]
  by_cases hx : x.toNat < 128
  · rw [show (128 : Nat) = 2 ^ 7 by norm_num, xor_top_low 7 _ (by simpa using hx), xor_top_low, hp]
    · ring
    · rw [hp]
      calc x.toNat * 256 ^ t.length + beVal t < x.toNat * 256 ^ t.length + 256 ^ t.length := by omega
        _ = (x.toNat + 1) * 256 ^ t.length := by ring
        _ ≤ 128 * 256 ^ t.length := Nat.mul_le_mul_right _ (by omega)
  · have hle : 128 * 256 ^ t.length ≤ x.toNat * 256 ^ t.length := Nat.mul_le_mul_right _ (by omega)
    rw [show (128 : Nat) = 2 ^ 7 by norm_num, xor_top_high 7 _ (by omega) (by omega), xor_top_high, hp]
    · rw [Nat.sub_mul]; norm_num; omega
    · rw [hp]; omega
    · rw [Nat.pow_succ, hp]
      calc x.toNat * 256 ^ t.length + beVal t < x.toNat * 256 ^ t.length + 256 ^ t.length := by omega
        _ = (x.toNat + 1) * 256 ^ t.length := by ring
        _ ≤ 256 * 256 ^ t.length := Nat.mul_le_mul_right _ (by omega)
        _ = _ := by ring

theorem be_length (k n : Nat) : (Spec.be k n).length = k := by simp

/-- the bytes as stored: inverted when negative -/
def inv (neg : Bool) (bs : Bytes) : Bytes := if neg then bs.map (~~~ ·) else bs

theorem inv_append (neg : Bool) (a b : Bytes) : inv neg (a ++ b) = inv neg a ++ inv neg b := by
  cases neg <;> simp [inv]

theorem inv_length (neg : Bool) (a : Bytes) : (inv neg a).length = a.length := by
  cases neg <;> simp [inv]

theorem inv_flatten (neg : Bool) (l : List Bytes) : inv neg l.flatten = (l.map (inv neg)).flatten := by
  induction l with
  | nil => cases neg <;> rfl
  | cons a t ih => rw [List.flatten_cons, inv_append, ih]; rfl

theorem beVal_inv (neg : Bool) (k v : Nat) (h : v < 256 ^ k) :
    beVal (inv neg (Spec.be k v)) = if neg then 256 ^ k - 1 - v else v := by
  cases neg
  · simp [inv, beVal_be, Nat.mod_eq_of_lt h]
  · simp only [inv, if_true, beVal_compl, beVal_be, be_length, Nat.mod_eq_of_lt h]

/-- a full fragment -/
theorem readFragment_inv (neg : Bool) (v : Nat) (h : v < 2 ^ 32) (rest : Bytes) :
    readFragment neg (inv neg (Spec.be 4 v) ++ rest) = .ok v rest := by
  unfold readFragment
  rw [P.bind_apply, readBeU32, (fixedRead_readFixed 4 beVal).append _ _ (by rw [inv_length, be_length]), R.bind_ok,
    beVal_inv _ _ _ (by omega), P.pure_apply]
  cases neg
  · rfl
  · simp only [if_true]
    rw [show (0xffffffff : Nat) = 2 ^ 32 - 1 by norm_num, xor_ones 32 _ (by omega)]
    rw [show 2 ^ 32 - 1 - (256 ^ 4 - 1 - v) = v by omega]

/-- a short fragment, its first bit inverted or not -/
theorem readExtra_val (rev : Bool) (L : Nat) (neg : Bool) (bs rest : Bytes) (h1 : 1 ≤ L) (h4 : L ≤ 4)
    (hl : bs.length = L) :
    readExtraFragment rev L neg (bs ++ rest) = .ok
      ((if neg then (if rev then beVal bs ^^^ 2 ^ (8 * L - 1) else beVal bs) ^^^ (2 ^ (8 * L) - 1)
        else (if rev then beVal bs ^^^ 2 ^ (8 * L - 1) else beVal bs))) rest := by
  have hL : L = 1 ∨ L = 2 ∨ L = 3 ∨ L = 4 := by omega
  have hlt := beVal_lt bs
  rw [hl] at hlt
  rcases hL with rfl | rfl | rfl | rfl
  · rw [show readExtraFragment rev 1 neg = (readU8 >>= fun n => pure (if neg then (if rev then n ^^^ 0x80 else n) ^^^ 0xff else (if rev then n ^^^ 0x80 else n))) from rfl]
    rw [P.bind_apply, fixedRead_u8.append _ _ hl, R.bind_ok, P.pure_apply]
    have : leVal bs = beVal bs := by
      match bs, hl with
      | [x], _ => rfl
    rw [this]
    norm_num
  · rw [show readExtraFragment rev 2 neg = (readBeU16 >>= fun n => pure (if neg then (if rev then n ^^^ 0x8000 else n) ^^^ 0xffff else (if rev then n ^^^ 0x8000 else n))) from rfl]
    rw [P.bind_apply, readBeU16, (fixedRead_readFixed 2 beVal).append _ _ hl, R.bind_ok, P.pure_apply]
    norm_num
  · rw [show readExtraFragment rev 3 neg = (readBeU24 >>= fun n => pure ((if neg then (if rev then n ^^^ 0x800000 else n) ^^^ 0xffffff else (if rev then n ^^^ 0x800000 else n)) &&& 0x00ffffff)) from rfl]
    rw [P.bind_apply, fixedRead_beU24.append _ _ hl, R.bind_ok, P.pure_apply]
    have e24 : ∀ x : Nat, x &&& 0x00ffffff = x % 2 ^ 24 := fun x => Nat.and_two_pow_sub_one_eq_mod x 24
    rw [e24, Nat.mod_eq_of_lt]
    · norm_num
    · have a : beVal bs ^^^ 8388608 < 2 ^ 24 := Nat.xor_lt_two_pow (by omega) (by norm_num)
      cases neg <;> cases rev
      · simpa using hlt
      · simpa using a
      · exact Nat.xor_lt_two_pow (by simpa using hlt) (by norm_num)
      · exact Nat.xor_lt_two_pow (by simpa using a) (by norm_num)
  · rw [show readExtraFragment rev 4 neg = (readBeU32 >>= fun n => pure (if neg then (if rev then n ^^^ 0x80000000 else n) ^^^ 0xffffffff else (if rev then n ^^^ 0x80000000 else n))) from rfl]
    rw [P.bind_apply, readBeU32, (fixedRead_readFixed 4 beVal).append _ _ hl, R.bind_ok, P.pure_apply]
    norm_num

theorem readExtra_false (L : Nat) (neg : Bool) (v : Nat) (h1 : 1 ≤ L) (h4 : L ≤ 4)
    (hv : v < 256 ^ L) (rest : Bytes) :
    readExtraFragment false L neg (inv neg (Spec.be L v) ++ rest) = .ok v rest := by
  have hp : 2 ^ (8 * L) = 256 ^ L := by rw [Nat.pow_mul]
  rw [readExtra_val _ _ _ _ _ h1 h4 (by rw [inv_length, be_length]), beVal_inv _ _ _ hv]
  cases neg
  · simp
  · simp only [if_true, Bool.false_eq_true, if_false]
    rw [xor_ones _ _ (by omega), hp]
    congr 1; omega

theorem readExtra_true (L : Nat) (neg : Bool) (v : Nat) (h1 : 1 ≤ L) (h4 : L ≤ 4)
    (hv : v < 256 ^ L) (rest : Bytes) :
    readExtraFragment true L neg (Spec.flipTop (inv neg (Spec.be L v)) ++ rest) = .ok v rest := by
  have hp : 2 ^ (8 * L) = 256 ^ L := by rw [Nat.pow_mul]
  have hl : (inv neg (Spec.be L v)).length = L := by rw [inv_length, be_length]
  have hb := beVal_inv neg L v hv
  generalize inv neg (Spec.be L v) = bs at hl hb
  match bs, hl with
  | [], hl => simp at hl; omega
  | x :: t, hl =>
    have hl' : t.length + 1 = L := by simpa using hl
    rw [readExtra_val _ _ _ _ _ h1 h4 (by simpa [Spec.flipTop] using hl), beVal_flipTop, hb]
    rw [show 8 * L - 1 = 8 * t.length + 7 by omega]
    simp only [if_true, Nat.xor_assoc, Nat.xor_self, Nat.xor_zero]
    cases neg
    · simp
    · simp only [if_true]
      rw [xor_ones _ _ (by omega), hp]
      congr 1; omega

/-! ### the sign -/

theorem top_clear (x : UInt8) (h : x.toNat < 128) : ((x ^^^ 0x80).toNat &&& 0x80 != 0x80) = false := by
  have h' : ∀ n, n < 128 → ((UInt8.ofNat n ^^^ 0x80).toNat &&& 0x80 != 0x80) = false := by decide +kernel
  have := h' x.toNat h
  rwa [UInt8.ofNat_toNat] at this

theorem top_set (x : UInt8) (h : x.toNat < 128) : ((~~~ x ^^^ 0x80).toNat &&& 0x80 != 0x80) = true := by
  have h' : ∀ n, n < 128 → ((~~~ (UInt8.ofNat n) ^^^ 0x80).toNat &&& 0x80 != 0x80) = true := by decide +kernel
  have := h' x.toNat h
  rwa [UInt8.ofNat_toNat] at this

/-- the first stored byte carries the sign -/
theorem sign_byte (neg : Bool) (x : UInt8) (t : Bytes) (h : x.toNat < 128) :
    ∃ b t', Spec.flipTop (inv neg (x :: t)) = b :: t' ∧ (b.toNat &&& 0x80 != 0x80) = neg := by
  cases neg
  · exact ⟨_, _, rfl, top_clear x h⟩
  · exact ⟨_, _, rfl, top_set x h⟩

theorem be_head_small (L v : Nat) (h1 : 1 ≤ L) (hv : v < 128 * 256 ^ (L - 1)) :
    ∃ x t, Spec.be L v = x :: t ∧ x.toNat < 128 := by
  have hl := be_length L v
  have hb := beVal_be L v
  have hp : 256 ^ L = 256 * 256 ^ (L - 1) := by
    rw [← Nat.pow_succ']; congr 1; omega
  generalize Spec.be L v = bs at hl hb
  match bs, hl with
  | [], hl => simp at hl; omega
  | x :: t, hl =>
    refine ⟨x, t, rfl, ?_⟩
    have hl' : t.length = L - 1 := by simp at hl; omega
    rw [beVal_cons, hl', Nat.mod_eq_of_lt (by omega)] at hb
    by_contra hc
    have : 128 * 256 ^ (L - 1) ≤ x.toNat * 256 ^ (L - 1) := Nat.mul_le_mul_right _ (by omega)
    omega

/-! ### digit groups -/

theorem baseValue_foldl (l : List Nat) : ∀ a, l.foldl (fun acc g => acc * 10 ^ 9 + g) a
    = a * (10 ^ 9) ^ l.length + Spec.baseValue l := by
  unfold Spec.baseValue
  induction l with
  | nil => intro a; simp
  | cons g t ih =>
    intro a
    rw [List.foldl_cons, ih, List.foldl_cons, ih (0 * 10 ^ 9 + g), List.length_cons, Nat.pow_succ (10 ^ 9)]
    ring

theorem baseValue_append (a b : List Nat) :
    Spec.baseValue (a ++ b) = Spec.baseValue a * (10 ^ 9) ^ b.length + Spec.baseValue b := by
  conv_lhs => rw [Spec.baseValue, List.foldl_append, baseValue_foldl]
  rfl

theorem baseValue_singleton (a : Nat) : Spec.baseValue [a] = a := by simp [Spec.baseValue]

theorem groups_length (m x : Nat) : (Spec.groups m x).length = m := by simp [Spec.groups]

theorem groups_succ (m x : Nat) :
    Spec.groups (m + 1) x = (x / (10 ^ 9) ^ m % 10 ^ 9) :: Spec.groups m x := by
  simp [Spec.groups, List.range_succ]

theorem groups_lt (m x : Nat) : ∀ g ∈ Spec.groups m x, g < 10 ^ 9 := by
  intro g hg
  simp only [Spec.groups, List.mem_map] at hg
  obtain ⟨_, _, rfl⟩ := hg
  exact Nat.mod_lt _ (by norm_num)

theorem baseValue_groups (m x : Nat) : Spec.baseValue (Spec.groups m x) = x % (10 ^ 9) ^ m := by
  induction m with
  | zero => simp [Spec.groups, Spec.baseValue, Nat.mod_one]
  | succ m ih =>
    rw [groups_succ, show ∀ a l, a :: l = [a] ++ l from fun _ _ => rfl, baseValue_append, baseValue_singleton,
      ih, groups_length, Nat.pow_succ (10 ^ 9) m]
    generalize (10 ^ 9) ^ m = k
    have h : ∀ b, x % (k * b) = x % k + k * (x / k % b) := fun b => Nat.mod_mul
    rw [h, Nat.mul_comm, Nat.add_comm]

end Mybin
