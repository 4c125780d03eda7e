/- Helper lemmas about the reader monad and the primitive readers/writers. -/
import Verif.Model.Parser
import Verif.Spec.Wire
import Mathlib.Tactic.Ring
import Mathlib.Tactic.Linarith
import Mathlib.Data.List.Basic

namespace Mybin

/-! ### monad plumbing -/

@[simp] theorem R.bind_ok {α β} (a : α) (r : Bytes) (f : α → P β) :
    (R.ok a r).bind f = f a r := rfl
@[simp] theorem R.bind_err {α β} (e : Err) (r : Bytes) (f : α → P β) :
    (R.err e r).bind f = .err e r := rfl
@[simp] theorem R.bind_panic {α β} (f : α → P β) : (R.panic).bind f = .panic := rfl
@[simp] theorem R.bind_hang {α β} (f : α → P β) : (R.hang).bind f = .hang := rfl

@[simp] theorem P.bind_apply {α β} (x : P α) (f : α → P β) (bs : Bytes) :
    (x >>= f) bs = (x bs).bind f := rfl
@[simp] theorem P.pure_apply {α} (a : α) (bs : Bytes) : (pure a : P α) bs = .ok a bs := rfl
@[simp] theorem P.fail_apply {α} (e : Err) (bs : Bytes) : (P.fail e : P α) bs = .err e bs := rfl
@[simp] theorem P.panic_apply {α} (bs : Bytes) : (P.panic : P α) bs = .panic := rfl
@[simp] theorem P.map_apply {α β} (f : α → β) (x : P α) (bs : Bytes) :
    (f <$> x) bs = (x bs).bind (fun a => pure (f a)) := rfl
theorem P.seqRight_apply {α β} (x : P α) (y : P β) (bs : Bytes) :
    (x *> y) bs = (x bs).bind (fun _ => y) := by
  show ((x bs).bind fun _ => _) = _
  cases x bs <;> rfl
@[simp] theorem P.ite_apply {α} (c : Prop) [Decidable c] (p q : P α) (bs : Bytes) :
    (if c then p else q) bs = if c then p bs else q bs := by split <;> rfl
@[simp] theorem P.orErr_some {α} (a : α) (e : Err) : P.orErr (some a) e = pure a := rfl
@[simp] theorem P.orErr_none {α} (e : Err) : P.orErr (none : Option α) e = P.fail e := rfl

theorem P.ext {α} {p q : P α} (h : ∀ bs, p bs = q bs) : p = q := funext h

instance : LawfulMonad P := LawfulMonad.mk'
  (id_map := fun x => P.ext fun bs => by
    show (x bs).bind _ = x bs
    cases x bs <;> rfl)
  (pure_bind := fun a f => rfl)
  (bind_assoc := fun x f g => P.ext fun bs => by
    show R.bind (R.bind (x bs) _) _ = R.bind (x bs) _
    cases x bs <;> rfl)

/-! ### positional values -/

theorem leVal_eq_spec (bs : Bytes) : leVal bs = Spec.leNat bs := by
  induction bs with
  | nil => rfl
  | cons b bs ih => simp [leVal, Spec.leNat, ih] at *

theorem leVal_append (a b : Bytes) : leVal (a ++ b) = leVal a + 256 ^ a.length * leVal b := by
  induction a with
  | nil => simp [leVal]
  | cons x xs ih => simp [leVal, ih, pow_succ]; ring

theorem beVal_eq_spec (bs : Bytes) : beVal bs = Spec.beNat bs := by
  have gen : ∀ (l : Bytes) (acc : Nat),
      l.foldl (fun acc b => acc * 256 + b.toNat) acc = leVal l.reverse + 256 ^ l.length * acc := by
    intro l
    induction l with
    | nil => intro acc; simp [leVal]
    | cons x xs ih =>
      intro acc
      simp [ih, leVal_append, leVal, pow_succ]
      ring
  simp [beVal, Spec.beNat, gen]

theorem leVal_lt (bs : Bytes) : leVal bs < 256 ^ bs.length := by
  induction bs with
  | nil => simp [leVal]
  | cons b bs ih =>
    have := b.toNat_lt
    simp only [leVal, List.length_cons, pow_succ]
    omega

theorem leBytes_eq_spec (k n : Nat) : leBytes k n = Spec.le k n := by
  induction k generalizing n with
  | zero => rfl
  | succ k ih =>
    simp [leBytes, ih, Spec.le, List.range_succ_eq_map, Function.comp_def, pow_succ,
      Nat.div_div_eq_div_mul, Nat.mul_comm]

@[simp] theorem length_leBytes (k n : Nat) : (leBytes k n).length = k := by
  induction k generalizing n with
  | zero => rfl
  | succ k ih => simp [leBytes, ih]

@[simp] theorem Spec.length_le (k n : Nat) : (Spec.le k n).length = k := by simp [Spec.le]
@[simp] theorem Spec.length_be (k n : Nat) : (Spec.be k n).length = k := by simp [Spec.be]
@[simp] theorem Spec.length_u8 (n : Nat) : (Spec.u8 n).length = 1 := rfl

theorem leVal_leBytes (k n : Nat) : leVal (leBytes k n) = n % 256 ^ k := by
  induction k generalizing n with
  | zero => simp [leBytes, leVal, Nat.mod_one]
  | succ k ih =>
    simp [leBytes, leVal, ih]
    rw [pow_succ, Nat.mul_comm (256 ^ k) 256, Nat.mod_mul]

theorem leVal_spec_le (k n : Nat) : leVal (Spec.le k n) = n % 256 ^ k := by
  rw [← leBytes_eq_spec, leVal_leBytes]

theorem leBytes_leVal (bs : Bytes) : leBytes bs.length (leVal bs) = bs := by
  induction bs with
  | nil => rfl
  | cons b bs ih =>
    have hb := b.toNat_lt
    simp only [List.length_cons, leBytes, leVal]
    have h1 : (b.toNat + 256 * leVal bs) % 256 = b.toNat := by omega
    have h2 : (b.toNat + 256 * leVal bs) / 256 = leVal bs := by omega
    rw [h1, h2, ih]
    simp

theorem take_leBytes (j k n : Nat) (h : j ≤ k) : (leBytes k n).take j = leBytes j n := by
  induction j generalizing k n with
  | zero => simp [leBytes]
  | succ j ih =>
    obtain ⟨k, rfl⟩ : ∃ k', k = k' + 1 := ⟨k - 1, by omega⟩
    simp [leBytes, ih k (n / 256) (by omega)]

theorem take_spec_le (j k n : Nat) (h : j ≤ k) : (Spec.le k n).take j = Spec.le j n := by
  rw [← leBytes_eq_spec, take_leBytes j k n h, leBytes_eq_spec]

/-! ### two's complement -/

theorem asSigned_eq_twos {w n : Nat} (hw : 0 < w) (h : n < 2 ^ w) :
    asSigned w n = Spec.twos w n := by
  obtain ⟨v, rfl⟩ : ∃ v, w = v + 1 := ⟨w - 1, by omega⟩
  have h2 : (2 : Nat) ^ (v + 1) = 2 * 2 ^ v := by rw [pow_succ]; ring
  have hmod : ((n : Int) % ((2 ^ (v + 1) : Nat) : Int)) = n := by
    rw [← Int.natCast_mod, Nat.mod_eq_of_lt h]
  unfold asSigned Spec.twos
  rw [Int.bmod_def, hmod]
  have h3 : (((2 ^ (v + 1) : Nat) : Int)) = 2 ^ (v+1) := by push_cast; ring
  simp only [Nat.add_sub_cancel]
  have h4 : ((2 ^ (v + 1) : Nat) + 1 : Nat) / 2 = 2 ^ v := by omega
  have h5 : (((2 ^ (v + 1) : Nat) : Int) + 1) / 2 = ((2 ^ v : Nat) : Int) := by
    rw [← h4]; push_cast; rfl
  rw [h5]
  by_cases c : n < 2 ^ v
  · rw [if_pos c, if_pos (by exact_mod_cast c)]
  · rw [if_neg c, if_neg (by exact_mod_cast c), h3]

theorem asUnsigned_eq_pattern (w : Nat) (i : Int) : asUnsigned w i = Spec.pattern w i := by
  simp [asUnsigned, Spec.pattern]

theorem asUnsigned_lt (w : Nat) (i : Int) : asUnsigned w i < 2 ^ w := by
  unfold asUnsigned
  have h : (0 : Int) < 2 ^ w := by positivity
  have h1 := Int.emod_lt_of_pos i h
  have h0 := Int.emod_nonneg i (ne_of_gt h)
  have : ((i % 2 ^ w).toNat : Int) < ((2 ^ w : Nat) : Int) := by
    rw [Int.toNat_of_nonneg h0]; push_cast; exact h1
  exact_mod_cast this

theorem asSigned_asUnsigned {w : Nat} {i : Int} (hw : 0 < w) (h : Spec.SignedRange w i) :
    asSigned w (asUnsigned w i) = i := by
  obtain ⟨v, rfl⟩ : ∃ v, w = v + 1 := ⟨w - 1, by omega⟩
  obtain ⟨h1, h2⟩ := h
  simp only [Nat.add_sub_cancel] at h1 h2
  have hp : (2 : Int) ^ (v + 1) = 2 * 2 ^ v := by rw [pow_succ]; ring
  have hpos : (0 : Int) < 2 ^ v := by positivity
  unfold asSigned asUnsigned
  simp only [Nat.add_sub_cancel]
  by_cases c : 0 ≤ i
  · have e : i % 2 ^ (v + 1) = i := Int.emod_eq_of_lt c (by rw [hp]; omega)
    rw [e, if_pos, Int.toNat_of_nonneg c]
    have : ((i.toNat : Nat) : Int) < ((2 ^ v : Nat) : Int) := by
      rw [Int.toNat_of_nonneg c]; push_cast; exact h2
    exact_mod_cast this
  · have e : i % 2 ^ (v + 1) = i + 2 ^ (v + 1) := by
      rw [← Int.add_emod_right i (2 ^ (v+1))]
      exact Int.emod_eq_of_lt (by rw [hp]; omega) (by omega)
    have hn : (0 : Int) ≤ i + 2 ^ (v + 1) := by rw [hp]; omega
    rw [e, if_neg, Int.toNat_of_nonneg hn]
    · omega
    · intro hc
      have : (((i + 2 ^ (v + 1)).toNat : Nat) : Int) < ((2 ^ v : Nat) : Int) := by exact_mod_cast hc
      rw [Int.toNat_of_nonneg hn] at this
      push_cast at this
      rw [hp] at this
      omega

end Mybin
