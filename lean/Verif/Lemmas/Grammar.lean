/- Reading back specification encodings with the specification's grammar. -/
import Verif.Spec.Grammar
import Verif.Lemmas.MyEnc

namespace Mybin.Spec.D
variable {α β : Type}

theorem bind_apply (x : D α) (f : α → D β) (bs : List UInt8) :
    (x >>= f) bs = match x bs with | none => none | some (a, t) => f a t := rfl
@[simp] theorem pure_apply (a : α) (bs : List UInt8) : (Pure.pure a : D α) bs = some (a, bs) := rfl
theorem bind_some {x : D α} {bs t : List UInt8} {a : α} (h : x bs = some (a, t)) (f : α → D β) :
    (x >>= f) bs = f a t := by rw [bind_apply, h]
/-- continue with `f` after a result -/
def andThen (r : Option (α × List UInt8)) (f : α → D β) : Option (β × List UInt8) :=
  match r with
  | none => none
  | some (a, t) => f a t
theorem obind (x : D α) (f : α → D β) (bs : List UInt8) : (x >>= f) bs = andThen (x bs) f := rfl
theorem andThen_some (a : α) (t : List UInt8) (f : α → D β) : andThen (some (a, t)) f = f a t := rfl
theorem pure_apply' (a : α) (bs : List UInt8) : (Spec.D.pure a) bs = some (a, bs) := rfl
theorem ite_apply (c : Prop) [Decidable c] (p q : D α) (bs : List UInt8) :
    (if c then p else q) bs = if c then p bs else q bs := by split <;> rfl

theorem u8_spec (n : Nat) (t : List UInt8) (h : n < 256) : u8 (Spec.u8 n ++ t) = some (n, t) := by
  simp only [Spec.u8, List.cons_append, List.nil_append, u8, Option.some.injEq, Prod.mk.injEq, and_true]
  simp [UInt8.toNat_ofNat', Nat.mod_eq_of_lt h]

theorem bytes_spec (k : Nat) (x t : List UInt8) (h : x.length = k) :
    bytes k (x ++ t) = some (x, t) := by
  subst h; simp [bytes]

theorem le_spec (k n : Nat) (t : List UInt8) (h : n < 256 ^ k) :
    le k (Spec.le k n ++ t) = some (n, t) := by
  have h1 : (Spec.le k n ++ t).take k = Spec.le k n := by
    rw [List.take_append_of_le_length (by simp), List.take_of_length_le (by simp)]
  have h2 : (Spec.le k n ++ t).drop k = t := by
    rw [List.drop_append_of_le_length (by simp), List.drop_of_length_le (by simp), List.nil_append]
  have hv : leNat (Spec.le k n) = n := by
    rw [← leVal_eq_spec, leVal_spec_le, Nat.mod_eq_of_lt h]
  simp [le, h1, h2, hv]

theorem nulStr_spec (s t : List UInt8) (h : (0 : UInt8) ∉ s) :
    nulStr (Spec.nulStr s ++ t) = some (s, t) := by
  have h0 : (0 : UInt8) ∈ Spec.nulStr s ++ t := by simp [Spec.nulStr, Spec.u8]
  have hs : ∀ b ∈ s, (b != 0) = true := by
    intro b hb
    simp only [bne_iff_ne, ne_eq]
    rintro rfl; exact h hb
  unfold nulStr
  rw [if_pos h0]
  simp only [Spec.nulStr, Spec.u8, List.append_assoc]
  rw [List.takeWhile_append_of_pos hs, List.dropWhile_append_of_pos hs]
  simp

theorem rest_spec (bs : List UInt8) : rest bs = some (bs, []) := rfl

theorem lenEncInt_spec (n : Nat) (t : List UInt8) (h : n < 2 ^ 64) :
    lenEncInt (Spec.lenEncInt n ++ t) = some (n, t) := by
  unfold Spec.lenEncInt
  split
  · rename_i h1
    show (if (UInt8.ofNat n).toNat < 251 then _ else _) = _
    have e : (UInt8.ofNat n).toNat = n := by simp [UInt8.toNat_ofNat']; omega
    rw [e, if_pos h1]; rfl
  · split
    · rw [List.append_assoc]
      show le 2 (Spec.le 2 n ++ t) = _
      exact le_spec 2 n t (by omega)
    · split
      · rw [List.append_assoc]
        show le 3 (Spec.le 3 n ++ t) = _
        exact le_spec 3 n t (by omega)
      · rw [List.append_assoc]
        show le 8 (Spec.le 8 n ++ t) = _
        exact le_spec 8 n t (by omega)

theorem lenEncStr_spec (s t : List UInt8) (h : s.length < 2 ^ 64) :
    lenEncStr (Spec.lenEncStr s ++ t) = some (s, t) := by
  unfold lenEncStr Spec.lenEncStr
  rw [List.append_assoc, bind_some (lenEncInt_spec _ _ h)]
  exact bytes_spec _ _ _ rfl

/-- reading back a sequence of items, each read back by `p` -/
theorem times_spec (p : D β) (enc : α → List UInt8) (val : α → β) (l : List α)
    (h : ∀ a ∈ l, ∀ t, p (enc a ++ t) = some (val a, t)) (t : List UInt8) :
    times p l.length ((l.map enc).flatten ++ t) = some (l.map val, t) := by
  induction l with
  | nil => rfl
  | cons a as ih =>
    simp only [List.map_cons, List.flatten_cons, List.append_assoc, List.length_cons, times]
    rw [bind_some (h a (by simp) _),
      bind_some (ih (fun x hx => h x (by simp [hx])))]
    rfl

theorem manyFuel_spec (p : D β) (enc : α → List UInt8) (val : α → β) (l : List α)
    (hne : ∀ a ∈ l, enc a ≠ [])
    (h : ∀ a ∈ l, ∀ t, p (enc a ++ t) = some (val a, t)) (fuel : Nat)
    (hf : l.length ≤ fuel) :
    manyFuel p fuel (l.map enc).flatten = some (l.map val) := by
  induction l generalizing fuel with
  | nil => cases fuel <;> rfl
  | cons a as ih =>
    obtain ⟨fuel, rfl⟩ : ∃ f, fuel = f + 1 := ⟨fuel - 1, by simp at hf; omega⟩
    have hp := h a (by simp) (as.map enc).flatten
    have hn := hne a (by simp)
    simp only [List.map_cons, List.flatten_cons]
    cases e : enc a with
    | nil => exact absurd e hn
    | cons b u =>
      rw [e] at hp
      simp only [List.cons_append] at hp ⊢
      simp only [manyFuel, hp]
      rw [ih (fun x hx => hne x (by simp [hx])) (fun x hx => h x (by simp [hx])) fuel
        (by simp at hf; omega)]
      rfl

theorem length_le_flatten (enc : α → List UInt8) (l : List α) (hne : ∀ a ∈ l, enc a ≠ []) :
    l.length ≤ (l.map enc).flatten.length := by
  induction l with
  | nil => simp
  | cons a as ih =>
    have h1 := List.length_pos_iff.mpr (hne a (by simp))
    have h2 := ih (fun x hx => hne x (by simp [hx]))
    simp only [List.map_cons, List.flatten_cons, List.length_append, List.length_cons]
    omega

theorem many_spec (p : D β) (enc : α → List UInt8) (val : α → β) (l : List α)
    (hne : ∀ a ∈ l, enc a ≠ [])
    (h : ∀ a ∈ l, ∀ t, p (enc a ++ t) = some (val a, t)) :
    many p (l.map enc).flatten = some (l.map val) :=
  manyFuel_spec p enc val l hne h _ (length_le_flatten enc l hne)

end Mybin.Spec.D
