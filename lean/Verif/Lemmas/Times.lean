/- Counted loops. -/
import Verif.Lemmas.Step
import Verif.Lemmas.Well
import Verif.Model.Command

namespace Mybin
variable {α β : Type}

/-- a counted loop reads back a sequence of items, each read back by `p` -/
theorem P.times_spec (p : P β) (enc : α → Bytes) (val : α → β) (l : List α)
    (h : ∀ a ∈ l, ∀ t, p (enc a ++ t) = .ok (val a) t) (t : Bytes) :
    P.times p l.length ((l.map enc).flatten ++ t) = .ok (l.map val) t := by
  induction l with
  | nil => rfl
  | cons a as ih =>
    simp only [List.map_cons, List.flatten_cons, List.append_assoc, List.length_cons, P.times]
    step (h a (by simp) _)
    step (ih (fun x hx => h x (by simp [hx])))
    rfl

theorem Well.times {p : P α} (h : Well p) (n : Nat) : Well (P.times p n) := by
  induction n with
  | zero => exact Well.pure _
  | succ n ih => exact Well.bind h fun _ => Well.bind ih fun _ => Well.pure _

theorem withCapacity_ok (n sz : Nat) (h : n * sz < 2 ^ 63) (bs : Bytes) :
    withCapacity n sz bs = .ok () bs := by
  unfold withCapacity; rw [if_pos h]; rfl

theorem readLeI64_pattern (i : Int) (h : Spec.SignedRange 64 i) (rest : Bytes) :
    readLeI64 (Spec.le 8 (Spec.pattern 64 i) ++ rest) = .ok i rest := by
  unfold readLeI64
  step (readLeU64_le _ _ (pattern_lt 64 i))
  rw [asSigned_eq_twos (by norm_num) (pattern_lt 64 i), twos_pattern (by norm_num) h]; rfl

end Mybin
