/-
C70: exactly which names of variables are the pattern the server reads.
-/
import Verif.Props.C42_exact
import Verif.Props.C70_C73

namespace Mybin

theorem stringBody_undoubled (name : Bytes) :
    Spec.stringBody (name ++ [0x27]) = some (name, []) ↔ 0x27 ∉ name ∧ Spec.OnlyWildcardEscapes name := by
  constructor
  · intro h
    obtain ⟨-, a, q, d, o, w, e1, e2, e3, e4, e5⟩ := stringBody_counts _ _ _ h
    rw [List.count_append, List.count_cons_self, List.count_nil] at e1
    rw [List.count_append, List.count_cons_of_ne (by decide), List.count_nil] at e3
    obtain ⟨y, hy, hw⟩ := e5 (by omega) (by omega) (by omega)
    refine ⟨List.count_eq_zero.1 (by omega), ?_⟩
    rwa [List.append_cancel_right hy]
  · rintro ⟨h1, h2⟩
    have := stringBody_doubled [] (by simp) _ name rfl h2
    rwa [doubled_plain name h1] at this

/-- C70: exactly the names without quotes in which every backslash is followed by `%` or `_` are the pattern that the
server reads. -/
theorem C70_pattern_iff (global : Bool) (name : Bytes) :
    ∃ q, Spec.showVariable global name
        = Spec.ascii (if global then "SHOW GLOBAL VARIABLES LIKE " else "SHOW VARIABLES LIKE ") ++ q ∧
      (Spec.stringLiteral q = some (name, []) ↔ 0x27 ∉ name ∧ Spec.OnlyWildcardEscapes name) := by
  refine ⟨0x27 :: (name ++ [0x27]), ?_, ?_⟩
  · unfold Spec.showVariable
    cases global <;> simp [Spec.ascii]
  · show (if (0x27 : UInt8) = 0x27 then Spec.stringBody _ else none) = _ ↔ _
    rw [if_pos rfl]
    exact stringBody_undoubled name

example : ¬ Spec.OnlyWildcardEscapes (Spec.ascii "a\\b") ∧ Spec.OnlyWildcardEscapes (Spec.ascii "a\\_b") := by
  constructor
  · intro h
    have := h (Spec.ascii "a") (Spec.ascii "b") (by decide)
    revert this; decide
  · rw [show Spec.ascii "a\\_b" = [0x61, 0x5c, 0x5f, 0x62] by decide +kernel]
    simp [wild_cons, wild_nil]

end Mybin
