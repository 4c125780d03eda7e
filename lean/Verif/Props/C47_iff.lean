/-
C47: exactly which lists of status variables are decoded to their values.
-/
import Verif.Props.C33_C47_C48

namespace Mybin

theorem statusNames_length {α : Type} (p : P α) (n : Nat) : ∀ (bs : Bytes) (as : List α) (r : Bytes),
    P.times p n bs = .ok as r → as.length = n := by
  induction n with
  | zero =>
    intro bs as r h
    have h : R.ok ([] : List α) bs = .ok as r := h
    injection h with h _
    rw [← h]
    rfl
  | succ n ih =>
    intro bs as r h
    unfold P.times at h
    simp only [P.bind_eq_ok, P.pure_eq_ok] at h
    obtain ⟨a, m, -, as', m', h2, rfl, -⟩ := h
    rw [List.length_cons, ih _ _ _ h2]

/-- C47, exactly when: the status variables of a query event are decoded to what the server wrote, one by one and in order,
exactly when the marker for too many databases is not among them. -/
theorem C47_status_vars_iff (vs : List Spec.StatusVar) (h : ∀ v ∈ vs, v.InRange) :
    QueryStatusVars.readFrom ((vs.map (·.encode)).flatten) = .ok (vs.map (·.expected)) [] ↔
      Spec.StatusVar.overMaxDbs ∉ vs := by
  constructor
  · intro hd hm
    induction vs with
    | nil => simp at hm
    | cons v vs ih =>
      have hne : (v.encode ++ (vs.map (·.encode)).flatten) ≠ [] := by
        cases v <;> simp [Spec.StatusVar.encode, Spec.u8]
      rw [List.map_cons, List.flatten_cons, List.map_cons, QueryStatusVars.readFrom, P.whileRemaining, if_neg hne] at hd
      by_cases hv : v = .overMaxDbs
      · subst hv
        cases hr : QueryStatusVar.readFrom (Spec.StatusVar.encode .overMaxDbs ++ (vs.map (·.encode)).flatten) with
        | ok a r =>
          have ha : a ≠ .updatedDbNames [] := by
            rintro rfl
            have hr : QueryStatusVar.readFrom (Spec.u8 12 ++ Spec.u8 254 ++ (vs.map (·.encode)).flatten)
                = .ok (.updatedDbNames []) r := hr
            unfold QueryStatusVar.readFrom at hr
            rw [List.append_assoc, P.bind_apply, readU8_u8 12 _ (by norm_num)] at hr
            have hr : (QueryStatusVar.readValue 0x0c) (Spec.u8 254 ++ (vs.map (·.encode)).flatten)
                = .ok (.updatedDbNames []) r := hr
            simp only [QueryStatusVar.readValue] at hr
            rw [P.bind_apply, readU8_u8 254 _ (by norm_num)] at hr
            have hr : (P.times (readUntil 0 false) 254 >>= fun names => pure (QueryStatusVar.updatedDbNames names))
                ((vs.map (·.encode)).flatten) = .ok (.updatedDbNames []) r := hr
            simp only [P.bind_eq_ok, P.pure_eq_ok] at hr
            obtain ⟨names, m, h1, h2, -⟩ := hr
            injection h2 with h2
            subst h2
            exact absurd (statusNames_length _ _ _ _ _ h1) (by simp)
          rw [hr] at hd
          dsimp only at hd
          split at hd
          · split at hd <;> first | cases hd | skip
            exact ha rfl
          · cases hd
        | err e r => rw [hr] at hd; cases hd
        | panic => rw [hr] at hd; cases hd
        | hang => rw [hr] at hd; cases hd
      · rw [statusVar_spec v (h v List.mem_cons_self) hv] at hd
        dsimp only at hd
        split at hd
        · split at hd <;> first | cases hd | skip
          rename_i as r' hw
          refine ih (fun w hw => h w (List.mem_cons_of_mem _ hw)) hw ?_
          rcases List.mem_cons.1 hm with e | e
          · exact absurd e.symm hv
          · exact e
        · cases hd
  · intro hm
    exact C47_status_vars_partial vs h (fun v hv e => hm (e ▸ hv))

/-- both sides occur -/
example : Spec.StatusVar.overMaxDbs ∉ [Spec.StatusVar.flags2 1, .updatedDbs [[97]]] ∧
    Spec.StatusVar.overMaxDbs ∈ [Spec.StatusVar.flags2 1, .overMaxDbs, .microseconds 5] := by
  refine ⟨by simp, by simp⟩

end Mybin
