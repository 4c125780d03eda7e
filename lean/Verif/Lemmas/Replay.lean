/-
Lemmas about the specification of replaying statements: what a statement with the literals of a row does.
-/
import Verif.Spec.Replay
import Verif.Model.Parser
import Mathlib.Data.List.Forall2

namespace Mybin

open Spec (Lit FloatRead Stmt Column Row Change Target Val)

/-- the literal is what the column takes the value from -/
def TakesFrom (fl : FloatRead) (y : Column × Option Val) (l : Lit) : Prop := y.1.take fl l = some y.2

theorem find_named (xs : List (Bytes × Lit)) (hn : (xs.map (·.1)).Nodup) (x : Bytes × Lit) (hx : x ∈ xs) :
    xs.find? (fun y => decide (y.1 = x.1)) = some x := by
  induction xs with
  | nil => cases hx
  | cons y xs ih =>
    rw [List.map_cons, List.nodup_cons] at hn
    rcases List.mem_cons.1 hx with rfl | hx
    · rw [List.find?_cons_of_pos (by simp)]
    · rw [List.find?_cons_of_neg, ih hn.2 hx]
      simp only [decide_eq_true_eq]
      intro e
      exact hn.1 (e ▸ List.mem_map_of_mem hx)

/-- the equations of the columns with the literals -/
def equationsOf (ys : List (Column × Option Val)) (ls : List Lit) : List (Bytes × Lit) := (ys.map (·.1.name)).zip ls

theorem equationsOf_mem (fl : FloatRead) (ys : List (Column × Option Val)) (ls : List Lit)
    (h : List.Forall₂ (TakesFrom fl) ys ls) : ∀ y ∈ ys, ∃ l, (y.1.name, l) ∈ equationsOf ys ls ∧ y.1.take fl l = some y.2 := by
  induction h with
  | nil => intro y hy; cases hy
  | @cons a l ys ls h1 _ ih =>
    intro y hy
    rcases List.mem_cons.1 hy with rfl | hy
    · exact ⟨l, by simp [equationsOf], h1⟩
    · obtain ⟨m, h2, h3⟩ := ih y hy
      exact ⟨m, List.mem_cons_of_mem _ h2, h3⟩

theorem equationsOf_names (fl : FloatRead) (ys : List (Column × Option Val)) (ls : List Lit)
    (h : List.Forall₂ (TakesFrom fl) ys ls) : (equationsOf ys ls).map (·.1) = ys.map (·.1.name) := by
  unfold equationsOf
  rw [List.map_fst_zip]
  exact Nat.le_of_eq (by rw [List.length_map, h.length_eq])

theorem zip_names (cols : List Column) (row : Row) (hl : row.length = cols.length) :
    (cols.zip row).map (·.1.name) = cols.map (·.name) := by
  rw [show (fun y : Column × Option Val => y.1.name) = (fun c : Column => c.name) ∘ Prod.fst from rfl, ← List.map_map,
    List.map_fst_zip (by omega)]

theorem valueFor_own (fl : FloatRead) (cols : List Column) (row : Row) (ls : List Lit)
    (hl : row.length = cols.length) (hn : (cols.map (·.name)).Nodup)
    (h : List.Forall₂ (TakesFrom fl) (cols.zip row) ls) :
    ∀ y ∈ cols.zip row, Spec.valueFor fl (equationsOf (cols.zip row) ls) y.1 = some y.2 := by
  intro y hy
  obtain ⟨l, h1, h2⟩ := equationsOf_mem fl _ _ h y hy
  unfold Spec.valueFor
  have := find_named (equationsOf (cols.zip row) ls) (by rw [equationsOf_names fl _ _ h, zip_names _ _ hl]; exact hn) _ h1
  dsimp only at this
  rw [this]
  exact h2

theorem inserted_zip (fl : FloatRead) (xs : List (Bytes × Lit)) (cols : List Column) : ∀ (row : Row),
    row.length = cols.length → (∀ y ∈ cols.zip row, Spec.valueFor fl xs y.1 = some y.2) →
    Spec.inserted fl xs cols = some row := by
  induction cols with
  | nil => intro row hl _; rw [List.length_eq_zero_iff.1 hl]; rfl
  | cons c cols ih =>
    intro row hl h
    cases row with
    | nil => cases hl
    | cons v row =>
      rw [Spec.inserted, h (c, v) (by simp), Option.bind_some,
        ih row (by simpa using hl) (fun y hy => h y (by simp [hy]))]
      rfl

theorem updated_zip (fl : FloatRead) (xs : List (Bytes × Lit)) (cols : List Column) : ∀ (row old : Row),
    row.length = cols.length → old.length = cols.length →
    (∀ y ∈ cols.zip row, Spec.valueFor fl xs y.1 = some y.2) →
    Spec.updated fl xs cols old = some row := by
  induction cols with
  | nil => intro row old hl _ _; rw [List.length_eq_zero_iff.1 hl]; simp [Spec.updated]
  | cons c cols ih =>
    intro row old hl ho h
    cases row with
    | nil => cases hl
    | cons v row =>
      cases old with
      | nil => cases ho
      | cons w old =>
        have h0 := h (c, v) (by simp)
        have hany : xs.any (fun x => decide (x.1 = c.name)) = true := by
          unfold Spec.valueFor at h0
          cases hf : xs.find? (fun x => decide (x.1 = c.name)) with
          | none => dsimp only at h0; rw [hf] at h0; cases h0
          | some x =>
            rw [List.any_eq_true]
            exact ⟨x, List.mem_of_find?_eq_some hf, by have := List.find?_some hf; simpa using this⟩
        rw [Spec.updated, if_pos hany, h0, Option.bind_some,
          ih row old (by simpa using hl) (by simpa using ho) (fun y hy => h y (by simp [hy]))]
        rfl

theorem equals_taken (fl : FloatRead) (c : Column) (v : Val) (l : Lit) (h : c.take fl l = some (some v)) (x : Option Val) :
    c.equals fl x l = decide (x = some v) := by
  cases x with
  | none => simp [Column.equals]
  | some w =>
    simp only [Column.equals, h, Option.some.injEq]
    by_cases e : v = w
    · subst e; simp
    · simp [e, Ne.symm e]

theorem any_own (fl : FloatRead) (ys : List (Column × Option Val)) (hn : (ys.map (·.1.name)).Nodup)
    (y : Column × Option Val) (hy : y ∈ ys) (l : Lit) :
    (ys.any fun x => decide (x.1.name = y.1.name) && x.1.equals fl x.2 l) = y.1.equals fl y.2 l := by
  induction ys with
  | nil => cases hy
  | cons z ys ih =>
    rw [List.map_cons, List.nodup_cons] at hn
    rw [List.any_cons]
    rcases List.mem_cons.1 hy with rfl | hy
    · have : (ys.any fun x => decide (x.1.name = y.1.name) && x.1.equals fl x.2 l) = false := by
        rw [List.any_eq_false]
        intro x hx
        have : x.1.name ≠ y.1.name := fun e => hn.1 (e ▸ List.mem_map_of_mem (f := fun x : Column × Option Val => x.1.name) hx)
        simp [this]
      rw [this]; simp
    · have : z.1.name ≠ y.1.name := fun e => hn.1 (e ▸ List.mem_map_of_mem (f := fun x : Column × Option Val => x.1.name) hy)
      rw [ih hn.2 hy]; simp [this]

/-- the condition on the key holds exactly in the rows with that key -/
theorem satisfies_key_aux (fl : FloatRead) (ys : List (Column × Option Val)) (hn : (ys.map (·.1.name)).Nodup)
    (cols : List Column) : ∀ (row other : Row) (ls : List Lit),
    row.length = cols.length → other.length = cols.length → (∀ y ∈ cols.zip other, y ∈ ys) →
    none ∉ Spec.keyOf cols row → List.Forall₂ (TakesFrom fl) ((cols.zip row).filter (·.1.key)) ls →
    ((equationsOf ((cols.zip row).filter (·.1.key)) ls).all fun e =>
      ys.any fun x => decide (x.1.name = e.1) && x.1.equals fl x.2 e.2)
      = decide (Spec.keyOf cols other = Spec.keyOf cols row) := by
  induction cols with
  | nil => intro row other ls _ _ _ _ h; simp [equationsOf, Spec.keyOf]
  | cons c cols ih =>
    intro row other ls hl ho hy hk h
    cases row with
    | nil => cases hl
    | cons v row =>
      cases other with
      | nil => cases ho
      | cons w other =>
        have hl' : row.length = cols.length := by simpa using hl
        have ho' : other.length = cols.length := by simpa using ho
        have hy' : ∀ y ∈ cols.zip other, y ∈ ys := fun y h => hy y (by simp [h])
        unfold Spec.keyOf at hk ih ⊢
        rw [List.zip_cons_cons] at h hk ⊢
        rw [List.zip_cons_cons]
        cases hc : c.key with
        | false =>
          rw [List.filter_cons_of_neg (by simp [hc])] at h hk ⊢
          rw [List.filter_cons_of_neg (by simp [hc])]
          exact ih row other ls hl' ho' hy' hk h
        | true =>
          rw [List.filter_cons_of_pos (by simp [hc])] at h hk ⊢
          rw [List.filter_cons_of_pos (by simp [hc])]
          cases h with
          | @cons _ l _ ls h1 h2 =>
            rw [List.map_cons, List.mem_cons, not_or] at hk
            have hrest := ih row other ls hl' ho' hy' hk.2 h2
            cases v with
            | none => exact absurd rfl hk.1
            | some v =>
              have hown := any_own fl ys hn (c, w) (hy (c, w) (by simp)) l
              rw [equals_taken fl c v l h1] at hown
              have e : equationsOf ((c, some v) :: (cols.zip row).filter (·.1.key)) (l :: ls)
                  = (c.name, l) :: equationsOf ((cols.zip row).filter (·.1.key)) ls := rfl
              rw [e, List.all_cons, hown, hrest, List.map_cons, List.map_cons]
              by_cases e1 : w = some v <;> simp [e1]

theorem satisfies_key (fl : FloatRead) (cols : List Column) (hn : (cols.map (·.name)).Nodup) (row other : Row) (ls : List Lit)
    (hl : row.length = cols.length) (ho : other.length = cols.length) (hk : none ∉ Spec.keyOf cols row)
    (h : List.Forall₂ (TakesFrom fl) ((cols.zip row).filter (·.1.key)) ls) :
    Spec.satisfies fl cols (equationsOf ((cols.zip row).filter (·.1.key)) ls) other
      = decide (Spec.keyOf cols other = Spec.keyOf cols row) :=
  satisfies_key_aux fl (cols.zip other) (by rw [zip_names _ _ ho]; exact hn) cols row other ls hl ho (fun _ h => h) hk h

theorem known_sub (cols : List Column) (names : List Bytes) (h : ∀ n ∈ names, n ∈ cols.map (·.name)) :
    Spec.known cols names = true := by
  unfold Spec.known
  rw [List.all_eq_true]
  intro n hn
  obtain ⟨c, hc, rfl⟩ := List.mem_map.1 (h n hn)
  rw [List.any_eq_true]
  exact ⟨c, hc, by simp⟩

theorem known_equationsOf (fl : FloatRead) (use : Column → Bool) (cols : List Column) (row : Row) (ls : List Lit)
    (h : List.Forall₂ (TakesFrom fl) ((cols.zip row).filter fun y => use y.1) ls) :
    Spec.known cols ((equationsOf ((cols.zip row).filter fun y => use y.1) ls).map (·.1)) = true := by
  refine known_sub cols _ ?_
  rw [equationsOf_names fl _ _ h]
  intro n hn
  obtain ⟨y, hy, rfl⟩ := List.mem_map.1 hn
  exact List.mem_map_of_mem (List.of_mem_zip (List.mem_filter.1 hy).1).1

theorem exec_insert (t : Target) (fl : FloatRead) (hn : (t.cols.map (·.name)).Nodup) (rows : List Row) (row : Row) (ls : List Lit)
    (hl : row.length = t.cols.length) (h : List.Forall₂ (TakesFrom fl) (t.cols.zip row) ls) :
    t.exec fl rows (.insert t.db t.tbl (t.cols.map (·.name)) ls) = some ((Change.insert row).apply rows) := by
  rw [Target.exec, if_pos ⟨rfl, rfl, known_sub _ _ fun _ h => h⟩]
  have e : (t.cols.map (·.name)).zip ls = equationsOf (t.cols.zip row) ls := by
    unfold equationsOf; rw [zip_names _ _ hl]
  rw [e, inserted_zip fl _ _ row hl (valueFor_own fl _ row ls hl hn h)]
  rfl

theorem exec_delete (t : Target) (fl : FloatRead) (hn : (t.cols.map (·.name)).Nodup) (rows : List Row) (row : Row) (ls : List Lit)
    (hl : row.length = t.cols.length) (hr : ∀ r ∈ rows, r.length = t.cols.length)
    (hk : (Change.delete row).Keyed t.cols rows)
    (h : List.Forall₂ (TakesFrom fl) ((t.cols.zip row).filter (·.1.key)) ls) :
    t.exec fl rows (.delete t.db t.tbl (equationsOf ((t.cols.zip row).filter (·.1.key)) ls))
      = some ((Change.delete row).apply rows) := by
  rw [Target.exec, if_pos ⟨rfl, rfl, known_equationsOf fl (·.key) t.cols row ls h⟩]
  congr 1
  refine List.filter_congr fun r hrm => ?_
  rw [satisfies_key fl t.cols hn row r ls hl (hr r hrm) hk.1 h]
  by_cases e : r = row
  · subst e; simp
  · have : ¬ Spec.keyOf t.cols r = Spec.keyOf t.cols row := fun e' => e (hk.2 r hrm e')
    simp [e, this]

theorem mapM_some {α β : Type} (f : α → Option β) (g : α → β) (l : List α) (h : ∀ a ∈ l, f a = some (g a)) :
    l.mapM f = some (l.map g) := by
  induction l with
  | nil => rfl
  | cons a l ih =>
    rw [List.mapM_cons, h a List.mem_cons_self, ih fun b hb => h b (List.mem_cons_of_mem _ hb)]
    rfl

theorem exec_update (t : Target) (fl : FloatRead) (hn : (t.cols.map (·.name)).Nodup) (rows : List Row) (row new : Row)
    (ls ms : List Lit)
    (hl : row.length = t.cols.length) (hl2 : new.length = t.cols.length) (hr : ∀ r ∈ rows, r.length = t.cols.length)
    (hk : (Change.update row new).Keyed t.cols rows)
    (h : List.Forall₂ (TakesFrom fl) ((t.cols.zip row).filter (·.1.key)) ls)
    (h2 : List.Forall₂ (TakesFrom fl) (t.cols.zip new) ms) :
    t.exec fl rows (.update t.db t.tbl (equationsOf (t.cols.zip new) ms)
        (equationsOf ((t.cols.zip row).filter (·.1.key)) ls))
      = some ((Change.update row new).apply rows) := by
  have hk2 := known_equationsOf fl (fun _ => true) t.cols new ms (by
    rw [List.filter_eq_self.2 (fun _ _ => rfl)]; exact h2)
  rw [List.filter_eq_self.2 (fun _ _ => rfl)] at hk2
  rw [Target.exec, if_pos ⟨rfl, rfl, known_equationsOf fl (·.key) t.cols row ls h, hk2⟩]
  refine mapM_some _ _ rows fun r hrm => ?_
  rw [satisfies_key fl t.cols hn row r ls hl (hr r hrm) hk.1 h]
  by_cases e : r = row
  · subst e
    simp only [decide_true, if_true]
    exact updated_zip fl _ _ new r hl2 hl (valueFor_own fl _ new ms hl2 hn h2)
  · have : ¬ Spec.keyOf t.cols r = Spec.keyOf t.cols row := fun e' => e (hk.2 r hrm e')
    simp [e, this]

end Mybin
