/-
C46: looking up a column of a row by index and by name.
-/
import Verif.Model.Client

namespace Mybin

theorem mapGet_cons (m : List (Bytes × Nat)) (k k' : Bytes) (v : Nat) :
    mapGet ((k', v) :: m) k = if k' = k then some v else mapGet m k := by
  unfold mapGet
  by_cases h : k' = k <;> simp [h]

/-- the maps after inserting definitions with indices from `n` on -/
theorem extractor_get (lc : Bytes → Bytes) (defs : List ColumnDefinition) (n : Nat) (e : ColumnExtractor)
    (key : ColumnDefinition → Bytes) (m : ColumnExtractor → List (Bytes × Nat))
    (hm : ∀ e idx d, m (ColumnExtractor.insert lc e idx d) = (key d, idx) :: m e) (k : Bytes) :
    (∀ i d, defs[i]? = some d → key d = k → (∀ j d', i < j → defs[j]? = some d' → key d' ≠ k) →
      mapGet (m ((defs.zipIdx n).foldl (fun e (d, idx) => e.insert lc idx d) e)) k = some (n + i)) ∧
    ((∀ d ∈ defs, key d ≠ k) →
      mapGet (m ((defs.zipIdx n).foldl (fun e (d, idx) => e.insert lc idx d) e)) k = mapGet (m e) k) := by
  induction defs generalizing n e with
  | nil => exact ⟨fun i d h => by simp at h, fun _ => rfl⟩
  | cons d0 defs ih =>
    obtain ⟨ih1, ih2⟩ := ih (n + 1) (e.insert lc n d0)
    simp only [List.zipIdx_cons, List.foldl_cons]
    constructor
    · intro i d hi hk hlast
      cases i with
      | zero =>
        simp only [List.getElem?_cons_zero, Option.some.injEq] at hi
        subst hi
        rw [ih2 (fun d' hd' => ?_), hm, mapGet_cons, if_pos hk]
        · rfl
        · obtain ⟨j, hj⟩ := List.getElem?_of_mem hd'
          exact hlast (j + 1) d' (by omega) (by simpa using hj)
      | succ i =>
        rw [ih1 i d (by simpa using hi) hk (fun j d' hj hd' => hlast (j + 1) d' (by omega) (by simpa using hd'))]
        congr 1
        omega
    · intro h
      rw [ih2 (fun d hd => h d (by simp [hd])), hm, mapGet_cons, if_neg (h d0 (by simp))]

/-- C46, by index: the value of that column; past the end an error. -/
theorem C46_by_index {γ : Type} (row : List γ) (idx : Nat) :
    (∀ v, row[idx]? = some v → ColumnExtractor.getCol row idx = .ok v) ∧
    (row.length ≤ idx → ColumnExtractor.getCol row idx = .error .columnIndex) := by
  unfold ColumnExtractor.getCol
  exact ⟨fun v h => by rw [h], fun h => by rw [List.getElem?_eq_none h]⟩

/-- C46, by name. Whatever lower-casing does, and for all definitions (repeated names too) and rows:
the value is that of the last column with exactly that name; if there is none, that of the last column whose
lower-cased name is the lower-cased name asked for; if there is none either, the lookup is an error. -/
theorem C46_by_name {γ : Type} (lc : Bytes → Bytes) (defs : List ColumnDefinition) (row : List γ) (name : Bytes) :
    (∀ i d, defs[i]? = some d → d.name = name →
      (∀ j d', i < j → defs[j]? = some d' → d'.name ≠ name) →
      (∀ v, row[i]? = some v → (ColumnExtractor.new lc defs).getNamedCol lc row name = .ok v) ∧
      (row.length ≤ i → (ColumnExtractor.new lc defs).getNamedCol lc row name = .error .columnIndex)) ∧
    ((∀ d ∈ defs, d.name ≠ name) → ∀ i d, defs[i]? = some d → lc d.name = lc name →
      (∀ j d', i < j → defs[j]? = some d' → lc d'.name ≠ lc name) →
      (∀ v, row[i]? = some v → (ColumnExtractor.new lc defs).getNamedCol lc row name = .ok v) ∧
      (row.length ≤ i → (ColumnExtractor.new lc defs).getNamedCol lc row name = .error .columnIndex)) ∧
    ((∀ d ∈ defs, lc d.name ≠ lc name) →
      (ColumnExtractor.new lc defs).getNamedCol lc row name = .error .columnName) := by
  obtain ⟨h1, h2⟩ := extractor_get lc defs 0 ⟨[], []⟩ (·.name) (·.byName) (fun _ _ _ => rfl) name
  obtain ⟨h3, h4⟩ := extractor_get lc defs 0 ⟨[], []⟩ (fun d => lc d.name) (·.byLcName) (fun _ _ _ => rfl) (lc name)
  unfold ColumnExtractor.getNamedCol ColumnExtractor.new
  refine ⟨fun i d hi hk hl => ?_, fun hno i d hi hk hl => ?_, fun hno => ?_⟩
  · rw [h1 i d hi hk hl, Nat.zero_add]
    exact C46_by_index row i
  · rw [h2 hno, h3 i d hi hk hl, Nat.zero_add]
    exact C46_by_index row i
  · rw [h2 (fun d hd e => hno d hd (by rw [e])), h4 hno]
    rfl

/-- the last index at which a property holds -/
theorem exists_last {α : Type} (p : α → Prop) (l : List α) (h : ∃ a ∈ l, p a) :
    ∃ (i : Nat) (a : α), l[i]? = some a ∧ p a ∧ ∀ j b, i < j → l[j]? = some b → ¬ p b := by
  induction l with
  | nil => obtain ⟨a, ha, -⟩ := h; simp at ha
  | cons x l ih =>
    by_cases hl : ∃ a ∈ l, p a
    · obtain ⟨i, a, h1, h2, h3⟩ := ih hl
      refine ⟨i + 1, a, by simpa using h1, h2, fun j b hj hb => ?_⟩
      cases j with
      | zero => omega
      | succ j => exact h3 j b (by omega) (by simpa using hb)
    · obtain ⟨a, ha, hp⟩ := h
      rcases List.mem_cons.1 ha with rfl | ha
      · refine ⟨0, a, rfl, hp, fun j b hj hb hpb => ?_⟩
        cases j with
        | zero => omega
        | succ j => exact hl ⟨b, List.mem_of_getElem? (by simpa using hb), hpb⟩
      · exact absurd ⟨a, ha, hp⟩ hl

/-- C46: a value that is found belongs to a column with that name, up to case if there is no exact match; it is never
another column's. -/
theorem C46_never_wrong {γ : Type} (lc : Bytes → Bytes) (defs : List ColumnDefinition) (row : List γ) (name : Bytes)
    (v : γ) (h : (ColumnExtractor.new lc defs).getNamedCol lc row name = .ok v) :
    ∃ (i : Nat) (d : ColumnDefinition), defs[i]? = some d ∧ row[i]? = some v ∧
      (d.name = name ∨ ((∀ d' ∈ defs, d'.name ≠ name) ∧ lc d.name = lc name)) := by
  obtain ⟨h1, h2, h3⟩ := C46_by_name lc defs row name
  have val : ∀ i, (∀ v, row[i]? = some v → (ColumnExtractor.new lc defs).getNamedCol lc row name = .ok v) ∧
      (row.length ≤ i → (ColumnExtractor.new lc defs).getNamedCol lc row name = .error .columnIndex) →
      row[i]? = some v := by
    rintro i ⟨a, b⟩
    cases hr : row[i]? with
    | none =>
      rw [b (List.getElem?_eq_none_iff.1 hr)] at h
      cases h
    | some w =>
      rw [a w hr] at h
      cases h
      rfl
  by_cases hex : ∃ d ∈ defs, d.name = name
  · obtain ⟨i, d, a1, a2, a3⟩ := exists_last (fun d : ColumnDefinition => d.name = name) defs hex
    exact ⟨i, d, a1, val i (h1 i d a1 a2 a3), .inl a2⟩
  · have hno : ∀ d ∈ defs, d.name ≠ name := fun d hd e => hex ⟨d, hd, e⟩
    by_cases hlc : ∃ d ∈ defs, lc d.name = lc name
    · obtain ⟨i, d, a1, a2, a3⟩ := exists_last (fun d : ColumnDefinition => lc d.name = lc name) defs hlc
      exact ⟨i, d, a1, val i (h2 hno i d a1 a2 a3), .inr ⟨hno, a2⟩⟩
    · rw [h3 (fun d hd e => hlc ⟨d, hd, e⟩)] at h
      cases h

/-- ASCII lower-casing, for the example -/
def asciiLower (s : Bytes) : Bytes := s.map fun b => if 65 ≤ b ∧ b ≤ 90 then b + 32 else b

/-- columns `A`, `a`, `B` -/
def exampleDefs : List ColumnDefinition :=
  [[65], [97], [66]].map fun n => ⟨[], [], [], [], n, [], 0, 0, .long, 0, 0, []⟩

example : (ColumnExtractor.new asciiLower exampleDefs).getNamedCol asciiLower [10, 20, 30] [65] = .ok 10 ∧
    (ColumnExtractor.new asciiLower exampleDefs).getNamedCol asciiLower [10, 20, 30] [97] = .ok 20 ∧
    (ColumnExtractor.new asciiLower exampleDefs).getNamedCol asciiLower [10, 20, 30] [98] = .ok 30 ∧
    (ColumnExtractor.new asciiLower exampleDefs).getNamedCol asciiLower [10, 20, 30] [99] = .error .columnName ∧
    (ColumnExtractor.new asciiLower exampleDefs).getNamedCol asciiLower [10, 20] [66] = .error .columnIndex := by
  refine ⟨rfl, rfl, rfl, rfl, rfl⟩

end Mybin
