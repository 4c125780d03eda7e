/-
C40: exactly when the DELETE and UPDATE statements are right for every row.
-/
import Verif.Props.C40_exact

namespace Mybin

open Spec (Covers Front logged)

/-- All columns before a logged key column are logged. -/
def KeysFront (present : List Bool) (defs : List ColumnDefinition) : Prop :=
  ∀ (i j : Nat) d, i < j → present[j]? = some true → defs[j]? = some d → IsKey d = true → present[i]? = some true

/-- the same for the columns picked by `use` -/
def UseFront (use : ColumnDefinition → Bool) (present : List Bool) (defs : List ColumnDefinition) : Prop :=
  ∀ (i j : Nat) d, i < j → present[j]? = some true → defs[j]? = some d → use d = true → present[i]? = some true

theorem useFront_all (present : List Bool) (defs : List ColumnDefinition) (hl : present.length = defs.length) :
    UseFront (fun _ => true) present defs ↔ Front present := by
  constructor
  · intro h i j hij hj
    obtain ⟨hj1, -⟩ := List.getElem?_eq_some_iff.1 hj
    exact h i j (defs[j]'(by omega)) hij hj (List.getElem?_eq_getElem (by omega)) rfl
  · intro h i j d hij hj _ _
    exact h i j hij hj

theorem fcols_append {α : Type} (p1 p2 : List Bool) (c1 c2 : List α) (h : p1.length = c1.length) :
    (((p1 ++ p2).zip (c1 ++ c2)).filter (·.1)).map (·.2)
      = ((p1.zip c1).filter (·.1)).map (·.2) ++ ((p2.zip c2).filter (·.1)).map (·.2) := by
  rw [List.zip_append h, List.filter_append, List.map_append]

theorem fcols_all {α : Type} (p : List Bool) (c : List α) (h : p.length = c.length) (hp : ∀ b ∈ p, b = true) :
    ((p.zip c).filter (·.1)).map (·.2) = c := by
  rw [List.filter_eq_self.2, List.map_snd_zip (by omega)]
  intro x hx
  exact hp _ (List.of_mem_zip hx).1

theorem logged_append {α β : Type} (p1 p2 : List Bool) (c1 c2 : List α) (r1 r2 : List β) (h : p1.length = c1.length)
    (h2 : r1.length = c1.length) : logged (p1 ++ p2) (c1 ++ c2) (r1 ++ r2) = logged p1 c1 r1 ++ logged p2 c2 r2 := by
  unfold logged
  rw [List.zip_append (by omega), List.zip_append (by rw [List.length_zip]; omega), List.filter_append, List.map_append]

theorem fcols_mem {α : Type} (p : List Bool) (c : List α) (d : α) (h : d ∈ ((p.zip c).filter (·.1)).map (·.2)) :
    ∃ j : Nat, p[j]? = some true ∧ c[j]? = some d := by
  obtain ⟨⟨b, d'⟩, h1, rfl⟩ := List.mem_map.1 h
  rw [List.mem_filter] at h1
  obtain ⟨h1, h2⟩ := h1
  obtain ⟨j, hj⟩ := List.getElem?_of_mem h1
  rw [List.getElem?_zip_eq_some] at hj
  refine ⟨j, ?_, hj.2⟩
  dsimp only at h2
  rw [hj.1, h2]

theorem logged_col_at {α β : Type} (p : List Bool) (c : List α) (r : List β) (x : α × β) (h : x ∈ logged p c r) :
    ∃ j : Nat, p[j]? = some true ∧ c[j]? = some x.1 := by
  unfold logged at h
  obtain ⟨⟨b, d'⟩, h1, rfl⟩ := List.mem_map.1 h
  rw [List.mem_filter] at h1
  obtain ⟨h1, h2⟩ := h1
  obtain ⟨j, hj⟩ := List.getElem?_of_mem h1
  rw [List.getElem?_zip_eq_some] at hj
  dsimp only at h2
  refine ⟨j, by rw [hj.1, h2], ?_⟩
  have h3 := hj.2
  rw [show d' = (d'.1, d'.2) from rfl, List.getElem?_zip_eq_some] at h3
  exact h3.1

/-- when all columns before a picked one are logged, the picked columns get their own values -/
theorem shifted_use (use : ColumnDefinition → Bool) (present : List Bool) (defs : List ColumnDefinition)
    (row : List BinlogColumnValue) (hl : present.length = defs.length) (hr : row.length = defs.length)
    (h : UseFront use present defs) :
    (shifted present defs row).filter (fun x => use x.1) = (logged present defs row).filter (fun x => use x.1) := by
  by_cases hf : Front present
  · rw [shifted_front present defs row hf hl hr]
  · obtain ⟨pre, post, rfl, h1, h2⟩ := not_front present hf
    have hd : defs = defs.take pre.length ++ defs.drop pre.length := (List.take_append_drop ..).symm
    have hw : row = row.take pre.length ++ row.drop pre.length := (List.take_append_drop ..).symm
    simp only [List.length_append, List.length_cons] at hl
    have l1 : (defs.take pre.length).length = pre.length := by rw [List.length_take]; omega
    have l2 : (row.take pre.length).length = pre.length := by rw [List.length_take]; omega
    have no : ∀ (j : Nat) d, (false :: post)[j]? = some true → (defs.drop pre.length)[j]? = some d → use d = false := by
      intro j d hj hd
      by_contra hu
      have hlt : 0 < j := by
        rcases Nat.eq_zero_or_pos j with rfl | h
        · simp at hj
        · exact h
      have := h pre.length (pre.length + j) d (by omega) (by
        rw [List.getElem?_append_right (by omega)]
        simpa using hj) (by rw [← List.getElem?_drop]; exact hd) (by simpa using hu)
      rw [List.getElem?_append_right (by omega)] at this
      simp at this
    have e1 : (shifted (pre ++ false :: post) defs row).filter (fun x => use x.1)
        = ((defs.take pre.length).zip (row.take pre.length)).filter (fun x => use x.1) := by
      unfold shifted
      conv_lhs => rw [hd, hw]
      rw [fcols_append _ _ _ _ l1.symm, fcols_all _ _ l1.symm h1, List.zip_append (by omega), List.filter_append]
      rw [show List.filter (fun x : ColumnDefinition × BinlogColumnValue => use x.1) (List.zip
          ((((false :: post).zip (defs.drop pre.length)).filter (·.1)).map (·.2)) (row.drop pre.length)) = [] from ?_,
        List.append_nil]
      rw [List.filter_eq_nil_iff]
      rintro ⟨d, v⟩ hx
      obtain ⟨j, j1, j2⟩ := fcols_mem _ _ d (List.of_mem_zip hx).1
      simp [no j d j1 j2]
    have e2 : (logged (pre ++ false :: post) defs row).filter (fun x => use x.1)
        = ((defs.take pre.length).zip (row.take pre.length)).filter (fun x => use x.1) := by
      conv_lhs => rw [hd, hw]
      rw [logged_append _ _ _ _ _ _ l1.symm (by omega), List.filter_append]
      rw [show List.filter (fun x : ColumnDefinition × BinlogColumnValue => use x.1) (logged (false :: post)
          (defs.drop pre.length) (row.drop pre.length)) = [] from ?_, List.append_nil]
      · congr 1
        unfold logged
        exact fcols_all _ _ (by rw [List.length_zip]; omega) h1
      · rw [List.filter_eq_nil_iff]
        intro x hx
        obtain ⟨j, j1, j2⟩ := logged_col_at _ _ _ x hx
        simp [no j x.1 j1 j2]
    rw [e1, e2]

/-- a picked column with one that is not logged before it -/
theorem not_useFront (use : ColumnDefinition → Bool) (present : List Bool) (defs : List ColumnDefinition)
    (hl : present.length = defs.length) (h : ¬ UseFront use present defs) :
    ∃ pa pb da d db, present = pa ++ true :: pb ∧ defs = da ++ d :: db ∧ pa.length = da.length ∧ pb.length = db.length ∧
      use d = true ∧ false ∈ pa := by
  unfold UseFront at h
  push Not at h
  obtain ⟨i, j, d, hij, hj, hd, hu, hi⟩ := h
  obtain ⟨hj1, hj2⟩ := List.getElem?_eq_some_iff.1 hj
  obtain ⟨hd1, hd2⟩ := List.getElem?_eq_some_iff.1 hd
  refine ⟨present.take j, present.drop (j + 1), defs.take j, d, defs.drop (j + 1), ?_, ?_, ?_, ?_, hu, ?_⟩
  · rw [← hj2, List.getElem_cons_drop, List.take_append_drop]
  · rw [← hd2, List.getElem_cons_drop, List.take_append_drop]
  · rw [List.length_take, List.length_take, hl]
  · rw [List.length_drop, List.length_drop, hl]
  · have : present[i]? = some false := by
      rw [List.getElem?_eq_getElem (by omega)] at hi ⊢
      cases hb : present[i]'(by omega)
      · rfl
      · exact absurd (by rw [hb]) hi
    refine List.mem_of_getElem? (i := i) ?_
    rw [List.getElem?_take_of_lt hij, this]

/-- the row with one in every logged column -/
def oneRow (present : List Bool) : List BinlogColumnValue := present.map fun b => if b then .tiny 1 else .null

theorem oneRow_mem {present : List Bool} {v : BinlogColumnValue} (h : v ∈ oneRow present) : v = .tiny 1 ∨ v = .null := by
  simp only [oneRow, List.mem_map] at h
  obtain ⟨b, _, rfl⟩ := h
  cases b <;> simp

/-- the row with zero in one column and one in the others -/
def markRow (pa pb : List Bool) : List BinlogColumnValue := oneRow pa ++ .tiny 0 :: oneRow pb

theorem markRow_ok (pa pb : List Bool) : RowOf (pa ++ true :: pb) (markRow pa pb) := by
  refine ⟨by simp [markRow, oneRow], fun i h => ?_⟩
  rw [markRow]
  have : (oneRow pa ++ .tiny 0 :: oneRow pb)[i]? = ((pa.map fun b => if b then BinlogColumnValue.tiny 1 else .null) ++
    .tiny 0 :: (pb.map fun b => if b then BinlogColumnValue.tiny 1 else .null))[i]? := rfl
  rw [this]
  rcases Nat.lt_trichotomy i pa.length with hi | hi | hi
  · rw [List.getElem?_append_left (by simpa using hi)] at h ⊢
    rw [List.getElem?_map, h]
    rfl
  · subst hi
    simp at h
  · rw [List.getElem?_append_right (by omega)] at h
    rw [List.getElem?_append_right (by simp; omega)]
    rw [List.length_map]
    obtain ⟨k, hk⟩ : ∃ k, i - pa.length = k + 1 := ⟨i - pa.length - 1, by omega⟩
    rw [hk] at h ⊢
    simp only [List.getElem?_cons_succ] at h ⊢
    rw [List.getElem?_map, h]
    rfl

theorem markRow_small {pa pb : List Bool} {v : BinlogColumnValue} (h : v ∈ markRow pa pb) :
    v = .tiny 0 ∨ v = .tiny 1 ∨ v = .null := by
  simp only [markRow, List.mem_append, List.mem_cons] at h
  rcases h with h | h | h
  · exact .inr (oneRow_mem h)
  · exact .inl h
  · exact .inr (oneRow_mem h)

/-- at the same place of the two lists, the picked column has its own value, and another one -/
theorem marked_differ (use : ColumnDefinition → Bool) (pa pb : List Bool) (da db : List ColumnDefinition) (d : ColumnDefinition)
    (ha : pa.length = da.length) (hb : pb.length = db.length) (hu : use d = true) (hf : false ∈ pa) :
    ∃ (A B C D : List (ColumnDefinition × BinlogColumnValue)) (v : BinlogColumnValue),
      (logged (pa ++ true :: pb) (da ++ d :: db) (markRow pa pb)).filter (fun x => use x.1) = A ++ (d, .tiny 0) :: B ∧
      (shifted (pa ++ true :: pb) (da ++ d :: db) (markRow pa pb)).filter (fun x => use x.1) = C ++ (d, v) :: D ∧
      A.length = C.length ∧ (v = .tiny 1 ∨ v = .null) := by
  have l1 : (oneRow pa).length = pa.length := by simp [oneRow]
  -- the number of columns logged before
  set cs := ((pa.zip da).filter (·.1)).map (·.2) with hcs
  have hlt : cs.length < pa.length := by
    have : cs.length = pa.count true := by
      have hcount : ∀ (l : List Bool) (ds : List ColumnDefinition), l.length = ds.length →
          (((l.zip ds).filter (·.1)).map (·.2)).length = l.count true := by
        intro l
        induction l with
        | nil => intro ds _; rfl
        | cons b l ih =>
          intro ds hh
          cases ds with
          | nil => simp at hh
          | cons d ds =>
            have := ih ds (by simpa using hh)
            rw [List.length_map] at this
            cases b <;> simp [this]
      exact hcount pa da ha
    rw [this]
    rcases Nat.lt_or_ge (pa.count true) pa.length with h | h
    · exact h
    · have := List.count_eq_length.1 (Nat.le_antisymm List.count_le_length h)
      exact absurd (this false hf) (by simp)
  set row := markRow pa pb with hrow
  have hrl : row.length = pa.length + (pb.length + 1) := by simp [hrow, markRow, oneRow]
  have hsplit : row = row.take cs.length ++ (row[cs.length]'(by omega)) :: row.drop (cs.length + 1) := by
    rw [List.getElem_cons_drop, List.take_append_drop]
  have hv : row[cs.length]'(by omega) ∈ oneRow pa := by
    have : row[cs.length]'(by omega) = (oneRow pa)[cs.length]'(by omega) := by
      simp only [hrow, markRow]
      rw [List.getElem_append_left]
    rw [this]
    exact List.getElem_mem _
  refine ⟨(logged pa da (oneRow pa)).filter (fun x => use x.1), (logged pb db (oneRow pb)).filter (fun x => use x.1),
    (cs.zip (row.take cs.length)).filter (fun x => use x.1),
    (List.zip (((pb.zip db).filter (·.1)).map (·.2)) (row.drop (cs.length + 1))).filter (fun x => use x.1),
    row[cs.length]'(by omega), ?_, ?_, ?_, oneRow_mem hv⟩
  · rw [hrow, markRow, logged_append _ _ _ _ _ _ ha (by omega), List.filter_append]
    congr 1
    show List.filter _ ((d, BinlogColumnValue.tiny 0) :: logged pb db (oneRow pb)) = _
    rw [List.filter_cons_of_pos (by simpa using hu)]
  · unfold shifted
    rw [fcols_append _ _ _ _ ha, ← hcs]
    conv_lhs => rw [hsplit]
    rw [List.zip_append (by rw [List.length_take]; omega), List.filter_append]
    congr 1
    show List.filter _ ((d, _) :: List.zip (((pb.zip db).filter (·.1)).map (·.2)) _) = _
    rw [List.filter_cons_of_pos (by simpa using hu)]
  · have h1 : (logged pa da (oneRow pa)).map (·.1) = cs := logged_map_fst pa da (oneRow pa) ha (by omega)
    have h2 : (cs.zip (row.take cs.length)).map (·.1) = cs := List.map_fst_zip (by rw [List.length_take]; omega)
    have : ∀ l : List (ColumnDefinition × BinlogColumnValue),
        (l.filter (fun x => use x.1)).length = ((l.map (·.1)).filter use).length := by
      intro l
      rw [List.filter_map, List.length_map]
      rfl
    rw [this, this, h1, h2]

theorem one_literal (ft : FloatText) (u : Bool) :
    ∃ p, StmtColumnValue.ofBinlog (.tiny 1) u = some p ∧ p.toSqlLiteral ft = some (Spec.ascii "1", false) := by
  cases u
  · exact ⟨_, rfl, by rfl⟩
  · exact ⟨_, rfl, by rfl⟩

theorem textOf_one (ft : FloatText) (d : ColumnDefinition) (l : Bytes) (h : TextOf ft (d, .tiny 1) l) :
    l = Spec.ascii "1" := by
  obtain ⟨p, t, q, h1, h2, rfl⟩ := h
  obtain ⟨p', h3, h4⟩ := one_literal ft (d.flags.testBit 5)
  rw [h3] at h1
  injection h1 with h1
  subst h1
  rw [h4] at h2
  injection h2 with h2
  injection h2 with h5 h6
  subst h5 h6
  rfl

/-- the texts of zeros, ones and NULLs -/
def SmallText (l : Bytes) : Prop := l = Spec.ascii "0" ∨ l = Spec.ascii "1" ∨ l = Spec.ascii "null"

theorem smallTexts (ft : FloatText) {xs : List (ColumnDefinition × BinlogColumnValue)} {ls : List Bytes}
    (h : List.Forall₂ (TextOf ft) xs ls) (hx : ∀ x ∈ xs, x.2 = .tiny 0 ∨ x.2 = .tiny 1 ∨ x.2 = .null) :
    ∀ l ∈ ls, SmallText l := by
  induction h with
  | nil => simp
  | @cons x l xs ls h1 h2 ih =>
    intro k hk
    rcases List.mem_cons.1 hk with rfl | hk
    · obtain ⟨d, v⟩ := x
      rcases hx (d, v) List.mem_cons_self with e | e | e <;> dsimp only at e <;> subst e
      · exact .inl (textOf_zero ft d _ h1)
      · exact .inr (.inl (textOf_one ft d _ h1))
      · exact .inr (.inr (textOf_null ft d _ h1))
    · exact ih (fun x hx' => hx x (List.mem_cons_of_mem _ hx')) k hk

theorem small_cancel {a b s t : Bytes} (ha : SmallText a) (hb : SmallText b) (h : a ++ s = b ++ t) : a = b ∧ s = t := by
  have : a = b := by
    rcases ha with rfl | rfl | rfl <;> rcases hb with rfl | rfl | rfl <;> first
      | rfl
      | (have := congrArg List.head? h; revert this; simp [Spec.ascii])
  subst this
  exact ⟨rfl, List.append_cancel_left h⟩

/-- equations with the same names and such texts are the same only when the texts are -/
theorem equations_cancel (sep : String) (names : List Bytes) : ∀ (as bs : List Bytes) (s t : Bytes),
    as.length = names.length → bs.length = names.length → (∀ a ∈ as, SmallText a) → (∀ b ∈ bs, SmallText b) →
    Spec.joined sep ((names.zip as).map Spec.equation) ++ s = Spec.joined sep ((names.zip bs).map Spec.equation) ++ t →
    as = bs ∧ s = t := by
  induction names with
  | nil =>
    intro as bs s t h1 h2 _ _ h
    rw [List.length_nil, List.length_eq_zero_iff] at h1 h2
    subst h1 h2
    exact ⟨rfl, by simpa [Spec.joined] using h⟩
  | cons n names ih =>
    intro as bs s t h1 h2 ha hb h
    cases as with
    | nil => simp at h1
    | cons a as =>
      cases bs with
      | nil => simp at h2
      | cons b bs =>
        simp only [List.length_cons, Nat.add_right_cancel_iff] at h1 h2
        cases names with
        | nil =>
          rw [List.length_nil, List.length_eq_zero_iff] at h1 h2
          subst h1 h2
          have h : (Spec.tick n ++ Spec.ascii " = " ++ a) ++ s = (Spec.tick n ++ Spec.ascii " = " ++ b) ++ t := h
          rw [List.append_assoc _ a, List.append_assoc _ b] at h
          obtain ⟨rfl, rfl⟩ := small_cancel (ha _ List.mem_cons_self) (hb _ List.mem_cons_self) (List.append_cancel_left h)
          exact ⟨rfl, rfl⟩
        | cons m names =>
          cases as with
          | nil => simp at h1
          | cons a2 as =>
            cases bs with
            | nil => simp at h2
            | cons b2 bs =>
              have h : (Spec.tick n ++ Spec.ascii " = " ++ a) ++ Spec.ascii sep ++
                  Spec.joined sep (((m :: names).zip (a2 :: as)).map Spec.equation) ++ s
                  = (Spec.tick n ++ Spec.ascii " = " ++ b) ++ Spec.ascii sep ++
                  Spec.joined sep (((m :: names).zip (b2 :: bs)).map Spec.equation) ++ t := h
              simp only [List.append_assoc] at h
              have h5 := List.append_cancel_left (List.append_cancel_left h)
              obtain ⟨rfl, h6⟩ := small_cancel (ha _ List.mem_cons_self) (hb _ List.mem_cons_self) h5
              have h7 := List.append_cancel_left h6
              obtain ⟨e, rfl⟩ := ih (a2 :: as) (b2 :: bs) s t h1 h2 (fun x hx => ha x (List.mem_cons_of_mem _ hx))
                (fun x hx => hb x (List.mem_cons_of_mem _ hx)) h7
              exact ⟨by rw [e], rfl⟩

/-- two lists of texts, one of zero and the other of something else at one place, differ -/
theorem texts_differ (ft : FloatText) {A B C D : List (ColumnDefinition × BinlogColumnValue)} {d : ColumnDefinition}
    {v : BinlogColumnValue} {ls ks : List Bytes} (h1 : List.Forall₂ (TextOf ft) (A ++ (d, .tiny 0) :: B) ls)
    (h2 : List.Forall₂ (TextOf ft) (C ++ (d, v) :: D) ks) (hl : A.length = C.length) (hv : v = .tiny 1 ∨ v = .null) :
    ls ≠ ks := by
  rintro rfl
  have n1 : A.length < (A ++ (d, BinlogColumnValue.tiny 0) :: B).length := by simp
  have n2 : A.length < ls.length := by rw [← h1.length_eq]; exact n1
  have n3 : A.length < (C ++ (d, v) :: D).length := by simp [hl]
  have g1 := h1.get n1 n2
  have g2 := h2.get n3 n2
  have e1 : (A ++ (d, BinlogColumnValue.tiny 0) :: B)[A.length] = (d, .tiny 0) := by simp
  have e2 : (C ++ (d, v) :: D)[A.length] = (d, v) := by simp [hl]
  rw [List.get_eq_getElem, List.get_eq_getElem] at g1 g2
  rw [e1] at g1
  rw [e2] at g2
  have t1 := textOf_zero ft d _ g1
  rcases hv with rfl | rfl
  · have t2 := textOf_one ft d _ g2
    rw [t1] at t2
    exact absurd t2 (by decide)
  · have t2 := textOf_null ft d _ g2
    rw [t1] at t2
    exact absurd t2 (by decide)

/-- every value of a row that holds zeros, ones and NULLs has a literal -/
theorem small_convert (ft : FloatText) (use : ColDef → Bool) (cs : List ColDef) (row : List BinlogColumnValue)
    (hrow : ∀ v ∈ row, v = .tiny 0 ∨ v = .tiny 1 ∨ v = .null) :
    ∃ ps, rowParams use cs row = some ps ∧ ∀ p ∈ ps, ∃ l, quotedLiteral ft p = some l := by
  unfold rowParams
  induction cs generalizing row with
  | nil => exact ⟨[], rfl, by simp⟩
  | cons c cs ih =>
    cases row with
    | nil => exact ⟨[], rfl, by simp⟩
    | cons v row =>
      obtain ⟨ps, h1, h2⟩ := ih row (fun v hv => hrow v (List.mem_cons_of_mem _ hv))
      have : ∃ p l, StmtColumnValue.ofBinlog v c.unsigned = some p ∧ quotedLiteral ft p = some l := by
        rcases hrow v List.mem_cons_self with rfl | rfl | rfl
        · obtain ⟨p, h3, h4⟩ := zero_literal ft c.unsigned
          exact ⟨p, _, h3, by rw [quotedLiteral, h4]; rfl⟩
        · obtain ⟨p, h3, h4⟩ := one_literal ft c.unsigned
          exact ⟨p, _, h3, by rw [quotedLiteral, h4]; rfl⟩
        · exact ⟨.newNull, _, rfl, by rfl⟩
      obtain ⟨p, l, h3, h4⟩ := this
      rw [List.zip_cons_cons]
      by_cases hu : use c = true
      · refine ⟨p :: ps, ?_, ?_⟩
        · rw [List.filter_cons_of_pos (by exact hu), List.map_cons, h3, allSome, h1]; rfl
        · intro q hq
          rcases List.mem_cons.1 hq with rfl | hq
          · exact ⟨l, h4⟩
          · exact h2 q hq
      · refine ⟨ps, ?_, h2⟩
        rw [List.filter_cons_of_neg (by exact hu)]
        exact h1

theorem shifted_snd {α β : Type} (present : List Bool) (cols : List α) (row : List β) (x : α × β)
    (h : x ∈ shifted present cols row) : x.2 ∈ row := by
  obtain ⟨a, b⟩ := x
  exact (List.of_mem_zip h).2

theorem logged_snd {α β : Type} (present : List Bool) (cols : List α) (row : List β) (x : α × β)
    (h : x ∈ logged present cols row) : x.2 ∈ row := by
  unfold logged at h
  obtain ⟨⟨b, y⟩, h1, rfl⟩ := List.mem_map.1 h
  have := (List.of_mem_zip (List.mem_filter.1 h1).1).2
  obtain ⟨a, b⟩ := y
  exact (List.of_mem_zip this).2

/-- the picked columns have the same names on both sides -/
theorem filter_names (use : ColumnDefinition → Bool) (present : List Bool) (defs : List ColumnDefinition)
    (row : List BinlogColumnValue) (hl : present.length = defs.length) (hr : row.length = defs.length) :
    ((shifted present defs row).filter (fun x => use x.1)).map (·.1.name)
      = ((logged present defs row).filter (fun x => use x.1)).map (·.1.name) := by
  have : ∀ l : List (ColumnDefinition × BinlogColumnValue),
      (l.filter (fun x => use x.1)).map (·.1.name) = ((l.map (·.1)).filter use).map (·.name) := by
    intro l
    rw [List.filter_map, List.map_map]
    rfl
  rw [this, this, shifted_fst present defs row hl hr]

/-- C40, exactly when: with these columns logged, the DELETE statements name every row an event can have by the values of
its own key columns, if and only if all columns before a logged key column are logged. -/
theorem C40_delete_iff (ft : FloatText) (db tbl extra bm : Bytes) (n : Nat) (present : List Bool)
    (defs : List ColumnDefinition) (hc : Covers bm present) (hl : present.length = defs.length) :
    (∀ rows p stmts, (∀ row ∈ rows, RowOf present row) →
      PreparedSql.fromDelete db tbl ⟨extra, n, bm, rows⟩ defs = some p → p.sqlList ft = some stmts →
      DeletesByOwnKey ft db tbl defs present rows stmts) ↔ KeysFront present defs := by
  constructor
  · intro h
    by_contra hf
    obtain ⟨pa, pb, da, d, dd, rfl, rfl, l1, l2, hu, hfa⟩ := not_useFront IsKey present defs hl hf
    obtain ⟨A, B, C, D, v, e1, e2, e3, hv⟩ := marked_differ IsKey pa pb da dd d l1 l2 hu hfa
    have hok := markRow_ok pa pb
    have hlen : (markRow pa pb).length = (da ++ d :: dd).length := by rw [hok.1, hl]
    obtain ⟨ps, h1, h2⟩ := small_convert ft (·.key) (filterColDefs bm (da ++ d :: dd)) (markRow pa pb) (fun v => markRow_small)
    obtain ⟨frags, hp⟩ : ∃ frags, PreparedSql.fromDelete db tbl ⟨extra, n, bm, [markRow pa pb]⟩ (da ++ d :: dd)
        = some ⟨db, frags, [ps]⟩ := by
      simp [PreparedSql.fromDelete, deleteFragments_eq, h1, allSome]
    obtain ⟨s, h3⟩ := fill_some ft frags ps h2
    have hs : (PreparedSql.mk db frags [ps]).sqlList ft = some [s] := by
      simp [PreparedSql.sqlList, h3, allSome]
    have hone : ∀ row ∈ [markRow pa pb], row = markRow pa pb := by simp
    have own := h [markRow pa pb] _ [s] (fun row hr => by rw [hone row hr]; exact hok) hp hs
    have act := C40_delete_exact ft db tbl extra bm n _ _ _ _ _ hc hl (fun row hr => by rw [hone row hr]; exact hlen) hp hs
    cases own with
    | cons own _ =>
      cases act with
      | cons act _ =>
        obtain ⟨ls, a1, a2⟩ := own
        obtain ⟨ks, b1, b2⟩ := act
        rw [a2] at b2
        unfold Spec.deleteText at b2
        have b3 := List.append_cancel_left b2
        have hn := filter_names IsKey _ _ (markRow pa pb) hl hlen
        unfold named at b3
        rw [hn] at b3
        have := equations_cancel " AND " (((logged (pa ++ true :: pb) (da ++ d :: dd) (markRow pa pb)).filter
          (fun x => IsKey x.1)).map (·.1.name)) ls ks [] [] (by rw [List.length_map]; exact a1.length_eq.symm)
          (by rw [← hn, List.length_map]; exact b1.length_eq.symm)
          (smallTexts ft a1 fun x hx => markRow_small (logged_snd _ _ _ x (List.mem_filter.1 hx).1))
          (smallTexts ft b1 fun x hx => markRow_small (shifted_snd _ _ _ x (List.mem_filter.1 hx).1))
          (by rw [List.append_nil, List.append_nil]; exact b3)
        rw [e1] at a1
        rw [e2] at b1
        exact texts_differ ft a1 b1 e3 hv this.1
  · intro hf rows p stmts hr hp hs
    have hlen : ∀ row ∈ rows, row.length = defs.length := fun row h => by rw [(hr row h).1, hl]
    have act := C40_delete_exact ft db tbl extra bm n present defs rows p stmts hc hl hlen hp hs
    unfold DeletesByOwnKey
    have : ∀ (rows' : List (List BinlogColumnValue)) (stmts' : List Bytes), (∀ row ∈ rows', row.length = defs.length) →
        List.Forall₂ (fun row stmt =>
          let keys := (shifted present defs row).filter fun x => IsKey x.1
          ∃ ls, List.Forall₂ (TextOf ft) keys ls ∧ stmt = Spec.deleteText db tbl (named keys ls)) rows' stmts' →
        List.Forall₂ (fun row stmt =>
          let keys := (logged present defs row).filter fun x => IsKey x.1
          ∃ ls, List.Forall₂ (TextOf ft) keys ls ∧ stmt = Spec.deleteText db tbl (named keys ls)) rows' stmts' := by
      intro rows' stmts' hl' h'
      induction h' with
      | nil => exact .nil
      | @cons row stmt rs ss h1 _ ih =>
        refine .cons ?_ (ih fun r hm => hl' r (List.mem_cons_of_mem _ hm))
        have e := shifted_use IsKey present defs row hl (hl' row List.mem_cons_self) hf
        dsimp only at h1 ⊢
        rw [e] at h1
        exact h1
    exact this rows stmts hlen act

theorem zeroRow_small {present : List Bool} {v : BinlogColumnValue} (h : v ∈ zeroRow present) :
    v = .tiny 0 ∨ v = .tiny 1 ∨ v = .null := by
  simp only [zeroRow, List.mem_map] at h
  obtain ⟨b, _, rfl⟩ := h
  cases b <;> simp

/-- an UPDATE that is right for a row of zeros, ones and NULLs has the texts of the columns' own values -/
theorem update_right (ft : FloatText) (db tbl extra bb ab : Bytes) (n : Nat) (before after : List Bool)
    (defs : List ColumnDefinition) (hb : Covers bb before) (hbl : before.length = defs.length)
    (ha : Covers ab after) (hal : after.length = defs.length) (r1 r2 : List BinlogColumnValue)
    (h1 : RowOf before r1) (h2 : RowOf after r2) (s1 : ∀ v ∈ r1, v = .tiny 0 ∨ v = .tiny 1 ∨ v = .null)
    (s2 : ∀ v ∈ r2, v = .tiny 0 ∨ v = .tiny 1 ∨ v = .null)
    (h : ∀ rows p stmts, (∀ row ∈ rows, RowOf before row.1 ∧ RowOf after row.2) →
      PreparedSql.fromUpdate db tbl ⟨extra, n, bb, ab, rows⟩ defs = some p → p.sqlList ft = some stmts →
      UpdatesOwnValues ft db tbl defs before after rows stmts) :
    (∃ ls, List.Forall₂ (TextOf ft) ((logged after defs r2).filter fun _ => true) ls ∧
      List.Forall₂ (TextOf ft) ((shifted after defs r2).filter fun _ => true) ls) ∧
    ∃ ks, List.Forall₂ (TextOf ft) ((logged before defs r1).filter fun x => IsKey x.1) ks ∧
      List.Forall₂ (TextOf ft) ((shifted before defs r1).filter fun x => IsKey x.1) ks := by
  have hl1 : r1.length = defs.length := by rw [h1.1, hbl]
  have hl2 : r2.length = defs.length := by rw [h2.1, hal]
  obtain ⟨ps, p1, p2⟩ := small_convert ft (fun _ => true) (filterColDefs ab defs) r2 s2
  obtain ⟨qs, q1, q2⟩ := small_convert ft (·.key) (filterColDefs bb defs) r1 s1
  obtain ⟨frags, hp⟩ : ∃ frags, PreparedSql.fromUpdate db tbl ⟨extra, n, bb, ab, [(r1, r2)]⟩ defs
      = some ⟨db, frags, [ps ++ qs]⟩ := by
    simp [PreparedSql.fromUpdate, updateFragments_eq, updateParams, p1, q1, allSome]
  obtain ⟨s, h3⟩ := fill_some ft frags (ps ++ qs) (by
    intro p hp
    rcases List.mem_append.1 hp with hp | hp
    · exact p2 p hp
    · exact q2 p hp)
  have hs : (PreparedSql.mk db frags [ps ++ qs]).sqlList ft = some [s] := by
    simp [PreparedSql.sqlList, h3, allSome]
  have hone : ∀ row ∈ [(r1, r2)], row = (r1, r2) := by simp
  have own := h [(r1, r2)] _ [s] (fun row hr => by rw [hone row hr]; exact ⟨h1, h2⟩) hp hs
  have act := C40_update_exact ft db tbl extra bb ab n before after defs _ _ _ hb hbl ha hal
    (fun row hr => by rw [hone row hr]; exact ⟨hl1, hl2⟩) hp hs
  cases own with
  | cons own _ =>
    cases act with
    | cons act _ =>
      obtain ⟨ls, ks, a1, a2, a3⟩ := own
      obtain ⟨ls', ks', b1, b2, b3⟩ := act
      dsimp only at a1 a2 a3 b1 b2 b3
      rw [a3] at b3
      unfold Spec.updateText named at b3
      simp only [List.append_assoc] at b3
      replace b3 := List.append_cancel_left (List.append_cancel_left (List.append_cancel_left (List.append_cancel_left
        (List.append_cancel_left b3))))
      have hn1 := filter_names (fun _ => true) after defs r2 hal hl2
      rw [List.filter_eq_self.2 (fun _ _ => rfl), List.filter_eq_self.2 (fun _ _ => rfl)] at hn1
      have hn2 := filter_names IsKey before defs r1 hbl hl1
      rw [hn1, hn2] at b3
      obtain ⟨e1, b4⟩ := equations_cancel ", " ((logged after defs r2).map (·.1.name)) ls ls' _ _
        (by rw [List.length_map]; exact a1.length_eq.symm) (by rw [← hn1, List.length_map]; exact b1.length_eq.symm)
        (smallTexts ft a1 fun x hx => s2 _ (logged_snd _ _ _ x hx)) (smallTexts ft b1 fun x hx => s2 _ (shifted_snd _ _ _ x hx)) b3
      replace b4 := List.append_cancel_left b4
      obtain ⟨e2, -⟩ := equations_cancel " AND " (((logged before defs r1).filter fun x => IsKey x.1).map (·.1.name)) ks ks' [] []
        (by rw [List.length_map]; exact a2.length_eq.symm) (by rw [← hn2, List.length_map]; exact b2.length_eq.symm)
        (smallTexts ft a2 fun x hx => s1 _ (logged_snd _ _ _ x (List.mem_filter.1 hx).1))
        (smallTexts ft b2 fun x hx => s1 _ (shifted_snd _ _ _ x (List.mem_filter.1 hx).1))
        (by rw [List.append_nil, List.append_nil]; exact b4)
      subst e1 e2
      rw [List.filter_eq_self.2 (fun _ _ => rfl), List.filter_eq_self.2 (fun _ _ => rfl)]
      exact ⟨⟨ls, a1, b1⟩, ks, a2, b2⟩

/-- C40, exactly when: with these columns logged before and after the change, the UPDATE statements set every column to
its own value and name the row by the values of its own key columns, for every row an event can have, if and only if the
columns logged after the change come first, and all columns before a key column logged before the change are logged. -/
theorem C40_update_iff (ft : FloatText) (db tbl extra bb ab : Bytes) (n : Nat) (before after : List Bool)
    (defs : List ColumnDefinition) (hb : Covers bb before) (hbl : before.length = defs.length)
    (ha : Covers ab after) (hal : after.length = defs.length) :
    (∀ rows p stmts, (∀ row ∈ rows, RowOf before row.1 ∧ RowOf after row.2) →
      PreparedSql.fromUpdate db tbl ⟨extra, n, bb, ab, rows⟩ defs = some p → p.sqlList ft = some stmts →
      UpdatesOwnValues ft db tbl defs before after rows stmts) ↔ Front after ∧ KeysFront before defs := by
  constructor
  · intro h
    constructor
    · rw [← useFront_all after defs hal]
      by_contra hf
      obtain ⟨pa, pb, da, d, dd, rfl, rfl, l1, l2, hu, hfa⟩ := not_useFront (fun _ => true) after defs hal hf
      obtain ⟨A, B, C, D, v, e1, e2, e3, hv⟩ := marked_differ (fun _ => true) pa pb da dd d l1 l2 hu hfa
      obtain ⟨⟨ls, g1, g2⟩, -⟩ := update_right ft db tbl extra bb ab n before _ _ hb hbl ha hal (zeroRow before) (markRow pa pb)
        (zeroRow_ok before) (markRow_ok pa pb) (fun _ => zeroRow_small) (fun _ => markRow_small) h
      rw [e1] at g1
      rw [e2] at g2
      exact texts_differ ft g1 g2 e3 hv rfl
    · by_contra hf
      obtain ⟨pa, pb, da, d, dd, rfl, rfl, l1, l2, hu, hfa⟩ := not_useFront IsKey before defs hbl hf
      obtain ⟨A, B, C, D, v, e1, e2, e3, hv⟩ := marked_differ IsKey pa pb da dd d l1 l2 hu hfa
      obtain ⟨-, ls, g1, g2⟩ := update_right ft db tbl extra bb ab n _ after _ hb hbl ha hal (markRow pa pb) (zeroRow after)
        (markRow_ok pa pb) (zeroRow_ok after) (fun _ => markRow_small) (fun _ => zeroRow_small) h
      rw [e1] at g1
      rw [e2] at g2
      exact texts_differ ft g1 g2 e3 hv rfl
  · rintro ⟨hfa, hfb⟩ rows p stmts hr hp hs
    have hlen : ∀ row ∈ rows, row.1.length = defs.length ∧ row.2.length = defs.length :=
      fun row h => ⟨by rw [(hr row h).1.1, hbl], by rw [(hr row h).2.1, hal]⟩
    have act := C40_update_exact ft db tbl extra bb ab n before after defs rows p stmts hb hbl ha hal hlen hp hs
    unfold UpdatesOwnValues
    clear hp hs hr
    induction act with
    | nil => exact .nil
    | @cons row stmt rs ss h1 _ ih =>
      refine .cons ?_ (ih fun r hm => hlen r (List.mem_cons_of_mem _ hm))
      obtain ⟨k1, k2⟩ := hlen row List.mem_cons_self
      have e := shifted_use IsKey before defs row.1 hbl k1 hfb
      dsimp only at h1 ⊢
      rw [e, shifted_front after defs row.2 hfa hal k2] at h1
      exact h1

/-! ### both sides occur -/

/-- with the key column first, a column that is not logged in between does no harm to deletes -/
example : KeysFront [true, false, true] [exampleCol "id" 2, exampleCol "a" 0, exampleCol "b" 0] ∧ ¬ Front [true, false, true] := by
  refine ⟨?_, fun h => by simpa using h 1 2 (by omega) rfl⟩
  intro i j d hij hj hd hk
  match j with
  | 0 => omega
  | 1 => simp at hj
  | 2 =>
    simp only [List.getElem?_cons_succ, List.getElem?_cons_zero, Option.some.injEq] at hd
    subst hd
    exact absurd hk (by decide)
  | j + 3 => simp at hj

/-- with the key column after one that is not logged, the deletes are wrong for some row -/
example (ft : FloatText) : ¬ ∀ rows p stmts, (∀ row ∈ rows, RowOf [false, true] row) →
    PreparedSql.fromDelete (asc "d") (asc "t") ⟨[], 2, [2], rows⟩ [exampleCol "a" 0, exampleCol "id" 2] = some p →
    p.sqlList ft = some stmts →
    DeletesByOwnKey ft (asc "d") (asc "t") [exampleCol "a" 0, exampleCol "id" 2] [false, true] rows stmts := by
  rw [C40_delete_iff ft (asc "d") (asc "t") [] [2] 2 [false, true] _ (covers_of _ _ rfl (by decide)) rfl]
  intro h
  have := h 0 1 (exampleCol "id" 2) (by omega) rfl rfl (by decide)
  simp at this

end Mybin
