/-
C78, exactly: which answers make reading the rows of a prepared statement panic.
-/
import Verif.Props.C24_exact
import Verif.Props.C78

namespace Mybin

/-- the end of the rows: a message that begins with 0xfe and fits one packet -/
def Spec.endsRows (m : List UInt8) : Prop := m.head? = some 0xfe ∧ m.length ≤ 0xffffff

/-- a row in which a DOUBLE is cut short comes after rows that can be read -/
def Spec.cutRow (types : List ColumnType) (inp : List UInt8) : Prop :=
  ∃ ms m rest, Delivers inp (ms ++ [m]) rest ∧ ¬ endsRows m ∧ doubleCut types m ∧
    ∀ r ∈ ms, ¬ endsRows r ∧ ∃ row t, BinaryRow.readFrom types r = .ok row t

theorem mapRow_ok {ρ τ : Type} {read : P ρ} {g : ρ → τ} {m : Bytes} {v : τ} {t : Bytes}
    (h : mapRow read g m = .ok v t) : ∃ row, read m = .ok row t ∧ v = g row := by
  unfold mapRow at h
  rw [P.bind_eq_ok] at h
  obtain ⟨a, r, h1, h2⟩ := h
  cases h2
  exact ⟨a, h1, rfl⟩

/-- one call of `next_row`, for any row reader that does not loop -/
theorem nextRow_cases {ρ : Type} (read : P ρ) (hr : ∀ m, read m ≠ .hang) (rs : ResultSet) (hrs : rs.completed = false)
    (c c1 : Conn) (m : Bytes) (h : recvMsg c = .ok m c1) :
    (m ≠ [] ∧ ¬ Spec.endsRows m ∧ read m = .panic ∧ rs.nextRow read c = .panic) ∨
    (m ≠ [] ∧ ¬ Spec.endsRows m ∧ ∃ v t, read m = .ok v t ∧ rs.nextRow read c = .ok (some v, rs) c1) ∨
    ((m = [] ∨ Spec.endsRows m ∨ ∃ e t, read m = .err e t) ∧
      ((∃ rs' c', rs.nextRow read c = .ok (none, rs') c') ∨ ∃ e c', rs.nextRow read c = .err e c')) := by
  unfold ResultSet.nextRow
  rw [if_neg (by simp [hrs]), M.bind_apply, h, MR.bind_ok, M.bind_apply, getCaps_apply, MR.bind_ok]
  cases m with
  | nil => exact .inr (.inr ⟨.inl rfl, .inr ⟨_, _, rfl⟩⟩)
  | cons b t =>
    dsimp only
    by_cases ht : b = 0xfe ∧ (b :: t).length ≤ 0xffffff
    · have he : Spec.endsRows (b :: t) := ⟨by rw [ht.1]; rfl, ht.2⟩
      rw [if_pos ht, M.bind_apply]
      refine .inr (.inr ⟨.inr (.inl he), ?_⟩)
      rcases readTerminator_returns c1.caps (b :: t) c1 with ⟨u, c2, h2⟩ | ⟨e, c2, h2⟩
      · rw [h2]; exact .inl ⟨_, _, rfl⟩
      · rw [h2]; exact .inr ⟨_, _, rfl⟩
    · have he : ¬ Spec.endsRows (b :: t) := by
        rintro ⟨h1, h2⟩
        exact ht ⟨by simpa using h1, h2⟩
      rw [if_neg ht, M.bind_apply]
      unfold M.parse
      cases e : read (b :: t) with
      | hang => exact absurd e (hr _)
      | panic => exact .inl ⟨by simp, he, rfl, rfl⟩
      | ok v r => exact .inr (.inl ⟨by simp, he, v, r, rfl, rfl⟩)
      | err e' r => exact .inr (.inr ⟨.inr (.inr ⟨_, _, rfl⟩), .inr ⟨_, _, rfl⟩⟩)

/-- C78 for binary rows, exactly: reading the next row, or all rows, of a result set panics exactly when a row in which a
DOUBLE is cut short comes next, or after rows that can be read; otherwise it ends with a value or an error. -/
theorem C78_binary_rows_iff {ρ σ : Type} (rs : ResultSet) (hrs : rs.completed = false)
    (g : List BinaryColumnValue → ρ) (f : σ → ρ → σ) (s : σ) (c : Conn) :
    PanicsWhen (∃ m rest, Spec.Delivers c.inp [m] rest ∧ ¬ Spec.endsRows m ∧
        Spec.doubleCut (rs.colDefs.map (·.colType)) m) (rs.nextRow (mapRow rs.binaryRow g) c) ∧
    PanicsWhen (Spec.cutRow (rs.colDefs.map (·.colType)) c.inp) (rs.foldRows (mapRow rs.binaryRow g) f s c) := by
  have hr : ∀ m, mapRow rs.binaryRow g m ≠ .hang := by
    intro m h
    unfold mapRow at h
    rw [P.bind_apply] at h
    have := (C24_panic_iff (rs.colDefs.map (·.colType)) m).1
    unfold ResultSet.binaryRow at h
    cases e : BinaryRow.readFrom (rs.colDefs.map (·.colType)) m with
    | hang => exact this e
    | _ => rw [e] at h; cases h
  have hp : ∀ m, mapRow rs.binaryRow g m = .panic ↔ Spec.doubleCut (rs.colDefs.map (·.colType)) m := by
    intro m
    rw [← (C24_panic_iff (rs.colDefs.map (·.colType)) m).2]
    unfold mapRow ResultSet.binaryRow
    rw [P.bind_apply]
    cases BinaryRow.readFrom (rs.colDefs.map (·.colType)) m <;> simp [R.bind, P.pure_apply]
  have hne : ∀ m, Spec.doubleCut (rs.colDefs.map (·.colType)) m → m ≠ [] := by
    rintro m ⟨pre, post, hdr, bm, t, row, tail, -, rfl, -⟩; simp
  constructor
  · rcases recvMsg_total c with ⟨m, c1, h⟩ | ⟨e, c1, h⟩
    · have hd := delivers_iff h (fun m => ¬ Spec.endsRows m ∧ Spec.doubleCut (rs.colDefs.map (·.colType)) m)
      refine ⟨fun hb => ?_, fun hb => ?_⟩
      · obtain ⟨h1, h2⟩ := hd.1 hb
        rcases nextRow_cases _ hr rs hrs c c1 m h with ⟨-, -, -, h3⟩ | ⟨-, -, v, t, h3, -⟩ | ⟨h3 | h3 | ⟨_, _, h3⟩, -⟩
        · exact h3
        · rw [(hp m).2 h2] at h3; cases h3
        · exact absurd h3 (hne m h2)
        · exact absurd h3 h1
        · rw [(hp m).2 h2] at h3; cases h3
      · rcases nextRow_cases _ hr rs hrs c c1 m h with ⟨-, h1, h2, -⟩ | ⟨-, -, v, t, -, h3⟩ | ⟨-, ⟨_, _, h3⟩ | ⟨_, _, h3⟩⟩
        · exact absurd (hd.2 ⟨h1, (hp m).1 h2⟩) hb
        · exact .inl ⟨_, _, h3⟩
        · exact .inl ⟨_, _, h3⟩
        · exact .inr ⟨_, _, h3⟩
    · refine ⟨fun ⟨m, rest, hd, _⟩ => absurd hd (not_delivers h _ _ _), fun _ => ?_⟩
      unfold ResultSet.nextRow
      rw [if_neg (by simp [hrs]), M.bind_apply, h]
      exact .inr ⟨_, _, rfl⟩
  · induction hn : c.inp.length using Nat.strong_induction_on generalizing s c with
    | _ n ih =>
      rw [ResultSet.foldRows]
      rcases recvMsg_total c with ⟨m, c1, h⟩ | ⟨e, c1, h⟩
      · have hdel := recv_delivers h
        have huniq : ∀ ms m' rest, Spec.Delivers c.inp (m' :: ms) rest → m' = m ∧ Spec.Delivers c1.inp ms rest := by
          intro ms m' rest hd
          obtain ⟨c', e, -, e2, -⟩ := Delivers.recv hd
          rw [h] at e
          injection e with e e'
          subst e'
          exact ⟨e.symm, e2⟩
        rcases nextRow_cases _ hr rs hrs c c1 m h with ⟨h0, h1, h2, h3⟩ | ⟨h0, h1, v, t, h2, h3⟩ | ⟨h2, h3⟩
        · rw [h3]
          refine ⟨fun _ => rfl, fun hb => absurd ?_ hb⟩
          exact ⟨[], m, c1.inp, hdel, h1, (hp m).1 h2, by simp⟩
        · rw [h3]
          have hs := recv_shorter h
          dsimp only
          rw [if_pos hs]
          obtain ⟨i1, i2⟩ := ih _ (hn ▸ hs) (f s v) c1 rfl
          obtain ⟨row, hrow, -⟩ := mapRow_ok h2
          refine ⟨fun hb => i1 ?_, fun hb => i2 fun hb' => hb ?_⟩
          · obtain ⟨ms, m', rest, d1, d2, d3, d4⟩ := hb
            cases ms with
            | nil =>
              obtain ⟨rfl, -⟩ := huniq _ _ _ d1
              rw [(hp _).2 d3] at h2; cases h2
            | cons x ms =>
              obtain ⟨rfl, d5⟩ := huniq _ _ _ d1
              exact ⟨ms, m', rest, d5, d2, d3, fun r hr => d4 r (by simp [hr])⟩
          · obtain ⟨ms, m', rest, d1, d2, d3, d4⟩ := hb'
            refine ⟨m :: ms, m', rest, delivers_cons hdel _ _ d1, d2, d3, fun r hr => ?_⟩
            rcases List.mem_cons.1 hr with rfl | hr
            · exact ⟨h1, row, t, hrow⟩
            · exact d4 r hr
        · have hno : ¬ Spec.cutRow (rs.colDefs.map (·.colType)) c.inp := by
            have hx : ∀ m', m' = m → (¬ Spec.endsRows m' ∧ Spec.doubleCut (rs.colDefs.map (·.colType)) m' ∨
                ¬ Spec.endsRows m' ∧ ∃ row t, BinaryRow.readFrom (rs.colDefs.map (·.colType)) m' = .ok row t) → False := by
              rintro m' rfl hx
              rcases h2 with h2 | h2 | ⟨e, t, h2⟩
              · subst h2
                rcases hx with ⟨-, hx⟩ | ⟨-, row, t, hx⟩
                · exact hne _ hx rfl
                · cases hx
              · rcases hx with ⟨hx, -⟩ | ⟨hx, -⟩ <;> exact hx h2
              · rcases hx with ⟨-, hx⟩ | ⟨-, row, t', hx⟩
                · rw [(hp _).2 hx] at h2; cases h2
                · unfold mapRow ResultSet.binaryRow at h2
                  rw [P.bind_apply, hx] at h2
                  cases h2
            rintro ⟨ms, m', rest, d1, d2, d3, d4⟩
            cases ms with
            | nil => exact hx _ (huniq _ _ _ d1).1 (.inl ⟨d2, d3⟩)
            | cons x ms => exact hx _ (huniq _ _ _ d1).1 (.inr (d4 x (by simp)))
          refine ⟨fun hb => absurd hb hno, fun _ => ?_⟩
          rcases h3 with ⟨_, _, h3⟩ | ⟨_, _, h3⟩
          · rw [h3]; exact .inl ⟨_, _, rfl⟩
          · rw [h3]; exact .inr ⟨_, _, rfl⟩
      · have : rs.nextRow (mapRow rs.binaryRow g) c = .err e c1 := by
          unfold ResultSet.nextRow
          rw [if_neg (by simp [hrs]), M.bind_apply, h]
          rfl
        rw [this]
        refine ⟨?_, fun _ => .inr ⟨_, _, rfl⟩⟩
        rintro ⟨ms, m', rest, d1, -⟩
        cases ms with
        | nil => exact absurd d1 (not_delivers h _ _ _)
        | cons x ms => exact absurd d1 (not_delivers h _ _ _)

/-- a result set with a DOUBLE column: a row that can be read, then one that is cut short -/
example : ∃ inp, Spec.cutRow [.double] inp := by
  obtain ⟨inp, h⟩ := delivers_small ([[0, 0, 1, 2, 3, 4, 5, 6, 7, 8]] ++ [[0, 0, 1, 2, 3, 4, 5]]) []
    (by intro m hm; simp only [List.cons_append, List.nil_append, List.mem_cons, List.not_mem_nil, or_false] at hm; rcases hm with rfl | rfl <;> decide)
  refine ⟨inp, _, _, _, h, by simp [Spec.endsRows], ?_, ?_⟩
  · exact ⟨[], [], 0, [0], [1, 2, 3, 4, 5], [.null], [1, 2, 3, 4, 5], rfl, rfl, rfl, rfl, rfl, by decide, by decide⟩
  · intro r hr
    simp only [List.mem_cons, List.not_mem_nil, or_false] at hr
    subst hr
    exact ⟨by simp [Spec.endsRows], _, _, rfl⟩

end Mybin
