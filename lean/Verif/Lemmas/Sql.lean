/-
Facts about numerals, literals and SQL fragments.
-/
import Verif.Model.Sql
import Verif.Spec.Sql
import Verif.Spec.Rows
import Verif.Lemmas.Prim
import Verif.Lemmas.Bitmap

namespace Mybin

theorem asc_eq (s : String) : asc s = Spec.ascii s := rfl

/-! ### numerals -/

/-- the byte of a digit -/
def digitByte (d : Nat) : UInt8 := UInt8.ofNat (0x30 + d)

theorem digit?_digitByte : ∀ d, d < 10 → Spec.digit? (digitByte d) = some d := by decide +kernel
theorem digitChar_byte : ∀ d, d < 10 → UInt8.ofNat (Nat.digitChar d).toNat = digitByte d := by decide +kernel
theorem digitByte_ne_zero : ∀ d, d < 10 → d ≠ 0 → digitByte d ≠ 0x30 := by decide +kernel
theorem digitByte_ne_minus : ∀ d, d < 10 → digitByte d ≠ 0x2d := by decide +kernel

theorem natText_lt (n : Nat) (h : n < 10) : natText n = [digitByte n] := by
  unfold natText ascChars
  rw [Nat.toDigits_of_lt_base h]
  simp [digitChar_byte n h]

theorem natText_ge (n : Nat) (h : 10 ≤ n) : natText n = natText (n / 10) ++ [digitByte (n % 10)] := by
  unfold natText ascChars
  rw [Nat.toDigits_of_base_le (by omega) h, List.map_append]
  simp [digitChar_byte (n % 10) (Nat.mod_lt _ (by omega))]

theorem readDigits_append (a b : Bytes) : ∀ acc,
    Spec.readDigits acc (a ++ b) = (Spec.readDigits acc a).bind fun n => Spec.readDigits n b := by
  induction a with
  | nil => intro acc; rfl
  | cons x t ih =>
    intro acc
    rw [List.cons_append, Spec.readDigits, Spec.readDigits]
    cases Spec.digit? x with
    | none => rfl
    | some d => exact ih _

theorem natText_ne_nil (n : Nat) : natText n ≠ [] := by
  unfold natText ascChars
  simp [Nat.toDigits_ne_nil]

theorem readDigits_natText (n : Nat) : ∀ acc,
    Spec.readDigits acc (natText n) = some (acc * 10 ^ (natText n).length + n) := by
  induction n using Nat.strongRecOn with
  | ind n ih =>
    intro acc
    by_cases h : n < 10
    · rw [natText_lt n h]
      simp [Spec.readDigits, digit?_digitByte n h]
    · rw [natText_ge n (by omega), readDigits_append, ih (n / 10) (by omega), Option.bind_some]
      simp only [Spec.readDigits, digit?_digitByte (n % 10) (Nat.mod_lt _ (by omega)), List.length_append,
        List.length_singleton, Nat.pow_succ]
      congr 1
      rw [Nat.add_mul, Nat.mul_assoc]
      omega

theorem readNat_natText (n : Nat) : Spec.readNat (natText n) = some n := by
  unfold Spec.readNat
  rw [if_neg (natText_ne_nil n), readDigits_natText]
  simp

/-- the first byte of a numeral is a digit, and not zero unless the number is -/
theorem natText_head (n : Nat) : ∃ d, d < 10 ∧ (natText n).head? = some (digitByte d) ∧ (d = 0 → n = 0) := by
  induction n using Nat.strongRecOn with
  | ind n ih =>
    by_cases h : n < 10
    · exact ⟨n, h, by rw [natText_lt n h]; rfl, id⟩
    · obtain ⟨d, h1, h2, h3⟩ := ih (n / 10) (by omega)
      refine ⟨d, h1, ?_, fun hd => ?_⟩
      · rw [natText_ge n (by omega), List.head?_append, h2]; rfl
      · have := h3 hd; omega

theorem readInt_natText (n : Nat) : Spec.readInt (natText n) = some (n : Int) := by
  obtain ⟨d, h1, h2, _⟩ := natText_head n
  unfold Spec.readInt
  rw [if_neg, readNat_natText]; · rfl
  rw [h2]; simpa using digitByte_ne_minus d h1

theorem numeral_natText (n : Nat) : Spec.Numeral (natText n) n := by
  refine ⟨readInt_natText n, ?_⟩
  obtain ⟨d, h1, h2, h3⟩ := natText_head n
  by_cases hd : d = 0
  · left; rw [h3 hd]; decide +kernel
  · right
    rw [h2]
    exact ⟨by simpa using digitByte_ne_zero d h1 hd, fun h => absurd (by simpa using h) (digitByte_ne_minus d h1)⟩

theorem numeral_intText (i : Int) : Spec.Numeral (intText i) i := by
  unfold intText
  by_cases h : i < 0
  · rw [if_pos h]
    obtain ⟨d, h1, h2, h3⟩ := natText_head i.natAbs
    refine ⟨?_, Or.inr ⟨by simp, fun _ => ?_⟩⟩
    · unfold Spec.readInt
      rw [if_pos (by rfl)]
      show Option.map _ (Spec.readNat (natText _)) = _
      rw [readNat_natText]
      simp only [Option.map_some]
      congr 1; omega
    · show (natText i.natAbs).head? ≠ _
      rw [h2]
      have : d ≠ 0 := fun hd => by have := h3 hd; omega
      simpa using digitByte_ne_zero d h1 this
  · rw [if_neg h]
    have := numeral_natText i.natAbs
    rwa [show ((i.natAbs : Nat) : Int) = i by omega] at this

/-! ### panics of lists -/

theorem allSome_eq {α : Type} (l : List (Option α)) (r : List α) : allSome l = some r ↔ l = r.map some := by
  induction l generalizing r with
  | nil => cases r <;> simp [allSome]
  | cons x t ih =>
    cases x with
    | none => cases r <;> simp [allSome]
    | some a =>
      cases r with
      | nil => simp [allSome]
      | cons b r =>
        simp only [allSome, Option.map_eq_some_iff, List.cons.injEq, List.map_cons, Option.some.injEq]
        constructor
        · rintro ⟨x, hx, rfl, rfl⟩; exact ⟨rfl, (ih _).1 hx⟩
        · rintro ⟨rfl, h⟩; exact ⟨r, (ih _).2 h, rfl, rfl⟩

theorem allSome_map_some {α : Type} (r : List α) : allSome (r.map some) = some r := (allSome_eq _ _).2 rfl

theorem allSome_length {α : Type} {l : List (Option α)} {r : List α} (h : allSome l = some r) :
    r.length = l.length := by
  rw [(allSome_eq l r).1 h, List.length_map]

theorem allSome_getElem? {α : Type} {l : List (Option α)} {r : List α} (h : allSome l = some r) (i : Nat) :
    l[i]? = (r[i]?).map some := by
  rw [(allSome_eq l r).1 h, List.getElem?_map]

/-! ### filling fragments -/

/-- fragments with each placeholder replaced by the next text -/
def render : List Bytes → List Bytes → Bytes
  | [], _ => []
  | f :: fs, lits =>
    if f = asc "?" then
      match lits with
      | [] => render fs []
      | l :: lits => l ++ render fs lits
    else f ++ render fs lits

theorem render_text_cons (f : Bytes) (fs lits : List Bytes) (h : f ≠ asc "?") :
    render (f :: fs) lits = f ++ render fs lits := by
  rw [render.eq_def]; dsimp only; rw [if_neg h]

theorem render_mark_cons (fs : List Bytes) (l : Bytes) (lits : List Bytes) :
    render (asc "?" :: fs) (l :: lits) = l ++ render fs lits := by
  rw [render.eq_def]; dsimp only; rw [if_pos rfl]

theorem render_nil (lits : List Bytes) : render [] lits = [] := by rw [render.eq_def]

/-- the number of placeholders -/
def marks (frags : List Bytes) : Nat := frags.count (asc "?")

theorem fillFragments_render (ft : FloatText) (fs : List Bytes) : ∀ (ps : List StmtColumnValue) (lits : List Bytes),
    allSome (ps.map (quotedLiteral ft)) = some lits → fillFragments ft fs ps = some (render fs lits) := by
  induction fs with
  | nil => intro ps lits _; rw [render_nil, fillFragments.eq_def]
  | cons f fs ih =>
    intro ps lits h
    rw [fillFragments.eq_def]
    dsimp only
    by_cases hf : f = asc "?"
    · rw [if_pos hf]
      subst hf
      cases ps with
      | nil =>
        cases lits with
        | cons _ _ => simp [allSome] at h
        | nil => dsimp only; rw [ih [] [] h, render.eq_def (asc "?" :: fs)]; dsimp only; rw [if_pos rfl]
      | cons p ps =>
        rw [List.map_cons] at h
        cases hq : quotedLiteral ft p with
        | none => rw [hq] at h; simp [allSome] at h
        | some l =>
          rw [hq] at h
          simp only [allSome, Option.map_eq_some_iff] at h
          obtain ⟨ls, h1, h2⟩ := h
          subst h2
          simp only [hq]
          rw [ih ps ls h1, render_mark_cons]
          rfl
    · rw [if_neg hf, ih ps lits h, render_text_cons _ _ _ hf]
      rfl

theorem render_append (a b : List Bytes) : ∀ lits, marks a ≤ lits.length →
    render (a ++ b) lits = render a (lits.take (marks a)) ++ render b (lits.drop (marks a)) := by
  induction a with
  | nil => intro lits _; simp [marks, render]
  | cons f a ih =>
    intro lits h
    unfold marks at h ⊢
    rw [List.count_cons] at h ⊢
    rw [List.cons_append]
    by_cases hf : f = asc "?"
    · subst hf
      rw [if_pos (by simp)] at h ⊢
      cases lits with
      | nil => simp at h
      | cons l lits =>
        simp only [List.take_succ_cons, List.drop_succ_cons]
        rw [render_mark_cons, render_mark_cons, ih lits (by simpa [marks] using h)]
        simp [marks]
    · rw [if_neg (by simpa using hf)] at h ⊢
      rw [Nat.add_zero] at h ⊢
      rw [render_text_cons _ _ _ hf, render_text_cons _ _ _ hf, ih lits h, List.append_assoc]; rfl

theorem render_marks_only (fs : List Bytes) : ∀ n, marks fs ≤ n →
    render fs (List.replicate n (asc "?")) = fs.flatten := by
  induction fs with
  | nil => intro n _; rfl
  | cons f fs ih =>
    intro n h
    unfold marks at h
    rw [List.count_cons] at h
    by_cases hf : f = asc "?"
    · subst hf
      rw [if_pos (by simp)] at h
      cases n with
      | zero => omega
      | succ n =>
        rw [List.replicate_succ, render_mark_cons, ih n (by unfold marks; omega), List.flatten_cons]
    · rw [if_neg (by simpa using hf)] at h
      rw [render_text_cons _ _ _ hf, ih n (by unfold marks; omega), List.flatten_cons]

theorem marks_append (a b : List Bytes) : marks (a ++ b) = marks a + marks b := List.count_append

theorem marks_text (f : Bytes) (h : 1 < f.length) : marks [f] = 0 := by
  unfold marks
  rw [List.count_singleton, if_neg]
  simp only [beq_iff_eq]
  rintro rfl
  revert h; decide

theorem render_text (f : Bytes) (h : 1 < f.length) (lits : List Bytes) : render [f] lits = f := by
  have : f ≠ asc "?" := by rintro rfl; revert h; decide
  rw [render_text_cons _ _ _ this, render_nil, List.append_nil]

/-! ### the fragments of each statement -/

theorem insertMarks_marks (cs : List ColDef) : ∀ idx, marks (insertMarks idx cs) = cs.length := by
  induction cs with
  | nil => intro idx; rfl
  | cons c cs ih =>
    intro idx
    rw [insertMarks, marks_append, marks_append, ih]
    have h1 : marks [asc "?"] = 1 := by decide
    have h2 : marks (if idx > 0 then [asc ","] else []) = 0 := by split <;> decide
    rw [h1, h2, List.length_cons]; omega

theorem render_insertMarks_pos (cs : List ColDef) : ∀ idx lits, 0 < idx → lits.length = cs.length →
    render (insertMarks idx cs) lits = (lits.map (asc "," ++ ·)).flatten := by
  induction cs with
  | nil => intro idx lits _ h; simp at h; subst h; rfl
  | cons c cs ih =>
    intro idx lits hi h
    cases lits with
    | nil => simp at h
    | cons l lits =>
      rw [insertMarks, if_pos hi]
      show render (asc "," :: asc "?" :: insertMarks (idx + 1) cs) (l :: lits) = _
      rw [render_text_cons _ _ _ (by decide), render_mark_cons]
      rw [ih (idx + 1) lits (by omega) (by simpa using h)]
      simp

theorem joined_cons (sep : String) (t : Bytes) (ts : List Bytes) :
    Spec.joined sep (t :: ts) = t ++ (ts.map (Spec.ascii sep ++ ·)).flatten := by
  induction ts generalizing t with
  | nil => simp [Spec.joined]
  | cons u us ih => rw [Spec.joined, ih u]; simp; exact (by simp)

theorem render_insertMarks (cs : List ColDef) (lits : List Bytes) (h : lits.length = cs.length) :
    render (insertMarks 0 cs) lits = Spec.joined "," lits := by
  cases cs with
  | nil => simp at h; subst h; rfl
  | cons c cs =>
    cases lits with
    | nil => simp at h
    | cons l lits =>
      rw [insertMarks, if_neg (by omega)]
      show render (asc "?" :: insertMarks 1 cs) (l :: lits) = _
      rw [render_mark_cons, joined_cons, render_insertMarks_pos cs 1 lits (by omega) (by simpa using h)]; rfl

theorem insertNames_pos (cs : List ColDef) : ∀ idx, 0 < idx →
    insertNames idx cs = ((cs.map fun c => Spec.tick c.name).map (asc "," ++ ·)).flatten := by
  induction cs with
  | nil => intro idx _; rfl
  | cons c cs ih =>
    intro idx h
    rw [insertNames, if_pos h, ih (idx + 1) (by omega)]
    simp [ticked, Spec.tick, asc_eq]

theorem insertNames_zero (cs : List ColDef) :
    insertNames 0 cs = Spec.joined "," (cs.map fun c => Spec.tick c.name) := by
  cases cs with
  | nil => rfl
  | cons c cs =>
    rw [insertNames, if_neg (by omega), insertNames_pos cs 1 (by omega), List.map_cons, joined_cons]
    simp [ticked, Spec.tick, asc_eq]

theorem zip_map_fst {α β : Type} (a : List α) (b : List β) (h : a.length ≤ b.length) : (a.zip b).map (·.1) = a := by
  rw [show (fun x : α × β => x.1) = Prod.fst from rfl, List.map_fst_zip h]

theorem zip_map_snd {α β : Type} (a : List α) (b : List β) (h : b.length ≤ a.length) : (a.zip b).map (·.2) = b := by
  rw [show (fun x : α × β => x.2) = Prod.snd from rfl, List.map_snd_zip h]

theorem marks_insertFragments (db tbl : Bytes) (cs : List ColDef) :
    marks (insertFragments db tbl cs) = cs.length := by
  unfold insertFragments
  rw [marks_append, marks_append, insertMarks_marks, marks_text]
  · have : marks [asc ")"] = 0 := by decide
    omega
  · have : (asc "INSERT INTO ").length = 12 := by decide
    simp only [List.length_append, this]; omega

theorem render_insertFragments (db tbl : Bytes) (cs : List ColDef) (lits : List Bytes)
    (h : lits.length = cs.length) :
    render (insertFragments db tbl cs) lits
      = Spec.insertText db tbl ((cs.map (·.name)).zip lits) := by
  have h0 : 1 < (asc "INSERT INTO " ++ tableText db tbl ++ asc " (" ++ insertNames 0 cs
      ++ asc ") VALUES (").length := by
    have : (asc "INSERT INTO ").length = 12 := by decide
    simp only [List.length_append, this]; omega
  unfold insertFragments
  rw [render_append _ _ _ (by
      rw [marks_append, marks_text _ h0, insertMarks_marks]; omega),
    render_append _ _ _ (by rw [marks_text _ h0]; omega), marks_append, marks_text _ h0, insertMarks_marks,
    render_text _ h0]
  rw [show ∀ l : List Bytes, render [asc ")"] l = asc ")" from fun l => by
    rw [render_text_cons _ _ _ (by decide), render_nil, List.append_nil]]
  rw [List.drop_zero, List.take_of_length_le (by omega), render_insertMarks cs lits h]
  unfold Spec.insertText
  rw [show ∀ l : List (Bytes × Bytes), l.map (fun x => Spec.tick x.1) = (l.map (·.1)).map Spec.tick from
      fun l => by rw [List.map_map]; rfl,
    zip_map_fst _ _ (by simp [h]), zip_map_snd _ _ (by simp [h]), insertNames_zero, List.map_map]
  simp [tableText, ticked, Spec.tick, asc_eq, Function.comp_def]

/-- the fragments of assignments after the first -/
def moreAssign (sep : Bytes) (cs : List ColDef) : List Bytes :=
  (cs.map fun c => [sep ++ ticked c.name ++ asc " = ", asc "?"]).flatten

/-- the fragments of all assignments, the first joined to the text `l` before it -/
def firstAssign (sep l : Bytes) : List ColDef → List Bytes
  | [] => [l]
  | c :: cs => (l ++ (ticked c.name ++ asc " = ")) :: asc "?" :: moreAssign sep cs

theorem assignFragments_pos (sep : Bytes) (use : ColDef → Bool) (cs : List ColDef) : ∀ idx out, 0 < idx →
    assignFragments sep use idx cs out = some (out ++ moreAssign sep (cs.filter use)) := by
  induction cs with
  | nil => intro idx out _; simp [assignFragments, moreAssign]
  | cons c cs ih =>
    intro idx out h
    rw [assignFragments]
    cases hu : use c with
    | false =>
      simp only [Bool.false_eq_true, if_false]
      rw [ih idx out h, List.filter_cons_of_neg (by simp [hu])]
    | true =>
      simp only [if_true]
      rw [if_pos h, ih (idx + 1) _ (by omega), List.filter_cons_of_pos hu]
      simp [moreAssign]

theorem pushLast_append (pre : List Bytes) (l s : Bytes) : pushLast (pre ++ [l]) s = some (pre ++ [l ++ s]) := by
  induction pre with
  | nil => rfl
  | cons p pre ih =>
    cases pre with
    | nil => rfl
    | cons q pre =>
      rw [List.cons_append, List.cons_append, pushLast, ← List.cons_append, ih]
      · rfl
      · intro h; simp at h

theorem assignFragments_zero (sep : Bytes) (use : ColDef → Bool) (pre : List Bytes) (l : Bytes)
    (cs : List ColDef) :
    assignFragments sep use 0 cs (pre ++ [l]) = some (pre ++ firstAssign sep l (cs.filter use)) := by
  induction cs with
  | nil => rfl
  | cons c cs ih =>
    rw [assignFragments]
    cases hu : use c with
    | false =>
      simp only [Bool.false_eq_true, if_false]
      rw [ih, List.filter_cons_of_neg (by simp [hu])]
    | true =>
      simp only [if_true, pushLast_append]
      rw [if_neg (by omega), assignFragments_pos _ _ _ _ _ (by omega), List.filter_cons_of_pos hu]
      simp [firstAssign]

theorem assign_long (l : Bytes) : 1 < (l ++ asc " = ").length := by
  have : (asc " = ").length = 3 := by decide
  simp only [List.length_append, this]; omega

theorem marks_moreAssign (sep : Bytes) (cs : List ColDef) : marks (moreAssign sep cs) = cs.length := by
  induction cs with
  | nil => rfl
  | cons c cs ih =>
    show marks ([_] ++ [asc "?"] ++ moreAssign sep cs) = _
    rw [marks_append, marks_append, ih, marks_text _ (assign_long _), show marks [asc "?"] = 1 by decide,
      List.length_cons]
    omega

theorem long_ne (l : Bytes) (h : 1 < l.length) : l ≠ asc "?" := by rintro rfl; revert h; decide

theorem render_moreAssign (sep : String) (cs : List ColDef) : ∀ lits, lits.length = cs.length →
    render (moreAssign (asc sep) cs) lits
      = ((((cs.map (·.name)).zip lits).map Spec.equation).map (Spec.ascii sep ++ ·)).flatten := by
  induction cs with
  | nil => intro lits h; simp at h; subst h; rfl
  | cons c cs ih =>
    intro lits h
    cases lits with
    | nil => simp at h
    | cons l lits =>
      show render ((_ ++ _) :: asc "?" :: moreAssign (asc sep) cs) (l :: lits) = _
      rw [render_text_cons _ _ _ (long_ne _ (assign_long _)), render_mark_cons, ih lits (by simpa using h)]
      simp [Spec.equation, ticked, Spec.tick, asc_eq]

theorem marks_firstAssign (sep l : Bytes) (hl : 1 < l.length) (cs : List ColDef) :
    marks (firstAssign sep l cs) = cs.length := by
  cases cs with
  | nil => exact marks_text l hl
  | cons c cs =>
    show marks ([_] ++ [asc "?"] ++ moreAssign sep cs) = _
    rw [marks_append, marks_append, marks_moreAssign, marks_text, show marks [asc "?"] = 1 by decide,
      List.length_cons]
    · omega
    · rw [← List.append_assoc]; exact assign_long _

theorem render_firstAssign (sep : String) (l : Bytes) (hl : 1 < l.length) (cs : List ColDef) (lits : List Bytes)
    (h : lits.length = cs.length) :
    render (firstAssign (asc sep) l cs) lits
      = l ++ Spec.joined sep (((cs.map (·.name)).zip lits).map Spec.equation) := by
  cases cs with
  | nil =>
    simp at h; subst h
    rw [firstAssign, render_text l hl]; simp [Spec.joined]
  | cons c cs =>
    cases lits with
    | nil => simp at h
    | cons x lits =>
      rw [firstAssign, render_text_cons _ _ _ (long_ne _ (by rw [← List.append_assoc]; exact assign_long _)),
        render_mark_cons, render_moreAssign sep cs lits (by simpa using h), List.map_cons, List.zip_cons_cons,
        List.map_cons, joined_cons]
      simp [Spec.equation, ticked, Spec.tick, asc_eq]

theorem deleteFragments_eq (db tbl : Bytes) (cs : List ColDef) :
    deleteFragments db tbl cs = some (firstAssign (asc " AND ")
      (asc "DELETE FROM " ++ tableText db tbl ++ asc " WHERE ") (cs.filter (·.key))) :=
  assignFragments_zero (asc " AND ") (·.key) [] _ cs

theorem updateFragments_eq (db tbl : Bytes) (before after : List ColDef) :
    updateFragments db tbl before after = some (firstAssign (asc ", ")
      (asc "UPDATE " ++ tableText db tbl ++ asc " SET ") after
        ++ firstAssign (asc " AND ") (asc " WHERE ") (before.filter (·.key))) := by
  unfold updateFragments
  have := assignFragments_zero (asc ", ") (fun _ => true) []
    (asc "UPDATE " ++ tableText db tbl ++ asc " SET ") after
  rw [List.filter_eq_self.2 (fun _ _ => rfl)] at this
  rw [List.nil_append, List.nil_append] at this
  rw [this]
  exact assignFragments_zero _ _ _ _ _

theorem delete_head_long (db tbl : Bytes) :
    1 < (asc "DELETE FROM " ++ tableText db tbl ++ asc " WHERE ").length := by
  have : (asc "DELETE FROM ").length = 12 := by decide
  simp only [List.length_append, this]; omega

theorem update_head_long (db tbl : Bytes) : 1 < (asc "UPDATE " ++ tableText db tbl ++ asc " SET ").length := by
  have : (asc "UPDATE ").length = 7 := by decide
  simp only [List.length_append, this]; omega

theorem render_delete (db tbl : Bytes) (keys : List ColDef) (lits : List Bytes) (h : lits.length = keys.length) :
    render (firstAssign (asc " AND ") (asc "DELETE FROM " ++ tableText db tbl ++ asc " WHERE ") keys) lits
      = Spec.deleteText db tbl ((keys.map (·.name)).zip lits) := by
  rw [render_firstAssign _ _ (delete_head_long db tbl) _ _ h]
  simp [Spec.deleteText, tableText, ticked, Spec.tick, asc_eq]

theorem render_update (db tbl : Bytes) (keys after : List ColDef) (l1 l2 : List Bytes)
    (h1 : l1.length = after.length) (h2 : l2.length = keys.length) :
    render (firstAssign (asc ", ") (asc "UPDATE " ++ tableText db tbl ++ asc " SET ") after
        ++ firstAssign (asc " AND ") (asc " WHERE ") keys) (l1 ++ l2)
      = Spec.updateText db tbl ((after.map (·.name)).zip l1) ((keys.map (·.name)).zip l2) := by
  rw [render_append _ _ _ (by
      rw [marks_firstAssign _ _ (update_head_long db tbl), List.length_append]; omega),
    marks_firstAssign _ _ (update_head_long db tbl), ← h1, List.take_left, List.drop_left,
    render_firstAssign _ _ (update_head_long db tbl) _ _ h1, render_firstAssign _ _ (by decide) _ _ h2]
  simp [Spec.updateText, tableText, ticked, Spec.tick, asc_eq]

/-! ### columns and values -/

/-- under the bitmap -/
theorem filterColDefs_eq (bm : Bytes) (present : List Bool) (defs : List ColumnDefinition)
    (h : Spec.Covers bm present) (hl : present.length = defs.length) :
    filterColDefs bm defs = (((present.zip defs).filter (·.1)).map fun x => ColDef.of x.2) := by
  obtain ⟨h1, h2⟩ := h
  obtain ⟨l, e1, e2, e3⟩ := Bitmap.toIter_eq bm 0 (by omega)
  unfold filterColDefs
  rw [e1, Option.getD_some]
  have : l.zip defs = present.zip defs := by
    apply List.ext_getElem?
    intro i
    by_cases hi : i < present.length
    · have := h2 i _ (List.getElem?_eq_getElem hi)
      have hd : i < defs.length := by omega
      have a1 : (l.zip defs)[i]? = some (present[i], defs[i]) := List.getElem?_zip_eq_some.2
        ⟨(e3 i (by omega)).trans (by rw [Nat.zero_add]; exact this), List.getElem?_eq_getElem hd⟩
      have a2 : (present.zip defs)[i]? = some (present[i], defs[i]) := List.getElem?_zip_eq_some.2
        ⟨List.getElem?_eq_getElem hi, List.getElem?_eq_getElem hd⟩
      rw [a1, a2]
    · rw [List.getElem?_eq_none (by simp; omega), List.getElem?_eq_none (by simp; omega)]
  rw [this]

theorem front_cons (b : Bool) (present : List Bool) (h : Spec.Front (b :: present)) : Spec.Front present :=
  fun i j hij hj => by
    have := h (i + 1) (j + 1) (by omega) (by simpa using hj)
    simpa using this

theorem front_false (present : List Bool) (h : Spec.Front (false :: present)) : true ∉ present := by
  intro hc
  obtain ⟨j, hj, e⟩ := List.getElem_of_mem hc
  have := h 0 (j + 1) (by omega) (by
    rw [List.getElem?_cons_succ, List.getElem?_eq_getElem hj, e])
  simp at this

/-- when the logged columns come first, pairing them with the values from the left gives each its own -/
theorem zip_front {α β : Type} (present : List Bool) : ∀ (defs : List α) (row : List β), Spec.Front present →
    present.length = defs.length → row.length = defs.length →
    (((present.zip defs).filter (·.1)).map (·.2)).zip row = Spec.logged present defs row := by
  induction present with
  | nil => intro defs row _ _ _; rfl
  | cons b present ih =>
    intro defs row hf h1 h2
    cases defs with
    | nil => simp at h1
    | cons d defs =>
      cases row with
      | nil => simp at h2
      | cons v row =>
        cases b with
        | true =>
          have := ih defs row (front_cons _ _ hf) (by simpa using h1) (by simpa using h2)
          simp only [Spec.logged, List.zip_cons_cons, List.filter_cons_of_pos, List.map_cons] at this ⊢
          rw [this]
        | false =>
          have h := front_false _ hf
          have e1 : (present.zip defs).filter (·.1) = [] := by
            rw [List.filter_eq_nil_iff]
            rintro ⟨b, d⟩ hm hb
            exact h (hb ▸ (List.of_mem_zip hm).1)
          have e2 : (present.zip (defs.zip row)).filter (·.1) = [] := by
            rw [List.filter_eq_nil_iff]
            rintro ⟨b, d⟩ hm hb
            exact h (hb ▸ (List.of_mem_zip hm).1)
          simp [Spec.logged, e1, e2]

theorem logged_map_fst {α β : Type} (present : List Bool) : ∀ (defs : List α) (row : List β),
    present.length = defs.length → row.length = defs.length →
    (Spec.logged present defs row).map (·.1) = ((present.zip defs).filter (·.1)).map (·.2) := by
  induction present with
  | nil => intro defs row _ _; rfl
  | cons b present ih =>
    intro defs row h1 h2
    cases defs with
    | nil => simp at h1
    | cons d defs =>
      cases row with
      | nil => simp at h2
      | cons v row =>
        have := ih defs row (by simpa using h1) (by simpa using h2)
        cases b <;> simp [Spec.logged] at this ⊢ <;> exact this

end Mybin
