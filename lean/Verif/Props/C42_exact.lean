/-
C42: exactly which strings survive being written as a literal.
-/
import Verif.Props.C40_C42

namespace Mybin

/-- every backslash is followed by `%` or `_` (which MySQL reads with the backslash) -/
def Spec.OnlyWildcardEscapes (s : List UInt8) : Prop :=
  ∀ a b, s = a ++ 0x5c :: b → b.head? = some 0x25 ∨ b.head? = some 0x5f

theorem wild_cons {x : UInt8} {t : Bytes} :
    Spec.OnlyWildcardEscapes (x :: t) ↔
      (x = 0x5c → t.head? = some 0x25 ∨ t.head? = some 0x5f) ∧ Spec.OnlyWildcardEscapes t := by
  constructor
  · intro h
    exact ⟨fun hx => h [] t (by rw [hx]; rfl), fun a b hab => h (x :: a) b (by rw [hab]; rfl)⟩
  · rintro ⟨h1, h2⟩ a b hab
    cases a with
    | nil => cases hab; exact h1 rfl
    | cons y a => cases hab; exact h2 a b rfl

theorem wild_nil : Spec.OnlyWildcardEscapes [] := by
  intro a b h
  simp at h

/-- number of bytes outside ASCII -/
def high (s : Bytes) : Nat := s.countP (fun b => decide (0x80 ≤ b))

theorem high_cons (b : UInt8) (s : Bytes) : high (b :: s) = high [b] + high s := by
  unfold high
  rw [List.countP_cons, List.countP_cons, List.countP_nil]
  omega

theorem high_append (s t : Bytes) : high (s ++ t) = high s + high t := List.countP_append ..

theorem forall_byte {p : UInt8 → Prop} (h : ∀ n < 256, p (UInt8.ofNat n)) (b : UInt8) : p b := by
  have := h b.toNat b.toNat_lt
  rwa [UInt8.ofNat_toNat] at this

/-- what `\c` stands for, in counts -/
theorem escaped_counts : ∀ c : UInt8, high (Spec.escaped c) = high [c] ∧
    (Spec.escaped c).count 0x27 = (if c = 0x27 then 1 else 0) ∧
    (Spec.escaped c).count 0x5c = (if c = 0x5c ∨ c = 0x25 ∨ c = 0x5f then 1 else 0) :=
  forall_byte (by decide +kernel)

theorem stringBody_counts (x : Bytes) : ∀ v r, Spec.stringBody x = some (v, r) →
    high x = high v + high r ∧
    ∃ a q d o w : Nat, x.count 0x27 = 2 * a + q + 1 + r.count 0x27 ∧ v.count 0x27 = a + q ∧
      x.count 0x5c = w + 2 * d + o + q + r.count 0x5c ∧ v.count 0x5c = w + d ∧
      (q = 0 → d = 0 → o = 0 → ∃ y, x = y ++ 0x27 :: r ∧ Spec.OnlyWildcardEscapes y) := by
  induction x using Spec.stringBody.induct with
  | case1 => intro v r h; rw [Spec.stringBody] at h; cases h
  | case2 =>
    intro v r h
    rw [Spec.stringBody, if_pos rfl] at h
    cases h
    exact ⟨by decide, 0, 0, 0, 0, 0, by decide, by decide, by decide, by decide, fun _ _ _ => ⟨[], rfl, wild_nil⟩⟩
  | case3 b hb => intro v r h; rw [Spec.stringBody, if_neg hb] at h; cases h
  | case4 t ih =>
    intro v r h
    rw [stringBody_quotes] at h
    obtain ⟨⟨v', r'⟩, h1, h2⟩ := Option.map_eq_some_iff.1 h
    cases h2
    obtain ⟨e0, a, q, d, o, w, e1, e2, e3, e4, e5⟩ := ih _ _ h1
    refine ⟨?_, a + 1, q, d, o, w, ?_, ?_, ?_, ?_, fun hq hd ho => ?_⟩
    · rw [high_cons 0x27 (0x27 :: t), high_cons 0x27 t, show high [(0x27 : UInt8)] = 0 by decide]
      have := high_cons 0x27 v'
      rw [show high [(0x27 : UInt8)] = 0 by decide] at this
      dsimp only at *
      omega
    · simp only [List.count_cons, beq_self_eq_true, if_true]; omega
    · simp only [List.count_cons, beq_self_eq_true, if_true]; omega
    · simpa [List.count_cons] using e3
    · simpa [List.count_cons] using e4
    · obtain ⟨y, hy, hw⟩ := e5 hq hd ho
      exact ⟨0x27 :: 0x27 :: y, by rw [hy]; rfl, wild_cons.2 ⟨fun h => absurd h (by decide), wild_cons.2 ⟨fun h => absurd h (by decide), hw⟩⟩⟩
  | case5 c t hc =>
    intro v r h
    rw [Spec.stringBody, if_pos rfl, if_neg hc] at h
    cases h
    refine ⟨?_, 0, 0, 0, 0, 0, ?_, by decide, ?_, by decide, fun _ _ _ => ⟨[], rfl, wild_nil⟩⟩
    · rw [high_cons, show high [(0x27 : UInt8)] = 0 by decide, show high ([] : Bytes) = 0 by decide]
    · rw [List.count_cons_self]; omega
    · rw [List.count_cons_of_ne (by decide)]; omega
  | case6 c t h27 ih =>
    intro v r h
    rw [Spec.stringBody, if_neg (by decide), if_pos rfl] at h
    obtain ⟨⟨v', r'⟩, h1, h2⟩ := Option.map_eq_some_iff.1 h
    cases h2
    obtain ⟨e0, a, q, d, o, w, e1, e2, e3, e4, e5⟩ := ih _ _ h1
    obtain ⟨k1, k2, k3⟩ := escaped_counts c
    have hh : high (0x5c :: c :: t) = high (Spec.escaped c ++ v') + high r' := by
      rw [high_cons, high_cons c, high_append, k1, show high [(0x5c : UInt8)] = 0 by decide]; omega
    refine ⟨hh, ?_⟩
    by_cases c1 : c = 0x27
    · subst c1
      refine ⟨a, q + 1, d, o, w, ?_, ?_, ?_, ?_, fun hq => by omega⟩
      · simp only [List.count_cons]; simp; omega
      · rw [List.count_append, k2]; simp; omega
      · simp only [List.count_cons]; simp; omega
      · rw [List.count_append, k3]; simp; omega
    · by_cases c2 : c = 0x5c
      · subst c2
        refine ⟨a, q, d + 1, o, w, ?_, ?_, ?_, ?_, fun _ hd => by omega⟩
        · simp only [List.count_cons]; simp; omega
        · rw [List.count_append, k2]; simp; omega
        · simp only [List.count_cons]; simp; omega
        · rw [List.count_append, k3]; simp; omega
      · by_cases c3 : c = 0x25 ∨ c = 0x5f
        · refine ⟨a, q, d, o, w + 1, ?_, ?_, ?_, ?_, fun hq hd ho => ?_⟩
          · simp only [List.count_cons]; simp [c1]; omega
          · dsimp only
            rw [List.count_append, k2, if_neg c1]; omega
          · simp only [List.count_cons]; simp [c2]; omega
          · dsimp only
            rw [List.count_append, k3, if_pos (.inr c3)]; omega
          · obtain ⟨y, hy, hw⟩ := e5 hq hd ho
            refine ⟨0x5c :: c :: y, by rw [hy]; rfl, wild_cons.2 ⟨fun _ => ?_, wild_cons.2 ⟨fun h => absurd h c2, hw⟩⟩⟩
            simpa using c3
        · refine ⟨a, q, d, o + 1, w, ?_, ?_, ?_, ?_, fun _ _ ho => by omega⟩
          · simp only [List.count_cons]; simp [c1]; omega
          · dsimp only
            rw [List.count_append, k2, if_neg c1]; omega
          · simp only [List.count_cons]; simp [c2]; omega
          · dsimp only
            rw [List.count_append, k3, if_neg (by push Not at c3; simp [c2, c3])]; omega
  | case7 b c t h1 h2 ih =>
    intro v r h
    rw [stringBody_plain b h1 h2 _ (by simp)] at h
    obtain ⟨⟨v', r'⟩, g1, g2⟩ := Option.map_eq_some_iff.1 h
    cases g2
    obtain ⟨e0, a, q, d, o, w, e1, e2, e3, e4, e5⟩ := ih _ _ g1
    refine ⟨?_, a, q, d, o, w, ?_, ?_, ?_, ?_, fun hq hd ho => ?_⟩
    · dsimp only
      rw [high_cons b (c :: t), high_cons b v', e0]; omega
    · rw [List.count_cons_of_ne h1]; exact e1
    · rw [List.count_cons_of_ne h1]; exact e2
    · rw [List.count_cons_of_ne h2]; exact e3
    · rw [List.count_cons_of_ne h2]; exact e4
    · obtain ⟨y, hy, hw⟩ := e5 hq hd ho
      exact ⟨b :: y, by rw [hy]; rfl, wild_cons.2 ⟨fun h => absurd h h2, hw⟩⟩

/-- quotes doubled -/
def doubled (s : Bytes) : Bytes := s.flatMap fun b => if b = 0x27 then [0x27, 0x27] else [b]

theorem doubled_cons (b : UInt8) (s : Bytes) : doubled (b :: s) = (if b = 0x27 then [0x27, 0x27] else [b]) ++ doubled s := by
  unfold doubled; rw [List.flatMap_cons]

theorem doubled_head (s : Bytes) : (doubled s).head? = s.head? := by
  cases s with
  | nil => rfl
  | cons b s => rw [doubled_cons]; split <;> simp [*]

theorem doubled_plain (s : Bytes) (h : 0x27 ∉ s) : doubled s = s := by
  induction s with
  | nil => rfl
  | cons b s ih =>
    rw [doubled_cons, if_neg (fun e : b = 0x27 => h (e ▸ List.mem_cons_self)), ih (fun e => h (List.mem_cons_of_mem _ e))]; rfl

theorem doubled_ascii (s : Bytes) (h : ∀ b ∈ s, b < 0x80) : quoteText s = doubled s := by
  unfold quoteText doubled
  rw [List.flatMap]
  congr 1
  refine List.map_congr_left fun b hb => ?_
  split
  · rfl
  · rw [latin1Char, if_pos (h b hb)]

theorem doubled_count (s : Bytes) : (doubled s).count 0x27 = 2 * s.count 0x27 ∧ (doubled s).count 0x5c = s.count 0x5c := by
  induction s with
  | nil => exact ⟨rfl, rfl⟩
  | cons b s ih =>
    rw [doubled_cons]
    split
    · rename_i hb; subst hb
      simp [List.count_append, List.count_cons, ih.1, ih.2]; omega
    · rename_i hb
      simp [List.count_append, List.count_cons, ih.1, ih.2, hb]

theorem doubled_wild (s : Bytes) : Spec.OnlyWildcardEscapes (doubled s) ↔ Spec.OnlyWildcardEscapes s := by
  induction s with
  | nil => exact Iff.rfl
  | cons b s ih =>
    rw [doubled_cons, wild_cons]
    split
    · rename_i hb
      subst hb
      show Spec.OnlyWildcardEscapes (0x27 :: 0x27 :: doubled s) ↔ _
      rw [wild_cons, wild_cons, ih]
      simp
    · show Spec.OnlyWildcardEscapes (b :: doubled s) ↔ _
      rw [wild_cons, ih, doubled_head]

theorem stringBody_doubled (rest : Bytes) (hr : rest.head? ≠ some 0x27) : ∀ n (s : Bytes), s.length = n →
    Spec.OnlyWildcardEscapes s → Spec.stringBody (doubled s ++ 0x27 :: rest) = some (s, rest) := by
  intro n
  induction n using Nat.strongRecOn with
  | _ n ih =>
    intro s hn hs
    cases s with
    | nil => exact stringBody_end rest hr
    | cons b s =>
      rw [doubled_cons]
      have hs' := wild_cons.1 hs
      have hlen : s.length < n := by rw [← hn]; simp
      have ih1 := ih _ hlen s rfl hs'.2
      by_cases hb : b = 0x27
      · rw [if_pos hb, hb]
        show Spec.stringBody (0x27 :: 0x27 :: (doubled s ++ 0x27 :: rest)) = _
        rw [stringBody_quotes, ih1]; rfl
      · rw [if_neg hb]
        by_cases hc : b = 0x5c
        · have hw := hs'.1 hc
          cases s with
          | nil => rcases hw with h | h <;> cases h
          | cons c s =>
            have hw : c = 0x25 ∨ c = 0x5f := by simpa using hw
            have hc27 : c ≠ 0x27 := by rcases hw with rfl | rfl <;> decide
            rw [doubled_cons, if_neg hc27, hc]
            show Spec.stringBody (0x5c :: c :: (doubled s ++ 0x27 :: rest)) = _
            rw [Spec.stringBody, if_neg (by decide), if_pos rfl,
              ih s.length (by rw [← hn]; simp; omega) s rfl (wild_cons.1 hs'.2).2]
            have : Spec.escaped c = [0x5c, c] := by rcases hw with rfl | rfl <;> decide
            rw [Option.map_some, this]; rfl
        · show Spec.stringBody (b :: (doubled s ++ 0x27 :: rest)) = _
          rw [stringBody_plain b hb hc _ (by simp), ih1]; rfl

theorem high_latin1 : ∀ b : UInt8, high (if b = 0x27 then [0x27, 0x27] else latin1Char b) = 2 * high [b] :=
  forall_byte (by decide +kernel)

theorem high_quoteText (s : Bytes) : high (quoteText s) = 2 * high s := by
  induction s with
  | nil => rfl
  | cons b s ih =>
    have : quoteText (b :: s) = (if b = 0x27 then [0x27, 0x27] else latin1Char b) ++ quoteText s := by
      unfold quoteText; rw [List.map_cons, List.flatten_cons]
    rw [this, high_append, ih, high_latin1, high_cons b s]
    omega

theorem high_zero (s : Bytes) (h : high s = 0) : ∀ b ∈ s, b < 0x80 := by
  intro b hb
  unfold high at h
  rw [List.countP_eq_zero] at h
  have := h b hb
  rw [decide_eq_true_iff] at this
  exact UInt8.not_le.1 this

/-- C42: exactly which strings are read back from the statement they are written to: every backslash is followed by `%`
or `_`, and a string with a quote is ASCII. (Strings on which writing panics: `C42_panic_iff`.) -/
theorem C42_string_iff (ft : FloatText) (ct : ColumnType) (u : Bool) (v : BinaryColumnValue) (s rest text : Bytes)
    (hv : v = .varString s ∨ v = .string s) (ht : StmtColumnValue.toSqlLiteral ft ⟨ct, u, v⟩ = some (text, true))
    (hr : rest.head? ≠ some 0x27) :
    Spec.stringLiteral (Spec.quotedIf true text ++ rest) = some (s, rest) ↔
      Spec.OnlyWildcardEscapes s ∧ (0x27 ∈ s → ∀ b ∈ s, b < 0x80) := by
  have hread : Spec.stringLiteral (Spec.quotedIf true text ++ rest) = Spec.stringBody (text ++ 0x27 :: rest) := by
    show Spec.stringLiteral (0x27 :: (text ++ [0x27]) ++ rest) = _
    rw [List.cons_append, List.append_assoc]
    rfl
  rw [hread]
  have htext : text = if 0x27 ∈ s then quoteText s else s := by
    have : (if ¬ s.contains 0x27 then (utf8Unwrap s).map (·, true) else some (quoteText s, true)) = some (text, true) := by
      rcases hv with rfl | rfl <;> exact ht
    by_cases hq : 0x27 ∈ s
    · rw [if_neg (by simpa using hq)] at this
      rw [if_pos hq]
      cases this; rfl
    · rw [if_pos (by simpa using hq)] at this
      rw [if_neg hq]
      unfold utf8Unwrap at this
      split at this
      · cases this; rfl
      · cases this
  have core : Spec.stringBody (doubled s ++ 0x27 :: rest) = some (s, rest) ↔ Spec.OnlyWildcardEscapes s := by
    constructor
    · intro h
      obtain ⟨-, a, q, d, o, w, e1, e2, e3, e4, e5⟩ := stringBody_counts _ _ _ h
      obtain ⟨k1, k2⟩ := doubled_count s
      rw [List.count_append, List.count_cons_self, k1] at e1
      rw [List.count_append, List.count_cons_of_ne (by decide), k2] at e3
      obtain ⟨y, hy, hw⟩ := e5 (by omega) (by omega) (by omega)
      rw [← doubled_wild, List.append_cancel_right hy]
      exact hw
    · exact stringBody_doubled rest hr _ s rfl
  by_cases hq : 0x27 ∈ s
  · rw [htext, if_pos hq]
    by_cases ha : ∀ b ∈ s, b < 0x80
    · rw [doubled_ascii s ha, core]
      exact ⟨fun h => ⟨h, fun _ => ha⟩, fun h => h.1⟩
    · constructor
      · intro h
        have := (stringBody_counts _ _ _ h).1
        rw [high_append, high_cons, high_quoteText, show high [(0x27 : UInt8)] = 0 by decide] at this
        exact absurd (high_zero s (by omega)) ha
      · intro h; exact absurd (h.2 hq) ha
  · rw [htext, if_neg hq]
    rw [doubled_plain s hq] at core
    rw [core]
    exact ⟨fun h => ⟨h, fun h' => absurd h' hq⟩, fun h => h.1⟩

theorem varstring_literal (ft : FloatText) (s : Bytes) : StmtColumnValue.toSqlLiteral ft (.newVarstring s) =
    if ¬ s.contains 0x27 then (utf8Unwrap s).map (·, true) else some (quoteText s, true) := rfl

/-- a string that survives and one that does not -/
example (ft : FloatText) :
    StmtColumnValue.toSqlLiteral ft (.newVarstring (Spec.ascii "50\\% 'x'")) = some (Spec.ascii "50\\% ''x''", true) ∧
    StmtColumnValue.toSqlLiteral ft (.newVarstring (Spec.ascii "C:\\temp")) = some (Spec.ascii "C:\\temp", true) ∧
    Spec.stringLiteral (Spec.quotedIf true (Spec.ascii "50\\% ''x''")) = some (Spec.ascii "50\\% 'x'", []) ∧
    Spec.stringLiteral (Spec.quotedIf true (Spec.ascii "C:\\temp")) = some (Spec.ascii "C:\temp", []) :=
  ⟨(varstring_literal ft _).trans (by decide +kernel), (varstring_literal ft _).trans (by decide +kernel),
   by decide +kernel, by decide +kernel⟩

end Mybin
