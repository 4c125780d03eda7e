/-
C92: text. Bytes are taken as a `String` exactly when they are the UTF-8 form of some characters.
-/
import Verif.Props.C66_C69

namespace Mybin

/-- the UTF-8 form of characters, after Lean's own definition for one character -/
def Spec.utf8 (cs : List Char) : Bytes := cs.flatMap String.utf8EncodeChar

theorem utf8_cons (c : Char) (cs : List Char) : Spec.utf8 (c :: cs) = String.utf8EncodeChar c ++ Spec.utf8 cs := rfl

theorem char_ranges (c : Char) : c.val.toNat < 0xd800 ∨ (0xdfff < c.val.toNat ∧ c.val.toNat < 0x110000) := c.valid

/-- one character after another -/
theorem validUtf8_char (c : Char) (t : Bytes) : validUtf8 (String.utf8EncodeChar c ++ t) = validUtf8 t := by
  have hc := char_ranges c
  unfold String.utf8EncodeChar
  dsimp only
  generalize c.val.toNat = v at hc ⊢
  have tn : ∀ n : Nat, n < 256 → (UInt8.ofNat n).toNat = n := fun n h => UInt8.toNat_ofNat_of_lt' h
  split
  · rw [List.singleton_append, validUtf8.eq_def]
    dsimp only
    rw [if_pos]
    rw [UInt8.le_iff_toNat_le, tn _ (by omega), UInt8.toNat_ofNat]
    omega
  · split
    · rw [List.cons_append, List.singleton_append, validUtf8.eq_def]
      dsimp only
      have a := tn (v / 64 % 32 + 192) (by omega)
      have b := tn (v % 64 + 128) (by omega)
      generalize UInt8.ofNat (v / 64 % 32 + 192) = x at a ⊢
      generalize UInt8.ofNat (v % 64 + 128) = y at b ⊢
      simp only [isCont, UInt8.le_iff_toNat_le, UInt8.toNat_ofNat, Bool.and_eq_true, decide_eq_true_eq, a, b]
      rw [if_neg (by omega), if_pos (by omega)]
      simp
      omega
    · split
      · rw [List.cons_append, List.cons_append, List.singleton_append, validUtf8.eq_def]
        dsimp only
        have a := tn (v / 4096 % 16 + 224) (by omega)
        have b := tn (v / 64 % 64 + 128) (by omega)
        have d := tn (v % 64 + 128) (by omega)
        generalize UInt8.ofNat (v / 4096 % 16 + 224) = x at a ⊢
        generalize UInt8.ofNat (v / 64 % 64 + 128) = y at b ⊢
        generalize UInt8.ofNat (v % 64 + 128) = z at d ⊢
        simp only [isCont, UInt8.le_iff_toNat_le, ← UInt8.toNat_inj, UInt8.toNat_ofNat, Bool.and_eq_true,
          decide_eq_true_eq, a, b, d]
        rw [if_neg (by omega), if_neg (by omega), if_pos (by omega)]
        have key : (if (v / 4096 % 16 + 224) = 224 % 2 ^ 8 then
            (decide (160 % 2 ^ 8 ≤ v / 64 % 64 + 128) && decide (v / 64 % 64 + 128 ≤ 191 % 2 ^ 8))
          else if (v / 4096 % 16 + 224) = 237 % 2 ^ 8 then
            (decide (128 % 2 ^ 8 ≤ v / 64 % 64 + 128) && decide (v / 64 % 64 + 128 ≤ 159 % 2 ^ 8))
          else (decide (128 % 2 ^ 8 ≤ v / 64 % 64 + 128) && decide (v / 64 % 64 + 128 ≤ 191 % 2 ^ 8))) = true := by
          split
          · simp; omega
          · split <;> (simp; omega)
        rw [key]
        simp
        omega
      · rw [List.cons_append, List.cons_append, List.cons_append, List.singleton_append, validUtf8.eq_def]
        dsimp only
        have a := tn (v / 262144 % 8 + 240) (by omega)
        have b := tn (v / 4096 % 64 + 128) (by omega)
        have d := tn (v / 64 % 64 + 128) (by omega)
        have e := tn (v % 64 + 128) (by omega)
        generalize UInt8.ofNat (v / 262144 % 8 + 240) = x at a ⊢
        generalize UInt8.ofNat (v / 4096 % 64 + 128) = y at b ⊢
        generalize UInt8.ofNat (v / 64 % 64 + 128) = z at d ⊢
        generalize UInt8.ofNat (v % 64 + 128) = w at e ⊢
        simp only [isCont, UInt8.le_iff_toNat_le, ← UInt8.toNat_inj, UInt8.toNat_ofNat, Bool.and_eq_true,
          decide_eq_true_eq, a, b, d, e]
        rw [if_neg (by omega), if_neg (by omega), if_neg (by omega), if_pos (by omega)]
        have key : (if (v / 262144 % 8 + 240) = 240 % 2 ^ 8 then
            (decide (144 % 2 ^ 8 ≤ v / 4096 % 64 + 128) && decide (v / 4096 % 64 + 128 ≤ 191 % 2 ^ 8))
          else if (v / 262144 % 8 + 240) = 244 % 2 ^ 8 then
            (decide (128 % 2 ^ 8 ≤ v / 4096 % 64 + 128) && decide (v / 4096 % 64 + 128 ≤ 143 % 2 ^ 8))
          else (decide (128 % 2 ^ 8 ≤ v / 4096 % 64 + 128) && decide (v / 4096 % 64 + 128 ≤ 191 % 2 ^ 8))) = true := by
          split
          · simp; omega
          · split <;> (simp; omega)
        rw [key]
        simp
        omega

theorem validUtf8_utf8 (cs : List Char) : validUtf8 (Spec.utf8 cs) = true := by
  induction cs with
  | nil => rfl
  | cons c cs ih => rw [utf8_cons, validUtf8_char, ih]

/-- the character with a number -/
theorem char_of (v : Nat) (h : v < 0xd800 ∨ (0xdfff < v ∧ v < 0x110000)) : ∃ c : Char, c.val.toNat = v :=
  ⟨⟨UInt32.ofNat v, by
    show (UInt32.ofNat v).toNat.isValidChar
    rw [UInt32.toNat_ofNat_of_lt' (by show v < 2 ^ 32; omega)]; exact h⟩,
    UInt32.toNat_ofNat_of_lt' (by show v < 2 ^ 32; omega)⟩

theorem ofNat_eq (b : UInt8) (n : Nat) (h : n = b.toNat) : UInt8.ofNat n = b := by rw [h, UInt8.ofNat_toNat]

theorem utf8_of_valid (bs : Bytes) : validUtf8 bs = true → ∃ cs, bs = Spec.utf8 cs := by
  induction bs using validUtf8.induct with
  | case1 => intro _; exact ⟨[], rfl⟩
  | case2 b t h1 ih =>
    intro h
    rw [validUtf8.eq_def] at h
    dsimp only at h
    rw [if_pos h1] at h
    obtain ⟨cs, rfl⟩ := ih h
    rw [UInt8.le_iff_toNat_le, UInt8.toNat_ofNat] at h1
    obtain ⟨c, hc⟩ := char_of b.toNat (by omega)
    refine ⟨c :: cs, ?_⟩
    rw [utf8_cons, String.utf8EncodeChar]
    rw [hc, if_pos (by omega), UInt8.ofNat_toNat, List.singleton_append]
  | case3 b h1 h2 c1 t1 ih =>
    intro h
    rw [validUtf8.eq_def] at h
    dsimp only at h
    rw [if_neg h1, if_pos h2, Bool.and_eq_true] at h
    obtain ⟨hc1, h⟩ := h
    obtain ⟨cs, rfl⟩ := ih h
    simp only [isCont, UInt8.le_iff_toNat_le, UInt8.toNat_ofNat, Bool.and_eq_true, decide_eq_true_eq] at h1 h2 hc1
    obtain ⟨c, hc⟩ := char_of ((b.toNat - 192) * 64 + (c1.toNat - 128)) (by omega)
    refine ⟨c :: cs, ?_⟩
    rw [utf8_cons, String.utf8EncodeChar]
    rw [hc, if_neg (by omega), if_pos (by omega), ofNat_eq b _ (by omega), ofNat_eq c1 _ (by omega)]
    rfl
  | case4 b t h1 h2 h3 =>
    intro h
    rw [validUtf8.eq_def] at h
    dsimp only at h
    rw [if_neg h1, if_pos h2] at h
    match t, h3, h with
    | [], _, h => cases h
    | c1 :: t1, h3, _ => exact (h3 c1 t1 rfl).elim
  | case5 b h1 h2 h3 c1 c2 t2 ih =>
    intro h
    rw [validUtf8.eq_def] at h
    dsimp only at h
    rw [if_neg h1, if_neg h2, if_pos h3, Bool.and_eq_true, Bool.and_eq_true] at h
    obtain ⟨⟨hc1, hc2⟩, h⟩ := h
    obtain ⟨cs, rfl⟩ := ih h
    have k1 : (b.toNat = 224 → 160 ≤ c1.toNat) ∧ (b.toNat = 237 → c1.toNat ≤ 159) ∧ 128 ≤ c1.toNat ∧ c1.toNat ≤ 191 := by
      simp only [isCont, UInt8.le_iff_toNat_le, ← UInt8.toNat_inj, UInt8.toNat_ofNat] at hc1
      split at hc1
      · simp only [Bool.and_eq_true, decide_eq_true_eq] at hc1; omega
      · split at hc1 <;> (simp only [Bool.and_eq_true, decide_eq_true_eq] at hc1; omega)
    simp only [isCont, UInt8.le_iff_toNat_le, UInt8.toNat_ofNat, Bool.and_eq_true, decide_eq_true_eq] at h1 h2 h3 hc2
    obtain ⟨c, hc⟩ := char_of ((b.toNat - 224) * 4096 + (c1.toNat - 128) * 64 + (c2.toNat - 128)) (by omega)
    refine ⟨c :: cs, ?_⟩
    rw [utf8_cons, String.utf8EncodeChar]
    rw [hc, if_neg (by omega), if_neg (by omega), if_pos (by omega), ofNat_eq b _ (by omega),
      ofNat_eq c1 _ (by omega), ofNat_eq c2 _ (by omega)]
    rfl
  | case6 b t h1 h2 h3 h4 =>
    intro h
    rw [validUtf8.eq_def] at h
    dsimp only at h
    rw [if_neg h1, if_neg h2, if_pos h3] at h
    match t, h4, h with
    | [], _, h => cases h
    | [_], _, h => cases h
    | c1 :: c2 :: t2, h4, _ => exact (h4 c1 c2 t2 rfl).elim
  | case7 b h1 h2 h3 h4 c1 c2 c3 t3 ih =>
    intro h
    rw [validUtf8.eq_def] at h
    dsimp only at h
    rw [if_neg h1, if_neg h2, if_neg h3, if_pos h4, Bool.and_eq_true, Bool.and_eq_true, Bool.and_eq_true] at h
    obtain ⟨⟨⟨hc1, hc2⟩, hc3⟩, h⟩ := h
    obtain ⟨cs, rfl⟩ := ih h
    have k1 : (b.toNat = 240 → 144 ≤ c1.toNat) ∧ (b.toNat = 244 → c1.toNat ≤ 143) ∧ 128 ≤ c1.toNat ∧ c1.toNat ≤ 191 := by
      simp only [isCont, UInt8.le_iff_toNat_le, ← UInt8.toNat_inj, UInt8.toNat_ofNat] at hc1
      split at hc1
      · simp only [Bool.and_eq_true, decide_eq_true_eq] at hc1; omega
      · split at hc1 <;> (simp only [Bool.and_eq_true, decide_eq_true_eq] at hc1; omega)
    simp only [isCont, UInt8.le_iff_toNat_le, UInt8.toNat_ofNat, Bool.and_eq_true, decide_eq_true_eq] at h1 h2 h3 h4 hc2 hc3
    obtain ⟨c, hc⟩ := char_of ((b.toNat - 240) * 262144 + (c1.toNat - 128) * 4096 + (c2.toNat - 128) * 64
      + (c3.toNat - 128)) (by omega)
    refine ⟨c :: cs, ?_⟩
    rw [utf8_cons, String.utf8EncodeChar]
    rw [hc, if_neg (by omega), if_neg (by omega), if_neg (by omega), ofNat_eq b _ (by omega),
      ofNat_eq c1 _ (by omega), ofNat_eq c2 _ (by omega), ofNat_eq c3 _ (by omega)]
    rfl
  | case8 b t h1 h2 h3 h4 h5 =>
    intro h
    rw [validUtf8.eq_def] at h
    dsimp only at h
    rw [if_neg h1, if_neg h2, if_neg h3, if_pos h4] at h
    match t, h5, h with
    | [], _, h => cases h
    | [_], _, h => cases h
    | [_, _], _, h => cases h
    | c1 :: c2 :: c3 :: t3, h5, _ => exact (h5 c1 c2 c3 t3 rfl).elim
  | case9 b t h1 h2 h3 h4 =>
    intro h
    rw [validUtf8.eq_def] at h
    dsimp only at h
    rw [if_neg h1, if_neg h2, if_neg h3, if_neg h4] at h
    cases h

/-- the bytes of a string -/
def Spec.bytesOf (s : String) : Bytes := s.toUTF8.data.toList

theorem bytesOf_ofList (cs : List Char) : Spec.bytesOf (String.ofList cs) = Spec.utf8 cs := by
  unfold Spec.bytesOf Spec.utf8
  rw [String.toUTF8_eq_toByteArray, String.toByteArray_ofList, List.utf8Encode, List.data_toByteArray]

theorem validUtf8_iff (bs : Bytes) : validUtf8 bs = true ↔ ∃ s : String, bs = Spec.bytesOf s := by
  constructor
  · intro h
    obtain ⟨cs, rfl⟩ := utf8_of_valid bs h
    exact ⟨String.ofList cs, (bytesOf_ofList cs).symm⟩
  · rintro ⟨s, rfl⟩
    rw [← String.ofList_toList (s := s), bytesOf_ofList]
    exact validUtf8_utf8 _

/-- C92: a text column is read as a string exactly when its bytes are the bytes of a string, and then it is that string
(strings with the same bytes are equal); other bytes are an error. -/
theorem C92_text (bs : Bytes) :
    (∀ s : String, bs = Spec.bytesOf s → stringFromText (some bs) = .ok (some (Spec.bytesOf s))) ∧
    ((¬∃ s : String, bs = Spec.bytesOf s) → stringFromText (some bs) = .err .utf8) ∧
    ∀ s s' : String, Spec.bytesOf s = Spec.bytesOf s' → s = s' := by
  refine ⟨?_, ?_, ?_⟩
  · rintro s rfl
    exact (C66_strings _).1 ((validUtf8_iff _).2 ⟨s, rfl⟩)
  · intro h
    rw [← validUtf8_iff, Bool.not_eq_true] at h
    exact (C66_strings _).2.1 h
  · intro s s' h
    unfold Spec.bytesOf at h
    rw [String.toUTF8_eq_toByteArray, String.toUTF8_eq_toByteArray] at h
    exact String.toByteArray_inj.1 (ByteArray.ext (Array.toList_inj.1 h))

/-- C92: columns of the binary protocol -/
theorem C92_binary (v : BinaryColumnValue) (bs : Bytes) :
    stringFromBinary v = .ok (some bs) ↔
      (∃ s : String, bs = Spec.bytesOf s) ∧ v ∈ [.blob bs, .varString bs, .string bs] := by
  rw [← validUtf8_iff]
  exact (C67_strings_exact v bs).2

/-- C92: wherever a packet or an event has text (a name, a file, a message), the bytes of a string are taken as they are and
other bytes are an error, never a changed text. -/
theorem C92_field (bs rest : Bytes) :
    ((∃ s : String, bs = Spec.bytesOf s) → toUtf8 bs rest = .ok bs rest) ∧
    ((¬∃ s : String, bs = Spec.bytesOf s) → toUtf8 bs rest = .err .utf8 rest) := by
  rw [← validUtf8_iff]
  constructor
  · intro h; unfold toUtf8; rw [if_pos h]; rfl
  · intro h; unfold toUtf8; rw [if_neg h]; rfl

/-- an umlaut, a sign of three bytes and one of four; a lone continuation byte and a surrogate are not text -/
example : Spec.bytesOf "aä€😀" = [0x61, 0xc3, 0xa4, 0xe2, 0x82, 0xac, 0xf0, 0x9f, 0x98, 0x80] ∧
    validUtf8 [0x61, 0x80] = false ∧ validUtf8 [0xed, 0xa0, 0x80] = false := by
  refine ⟨?_, by decide +kernel, by decide +kernel⟩
  decide +kernel

/-! ### white space -/

/-- Unicode's White_Space characters -/
def Spec.white (c : Char) : Bool :=
  let n := c.val.toNat
  (9 ≤ n && n ≤ 13) || n == 0x20 || n == 0x85 || n == 0xa0 || n == 0x1680 || (0x2000 ≤ n && n ≤ 0x200a) || n == 0x2028 ||
    n == 0x2029 || n == 0x202f || n == 0x205f || n == 0x3000

theorem whiteSpace_char (c : Char) (t : Bytes) :
    whiteSpace (String.utf8EncodeChar c ++ t) = if Spec.white c then some t else none := by
  have hc := char_ranges c
  have tn : ∀ n : Nat, n < 256 → (UInt8.ofNat n).toNat = n := fun n h => UInt8.toNat_ofNat_of_lt' h
  unfold String.utf8EncodeChar Spec.white
  dsimp only
  generalize c.val.toNat = v at hc ⊢
  have w : ∀ (p : Prop) [Decidable p] (b : Bool), (p ↔ b = true) →
      (if p then some t else none) = if b then some t else none := by
    intro p _ b h
    by_cases hp : p
    · rw [if_pos hp, if_pos (h.1 hp)]
    · rw [if_neg hp, if_neg (fun hb => hp (h.2 hb))]
  split
  · rw [List.singleton_append]
    unfold whiteSpace
    have a := tn v (by omega)
    generalize UInt8.ofNat v = x at a ⊢
    by_cases hw : x = 0x20 ∨ (0x09 ≤ x ∧ x ≤ 0x0d)
    · rw [if_pos hw]
      simp only [UInt8.le_iff_toNat_le, ← UInt8.toNat_inj, UInt8.toNat_ofNat] at hw
      rw [if_pos]
      simp only [Bool.or_eq_true, Bool.and_eq_true, decide_eq_true_eq, beq_iff_eq]
      omega
    · rw [if_neg hw]
      simp only [UInt8.le_iff_toNat_le, ← UInt8.toNat_inj, UInt8.toNat_ofNat] at hw
      rw [if_neg]
      · cases t with
        | nil => rfl
        | cons c t =>
          dsimp only
          rw [if_neg]
          · cases t with
            | nil => rfl
            | cons d t =>
              dsimp only
              rw [if_neg]
              simp only [UInt8.le_iff_toNat_le, ← UInt8.toNat_inj, UInt8.toNat_ofNat]
              omega
          · simp only [← UInt8.toNat_inj, UInt8.toNat_ofNat]
            omega
      · simp only [Bool.or_eq_true, Bool.and_eq_true, decide_eq_true_eq, beq_iff_eq]
        omega
  · split
    · rw [List.cons_append, List.singleton_append]
      unfold whiteSpace
      have a := tn (v / 64 % 32 + 192) (by omega)
      have b := tn (v % 64 + 128) (by omega)
      generalize UInt8.ofNat (v / 64 % 32 + 192) = x at a ⊢
      generalize UInt8.ofNat (v % 64 + 128) = y at b ⊢
      dsimp only
      rw [if_neg (by simp only [UInt8.le_iff_toNat_le, ← UInt8.toNat_inj, UInt8.toNat_ofNat]; omega)]
      by_cases hw : x = 0xc2 ∧ (y = 0x85 ∨ y = 0xa0)
      · rw [if_pos hw]
        simp only [← UInt8.toNat_inj, UInt8.toNat_ofNat] at hw
        rw [if_pos]
        simp only [Bool.or_eq_true, Bool.and_eq_true, decide_eq_true_eq, beq_iff_eq]
        omega
      · rw [if_neg hw]
        simp only [← UInt8.toNat_inj, UInt8.toNat_ofNat] at hw
        rw [if_neg]
        · cases t with
          | nil => rfl
          | cons d t =>
            dsimp only
            rw [if_neg]
            simp only [UInt8.le_iff_toNat_le, ← UInt8.toNat_inj, UInt8.toNat_ofNat]
            omega
        · simp only [Bool.or_eq_true, Bool.and_eq_true, decide_eq_true_eq, beq_iff_eq]
          omega
    · split
      · rw [List.cons_append, List.cons_append, List.singleton_append]
        unfold whiteSpace
        have a := tn (v / 4096 % 16 + 224) (by omega)
        have b := tn (v / 64 % 64 + 128) (by omega)
        have d := tn (v % 64 + 128) (by omega)
        generalize UInt8.ofNat (v / 4096 % 16 + 224) = x at a ⊢
        generalize UInt8.ofNat (v / 64 % 64 + 128) = y at b ⊢
        generalize UInt8.ofNat (v % 64 + 128) = z at d ⊢
        dsimp only
        rw [if_neg (by simp only [UInt8.le_iff_toNat_le, ← UInt8.toNat_inj, UInt8.toNat_ofNat]; omega),
          if_neg (by simp only [← UInt8.toNat_inj, UInt8.toNat_ofNat]; omega)]
        refine w _ _ ?_
        simp only [UInt8.le_iff_toNat_le, ← UInt8.toNat_inj, UInt8.toNat_ofNat, Bool.or_eq_true, Bool.and_eq_true,
          decide_eq_true_eq, beq_iff_eq, a, b, d]
        omega
      · rw [List.cons_append, List.cons_append, List.cons_append, List.singleton_append]
        unfold whiteSpace
        have a := tn (v / 262144 % 8 + 240) (by omega)
        generalize UInt8.ofNat (v / 262144 % 8 + 240) = x at a ⊢
        dsimp only
        rw [if_neg (by simp only [UInt8.le_iff_toNat_le, ← UInt8.toNat_inj, UInt8.toNat_ofNat]; omega),
          if_neg (by simp only [← UInt8.toNat_inj, UInt8.toNat_ofNat]; omega),
          if_neg (by simp only [UInt8.le_iff_toNat_le, ← UInt8.toNat_inj, UInt8.toNat_ofNat]; omega), if_neg]
        simp only [Bool.or_eq_true, Bool.and_eq_true, decide_eq_true_eq, beq_iff_eq]
        omega

theorem dropWhile_twice {α : Type} (p : α → Bool) (l : List α) : (l.dropWhile p).dropWhile p = l.dropWhile p := by
  induction l with
  | nil => rfl
  | cons a l ih =>
    by_cases h : p a = true
    · rw [List.dropWhile_cons_of_pos h, ih]
    · rw [List.dropWhile_cons_of_neg h, List.dropWhile_cons_of_neg h]

theorem trimStart_utf8 (cs : List Char) : trimStart (Spec.utf8 cs) = Spec.utf8 (cs.dropWhile Spec.white) := by
  induction cs with
  | nil => rw [trimStart.eq_def]; rfl
  | cons c cs ih =>
    have h := whiteSpace_char c (Spec.utf8 cs)
    rw [utf8_cons, trimStart.eq_def]
    by_cases hw : Spec.white c = true
    · rw [if_pos hw] at h
      rw [List.dropWhile_cons_of_pos hw, ← ih]
      split
      · rename_i r hr; rw [h] at hr; injection hr with hr; rw [hr]
      · rename_i hr; rw [h] at hr; cases hr
    · rw [if_neg hw] at h
      rw [List.dropWhile_cons_of_neg hw, utf8_cons]
      split
      · rename_i r hr; rw [h] at hr; cases hr
      · rfl

/-- C92: a TIME given as text is read without the white space before it: the characters Unicode calls white space, and only
these. -/
theorem C92_leading_space (s : String) :
    timeFromText (some (Spec.bytesOf s)) =
      timeFromText (some (Spec.bytesOf (String.ofList (s.toList.dropWhile Spec.white)))) ∧
    trimStart (Spec.bytesOf s) = Spec.bytesOf (String.ofList (s.toList.dropWhile Spec.white)) := by
  have e : Spec.bytesOf s = Spec.utf8 s.toList := by rw [← bytesOf_ofList, String.ofList_toList]
  have h : trimStart (Spec.bytesOf s) = Spec.bytesOf (String.ofList (s.toList.dropWhile Spec.white)) := by
    rw [e, bytesOf_ofList, trimStart_utf8]
  have h2 : trimStart (Spec.bytesOf (String.ofList (s.toList.dropWhile Spec.white)))
      = Spec.bytesOf (String.ofList (s.toList.dropWhile Spec.white)) := by
    rw [bytesOf_ofList, trimStart_utf8, dropWhile_twice]
  refine ⟨?_, h⟩
  unfold timeFromText
  dsimp only
  rw [h, h2, (validUtf8_iff _).2 ⟨_, rfl⟩, (validUtf8_iff _).2 ⟨_, rfl⟩]

/-- an ideographic space before a time -/
example : timeFromText (some (Spec.bytesOf "\u3000\t12:34:56")) = .ok (some ⟨false, 0, 12, 34, 56, 0⟩) := by
  decide +kernel

end Mybin
