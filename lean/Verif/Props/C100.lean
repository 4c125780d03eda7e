/-
C100: the JSON text of change records.
-/
import Verif.Lemmas.JsonText
import Verif.Props.C85
import Verif.Props.C92

namespace Mybin

open Spec (Covers Front logged ColKind Val Fits Lit Column Row Change Cell Image CellsFit Schema TableId JsonNumbers JValue
  binary32 binary64 DoubleRead DoublesReadBack)

/-! ### the library functions -/

theorem base64Digit_eq (n : Nat) (h : n < 64) : base64Digit n = Spec.base64Char n := by
  have : ∀ n < 64, base64Digit n = Spec.base64Char n := by decide +kernel
  exact this n h

theorem base64Encode_eq (b : Bytes) : base64Encode b = Spec.base64 b := by
  induction b using Spec.base64.induct with
  | case1 => rfl
  | case2 a =>
    have ha := a.toNat_lt
    simp only [base64Encode, Spec.base64]
    rw [base64Digit_eq _ (by omega), base64Digit_eq _ (by omega)]
    have e1 : a.toNat * 2 ^ 16 / 2 ^ 18 = a.toNat / 4 := by omega
    have e2 : a.toNat * 2 ^ 16 / 2 ^ 12 % 64 = a.toNat % 4 * 16 := by omega
    rw [e1, e2]
  | case3 a b =>
    have ha := a.toNat_lt
    have hb := b.toNat_lt
    simp only [base64Encode, Spec.base64]
    rw [base64Digit_eq _ (by omega), base64Digit_eq _ (by omega), base64Digit_eq _ (by omega)]
    have e1 : (a.toNat * 2 ^ 16 + b.toNat * 2 ^ 8) / 2 ^ 18 = a.toNat / 4 := by omega
    have e2 : (a.toNat * 2 ^ 16 + b.toNat * 2 ^ 8) / 2 ^ 12 % 64 = a.toNat % 4 * 16 + b.toNat / 16 := by omega
    have e3 : (a.toNat * 2 ^ 16 + b.toNat * 2 ^ 8) / 2 ^ 6 % 64 = b.toNat % 16 * 4 := by omega
    rw [e1, e2, e3]
  | case4 a b c t ih =>
    have ha := a.toNat_lt
    have hb := b.toNat_lt
    have hc := c.toNat_lt
    simp only [base64Encode, Spec.base64]
    rw [base64Digit_eq _ (by omega), base64Digit_eq _ (by omega), base64Digit_eq _ (by omega), base64Digit_eq _ (by omega), ih]
    have e1 : (a.toNat * 2 ^ 16 + b.toNat * 2 ^ 8 + c.toNat) / 2 ^ 18 = a.toNat / 4 := by omega
    have e2 : (a.toNat * 2 ^ 16 + b.toNat * 2 ^ 8 + c.toNat) / 2 ^ 12 % 64 = a.toNat % 4 * 16 + b.toNat / 16 := by omega
    have e3 : (a.toNat * 2 ^ 16 + b.toNat * 2 ^ 8 + c.toNat) / 2 ^ 6 % 64 = b.toNat % 16 * 4 + c.toNat / 64 := by omega
    have e4 : (a.toNat * 2 ^ 16 + b.toNat * 2 ^ 8 + c.toNat) % 64 = c.toNat % 64 := by omega
    rw [e1, e2, e3, e4]

theorem jsonLib_base64 : jsonLib.base64 = Spec.base64 := funext base64Encode_eq

/-- a double from its parts -/
theorem binary64_parts (s e m : Nat) (hs : s < 2) (he : e < 2 ^ 11) (hm : m < 2 ^ 52) :
    s * 2 ^ 63 + e * 2 ^ 52 + m < 2 ^ 64 ∧
    binary64 (s * 2 ^ 63 + e * 2 ^ 52 + m) =
      if e = 2 ^ 11 - 1 then none else some (decide (s = 1), if e = 0 then m else (2 ^ 52 + m) * 2 ^ (e - 1)) := by
  have h1 : (s * 2 ^ 63 + e * 2 ^ 52 + m) / 2 ^ 52 % 2 ^ 11 = e := by omega
  have h2 : (s * 2 ^ 63 + e * 2 ^ 52 + m) % 2 ^ 52 = m := by omega
  have h3 : (s * 2 ^ 63 + e * 2 ^ 52 + m).testBit 63 = decide (s = 1) := by
    rw [Nat.testBit_eq_decide_div_mod_eq]
    have : (s * 2 ^ 63 + e * 2 ^ 52 + m) / 2 ^ 63 % 2 = s := by omega
    rw [this]
  refine ⟨by omega, ?_⟩
  simp only [binary64, h1, h2, h3]

/-- C100: the double that a FLOAT is turned into has the value of the float; infinities and NaN stay outside the numbers. -/
theorem C100_widen (n : Nat) (h : n < 2 ^ 32) : f32ToF64 n < 2 ^ 64 ∧ binary64 (f32ToF64 n) = binary32 n := by
  have hs : n / 2 ^ 31 < 2 := by omega
  have hm : n % 2 ^ 23 < 2 ^ 23 := by omega
  have hbit : n.testBit 31 = decide (n / 2 ^ 31 = 1) := by
    rw [Nat.testBit_eq_decide_div_mod_eq]
    have : n / 2 ^ 31 % 2 = n / 2 ^ 31 := by omega
    rw [this]
  have hee : n / 2 ^ 23 % 2 ^ 8 < 2 ^ 8 := by omega
  unfold f32ToF64 binary32
  have hB : 1074 - 149 = 925 := rfl
  generalize 1074 - 149 = B at hB ⊢
  rw [hbit]
  dsimp only
  generalize n / 2 ^ 31 = s at *
  generalize n / 2 ^ 23 % 2 ^ 8 = e at *
  generalize n % 2 ^ 23 = m at *
  by_cases h1 : e = 2 ^ 8 - 1
  · rw [if_pos h1, if_pos h1]
    have hx : (if m = 0 then 0 else (m ||| 2 ^ 22) * 2 ^ 29) < 2 ^ 52 := by
      split
      · omega
      · have : m ||| 2 ^ 22 < 2 ^ 23 := Nat.or_lt_two_pow hm (by omega)
        omega
    have h2 := binary64_parts s (2 ^ 11 - 1) _ hs (by omega) hx
    rw [if_pos rfl] at h2
    exact h2
  · rw [if_neg h1, if_neg h1]
    by_cases h0 : e = 0
    · rw [if_pos h0, if_pos h0]
      by_cases hm0 : m = 0
      · rw [if_pos hm0, hm0]
        have h2 := binary64_parts s 0 0 hs (by omega) (by omega)
        rw [if_neg (by omega), if_pos rfl] at h2
        simpa using h2
      · rw [if_neg hm0]
        have hlo : 2 ^ Nat.log2 m ≤ m := Nat.log2_self_le hm0
        have hhi : m < 2 ^ (Nat.log2 m + 1) := Nat.lt_log2_self
        have hk : Nat.log2 m < 23 := (Nat.log2_lt hm0).2 hm
        generalize Nat.log2 m = k at *
        have hsplit : 2 ^ 52 = 2 ^ k * 2 ^ (52 - k) := by rw [← pow_add]; congr 1; omega
        have hx : (m - 2 ^ k) * 2 ^ (52 - k) < 2 ^ 52 := by
          rw [hsplit]
          refine Nat.mul_lt_mul_of_pos_right ?_ (by positivity)
          rw [pow_succ] at hhi
          omega
        have h2 := binary64_parts s (k + 874) _ hs (by omega) hx
        rw [if_neg (by omega), if_neg (by omega)] at h2
        refine ⟨h2.1, h2.2.trans ?_⟩
        have e1 : 2 ^ 52 + (m - 2 ^ k) * 2 ^ (52 - k) = m * 2 ^ (52 - k) := by
          rw [hsplit, ← Nat.add_mul]
          congr 1
          omega
        rw [e1, mul_assoc, ← pow_add, show 52 - k + (k + 874 - 1) = B by omega]
    · rw [if_neg h0, if_neg h0]
      have h2 := binary64_parts s (e + 896) (m * 2 ^ 29) hs (by omega) (by omega)
      rw [if_neg (by omega), if_neg (by omega)] at h2
      refine ⟨h2.1, h2.2.trans ?_⟩
      have e1 : 2 ^ 52 + m * 2 ^ 29 = (2 ^ 23 + m) * 2 ^ 29 := by omega
      rw [e1, mul_assoc, mul_assoc, ← pow_add, ← pow_add, show 29 + (e + 896 - 1) = e - 1 + B by omega]

/-- different floats have different values -/
theorem binary32_inj (a b : Nat) (ha : a < 2 ^ 32) (hb : b < 2 ^ 32) (hs : (binary32 a).isSome) (h : binary32 a = binary32 b) :
    a = b := by
  have ea : a = a / 2 ^ 31 * 2 ^ 31 + a / 2 ^ 23 % 2 ^ 8 * 2 ^ 23 + a % 2 ^ 23 := by omega
  have eb : b = b / 2 ^ 31 * 2 ^ 31 + b / 2 ^ 23 % 2 ^ 8 * 2 ^ 23 + b % 2 ^ 23 := by omega
  have bit : ∀ n < 2 ^ 32, n.testBit 31 = decide (n / 2 ^ 31 = 1) := by
    intro n hn
    rw [Nat.testBit_eq_decide_div_mod_eq]
    have : n / 2 ^ 31 % 2 = n / 2 ^ 31 := by omega
    rw [this]
  have hsa : a / 2 ^ 31 < 2 := by omega
  have hsb : b / 2 ^ 31 < 2 := by omega
  unfold binary32 at h hs
  generalize 1074 - 149 = B at h hs
  rw [bit a ha] at h
  rw [bit b hb] at h
  dsimp only at h hs
  generalize a / 2 ^ 31 = s1 at *
  generalize b / 2 ^ 31 = s2 at *
  have m1 : a % 2 ^ 23 < 2 ^ 23 := by omega
  have m2 : b % 2 ^ 23 < 2 ^ 23 := by omega
  generalize a / 2 ^ 23 % 2 ^ 8 = e1 at *
  generalize b / 2 ^ 23 % 2 ^ 8 = e2 at *
  generalize a % 2 ^ 23 = x1 at *
  generalize b % 2 ^ 23 = x2 at *
  by_cases f1 : e1 = 2 ^ 8 - 1
  · rw [if_pos f1] at hs; cases hs
  rw [if_neg f1] at h
  by_cases f2 : e2 = 2 ^ 8 - 1
  · rw [if_pos f2] at h; cases h
  rw [if_neg f2] at h
  simp only [Option.some.injEq, Prod.mk.injEq, decide_eq_decide] at h
  obtain ⟨h1, h2⟩ := h
  have hs12 : s1 = s2 := by omega
  have h2 := Nat.eq_of_mul_eq_mul_right (by positivity) h2
  -- a float with a smaller exponent is smaller
  have less : ∀ (e e' x x' : Nat), x < 2 ^ 23 → e < e' →
      (if e = 0 then x else (2 ^ 23 + x) * 2 ^ (e - 1)) < (if e' = 0 then x' else (2 ^ 23 + x') * 2 ^ (e' - 1)) := by
    intro e e' x x' hx he
    rw [if_neg (show ¬ e' = 0 by omega)]
    split
    · have : 0 < 2 ^ (e' - 1) := by positivity
      calc x < 2 ^ 23 + x' := by omega
        _ ≤ (2 ^ 23 + x') * 2 ^ (e' - 1) := Nat.le_mul_of_pos_right _ this
    · have hp : 2 ^ (e - 1) * 2 ≤ 2 ^ (e' - 1) := by
        rw [← pow_succ]
        exact Nat.pow_le_pow_right (by omega) (by omega)
      have hp0 : 0 < 2 ^ (e - 1) := by positivity
      calc (2 ^ 23 + x) * 2 ^ (e - 1) < (2 ^ 23 * 2) * 2 ^ (e - 1) := Nat.mul_lt_mul_of_pos_right (by omega) hp0
        _ = 2 ^ 23 * (2 ^ (e - 1) * 2) := by ring
        _ ≤ 2 ^ 23 * 2 ^ (e' - 1) := Nat.mul_le_mul_left _ hp
        _ ≤ (2 ^ 23 + x') * 2 ^ (e' - 1) := Nat.mul_le_mul_right _ (by omega)
  have he : e1 = e2 := by
    rcases Nat.lt_trichotomy e1 e2 with hlt | heq | hgt
    · exact absurd h2 (Nat.ne_of_lt (less e1 e2 x1 x2 m1 hlt))
    · exact heq
    · exact absurd h2.symm (Nat.ne_of_lt (less e2 e1 x2 x1 m2 hgt))
  subst he
  have hx : x1 = x2 := by
    by_cases h0 : e1 = 0
    · rw [if_pos h0, if_pos h0] at h2; exact h2
    · rw [if_neg h0, if_neg h0] at h2
      have := Nat.eq_of_mul_eq_mul_right (by positivity) h2
      omega
  omega

/-! ### what the records are made of -/

/-- text is UTF-8 and doubles are finite -/
def CleanJson : Json → Prop
  | .str s => validUtf8 s = true
  | .float bits => bits < 2 ^ 64 ∧ (binary64 bits).isSome
  | _ => True

/-- different names, text is UTF-8 -/
structure CleanMap (m : List (Bytes × Json)) : Prop where
  nodup : (m.map (·.1)).Nodup
  clean : ∀ x ∈ m, validUtf8 x.1 = true ∧ CleanJson x.2

/-- a record made of text that is UTF-8 -/
structure CleanRow (r : JsonRow) : Prop where
  ty : validUtf8 r.ty = true
  enc : ∀ x ∈ r.base64Encoded, validUtf8 x = true
  db : validUtf8 r.db = true
  tbl : validUtf8 r.tbl = true
  before : ∀ m, r.before = some m → CleanMap m
  after : ∀ m, r.after = some m → CleanMap m

/-- only ASCII -/
def Ascii (t : Bytes) : Prop := ∀ b ∈ t, b ≤ 0x7f

instance (t : Bytes) : Decidable (Ascii t) := by unfold Ascii; infer_instance

theorem Ascii.append {s t : Bytes} (hs : Ascii s) (ht : Ascii t) : Ascii (s ++ t) := by
  intro b hb
  rcases List.mem_append.1 hb with h | h
  · exact hs b h
  · exact ht b h

theorem ascii_padText (w n : Nat) : Ascii (padText w n) := by
  intro b hb
  have := (padText_digits w n b hb).2
  simp only [UInt8.le_iff_toNat_le, UInt8.toNat_ofNat] at this ⊢
  omega

theorem ascii_natText (n : Nat) : Ascii (natText n) := by
  intro b hb
  have := (natText_digits n b hb).2
  simp only [UInt8.le_iff_toNat_le, UInt8.toNat_ofNat] at this ⊢
  omega

theorem ascii_dateText (y m d : Nat) : Ascii (dateText y m d) :=
  ((((ascii_padText _ _).append (by decide)).append (ascii_padText _ _)).append (by decide)).append (ascii_padText _ _)

theorem ascii_msText (m s : Nat) : Ascii (msText m s) :=
  ((ascii_padText _ _).append (by decide)).append (ascii_padText _ _)

theorem ascii_jsonDateTime (t : MyDateTime) : Ascii (jsonDateTime t) := by
  unfold jsonDateTime
  have h : Ascii (dateText t.year t.month t.day ++ asc " " ++ padText 2 t.hour ++ asc ":" ++ msText t.minute t.second) :=
    ((((ascii_dateText _ _ _).append (by decide)).append (ascii_padText _ _)).append (by decide)).append (ascii_msText _ _)
  split
  · exact h
  · exact (h.append (by decide)).append (ascii_padText _ _)

theorem ascii_jsonTime (t : MyTime) (s : Bytes) (h : jsonTime t = some s) : Ascii s := by
  unfold jsonTime at h
  dsimp only at h
  split at h
  · cases h
  · have h0 : Ascii (padText 2 (t.days * 24 + t.hour) ++ asc ":" ++ msText t.minute t.second) :=
      ((ascii_padText _ _).append (by decide)).append (ascii_msText _ _)
    have h1 : Ascii (asc "-" ++ padText 2 (t.days * 24 + t.hour) ++ asc ":" ++ msText t.minute t.second) :=
      (((show Ascii (asc "-") by decide).append (ascii_padText _ _)).append (by decide)).append (ascii_msText _ _)
    cases h
    split
    · exact h1
    · exact (h1.append (by decide)).append (ascii_padText _ _)
    · exact h0
    · exact (h0.append (by decide)).append (ascii_padText _ _)

theorem ascii_base64 (b : Bytes) : Ascii (base64Encode b) := by
  have hd : ∀ n, base64Digit n ≤ 0x7f := by
    intro n
    unfold base64Digit
    have small : ∀ n < 128, UInt8.ofNat n ≤ 0x7f := by decide +kernel
    split
    · exact small _ (by omega)
    · split
      · exact small _ (by omega)
      · split
        · exact small _ (by omega)
        · split <;> decide
  have cons : ∀ (x : UInt8) (t : Bytes), x ≤ 0x7f → Ascii t → Ascii (x :: t) := by
    intro x t hx ht b hb
    rcases List.mem_cons.1 hb with rfl | h
    · exact hx
    · exact ht b h
  induction b using base64Encode.induct with
  | case1 => intro b hb; cases hb
  | case2 a => exact cons _ _ (hd _) (cons _ _ (hd _) (by decide))
  | case3 a b => exact cons _ _ (hd _) (cons _ _ (hd _) (cons _ _ (hd _) (by decide)))
  | case4 a b c t ih => exact cons _ _ (hd _) (cons _ _ (hd _) (cons _ _ (hd _) (cons _ _ (hd _) ih)))

theorem toJsonValue_clean (sv : StmtColumnValue) (j : Json) (e : Bool) (h : toJsonValue jsonLib sv = some (j, e)) :
    CleanJson j := by
  have flt : ∀ n : Nat, (jsonFloat n).map (fun x => (x, false)) = some (j, e) → CleanJson j := by
    intro n hh
    unfold jsonFloat at hh
    split at hh
    · cases hh
    · rename_i hn
      cases hh
      refine ⟨Nat.mod_lt _ (by omega), ?_⟩
      unfold binary64
      dsimp only
      rw [if_neg (by omega)]
      rfl
  have utf : ∀ bs : Bytes, (utf8Unwrap bs).map (fun s => (Json.str s, false)) = some (j, e) → CleanJson j := by
    intro bs hh
    unfold utf8Unwrap at hh
    by_cases hv : validUtf8 bs = true
    · rw [if_pos hv] at hh; cases hh; exact hv
    · rw [if_neg hv] at hh; cases hh
  unfold toJsonValue at h
  split at h <;> first
    | exact flt _ h
    | exact utf _ h
    | (cases h; exact trivial)
    | (cases h; exact validUtf8_ascii _ (ascii_jsonDateTime _))
    | (cases h; exact validUtf8_ascii _ (ascii_dateText _ _ _))
    | (cases h; exact validUtf8_ascii _ (ascii_base64 _))
    | skip
  · rw [Option.map_eq_some_iff] at h
    obtain ⟨s, h1, h2⟩ := h
    cases h2
    exact validUtf8_ascii _ (ascii_jsonTime _ _ h1)
  · rw [Option.map_eq_some_iff] at h
    obtain ⟨s, h1, h2⟩ := h
    cases h2
    exact trivial

theorem jsonInsert_clean (m : List (Bytes × Json)) (k : Bytes) (v : Json) (hm : CleanMap m) (hk : validUtf8 k = true)
    (hv : CleanJson v) : CleanMap (jsonInsert m k v) := by
  unfold jsonInsert
  split
  · refine ⟨?_, ?_⟩
    · have e : (m.map fun x => if x.1 = k then (k, v) else x).map (·.1) = m.map (·.1) := by
        rw [List.map_map]
        apply List.map_congr_left
        intro x _
        by_cases hx : x.1 = k
        · simp [hx]
        · simp [hx]
      rw [e]; exact hm.nodup
    · intro x hx
      rw [List.mem_map] at hx
      obtain ⟨y, hy, rfl⟩ := hx
      split
      · exact ⟨hk, hv⟩
      · exact hm.clean y hy
  · rename_i hn
    refine ⟨?_, ?_⟩
    · rw [List.map_append, List.map_cons, List.map_nil]
      refine List.Nodup.append hm.nodup (by simp) ?_
      intro a ha hb
      simp only [List.mem_singleton] at hb
      subst hb
      rw [List.mem_map] at ha
      obtain ⟨y, hy, rfl⟩ := ha
      exact hn (List.any_eq_true.2 ⟨y, hy, by simp⟩)
    · intro x hx
      rcases List.mem_append.1 hx with h | h
      · exact hm.clean x h
      · rw [List.mem_singleton] at h
        subst h
        exact ⟨hk, hv⟩

theorem jsonImage_clean (dedup : Bool) (xs : List (ColDef × BinlogColumnValue)) :
    ∀ (acc out : List (Bytes × Json) × List Bytes), (∀ x ∈ xs, validUtf8 x.1.name = true) →
      CleanMap acc.1 → (∀ x ∈ acc.2, validUtf8 x = true) → jsonImage jsonLib dedup xs acc = some out →
      CleanMap out.1 ∧ ∀ x ∈ out.2, validUtf8 x = true := by
  induction xs with
  | nil =>
    intro acc out _ h1 h2 h
    cases h
    exact ⟨h1, h2⟩
  | cons x xs ih =>
    obtain ⟨c, v⟩ := x
    rintro ⟨m, enc⟩ out hn h1 h2 h
    rw [jsonImage] at h
    split at h
    · cases h
    · split at h
      · cases h
      · rename_i sv _ jv e hj
        have hc : validUtf8 c.name = true := hn (c, v) (by simp)
        refine ih _ out (fun x hx => hn x (List.mem_cons_of_mem _ hx))
          (jsonInsert_clean m c.name jv h1 hc (toJsonValue_clean _ _ _ hj)) ?_ h
        intro x hx
        dsimp only at hx
        split at hx
        · rcases List.mem_append.1 hx with h | h
          · exact h2 x h
          · rw [List.mem_singleton] at h; subst h; exact hc
        · exact h2 x hx

theorem filterColDefs_clean (bm : Bytes) (defs : List ColumnDefinition) (h : ∀ d ∈ defs, validUtf8 d.name = true)
    (row : List BinlogColumnValue) : ∀ x ∈ (filterColDefs bm defs).zip row, validUtf8 x.1.name = true := by
  intro x hx
  have h1 := (List.of_mem_zip hx).1
  unfold filterColDefs at h1
  rw [List.mem_map] at h1
  obtain ⟨y, hy, e⟩ := h1
  have h2 := (List.of_mem_zip (List.mem_of_mem_filter hy)).2
  rw [← e]
  exact h y.2 h2

theorem cleanMap_nil : CleanMap [] := ⟨by simp, by simp⟩

theorem allSome_mem {α : Type} {xs : List (Option α)} {ys : List α} (h : allSome xs = some ys) : ∀ y ∈ ys, some y ∈ xs := by
  induction xs generalizing ys with
  | nil => cases h; simp
  | cons x xs ih =>
    cases x with
    | none => simp [allSome] at h
    | some a =>
      simp only [allSome, Option.map_eq_some_iff] at h
      obtain ⟨zs, h1, rfl⟩ := h
      intro y hy
      rcases List.mem_cons.1 hy with rfl | hy
      · simp
      · exact List.mem_cons_of_mem _ (ih h1 y hy)

theorem records_clean (db tbl : Bytes) (defs : List ColumnDefinition) (hdb : validUtf8 db = true)
    (htbl : validUtf8 tbl = true) (hdefs : ∀ d ∈ defs, validUtf8 d.name = true) :
    (∀ ev recs, JsonRows.fromInsert jsonLib db tbl ev defs = some recs → ∀ r ∈ recs, CleanRow r) ∧
    (∀ ev recs, JsonRows.fromDelete jsonLib db tbl ev defs = some recs → ∀ r ∈ recs, CleanRow r) ∧
    (∀ ev recs, JsonRows.fromUpdate jsonLib db tbl ev defs = some recs → ∀ r ∈ recs, CleanRow r) := by
  refine ⟨?_, ?_, ?_⟩
  · intro ev recs h r hr
    have h1 := allSome_mem h r hr
    rw [List.mem_map] at h1
    obtain ⟨row, -, h2⟩ := h1
    rw [Option.map_eq_some_iff] at h2
    obtain ⟨⟨m, enc⟩, h3, rfl⟩ := h2
    obtain ⟨h4, h5⟩ := jsonImage_clean false _ _ _ (filterColDefs_clean _ _ hdefs _) cleanMap_nil (by simp) h3
    exact ⟨(by decide +kernel : validUtf8 (asc "insert") = true), h5, hdb, htbl, by simp, by rintro m ⟨⟩; exact h4⟩
  · intro ev recs h r hr
    have h1 := allSome_mem h r hr
    rw [List.mem_map] at h1
    obtain ⟨row, -, h2⟩ := h1
    rw [Option.map_eq_some_iff] at h2
    obtain ⟨⟨m, enc⟩, h3, rfl⟩ := h2
    obtain ⟨h4, h5⟩ := jsonImage_clean false _ _ _ (filterColDefs_clean _ _ hdefs _) cleanMap_nil (by simp) h3
    exact ⟨(by decide +kernel : validUtf8 (asc "delete") = true), h5, hdb, htbl, by rintro m ⟨⟩; exact h4, by simp⟩
  · intro ev recs h r hr
    have h1 := allSome_mem h r hr
    rw [List.mem_map] at h1
    obtain ⟨row, -, h2⟩ := h1
    unfold jsonUpdateRow at h2
    split at h2
    · cases h2
    · rename_i bm enc h0
      obtain ⟨h4, h5⟩ := jsonImage_clean false _ _ _ (filterColDefs_clean _ _ hdefs _) cleanMap_nil (by simp) h0
      rw [Option.map_eq_some_iff] at h2
      obtain ⟨⟨m, enc'⟩, h3, rfl⟩ := h2
      obtain ⟨h6, h7⟩ := jsonImage_clean true _ ([], enc) _ (filterColDefs_clean _ _ hdefs _) cleanMap_nil h5 h3
      exact ⟨(by decide +kernel : validUtf8 (asc "update") = true), h7, hdb, htbl, by rintro m ⟨⟩; exact h4, by rintro m ⟨⟩; exact h6⟩

/-! ### reading the text -/

theorem insertField_perm (x : Bytes × Json) (m : List (Bytes × Json)) : List.Perm (insertField x m) (x :: m) := by
  induction m with
  | nil => exact .refl _
  | cons y t ih =>
    unfold insertField
    split
    · exact .refl _
    · exact (ih.cons y).trans (.swap x y t)

theorem sortedFields_perm (m : List (Bytes × Json)) : List.Perm (sortedFields m) m := by
  induction m with
  | nil => exact .refl _
  | cons x t ih => exact (insertField_perm x _).trans (ih.cons x)

/-- a scalar is read as itself -/
theorem writes_scalar (fl : Nat → Bytes) (dr : DoubleRead) (hfl : DoublesReadBack fl dr) (j : Json) (hj : CleanJson j) :
    ∃ v, Writes 1 (serdeValue fl j) v ∧ JValue.scalar dr v = some j := by
  cases j with
  | null => exact ⟨_, writes_null, rfl⟩
  | int i =>
    refine ⟨_, writes_number (jsonNumber_intText i), ?_⟩
    simp only [JValue.scalar, readNat_natText, Option.map_some]
    by_cases hi : i < 0
    · simp only [decide_eq_true hi, if_true, Option.some.injEq, Json.int.injEq]
      omega
    · simp only [decide_eq_false hi, Bool.false_eq_true, if_false, Option.some.injEq, Json.int.injEq]
      omega
  | float bits =>
    obtain ⟨neg, w, f, e, hfe, rfl, h⟩ := hfl bits hj.1 hj.2
    refine ⟨_, writes_number h, ?_⟩
    cases f with
    | some f => rfl
    | none =>
      cases e with
      | some e => rfl
      | none => simp at hfe
  | str s => exact ⟨_, writes_string s, rfl⟩

theorem allOf_map {α β γ : Type} (f : α → Option β) (g : γ → α) (k : γ → β) (xs : List γ)
    (h : ∀ x ∈ xs, f (g x) = some (k x)) : Spec.allOf f (xs.map g) = some (xs.map k) := by
  induction xs with
  | nil => rfl
  | cons x xs ih =>
    rw [List.map_cons, Spec.allOf, h x (by simp), ih (fun y hy => h y (List.mem_cons_of_mem _ hy))]
    rfl

/-- one image of a row -/
theorem writes_image (fl : Nat → Bytes) (dr : DoubleRead) (hfl : DoublesReadBack fl dr) (o : Option (List (Bytes × Json)))
    (ho : ∀ m, o = some m → CleanMap m) :
    ∃ n v, Writes n (serdeImage fl o) v ∧ JValue.image dr v = some (o.map sortedFields) := by
  cases o with
  | none => exact ⟨1, .null, writes_null, rfl⟩
  | some m =>
    have hm := ho m rfl
    have hp : List.Perm (sortedFields m) m := sortedFields_perm _
    have hc : ∀ x ∈ sortedFields m, CleanJson x.2 := fun x hx => (hm.clean x (hp.mem_iff.1 hx)).2
    have hn : ((sortedFields m).map (·.1)).Nodup := (hp.map _).nodup_iff.2 hm.nodup
    classical
    obtain ⟨val, hval⟩ : ∃ val : Json → JValue, ∀ j, CleanJson j → Writes 1 (serdeValue fl j) (val j) ∧
        JValue.scalar dr (val j) = some j := by
      refine ⟨fun j => if h : CleanJson j then (writes_scalar fl dr hfl j h).choose else .null, fun j hj => ?_⟩
      simp only [dif_pos hj]
      exact (writes_scalar fl dr hfl j hj).choose_spec
    have hw := writes_object 1 ((sortedFields m).map fun x => (x.1, serdeValue fl x.2, val x.2)) (by
      intro y hy
      rw [List.mem_map] at hy
      obtain ⟨x, hx, rfl⟩ := hy
      exact (hval x.2 (hc x hx)).1)
    rw [List.map_map, List.map_map] at hw
    refine ⟨_, _, hw, ?_⟩
    unfold JValue.image
    dsimp only
    have e : ((sortedFields m).map ((fun x : Bytes × Bytes × JValue => (x.1, x.2.2)) ∘ fun x => (x.1, serdeValue fl x.2, val x.2))).map (·.1)
        = (sortedFields m).map (·.1) := by
      rw [List.map_map]; rfl
    rw [if_pos (by rw [e]; exact hn)]
    rw [allOf_map _ _ (fun x => x) (sortedFields m) (by
      intro x hx
      simp only [Function.comp, (hval x.2 (hc x hx)).2, Option.map_some])]
    simp

/-- the record with its members in the order of their names -/
def sortedRow (r : JsonRow) : JsonRow := { r with before := r.before.map sortedFields, after := r.after.map sortedFields }

theorem sortedRow_same (r : JsonRow) : Spec.SameRecord r (sortedRow r) := by
  have hp : ∀ m, List.Perm m (sortedFields m) := fun m => (sortedFields_perm _).symm
  refine ⟨rfl, rfl, rfl, rfl, ?_, ?_⟩
  · unfold sortedRow
    cases r.before with
    | none => exact .none
    | some m => exact .some (hp m)
  · unfold sortedRow
    cases r.after with
    | none => exact .none
    | some m => exact .some (hp m)

/-- a record -/
theorem writes_record (fl : Nat → Bytes) (dr : DoubleRead) (hfl : DoublesReadBack fl dr) (r : JsonRow) (hr : CleanRow r) :
    ∃ n v, Writes n (r.serialize fl) v ∧ JValue.record dr v = some (sortedRow r) := by
  obtain ⟨nb, vb, wb, rb⟩ := writes_image fl dr hfl r.before hr.before
  obtain ⟨na, va, wa, ra⟩ := writes_image fl dr hfl r.after hr.after
  have we := writes_array 1 (r.base64Encoded.map fun s => (serdeString s, .string s)) (by
    intro y hy
    rw [List.mem_map] at hy
    obtain ⟨s, -, rfl⟩ := hy
    exact writes_string s)
  rw [List.map_map, List.map_map, List.length_map] at we
  have hw := writes_object (nb + na + r.base64Encoded.length + 2) [
    (asc "type", serdeString r.ty, .string r.ty),
    (asc "base64_encoded", asc "[" ++ commas (r.base64Encoded.map serdeString) ++ asc "]",
      .array (r.base64Encoded.map .string)),
    (asc "db", serdeString r.db, .string r.db),
    (asc "tbl", serdeString r.tbl, .string r.tbl),
    (asc "before", serdeImage fl r.before, vb),
    (asc "after", serdeImage fl r.after, va)] (by
      intro y hy
      simp only [List.mem_cons, List.not_mem_nil, or_false] at hy
      rcases hy with rfl | rfl | rfl | rfl | rfl | rfl
      · exact (writes_string _).mono (by omega)
      · exact we.mono (by omega)
      · exact (writes_string _).mono (by omega)
      · exact (writes_string _).mono (by omega)
      · exact wb.mono (by omega)
      · exact wa.mono (by omega))
  refine ⟨_, _, hw, ?_⟩
  have m1 : ∀ (a b c d e f : JValue), JValue.member (Spec.ascii "type") (.object [(asc "type", a), (asc "base64_encoded", b), (asc "db", c), (asc "tbl", d), (asc "before", e), (asc "after", f)]) = some a := by
    intro a b c d e f; rfl
  have m2 : ∀ (a b c d e f : JValue), JValue.member (Spec.ascii "base64_encoded") (.object [(asc "type", a), (asc "base64_encoded", b), (asc "db", c), (asc "tbl", d), (asc "before", e), (asc "after", f)]) = some b := by
    intro a b c d e f; rfl
  have m3 : ∀ (a b c d e f : JValue), JValue.member (Spec.ascii "db") (.object [(asc "type", a), (asc "base64_encoded", b), (asc "db", c), (asc "tbl", d), (asc "before", e), (asc "after", f)]) = some c := by
    intro a b c d e f; rfl
  have m4 : ∀ (a b c d e f : JValue), JValue.member (Spec.ascii "tbl") (.object [(asc "type", a), (asc "base64_encoded", b), (asc "db", c), (asc "tbl", d), (asc "before", e), (asc "after", f)]) = some d := by
    intro a b c d e f; rfl
  have m5 : ∀ (a b c d e f : JValue), JValue.member (Spec.ascii "before") (.object [(asc "type", a), (asc "base64_encoded", b), (asc "db", c), (asc "tbl", d), (asc "before", e), (asc "after", f)]) = some e := by
    intro a b c d e f; rfl
  have m6 : ∀ (a b c d e f : JValue), JValue.member (Spec.ascii "after") (.object [(asc "type", a), (asc "base64_encoded", b), (asc "db", c), (asc "tbl", d), (asc "before", e), (asc "after", f)]) = some f := by
    intro a b c d e f; rfl
  have ht : JValue.texts (.array (r.base64Encoded.map .string)) = some r.base64Encoded := by
    unfold JValue.texts
    dsimp only
    rw [allOf_map JValue.text JValue.string (fun x => x) _ (fun x _ => rfl), List.map_id']
  unfold JValue.record
  simp only [List.map_cons, List.map_nil, m1, m2, m3, m4, m5, m6, Option.bind_some, JValue.text, ht, rb, ra, Option.map_some]
  rfl

/-- the text of records is read as these records -/
theorem records_text (fl : Nat → Bytes) (dr : DoubleRead) (hfl : DoublesReadBack fl dr) (recs : List JsonRow)
    (hr : ∀ r ∈ recs, CleanRow r) : Spec.changeRecords dr (JsonRows.serialize fl recs) = some (recs.map sortedRow) := by
  have main : ∀ recs : List JsonRow, (∀ r ∈ recs, CleanRow r) →
      ∃ n, ∃ xs : List (Bytes × JValue), xs.map (·.1) = recs.map (JsonRow.serialize fl) ∧ (∀ x ∈ xs, Writes n x.1 x.2) ∧
        Spec.allOf (JValue.record dr) (xs.map (·.2)) = some (recs.map sortedRow) := by
    intro recs
    induction recs with
    | nil => intro _; exact ⟨0, [], rfl, by simp, rfl⟩
    | cons r rs ih =>
      intro hr
      obtain ⟨n, xs, h1, h2, h3⟩ := ih (fun x hx => hr x (List.mem_cons_of_mem _ hx))
      obtain ⟨k, v, h4, h5⟩ := writes_record fl dr hfl r (hr r (by simp))
      refine ⟨n + k, (r.serialize fl, v) :: xs, by simp [h1], ?_, ?_⟩
      · intro x hx
        rcases List.mem_cons.1 hx with rfl | hx
        · exact h4.mono (by omega)
        · exact (h2 x hx).mono (by omega)
      · rw [List.map_cons, Spec.allOf, h5, h3]
        rfl
  obtain ⟨n, xs, h1, h2, h3⟩ := main recs hr
  have hw := writes_array n xs h2
  rw [h1] at hw
  unfold Spec.changeRecords JsonRows.serialize
  rw [jsonText_writes hw]
  exact h3

/-! ### the text is one line -/

theorem validUtf8_append (a b : Bytes) (ha : validUtf8 a = true) : validUtf8 (a ++ b) = validUtf8 b := by
  obtain ⟨cs, rfl⟩ := utf8_of_valid a ha
  induction cs with
  | nil => rfl
  | cons c cs ih =>
    rw [utf8_cons, List.append_assoc, validUtf8_char]
    exact ih (validUtf8_utf8 cs)

/-- UTF-8 without control characters -/
def Line (t : Bytes) : Prop := validUtf8 t = true ∧ ∀ b ∈ t, 0x20 ≤ b

theorem Line.append {s t : Bytes} (hs : Line s) (ht : Line t) : Line (s ++ t) := by
  refine ⟨by rw [validUtf8_append s t hs.1]; exact ht.1, ?_⟩
  intro b hb
  rcases List.mem_append.1 hb with h | h
  · exact hs.2 b h
  · exact ht.2 b h

instance (t : Bytes) : Decidable (Line t) := by unfold Line; infer_instance

theorem line_ascii (t : Bytes) (h : ∀ b ∈ t, 0x20 ≤ b ∧ b ≤ 0x7f) : Line t :=
  ⟨validUtf8_ascii t fun b hb => (h b hb).2, fun b hb => (h b hb).1⟩

theorem serdeEscape_high (b : UInt8) (h : 0x80 ≤ b) : serdeEscape b = [b] := by
  have ne : ∀ c : UInt8, c < 0x80 → b ≠ c := by
    rintro c hc rfl
    simp only [UInt8.le_iff_toNat_le, UInt8.lt_iff_toNat_lt, UInt8.toNat_ofNat] at h hc
    omega
  have h1 : ¬ b < 0x20 := by
    simp only [UInt8.le_iff_toNat_le, UInt8.lt_iff_toNat_lt, UInt8.toNat_ofNat] at h ⊢
    omega
  unfold serdeEscape
  rw [if_neg (ne _ (by decide)), if_neg (ne _ (by decide)), if_neg (ne _ (by decide)), if_neg (ne _ (by decide)),
    if_neg (ne _ (by decide)), if_neg (ne _ (by decide)), if_neg (ne _ (by decide)), if_neg h1]

theorem line_escape (b : UInt8) (h : b < 0x80) : Line (serdeEscape b) := by
  have fin : ∀ n < 128, ∀ b ∈ serdeEscape (UInt8.ofNat n), 0x20 ≤ b ∧ b ≤ 0x7f := by decide +kernel
  apply line_ascii
  have := fin b.toNat (by simpa [UInt8.lt_iff_toNat_lt] using h)
  rwa [UInt8.ofNat_toNat] at this

/-- the bytes of a character: one of ASCII, or several of which none is -/
theorem utf8Char_bytes (c : Char) :
    (∃ b : UInt8, String.utf8EncodeChar c = [b] ∧ b < 0x80) ∨ ∀ b ∈ String.utf8EncodeChar c, 0x80 ≤ b := by
  have tn : ∀ n : Nat, 128 ≤ n → n < 256 → (0x80 : UInt8) ≤ UInt8.ofNat n := by
    intro n h1 h2
    rw [UInt8.le_iff_toNat_le, UInt8.toNat_ofNat_of_lt' h2]
    exact h1
  unfold String.utf8EncodeChar
  dsimp only
  generalize c.val.toNat = v
  split
  · refine .inl ⟨_, rfl, ?_⟩
    rw [UInt8.lt_iff_toNat_lt, UInt8.toNat_ofNat_of_lt' (by show v < 256; omega)]
    show v < 128
    omega
  · right
    split
    · intro b hb
      simp only [List.mem_cons, List.not_mem_nil, or_false] at hb
      rcases hb with rfl | rfl <;> exact tn _ (by omega) (by omega)
    · split
      · intro b hb
        simp only [List.mem_cons, List.not_mem_nil, or_false] at hb
        rcases hb with rfl | rfl | rfl <;> exact tn _ (by omega) (by omega)
      · intro b hb
        simp only [List.mem_cons, List.not_mem_nil, or_false] at hb
        rcases hb with rfl | rfl | rfl | rfl <;> exact tn _ (by omega) (by omega)

theorem flatMap_high (t : Bytes) (h : ∀ b ∈ t, 0x80 ≤ b) : t.flatMap serdeEscape = t := by
  induction t with
  | nil => rfl
  | cons b t ih =>
    rw [List.flatMap_cons, serdeEscape_high b (h b (by simp)), ih (fun x hx => h x (List.mem_cons_of_mem _ hx))]
    rfl

theorem line_string (s : Bytes) (h : validUtf8 s = true) : Line (serdeString s) := by
  obtain ⟨cs, rfl⟩ := utf8_of_valid s h
  refine ((show Line (asc "\"") by decide +kernel).append ?_).append (by decide +kernel)
  induction cs with
  | nil => exact ⟨rfl, by intro b hb; cases hb⟩
  | cons c cs ih =>
    rw [utf8_cons, List.flatMap_append]
    refine Line.append ?_ (ih (validUtf8_utf8 cs))
    rcases utf8Char_bytes c with ⟨b, e, hb⟩ | hb
    · rw [e]
      simp only [List.flatMap_cons, List.flatMap_nil, List.append_nil]
      exact line_escape b hb
    · rw [flatMap_high _ hb]
      refine ⟨?_, fun b hx => ?_⟩
      · have := validUtf8_char c []
        rw [List.append_nil] at this
        rw [this]; rfl
      · have := hb b hx
        simp only [UInt8.le_iff_toNat_le, UInt8.toNat_ofNat] at this ⊢
        omega

theorem line_intText (i : Int) : Line (intText i) := by
  have h : ∀ b ∈ natText i.natAbs, 0x20 ≤ b ∧ b ≤ 0x7f := by
    intro b hb
    have := natText_digits _ b hb
    simp only [UInt8.le_iff_toNat_le, UInt8.toNat_ofNat] at this ⊢
    omega
  apply line_ascii
  unfold intText
  split
  · intro b hb
    rcases List.mem_cons.1 hb with rfl | hb
    · decide
    · exact h b hb
  · exact h

theorem line_scalar (fl : Nat → Bytes) (dr : DoubleRead) (hfl : DoublesReadBack fl dr) (j : Json) (hj : CleanJson j) :
    Line (serdeValue fl j) := by
  cases j with
  | null => exact (by decide +kernel : Line (asc "null"))
  | int i => exact line_intText i
  | float bits =>
    obtain ⟨neg, w, f, e, -, -, h⟩ := hfl bits hj.1 hj.2
    have h1 := h [] stop_nil
    obtain ⟨b, t, e, hc, -⟩ := jsonNumber_front _ _ _ h1
    rw [List.append_nil, List.append_nil] at e
    show Line (fl bits)
    rw [e]
    apply line_ascii
    intro x hx
    have := hc x hx
    simp only [UInt8.le_iff_toNat_le, UInt8.toNat_ofNat] at this ⊢
    omega
  | str s => exact line_string s hj

theorem line_commas (xs : List Bytes) (h : ∀ x ∈ xs, Line x) : Line (commas xs) := by
  induction xs with
  | nil => decide +kernel
  | cons x xs ih =>
    cases xs with
    | nil => exact h x (by simp)
    | cons y ys =>
      exact ((h x (by simp)).append (by decide +kernel)).append (ih (fun z hz => h z (List.mem_cons_of_mem _ hz)))

theorem line_image (fl : Nat → Bytes) (dr : DoubleRead) (hfl : DoublesReadBack fl dr) (o : Option (List (Bytes × Json)))
    (ho : ∀ m, o = some m → CleanMap m) : Line (serdeImage fl o) := by
  cases o with
  | none => exact (by decide +kernel : Line (asc "null"))
  | some m =>
    refine ((show Line (asc "{") by decide +kernel).append (line_commas _ ?_)).append (by decide +kernel)
    intro t ht
    rw [List.mem_map] at ht
    obtain ⟨x, hx, rfl⟩ := ht
    have hc := (ho m rfl).clean x ((sortedFields_perm _).mem_iff.1 hx)
    exact ((line_string _ hc.1).append (by decide +kernel)).append (line_scalar fl dr hfl _ hc.2)

theorem line_record (fl : Nat → Bytes) (dr : DoubleRead) (hfl : DoublesReadBack fl dr) (r : JsonRow) (hr : CleanRow r) :
    Line (r.serialize fl) := by
  refine ((show Line (asc "{") by decide +kernel).append (line_commas _ ?_)).append (by decide +kernel)
  have colon : Line (asc ":") := by decide +kernel
  intro t ht
  simp only [List.mem_cons, List.not_mem_nil, or_false] at ht
  rcases ht with rfl | rfl | rfl | rfl | rfl | rfl
  · exact ((line_string _ (by decide +kernel)).append colon).append (line_string _ hr.ty)
  · refine ((line_string _ (by decide +kernel)).append colon).append
      (((show Line (asc "[") by decide +kernel).append (line_commas _ ?_)).append (by decide +kernel))
    intro t ht
    rw [List.mem_map] at ht
    obtain ⟨s, hs, rfl⟩ := ht
    exact line_string _ (hr.enc s hs)
  · exact ((line_string _ (by decide +kernel)).append colon).append (line_string _ hr.db)
  · exact ((line_string _ (by decide +kernel)).append colon).append (line_string _ hr.tbl)
  · exact ((line_string _ (by decide +kernel)).append colon).append (line_image fl dr hfl _ hr.before)
  · exact ((line_string _ (by decide +kernel)).append colon).append (line_image fl dr hfl _ hr.after)

theorem text_of_records (fl : Nat → Bytes) (dr : DoubleRead) (hfl : DoublesReadBack fl dr) (recs : List JsonRow)
    (hr : ∀ r ∈ recs, CleanRow r) : Spec.TextOfRecords dr recs (JsonRows.serialize fl recs) := by
  have hl : Line (JsonRows.serialize fl recs) := by
    refine ((show Line (asc "[") by decide +kernel).append (line_commas _ ?_)).append (by decide +kernel)
    intro t ht
    rw [List.mem_map] at ht
    obtain ⟨r, h, rfl⟩ := ht
    exact line_record fl dr hfl r (hr r h)
  refine ⟨utf8_of_valid _ hl.1, hl.2, recs.map sortedRow, records_text fl dr hfl recs hr, ?_⟩
  rw [List.forall₂_map_right_iff]
  exact List.forall₂_same.2 fun r _ => sortedRow_same r

/-- C100: the text of the records of every row event, whatever its values, is one line of UTF-8 and a JSON text (RFC 8259),
and a consumer reads in it the records that were made, in their order, with every name once. Names of databases, tables and
columns are UTF-8: they are `SmolStr`s. (`hfl`: the library writes doubles so that they are read back.) -/
theorem C100_text (fl : Nat → Bytes) (dr : DoubleRead) (hfl : DoublesReadBack fl dr) (db tbl : Bytes)
    (defs : List ColumnDefinition) (hdb : validUtf8 db = true) (htbl : validUtf8 tbl = true)
    (hdefs : ∀ d ∈ defs, validUtf8 d.name = true) :
    (∀ ev recs, JsonRows.fromInsert jsonLib db tbl ev defs = some recs →
      Spec.TextOfRecords dr recs (JsonRows.serialize fl recs)) ∧
    (∀ ev recs, JsonRows.fromDelete jsonLib db tbl ev defs = some recs →
      Spec.TextOfRecords dr recs (JsonRows.serialize fl recs)) ∧
    (∀ ev recs, JsonRows.fromUpdate jsonLib db tbl ev defs = some recs →
      Spec.TextOfRecords dr recs (JsonRows.serialize fl recs)) := by
  obtain ⟨h1, h2, h3⟩ := records_clean db tbl defs hdb htbl hdefs
  exact ⟨fun ev recs h => text_of_records fl dr hfl recs (h1 ev recs h),
    fun ev recs h => text_of_records fl dr hfl recs (h2 ev recs h),
    fun ev recs h => text_of_records fl dr hfl recs (h3 ev recs h)⟩

/-! ### from the log to the text -/

/-- The values that have a JSON form that denotes them: all but DATETIMEs with a fraction, dates that the calendar does not
have, BIT values of more than eight bits, DECIMALs with inner zeros, strings that are not UTF-8, infinities and NaN. -/
def JsonWritable : ColKind → Val → Prop
  | .float, .num n => n / 2 ^ 23 % 2 ^ 8 ≠ 2 ^ 8 - 1
  | .double, .num n => n / 2 ^ 52 % 2 ^ 11 ≠ 2 ^ 11 - 1
  | .date, .date y m d => Spec.dateOk y m d = true
  | .datetime2 _, .datetime y m d _ _ _ us => Spec.dateOk y m d = true ∧ us = 0
  | .bit n, .bytes b => b.length = 1 ∧ ∀ x ∈ b, x.toNat < 2 ^ n
  | .decimal p s, .decimal _ n => NoInnerZeros (p - s) s n
  | .varchar _, .bytes b | .char _, .bytes b => validUtf8 b = true
  | _, _ => True

theorem jsonFine_of (jn : JsonNumbers) (hjn : Spec.NarrowsExactly jn) (k : ColKind) (v : Val) (hf : Fits k v)
    (h : JsonWritable k v) : JsonFine jsonLib jn k v := by
  cases k <;> cases v <;> try exact h
  case float.num n =>
    have hn : n < 2 ^ 32 := by simpa only [Fits] using hf
    have h : n / 2 ^ 23 % 2 ^ 8 ≠ 2 ^ 8 - 1 := h
    obtain ⟨h1, h2⟩ := C100_widen n hn
    have h3 : (binary32 n).isSome := by
      unfold binary32
      dsimp only
      rw [if_neg h]; rfl
    refine ⟨?_, hjn n _ hn h1 h3 h2⟩
    rw [← h2] at h3
    unfold jsonFloat
    rw [Nat.mod_eq_of_lt (show jsonLib.widen n < 2 ^ 64 from h1), if_neg]
    intro e
    unfold binary64 at h3
    dsimp only at h3
    rw [if_pos (show f32ToF64 n / 2 ^ 52 % 2 ^ 11 = 2 ^ 11 - 1 from e)] at h3
    cases h3

/-- the image is of a row of the table, with all columns, and its values are decoded correctly and have a JSON form -/
def WritableImage (kinds : List ColKind) (cols : List Column) (r : Image) : Prop :=
  r.Ok kinds (full kinds) ∧ WidthCells kinds r.cells ∧
    ∀ y ∈ cols.zip r.cells, ∀ v, y.2 = .value v → Sound y.1.kind v ∧ JsonWritable y.1.kind v

theorem cellsFit_zip (cols : List Column) : ∀ (cells : List Cell), CellsFit (cols.map (·.kind)) cells →
    ∀ y ∈ cols.zip cells, ∀ v, y.2 = .value v → Fits y.1.kind v := by
  induction cols with
  | nil => intro cells _ y hy; simp at hy
  | cons c cols ih =>
    intro cells h y hy v hv
    cases cells with
    | nil => simp at hy
    | cons x cells =>
      rw [List.zip_cons_cons, List.mem_cons] at hy
      have hc : CellsFit (cols.map (·.kind)) cells := by
        cases x with
        | value w => exact h.2
        | null => exact h
        | absent => exact h
      rcases hy with rfl | hy
      · dsimp only at hv
        subst hv
        exact h.1
      · exact ih cells hc y hy v hv

theorem jImageGood_of (jn : JsonNumbers) (hjn : Spec.NarrowsExactly jn) (cols : List Column) (r : Image)
    (h : WritableImage (cols.map (·.kind)) cols r) : JImageGood jsonLib jn (cols.map (·.kind)) cols r := by
  refine ⟨h.1, h.2.1, fun y hy v hv => ?_⟩
  obtain ⟨h1, h2⟩ := h.2.2 y hy v hv
  exact ⟨h1, jsonFine_of jn hjn _ _ (cellsFit_zip cols r.cells h.1.1 y hy v hv) h2⟩

theorem find_perm {β : Type} {l m : List (Bytes × β)} (hp : List.Perm l m) (hn : (l.map (·.1)).Nodup) (k : Bytes) :
    l.find? (fun f => decide (f.1 = k)) = m.find? (fun f => decide (f.1 = k)) := by
  have hm : (m.map (·.1)).Nodup := (hp.map _).nodup_iff.1 hn
  cases h : l.find? (fun f => decide (f.1 = k)) with
  | none =>
    symm
    rw [List.find?_eq_none] at h ⊢
    intro x hx
    exact h x (hp.mem_iff.2 hx)
  | some x =>
    have h1 := List.mem_of_find?_eq_some h
    have h2 := List.find?_some h
    simp only [decide_eq_true_eq] at h2
    subst h2
    exact (find_nodup m hm x (hp.mem_iff.1 h1)).symm

theorem jsonRow_perm (jn : JsonNumbers) (enc : List Bytes) {l m : List (Bytes × Json)} (hp : List.Perm l m)
    (hn : (l.map (·.1)).Nodup) (cols : List Column) : Spec.jsonRow jn enc l cols = Spec.jsonRow jn enc m cols := by
  induction cols with
  | nil => rfl
  | cons c cols ih => rw [Spec.jsonRow, Spec.jsonRow, find_perm hp hn, ih]

/-- the order of the members does not change what a record tells -/
theorem jsonChange_sorted (jn : JsonNumbers) (schema : Schema) (r : JsonRow) (hr : CleanRow r) :
    Spec.jsonChange jn schema (sortedRow r) = Spec.jsonChange jn schema r := by
  have e : ∀ m, CleanMap m → ∀ enc cols, Spec.jsonRow jn enc (sortedFields m) cols = Spec.jsonRow jn enc m cols :=
    fun m hm enc cols => (jsonRow_perm jn enc (sortedFields_perm _).symm hm.nodup cols).symm
  obtain ⟨ty, enc, db, tbl, before, after⟩ := r
  have hb := hr.before
  have ha := hr.after
  dsimp only at hb ha
  unfold Spec.jsonChange sortedRow
  dsimp only
  cases before with
  | none =>
    cases after with
    | none => rfl
    | some m => simp only [Option.map_none, Option.map_some, e m (ha m rfl)]
  | some b =>
    cases after with
    | none => simp only [Option.map_none, Option.map_some, e b (hb b rfl)]
    | some m => simp only [Option.map_some, e b (hb b rfl), e m (ha m rfl)]

theorem changes_sorted (jn : JsonNumbers) (schema : Schema) (recs : List JsonRow) (hr : ∀ r ∈ recs, CleanRow r) :
    (recs.map sortedRow).map (Spec.jsonChange jn schema) = recs.map (Spec.jsonChange jn schema) := by
  rw [List.map_map]
  exact List.map_congr_left fun r h => jsonChange_sorted jn schema r (hr r h)

section Text

variable {fl : Nat → Bytes} {dr : DoubleRead} {jn : JsonNumbers} {schema : Schema} {db tbl : Bytes} {kinds : List ColKind}
  {ms : List ColumnMeta} {defs : List ColumnDefinition} {cols : List Column}

/-- C85, from the log to the text, for inserted rows: every row event whose values are decoded correctly and have a JSON form
is decoded, the records are made, and a consumer that knows the table and reads the JSON text finds in it the rows that were
inserted, in their order. (Missing: as in `C85_insert_partial`.) -/
theorem C85_text_insert_partial (hfl : DoublesReadBack fl dr) (hjn : Spec.NarrowsExactly jn) (hdb : validUtf8 db = true)
    (htbl : validUtf8 tbl = true) (hdefs : ∀ d ∈ defs, validUtf8 d.name = true)
    (hknow : KnownTable schema db tbl kinds defs cols) (hk : ∀ k ∈ kinds, k.Ok) (hm : kinds.map metaOf = ms.map some)
    (hn : kinds.length + 7 < 2 ^ 32) (extra bm : Bytes) (he : extra.length + 2 < 2 ^ 16) (hp : Covers bm (full kinds))
    (images : List Image) (hr : ∀ r ∈ images, WritableImage kinds cols r) :
    ∃ ev recs read, RowsV2.readFrom (extra.length + 2) ms (Spec.rowsPayload kinds extra bm images) = .ok ev [] ∧
      JsonRows.fromInsert jsonLib db tbl ev defs = some recs ∧
      Spec.changeRecords dr (JsonRows.serialize fl recs) = some read ∧
      read.map (Spec.jsonChange jn schema) = images.map fun r => some ((db, tbl), .insert (rowOf r)) := by
  obtain ⟨ev, recs, h1, h2, h3⟩ := C85_insert_partial jsonLib jsonLib_base64 jn schema db tbl kinds ms defs cols hknow hk hm hn
    extra bm he hp images (fun r h => by
      have := hr r h
      rw [hknow.kinds] at this ⊢
      exact jImageGood_of jn hjn cols r this)
  have hc := (records_clean db tbl defs hdb htbl hdefs).1 ev recs h2
  exact ⟨ev, recs, _, h1, h2, records_text fl dr hfl recs hc, by rw [changes_sorted jn schema recs hc, h3]⟩

/-- C85, from the log to the text, for deleted rows -/
theorem C85_text_delete_partial (hfl : DoublesReadBack fl dr) (hjn : Spec.NarrowsExactly jn) (hdb : validUtf8 db = true)
    (htbl : validUtf8 tbl = true) (hdefs : ∀ d ∈ defs, validUtf8 d.name = true)
    (hknow : KnownTable schema db tbl kinds defs cols) (hk : ∀ k ∈ kinds, k.Ok) (hm : kinds.map metaOf = ms.map some)
    (hn : kinds.length + 7 < 2 ^ 32) (extra bm : Bytes) (he : extra.length + 2 < 2 ^ 16) (hp : Covers bm (full kinds))
    (images : List Image) (hr : ∀ r ∈ images, WritableImage kinds cols r) :
    ∃ ev recs read, RowsV2.readFrom (extra.length + 2) ms (Spec.rowsPayload kinds extra bm images) = .ok ev [] ∧
      JsonRows.fromDelete jsonLib db tbl ev defs = some recs ∧
      Spec.changeRecords dr (JsonRows.serialize fl recs) = some read ∧
      read.map (Spec.jsonChange jn schema) = images.map fun r => some ((db, tbl), .delete (rowOf r)) := by
  obtain ⟨ev, recs, h1, h2, h3⟩ := C85_delete_partial jsonLib jsonLib_base64 jn schema db tbl kinds ms defs cols hknow hk hm hn
    extra bm he hp images (fun r h => by
      have := hr r h
      rw [hknow.kinds] at this ⊢
      exact jImageGood_of jn hjn cols r this)
  have hc := (records_clean db tbl defs hdb htbl hdefs).2.1 ev recs h2
  exact ⟨ev, recs, _, h1, h2, records_text fl dr hfl recs hc, by rw [changes_sorted jn schema recs hc, h3]⟩

/-- C85, from the log to the text, for updated rows: both images -/
theorem C85_text_update_partial (hfl : DoublesReadBack fl dr) (hjn : Spec.NarrowsExactly jn) (hdb : validUtf8 db = true)
    (htbl : validUtf8 tbl = true) (hdefs : ∀ d ∈ defs, validUtf8 d.name = true)
    (hknow : KnownTable schema db tbl kinds defs cols) (hk : ∀ k ∈ kinds, k.Ok) (hm : kinds.map metaOf = ms.map some)
    (hn : kinds.length + 7 < 2 ^ 32) (extra bb ab : Bytes) (he : extra.length + 2 < 2 ^ 16)
    (hbc : Covers bb (full kinds)) (hac : Covers ab (full kinds)) (images : List (Image × Image))
    (hr : ∀ r ∈ images, WritableImage kinds cols r.1 ∧ WritableImage kinds cols r.2) :
    ∃ ev recs read, UpdateRowsV2.readFrom (extra.length + 2) ms (Spec.updatePayload kinds extra bb ab images) = .ok ev [] ∧
      JsonRows.fromUpdate jsonLib db tbl ev defs = some recs ∧
      Spec.changeRecords dr (JsonRows.serialize fl recs) = some read ∧
      read.map (Spec.jsonChange jn schema) = images.map fun r => some ((db, tbl), .update (rowOf r.1) (rowOf r.2)) := by
  obtain ⟨ev, recs, h1, h2, h3⟩ := C85_update_partial jsonLib jsonLib_base64 jn schema db tbl kinds ms defs cols hknow hk hm hn
    extra bb ab he hbc hac images (fun r h => by
      have := hr r h
      rw [hknow.kinds] at this ⊢
      exact ⟨jImageGood_of jn hjn cols r.1 this.1, jImageGood_of jn hjn cols r.2 this.2⟩)
  have hc := (records_clean db tbl defs hdb htbl hdefs).2.2 ev recs h2
  exact ⟨ev, recs, _, h1, h2, records_text fl dr hfl recs hc, by rw [changes_sorted jn schema recs hc, h3]⟩

end Text

/-! ### cases -/

/-- There is a way to write doubles that can be read back. -/
theorem doublesReadBack_exists : ∃ fl dr, DoublesReadBack fl dr := by
  refine ⟨fun b => natText b ++ asc ".0", fun _ w _ _ => (Spec.readNat w).getD 0, fun bits _ _ => ?_⟩
  refine ⟨false, natText bits, some [0x30], none, by simp, by simp [readNat_natText], fun rest hr => ?_⟩
  have hd : Spec.digitsOf (natText bits ++ 0x2e :: 0x30 :: rest) = (natText bits, 0x2e :: 0x30 :: rest) := by
    have hd := natText_digits bits
    unfold Spec.digitsOf
    rw [List.span_eq_takeWhile_dropWhile,
      List.takeWhile_append_of_pos (by simpa [AllDigits] using hd), List.dropWhile_append_of_pos (by simpa [AllDigits] using hd),
      List.takeWhile_cons_of_neg (by decide), List.dropWhile_cons_of_neg (by decide), List.append_nil]
  have hs : Stop rest := hr
  have hz : Spec.digitsOf (0x30 :: rest) = ([0x30], rest) := by
    have := digitsOf_natText 0 rest hs
    have e : natText 0 = [0x30] := by decide +kernel
    rw [e] at this
    exact this
  have he : Spec.jsonExponent rest = some (none, rest) := by
    rcases hs.cases with rfl | ⟨b, t, rfl, hb⟩
    · rfl
    · rcases hb with rfl | rfl | rfl <;> rfl
  have e0 : natText bits ++ asc ".0" ++ rest = natText bits ++ 0x2e :: 0x30 :: rest := by
    rw [List.append_assoc]; rfl
  rw [e0]
  have hu : Spec.jsonUnsigned false (natText bits ++ 0x2e :: 0x30 :: rest)
      = some (.number false (natText bits) (some [0x30]) none, rest) := by
    unfold Spec.jsonUnsigned
    rw [hd]
    dsimp only
    rw [if_neg (natText_ne_nil bits), if_neg (by rintro ⟨h1, h2⟩; exact h2 (natText_zero_front bits h1))]
    rw [Spec.jsonFraction, hz]
    dsimp only
    rw [if_neg (by simp), Option.bind_some]
    dsimp only
    rw [he, Option.map_some]
  rw [← hu]
  unfold Spec.jsonNumber
  split
  · rename_i t heq
    obtain ⟨b, hb, h1, h2⟩ := head_natText_append bits (0x2e :: 0x30 :: rest)
    rw [heq] at hb
    simp only [List.head?_cons, Option.some.injEq] at hb
    subst hb
    exact absurd h1 (by decide)
  · rfl

/-- There is a way to make floats of doubles. -/
theorem narrowsExactly_exists (round : Spec.FloatRead) : ∃ jn : JsonNumbers, jn.round = round ∧ Spec.NarrowsExactly jn := by
  classical
  refine ⟨⟨round, fun b => if h : ∃ n, n < 2 ^ 32 ∧ (binary32 n).isSome ∧ binary64 b = binary32 n then h.choose else 0⟩, rfl, ?_⟩
  intro n b hn _ hs he
  have hex : ∃ n, n < 2 ^ 32 ∧ (binary32 n).isSome ∧ binary64 b = binary32 n := ⟨n, hn, hs, he⟩
  dsimp only
  rw [dif_pos hex]
  obtain ⟨h1, h2, h3⟩ := hex.choose_spec
  exact binary32_inj _ _ h1 hn h2 (h3.symm.trans he)

/-- The number 0.1 as a float, and the double that is written for it. -/
example : f32ToF64 0x3dcccccd = 0x3fb99999a0000000 := by decide +kernel

/-- the smallest float -/
example : f32ToF64 1 = 0x36a0000000000000 := by decide +kernel

/-- The text of the insertion of a row, with a quotation mark, a newline and a character that is not ASCII. -/
example :
    JsonRows.serialize (fun _ => []) [⟨Spec.ascii "insert", [], Spec.ascii "d", Spec.ascii "t", none,
        some [(Spec.ascii "id", .int (-7)), (Spec.ascii "a", .str [0x22, 0x0a, 0x01, 0xc3, 0xa9])]⟩]
      = Spec.ascii "[{\"type\":\"insert\",\"base64_encoded\":[],\"db\":\"d\",\"tbl\":\"t\",\"before\":null,\"after\":{\"a\":\"\\\"\\n\\u0001"
        ++ [0xc3, 0xa9] ++ Spec.ascii "\",\"id\":-7}}]" := by
  decide +kernel

/-- The reader reads other JSON texts as well: white space, members in another order, a surrogate pair, an exponent. -/
example : Spec.changeRecords (fun _ _ _ _ => 5) (Spec.ascii
      " [ { \"after\" : { \"a\" : \"\\ud83d\\ude00\\/\" , \"b\" : 1.5e-3 } , \"before\" : null, \"tbl\":\"t\", \"db\":\"d\", \"base64_encoded\":[], \"type\":\"insert\"} ] ")
    = some [⟨Spec.ascii "insert", [], Spec.ascii "d", Spec.ascii "t", none,
        some [(Spec.ascii "a", .str [0xf0, 0x9f, 0x98, 0x80, 0x2f]), (Spec.ascii "b", .float 5)]⟩] := by
  decide +kernel

/-- It does not read texts that are not JSON: a number with a leading zero, a control character, an open array, a lone
surrogate. -/
example : (Spec.jsonText (Spec.ascii "01")).isNone ∧ (Spec.jsonText (Spec.ascii "\"\n\"")).isNone ∧
    (Spec.jsonText (Spec.ascii "[1")).isNone ∧ (Spec.jsonText (Spec.ascii "\"\\ud800\"")).isNone := by
  decide +kernel

/-- The hypotheses hold of a row with an integer and a NULL. -/
example : WritableImage [.long, .long] exampleCopy ⟨[.value (.num 7), .null], [2]⟩ := by
  refine ⟨⟨⟨(by norm_num [Fits]), trivial⟩, rfl, covers_of [2] [false, true] rfl (by decide)⟩, ⟨trivial, trivial⟩, ?_⟩
  intro y hy v hv
  have hy : y ∈ [(Column.mk (Spec.ascii "id") .long false true, Cell.value (.num 7)),
    (Column.mk (Spec.ascii "a") .long false false, Cell.null)] := hy
  simp only [List.mem_cons, List.not_mem_nil, or_false] at hy
  rcases hy with rfl | rfl
  · exact ⟨trivial, trivial⟩
  · cases hv

/-- Records are made of this row. -/
example : (JsonRows.fromInsert jsonLib (Spec.ascii "d") (Spec.ascii "t") ⟨[], 2, [3], [[.long 7, .null]]⟩ exampleCols).isSome ∧
    ∀ d ∈ exampleCols, validUtf8 d.name = true := by
  decide +kernel

end Mybin
