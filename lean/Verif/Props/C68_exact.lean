/-
C68: exactly which TIME texts are read right, and exactly which texts make the conversion panic.
-/
import Verif.Props.C66_C69

namespace Mybin

/-- C68: a TIME value is read as itself exactly when it is not a negative one of less than an hour and its fraction is
zero or has 3 or 6 digits (or none). -/
theorem C68_time_iff (t : Spec.Time) (fsp : Nat) (h : t.Ok fsp) :
    (∃ m, timeFromText (some (t.text fsp)) = .ok (some m) ∧ m.negative = t.negative ∧
      m.days * 24 + m.hour = t.hours ∧ m.minute = t.minute ∧ m.second = t.second ∧ m.micro = t.micro) ↔
    (t.negative = true → t.hours ≠ 0) ∧ (fsp ∈ [0, 3, 6] ∨ t.micro = 0) := by
  rw [time_read t fsp h]
  obtain ⟨-, -, -, h4, h5, h6⟩ := h
  constructor
  · rintro ⟨m, hm, hn, -, -, -, hf⟩
    cases hm
    dsimp only at hn hf
    refine ⟨fun ht h0 => ?_, ?_⟩
    · rw [ht, h0] at hn; simp at hn
    · unfold codeMicro at hf
      simp only [List.mem_cons, List.not_mem_nil, or_false]
      by_contra hc
      push Not at hc
      obtain ⟨⟨c0, c3, c6⟩, cm⟩ := hc
      rw [if_neg c0, if_neg c3] at hf
      have : fsp = 1 ∨ fsp = 2 ∨ fsp = 4 ∨ fsp = 5 := by omega
      rcases this with rfl | rfl | rfl | rfl <;> norm_num at hf <;> omega
  · rintro ⟨hn, hf⟩
    refine ⟨_, rfl, ?_, ?_, rfl, rfl, ?_⟩
    · cases ht : t.negative with
      | false => rfl
      | true => simp [hn ht]
    · show t.hours / 24 * 24 + t.hours % 24 = t.hours
      omega
    · show codeMicro t.micro fsp = t.micro
      unfold codeMicro
      rcases hf with hf | hf
      · simp only [List.mem_cons, List.not_mem_nil, or_false] at hf
        rcases hf with rfl | rfl | rfl
        · rw [if_pos rfl]; omega
        · norm_num at h6 ⊢; omega
        · simp
      · rw [hf]; split <;> (try split) <;> simp

theorem digit?_lt {b : UInt8} {d : Nat} (h : Spec.digit? b = some d) : d < 10 := by
  unfold Spec.digit? at h
  split at h
  · rename_i hb
    cases h
    have := hb.2
    rw [UInt8.le_iff_toNat_le] at this
    have h9 : (0x39 : UInt8).toNat = 57 := rfl
    omega
  · cases h

theorem readDigits_lt (t : Bytes) : ∀ (acc n : Nat), Spec.readDigits acc t = some n → n < (acc + 1) * 10 ^ t.length := by
  induction t with
  | nil => intro acc n h; cases h; simp
  | cons b t ih =>
    intro acc n h
    rw [Spec.readDigits] at h
    cases hd : Spec.digit? b with
    | none => rw [hd] at h; cases h
    | some d =>
      rw [hd] at h
      have h1 := ih _ _ h
      have h2 := digit?_lt hd
      refine lt_of_lt_of_le h1 ?_
      rw [List.length_cons, pow_succ, Nat.mul_comm (10 ^ t.length) 10, ← Nat.mul_assoc]
      exact Nat.mul_le_mul_right _ (by omega)

theorem readUnsigned_lt {t : Bytes} {n : Nat} (h : Spec.readUnsigned t = some n) : n < 10 ^ t.length := by
  have key : ∀ t n, Spec.readNat t = some n → n < 10 ^ t.length := by
    intro t n h
    unfold Spec.readNat at h
    split at h
    · cases h
    · simpa using readDigits_lt t 0 n h
  unfold Spec.readUnsigned at h
  split at h
  · refine lt_of_lt_of_le (key _ _ h) (Nat.pow_le_pow_right (by norm_num) ?_)
    simp
  · exact key _ _ h

theorem parseSeconds_no_panic (s : Bytes) : parseSeconds s ≠ .panic := by
  intro h
  unfold parseSeconds at h
  split at h
  · rename_i sec _
    cases hs : parseUInt 8 sec with
    | none => rw [hs] at h; cases h
    | some n => rw [hs] at h; cases h
  · rename_i sec frac _
    cases hs : parseUInt 8 sec with
    | none => rw [hs] at h; cases h
    | some n =>
      rw [hs] at h
      change (if frac.length = 3 then _ else _) = _ at h
      by_cases h3 : frac.length = 3
      · rw [if_pos h3] at h
        cases hf : parseUInt 32 frac with
        | none => rw [hf] at h; cases h
        | some ms =>
          rw [hf] at h
          change (if ms * 1000 < 2 ^ 32 then _ else _) = _ at h
          rw [if_pos] at h
          · cases h
          · rw [parseUInt_eq] at hf
            obtain ⟨n', hn, hr⟩ := Option.bind_eq_some_iff.1 hf
            split at hr
            · cases hr
              have := readUnsigned_lt hn
              rw [h3] at this
              norm_num at this ⊢
              omega
            · cases hr
      · rw [if_neg h3] at h
        cases hf : parseUInt 32 frac with
        | none => rw [hf] at h; cases h
        | some us => rw [hf] at h; cases h
  · cases h

theorem splitOn_parts (c : UInt8) : ∀ (s : Bytes), ∃ p ps, splitOn c s = p :: ps ∧ c ∉ p ∧
    ((ps = [] ∧ s = p) ∨ ∃ r, s = p ++ c :: r ∧ ps = splitOn c r) := by
  intro s
  induction s with
  | nil => exact ⟨[], [], rfl, by simp, Or.inl ⟨rfl, rfl⟩⟩
  | cons b s ih =>
    obtain ⟨p, ps, he, hp, hr⟩ := ih
    by_cases hb : b = c
    · exact ⟨[], splitOn c s, by rw [splitOn, if_pos hb], by simp, Or.inr ⟨s, by rw [hb]; rfl, rfl⟩⟩
    · refine ⟨b :: p, ps, by rw [splitOn, if_neg hb, he], ?_, ?_⟩
      · simp only [List.mem_cons, not_or]; exact ⟨fun h => hb h.symm, hp⟩
      · rcases hr with ⟨rfl, rfl⟩ | ⟨r, rfl, rfl⟩
        · exact Or.inl ⟨rfl, rfl⟩
        · exact Or.inr ⟨r, rfl, rfl⟩

theorem splitOn_three (c : UInt8) (s h m r : Bytes) :
    splitOn c s = [h, m, r] ↔ s = h ++ c :: (m ++ c :: r) ∧ c ∉ h ∧ c ∉ m ∧ c ∉ r := by
  constructor
  · intro hs
    obtain ⟨p, ps, he, hp, hr⟩ := splitOn_parts c s
    rw [hs] at he
    cases he
    rcases hr with ⟨h0, -⟩ | ⟨s', rfl, he⟩
    · cases h0
    obtain ⟨p', ps', he', hp', hr'⟩ := splitOn_parts c s'
    rw [← he] at he'
    cases he'
    rcases hr' with ⟨h0, -⟩ | ⟨s'', rfl, he''⟩
    · cases h0
    obtain ⟨p'', ps'', he3, hp'', hr''⟩ := splitOn_parts c s''
    rw [← he''] at he3
    cases he3
    rcases hr'' with ⟨-, rfl⟩ | ⟨s3, rfl, he4⟩
    · exact ⟨rfl, hp, hp', hp''⟩
    · obtain ⟨p4, ps4, he5, -, -⟩ := splitOn_parts c s3
      rw [← he4] at he5; cases he5
  · rintro ⟨rfl, h1, h2, h3⟩
    rw [splitOn_append c h _ h1, splitOn_append c m _ h2, splitOn_none c r h3]

/-- C68: reading a text as a TIME value panics exactly when the text is UTF-8 and, after white space, has three parts
separated by `:` of which the first stands for -2^63. -/
theorem C68_panic_iff (bs : Bytes) :
    timeFromText (some bs) = .panic ↔
      validUtf8 bs = true ∧ ∃ h m s, trimStart bs = h ++ 0x3a :: (m ++ 0x3a :: s) ∧ 0x3a ∉ h ∧ 0x3a ∉ m ∧ 0x3a ∉ s ∧
        Spec.readSigned h = some (-(2 ^ 63)) := by
  unfold timeFromText
  dsimp only
  cases hv : validUtf8 bs with
  | false => simp
  | true =>
    simp only [Bool.not_true, Bool.false_eq_true, if_false, true_and]
    constructor
    · intro hp
      split at hp
      · rename_i h m s hs
        refine ⟨h, m, s, ?_⟩
        obtain ⟨he, h1, h2, h3⟩ := (splitOn_three _ _ _ _ _).1 hs
        refine ⟨he, h1, h2, h3, ?_⟩
        cases hh : parseSInt 64 h with
        | none => rw [hh] at hp; cases hp
        | some i =>
          rw [hh] at hp
          change (if i = -(2 ^ 63) then _ else _) = _ at hp
          by_cases hi : i = -(2 ^ 63)
          · rw [parseSInt_eq] at hh
            obtain ⟨j, hj, hr⟩ := Option.bind_eq_some_iff.1 hh
            split at hr
            · cases hr; rw [hj, hi]
            · cases hr
          · rw [if_neg hi] at hp
            cases hm : parseUInt 8 m with
            | none => rw [hm] at hp; cases hp
            | some mi =>
              rw [hm] at hp
              cases hsec : parseSeconds s with
              | ok a => rw [hsec] at hp; cases hp
              | err e => rw [hsec] at hp; cases hp
              | panic => exact absurd hsec (parseSeconds_no_panic s)
      · cases hp
    · rintro ⟨h, m, s, he, h1, h2, h3, hr⟩
      rw [(splitOn_three 0x3a _ h m s).2 ⟨he, h1, h2, h3⟩]
      have : parseSInt 64 h = some (-(2 ^ 63)) := by
        rw [parseSInt_eq, hr, Option.bind_some, if_pos (by norm_num)]
      dsimp only
      rw [this]
      rfl

/-- a text that meets the condition, with white space in front -/
example : ∃ h m s, trimStart (Spec.ascii " -9223372036854775808:x:") = h ++ 0x3a :: (m ++ 0x3a :: s) ∧
    Spec.readSigned h = some (-(2 ^ 63)) ∧ m ≠ [] := by
  refine ⟨Spec.ascii "-9223372036854775808", Spec.ascii "x", [], ?_, by decide +kernel, by decide⟩
  rw [trimStart_some (r := Spec.ascii "-9223372036854775808:x:") rfl, trimStart_none (by decide +kernel)]
  decide +kernel

end Mybin
