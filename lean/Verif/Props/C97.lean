import Verif.Model.Flags
import Verif.Spec.Flags
import Verif.Props.C49

/-! C97: a named flag stands for the bit the server knows under that name. -/

namespace Mybin

/-- the bit of a named flag, by the server -/
def Spec.Bit (kind name : String) (i : Nat) : Prop := ∃ names, (kind, names) ∈ Spec.flagBits ∧ (name, i) ∈ names

/-- the constant the library has for it -/
def IsFlag (kind name : String) (mask : Nat) : Prop := ∃ names, (kind, names) ∈ Flags.table ∧ (name, mask) ∈ names

/-- the two names the library has the wrong way round -/
def Spec.swappedFlags : List (String × String) := [("ColumnFlags", "NUM"), ("ColumnFlags", "PART_KEY")]

theorem flag_bits (kind name : String) (mask : Nat) (h : IsFlag kind name mask)
    (hn : (kind, name) ∉ Spec.swappedFlags) : ∃ i, Spec.Bit kind name i ∧ mask = 2 ^ i := by
  obtain ⟨names, h1, h2⟩ := h
  have key : ∀ g ∈ Flags.table, ∀ f ∈ g.2, (g.1, f.1) ∉ Spec.swappedFlags →
      ∃ s ∈ Spec.flagBits, s.1 = g.1 ∧ ∃ b ∈ s.2, b.1 = f.1 ∧ f.2 = 2 ^ b.2 := by
    decide +kernel
  obtain ⟨s, s1, s2, b, b1, b2, b3⟩ := key _ h1 _ h2 hn
  exact ⟨b.2, ⟨s.2, by rw [← show s.1 = kind from s2]; exact s1, by rw [← show b.1 = name from b2]; exact b1⟩, b3⟩

/-- the flags of a value under one of the server's names -/
theorem bit_unique (kind name : String) (i j : Nat) (h1 : Spec.Bit kind name i) (h2 : Spec.Bit kind name j) : i = j := by
  have key : ∀ s ∈ Spec.flagBits, ∀ b ∈ s.2, ∀ t ∈ Spec.flagBits, ∀ a ∈ t.2, s.1 = t.1 → b.1 = a.1 → b.2 = a.2 := by
    decide +kernel
  obtain ⟨n1, a1, a2⟩ := h1
  obtain ⟨n2, b1, b2⟩ := h2
  exact key _ a1 _ a2 _ b1 _ b2 rfl rfl

/-- C97: a test for a named flag, on whatever the server has sent, is a test of the bit the server has under that name.
(Full claim: for all names. Missing: two column flags, for which it is false, `C97_swapped_false`.) -/
theorem C97_named_partial (kind name : String) (mask : Nat) (h : IsFlag kind name mask)
    (hn : (kind, name) ∉ Spec.swappedFlags) : ∃ i, Spec.Bit kind name i ∧ ∀ bits, hasFlag bits mask = bits.testBit i := by
  obtain ⟨i, hi, rfl⟩ := flag_bits kind name mask h hn
  exact ⟨i, hi, fun bits => hasFlag_eq_testBit bits i⟩

/-- `a | b | ...` of flags -/
def unionFlags (masks : List Nat) : Nat := masks.foldl (· ||| ·) 0

theorem testBit_union (masks : List Nat) (i : Nat) : (unionFlags masks).testBit i = masks.any (·.testBit i) := by
  have key : ∀ (masks : List Nat) (n : Nat), (masks.foldl (· ||| ·) n).testBit i = (n.testBit i || masks.any (·.testBit i)) := by
    intro masks
    induction masks with
    | nil => simp
    | cons m ms ih => intro n; simp only [List.foldl_cons, ih, Nat.testBit_or, List.any_cons, Bool.or_assoc]
  simpa [unionFlags] using key masks 0

/-- C97, sending: of a set put together from named flags (the flags of `refresh`, say) the server sees the bits it has
under these names, and no others. -/
theorem C97_set_partial (kind : String) (chosen : List (String × Nat)) (h : ∀ f ∈ chosen, IsFlag kind f.1 f.2)
    (hn : ∀ f ∈ chosen, (kind, f.1) ∉ Spec.swappedFlags) (i : Nat) :
    (unionFlags (chosen.map (·.2))).testBit i = true ↔ ∃ f ∈ chosen, Spec.Bit kind f.1 i := by
  rw [testBit_union, List.any_eq_true]
  constructor
  · rintro ⟨m, hm, hi⟩
    obtain ⟨f, hf, rfl⟩ := List.mem_map.1 hm
    obtain ⟨j, hj, e⟩ := flag_bits kind f.1 f.2 (h f hf) (hn f hf)
    rw [e, Nat.testBit_two_pow] at hi
    exact ⟨f, hf, by rw [← of_decide_eq_true hi]; exact hj⟩
  · rintro ⟨f, hf, hi⟩
    refine ⟨f.2, List.mem_map_of_mem hf, ?_⟩
    obtain ⟨j, hj, e⟩ := flag_bits kind f.1 f.2 (h f hf) (hn f hf)
    rw [e, Nat.testBit_two_pow, bit_unique kind f.1 i j hi hj]
    simp

/-- C97: which undefined bits are refused (status flags, `from_bits`) or dropped (capability flags, `from_bits_truncate`):
those of no name. -/
theorem C97_defined (i : Nat) :
    (Cap.ALL.testBit i = true ↔ ∃ name, Spec.Bit "CapabilityFlags" name i) ∧
    (Status.ALL.testBit i = true ↔ ∃ name, Spec.Bit "StatusFlags" name i) := by
  have hs : ∀ (kind : String) (all : Nat) (n : Nat), all < 2 ^ n →
      (∀ i < n, all.testBit i = true ↔ ∃ s ∈ Spec.flagBits, s.1 = kind ∧ ∃ b ∈ s.2, b.2 = i) →
      (∀ s ∈ Spec.flagBits, s.1 = kind → ∀ b ∈ s.2, b.2 < n) →
      ∀ i, (all.testBit i = true ↔ ∃ name, Spec.Bit kind name i) := by
    intro kind all n ha h1 h2 i
    constructor
    · intro hi
      have hin : i < n := by
        by_contra hle
        rw [Nat.testBit_lt_two_pow (lt_of_lt_of_le ha (Nat.pow_le_pow_right (by norm_num) (by omega)))] at hi
        cases hi
      obtain ⟨s, s1, s2, b, b1, b2⟩ := (h1 i hin).1 hi
      exact ⟨b.1, s.2, by rw [← s2]; exact s1, by rw [← b2]; exact b1⟩
    · rintro ⟨name, names, a1, a2⟩
      exact (h1 i (h2 _ a1 rfl _ a2)).2 ⟨_, a1, rfl, _, a2, rfl⟩
  exact ⟨hs "CapabilityFlags" Cap.ALL 32 (by decide) (by decide +kernel) (by decide +kernel) i,
    hs "StatusFlags" Status.ALL 15 (by decide) (by decide +kernel) (by decide +kernel) i⟩

/-- C97 is false for two column flags: the test for NUM is a test of the server's PART_KEY, and the other way round. -/
theorem C97_swapped_false (bits : Nat) :
    (∃ mask i, IsFlag "ColumnFlags" "NUM" mask ∧ Spec.Bit "ColumnFlags" "PART_KEY" i ∧ hasFlag bits mask = bits.testBit i) ∧
    (∃ mask i, IsFlag "ColumnFlags" "PART_KEY" mask ∧ Spec.Bit "ColumnFlags" "NUM" i ∧ hasFlag bits mask = bits.testBit i) :=
  ⟨⟨0x4000, 14, ⟨Flags.columnFlags, by decide +kernel, by decide +kernel⟩,
      ⟨Spec.columnFlagsBits, by decide +kernel, by decide +kernel⟩, hasFlag_eq_testBit bits 14⟩,
    ⟨0x8000, 15, ⟨Flags.columnFlags, by decide +kernel, by decide +kernel⟩,
      ⟨Spec.columnFlagsBits, by decide +kernel, by decide +kernel⟩, hasFlag_eq_testBit bits 15⟩⟩

-- an INT column, as the server describes it: NOT NULL, primary key, a number; and `GRANT | TABLES` for `refresh`
example : IsFlag "ColumnFlags" "PRIMARY_KEY" 2 ∧ hasFlag (2 ^ 0 + 2 ^ 1 + 2 ^ 15) 2 = true ∧
    hasFlag (2 ^ 0 + 2 ^ 1 + 2 ^ 15) 0x4000 = false ∧ IsFlag "RefreshFlags" "TABLES" 4 ∧ unionFlags [1, 4] = 5 :=
  ⟨⟨Flags.columnFlags, by decide +kernel, by decide +kernel⟩, by decide, by decide,
    ⟨Flags.refreshFlags, by decide +kernel, by decide +kernel⟩, by decide⟩

end Mybin
