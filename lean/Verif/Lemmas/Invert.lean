/- Inverting a successful run of a decoder; raw (non-encoded) inputs. -/
import Verif.Lemmas.Times
import Verif.Lemmas.Run
import Verif.Model.Event

namespace Mybin
variable {α β : Type}

theorem P.bind_eq_ok {x : P α} {f : α → P β} {bs r : Bytes} {b : β} :
    (x >>= f) bs = .ok b r ↔ ∃ a r1, x bs = .ok a r1 ∧ f a r1 = .ok b r := by
  rw [P.bind_apply]
  cases x bs with
  | ok a r1 => simp [R.bind]
  | err e r1 => simp [R.bind]
  | panic => simp [R.bind]
  | hang => simp [R.bind]

theorem P.pure_eq_ok {a b : α} {bs r : Bytes} : (pure a : P α) bs = .ok b r ↔ a = b ∧ bs = r := by
  simp

theorem P.orErr_eq_ok {o : Option α} {e : Err} {a : α} {bs r : Bytes} :
    P.orErr o e bs = .ok a r ↔ o = some a ∧ bs = r := by
  cases o <;> simp

theorem readFixed_eq_ok {k : Nat} {val : Bytes → Nat} {bs r : Bytes} {n : Nat} :
    readFixed k val bs = .ok n r ↔ k ≤ bs.length ∧ n = val (bs.take k) ∧ r = bs.drop k := by
  unfold readFixed
  split
  · simp; omega
  · simp only [R.ok.injEq]
    constructor
    · rintro ⟨rfl, rfl⟩; exact ⟨by omega, rfl, rfl⟩
    · rintro ⟨_, rfl, rfl⟩; exact ⟨rfl, rfl⟩

theorem readU8_eq_ok {bs r : Bytes} {n : Nat} :
    readU8 bs = .ok n r ↔ ∃ b, bs = b :: r ∧ n = b.toNat := by
  cases bs with
  | nil => simp [readU8]
  | cons b t =>
    simp only [readU8, R.ok.injEq, List.cons.injEq]
    constructor
    · rintro ⟨rfl, rfl⟩; exact ⟨b, ⟨rfl, rfl⟩, rfl⟩
    · rintro ⟨_, ⟨rfl, rfl⟩, rfl⟩; exact ⟨rfl, rfl⟩

theorem readLen_eq_ok {k : Nat} {bs r x : Bytes} :
    readLen k bs = .ok x r ↔ x.length = k ∧ bs = x ++ r := by
  unfold readLen
  split
  · simp only [reduceCtorEq, false_iff, not_and]
    rintro h rfl
    simp at *; omega
  · rename_i h
    simp only [R.ok.injEq]
    constructor
    · rintro ⟨rfl, rfl⟩; exact ⟨by simp; omega, by simp⟩
    · rintro ⟨rfl, rfl⟩; simp

theorem readFixed_append {k : Nat} (val : Bytes → Nat) (x rest : Bytes) (h : x.length = k) :
    readFixed k val (x ++ rest) = .ok (val x) rest := by
  rw [readFixed_eq_ok]; subst h; simp

theorem P.peek_eq {p : P α} {bs : Bytes} :
    P.peek p bs = match p bs with
      | .ok a _ => .ok a bs | .err e _ => .err e bs | .panic => .panic | .hang => .hang := rfl

theorem Well.peek {p : P α} (h : Well p) : Well (P.peek p) := by
  intro bs
  have := h bs
  unfold P.peek
  cases e : p bs <;> rw [e] at this <;> simp_all

/-- an input of at least `k` bytes as its first `k` bytes and the rest -/
theorem split_at (k : Nat) (bs : Bytes) (h : k ≤ bs.length) :
    ∃ x r, bs = x ++ r ∧ x.length = k ∧ r.length + k = bs.length :=
  ⟨bs.take k, bs.drop k, by simp, by simp; omega, by simp; omega⟩

theorem leVal_le (k n : Nat) (h : n < 256 ^ k) : leVal (Spec.le k n) = n := by
  rw [leVal_spec_le, Nat.mod_eq_of_lt h]

theorem leVal_inj (a b : Bytes) (hl : a.length = b.length) (h : leVal a = leVal b) : a = b := by
  induction a generalizing b with
  | nil => cases b with
    | nil => rfl
    | cons _ _ => simp at hl
  | cons x a ih => cases b with
    | nil => simp at hl
    | cons y b =>
      have hx := x.toNat_lt
      have hy := y.toNat_lt
      simp only [leVal] at h
      have h1 : x.toNat = y.toNat := by omega
      rw [UInt8.toNat_inj.mp h1, ih b (by simpa using hl) (by omega)]

theorem spec_le_leVal (x : Bytes) : Spec.le x.length (leVal x) = x := by
  apply leVal_inj _ _ (by simp)
  rw [leVal_le _ _ (leVal_lt x)]

/-- a successful little-endian read is exactly a little-endian encoding at the head of the input -/
theorem readLe_eq_ok {k : Nat} {bs r : Bytes} {n : Nat} :
    readFixed k leVal bs = .ok n r ↔ n < 256 ^ k ∧ bs = Spec.le k n ++ r := by
  constructor
  · intro h
    obtain ⟨h1, h2, h3⟩ := readFixed_eq_ok.1 h
    have hl : (bs.take k).length = k := by rw [List.length_take]; omega
    subst h2 h3
    refine ⟨?_, ?_⟩
    · have := leVal_lt (bs.take k)
      rwa [hl] at this
    · have := spec_le_leVal (bs.take k)
      rw [hl] at this
      rw [this, List.take_append_drop]
  · rintro ⟨h1, rfl⟩
    rw [readFixed_append leVal _ _ (by simp), leVal_le _ _ h1]

theorem readU8_eq_ok' {bs r : Bytes} {n : Nat} :
    readU8 bs = .ok n r ↔ n < 256 ∧ bs = Spec.u8 n ++ r := by
  rw [readU8_eq_ok]
  constructor
  · rintro ⟨b, rfl, rfl⟩
    exact ⟨b.toNat_lt, by simp [Spec.u8]⟩
  · rintro ⟨h, rfl⟩
    refine ⟨UInt8.ofNat n, by simp [Spec.u8], ?_⟩
    rw [UInt8.toNat_ofNat']; omega

end Mybin
