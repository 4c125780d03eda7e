/-
C23: exactly which values are written as the protocol has them.
-/
import Verif.Props.C22_C25

namespace Mybin

theorem encodes_251 {s bs : Bytes} (h : s.length = 251) (hw : ((LenEncStr.bytes s).writeTo []).1 = bs) (he : bs = Spec.lenEncStr s) :
    False := by
  have h1 : ((LenEncStr.bytes s).writeTo []).1 = 0xfb :: s := by
    simp only [LenEncStr.writeTo, h]
    rfl
  rw [h1] at hw
  subst hw
  have := congrArg List.length he
  simp [Spec.lenEncStr, Spec.lenEncInt, h, Spec.u8, Spec.le] at this

/-- C23, writing: a value is written as one of its protocol encodings, whatever is in the buffer before, exactly when it
is not a string of 251 bytes, a negative time of zero or a timestamp with microseconds. -/
theorem C23_write_iff (v : BinaryColumnValue) (hr : v.InRange) :
    (∃ bs, (∀ out, v.writeTo out = (out ++ bs, bs.length)) ∧ Spec.Encodes v bs) ↔
      match v with
      | .bit s | .newDecimal s | .blob s | .varString s | .string s | .geometry s => s.length ≠ 251
      | .time t => t ≠ ⟨true, 0, 0, 0, 0, 0⟩
      | .timestamp t => t.micro = 0
      | _ => True := by
  constructor
  · rintro ⟨bs, h1, h2⟩
    replace h1 := congrArg Prod.fst (h1 [])
    simp only [List.nil_append] at h1
    cases v
    case bit s => exact fun h => encodes_251 h h1 h2.2
    case newDecimal s => exact fun h => encodes_251 h h1 h2.2
    case blob s => exact fun h => encodes_251 h h1 h2.2
    case varString s => exact fun h => encodes_251 h h1 h2.2
    case string s => exact fun h => encodes_251 h h1 h2.2
    case geometry s => exact fun h => encodes_251 h h1 h2.2
    case time t =>
      rintro rfl
      have : ((BinaryColumnValue.time ⟨true, 0, 0, 0, 0, 0⟩).writeTo []).1 = [0] := rfl
      rw [this] at h1
      subst h1
      obtain ⟨-, ⟨h, -⟩ | ⟨-, h⟩ | h⟩ := h2
      · cases h
      · revert h; decide
      · revert h; decide
    case timestamp t =>
      have hl : bs.length = 8 := by rw [← h1]; rfl
      obtain ⟨-, ⟨h, -⟩ | ⟨h, -⟩ | ⟨h, -⟩ | h⟩ := h2
      · show t.micro = 0
        rw [h]
      · exact h.2.2.2
      · exact h
      · rw [h] at hl
        simp [Spec.u8, Spec.ymd, Spec.hms, Spec.le] at hl
    all_goals trivial
  · intro h
    refine C23_write_partial v hr ?_
    cases v <;> exact h

/-- C23, round trip: a value written after any bytes is read back by the decoder for a type with such values, exactly when
it is not a string of 251 bytes or a negative time of zero. -/
theorem C23_round_trip_iff (ct : ColumnType) (v : BinaryColumnValue) (hr : v.InRange) (ht : ct ∈ Spec.typesOf v) :
    (∀ out rest, ∃ bs, v.writeTo out = (out ++ bs, bs.length) ∧ BinaryColumnValue.readFrom ct (bs ++ rest) = .ok v rest) ↔
      match v with
      | .bit s | .newDecimal s | .blob s | .varString s | .string s | .geometry s => s.length ≠ 251
      | .time t => t ≠ ⟨true, 0, 0, 0, 0, 0⟩
      | _ => True := by
  constructor
  · intro h
    obtain ⟨bs, h1, h2⟩ := h [] []
    replace h1 := congrArg Prod.fst h1
    simp only [List.nil_append] at h1
    subst h1
    have key : ∀ s : Bytes, s.length = 251 → ((LenEncStr.bytes s).writeTo []).1 = 0xfb :: s := by
      intro s h
      simp only [LenEncStr.writeTo, h]
      rfl
    cases v <;> simp only [Spec.typesOf, List.mem_cons, List.not_mem_nil, or_false] at ht <;> try trivial
    case time t =>
      rintro rfl
      rcases ht with rfl | rfl <;> revert h2 <;> decide
    all_goals
      intro h
      have hk := key _ h
      unfold BinaryColumnValue.writeTo at h2
      rw [hk] at h2
      try subst ht
      first
        | cases (show R.ok BinaryColumnValue.null _ = _ from h2)
        | (rcases ht with rfl | rfl <;> cases (show R.ok BinaryColumnValue.null _ = _ from h2))
        | (rcases ht with rfl | rfl | rfl <;> cases (show R.ok BinaryColumnValue.null _ = _ from h2))
        | (rcases ht with rfl | rfl | rfl | rfl | rfl | rfl <;> cases (show R.ok BinaryColumnValue.null _ = _ from h2))
  · intro h out rest
    refine C23_round_trip_partial ct v out rest hr ?_ ht
    cases v <;> first | exact h | (simp [Spec.typesOf] at ht)

/-- both sides occur: a string of 250 bytes is read back, one of 251 is not -/
example : ∀ n, n < 2 ^ 64 → ((∀ out rest, ∃ bs, (BinaryColumnValue.blob (List.replicate n 7)).writeTo out = (out ++ bs, bs.length) ∧
    BinaryColumnValue.readFrom .blob (bs ++ rest) = .ok (.blob (List.replicate n 7)) rest) ↔ n ≠ 251) := by
  intro n hn
  rw [C23_round_trip_iff .blob _ (by simpa [BinaryColumnValue.InRange] using hn) (by simp [Spec.typesOf])]
  simp

end Mybin
