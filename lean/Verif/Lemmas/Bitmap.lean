/- Lemmas about bitmaps. -/
import Verif.Model.Bitmap
import Verif.Spec.Bits
import Mathlib.Tactic.Linarith
import Mathlib.Data.List.Basic
import Mathlib.Tactic.Ring
import Mathlib.Data.Fintype.Basic

namespace Mybin.Bitmap

theorem byte_table : ∀ (b : Fin 256) (o : Fin 8),
    (((1 <<< UInt8.ofNat o.val) &&& UInt8.ofNat b.val == (1 <<< UInt8.ofNat o.val))
      = (b.val.testBit o.val)) ∧
    ((UInt8.ofNat b.val &&& (1 <<< UInt8.ofNat o.val) != 0) = (b.val.testBit o.val)) := by
  decide +kernel

theorem byte_table_set : ∀ (b : Fin 256) (o p : Fin 8),
    ((UInt8.ofNat b.val ||| (1 <<< UInt8.ofNat o.val)).toNat.testBit p.val
      = (if p = o then true else b.val.testBit p.val)) ∧
    ((UInt8.ofNat b.val &&& ~~~(1 <<< UInt8.ofNat o.val)).toNat.testBit p.val
      = (if p = o then false else b.val.testBit p.val)) := by
  decide +kernel

theorem byte_index (b : UInt8) (o : Nat) (ho : o < 8) :
    ((1 <<< UInt8.ofNat o) &&& b == (1 <<< UInt8.ofNat o)) = b.toNat.testBit o := by
  have := (byte_table ⟨b.toNat, b.toNat_lt⟩ ⟨o, ho⟩).1
  simpa using this

theorem byte_test (b : UInt8) (o : Nat) (ho : o < 8) :
    (b &&& (1 <<< UInt8.ofNat o) != 0) = b.toNat.testBit o := by
  have := (byte_table ⟨b.toNat, b.toNat_lt⟩ ⟨o, ho⟩).2
  simpa using this

theorem byte_or (b : UInt8) (o p : Nat) (ho : o < 8) (hp : p < 8) :
    (b ||| (1 <<< UInt8.ofNat o)).toNat.testBit p = if p = o then true else b.toNat.testBit p := by
  have := (byte_table_set ⟨b.toNat, b.toNat_lt⟩ ⟨o, ho⟩ ⟨p, hp⟩).1
  simpa [-UInt8.toNat_or] using this

theorem byte_andnot (b : UInt8) (o p : Nat) (ho : o < 8) (hp : p < 8) :
    (b &&& ~~~(1 <<< UInt8.ofNat o)).toNat.testBit p
      = if p = o then false else b.toNat.testBit p := by
  have := (byte_table_set ⟨b.toNat, b.toNat_lt⟩ ⟨o, ho⟩ ⟨p, hp⟩).2
  simpa [-UInt8.toNat_and] using this

theorem and7 (i : Nat) : i &&& 7 = i % 8 := Nat.and_two_pow_sub_one_eq_mod i 3
theorem shr3 (i : Nat) : i >>> 3 = i / 8 := Nat.shiftRight_eq_div_pow i 3
theorem shl3 (i : Nat) : i <<< 3 = 8 * i := by rw [Nat.shiftLeft_eq]; omega

theorem index_eq (bm : Bytes) (i : Nat) : index bm i = Spec.bit? bm i := by
  simp only [index, Spec.bit?, and7, shr3]
  cases h : bm[i / 8]? with
  | none => rfl
  | some b => simp [byte_index b (i % 8) (Nat.mod_lt _ (by omega))]

theorem bit?_isSome (bm : Bytes) (i : Nat) : (Spec.bit? bm i).isSome ↔ i < 8 * bm.length := by
  simp [Spec.bit?]; omega

theorem bit?_eq_none (bm : Bytes) (i : Nat) : Spec.bit? bm i = none ↔ 8 * bm.length ≤ i := by
  simp [Spec.bit?]; omega

theorem mark_none (bm : Bytes) (i : Nat) (m : Bool) (h : 8 * bm.length ≤ i) :
    mark bm i m = none := by
  simp only [mark, shr3]
  rw [List.getElem?_eq_none (by omega)]

theorem mark_some (bm : Bytes) (i : Nat) (m : Bool) (h : i < 8 * bm.length) :
    ∃ bm', mark bm i m = some bm' ∧ bm'.length = bm.length ∧
      ∀ j, Spec.bit? bm' j = if j = i then some m else Spec.bit? bm j := by
  have hi : i / 8 < bm.length := by omega
  simp only [mark, shr3, and7]
  rw [List.getElem?_eq_getElem hi]
  refine ⟨_, rfl, by simp, fun j => ?_⟩
  have ho : i % 8 < 8 := Nat.mod_lt _ (by omega)
  have hp : j % 8 < 8 := Nat.mod_lt _ (by omega)
  simp only [Spec.bit?, List.getElem?_set]
  by_cases hb : i / 8 = j / 8
  · rw [if_pos hb, if_pos hi, ← hb, List.getElem?_eq_getElem hi]
    have hji : j = i ↔ j % 8 = i % 8 := by omega
    cases m
    · simp only [Option.map_some, Bool.false_eq_true, if_false, byte_andnot _ _ _ ho hp, hji]
      split <;> rfl
    · simp only [Option.map_some, if_true, byte_or _ _ _ ho hp, hji]
      split <;> rfl
  · rw [if_neg hb, if_neg (by rintro rfl; exact hb rfl)]

theorem toIter_eq (bm : Bytes) (i : Nat) (h : i ≤ 8 * bm.length) :
    ∃ l, toIter bm i = some l ∧ l.length = 8 * bm.length - i ∧
      ∀ k, k < l.length → l[k]? = Spec.bit? bm (i + k) := by
  induction hn : 8 * bm.length - i generalizing i with
  | zero =>
    have : i = 8 * bm.length := by omega
    refine ⟨[], ?_, rfl, fun k hk => by simp at hk⟩
    rw [toIter, if_pos (by rw [shl3]; exact this.symm)]
  | succ n ih =>
    obtain ⟨l, hl, hlen, hget⟩ := ih (i + 1) (by omega) (by omega)
    have hi : i / 8 < bm.length := by omega
    have ho : i % 8 < 8 := Nat.mod_lt _ (by omega)
    refine ⟨(bm[i / 8].toNat.testBit (i % 8)) :: l, ?_, by simp [hlen], fun k hk => ?_⟩
    · rw [toIter, if_neg (by rw [shl3]; omega)]
      have hb : bm[i >>> 3]? = some bm[i / 8] := by rw [shr3, List.getElem?_eq_getElem hi]
      split
      · rename_i hnone; rw [hb] at hnone; cases hnone
      · rename_i b hsome
        rw [hb] at hsome
        cases hsome
        rw [hl, and7, byte_test _ _ ho]; rfl
    · cases k with
      | zero => simp [Spec.bit?, List.getElem?_eq_getElem hi]
      | succ k =>
        have := hget k (by simpa using hk)
        rw [List.getElem?_cons_succ, this]
        congr 1; omega

theorem next_spec (bm : Bytes) (i : Nat) (b : Bool) (h : Spec.bit? bm i = some b) :
    next bm i = some (some b, i + 1) := by
  have hi : i < 8 * bm.length := by
    rw [← bit?_isSome, h]; rfl
  have hi' : i / 8 < bm.length := by omega
  have ho : i % 8 < 8 := Nat.mod_lt _ (by omega)
  unfold next
  rw [if_neg (by rw [shl3]; omega), shr3, List.getElem?_eq_getElem hi']
  simp only [and7, byte_test _ _ ho]
  rw [Spec.bit?, List.getElem?_eq_getElem hi'] at h
  simp at h
  rw [h]

/-- bit `j` with `false` outside, used only inside proofs -/
def bitD (bm : Bytes) (j : Nat) : Bool := (Spec.bit? bm j).getD false

theorem bit?_append_zero (bm : Bytes) (j : Nat) (h : j < 8 * bm.length + 8) :
    Spec.bit? (bm ++ [0]) j = some (bitD bm j) := by
  unfold bitD Spec.bit?
  by_cases c : j / 8 < bm.length
  · simp [List.getElem?_append_left c, List.getElem?_eq_getElem c]
  · have : j / 8 = bm.length := by omega
    simp [this]

theorem foldlM_spec (bits : List Bool) : ∀ (bm : Bytes) (off : Nat),
    (off + 7) / 8 ≤ bm.length → bm.length ≤ off / 8 + 1 → 0 < bm.length →
    (∀ j, off ≤ j → bitD bm j = false) →
    ∃ bm', bits.foldlM fromIterStep (bm, off) = some (bm', off + bits.length) ∧
      bm'.length = max bm.length ((off + bits.length + 7) / 8) ∧
      ∀ j, j < 8 * bm'.length →
        Spec.bit? bm' j = some (if j < off then bitD bm j else (bits[j - off]?).getD false) := by
  induction bits with
  | nil =>
    intro bm off h1 h2 h3 hz
    refine ⟨bm, rfl, ?_, fun j hj => ?_⟩
    · simp only [List.length_nil]
      rw [max_eq_left]
      simpa using h1
    · have hs : (Spec.bit? bm j).isSome := (bit?_isSome bm j).2 hj
      obtain ⟨v, hv⟩ := Option.isSome_iff_exists.1 hs
      by_cases c : j < off
      · simp [c, bitD, hv]
      · have := hz j (by omega)
        simp [bitD, hv] at this
        simp [c, hv, this]
  | cons b bits ih =>
    intro bm off h1 h2 h3 hz
    -- the buffer after the optional push
    obtain ⟨bm1, hbm1, hl1, hb1⟩ : ∃ bm1 : Bytes,
        bm1 = (if off >>> 3 = bm.length then bm ++ [0] else bm) ∧
        bm1.length = off / 8 + 1 ∧
        ∀ j, j < 8 * bm1.length → Spec.bit? bm1 j = some (bitD bm j) := by
      refine ⟨_, rfl, ?_, ?_⟩
      · rw [shr3]; split <;> (try simp) <;> omega
      · rw [shr3]
        split
        · intro j hj
          exact bit?_append_zero bm j (by simpa [Nat.mul_add] using hj)
        · intro j hj
          have hs : (Spec.bit? bm j).isSome := (bit?_isSome bm j).2 hj
          obtain ⟨v, hv⟩ := Option.isSome_iff_exists.1 hs
          simp [bitD, hv]
    have hpos : 0 < bm1.length := by omega
    -- the buffer after setting the bit
    obtain ⟨bm2, hstep, hl2, hb2⟩ : ∃ bm2 : Bytes,
        fromIterStep (bm, off) b = some (bm2, off + 1) ∧ bm2.length = bm1.length ∧
        ∀ j, j < 8 * bm2.length → Spec.bit? bm2 j = some (if j = off then b else bitD bm j) := by
      cases b with
      | false =>
        refine ⟨bm1, by simp [fromIterStep, hbm1], rfl, fun j hj => ?_⟩
        rw [hb1 j hj]
        split
        · rename_i e; rw [hz j (by omega)]
        · rfl
      | true =>
        have hlast : bm1.getLast? = bm1[off / 8]? := by
          rw [List.getLast?_eq_getElem?, hl1]; rfl
        have hi : off / 8 < bm1.length := by omega
        refine ⟨bm1.set (off / 8) (bm1[off / 8] ||| (1 <<< UInt8.ofNat (off % 8))), ?_, by simp, ?_⟩
        · simp only [fromIterStep, ← hbm1, if_true, hlast, List.getElem?_eq_getElem hi, and7]
          rw [show bm1.length - 1 = off / 8 by omega]
        · intro j hj
          have ho : off % 8 < 8 := Nat.mod_lt _ (by omega)
          have hp : j % 8 < 8 := Nat.mod_lt _ (by omega)
          have hj1 := hb1 j (by simpa using hj)
          simp only [Spec.bit?, List.getElem?_set]
          by_cases hb : off / 8 = j / 8
          · rw [if_pos hb, if_pos hi]
            rw [Spec.bit?, ← hb, List.getElem?_eq_getElem hi, Option.map_some] at hj1
            simp only [Option.map_some, byte_or _ _ _ ho hp]
            have hji : j = off ↔ j % 8 = off % 8 := by omega
            simp only [hji]
            split
            · rfl
            · exact hj1
          · rw [if_neg hb, if_neg (by rintro rfl; exact hb rfl)]
            exact hj1
    obtain ⟨bm', hf, hl', hb'⟩ := ih bm2 (off + 1) (by omega) (by omega) (by omega) (by
      intro j hj
      by_cases c : j < 8 * bm2.length
      · rw [bitD, hb2 j c, if_neg (by omega)]
        exact hz j (by omega)
      · rw [bitD, (bit?_eq_none bm2 j).2 (by omega)]; rfl)
    refine ⟨bm', ?_, ?_, fun j hj => ?_⟩
    · rw [List.foldlM_cons, hstep]
      show bits.foldlM fromIterStep (bm2, off + 1) = _
      rw [hf, List.length_cons]; congr 2; omega
    · rw [hl', hl2, hl1, List.length_cons]
      have : off + (bits.length + 1) = off + 1 + bits.length := by omega
      rw [this]
      rcases Nat.lt_or_ge (off / 8) ((off + 1 + bits.length + 7) / 8) with h | h <;> omega
    · rw [hb' j hj]
      congr 1
      by_cases c : j < off + 1
      · rw [if_pos c, bitD, hb2 j (by omega), Option.getD_some]
        by_cases e : j = off
        · subst e; simp
        · rw [if_neg e, if_pos (by omega)]
      · rw [if_neg c, if_neg (by omega)]
        rw [show j - off = (j - (off + 1)) + 1 by omega, List.getElem?_cons_succ]

theorem fromIter_spec (bits : List Bool) (off : Nat) :
    ∃ bm, fromIter bits off = some bm ∧
      bm.length = max (off / 8 + 1) ((off + bits.length + 7) / 8) ∧
      ∀ j, j < 8 * bm.length →
        Spec.bit? bm j = some (if j < off then false else (bits[j - off]?).getD false) := by
  have hz : ∀ j, bitD (List.replicate (off / 8 + 1) 0) j = false := by
    intro j
    unfold bitD Spec.bit?
    rw [List.getElem?_replicate]
    split <;> simp
  obtain ⟨bm, h1, h2, h3⟩ := foldlM_spec bits (List.replicate (off / 8 + 1) 0) off
    (by simp; omega) (by simp) (by simp) (fun j _ => hz j)
  refine ⟨bm, ?_, by simpa using h2, fun j hj => ?_⟩
  · simp [fromIter, shr3, h1]
  · rw [h3 j hj, hz j]

end Mybin.Bitmap
