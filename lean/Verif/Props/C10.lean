/-
C10: bitmap indexing, marking, iteration and construction agree.
-/
import Verif.Lemmas.Bitmap

namespace Mybin

/-- C10, `index`: returns bit `i`, and panics (`none`) exactly outside the bitmap. -/
theorem C10_index (bm : Bytes) (i : Nat) :
    Bitmap.index bm i = Spec.bit? bm i ∧ ((Bitmap.index bm i).isSome ↔ i < 8 * bm.length) := by
  rw [Bitmap.index_eq]; exact ⟨rfl, Bitmap.bit?_isSome bm i⟩

/-- C10, `mark`: inside the bitmap it changes bit `i` to `m`, no other bit, and not the size. -/
theorem C10_mark (bm : Bytes) (i : Nat) (m : Bool) :
    (i < 8 * bm.length → ∃ bm', Bitmap.mark bm i m = some bm' ∧ bm'.length = bm.length ∧
      ∀ j, Spec.bit? bm' j = if j = i then some m else Spec.bit? bm j) ∧
    (8 * bm.length ≤ i → Bitmap.mark bm i m = none) :=
  ⟨Bitmap.mark_some bm i m, Bitmap.mark_none bm i m⟩

example : (9 : Nat) < 8 * ([0xff, 0xff, 0xff] : Bytes).length := by decide
example : Bitmap.mark [0xff, 0xff, 0xff] 9 false = some [0xff, 0xfd, 0xff] := by decide

/-- C10, iteration: from any offset inside (or at the end of) the bitmap, the iterator never panics
and yields bit `offset`, `offset+1`, ... up to the last bit. -/
theorem C10_to_iter (bm : Bytes) (off : Nat) (h : off ≤ 8 * bm.length) :
    ∃ l, Bitmap.toIter bm off = some l ∧ l.length = 8 * bm.length - off ∧
      ∀ k, k < l.length → l[k]? = Spec.bit? bm (off + k) :=
  Bitmap.toIter_eq bm off h

example : (3 : Nat) ≤ 8 * ([0x0a] : Bytes).length := by decide

/-- C10, construction: never panics, gives at least one byte and just enough bytes, the first
`offset` bits are zero, then the given booleans, then zero padding. -/
theorem C10_from_iter (bits : List Bool) (off : Nat) :
    ∃ bm, Bitmap.fromIter bits off = some bm ∧
      bm.length = max (off / 8 + 1) ((off + bits.length + 7) / 8) ∧
      (∀ j, j < off → Spec.bit? bm j = some false) ∧
      (∀ k, (hk : k < bits.length) → Spec.bit? bm (off + k) = some bits[k]) ∧
      (∀ j, off + bits.length ≤ j → j < 8 * bm.length → Spec.bit? bm j = some false) := by
  obtain ⟨bm, h1, h2, h3⟩ := Bitmap.fromIter_spec bits off
  refine ⟨bm, h1, h2, fun j hj => ?_, fun k hk => ?_, fun j hj hj2 => ?_⟩
  · rw [h3 j (by omega), if_pos hj]
  · rw [h3 (off + k) (by omega), if_neg (by omega)]
    simp [hk]
  · rw [h3 j hj2, if_neg (by omega), List.getElem?_eq_none (by omega)]; rfl

/-- C10, build then iterate: gives back the booleans followed by `false` padding only. -/
theorem C10_from_iter_to_iter (bits : List Bool) (off : Nat) :
    ∃ bm pad, Bitmap.fromIter bits off = some bm ∧
      Bitmap.toIter bm off = some (bits ++ List.replicate pad false) ∧ pad ≤ 8 := by
  obtain ⟨bm, h1, h2, _, h4, h5⟩ := C10_from_iter bits off
  obtain ⟨l, g1, g2, g3⟩ := C10_to_iter bm off (by omega)
  have hlen : l.length = bits.length + (8 * bm.length - off - bits.length) := by omega
  refine ⟨bm, 8 * bm.length - off - bits.length, h1, ?_, by omega⟩
  rw [g1]
  congr 1
  apply List.ext_getElem?
  intro k
  by_cases c : k < l.length
  · rw [g3 k c]
    by_cases d : k < bits.length
    · rw [h4 k d, List.getElem?_append_left d, List.getElem?_eq_getElem d]
    · rw [h5 (off + k) (by omega) (by omega), List.getElem?_append_right (by omega),
        List.getElem?_replicate, if_pos (by omega)]
  · rw [List.getElem?_eq_none (by omega), List.getElem?_eq_none (by simp; omega)]

example : Bitmap.fromIter [true, false, true] 2 = some [0x14] := by decide

end Mybin
