/-
C24, exactly: which rows of the binary protocol make the decoder panic.
-/
import Verif.Props.C22_C25

namespace Mybin

/-- columns of the NULL type take no bytes -/
theorem readCols_nulls (bm : Bytes) (n i : Nat) (inp : Bytes) (hl : i + n ≤ 8 * bm.length) :
    BinaryRow.readCols bm (List.replicate n .null) i inp = .ok (List.replicate n .null) inp := by
  induction n generalizing i with
  | zero => rfl
  | succ n ih =>
    obtain ⟨b, hb⟩ : ∃ b, Spec.bit? bm i = some b := by
      rw [← Option.isSome_iff_exists, Bitmap.bit?_isSome]; omega
    rw [List.replicate_succ, BinaryRow.readCols, Bitmap.next_spec bm i b hb]
    have hc : (if b = true then pure BinaryColumnValue.null
        else BinaryColumnValue.readFrom .null : P _) inp = .ok .null inp := by cases b <;> rfl
    simp only [P.bind_apply, hc, R.bind_ok, ih (i + 1) (by omega)]
    rfl

theorem readDouble_panic (inp : Bytes) :
    BinaryColumnValue.readFrom .double inp = .panic ↔ 4 < inp.length ∧ inp.length < 8 := by
  have e : BinaryColumnValue.readFrom .double inp
      = R.bind (readLeF64 inp) (fun n => (pure (.double n) : P _)) := rfl
  rw [e]
  unfold readLeF64
  by_cases h8 : inp.length < 8
  · by_cases h4 : 4 < inp.length
    · simp [h8, h4, R.bind]
    · simp [h8, h4, R.bind]
  · simp [h8, R.bind, P.pure_apply]

theorem readDouble_no_hang (inp : Bytes) : BinaryColumnValue.readFrom .double inp ≠ .hang := by
  have e : BinaryColumnValue.readFrom .double inp
      = R.bind (readLeF64 inp) (fun n => (pure (.double n) : P _)) := rfl
  rw [e]
  unfold readLeF64
  by_cases h8 : inp.length < 8
  · by_cases h4 : 4 < inp.length
    · simp [h8, h4, R.bind]
    · simp [h8, h4, R.bind]
  · simp [h8, R.bind, P.pure_apply]

theorem readCell_panic (ct : ColumnType) (b : Bool) (inp : Bytes) :
    (if b = true then pure BinaryColumnValue.null else BinaryColumnValue.readFrom ct : P _) inp = .panic ↔
      b = false ∧ ct = .double ∧ 4 < inp.length ∧ inp.length < 8 := by
  cases b with
  | true => simp [P.pure_apply]
  | false =>
    rw [if_neg (by simp)]
    by_cases hd : ct = .double
    · subst hd; simp [readDouble_panic]
    · have := Well.binaryValue ct hd inp
      constructor
      · intro h; rw [h] at this; exact this.elim
      · rintro ⟨-, h, -⟩; exact absurd h hd

theorem readCell_no_hang (ct : ColumnType) (b : Bool) (inp : Bytes) :
    (if b = true then pure BinaryColumnValue.null else BinaryColumnValue.readFrom ct : P _) inp ≠ .hang := by
  cases b with
  | true => simp [P.pure_apply]
  | false =>
    rw [if_neg (by simp)]
    by_cases hd : ct = .double
    · subst hd; exact readDouble_no_hang inp
    · have := Well.binaryValue ct hd inp
      intro h; rw [h] at this; exact this

/-- the columns of a row -/
theorem readCols_panic_iff (bm : Bytes) (cts : List ColumnType) (i : Nat) (inp : Bytes)
    (hl : i + cts.length ≤ 8 * bm.length) :
    BinaryRow.readCols bm cts i inp ≠ .hang ∧
    (BinaryRow.readCols bm cts i inp = .panic ↔ ∃ pre post row tail, cts = pre ++ .double :: post ∧
      Spec.bit? bm (i + pre.length) = some false ∧
      BinaryRow.readCols bm (pre ++ List.replicate (post.length + 1) .null) i inp = .ok row tail ∧
      4 < tail.length ∧ tail.length < 8) := by
  induction cts generalizing i inp with
  | nil =>
    refine ⟨by simp [BinaryRow.readCols, P.pure_apply], ?_⟩
    constructor
    · intro h; cases h
    · rintro ⟨pre, post, _, _, h, -⟩; simp at h
  | cons ct cts ih =>
    have hl' : i + (cts.length + 1) ≤ 8 * bm.length := by simpa using hl
    obtain ⟨b, hb⟩ : ∃ b, Spec.bit? bm i = some b := by
      rw [← Option.isSome_iff_exists, Bitmap.bit?_isSome]; omega
    have hstep : ∀ (ct : ColumnType) (l : List ColumnType), BinaryRow.readCols bm (ct :: l) i inp
        = R.bind ((if b = true then pure BinaryColumnValue.null else BinaryColumnValue.readFrom ct : P _) inp)
          (fun v => (do let cols ← BinaryRow.readCols bm l (i + 1); return v :: cols : P _)) := by
      intro ct l
      rw [BinaryRow.readCols, Bitmap.next_spec bm i b hb]
      rfl
    rw [hstep]
    have hn := readCell_no_hang ct b inp
    have hp := readCell_panic ct b inp
    have hfirst : ∀ post row tail, ct :: cts = .double :: post → Spec.bit? bm (i + ([] : List ColumnType).length) = some false →
        BinaryRow.readCols bm ([] ++ List.replicate (post.length + 1) .null) i inp = .ok row tail →
        4 < tail.length → tail.length < 8 →
        (if b = true then pure BinaryColumnValue.null else BinaryColumnValue.readFrom ct : P _) inp = .panic := by
      intro post row tail e1 e2 e3 e4 e5
      injection e1 with e6 e7
      subst e6; subst e7
      rw [List.nil_append, readCols_nulls _ _ _ _ (by omega)] at e3
      injection e3 with _ e8
      subst e8
      rw [List.length_nil, Nat.add_zero, hb] at e2
      injection e2 with e2
      rw [hp]
      exact ⟨e2, rfl, e4, e5⟩
    cases hc : (if b = true then pure BinaryColumnValue.null else BinaryColumnValue.readFrom ct : P _) inp with
    | ok v r =>
      rw [hc] at hp hfirst
      rw [R.bind_ok, P.bind_apply]
      obtain ⟨ih1, ih2⟩ := ih (i + 1) r (by omega)
      constructor
      · intro h
        cases hr : BinaryRow.readCols bm cts (i + 1) r with
        | hang => exact ih1 hr
        | panic => rw [hr] at h; cases h
        | err e t => rw [hr] at h; cases h
        | ok vs t => rw [hr] at h; cases h
      · have : R.bind (BinaryRow.readCols bm cts (i + 1) r) (fun cols => (pure (v :: cols) : P _)) = .panic ↔
            BinaryRow.readCols bm cts (i + 1) r = .panic := by
          cases BinaryRow.readCols bm cts (i + 1) r <;> simp [R.bind, P.pure_apply]
        rw [this, ih2]
        constructor
        · rintro ⟨pre, post, row, tail, e1, e2, e3, e4⟩
          refine ⟨ct :: pre, post, v :: row, tail, by rw [e1]; rfl, by rw [List.length_cons, show i + (pre.length + 1) = i + 1 + pre.length by omega]; exact e2, ?_, e4⟩
          rw [List.cons_append, hstep, hc, R.bind_ok, P.bind_apply, e3]
          rfl
        · rintro ⟨pre, post, row, tail, e1, e2, e3, e4, e5⟩
          cases pre with
          | nil => exact absurd (hfirst post row tail e1 e2 e3 e4 e5) (by simp)
          | cons c pre =>
            injection e1 with e6 e7
            subst e6
            rw [List.cons_append, hstep, hc, R.bind_ok, P.bind_apply] at e3
            cases hr : BinaryRow.readCols bm (pre ++ List.replicate (post.length + 1) .null) (i + 1) r with
            | ok vs t =>
              rw [hr] at e3
              injection e3 with _ e8
              exact ⟨pre, post, vs, t, e7, by rw [List.length_cons] at e2; rw [show i + 1 + pre.length = i + (pre.length + 1) by omega]; exact e2, hr, by rw [e8]; exact ⟨e4, e5⟩⟩
            | err e t => rw [hr] at e3; cases e3
            | panic => rw [hr] at e3; cases e3
            | hang => rw [hr] at e3; cases e3
    | err e r =>
      rw [hc] at hfirst
      refine ⟨by simp [R.bind], ⟨fun h => (by cases h), ?_⟩⟩
      rintro ⟨pre, post, row, tail, e1, e2, e3, e4, e5⟩
      cases pre with
      | nil => exact absurd (hfirst post row tail e1 e2 e3 e4 e5) (by simp)
      | cons c pre =>
        injection e1 with e6 e7
        subst e6
        rw [List.cons_append, hstep, hc] at e3
        cases e3
    | panic =>
      rw [hc] at hp
      obtain ⟨p1, p2, p3⟩ := hp.1 rfl
      refine ⟨by simp [R.bind], ⟨fun _ => ?_, fun _ => rfl⟩⟩
      exact ⟨[], cts, _, inp, by rw [p2]; rfl, by rw [List.length_nil, Nat.add_zero, hb, p1],
        readCols_nulls _ _ _ _ (by omega), p3⟩
    | hang => exact absurd hc hn

/-- a row of the binary protocol in which a DOUBLE is cut short: after the header and the NULL bitmap, the values of the
columns before some DOUBLE column that is not NULL can be read, and between five and seven bytes are left for the DOUBLE.
(`readFrom` with the column and those after it taken as columns of the NULL type, which have no bytes, is the reading of
the columns before it.) -/
def Spec.doubleCut (types : List ColumnType) (bs : List UInt8) : Prop :=
  ∃ pre post hdr bm t row tail, types = pre ++ .double :: post ∧
    bs = hdr :: (bm ++ t) ∧ bm.length = (types.length + 9) / 8 ∧ bit? bm (pre.length + 2) = some false ∧
    BinaryRow.readFrom (pre ++ List.replicate (post.length + 1) .null) bs = .ok row tail ∧
    4 < tail.length ∧ tail.length < 8

/-- C24, exactly: decoding a row of any bytes never goes on forever, and it panics exactly when a DOUBLE of the row is cut
short. -/
theorem C24_panic_iff (cts : List ColumnType) (bs : Bytes) :
    BinaryRow.readFrom cts bs ≠ .hang ∧ (BinaryRow.readFrom cts bs = .panic ↔ Spec.doubleCut cts bs) := by
  unfold Spec.doubleCut
  have hread : ∀ (cts : List ColumnType) (hdr : UInt8) (bm t : Bytes), bm.length = (cts.length + 9) / 8 →
      BinaryRow.readFrom cts (hdr :: (bm ++ t)) = BinaryRow.readCols bm cts 2 t := by
    intro cts hdr bm t hb
    have r : readU8 (hdr :: (bm ++ t)) = .ok hdr.toNat (bm ++ t) := rfl
    rw [BinaryRow.readFrom, P.bind_apply, r, R.bind_ok, P.bind_apply, readLen, Bitmap.shr3,
      if_neg (by rw [List.length_append]; omega), R.bind_ok]
    rw [show (cts.length + 7 + 2) / 8 = bm.length by omega, List.take_left', List.drop_left'] <;> rfl
  have hlen : ∀ pre post : List ColumnType, cts = pre ++ .double :: post →
      (pre ++ List.replicate (post.length + 1) ColumnType.null).length = cts.length := by
    rintro pre post rfl; simp
  by_cases hex : ∃ hdr bm t, bs = hdr :: (bm ++ t) ∧ bm.length = (cts.length + 9) / 8
  · obtain ⟨hdr, bm, t, rfl, hb⟩ := hex
    rw [hread _ _ _ _ hb]
    obtain ⟨h1, h2⟩ := readCols_panic_iff bm cts 2 t (by rw [hb]; omega)
    refine ⟨h1, h2.trans ⟨?_, ?_⟩⟩
    · rintro ⟨pre, post, row, tail, e1, e2, e3, e4⟩
      refine ⟨pre, post, hdr, bm, t, row, tail, e1, rfl, hb, by rw [Nat.add_comm]; exact e2, ?_, e4⟩
      rw [hread _ _ _ _ (by rw [hlen pre post e1]; exact hb)]
      exact e3
    · rintro ⟨pre, post, hdr', bm', t', row, tail, e1, e2, e3, e4, e5, e6⟩
      injection e2 with e7 e8
      obtain ⟨rfl, rfl⟩ := List.append_inj e8 (by rw [hb, e3])
      rw [hread _ _ _ _ (by rw [hlen pre post e1]; exact hb)] at e5
      exact ⟨pre, post, row, tail, e1, by rw [Nat.add_comm]; exact e4, e5, e6⟩
  · have herr : ∃ e r, BinaryRow.readFrom cts bs = .err e r := by
      cases bs with
      | nil => exact ⟨_, _, rfl⟩
      | cons b t =>
        have r : readU8 (b :: t) = .ok b.toNat t := rfl
        rw [BinaryRow.readFrom, P.bind_apply, r, R.bind_ok, P.bind_apply, readLen, Bitmap.shr3]
        by_cases hlen : t.length < (cts.length + 7 + 2) / 8
        · rw [if_pos hlen]; exact ⟨_, _, rfl⟩
        · exact absurd ⟨b, t.take ((cts.length + 9) / 8), t.drop ((cts.length + 9) / 8),
            by rw [List.take_append_drop], by rw [List.length_take]; omega⟩ hex
    obtain ⟨e, r, herr⟩ := herr
    rw [herr]
    refine ⟨by simp, ⟨fun h => (by cases h), ?_⟩⟩
    rintro ⟨pre, post, hdr', bm', t', row, tail, e1, e2, e3, -⟩
    exact absurd ⟨hdr', bm', t', e2, e3⟩ hex

/-- a TINY, a NULL DOUBLE and then a DOUBLE with six bytes left: the decoder panics -/
example : BinaryRow.readFrom [.tiny, .double, .double] [0x00, 0x08, 9, 1, 2, 3, 4, 5, 6] = .panic := by
  rw [(C24_panic_iff _ _).2]
  exact ⟨[.tiny, .double], [], 0x00, [0x08], [9, 1, 2, 3, 4, 5, 6], [.tiny 9, .null, .null], [1, 2, 3, 4, 5, 6],
    rfl, rfl, rfl, rfl, rfl, by decide, by decide⟩

end Mybin
