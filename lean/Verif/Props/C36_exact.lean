/-
C36, exactly: which rows events are never finished.
-/
import Verif.Props.C36
import Verif.Props.C86

namespace Mybin

/-- no infinite loop, and what is left when a value has been read is a suffix of the input; panics are allowed -/
def Tame {α : Type} (p : P α) : Prop :=
  ∀ bs, match p bs with
    | .ok _ r => r <:+ bs
    | .err _ _ => True
    | .panic => True
    | .hang => False

theorem Well.tame {α : Type} {p : P α} (h : Well p) : Tame p := by
  intro bs
  have := h bs
  cases e : p bs <;> rw [e] at this <;> trivial

namespace Tame
variable {α β : Type}

theorem panic : Tame (P.panic : P α) := fun _ => trivial

theorem bind {x : P α} {f : α → P β} (hx : Tame x) (hf : ∀ a, Tame (f a)) : Tame (x >>= f) := by
  intro bs
  have h := hx bs
  rw [P.bind_apply]
  cases e : x bs with
  | ok a r =>
    rw [e] at h
    have h2 := hf a r
    simp only [R.bind_ok]
    cases e2 : f a r with
    | ok b r2 => rw [e2] at h2; exact List.IsSuffix.trans h2 h
    | err e' r2 => trivial
    | panic => trivial
    | hang => rw [e2] at h2; exact h2
  | err e' r => trivial
  | panic => trivial
  | hang => rw [e] at h; exact h

theorem ite {c : Prop} [Decidable c] {p q : P α} (hp : Tame p) (hq : Tame q) : Tame (if c then p else q) := by
  split
  · exact hp
  · exact hq

theorem times {p : P α} (h : Tame p) (n : Nat) : Tame (P.times p n) := by
  induction n with
  | zero => exact (Well.pure _).tame
  | succ n ih => exact bind h fun _ => bind ih fun _ => (Well.pure _).tame

end Tame

/-- discharge `Tame` goals by structure -/
macro "tame" : tactic => `(tactic| repeat' (first
  | with_reducible assumption
  | with_reducible exact Tame.panic
  | exact Well.tame (by first
    | with_reducible exact Well.pure _ | with_reducible exact Well.fail _
    | with_reducible exact Well.u8 | with_reducible exact Well.leU16 | with_reducible exact Well.leU24
    | with_reducible exact Well.leU32 | with_reducible exact Well.leU64 | with_reducible exact Well.beU16
    | with_reducible exact Well.beU24 | with_reducible exact Well.beU32 | with_reducible exact Well.beU40
    | with_reducible exact Well.leF32 | with_reducible exact Well.len _)
  | (refine Tame.bind ?_ (fun _ => ?_)) | (refine Tame.ite ?_ ?_)
  | apply Tame.times
  | split))

theorem tame_value (m : ColumnMeta) : Tame (BinlogColumnValue.readFrom m) := by
  cases m <;> unfold BinlogColumnValue.readFrom
  case double =>
    refine Tame.bind (fun bs => ?_) fun _ => (Well.pure _).tame
    unfold readLeF64
    by_cases h : bs.length < 8
    · by_cases h4 : 4 < bs.length
      · rw [if_pos h, if_pos h4]; trivial
      · rw [if_pos h, if_neg h4]; trivial
    · rw [if_neg h]; exact List.drop_suffix _ _
  case newDecimal prec frac =>
    refine Tame.ite (Tame.bind ?_ fun _ => (Well.pure _).tame) Tame.panic
    intro bs
    unfold MyDecimal.readFrom
    match bs with
    | [] => exact List.suffix_refl _
    | b :: t =>
      dsimp only
      generalize prec - frac = intg
      generalize (b.toNat &&& 0x80 != 0x80) = neg
      have : Tame (MyDecimal.readDigits intg frac neg) := by
        unfold MyDecimal.readDigits readExtraFragment readFragment mulU32
        tame
      exact this _
  case enum p => show Tame (readEnum p); unfold readEnum; tame
  case blob => unfold readBlobLen; tame
  case time2 =>
    unfold MyTime.fromBinlog packedFromTimeBinary packedTimeParts negI64
    tame
  case dateTime =>
    unfold MyDateTime.fromBinlog packedFromDateTimeBinary packedDateTimeParts negI64
    tame
  all_goals tame

theorem tame_cols (bm : Bytes) (n : Nat) : ∀ i ms, Tame (LogRow.readCols bm n i ms) := by
  induction n with
  | zero => intro i ms; exact (Well.pure _).tame
  | succ n ih =>
    intro i ms
    unfold LogRow.readCols
    have h1 := ih (i + 1) ms.tail
    cases Bitmap.index bm i with
    | none => exact Tame.panic
    | some b =>
      cases b
      · exact Tame.bind h1 fun _ => (Well.pure _).tame
      · cases ms with
        | nil => exact Tame.panic
        | cons m ms =>
          exact Tame.bind (tame_value m) fun _ => Tame.bind (ih _ _) fun _ => (Well.pure _).tame

theorem tame_row (n : Nat) (bm : Bytes) (ms : List ColumnMeta) : Tame (LogRow.readFrom n bm ms) := by
  unfold LogRow.readFrom
  refine Tame.bind (fun bs => ?_) fun _ => tame_cols _ _ _ _
  unfold withCapacity
  by_cases h : n * 40 < 2 ^ 63
  · rw [if_pos h]; exact List.suffix_refl _
  · rw [if_neg h]; trivial

theorem tame_image (n k : Nat) (bm : Bytes) (ms : List ColumnMeta) : Tame (readImage n k bm ms) := by
  unfold readImage
  refine Tame.bind (Well.len _).tame fun nb => ?_
  split
  · exact Tame.panic
  · exact tame_row _ _ _

theorem image_consumes (n k : Nat) (bm : Bytes) (ms : List ColumnMeta) (hk : 0 < k) (bs r : Bytes)
    (vs : List BinlogColumnValue) (h : readImage n k bm ms bs = .ok vs r) : r.length < bs.length := by
  unfold readImage at h
  rw [P.bind_eq_ok] at h
  obtain ⟨nb, r1, h1, h2⟩ := h
  rw [readLen_eq_ok] at h1
  obtain ⟨hl, rfl⟩ := h1
  rw [Bitmap.shr3] at hl
  rw [List.length_append]
  cases e : markNulls nb k 0 0 bm with
  | none => rw [e] at h2; cases h2
  | some bm' =>
    rw [e] at h2
    dsimp only at h2
    have := tame_row n bm' ms r1
    rw [h2] at this
    have := List.IsSuffix.length_le this
    omega

/-- reading on while bytes remain: it never ends if an iteration leaves everything, and ends if every iteration reads
something -/
theorem whileRemaining_ends {α : Type} {p : P α} (hp : Tame p)
    (hc : ∀ bs a r, p bs = .ok a r → r.length < bs.length) (bs : Bytes) : P.whileRemaining p bs ≠ .hang := by
  induction hn : bs.length using Nat.strong_induction_on generalizing bs with
  | _ n ih =>
    rw [P.whileRemaining]
    by_cases hb : bs = []
    · rw [if_pos hb]; simp
    · rw [if_neg hb]
      have hw := hp bs
      cases e : p bs with
      | panic => simp
      | hang => rw [e] at hw; exact hw.elim
      | err e' r => simp
      | ok a r =>
        have hlt := hc bs a r e
        dsimp only
        rw [dif_pos hlt]
        have := ih r.length (by omega) r rfl
        cases e2 : P.whileRemaining p r with
        | hang => exact absurd e2 this
        | _ => simp

theorem cols_absent (bm : Bytes) (n : Nat) : ∀ (i : Nat) (ms : List ColumnMeta), (∀ j < n, Spec.bit? bm (i + j) = some false) →
    ∀ t, ∃ vs, LogRow.readCols bm n i ms t = .ok vs t := by
  induction n with
  | zero => intro i ms _ t; exact ⟨_, rfl⟩
  | succ n ih =>
    intro i ms h t
    have h0 := h 0 (by omega)
    rw [Nat.add_zero] at h0
    obtain ⟨vs, hv⟩ := ih (i + 1) ms.tail (fun j hj => by rw [show i + 1 + j = i + (j + 1) by omega]; exact h _ (by omega)) t
    unfold LogRow.readCols
    rw [Bitmap.index_eq, h0]
    dsimp only
    step hv
    exact ⟨_, rfl⟩


theorem countPresent_zero (bm : Bytes) (n : Nat) (h : n ≤ 8 * bm.length) :
    countPresent bm n = 0 ↔ ∀ i < n, Spec.bit? bm i = some false := by
  obtain ⟨bits, hbl, hbits, hc⟩ := bits_of bm n h
  rw [hc, List.count_eq_zero]
  constructor
  · intro hf i hi
    have hil : i < bits.length := by omega
    have := hbits i _ (List.getElem?_eq_getElem hil)
    rw [this]
    cases e : bits[i]
    · rfl
    · exact absurd (e ▸ List.getElem_mem hil) hf
  · intro hf hm
    obtain ⟨i, hi, e⟩ := List.getElem_of_mem hm
    have := hbits i _ (List.getElem?_eq_getElem hi)
    rw [e, hf i (by omega)] at this
    cases this

theorem image_absent (n : Nat) (bm : Bytes) (ms : List ColumnMeta) (hn : n < 2 ^ 32) (h : n ≤ 8 * bm.length)
    (ha : ∀ i < n, Spec.bit? bm i = some false) (t : Bytes) :
    ∃ vs, readImage n (countPresent bm n) bm ms t = .ok vs t := by
  rw [(countPresent_zero bm n h).2 ha]
  unfold readImage
  step (show readLen ((0 + 7) >>> 3) t = .ok [] t from rfl)
  rw [markNulls]
  dsimp only
  unfold LogRow.readFrom
  step (withCapacity_ok n 40 (by omega) t)
  exact cols_absent bm n 0 ms (fun j hj => by rw [Nat.zero_add]; exact ha j hj) t

/-- the rows of an event in which columns are, or are not, logged -/
theorem rows_hang_iff (n : Nat) (bm : Bytes) (ms : List ColumnMeta) (hn : n < 2 ^ 32) (h : n ≤ 8 * bm.length) (t : Bytes) :
    P.whileRemaining (readImage n (countPresent bm n) bm ms) t = .hang ↔
      t ≠ [] ∧ ∀ i < n, Spec.bit? bm i = some false := by
  constructor
  · intro hh
    have ha : ∀ i < n, Spec.bit? bm i = some false := by
      rw [← countPresent_zero bm n h]
      by_contra hc
      exact whileRemaining_ends (tame_image _ _ _ _)
        (fun bs a r e => image_consumes n _ bm ms (Nat.pos_of_ne_zero hc) bs r a e) t hh
    refine ⟨?_, ha⟩
    rintro rfl
    rw [P.whileRemaining, if_pos rfl] at hh
    cases hh
  · rintro ⟨ht, ha⟩
    obtain ⟨vs, hv⟩ := image_absent n bm ms hn h ha t
    rw [P.whileRemaining, if_neg ht, hv]
    dsimp only
    rw [dif_neg (by omega)]

theorem tame_update_row (n : Nat) (b1 b2 : Bytes) (ms : List ColumnMeta) : Tame (readUpdateRow n b1 b2 ms) := by
  unfold readUpdateRow
  exact Tame.bind (tame_image _ _ _ _) fun _ => Tame.bind (tame_image _ _ _ _) fun _ => (Well.pure _).tame

theorem update_consumes (n : Nat) (b1 b2 : Bytes) (ms : List ColumnMeta)
    (hk : 0 < countPresent b1 n ∨ 0 < countPresent b2 n) (bs r : Bytes) (v : List BinlogColumnValue × List BinlogColumnValue)
    (h : readUpdateRow n b1 b2 ms bs = .ok v r) : r.length < bs.length := by
  unfold readUpdateRow at h
  rw [P.bind_eq_ok] at h
  obtain ⟨v1, r1, h1, h⟩ := h
  rw [P.bind_eq_ok] at h
  obtain ⟨v2, r2, h2, h⟩ := h
  cases h
  have t1 := tame_image n (countPresent b1 n) b1 ms bs
  have t2 := tame_image n (countPresent b2 n) b2 ms r1
  rw [h1] at t1
  rw [h2] at t2
  have t1 := List.IsSuffix.length_le t1
  have t2 := List.IsSuffix.length_le t2
  rcases hk with hk | hk
  · have := image_consumes _ _ _ _ hk _ _ _ h1; omega
  · have := image_consumes _ _ _ _ hk _ _ _ h2; omega

theorem update_hang_iff (n : Nat) (b1 b2 : Bytes) (ms : List ColumnMeta) (hn : n < 2 ^ 32) (h1 : n ≤ 8 * b1.length)
    (h2 : n ≤ 8 * b2.length) (t : Bytes) :
    P.whileRemaining (readUpdateRow n b1 b2 ms) t = .hang ↔
      t ≠ [] ∧ ∀ i < n, Spec.bit? b1 i = some false ∧ Spec.bit? b2 i = some false := by
  constructor
  · intro hh
    have hc : ¬ (0 < countPresent b1 n ∨ 0 < countPresent b2 n) := fun hc =>
      whileRemaining_ends (tame_update_row _ _ _ _) (fun bs a r e => update_consumes n b1 b2 ms hc bs r a e) t hh
    refine ⟨?_, fun i hi => ⟨(countPresent_zero b1 n h1).1 (by omega) i hi, (countPresent_zero b2 n h2).1 (by omega) i hi⟩⟩
    rintro rfl
    rw [P.whileRemaining, if_pos rfl] at hh
    cases hh
  · rintro ⟨ht, ha⟩
    obtain ⟨v1, e1⟩ := image_absent n b1 ms hn h1 (fun i hi => (ha i hi).1) t
    obtain ⟨v2, e2⟩ := image_absent n b2 ms hn h2 (fun i hi => (ha i hi).2) t
    have : readUpdateRow n b1 b2 ms t = .ok (v1, v2) t := by
      unfold readUpdateRow
      step e1
      step e2
      rfl
    rw [P.whileRemaining, if_neg ht, this]
    dsimp only
    rw [dif_neg (by omega)]

theorem lenEnc_small {x r : Bytes} {m : Nat} (h : Spec.lenEncoding x m) :
    ∃ l, readLenEncInt (x ++ r) = .ok l r ∧ l.toU32 = some (m % 2 ^ 32) := by
  rcases h with ⟨b, rfl, h1, rfl⟩ | ⟨y, rfl, h1, rfl⟩ | ⟨y, rfl, h1, rfl⟩ | ⟨y, rfl, h1, rfl⟩
  · refine ⟨_, readLenEncInt_cons_len1 b r h1, ?_⟩
    rw [Nat.mod_eq_of_lt (by omega)]; rfl
  · refine ⟨.len3 (leVal y), ?_, ?_⟩
    · rw [List.cons_append, readLenEncInt_fc, readLeU16, (fixedRead_readFixed 2 leVal).append y r h1]; rfl
    · have := leVal_lt y
      rw [h1] at this
      rw [← leVal_eq_spec, Nat.mod_eq_of_lt (by omega)]; rfl
  · refine ⟨.len4 (leVal y), ?_, ?_⟩
    · rw [List.cons_append, readLenEncInt_fd, fixedRead_leU24.append y r h1]; rfl
    · have := leVal_lt y
      rw [h1] at this
      rw [← leVal_eq_spec, Nat.mod_eq_of_lt (by omega)]; rfl
  · refine ⟨.len9 (leVal y), ?_, ?_⟩
    · rw [List.cons_append, readLenEncInt_fe, readLeU64, (fixedRead_readFixed 8 leVal).append y r h1]; rfl
    · rw [← leVal_eq_spec]; rfl

theorem rowsHeader_iff {extraLen : Nat} {bs t extra : Bytes} {n : Nat} :
    readRowsHeader extraLen bs = .ok (extra, n) t ↔
      2 ≤ extraLen ∧ extra.length = extraLen - 2 ∧ n + 7 < 2 ^ 32 ∧
        ∃ cnt m, Spec.lenEncoding cnt m ∧ n = m % 2 ^ 32 ∧ bs = extra ++ (cnt ++ t) := by
  unfold readRowsHeader
  constructor
  · intro h
    by_cases hx : extraLen < 2
    · rw [if_pos hx] at h; cases h
    · rw [if_neg hx, P.bind_eq_ok] at h
      obtain ⟨ex, r1, h1, h⟩ := h
      rw [readLen_eq_ok] at h1
      obtain ⟨hl, rfl⟩ := h1
      rw [P.bind_eq_ok] at h
      obtain ⟨l, r2, h2, h⟩ := h
      rw [P.bind_eq_ok] at h
      obtain ⟨k, r3, h3, h⟩ := h
      cases e32 : l.toU32 with
      | none => rw [e32] at h3; cases h3
      | some k' =>
        rw [e32] at h3
        cases h3
        have h64 : ∃ m, l.toU64 = some m := by
          cases l <;> simp [LenEncInt.toU32, LenEncInt.toU64] at e32 ⊢
        obtain ⟨m, h64⟩ := h64
        obtain ⟨cnt, hc, rfl⟩ := lenEnc_iff.1 ⟨l, h2, h64⟩
        obtain ⟨l', hr, hu⟩ := lenEnc_small (r := r2) hc
        rw [hr] at h2
        cases h2
        rw [hu] at e32
        cases e32
        by_cases h7 : m % 2 ^ 32 + 7 < 2 ^ 32
        · rw [if_pos h7] at h
          cases h
          exact ⟨by omega, hl, h7, cnt, m, hc, rfl, rfl⟩
        · rw [if_neg h7] at h; cases h
  · rintro ⟨hx, hl, h7, cnt, m, hc, rfl, rfl⟩
    rw [if_neg (by omega)]
    step (readLen_append' (extraLen - 2) extra (cnt ++ t) hl)
    obtain ⟨l', hr, hu⟩ := lenEnc_small (r := t) hc
    step hr
    rw [hu]
    step (show P.orErr (some (m % 2 ^ 32)) .constraint t = .ok (m % 2 ^ 32) t from rfl)
    rw [if_pos h7]
    rfl

/-- a rows event that never ends: after the extra data (whose length field counts itself) and the number of columns, of
which only the lowest 32 bits count, `k` bitmaps say that no column is logged, and then anything follows -/
def Spec.endless (k extraLen : Nat) (payload : List UInt8) : Prop :=
  2 ≤ extraLen ∧ ∃ extra cnt m bitmaps rows, payload = extra ++ (cnt ++ (bitmaps ++ rows)) ∧
    extra.length = extraLen - 2 ∧ lenEncoding cnt m ∧ m % 2 ^ 32 + 7 < 2 ^ 32 ∧
    bitmaps.length = k * ((m % 2 ^ 32 + 7) / 8) ∧
    (∀ j < k, ∀ i < m % 2 ^ 32, bit? (bitmaps.drop (j * ((m % 2 ^ 32 + 7) / 8))) i = some false) ∧ rows ≠ []

/-- C36, exactly: decoding the payload of a write or delete event never ends if and only if no column is logged and
bytes follow, whatever the columns are and whatever the bytes are. -/
theorem C36_endless_iff (extraLen : Nat) (ms : List ColumnMeta) (payload : Bytes) :
    RowsV2.readFrom extraLen ms payload = .hang ↔ Spec.endless 1 extraLen payload := by
  have hh : readRowsHeader extraLen payload ≠ .hang := by
    have : Tame (readRowsHeader extraLen) := by
      unfold readRowsHeader
      refine Tame.ite Tame.panic (Tame.bind (Well.len _).tame fun _ => Tame.bind Well.lenEncInt.tame fun _ =>
        Tame.bind (Well.orErr _ _).tame fun _ => Tame.ite (Well.pure _).tame Tame.panic)
    intro hc
    have h := this payload
    rw [hc] at h
    exact h
  unfold RowsV2.readFrom
  rw [P.bind_apply]
  constructor
  · intro h
    cases e : readRowsHeader extraLen payload with
    | hang => exact absurd e hh
    | panic => rw [e] at h; cases h
    | err e' r => rw [e] at h; cases h
    | ok p t =>
      obtain ⟨extra, n⟩ := p
      rw [e, R.bind_ok] at h
      dsimp only at h
      obtain ⟨hx, hl, h7, cnt, m, hc, rfl, rfl⟩ := rowsHeader_iff.1 e
      rw [P.bind_apply, Bitmap.shr3] at h
      by_cases hb : t.length < (m % 2 ^ 32 + 7) / 8
      · rw [show readLen ((m % 2 ^ 32 + 7) / 8) t = .err (.incomplete (some ((m % 2 ^ 32 + 7) / 8 - t.length))) t by
          simp only [readLen]; rw [if_pos hb]] at h
        cases h
      · obtain ⟨bm, t', rfl, hbl, _⟩ := split_at ((m % 2 ^ 32 + 7) / 8) t (by omega)
        rw [readLen_append' _ bm t' hbl, R.bind_ok] at h
        change R.bind (P.whileRemaining _ _) _ = _ at h
        have hw : P.whileRemaining (readImage (m % 2 ^ 32) (countPresent bm (m % 2 ^ 32)) bm ms) t' = .hang := by
          cases e2 : P.whileRemaining (readImage (m % 2 ^ 32) (countPresent bm (m % 2 ^ 32)) bm ms) t' with
          | hang => rfl
          | _ => rw [e2] at h; cases h
        rw [rows_hang_iff _ _ _ (by omega) (by omega)] at hw
        refine ⟨hx, extra, cnt, m, bm, t', rfl, hl, hc, h7, by omega, fun j hj i hi => ?_, hw.1⟩
        have : j = 0 := by omega
        subst this
        rw [Nat.zero_mul, List.drop_zero]
        exact hw.2 i hi
  · rintro ⟨hx, extra, cnt, m, bm, rows, rfl, hl, hc, h7, hbl, hz, hne⟩
    rw [rowsHeader_iff.2 ⟨hx, hl, h7, cnt, m, hc, rfl, rfl⟩, R.bind_ok]
    dsimp only
    rw [Bitmap.shr3]
    step (readLen_append' _ bm rows (by omega))
    change R.bind (P.whileRemaining _ _) _ = _
    rw [(rows_hang_iff _ _ _ (by omega) (by omega) _).2 ⟨hne, fun i hi => ?_⟩]
    · rfl
    · have := hz 0 (by omega) i hi
      rwa [Nat.zero_mul, List.drop_zero] at this

/-- a row is logged without any column: two columns, both absent, and one byte -/
example : Spec.endless 1 2 [2, 0, 7] :=
  ⟨by omega, [], [2], 2, [0], [7], rfl, rfl, .inl ⟨2, rfl, by decide, rfl⟩, by omega, rfl,
    fun j hj i hi => by
      have : j = 0 := by omega
      subst this
      have : i = 0 ∨ i = 1 := by omega
      rcases this with rfl | rfl <;> rfl, by simp⟩

/-- C36, exactly: decoding the payload of an update event never ends if and only if no column is logged, neither before
nor after the change, and bytes follow. -/
theorem C36_update_endless_iff (extraLen : Nat) (ms : List ColumnMeta) (payload : Bytes) :
    UpdateRowsV2.readFrom extraLen ms payload = .hang ↔ Spec.endless 2 extraLen payload := by
  have hh : readRowsHeader extraLen payload ≠ .hang := by
    have : Tame (readRowsHeader extraLen) := by
      unfold readRowsHeader
      refine Tame.ite Tame.panic (Tame.bind (Well.len _).tame fun _ => Tame.bind Well.lenEncInt.tame fun _ =>
        Tame.bind (Well.orErr _ _).tame fun _ => Tame.ite (Well.pure _).tame Tame.panic)
    intro hc
    have h := this payload
    rw [hc] at h
    exact h
  unfold UpdateRowsV2.readFrom
  rw [P.bind_apply]
  have short : ∀ (k : Nat) (t : Bytes), t.length < k → readLen k t = .err (.incomplete (some (k - t.length))) t := by
    intro k t hb
    simp only [readLen]; rw [if_pos hb]
  constructor
  · intro h
    cases e : readRowsHeader extraLen payload with
    | hang => exact absurd e hh
    | panic => rw [e] at h; cases h
    | err e' r => rw [e] at h; cases h
    | ok p t =>
      obtain ⟨extra, n⟩ := p
      rw [e, R.bind_ok] at h
      dsimp only at h
      obtain ⟨hx, hl, h7, cnt, m, hc, rfl, rfl⟩ := rowsHeader_iff.1 e
      rw [P.bind_apply, Bitmap.shr3] at h
      by_cases hb : t.length < (m % 2 ^ 32 + 7) / 8
      · rw [short _ _ hb] at h
        cases h
      · obtain ⟨b1, t', rfl, hbl, _⟩ := split_at ((m % 2 ^ 32 + 7) / 8) t (by omega)
        rw [readLen_append' _ b1 t' hbl, R.bind_ok, P.bind_apply] at h
        by_cases hb2 : t'.length < (m % 2 ^ 32 + 7) / 8
        · rw [short _ _ hb2] at h
          cases h
        · obtain ⟨b2, t'', rfl, hbl2, _⟩ := split_at ((m % 2 ^ 32 + 7) / 8) t' (by omega)
          rw [readLen_append' _ b2 t'' hbl2, R.bind_ok] at h
          change R.bind (P.whileRemaining _ _) _ = _ at h
          have hw : P.whileRemaining (readUpdateRow (m % 2 ^ 32) b1 b2 ms) t'' = .hang := by
            cases e2 : P.whileRemaining (readUpdateRow (m % 2 ^ 32) b1 b2 ms) t'' with
            | hang => rfl
            | _ => rw [e2] at h; cases h
          rw [update_hang_iff _ _ _ _ (by omega) (by omega) (by omega)] at hw
          refine ⟨hx, extra, cnt, m, b1 ++ b2, t'', by simp, hl, hc, h7, by rw [List.length_append]; omega,
            fun j hj i hi => ?_, hw.1⟩
          have : j = 0 ∨ j = 1 := by omega
          rcases this with rfl | rfl
          · rw [Nat.zero_mul, List.drop_zero]
            have := (hw.2 i hi).1
            unfold Spec.bit? at this ⊢
            rwa [List.getElem?_append_left (by omega)]
          · rw [Nat.one_mul, List.drop_left' hbl]
            exact (hw.2 i hi).2
  · rintro ⟨hx, extra, cnt, m, bm, rows, rfl, hl, hc, h7, hbl, hz, hne⟩
    rw [rowsHeader_iff.2 ⟨hx, hl, h7, cnt, m, hc, rfl, rfl⟩, R.bind_ok]
    dsimp only
    rw [Bitmap.shr3]
    obtain ⟨b1, b2, rfl, hl1, _⟩ := split_at ((m % 2 ^ 32 + 7) / 8) bm (by omega)
    rw [List.length_append] at hbl
    rw [List.append_assoc]
    step (readLen_append' _ b1 (b2 ++ rows) hl1)
    step (readLen_append' _ b2 rows (by omega))
    change R.bind (P.whileRemaining _ _) _ = _
    rw [(update_hang_iff _ _ _ _ (by omega) (by omega) (by omega) _).2 ⟨hne, fun i hi => ⟨?_, ?_⟩⟩]
    · rfl
    · have := hz 0 (by omega) i hi
      rw [Nat.zero_mul, List.drop_zero] at this
      unfold Spec.bit? at this ⊢
      rwa [List.getElem?_append_left (by omega)] at this
    · have := hz 1 (by omega) i hi
      rwa [Nat.one_mul, List.drop_left' hl1] at this

/-- an update of a table with one column, in which it is logged neither before nor after the change, and one byte -/
example : Spec.endless 2 2 [1, 0, 0, 7] :=
  ⟨by omega, [], [1], 1, [0, 0], [7], rfl, rfl, .inl ⟨1, rfl, by decide, rfl⟩, by omega, rfl,
    fun j hj i hi => by
      have : i = 0 := by omega
      subst this
      have : j = 0 ∨ j = 1 := by omega
      rcases this with rfl | rfl <;> rfl, by simp⟩

/-! ### values -/

/-- The bytes at which the decoder of a column value panics.
* unsupported kinds and impossible metadata: any bytes
* DOUBLE: exactly five, six or seven bytes left
* DATETIME: all bytes of the value are zero
* DECIMAL: all bytes are there and the last, short group of decimals, inverted if the number is negative, does not fit
  32 bits when it is scaled to nine decimals
* VARCHAR: a length beyond the declared one -/
def Spec.badValue : ColumnMeta → List UInt8 → Prop
  | .decimal, _ | .geometry _, _ => True
  | .double _, bs => 5 ≤ bs.length ∧ bs.length ≤ 7
  | .dateTime f, bs => f ≤ 6 ∧ ∃ rest, bs = List.replicate (5 + (f + 1) / 2) 0 ++ rest
  | .bit bits bytes, _ => 256 ≤ bytes + (if bits > 0 then 1 else 0)
  | .newDecimal prec frac, bs => prec < frac ∨ 0 < frac % 9 ∧
      ∃ (b : UInt8) (before last rest : List UInt8), bs = before ++ (last ++ rest) ∧ bs.head? = some b ∧
        before.length = digBytes ((prec - frac) % 9) + 4 * ((prec - frac) / 9) + 4 * (frac / 9) ∧
        last.length = digBytes (frac % 9) ∧
        2 ^ 32 ≤ (if b.toNat < 128 then 256 ^ last.length - 1 - beNat last else beNat last) * 10 ^ (9 - frac % 9)
  | .blob p, _ => ¬ (1 ≤ p ∧ p ≤ 4)
  | .varString max, bs => (max < 256 ∧ ∃ (b : UInt8) (rest : List UInt8), bs = b :: rest ∧ max < b.toNat) ∨
      (256 ≤ max ∧ ∃ (a b : UInt8) (rest : List UInt8), bs = a :: b :: rest ∧ max < a.toNat + 256 * b.toNat)
  | _, _ => False

theorem bind_pure_panic {α β : Type} {p : P α} {f : α → β} {bs : Bytes} :
    (p >>= fun a => pure (f a)) bs = .panic ↔ p bs = .panic :=
  bind_panic_left fun _ => Well.pure _

/-- a reader that takes exactly `k` bytes, or fails -/
def Skips {α : Type} (k : Nat) (p : P α) : Prop :=
  ∀ bs, (k ≤ bs.length → ∃ a, p bs = .ok a (bs.drop k)) ∧ (bs.length < k → ∃ e r, p bs = .err e r)

namespace Skips
variable {α β : Type}

theorem pure (a : α) : Skips 0 (pure a : P α) := fun bs => ⟨fun _ => ⟨a, rfl⟩, fun h => absurd h (by omega)⟩

theorem ofFixed {k : Nat} {val : Bytes → α} {r : P α} (h : FixedRead k val r) : Skips k r := fun bs =>
  ⟨fun hb => ⟨_, (h bs).1 hb⟩, fun hb => ⟨_, _, (h bs).2 hb⟩⟩

theorem bind {j k : Nat} {x : P α} {f : α → P β} (hx : Skips j x) (hf : ∀ a, Skips k (f a)) :
    Skips (j + k) (x >>= f) := by
  intro bs
  rw [P.bind_apply]
  refine ⟨fun h => ?_, fun h => ?_⟩
  · obtain ⟨a, e⟩ := (hx bs).1 (by omega)
    rw [e, R.bind_ok]
    obtain ⟨b, e2⟩ := (hf a (bs.drop j)).1 (by rw [List.length_drop]; omega)
    exact ⟨b, by rw [e2, List.drop_drop]⟩
  · by_cases hj : j ≤ bs.length
    · obtain ⟨a, e⟩ := (hx bs).1 hj
      rw [e, R.bind_ok]
      exact (hf a (bs.drop j)).2 (by rw [List.length_drop]; omega)
    · obtain ⟨e, r, h1⟩ := (hx bs).2 (by omega)
      exact ⟨e, r, by rw [h1]; rfl⟩

theorem times {k : Nat} {p : P α} (h : Skips k p) (n : Nat) : Skips (k * n) (P.times p n) := by
  induction n with
  | zero => exact pure _
  | succ n ih =>
    have := bind h fun a => bind ih fun as => pure (a :: as)
    rw [Nat.mul_succ, Nat.add_comm]
    exact this

theorem then_panic {k : Nat} {x : P α} {f : α → P β} (hx : Skips k x) {bs : Bytes} :
    (x >>= f) bs = .panic ↔ k ≤ bs.length ∧ ∃ a, x bs = .ok a (bs.drop k) ∧ f a (bs.drop k) = .panic := by
  rw [P.bind_apply]
  by_cases h : k ≤ bs.length
  · obtain ⟨a, e⟩ := (hx bs).1 h
    rw [e, R.bind_ok]
    constructor
    · intro hp; exact ⟨h, a, rfl, hp⟩
    · rintro ⟨-, a', he, hp⟩
      cases he
      exact hp
  · obtain ⟨e, r, h1⟩ := (hx bs).2 (by omega)
    rw [h1]
    constructor
    · intro hp; cases hp
    · rintro ⟨h2, -⟩; exact absurd h2 h

end Skips

theorem skips_fragment (neg : Bool) : Skips 4 (readFragment neg) :=
  Skips.bind (k := 0) (Skips.ofFixed (fixedRead_readFixed 4 beVal)) fun _ => Skips.pure _

theorem skips_extra (rev : Bool) (L : Nat) (neg : Bool) (h1 : 1 ≤ L) (h4 : L ≤ 4) :
    Skips L (readExtraFragment rev L neg) := by
  obtain ⟨val, r, f, hr, -, e⟩ := readExtra_shape rev L neg h1 h4
  rw [e]
  exact Skips.bind (k := 0) (Skips.ofFixed hr) fun _ => Skips.pure _

theorem lastGroup_panic (L d : Nat) (neg : Bool) (h1 : 1 ≤ L) (h4 : L ≤ 4) (t : Bytes) :
    (do
      let f ← readExtraFragment false L neg
      let f ← mulU32 f d
      return [f] : P (List Nat)) t = .panic ↔
    ∃ last rest, t = last ++ rest ∧ last.length = L ∧
      2 ^ 32 ≤ (if neg then 256 ^ last.length - 1 - beVal last else beVal last) * d := by
  rw [(skips_extra false L neg h1 h4).then_panic]
  have hp : 2 ^ (8 * L) = 256 ^ L := by rw [Nat.pow_mul]
  have key : ∀ last rest : Bytes, last.length = L → readExtraFragment false L neg (last ++ rest)
      = .ok (if neg then 256 ^ last.length - 1 - beVal last else beVal last) rest := by
    intro last rest hl
    rw [readExtra_val _ _ _ _ _ h1 h4 hl]
    have := beVal_lt last
    cases neg
    · simp
    · simp only [if_true, Bool.false_eq_true, if_false]
      rw [xor_ones _ _ (by rw [hp, ← hl]; exact this), hp, hl]
  have mul : ∀ v (r : Bytes), (do let f ← mulU32 v d; return [f] : P (List Nat)) r = .panic ↔ 2 ^ 32 ≤ v * d := by
    intro v r
    rw [bind_pure_panic, mulU32]
    by_cases h : v * d < 2 ^ 32
    · rw [if_pos h]
      constructor
      · intro hc; cases hc
      · intro hc; omega
    · rw [if_neg h]
      exact ⟨fun _ => by omega, fun _ => rfl⟩
  constructor
  · rintro ⟨hl, a, he, hpn⟩
    rw [← List.take_append_drop L t, key _ _ (by simp; omega), List.take_append_drop] at he
    injection he with he _
    rw [mul] at hpn
    exact ⟨t.take L, t.drop L, by simp, by simp; omega, by rw [he]; exact hpn⟩
  · rintro ⟨last, rest, rfl, hl, h⟩
    refine ⟨by rw [List.length_append]; omega, _, ?_, (mul _ _).2 h⟩
    rw [key _ _ hl, List.drop_left' hl]

theorem digits_panic (intg frac : Nat) (neg : Bool) (bs : Bytes) :
    MyDecimal.readDigits intg frac neg bs = .panic ↔ 0 < frac % 9 ∧
      ∃ before last rest, bs = before ++ (last ++ rest) ∧
        before.length = Spec.digBytes (intg % 9) + 4 * (intg / 9) + 4 * (frac / 9) ∧
        last.length = Spec.digBytes (frac % 9) ∧
        2 ^ 32 ≤ (if neg then 256 ^ last.length - 1 - beVal last else beVal last) * 10 ^ (9 - frac % 9) := by
  unfold MyDecimal.readDigits
  rw [show intg - intg / 9 * 9 = intg % 9 by omega, show frac - frac / 9 * 9 = frac % 9 by omega]
  rw [digBytes_eq _ (Nat.mod_lt _ (by omega)), digBytes_eq _ (Nat.mod_lt _ (by omega))]
  have hfirst : Skips (Spec.digBytes (intg % 9)) (if intg % 9 > 0 then do
      let f ← readExtraFragment true (Spec.digBytes (intg % 9)) neg
      return [f]
    else pure [] : P (List Nat)) := by
    by_cases h : intg % 9 > 0
    · rw [if_pos h]
      have hd := digBytes_small (intg % 9) h (Nat.mod_lt _ (by omega))
      exact Skips.bind (k := 0) (skips_extra _ _ _ hd.1 hd.2.1) fun _ => Skips.pure _
    · rw [if_neg h, show intg % 9 = 0 by omega]
      exact Skips.pure _
  have hints := Skips.times (skips_fragment neg) (intg / 9)
  have hfracs := Skips.times (skips_fragment neg) (frac / 9)
  have hlast : ∀ t : Bytes, (if frac % 9 > 0 then do
        let f ← readExtraFragment false (Spec.digBytes (frac % 9)) neg
        let f ← mulU32 f (10 ^ (9 - frac % 9))
        return [f]
      else pure [] : P (List Nat)) t = .panic ↔ 0 < frac % 9 ∧
      ∃ last rest, t = last ++ rest ∧ last.length = Spec.digBytes (frac % 9) ∧
        2 ^ 32 ≤ (if neg then 256 ^ last.length - 1 - beVal last else beVal last) * 10 ^ (9 - frac % 9) := by
    intro t
    by_cases h : frac % 9 > 0
    · rw [if_pos h]
      have hd := digBytes_small (frac % 9) h (Nat.mod_lt _ (by omega))
      rw [lastGroup_panic _ _ _ hd.1 hd.2.1]
      simp [h]
    · rw [if_neg h]
      constructor
      · intro hc; cases hc
      · rintro ⟨hc, -⟩; omega
  rw [hfirst.then_panic]
  simp only [hints.then_panic, hfracs.then_panic, bind_pure_panic, hlast, List.drop_drop, List.length_drop]
  constructor
  · rintro ⟨h1, a, -, h2, b, -, h3, c, -, h0, last, rest, e, hl, hv⟩
    refine ⟨h0, bs.take (Spec.digBytes (intg % 9) + 4 * (intg / 9) + 4 * (frac / 9)), last, rest, ?_, ?_, hl, hv⟩
    · rw [← e]; simp [Nat.add_assoc]
    · rw [List.length_take]; omega
  · rintro ⟨h0, before, last, rest, rfl, hb, hl, hv⟩
    have hlen : before.length ≤ (before ++ (last ++ rest)).length := by simp
    refine ⟨by omega, ?_⟩
    obtain ⟨a, ha⟩ := (hfirst (before ++ (last ++ rest))).1 (by omega)
    refine ⟨a, ha, by omega, ?_⟩
    obtain ⟨b, hb'⟩ := (hints ((before ++ (last ++ rest)).drop (Spec.digBytes (intg % 9)))).1
      (by rw [List.length_drop]; omega)
    refine ⟨b, by rw [hb', List.drop_drop], by omega, ?_⟩
    obtain ⟨c, hc⟩ := (hfracs ((before ++ (last ++ rest)).drop (Spec.digBytes (intg % 9) + 4 * (intg / 9)))).1
      (by rw [List.length_drop]; omega)
    refine ⟨c, by rw [hc, List.drop_drop], h0, last, rest, ?_, hl, hv⟩
    exact List.drop_left' hb

theorem beVal_zero (x : Bytes) : beVal x = 0 ↔ x = List.replicate x.length 0 := by
  induction x with
  | nil => simp [beVal, leVal]
  | cons b t ih =>
    rw [beVal_cons, List.length_cons, List.replicate_succ, List.cons.injEq, ← ih]
    have : 0 < 256 ^ t.length := Nat.pow_pos (by omega)
    rw [Nat.add_eq_zero_iff, Nat.mul_eq_zero, ← UInt8.toNat_inj]
    simp only [UInt8.toNat_ofNat, Nat.zero_mod]
    constructor
    · rintro ⟨h | h, h2⟩
      · exact ⟨h, h2⟩
      · omega
    · rintro ⟨h, h2⟩; exact ⟨.inl h, h2⟩

theorem high_min (y : Nat) (h : y < 2 ^ 40) :
    ((((y + 2 ^ 64 - 0x8000000000) % 2 ^ 64) <<< 24) % 2 ^ 64 = 2 ^ 63 ↔ y = 0) ∧
    ((((y + 2 ^ 64 - 0x8000000000) % 2 ^ 64) <<< 24) % 2 ^ 64) % 2 ^ 24 = 0 := by
  rw [Nat.shiftLeft_eq]
  constructor
  · constructor
    · intro he
      by_contra hy
      omega
    · rintro rfl; norm_num
  · omega

theorem high_add (hi f : Nat) (h0 : hi % 2 ^ 24 = 0) (hf : f < 2 ^ 24) : hi + f = 2 ^ 63 ↔ hi = 2 ^ 63 ∧ f = 0 := by
  omega

theorem dateTime_panic (f : Nat) (bs : Bytes) :
    MyDateTime.fromBinlog f bs = .panic ↔
      f ≤ 6 ∧ ∃ rest, bs = List.replicate (5 + (f + 1) / 2) 0 ++ rest := by
  unfold MyDateTime.fromBinlog
  rw [bind_pure_panic]
  unfold packedFromDateTimeBinary
  rw [bind_panic Well.beU40]
  have hneg : ∀ (p : Nat) (neg : Bool) (r : Bytes),
      (if neg then negI64 p else pure p : P Nat) r = .panic ↔ neg = true ∧ p = 2 ^ 63 := by
    intro p neg r
    cases neg
    · simp only [Bool.false_eq_true, if_false, false_and, iff_false]
      intro hc; cases hc
    · simp only [if_true, true_and]
      unfold negI64
      by_cases h : p = 2 ^ 63
      · rw [if_pos h]; exact ⟨fun _ => h, fun _ => rfl⟩
      · rw [if_neg h]
        exact ⟨fun hc => (by cases hc), fun hc => absurd hc h⟩
  have hparts : ∀ y, Well (packedDateTimeParts y f) := by
    intro y
    unfold packedDateTimeParts
    dsimp only
    well
  have main : ∀ y (r : Bytes), y < 2 ^ 40 →
      ((∃ p r', packedDateTimeParts y f r = .ok p r' ∧ p = 2 ^ 63) ↔
        f ≤ 6 ∧ y = 0 ∧ ∃ rest, r = List.replicate ((f + 1) / 2) 0 ++ rest) := by
    intro y r hy
    obtain ⟨h1, h2⟩ := high_min y hy
    unfold packedDateTimeParts
    generalize (((y + 2 ^ 64 - 0x8000000000) % 2 ^ 64) <<< 24) % 2 ^ 64 = hi at h1 h2
    have fixed : ∀ (k c : Nat) (q : P Nat) (g : Nat → Nat), FixedRead k beVal q → 256 ^ k * c ≤ 2 ^ 24 → 0 < c → (∀ v, g v = hi + v * c) →
        (f + 1) / 2 = k → f ≤ 6 → ((∃ p r', (q >>= fun v => pure (g v)) r = .ok p r' ∧ p = 2 ^ 63) ↔
          f ≤ 6 ∧ y = 0 ∧ ∃ rest, r = List.replicate ((f + 1) / 2) 0 ++ rest) := by
      intro k c q g hq hk hc hg hf hf6
      rw [hf]
      constructor
      · rintro ⟨p, r', he, rfl⟩
        rw [P.bind_eq_ok] at he
        obtain ⟨v, r1, he, hp⟩ := he
        obtain ⟨x, hx, rfl, rfl⟩ := hq.inv he
        injection hp with hp _
        rw [hg] at hp
        have hlt := beVal_lt x
        rw [hx] at hlt
        have hlt2 : beVal x * c < 256 ^ k * c := Nat.mul_lt_mul_of_pos_right hlt hc
        obtain ⟨a1, a2⟩ := (high_add hi (beVal x * c) h2 (by omega)).1 hp
        have hz : beVal x = 0 := by
          rcases Nat.mul_eq_zero.1 a2 with h | h
          · exact h
          · omega
        refine ⟨hf6, h1.1 a1, r1, ?_⟩
        rw [(beVal_zero x).1 hz, hx]
      · rintro ⟨-, hy0, rest, rfl⟩
        refine ⟨2 ^ 63, rest, ?_, rfl⟩
        rw [P.bind_apply, hq.append _ _ (by simp), R.bind_ok, P.pure_apply, hg,
          (beVal_zero (List.replicate k 0)).2 (by simp), Nat.zero_mul, Nat.add_zero, h1.2 hy0]
    by_cases hf0 : f = 0
    · rw [if_pos hf0]
      constructor
      · rintro ⟨p, r', he, rfl⟩
        injection he with he hr
        subst hf0
        exact ⟨by omega, h1.1 he, r, rfl⟩
      · rintro ⟨-, hy0, -⟩
        exact ⟨_, r, rfl, h1.2 hy0⟩
    · rw [if_neg hf0]
      by_cases hf1 : f = 1 ∨ f = 2
      · rw [if_pos hf1]
        refine fixed 1 10000 _ _ ?_ (by norm_num) (by norm_num) (fun v => rfl) (by omega) (by omega)
        intro bs
        have := fixedRead_u8 bs
        refine ⟨fun h => ?_, this.2⟩
        rw [this.1 h]
        match bs, h with
        | b :: t, _ => rfl
      · rw [if_neg hf1]
        by_cases hf2 : f = 3 ∨ f = 4
        · rw [if_pos hf2]
          exact fixed 2 100 _ _ (fixedRead_readFixed 2 beVal) (by norm_num) (by norm_num) (fun v => rfl) (by omega) (by omega)
        · rw [if_neg hf2]
          by_cases hf3 : f = 5 ∨ f = 6
          · rw [if_pos hf3]
            exact fixed 3 1 _ _ fixedRead_beU24 (by norm_num) (by norm_num) (fun v => by rw [Nat.mul_one]) (by omega) (by omega)
          · rw [if_neg hf3]
            constructor
            · rintro ⟨p, r', he, -⟩; cases he
            · rintro ⟨h6, -⟩; omega
  constructor
  · rintro ⟨y, r, he, h⟩
    obtain ⟨x, hx, rfl, rfl⟩ := fixedRead_beU40.inv he
    have hlt := beVal_lt x
    rw [hx] at hlt
    rw [bind_panic (hparts _)] at h
    obtain ⟨p, r', hp, h⟩ := h
    rw [hneg] at h
    obtain ⟨hf6, hy0, rest, rfl⟩ := (main _ r (by omega)).1 ⟨p, r', hp, h.2⟩
    refine ⟨hf6, rest, ?_⟩
    rw [(beVal_zero x).1 hy0, hx, ← List.append_assoc, List.replicate_append_replicate]
  · rintro ⟨hf6, rest, rfl⟩
    rw [← List.replicate_append_replicate, List.append_assoc]
    refine ⟨beVal (List.replicate 5 0), _, fixedRead_beU40.append _ _ (by simp), ?_⟩
    rw [bind_panic (hparts _)]
    have hz : beVal (List.replicate 5 0) = 0 := (beVal_zero _).2 (by simp)
    rw [hz]
    obtain ⟨p, r', hp, h⟩ := (main 0 (List.replicate ((f + 1) / 2) 0 ++ rest) (by omega)).2 ⟨hf6, rfl, rest, rfl⟩
    exact ⟨p, r', hp, (hneg _ _ _).2 ⟨by decide, h⟩⟩

/-- C36, exactly: the bytes at which decoding a value of a column panics, for every column and all bytes. -/
theorem C36_value_iff (m : ColumnMeta) (bs : Bytes) :
    BinlogColumnValue.readFrom m bs = .panic ↔ Spec.badValue m bs := by
  have well : TotalMeta m → ¬ Spec.badValue m bs → (BinlogColumnValue.readFrom m bs = .panic ↔ Spec.badValue m bs) := by
    intro h hb
    exact ⟨fun hp => absurd hp ((value_well m h).ne_panic bs), fun h => absurd h hb⟩
  cases m
  case decimal => exact ⟨fun _ => trivial, fun _ => rfl⟩
  case geometry => exact ⟨fun _ => trivial, fun _ => rfl⟩
  case double p =>
    unfold BinlogColumnValue.readFrom
    dsimp only
    rw [bind_pure_panic]
    unfold readLeF64 Spec.badValue
    by_cases h : bs.length < 8
    · rw [if_pos h]
      by_cases h4 : 4 < bs.length
      · rw [if_pos h4]; exact ⟨fun _ => ⟨by omega, by omega⟩, fun _ => rfl⟩
      · rw [if_neg h4]
        exact ⟨fun hc => (by cases hc), fun hc => by omega⟩
    · rw [if_neg h]
      exact ⟨fun hc => (by cases hc), fun hc => by omega⟩
  case dateTime f =>
    unfold BinlogColumnValue.readFrom
    dsimp only
    rw [bind_pure_panic, dateTime_panic]
    rfl
  case bit b n =>
    unfold BinlogColumnValue.readFrom Spec.badValue
    dsimp only
    by_cases h : n + (if b > 0 then 1 else 0) < 256
    · rw [if_pos h]
      refine ⟨fun hc => ?_, fun hc => by omega⟩
      rw [bind_pure_panic] at hc
      exact absurd hc ((Well.len _).ne_panic bs)
    · rw [if_neg h]
      exact ⟨fun _ => by omega, fun _ => rfl⟩
  case newDecimal prec frac =>
    unfold BinlogColumnValue.readFrom Spec.badValue
    dsimp only
    by_cases h : prec ≥ frac
    · rw [if_pos h, bind_pure_panic]
      unfold MyDecimal.readFrom
      match bs with
      | [] =>
        constructor
        · intro hc; cases hc
        · rintro (hc | ⟨_, b, before, last, rest, _, hh, _⟩)
          · omega
          · simp at hh
      | b :: t =>
        dsimp only
        rw [digits_panic]
        have hb : (b.toNat &&& 0x80 != 0x80) = true ↔ b.toNat < 128 := by
          have : ∀ n, n < 256 → ((n &&& 0x80 != 0x80) = true ↔ n < 128) := by decide +kernel
          exact this _ b.toNat_lt
        have hif : ∀ u v : Nat, (if (b.toNat &&& 0x80 != 0x80) = true then u else v) = if b.toNat < 128 then u else v := by
          intro u v
          simp only [hb]
        constructor
        · rintro ⟨h0, before, last, rest, e, h1, h2, h3⟩
          refine .inr ⟨h0, b, before, last, rest, e, rfl, h1, h2, ?_⟩
          rw [hif] at h3
          rw [← beVal_eq_spec]
          exact h3
        · rintro (hc | ⟨h0, b', before, last, rest, e, hh, h1, h2, h3⟩)
          · omega
          · cases hh
            refine ⟨h0, before, last, rest, e, h1, h2, ?_⟩
            rw [hif, beVal_eq_spec]
            exact h3
    · rw [if_neg h]
      exact ⟨fun _ => .inl (by omega), fun _ => rfl⟩
  case blob p =>
    by_cases h : 1 ≤ p ∧ p ≤ 4
    · exact well h (fun hc => hc h)
    · refine ⟨fun _ => h, fun _ => ?_⟩
      unfold BinlogColumnValue.readFrom
      dsimp only
      rw [P.bind_apply, show readBlobLen p bs = .panic from ?_]
      · rfl
      · unfold readBlobLen
        split
        all_goals first | omega | rfl
  case varString max =>
    unfold BinlogColumnValue.readFrom Spec.badValue
    dsimp only
    have tail : ∀ (len : Nat) (r : Bytes), (if len ≤ max then do return .varString (← readLen len) else P.panic : P BinlogColumnValue) r = .panic
        ↔ max < len := by
      intro len r
      by_cases h : len ≤ max
      · rw [if_pos h, bind_pure_panic]
        exact ⟨fun hc => absurd hc ((Well.len _).ne_panic r), fun hc => by omega⟩
      · rw [if_neg h]
        exact ⟨fun _ => by omega, fun _ => rfl⟩
    by_cases h : max < 256
    · rw [if_pos h, bind_panic_u8]
      simp only [tail]
      constructor
      · rintro ⟨b, r, e, hb⟩; exact .inl ⟨h, b, r, e, hb⟩
      · rintro (⟨_, b, r, e, hb⟩ | ⟨hc, _⟩)
        · exact ⟨b, r, e, hb⟩
        · omega
    · rw [if_neg h, bind_panic Well.leU16]
      simp only [tail]
      constructor
      · rintro ⟨v, r, e, hv⟩
        obtain ⟨x, hx, rfl, rfl⟩ := (fixedRead_readFixed 2 leVal).inv e
        match x, hx with
        | [a, b], _ =>
          refine .inr ⟨by omega, a, b, r, rfl, ?_⟩
          simpa [leVal] using hv
      · rintro (⟨hc, _⟩ | ⟨_, a, b, r, rfl, hv⟩)
        · omega
        · refine ⟨leVal [a, b], r, (fixedRead_readFixed 2 leVal).append [a, b] r rfl, ?_⟩
          simpa [leVal] using hv
  all_goals exact well trivial id

/-- a zero DATETIME(3), a VARCHAR(10) of eleven bytes, a DOUBLE of which five bytes are left, 0.5 as DECIMAL(1,1) -/
example : Spec.badValue (.dateTime 3) [0, 0, 0, 0, 0, 0, 0, 9] ∧ Spec.badValue (.varString 10) [11] ∧
    Spec.badValue (.double 8) [1, 2, 3, 4, 5] ∧ Spec.badValue (.newDecimal 1 1) [0x85] ∧
    ¬ Spec.badValue (.varString 10) [10] :=
  ⟨⟨by omega, [9], rfl⟩, .inl ⟨by omega, 11, [], rfl, by decide⟩, ⟨by simp, by simp⟩,
    .inr ⟨by decide, 0x85, [], [0x85], [], rfl, rfl, rfl, rfl, by decide⟩,
    by rintro (⟨_, b, r, e, h⟩ | ⟨h, _⟩)
       · cases e; exact absurd h (by decide)
       · omega⟩

end Mybin
