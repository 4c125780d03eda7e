/-
C36, exactly: which rows events make the decoder panic.
-/
import Verif.Props.C36_exact

namespace Mybin

namespace Spec

/-- the first `n` bits of a bitmap -/
def firstBits (bm : List UInt8) (n : Nat) : List Bool := (List.range n).map fun i => bit? bm i == some true

/-- for every column, whether the row has a value for it: the column is logged and, in the row's list of NULLs, which has
an entry for each logged column only, it is not NULL -/
def carries : List Bool → List Bool → List Bool
  | false :: logged, nulls => false :: carries logged nulls
  | true :: logged, null :: nulls => (!null) :: carries logged nulls
  | _, _ => []

/-- the values of a row are read from `bs` on, one after the other, and leave `rest` -/
def valuesLeave : List Bool → List ColumnMeta → List UInt8 → List UInt8 → Prop
  | [], _, bs, rest => bs = rest
  | false :: cs, ms, bs, rest => valuesLeave cs ms.tail bs rest
  | true :: _, [], _, _ => False
  | true :: cs, m :: ms, bs, rest => ∃ v mid, BinlogColumnValue.readFrom m bs = .ok v mid ∧ valuesLeave cs ms mid rest

/-- reading the values of a row from `bs` on comes to a column that has no metadata, or to bytes that are bad for the
column -/
def valuesStumble : List Bool → List ColumnMeta → List UInt8 → Prop
  | [], _, _ => False
  | false :: cs, ms, bs => valuesStumble cs ms.tail bs
  | true :: _, [], _ => True
  | true :: cs, m :: ms, bs => badValue m bs ∨
      ∃ v mid, BinlogColumnValue.readFrom m bs = .ok v mid ∧ valuesStumble cs ms mid

/-- a row of `n` columns, of which those in `bm` are logged: first its bitmap of NULLs, then its values -/
def imageLeaves (n : Nat) (bm : List UInt8) (ms : List ColumnMeta) (bs rest : List UInt8) : Prop :=
  ∃ nulls values, bs = nulls ++ values ∧ nulls.length = ((firstBits bm n).count true + 7) / 8 ∧
    valuesLeave (carries (firstBits bm n) (firstBits nulls ((firstBits bm n).count true))) ms values rest

def imageStumbles (n : Nat) (bm : List UInt8) (ms : List ColumnMeta) (bs : List UInt8) : Prop :=
  ∃ nulls values, bs = nulls ++ values ∧ nulls.length = ((firstBits bm n).count true + 7) / 8 ∧
    valuesStumble (carries (firstBits bm n) (firstBits nulls ((firstBits bm n).count true))) ms values

/-- some row stumbles, after rows that were read -/
inductive RowsStumble (leaves : List UInt8 → List UInt8 → Prop) (stumbles : List UInt8 → Prop) : List UInt8 → Prop
  | here {bs : List UInt8} : bs ≠ [] → stumbles bs → RowsStumble leaves stumbles bs
  | later {bs rest : List UInt8} : leaves bs rest → rest.length < bs.length → RowsStumble leaves stumbles rest →
      RowsStumble leaves stumbles bs

/-- what stands before the rows: the extra data, the number of columns and `k` bitmaps of logged columns -/
def rowsBegin (k extraLen : Nat) (payload : List UInt8) (n : Nat) (bms rows : List UInt8) : Prop :=
  2 ≤ extraLen ∧ ∃ extra cnt m, payload = extra ++ (cnt ++ (bms ++ rows)) ∧ extra.length = extraLen - 2 ∧
    lenEncoding cnt m ∧ n = m % 2 ^ 32 ∧ n + 7 < 2 ^ 32 ∧ bms.length = k * ((n + 7) / 8)

/-- impossible beginnings: an extra length that does not count itself, and more columns than fit 32 bits -/
def badBegin (extraLen : Nat) (payload : List UInt8) : Prop :=
  extraLen < 2 ∨ ∃ extra cnt m rest, payload = extra ++ (cnt ++ rest) ∧ extra.length = extraLen - 2 ∧
    lenEncoding cnt m ∧ 2 ^ 32 ≤ m % 2 ^ 32 + 7

end Spec

theorem firstBits_length (bm : Bytes) (n : Nat) : (Spec.firstBits bm n).length = n := by simp [Spec.firstBits]

theorem firstBits_get (bm : Bytes) (n : Nat) (h : n ≤ 8 * bm.length) (x : Nat) (b : Bool) :
    (Spec.firstBits bm n)[x]? = some b → Spec.bit? bm x = some b := by
  intro hx
  have hlt : x < n := by
    by_contra hc
    rw [List.getElem?_eq_none (by rw [firstBits_length]; omega)] at hx
    cases hx
  obtain ⟨v, hv⟩ := Option.isSome_iff_exists.1 ((Bitmap.bit?_isSome bm x).2 (by omega))
  unfold Spec.firstBits at hx
  rw [List.getElem?_map, List.getElem?_range hlt] at hx
  simp only [Option.map_some, Option.some.injEq, hv] at hx
  rw [hv]
  cases v <;> cases b <;> simp_all

theorem countPresent_firstBits (bm : Bytes) (n : Nat) (h : n ≤ 8 * bm.length) :
    countPresent bm n = (Spec.firstBits bm n).count true := by
  obtain ⟨bits, hl, hb, hc⟩ := bits_of bm n h
  rw [hc]
  congr 1
  apply List.ext_getElem?
  intro i
  by_cases hi : i < n
  · have h1 : i < bits.length := by omega
    have h2 : i < (Spec.firstBits bm n).length := by rw [firstBits_length]; exact hi
    rw [List.getElem?_eq_getElem h1, List.getElem?_eq_getElem h2]
    have e1 := hb i _ (List.getElem?_eq_getElem h1)
    have e2 := firstBits_get bm n h i _ (List.getElem?_eq_getElem h2)
    rw [e1] at e2
    exact e2
  · rw [List.getElem?_eq_none (by omega), List.getElem?_eq_none (by rw [firstBits_length]; omega)]

/-- the bitmap after the NULLs of a row have been taken out of it -/
theorem markNulls_carries (nb : Bytes) (bits : List Bool) : ∀ (ns : List Bool) (i j : Nat) (bm : Bytes),
    (∀ x b, bits[x]? = some b → Spec.bit? bm (j + x) = some b) → ns.length = bits.count true →
    (∀ x b, ns[x]? = some b → Spec.bit? nb (i + x) = some b) →
    ∃ bm', markNulls nb (bits.count true) i j bm = some bm' ∧ bm'.length = bm.length ∧
      (∀ y < j, Spec.bit? bm' y = Spec.bit? bm y) ∧ (Spec.carries bits ns).length = bits.length ∧
      ∀ x b, (Spec.carries bits ns)[x]? = some b → Spec.bit? bm' (j + x) = some b := by
  induction bits with
  | nil =>
    intro ns i j bm _ _ _
    exact ⟨bm, rfl, rfl, fun _ _ => rfl, rfl, fun x b h => by simp [Spec.carries] at h⟩
  | cons b bits ih =>
    intro ns i j bm hp hn hs
    have h0 := hp 0 b rfl
    rw [Nat.add_zero] at h0
    have hp' : ∀ x b, bits[x]? = some b → Spec.bit? bm (j + 1 + x) = some b := by
      intro x b' h
      have := hp (x + 1) b' (by simpa using h)
      rwa [show j + (x + 1) = j + 1 + x by omega] at this
    cases b with
    | false =>
      have hc0 : (false :: bits).count true = bits.count true := by simp
      rw [hc0] at hn ⊢
      rw [markNulls_skip _ _ _ _ _ h0]
      obtain ⟨bm', e1, e2, e3, e4, e5⟩ := ih ns i (j + 1) bm hp' hn hs
      refine ⟨bm', e1, e2, fun y hy => e3 y (by omega), by simp [Spec.carries, e4], fun x b hx => ?_⟩
      cases x with
      | zero =>
        simp only [Spec.carries, List.getElem?_cons_zero, Option.some.injEq] at hx
        rw [Nat.add_zero, e3 j (by omega), h0, hx]
      | succ x =>
        rw [show j + (x + 1) = j + 1 + x by omega]
        exact e5 x b (by simpa [Spec.carries] using hx)
    | true =>
      have hc1 : (true :: bits).count true = bits.count true + 1 := by simp
      rw [hc1] at hn ⊢
      cases ns with
      | nil => simp at hn
      | cons v ns =>
        have hv := hs 0 v rfl
        rw [Nat.add_zero] at hv
        have hlt : j < 8 * bm.length := by rw [← Bitmap.bit?_isSome, h0]; rfl
        obtain ⟨bm2, hm, hl, hb⟩ := Bitmap.mark_some bm j (!v) hlt
        obtain ⟨bm', e1, e2, e3, e4, e5⟩ := ih ns (i + 1) (j + 1) bm2 (by
          intro x b h
          rw [hb, if_neg (by omega)]
          exact hp' x b h) (by simpa using hn) (by
          intro x b h
          have := hs (x + 1) b (by simpa using h)
          rwa [show i + (x + 1) = i + 1 + x by omega] at this)
        refine ⟨bm', ?_, by omega, fun y hy => ?_, by simp [Spec.carries, e4], fun x b hx => ?_⟩
        · simp only [markNulls, nextSet_true bm j h0, Bitmap.index_eq, hv, hm]
          exact e1
        · rw [e3 y (by omega), hb, if_neg (by omega)]
        · cases x with
          | zero =>
            simp only [Spec.carries, List.getElem?_cons_zero, Option.some.injEq] at hx
            rw [Nat.add_zero, e3 j (by omega), hb, if_pos rfl, hx]
          | succ x =>
            rw [show j + (x + 1) = j + 1 + x by omega]
            exact e5 x b (by simpa [Spec.carries] using hx)

/-- the values of a row -/
theorem cols_iff (bm : Bytes) (cs : List Bool) : ∀ (i : Nat) (ms : List ColumnMeta) (bs : Bytes),
    (∀ x b, cs[x]? = some b → Spec.bit? bm (i + x) = some b) →
    (LogRow.readCols bm cs.length i ms bs = .panic ↔ Spec.valuesStumble cs ms bs) ∧
    ∀ rest, (∃ vs, LogRow.readCols bm cs.length i ms bs = .ok vs rest) ↔ Spec.valuesLeave cs ms bs rest := by
  induction cs with
  | nil =>
    intro i ms bs _
    refine ⟨⟨fun h => (by cases h), fun h => h.elim⟩, fun rest => ?_⟩
    unfold LogRow.readCols Spec.valuesLeave
    rw [List.length_nil]
    dsimp only
    rw [P.pure_apply]
    constructor
    · rintro ⟨vs, h⟩; injection h
    · rintro rfl; exact ⟨_, rfl⟩
  | cons c cs ih =>
    intro i ms bs hb
    have h0 := hb 0 c rfl
    rw [Nat.add_zero] at h0
    have hb' : ∀ x b, cs[x]? = some b → Spec.bit? bm (i + 1 + x) = some b := by
      intro x b h
      have := hb (x + 1) b (by simpa using h)
      rwa [show i + (x + 1) = i + 1 + x by omega] at this
    rw [List.length_cons]
    unfold LogRow.readCols
    rw [Bitmap.index_eq, h0]
    have hwrap : ∀ (p : P (List BinlogColumnValue)) (v : BinlogColumnValue) (b rest : Bytes),
        (∃ vs, (p >>= fun vs => (pure (v :: vs) : P _)) b = .ok vs rest) ↔ ∃ vs, p b = .ok vs rest := by
      intro p v b rest
      rw [P.bind_apply]
      constructor
      · rintro ⟨vs, h⟩
        cases hp : p b with
        | ok a r => rw [hp] at h; injection h with _ h; subst h; exact ⟨a, rfl⟩
        | _ => rw [hp] at h; cases h
      · rintro ⟨vs, h⟩
        rw [h]
        exact ⟨_, rfl⟩
    cases c with
    | false =>
      obtain ⟨i1, i2⟩ := ih (i + 1) ms.tail bs hb'
      dsimp only
      refine ⟨?_, fun rest => ?_⟩
      · rw [bind_pure_panic]
        exact i1
      · rw [hwrap]
        exact i2 rest
    | true =>
      dsimp only
      cases ms with
      | nil =>
        dsimp only
        refine ⟨⟨fun _ => trivial, fun _ => rfl⟩, fun rest => ?_⟩
        constructor
        · rintro ⟨vs, h⟩; cases h
        · intro h; exact h.elim
      | cons m ms =>
        dsimp only
        rw [P.bind_apply]
        have hv := C36_value_iff m bs
        unfold Spec.valuesStumble Spec.valuesLeave
        cases e : BinlogColumnValue.readFrom m bs with
        | hang =>
          have := tame_value m bs
          rw [e] at this
          exact this.elim
        | panic =>
          rw [e] at hv
          refine ⟨⟨fun _ => .inl (hv.1 rfl), fun _ => rfl⟩, fun rest => ?_⟩
          constructor
          · rintro ⟨vs, h⟩; cases h
          · rintro ⟨v, mid, h, -⟩; cases h
        | err e' r =>
          rw [e] at hv
          refine ⟨⟨fun h => (by cases h), ?_⟩, fun rest => ?_⟩
          · rintro (h | ⟨v, mid, h, -⟩)
            · cases hv.2 h
            · cases h
          · constructor
            · rintro ⟨vs, h⟩; cases h
            · rintro ⟨v, mid, h, -⟩; cases h
        | ok v mid =>
          rw [e] at hv
          obtain ⟨i1, i2⟩ := ih (i + 1) ms mid hb'
          rw [R.bind_ok]
          refine ⟨?_, fun rest => ?_⟩
          · rw [bind_pure_panic, i1]
            constructor
            · intro h; exact .inr ⟨v, mid, rfl, h⟩
            · rintro (h | ⟨v', mid', h, h'⟩)
              · cases hv.2 h
              · injection h with _ h; subst h; exact h'
          · rw [hwrap, i2]
            constructor
            · intro h; exact ⟨v, mid, rfl, h⟩
            · rintro ⟨v', mid', h, h'⟩
              injection h with _ h; subst h; exact h'

/-- one row image -/
theorem image_iff (n : Nat) (bm : Bytes) (ms : List ColumnMeta) (hn : n + 7 < 2 ^ 32) (h : n ≤ 8 * bm.length) (bs : Bytes) :
    (readImage n (countPresent bm n) bm ms bs = .panic ↔ Spec.imageStumbles n bm ms bs) ∧
    ∀ rest, (∃ vs, readImage n (countPresent bm n) bm ms bs = .ok vs rest) ↔ Spec.imageLeaves n bm ms bs rest := by
  rw [countPresent_firstBits bm n h]
  unfold readImage Spec.imageStumbles Spec.imageLeaves
  rw [P.bind_apply, Bitmap.shr3]
  by_cases hl : bs.length < ((Spec.firstBits bm n).count true + 7) / 8
  · rw [show readLen (((Spec.firstBits bm n).count true + 7) / 8) bs
        = .err (.incomplete (some (((Spec.firstBits bm n).count true + 7) / 8 - bs.length))) bs by
      simp only [readLen]; rw [if_pos hl]]
    have hno : ∀ nulls values : Bytes, bs = nulls ++ values →
        nulls.length = ((Spec.firstBits bm n).count true + 7) / 8 → False := by
      rintro nulls values rfl h
      rw [List.length_append] at hl
      omega
    refine ⟨⟨fun h => (by cases h), ?_⟩, fun rest => ⟨?_, ?_⟩⟩
    · rintro ⟨nulls, values, h1, h2, -⟩; exact (hno _ _ h1 h2).elim
    · rintro ⟨vs, h⟩; cases h
    · rintro ⟨nulls, values, h1, h2, -⟩; exact (hno _ _ h1 h2).elim
  · obtain ⟨nulls, values, rfl, hnl, _⟩ := split_at (((Spec.firstBits bm n).count true + 7) / 8) bs (by omega)
    rw [readLen_append' _ nulls values hnl, R.bind_ok]
    obtain ⟨bm', e1, e2, -, e4, e5⟩ := markNulls_carries nulls (Spec.firstBits bm n)
      (Spec.firstBits nulls ((Spec.firstBits bm n).count true)) 0 0 bm
      (fun x b hx => by rw [Nat.zero_add]; exact firstBits_get bm n h x b hx) (firstBits_length _ _)
      (fun x b hx => by
        rw [Nat.zero_add]
        exact firstBits_get nulls _ (by omega) x b hx)
    rw [e1]
    dsimp only
    rw [firstBits_length] at e4
    have hrow : LogRow.readFrom n bm' ms values = LogRow.readCols bm'
        (Spec.carries (Spec.firstBits bm n) (Spec.firstBits nulls ((Spec.firstBits bm n).count true))).length 0 ms values := by
      unfold LogRow.readFrom
      rw [P.bind_apply, withCapacity_ok _ _ (by omega), R.bind_ok, e4]
    rw [hrow]
    obtain ⟨c1, c2⟩ := cols_iff bm' (Spec.carries (Spec.firstBits bm n)
      (Spec.firstBits nulls ((Spec.firstBits bm n).count true))) 0 ms values (fun x b hx => e5 x b hx)
    have huniq : ∀ nulls' values' : Bytes, nulls ++ values = nulls' ++ values' →
        nulls'.length = ((Spec.firstBits bm n).count true + 7) / 8 → nulls' = nulls ∧ values' = values := by
      intro nulls' values' h1 h2
      obtain ⟨a, b⟩ := List.append_inj h1 (by rw [hnl, h2])
      exact ⟨a.symm, b.symm⟩
    refine ⟨c1.trans ⟨fun h => ⟨nulls, values, rfl, hnl, h⟩, ?_⟩, fun rest => (c2 rest).trans ⟨fun h => ⟨nulls, values, rfl, hnl, h⟩, ?_⟩⟩
    · rintro ⟨nulls', values', h1, h2, h3⟩
      obtain ⟨rfl, rfl⟩ := huniq _ _ h1 h2
      exact h3
    · rintro ⟨nulls', values', h1, h2, h3⟩
      obtain ⟨rfl, rfl⟩ := huniq _ _ h1 h2
      exact h3

/-- the loop over the rows -/
theorem rows_panic_iff {α : Type} (p : P α) (leaves : Bytes → Bytes → Prop) (stumbles : Bytes → Prop)
    (h1 : ∀ bs, p bs = .panic ↔ stumbles bs) (h2 : ∀ bs rest, (∃ v, p bs = .ok v rest) ↔ leaves bs rest) (bs : Bytes) :
    P.whileRemaining p bs = .panic ↔ Spec.RowsStumble leaves stumbles bs := by
  constructor
  · intro h
    generalize hN : bs.length = N
    induction N using Nat.strong_induction_on generalizing bs with
    | _ N ih =>
      rw [P.whileRemaining] at h
      split at h
      · cases h
      · rename_i hne
        cases e : p bs with
        | panic => exact .here hne ((h1 bs).1 e)
        | hang => rw [e] at h; cases h
        | err e' r => rw [e] at h; cases h
        | ok v r =>
          rw [e] at h
          dsimp only at h
          split at h
          · rename_i hlt
            refine .later ((h2 bs r).1 ⟨v, e⟩) hlt (ih r.length (by omega) r ?_ rfl)
            cases e2 : P.whileRemaining p r with
            | panic => rfl
            | _ => rw [e2] at h; cases h
          · cases h
  · intro h
    induction h with
    | @here bs hne hs =>
      rw [P.whileRemaining, if_neg hne, (h1 _).2 hs]
    | @later bs rest hl hlt _ ih =>
      obtain ⟨v, e⟩ := (h2 _ _).2 hl
      have hne : bs ≠ [] := by rintro rfl; simp at hlt
      rw [P.whileRemaining, if_neg hne, e]
      dsimp only
      rw [dif_pos hlt, ih]

theorem result_panic {α β : Type} (x : R α) (f : α → β) : R.bind x (fun a => (pure (f a) : P β)) = .panic ↔ x = .panic := by
  cases x <;> simp [R.bind, P.pure_apply]

/-- the beginning of a rows event -/
theorem rowsHeader_panic {extraLen : Nat} {bs : Bytes} :
    readRowsHeader extraLen bs = .panic ↔ Spec.badBegin extraLen bs := by
  unfold readRowsHeader Spec.badBegin
  by_cases hx : extraLen < 2
  · rw [if_pos hx]
    exact ⟨fun _ => .inl hx, fun _ => rfl⟩
  · rw [if_neg hx, bind_panic (Well.len _)]
    simp only [bind_panic Well.lenEncInt, bind_panic (Well.orErr _ _)]
    constructor
    · rintro ⟨ex, r1, e1, l, r2, e2, k, r3, e3, h⟩
      rw [readLen_eq_ok] at e1
      obtain ⟨hl, rfl⟩ := e1
      cases e32 : l.toU32 with
      | none => rw [e32] at e3; cases e3
      | some k' =>
        rw [e32] at e3
        cases e3
        have h64 : ∃ m, l.toU64 = some m := by
          cases l <;> simp [LenEncInt.toU32, LenEncInt.toU64] at e32 ⊢
        obtain ⟨m, h64⟩ := h64
        obtain ⟨cnt, hc, rfl⟩ := lenEnc_iff.1 ⟨l, e2, h64⟩
        obtain ⟨l', hr, hu⟩ := lenEnc_small (r := r2) hc
        rw [hr] at e2
        cases e2
        rw [hu] at e32
        cases e32
        refine .inr ⟨ex, cnt, m, r2, rfl, hl, hc, ?_⟩
        by_contra hcon
        rw [if_pos (by omega)] at h
        cases h
    · rintro (h | ⟨extra, cnt, m, rest, rfl, hl, hc, hm⟩)
      · exact absurd h hx
      · obtain ⟨l', hr, hu⟩ := lenEnc_small (r := rest) hc
        refine ⟨extra, _, readLen_append' _ extra _ hl, l', rest, hr, m % 2 ^ 32, rest, by rw [hu]; rfl, ?_⟩
        rw [if_neg (by omega)]
        rfl

/-- C36, exactly: decoding the payload of a write or delete event panics if and only if it begins in an impossible way,
or, after rows that were read, the values of a row come to a column without metadata or to bytes that are bad for their
column (`Spec.badValue`). -/
theorem C36_panic_iff (extraLen : Nat) (ms : List ColumnMeta) (payload : Bytes) :
    RowsV2.readFrom extraLen ms payload = .panic ↔ Spec.badBegin extraLen payload ∨
      ∃ n bm rows, Spec.rowsBegin 1 extraLen payload n bm rows ∧
        Spec.RowsStumble (Spec.imageLeaves n bm ms) (Spec.imageStumbles n bm ms) rows := by
  unfold RowsV2.readFrom
  rw [P.bind_apply, ← rowsHeader_panic]
  have hbegin : ∀ {n : Nat} {bm rows : Bytes}, Spec.rowsBegin 1 extraLen payload n bm rows →
      ∃ extra, readRowsHeader extraLen payload = .ok (extra, n) (bm ++ rows) ∧ n + 7 < 2 ^ 32 ∧ bm.length = (n + 7) / 8 := by
    rintro n bm rows ⟨hx, extra, cnt, m, rfl, hl, hc, rfl, h7, hbl⟩
    exact ⟨extra, rowsHeader_iff.2 ⟨hx, hl, h7, cnt, m, hc, rfl, rfl⟩, h7, by omega⟩
  cases e : readRowsHeader extraLen payload with
  | panic => exact ⟨fun _ => .inl rfl, fun _ => rfl⟩
  | hang =>
    refine ⟨fun h => (by cases h), ?_⟩
    rintro (h | ⟨n, bm, rows, h, -⟩)
    · cases h
    · obtain ⟨_, h, -⟩ := hbegin h; rw [e] at h; cases h
  | err e' r =>
    refine ⟨fun h => (by cases h), ?_⟩
    rintro (h | ⟨n, bm, rows, h, -⟩)
    · cases h
    · obtain ⟨_, h, -⟩ := hbegin h; rw [e] at h; cases h
  | ok p t =>
    obtain ⟨extra, n⟩ := p
    rw [R.bind_ok]
    dsimp only
    obtain ⟨hx, hl, h7, cnt, m, hc, rfl, rfl⟩ := rowsHeader_iff.1 e
    rw [P.bind_apply, Bitmap.shr3]
    by_cases hb : t.length < (m % 2 ^ 32 + 7) / 8
    · rw [show readLen ((m % 2 ^ 32 + 7) / 8) t = .err (.incomplete (some ((m % 2 ^ 32 + 7) / 8 - t.length))) t by
        simp only [readLen]; rw [if_pos hb]]
      refine ⟨fun h => (by cases h), ?_⟩
      rintro (h | ⟨n, bm, rows, h, -⟩)
      · cases h
      · obtain ⟨_, h, h1, h2⟩ := hbegin h
        rw [e] at h
        injection h with h3 h4
        injection h3 with _ h3
        subst h3; subst h4
        rw [List.length_append] at hb
        omega
    · obtain ⟨bm, rows, rfl, hbl, _⟩ := split_at ((m % 2 ^ 32 + 7) / 8) t (by omega)
      rw [readLen_append' _ bm rows hbl, R.bind_ok]
      change R.bind (P.whileRemaining _ _) _ = _ ↔ _
      rw [result_panic, rows_panic_iff _ _ _ (fun bs => (image_iff _ bm ms h7 (by omega) bs).1)
        (fun bs => (image_iff _ bm ms h7 (by omega) bs).2)]
      constructor
      · intro h
        exact .inr ⟨_, bm, rows, ⟨hx, extra, cnt, m, rfl, hl, hc, rfl, h7, by omega⟩, h⟩
      · rintro (h | ⟨n, bm', rows', h, h'⟩)
        · cases h
        · obtain ⟨_, h, h1, h2⟩ := hbegin h
          rw [e] at h
          injection h with h3 h4
          injection h3 with _ h3
          subst h3
          obtain ⟨rfl, rfl⟩ := List.append_inj h4 (by omega)
          exact h'

/-- C36, exactly, for update events: each row is an image before the change followed by one after it. -/
theorem C36_update_panic_iff (extraLen : Nat) (ms : List ColumnMeta) (payload : Bytes) :
    UpdateRowsV2.readFrom extraLen ms payload = .panic ↔ Spec.badBegin extraLen payload ∨
      ∃ n before after rows, Spec.rowsBegin 2 extraLen payload n (before ++ after) rows ∧ before.length = after.length ∧
        Spec.RowsStumble
          (fun bs rest => ∃ mid, Spec.imageLeaves n before ms bs mid ∧ Spec.imageLeaves n after ms mid rest)
          (fun bs => Spec.imageStumbles n before ms bs ∨
            ∃ mid, Spec.imageLeaves n before ms bs mid ∧ Spec.imageStumbles n after ms mid) rows := by
  unfold UpdateRowsV2.readFrom
  rw [P.bind_apply, ← rowsHeader_panic]
  have hbegin : ∀ {n : Nat} {b1 b2 rows : Bytes}, Spec.rowsBegin 2 extraLen payload n (b1 ++ b2) rows → b1.length = b2.length →
      ∃ extra, readRowsHeader extraLen payload = .ok (extra, n) (b1 ++ (b2 ++ rows)) ∧ n + 7 < 2 ^ 32 ∧
        b1.length = (n + 7) / 8 ∧ b2.length = (n + 7) / 8 := by
    rintro n b1 b2 rows ⟨hx, extra, cnt, m, rfl, hl, hc, rfl, h7, hbl⟩ h12
    rw [List.length_append] at hbl
    exact ⟨extra, rowsHeader_iff.2 ⟨hx, hl, h7, cnt, m, hc, rfl, by rw [List.append_assoc]⟩, h7, by omega, by omega⟩
  have short : ∀ (k : Nat) (t : Bytes), t.length < k → readLen k t = .err (.incomplete (some (k - t.length))) t := by
    intro k t hb
    simp only [readLen]; rw [if_pos hb]
  cases e : readRowsHeader extraLen payload with
  | panic => exact ⟨fun _ => .inl rfl, fun _ => rfl⟩
  | hang =>
    refine ⟨fun h => (by cases h), ?_⟩
    rintro (h | ⟨n, b1, b2, rows, h, h', -⟩)
    · cases h
    · obtain ⟨_, h, -⟩ := hbegin h h'; rw [e] at h; cases h
  | err e' r =>
    refine ⟨fun h => (by cases h), ?_⟩
    rintro (h | ⟨n, b1, b2, rows, h, h', -⟩)
    · cases h
    · obtain ⟨_, h, -⟩ := hbegin h h'; rw [e] at h; cases h
  | ok p t =>
    obtain ⟨extra, n⟩ := p
    rw [R.bind_ok]
    dsimp only
    obtain ⟨hx, hl, h7, cnt, m, hc, rfl, rfl⟩ := rowsHeader_iff.1 e
    have hno : t.length < 2 * ((m % 2 ^ 32 + 7) / 8) → ∀ (n : Nat) (b1 b2 rows : Bytes),
        Spec.rowsBegin 2 extraLen (extra ++ (cnt ++ t)) n (b1 ++ b2) rows → b1.length = b2.length → False := by
      intro hb n b1 b2 rows h h'
      obtain ⟨_, h, h1, h2, h3⟩ := hbegin h h'
      rw [e] at h
      injection h with h4 h5
      injection h4 with _ h4
      subst h4; subst h5
      rw [List.length_append, List.length_append] at hb
      omega
    rw [P.bind_apply, Bitmap.shr3]
    by_cases hb : t.length < (m % 2 ^ 32 + 7) / 8
    · rw [short _ _ hb]
      refine ⟨fun h => (by cases h), ?_⟩
      rintro (h | ⟨n, b1, b2, rows, h, h', -⟩)
      · cases h
      · exact (hno (by omega) _ _ _ _ h h').elim
    · obtain ⟨b1, t, rfl, hbl, _⟩ := split_at ((m % 2 ^ 32 + 7) / 8) t (by omega)
      rw [readLen_append' _ b1 t hbl, R.bind_ok, P.bind_apply]
      by_cases hb2 : t.length < (m % 2 ^ 32 + 7) / 8
      · rw [short _ _ hb2]
        refine ⟨fun h => (by cases h), ?_⟩
        rintro (h | ⟨n, b1, b2, rows, h, h', -⟩)
        · cases h
        · exact (hno (by rw [List.length_append]; omega) _ _ _ _ h h').elim
      · obtain ⟨b2, rows, rfl, hbl2, _⟩ := split_at ((m % 2 ^ 32 + 7) / 8) t (by omega)
        rw [readLen_append' _ b2 rows hbl2, R.bind_ok]
        have i1 := image_iff _ b1 ms h7 (by omega)
        have i2 := image_iff _ b2 ms h7 (by omega)
        change R.bind (P.whileRemaining _ _) _ = _ ↔ _
        rw [result_panic, rows_panic_iff _
          (fun bs rest => ∃ mid, Spec.imageLeaves (m % 2 ^ 32) b1 ms bs mid ∧ Spec.imageLeaves (m % 2 ^ 32) b2 ms mid rest)
          (fun bs => Spec.imageStumbles (m % 2 ^ 32) b1 ms bs ∨
            ∃ mid, Spec.imageLeaves (m % 2 ^ 32) b1 ms bs mid ∧ Spec.imageStumbles (m % 2 ^ 32) b2 ms mid)]
        · constructor
          · intro h
            exact .inr ⟨_, b1, b2, rows, ⟨hx, extra, cnt, m, by rw [List.append_assoc], hl, hc, rfl, h7,
              by rw [List.length_append]; omega⟩, by omega, h⟩
          · rintro (h | ⟨n, b1', b2', rows', h, h', h''⟩)
            · cases h
            · obtain ⟨_, h, h1, h2, h3⟩ := hbegin h h'
              rw [e] at h
              injection h with h4 h5
              injection h4 with _ h4
              subst h4
              obtain ⟨rfl, h6⟩ := List.append_inj h5 (by omega)
              obtain ⟨rfl, rfl⟩ := List.append_inj h6 (by omega)
              exact h''
        · intro bs
          unfold readUpdateRow
          rw [P.bind_apply]
          cases ei : readImage (m % 2 ^ 32) (countPresent b1 (m % 2 ^ 32)) b1 ms bs with
          | panic => exact ⟨fun _ => .inl ((i1 bs).1.1 ei), fun _ => rfl⟩
          | hang =>
            have := tame_image (m % 2 ^ 32) (countPresent b1 (m % 2 ^ 32)) b1 ms bs
            rw [ei] at this
            exact this.elim
          | err e' r =>
            refine ⟨fun h => (by cases h), ?_⟩
            rintro (h | ⟨mid, h, -⟩)
            · rw [← (i1 bs).1, ei] at h; cases h
            · obtain ⟨v, h⟩ := ((i1 bs).2 mid).2 h; rw [ei] at h; cases h
          | ok v mid =>
            rw [R.bind_ok, bind_pure_panic, (i2 mid).1]
            constructor
            · intro h; exact .inr ⟨mid, ((i1 bs).2 mid).1 ⟨v, ei⟩, h⟩
            · rintro (h | ⟨mid', h, h'⟩)
              · rw [← (i1 bs).1, ei] at h; cases h
              · obtain ⟨v', h⟩ := ((i1 bs).2 mid').2 h
                rw [ei] at h
                injection h with _ h; subst h
                exact h'
        · intro bs rest
          unfold readUpdateRow
          constructor
          · rintro ⟨v, h⟩
            rw [P.bind_eq_ok] at h
            obtain ⟨v1, mid, e1, h⟩ := h
            rw [P.bind_eq_ok] at h
            obtain ⟨v2, r2, e2, h⟩ := h
            injection h with _ h
            subst h
            exact ⟨mid, ((i1 bs).2 mid).1 ⟨v1, e1⟩, ((i2 mid).2 r2).1 ⟨v2, e2⟩⟩
          · rintro ⟨mid, h1, h2⟩
            obtain ⟨v1, e1⟩ := ((i1 bs).2 mid).2 h1
            obtain ⟨v2, e2⟩ := ((i2 mid).2 rest).2 h2
            exact ⟨(v1, v2), by
              rw [P.bind_apply, e1, R.bind_ok, P.bind_apply, e2, R.bind_ok]; rfl⟩

/-- an INT and a DOUBLE: the second row has a DOUBLE that was cut short -/
example : RowsV2.readFrom 2 [.long, .double 8] ([2, 3] ++ ([2, 7, 0, 0, 0] ++ [1, 1, 2, 3, 4, 5, 6])) = .panic := by
  rw [C36_panic_iff]
  refine .inr ⟨2, [3], [2, 7, 0, 0, 0] ++ [1, 1, 2, 3, 4, 5, 6],
    ⟨by omega, [], [2], 2, rfl, rfl, .inl ⟨2, rfl, by decide, rfl⟩, rfl, by omega, rfl⟩, ?_⟩
  refine .later (rest := [1, 1, 2, 3, 4, 5, 6]) ⟨[2], [7, 0, 0, 0, 1, 1, 2, 3, 4, 5, 6], rfl, rfl, .long 7, _, rfl, rfl⟩ (by decide)
    (.here (by simp) ⟨[1], [1, 2, 3, 4, 5, 6], rfl, rfl, ?_⟩)
  exact .inl ⟨by decide, by decide⟩

/-- an update of a TINY column and a column without metadata, which the image after the change has a value for -/
example : UpdateRowsV2.readFrom 2 [.tiny] [2, 1, 3, 0, 5, 0, 6, 7] = .panic := by
  rw [C36_update_panic_iff]
  refine .inr ⟨2, [1], [3], [0, 5, 0, 6, 7],
    ⟨by omega, [], [2], 2, rfl, rfl, .inl ⟨2, rfl, by decide, rfl⟩, rfl, by omega, rfl⟩, rfl, ?_⟩
  refine .here (by simp) (.inr ⟨[0, 6, 7], ⟨[0], [5, 0, 6, 7], rfl, rfl, .tiny 5, [0, 6, 7], rfl, rfl⟩, ?_⟩)
  exact ⟨[0], [6, 7], rfl, rfl, .inr ⟨.tiny 6, [7], rfl, trivial⟩⟩

end Mybin
