/-
C35: row events.
-/
import Verif.Props.C34
import Verif.Props.C33_C47_C48
import Verif.Lemmas.Bitmap

namespace Mybin

open Spec (ColKind Cell Image Fits CellsFit Covers)

/-- what a column of a decoded row must be (`Sound`: values that are decoded correctly, see C37) -/
def CellDenotes : ColKind → Cell → BinlogColumnValue → Prop
  | k, .value v, c => Sound k v → Denotes k v c
  | _, _, c => c = .null

/-- what a decoded row must be: one value per column, at the column's index -/
def RowDenotes : List ColKind → List Cell → List BinlogColumnValue → Prop
  | [], [], [] => True
  | k :: ks, x :: xs, c :: cs => CellDenotes k x c ∧ RowDenotes ks xs cs
  | _, _, _ => False

/-- every logged value is one that is decoded at its width (see C37) -/
def WidthCells : List ColKind → List Cell → Prop
  | k :: ks, .value v :: xs => WidthSound k v ∧ WidthCells ks xs
  | _ :: ks, _ :: xs => WidthCells ks xs
  | _, _ => True

/-- the column has a value in the image -/
def Cell.hasValue : Cell → Bool
  | .value _ => true
  | _ => false

/-! ### the bitmap of columns with a value -/

theorem nextSet_true (bm : Bytes) (j : Nat) (h : Spec.bit? bm j = some true) : nextSet bm j = some j := by
  rw [nextSet]
  split <;> rename_i e <;> rw [Bitmap.index_eq, h] at e <;> cases e <;> rfl

theorem nextSet_false (bm : Bytes) (j : Nat) (h : Spec.bit? bm j = some false) :
    nextSet bm j = nextSet bm (j + 1) := by
  conv_lhs => rw [nextSet]
  split <;> rename_i e <;> rw [Bitmap.index_eq, h] at e <;> cases e <;> rfl

theorem markNulls_skip (nb : Bytes) (k i j : Nat) (bm : Bytes) (h : Spec.bit? bm j = some false) :
    markNulls nb k i j bm = markNulls nb k i (j + 1) bm := by
  cases k with
  | zero => rfl
  | succ k => rw [markNulls, markNulls, nextSet_false bm j h]

theorem markNulls_spec (nb : Bytes) (cs : List Cell) : ∀ (i j : Nat) (bm : Bytes),
    (∀ x b, (cs.map Cell.present)[x]? = some b → Spec.bit? bm (j + x) = some b) →
    (∀ x b, (Spec.nullBits cs)[x]? = some b → Spec.bit? nb (i + x) = some b) →
    ∃ bm', markNulls nb ((cs.map Cell.present).count true) i j bm = some bm' ∧
      (∀ q, q < j → Spec.bit? bm' q = Spec.bit? bm q) ∧
      (∀ x c, cs[x]? = some c → Spec.bit? bm' (j + x) = some (Cell.hasValue c)) := by
  induction cs with
  | nil =>
    intro i j bm _ _
    exact ⟨bm, rfl, fun _ _ => rfl, fun x c h => by simp at h⟩
  | cons c cs ih =>
    intro i j bm hp hn
    have h0 := hp 0 c.present rfl
    rw [Nat.add_zero] at h0
    have hp' : ∀ x b, (cs.map Cell.present)[x]? = some b → Spec.bit? bm (j + 1 + x) = some b := by
      intro x b h
      have := hp (x + 1) b (by simpa using h)
      rwa [show j + (x + 1) = j + 1 + x by omega] at this
    have tail : ∀ bm', (∀ x y, cs[x]? = some y → Spec.bit? bm' (j + 1 + x) = some (Cell.hasValue y)) →
        Spec.bit? bm' j = some (Cell.hasValue c) →
        ∀ x y, (c :: cs)[x]? = some y → Spec.bit? bm' (j + x) = some (Cell.hasValue y) := by
      intro bm' h1 h2 x y h
      cases x with
      | zero => simp at h; subst h; exact h2
      | succ x =>
        have := h1 x y (by simpa using h)
        rwa [show j + (x + 1) = j + 1 + x by omega]
    have present : c.present = true →
        ∃ bm', markNulls nb (((c :: cs).map Cell.present).count true) i j bm = some bm' ∧
          (∀ q, q < j → Spec.bit? bm' q = Spec.bit? bm q) ∧
          (∀ x y, (c :: cs)[x]? = some y → Spec.bit? bm' (j + x) = some (Cell.hasValue y)) := by
      intro hc
      rw [hc] at h0
      have hnb : Spec.nullBits (c :: cs) = c.isNull :: Spec.nullBits cs := by
        simp [Spec.nullBits, hc]
      have hni := hn 0 c.isNull (by rw [hnb]; rfl)
      rw [Nat.add_zero] at hni
      have hn' : ∀ x b, (Spec.nullBits cs)[x]? = some b → Spec.bit? nb (i + 1 + x) = some b := by
        intro x b h
        have := hn (x + 1) b (by rw [hnb]; simpa using h)
        rwa [show i + (x + 1) = i + 1 + x by omega] at this
      have hlt : j < 8 * bm.length := by rw [← Bitmap.bit?_isSome, h0]; rfl
      obtain ⟨bm2, hm, hl, hb⟩ := Bitmap.mark_some bm j (!c.isNull) hlt
      obtain ⟨bm', e1, e2, e3⟩ := ih (i + 1) (j + 1) bm2 (by
        intro x b h
        rw [hb, if_neg (by omega)]
        exact hp' x b h) hn'
      refine ⟨bm', ?_, ?_, ?_⟩
      · rw [List.map_cons, List.count_cons, hc]
        simp only [beq_self_eq_true, if_true, markNulls, nextSet_true bm j h0, Bitmap.index_eq, hni, hm]
        exact e1
      · intro q hq
        rw [e2 q (by omega), hb, if_neg (by omega)]
      · refine tail bm' e3 ?_
        rw [e2 j (by omega), hb, if_pos rfl]
        cases c with
        | absent => cases hc
        | null => rfl
        | value v => rfl
    cases c with
    | absent =>
      obtain ⟨bm', e1, e2, e3⟩ := ih i (j + 1) bm hp' hn
      refine ⟨bm', ?_, fun q hq => e2 q (by omega), ?_⟩
      · rw [List.map_cons, List.count_cons, markNulls_skip _ _ _ _ _ h0]
        exact e1
      · refine tail bm' e3 ?_
        rw [e2 j (by omega), h0]; rfl
    | null => exact present rfl
    | value v => exact present rfl

theorem countPresent_spec (bm : Bytes) (bits : List Bool) (h : Covers bm bits) :
    countPresent bm bits.length = bits.count true := by
  obtain ⟨hl, hb⟩ := h
  obtain ⟨l, h1, h2, h3⟩ := Bitmap.toIter_eq bm 0 (by omega)
  unfold countPresent
  rw [h1, Option.getD_some]
  congr 1
  apply List.ext_getElem?
  intro i
  rw [List.getElem?_take]
  by_cases hi : i < bits.length
  · rw [if_pos hi, h3 i (by omega), Nat.zero_add, List.getElem?_eq_getElem hi]
    exact hb i _ (List.getElem?_eq_getElem hi)
  · rw [if_neg hi, List.getElem?_eq_none (by omega)]

/-! ### the values -/

theorem logRow_readCols_spec (bm : Bytes) (ks : List ColKind) : ∀ (ms : List ColumnMeta) (cs : List Cell) (i : Nat),
    (∀ k ∈ ks, k.Ok) → ks.map metaOf = ms.map some → CellsFit ks cs → WidthCells ks cs →
    (∀ x c, cs[x]? = some c → Spec.bit? bm (i + x) = some (Cell.hasValue c)) → ∀ t,
    ∃ vs, LogRow.readCols bm ks.length i ms (Spec.storeCells ks cs ++ t) = .ok vs t ∧ RowDenotes ks cs vs := by
  induction ks with
  | nil =>
    intro ms cs i _ hm hf _ _ t
    cases cs with
    | cons _ _ => simp [CellsFit] at hf
    | nil =>
      refine ⟨[], ?_, by simp [RowDenotes]⟩
      simp [LogRow.readCols, Spec.storeCells, P.pure_apply]
  | cons k ks ih =>
    intro ms cs i hk hm hf hs hb t
    cases ms with
    | nil => simp at hm
    | cons m ms =>
      simp only [List.map_cons, List.cons.injEq] at hm
      cases cs with
      | nil => simp [CellsFit] at hf
      | cons c cs =>
        have h0 := hb 0 c rfl
        rw [Nat.add_zero] at h0
        have hb' : ∀ x c, cs[x]? = some c → Spec.bit? bm (i + 1 + x) = some (Cell.hasValue c) := by
          intro x y h
          have := hb (x + 1) y (by simpa using h)
          rwa [show i + (x + 1) = i + 1 + x by omega] at this
        have novalue : Cell.hasValue c = false → CellsFit ks cs → WidthCells ks cs →
            Spec.storeCells (k :: ks) (c :: cs) = Spec.storeCells ks cs →
            CellDenotes k c .null →
            ∃ vs, LogRow.readCols bm (k :: ks).length i (m :: ms) (Spec.storeCells (k :: ks) (c :: cs) ++ t)
              = .ok vs t ∧ RowDenotes (k :: ks) (c :: cs) vs := by
          intro hv hf' hs' he hd
          obtain ⟨vs, h1, h2⟩ := ih ms cs (i + 1) (fun k hk' => hk k (by simp [hk'])) hm.2 hf' hs' hb' t
          refine ⟨.null :: vs, ?_, hd, h2⟩
          rw [he, List.length_cons, LogRow.readCols, Bitmap.index_eq, h0, hv]
          dsimp only [List.tail_cons]
          step h1
          rfl
        cases c with
        | absent => exact novalue rfl hf hs rfl rfl
        | null => exact novalue rfl hf hs rfl rfl
        | value v =>
          obtain ⟨hf1, hf2⟩ := hf
          obtain ⟨hs1, hs2⟩ := hs
          obtain ⟨vs, h1, h2⟩ := ih ms cs (i + 1) (fun k hk' => hk k (by simp [hk'])) hm.2 hf2 hs2 hb' t
          obtain ⟨c, hc1, hc2⟩ : ∃ c, BinlogColumnValue.readFrom m (Spec.storeVal k v ++ (Spec.storeCells ks cs ++ t))
              = .ok c (Spec.storeCells ks cs ++ t) ∧ (Sound k v → Denotes k v c) := by
            by_cases hsnd : Sound k v
            · obtain ⟨c, h1, h2⟩ := C37_decode_partial k m v (hk k (by simp)) hm.1 hf1 hsnd
                (Spec.storeCells ks cs ++ t)
              exact ⟨c, h1, fun _ => h2⟩
            · obtain ⟨c, h1⟩ := C37_width_partial k m v (hk k (by simp)) hm.1 hf1 hs1
                (Spec.storeCells ks cs ++ t)
              exact ⟨c, h1, fun h => absurd h hsnd⟩
          refine ⟨c :: vs, ?_, hc2, h2⟩
          rw [Spec.storeCells, List.append_assoc, List.length_cons, LogRow.readCols, Bitmap.index_eq, h0]
          dsimp only [Cell.hasValue]
          step hc1
          step h1
          rfl

theorem cellsFit_length (ks : List ColKind) : ∀ cs, CellsFit ks cs → ks.length = cs.length := by
  induction ks with
  | nil => intro cs h; cases cs <;> simp_all [CellsFit]
  | cons k ks ih =>
    intro cs h
    cases cs with
    | nil => simp [CellsFit] at h
    | cons c cs =>
      cases c <;> simp only [CellsFit] at h <;> simp [ih cs (by first | exact h | exact h.2)]

/-- one row image -/
theorem readImage_spec (ks : List ColKind) (ms : List ColumnMeta) (presentBm : Bytes) (present : List Bool)
    (r : Image) (hk : ∀ k ∈ ks, k.Ok) (hm : ks.map metaOf = ms.map some) (hn : ks.length + 7 < 2 ^ 32)
    (hp : Covers presentBm present) (hr : r.Ok ks present) (hs : WidthCells ks r.cells) (t : Bytes) :
    ∃ vs, readImage ks.length (countPresent presentBm ks.length) presentBm ms (r.encode ks ++ t) = .ok vs t ∧
      RowDenotes ks r.cells vs := by
  obtain ⟨hf, hpr, hcov⟩ := hr
  have hlen : ks.length = present.length := by rw [← hpr, List.length_map, cellsFit_length ks _ hf]
  have hcount : (Spec.nullBits r.cells).length = present.count true := by
    rw [← hpr]
    unfold Spec.nullBits
    rw [List.length_map, ← List.countP_eq_length_filter, List.count, List.countP_map]
    congr 1
    funext c
    simp
  obtain ⟨bm', e1, _, e3⟩ := markNulls_spec r.nullBitmap r.cells 0 0 presentBm
    (by rw [hpr]; intro x b h; rw [Nat.zero_add]; exact hp.2 x b h)
    (by intro x b h; rw [Nat.zero_add]; exact hcov.2 x b h)
  obtain ⟨vs, h1, h2⟩ := logRow_readCols_spec bm' ks ms r.cells 0 hk hm hf hs e3 t
  refine ⟨vs, ?_, h2⟩
  rw [hlen, countPresent_spec _ _ hp, ← hlen]
  unfold readImage Image.encode
  rw [List.append_assoc]
  step (readLen_append' _ r.nullBitmap _ (by rw [hcov.1, Bitmap.shr3, hcount]))
  rw [← hpr, e1]
  dsimp only
  unfold LogRow.readFrom
  step (withCapacity_ok ks.length 40 (by omega) _)
  exact h1

/-- a loop over items that are each read back -/
theorem whileRemaining_rel {α β : Type} (p : P β) (enc : α → Bytes) (rel : α → β → Prop) (l : List α)
    (h : ∀ a ∈ l, enc a ≠ [] ∧ ∀ t, ∃ b, p (enc a ++ t) = .ok b t ∧ rel a b) :
    ∃ bs, P.whileRemaining p (l.map enc).flatten = .ok bs [] ∧ List.Forall₂ rel l bs := by
  induction l with
  | nil => exact ⟨[], by rw [P.whileRemaining]; simp, .nil⟩
  | cons a as ih =>
    obtain ⟨h1, h2⟩ := h a (by simp)
    obtain ⟨b, hb1, hb2⟩ := h2 (as.map enc).flatten
    obtain ⟨bs, h3, h4⟩ := ih (fun x hx => h x (by simp [hx]))
    refine ⟨b :: bs, ?_, .cons hb2 h4⟩
    rw [P.whileRemaining, List.map_cons, List.flatten_cons, if_neg (by simp [h1]), hb1]
    have hl : ((as.map enc).flatten).length < (enc a ++ (as.map enc).flatten).length := by
      have := List.length_pos_of_ne_nil h1
      rw [List.length_append]; omega
    dsimp only
    rw [dif_pos hl, h3]

/-- an image with a logged column is not empty -/
theorem image_ne_nil (ks : List ColKind) (present : List Bool) (r : Image) (hr : r.Ok ks present)
    (h : true ∈ present) : r.encode ks ≠ [] := by
  obtain ⟨hf, hpr, hcov⟩ := hr
  have hcount : (Spec.nullBits r.cells).length = present.count true := by
    rw [← hpr]
    unfold Spec.nullBits
    rw [List.length_map, ← List.countP_eq_length_filter, List.count, List.countP_map]
    congr 1
    funext c
    simp
  have : 0 < present.count true := List.count_pos_iff.2 h
  intro hc
  unfold Image.encode at hc
  have h1 := congrArg List.length hc
  rw [List.length_append, hcov.1, hcount] at h1
  simp at h1
  omega

theorem readRowsHeader_spec (extra : Bytes) (n : Nat) (he : extra.length + 2 < 2 ^ 16) (hn : n + 7 < 2 ^ 32)
    (t : Bytes) :
    readRowsHeader (extra.length + 2) (extra ++ (Spec.lenEncInt n ++ t)) = .ok (extra, n) t := by
  unfold readRowsHeader
  rw [if_neg (by omega), Nat.add_sub_cancel]
  step (readLen_append extra _)
  step (readLenEncInt_spec n t (by omega))
  rw [canonLei_toU32 n (by omega)]
  step (show P.orErr (some n) .constraint t = .ok n t from rfl)
  rw [if_pos hn]
  rfl

/-- C35: write and delete events. Whatever columns are logged, whatever is NULL in each row, and however
the bitmaps are padded, every row is decoded with each logged value at its own column, and NULL at the
others. (Full claim: also for the values that are not decoded at their width, see C37, and for an event
without a logged column, which is not decoded at all: `C36_no_columns_false`.) -/
theorem C35_rows_partial (ks : List ColKind) (ms : List ColumnMeta) (extra presentBm : Bytes)
    (present : List Bool) (rows : List Image)
    (hk : ∀ k ∈ ks, k.Ok) (hm : ks.map metaOf = ms.map some) (hn : ks.length + 7 < 2 ^ 32)
    (he : extra.length + 2 < 2 ^ 16) (hp : Covers presentBm present) (hpl : present.length = ks.length)
    (hone : true ∈ present)
    (hr : ∀ r ∈ rows, r.Ok ks present ∧ WidthCells ks r.cells) :
    ∃ decoded, RowsV2.readFrom (extra.length + 2) ms (Spec.rowsPayload ks extra presentBm rows)
        = .ok ⟨extra, ks.length, presentBm, decoded⟩ [] ∧
      List.Forall₂ (fun r vs => RowDenotes ks r.cells vs) rows decoded := by
  obtain ⟨bs, h1, h2⟩ := whileRemaining_rel (readImage ks.length (countPresent presentBm ks.length) presentBm ms)
    (Image.encode ks) (fun r vs => RowDenotes ks r.cells vs) rows
    (fun r hr' => ⟨image_ne_nil ks present r (hr r hr').1 hone,
      readImage_spec ks ms presentBm present r hk hm hn hp (hr r hr').1 (hr r hr').2⟩)
  refine ⟨bs, ?_, h2⟩
  unfold RowsV2.readFrom Spec.rowsPayload
  simp only [List.append_assoc]
  step (readRowsHeader_spec extra ks.length he hn _)
  dsimp only
  step (readLen_append' _ presentBm _ (by rw [hp.1, Bitmap.shr3, hpl]))
  show R.bind (P.whileRemaining _ _) _ = _
  rw [h1]
  rfl

/-- C35: update events, with the columns logged before and after the change. -/
theorem C35_update_rows_partial (ks : List ColKind) (ms : List ColumnMeta) (extra beforeBm afterBm : Bytes)
    (before after : List Bool) (rows : List (Image × Image))
    (hk : ∀ k ∈ ks, k.Ok) (hm : ks.map metaOf = ms.map some) (hn : ks.length + 7 < 2 ^ 32)
    (he : extra.length + 2 < 2 ^ 16) (hb : Covers beforeBm before) (hbl : before.length = ks.length)
    (ha : Covers afterBm after) (hal : after.length = ks.length) (hone : true ∈ before ∨ true ∈ after)
    (hr : ∀ r ∈ rows, r.1.Ok ks before ∧ WidthCells ks r.1.cells ∧ r.2.Ok ks after ∧ WidthCells ks r.2.cells) :
    ∃ decoded, UpdateRowsV2.readFrom (extra.length + 2) ms (Spec.updatePayload ks extra beforeBm afterBm rows)
        = .ok ⟨extra, ks.length, beforeBm, afterBm, decoded⟩ [] ∧
      List.Forall₂ (fun r vs => RowDenotes ks r.1.cells vs.1 ∧ RowDenotes ks r.2.cells vs.2) rows decoded := by
  obtain ⟨bs, h1, h2⟩ := whileRemaining_rel (readUpdateRow ks.length beforeBm afterBm ms)
    (fun r => Image.encode ks r.1 ++ Image.encode ks r.2)
    (fun r vs => RowDenotes ks r.1.cells vs.1 ∧ RowDenotes ks r.2.cells vs.2) rows
    (fun r hr' => by
      obtain ⟨k1, k2, k3, k4⟩ := hr r hr'
      refine ⟨?_, fun t => ?_⟩
      · rcases hone with h | h
        · intro hc; exact image_ne_nil ks before r.1 k1 h (List.append_eq_nil_iff.1 hc).1
        · intro hc; exact image_ne_nil ks after r.2 k3 h (List.append_eq_nil_iff.1 hc).2
      · obtain ⟨v1, e1, d1⟩ := readImage_spec ks ms beforeBm before r.1 hk hm hn hb k1 k2 (r.2.encode ks ++ t)
        obtain ⟨v2, e2, d2⟩ := readImage_spec ks ms afterBm after r.2 hk hm hn ha k3 k4 t
        refine ⟨(v1, v2), ?_, d1, d2⟩
        unfold readUpdateRow
        rw [List.append_assoc]
        step e1
        step e2
        rfl)
  refine ⟨bs, ?_, h2⟩
  unfold UpdateRowsV2.readFrom Spec.updatePayload
  simp only [List.append_assoc]
  step (readRowsHeader_spec extra ks.length he hn _)
  dsimp only
  step (readLen_append' _ beforeBm _ (by rw [hb.1, Bitmap.shr3, hbl]))
  step (readLen_append' _ afterBm _ (by rw [ha.1, Bitmap.shr3, hal]))
  show R.bind (P.whileRemaining _ _) _ = _
  rw [h1]
  rfl

/-- a table with an INT, a VARCHAR(20) and a DECIMAL(5,2); the INT and the DECIMAL are logged, and the
DECIMAL is NULL in the second row -/
example :
    let ks : List ColKind := [.long, .varchar 20, .decimal 5 2]
    let rows : List Image := [⟨[.value (.num 7), .absent, .value (.decimal true 12345)], [0xfc]⟩,
      ⟨[.value (.num 8), .absent, .null], [0x02]⟩]
    (∀ r ∈ rows, r.Ok ks [true, false, true] ∧ WidthCells ks r.cells) ∧ Covers [0x05] [true, false, true] ∧
    RowsV2.readFrom 2 [.long, .varString 20, .newDecimal 5 2] (Spec.rowsPayload ks [] [0x05] rows)
      = .ok ⟨[], 3, [0x05], [[.long 7, .null, .newDecimal ⟨3, 2, true, [123, 450000000]⟩], [.long 8, .null, .null]]⟩ [] := by
  refine ⟨?_, ?_, by decide +kernel⟩
  · intro r hr
    simp only [List.mem_cons, List.not_mem_nil, or_false] at hr
    rcases hr with rfl | rfl
    · refine ⟨⟨⟨by norm_num [Fits], by norm_num [Fits], trivial⟩, rfl, by decide, ?_⟩, by norm_num [WidthCells, WidthSound]⟩
      intro i b h
      match i, h with
      | 0, h => cases h; decide
      | 1, h => cases h; decide
    · refine ⟨⟨⟨by norm_num [Fits], trivial⟩, rfl, by decide, ?_⟩, by norm_num [WidthCells, WidthSound]⟩
      intro i b h
      match i, h with
      | 0, h => cases h; decide
      | 1, h => cases h; decide
  · refine ⟨by decide, ?_⟩
    intro i b h
    match i, h with
    | 0, h => cases h; decide
    | 1, h => cases h; decide
    | 2, h => cases h; decide

/-- C35: the event data around the rows: table id, flags and length of the extra data. -/
theorem C35_data (id flags extraLen : Nat) (payload : Bytes) (h1 : id < 2 ^ 48) (h2 : flags < 2 ^ 16)
    (h3 : extraLen < 2 ^ 16) :
    RowsDataV2.readFrom (Spec.le 6 id ++ (Spec.le 2 flags ++ (Spec.le 2 extraLen ++ payload)))
      = .ok ⟨id, flags, extraLen, payload⟩ [] := by
  unfold RowsDataV2.readFrom
  step (readLeU48_le id _ h1)
  step (readLeU16_le flags _ h2)
  step (readLeU16_le extraLen _ h3)
  rfl

example : (108 : Nat) < 2 ^ 48 ∧ (1 : Nat) < 2 ^ 16 ∧ (2 : Nat) < 2 ^ 16 := by omega

end Mybin
