/-
C107: how the rows of a change are grouped into events does not matter for what `mybinlog dml` prints.
-/
import Verif.Props.C43

namespace Mybin

open Spec (ColKind Cell Image Val Covers LogEvent)

/-! ### reading does not look beyond what it takes -/

/-- what is read, and how much of the input, does not depend on what follows -/
def Local {α : Type} (p : P α) : Prop := ∀ a x r, p a = .ok x r → ∀ b, p (a ++ b) = .ok x (r ++ b)

theorem Local.pure {α : Type} (x : α) : Local (pure x : P α) := by
  intro a y r h b
  rw [P.pure_apply] at h ⊢
  cases h
  rfl

theorem Local.panic {α : Type} : Local (P.panic : P α) := fun _ _ _ h => by cases h

theorem Local.fail {α : Type} (e : Err) : Local (P.fail e : P α) := fun _ _ _ h => by cases h

theorem Local.bind {α β : Type} {p : P α} {f : α → P β} (hp : Local p) (hf : ∀ x, Local (f x)) : Local (p >>= f) := by
  intro a y r h b
  rw [P.bind_apply] at h ⊢
  cases hpa : p a with
  | ok x r1 =>
    rw [hpa] at h
    rw [hp a x r1 hpa b]
    exact hf x r1 y r h b
  | err e r1 => rw [hpa] at h; cases h
  | panic => rw [hpa] at h; cases h
  | hang => rw [hpa] at h; cases h

theorem Local.ite {α : Type} {c : Prop} [Decidable c] {p q : P α} (hp : Local p) (hq : Local q) :
    Local (if c then p else q) := by
  split
  · exact hp
  · exact hq

theorem local_readFixed (k : Nat) (val : Bytes → Nat) : Local (readFixed k val) := by
  intro a x r h b
  unfold readFixed at h ⊢
  by_cases hl : a.length < k
  · rw [if_pos hl] at h; cases h
  · rw [if_neg hl] at h
    rw [if_neg (by rw [List.length_append]; omega)]
    injection h with h1 h2
    rw [List.take_append_of_le_length (by omega), List.drop_append_of_le_length (by omega), h1, h2]

theorem local_readU8 : Local readU8 := by
  intro a x r h b
  cases a with
  | nil => cases h
  | cons u a => cases h; rfl

theorem local_readLeU24 : Local readLeU24 := by
  intro a x r h b
  match a, h with
  | b0 :: b1 :: b2 :: rest, h => cases h; rfl

theorem local_readBeU24 : Local readBeU24 := by
  intro a x r h b
  match a, h with
  | b0 :: b1 :: b2 :: rest, h => cases h; rfl

theorem local_readLeF64 : Local readLeF64 := by
  intro a x r h b
  unfold readLeF64 at h ⊢
  by_cases hl : a.length < 8
  · rw [if_pos hl] at h; split at h <;> cases h
  · rw [if_neg hl] at h
    rw [if_neg (by rw [List.length_append]; omega)]
    injection h with h1 h2
    rw [List.take_append_of_le_length (by omega), List.drop_append_of_le_length (by omega), h1, h2]

theorem local_readLen (n : Nat) : Local (readLen n) := by
  intro a x r h b
  unfold readLen at h ⊢
  by_cases hl : a.length < n
  · rw [if_pos hl] at h; cases h
  · rw [if_neg hl] at h
    rw [if_neg (by rw [List.length_append]; omega)]
    injection h with h1 h2
    rw [List.take_append_of_le_length (by omega), List.drop_append_of_le_length (by omega), h1, h2]

theorem local_readBeU40 : Local readBeU40 := by
  intro a x r h b
  unfold readBeU40 at h ⊢
  by_cases hl : a.length < 5
  · rw [if_pos hl] at h; cases h
  · rw [if_neg hl] at h
    rw [if_neg (by rw [List.length_append]; omega)]
    exact (Local.bind (local_readFixed 4 beVal) fun n => Local.bind local_readU8 fun m => Local.pure _) a x r h b

theorem local_times {α : Type} {p : P α} (hp : Local p) : ∀ n, Local (P.times p n)
  | 0 => Local.pure _
  | n + 1 => Local.bind hp fun _ => Local.bind (local_times hp n) fun _ => Local.pure _

/-- goes through the readers of a `do` block -/
macro "locals" : tactic => `(tactic| repeat' first
  | exact Local.pure _ | exact Local.panic | exact Local.fail _ | exact local_readU8 | exact local_readFixed _ _
  | exact local_readLeU24 | exact local_readBeU24 | exact local_readLeF64 | exact local_readLen _ | exact local_readBeU40
  | apply Local.ite | (apply Local.bind; rotate_left; intro _; rotate_right))

theorem local_negI64 (n : Nat) : Local (negI64 n) := by unfold negI64; locals

theorem local_time (frac : Nat) : Local (MyTime.fromBinlog frac) := by
  unfold MyTime.fromBinlog packedFromTimeBinary packedTimeParts
  refine Local.bind (Local.bind local_readBeU24 fun hms => Local.bind ?_ fun p => Local.bind ?_ fun q => Local.pure _) ?_
  · dsimp only
    exact Local.ite (Local.pure _) (Local.ite (Local.bind local_readU8 fun _ => Local.pure _)
      (Local.ite (Local.bind (show Local readBeU16 from local_readFixed _ _) fun _ => Local.pure _)
        (Local.ite (Local.bind local_readBeU24 fun _ => Local.pure _) (Local.fail _))))
  · split
    · exact local_negI64 _
    · exact Local.pure _
  · rintro ⟨p, n⟩
    exact Local.pure _

theorem local_dateTime (frac : Nat) : Local (MyDateTime.fromBinlog frac) := by
  unfold MyDateTime.fromBinlog packedFromDateTimeBinary packedDateTimeParts
  refine Local.bind (Local.bind local_readBeU40 fun hms => Local.bind ?_ fun p => ?_) fun _ => Local.pure _
  · dsimp only
    exact Local.ite (Local.pure _) (Local.ite (Local.bind local_readU8 fun _ => Local.pure _)
      (Local.ite (Local.bind (show Local readBeU16 from local_readFixed _ _) fun _ => Local.pure _)
        (Local.ite (Local.bind local_readBeU24 fun _ => Local.pure _) (Local.fail _))))
  · split
    · exact local_negI64 _
    · exact Local.pure _

theorem local_extra (rev : Bool) (len : Nat) (negative : Bool) : Local (readExtraFragment rev len negative) := by
  unfold readExtraFragment
  split
  · exact Local.bind local_readU8 fun _ => Local.pure _
  · exact Local.bind (local_readFixed _ _) fun _ => Local.pure _
  · exact Local.bind local_readBeU24 fun _ => Local.pure _
  · exact Local.bind (local_readFixed _ _) fun _ => Local.pure _
  · exact Local.panic

theorem local_digits (intg frac : Nat) (negative : Bool) : Local (MyDecimal.readDigits intg frac negative) := by
  unfold MyDecimal.readDigits
  have hf : Local (readFragment negative) := Local.bind (local_readFixed _ _) fun _ => Local.pure _
  refine Local.bind ?_ fun _ => Local.bind (local_times hf _) fun _ => Local.bind (local_times hf _) fun _ =>
    Local.bind ?_ fun _ => Local.pure _
  · split
    · exact Local.bind (local_extra _ _ _) fun _ => Local.pure _
    · exact Local.pure _
  · split
    · refine Local.bind (local_extra _ _ _) fun _ => Local.bind ?_ fun _ => Local.pure _
      unfold mulU32
      locals
    · exact Local.pure _

/-- a decimal looks at the sign first, for which there must be a byte -/
theorem decimal_local (intg frac : Nat) (a : Bytes) (ha : a ≠ []) (x : MyDecimal) (r : Bytes)
    (h : MyDecimal.readFrom intg frac a = .ok x r) (b : Bytes) : MyDecimal.readFrom intg frac (a ++ b) = .ok x (r ++ b) := by
  cases a with
  | nil => exact absurd rfl ha
  | cons u a => exact local_digits intg frac _ (u :: a) x r h b

theorem value_local (m : ColumnMeta) (a : Bytes) (ha : a ≠ [] ∨ ∀ p s, m ≠ .newDecimal p s) (x : BinlogColumnValue)
    (r : Bytes) (h : BinlogColumnValue.readFrom m a = .ok x r) (b : Bytes) :
    BinlogColumnValue.readFrom m (a ++ b) = .ok x (r ++ b) := by
  by_cases hd : ∃ p s, m = .newDecimal p s
  · obtain ⟨p, s, rfl⟩ := hd
    have ha : a ≠ [] := ha.resolve_right fun h => h p s rfl
    rw [BinlogColumnValue.readFrom] at h ⊢
    split at h
    · rename_i hp
      rw [if_pos hp]
      rw [P.bind_apply] at h ⊢
      cases hpa : MyDecimal.readFrom (p - s) s a with
      | ok d r1 =>
        rw [hpa] at h
        rw [decimal_local _ _ a ha d r1 hpa b]
        cases h
        rfl
      | err e r1 => rw [hpa] at h; cases h
      | panic => rw [hpa] at h; cases h
      | hang => rw [hpa] at h; cases h
    · cases h
  · have key : Local (BinlogColumnValue.readFrom m) := by
      cases m with
      | newDecimal p s => exact absurd ⟨p, s, rfl⟩ hd
      | time2 f => exact Local.bind (local_time f) fun _ => Local.pure _
      | dateTime f => exact Local.bind (local_dateTime f) fun _ => Local.pure _
      | enum p =>
        rw [BinlogColumnValue.readFrom]
        unfold readEnum
        split <;> first | exact Local.fail _ | exact Local.bind (by locals) fun _ => Local.pure _
      | blob p =>
        rw [BinlogColumnValue.readFrom]
        refine Local.bind ?_ fun _ => Local.bind (local_readLen _) fun _ => Local.pure _
        unfold readBlobLen
        split <;> locals
      | _ => rw [BinlogColumnValue.readFrom]; locals
    exact key a x r h b

/-! ### a row is read to the same values whatever follows -/

theorem decimal_ne_nil (intg frac : Nat) (neg : Bool) (n : Nat) (h : 0 < intg) : Spec.decimal intg frac neg n ≠ [] := by
  have flip : ∀ l : List UInt8, l ≠ [] → Spec.flipTop l ≠ [] := by
    intro l hl
    cases l with
    | nil => exact absurd rfl hl
    | cons b l => simp [Spec.flipTop]
  unfold Spec.decimal
  dsimp only
  apply flip
  have hne : ∀ l : List UInt8, l ≠ [] → (if neg then l.map (~~~ ·) else l) ≠ [] := by
    intro l hl
    split
    · simpa using hl
    · exact hl
  apply hne
  by_cases h0 : intg % 9 = 0
  · have : 0 < intg / 9 := by omega
    obtain ⟨m, hm⟩ : ∃ m, intg / 9 = m + 1 := ⟨intg / 9 - 1, by omega⟩
    rw [hm]
    intro hc
    have hc := congrArg List.length hc
    simp only [Spec.groups, List.length_append, List.length_nil, List.map_map, List.length_flatten] at hc
    rw [List.range_succ, List.reverse_append, List.map_append, List.sum_append] at hc
    simp [Spec.be, Spec.le] at hc
  · intro hc
    have hc := congrArg List.length hc
    simp only [List.length_append, List.length_nil] at hc
    have hb : 0 < (Spec.be (Spec.digBytes (intg % 9)) (n / 10 ^ frac / (10 ^ 9) ^ (intg / 9))).length := by
      have hd : 0 < Spec.digBytes (intg % 9) := by
        have h9 : intg % 9 < 9 := Nat.mod_lt _ (by norm_num)
        generalize intg % 9 = d at h0 h9
        unfold Spec.digBytes
        interval_cases d <;> first | exact absurd rfl h0 | decide
      rw [be_length]
      exact hd
    omega

theorem value_uniform (k : ColKind) (m : ColumnMeta) (v : Val) (hk : k.Ok) (hm : metaOf k = some m) (hf : Spec.Fits k v)
    (hs : WidthSound k v) : ∃ c, ∀ t, BinlogColumnValue.readFrom m (Spec.storeVal k v ++ t) = .ok c t := by
  obtain ⟨c, hc⟩ := C37_width_partial k m v hk hm hf hs []
  rw [List.append_nil] at hc
  refine ⟨c, fun t => ?_⟩
  have := value_local m (Spec.storeVal k v) ?_ c [] hc t
  · rwa [List.nil_append] at this
  · by_cases hd : ∃ p s, k = .decimal p s
    · obtain ⟨p, s, rfl⟩ := hd
      left
      cases v with
      | decimal neg n =>
        have hs : s < p := hs
        exact decimal_ne_nil (p - s) s neg n (by omega)
      | _ => exact absurd hf (by simp [Spec.Fits])
    · right
      intro p s e
      subst e
      cases k <;> first | exact hd ⟨_, _, rfl⟩ | (simp [metaOf] at hm)

theorem readCols_uniform (bm : Bytes) (ks : List ColKind) : ∀ (ms : List ColumnMeta) (cs : List Cell) (i : Nat),
    (∀ k ∈ ks, k.Ok) → ks.map metaOf = ms.map some → Spec.CellsFit ks cs → WidthCells ks cs →
    (∀ x c, cs[x]? = some c → Spec.bit? bm (i + x) = some (Cell.hasValue c)) →
    ∃ vs, ∀ t, LogRow.readCols bm ks.length i ms (Spec.storeCells ks cs ++ t) = .ok vs t := by
  induction ks with
  | nil =>
    intro ms cs i _ hm hf _ _
    cases cs with
    | cons _ _ => simp [Spec.CellsFit] at hf
    | nil => exact ⟨[], fun t => by simp [LogRow.readCols, Spec.storeCells, P.pure_apply]⟩
  | cons k ks ih =>
    intro ms cs i hk hm hf hs hb
    cases ms with
    | nil => simp at hm
    | cons m ms =>
      simp only [List.map_cons, List.cons.injEq] at hm
      cases cs with
      | nil => simp [Spec.CellsFit] at hf
      | cons c cs =>
        have h0 := hb 0 c rfl
        rw [Nat.add_zero] at h0
        have hb' : ∀ x c, cs[x]? = some c → Spec.bit? bm (i + 1 + x) = some (Cell.hasValue c) := by
          intro x y h
          have := hb (x + 1) y (by simpa using h)
          rwa [show i + (x + 1) = i + 1 + x by omega] at this
        have novalue : Cell.hasValue c = false → Spec.CellsFit ks cs → WidthCells ks cs →
            Spec.storeCells (k :: ks) (c :: cs) = Spec.storeCells ks cs →
            ∃ vs, ∀ t, LogRow.readCols bm (k :: ks).length i (m :: ms) (Spec.storeCells (k :: ks) (c :: cs) ++ t)
              = .ok vs t := by
          intro hv hf' hs' he
          obtain ⟨vs, h1⟩ := ih ms cs (i + 1) (fun k hk' => hk k (by simp [hk'])) hm.2 hf' hs' hb'
          refine ⟨.null :: vs, fun t => ?_⟩
          rw [he, List.length_cons, LogRow.readCols, Bitmap.index_eq, h0, hv]
          dsimp only [List.tail_cons]
          step (h1 t)
          rfl
        cases c with
        | absent => exact novalue rfl hf hs rfl
        | null => exact novalue rfl hf hs rfl
        | value v =>
          obtain ⟨hf1, hf2⟩ := hf
          obtain ⟨hs1, hs2⟩ := hs
          obtain ⟨vs, h1⟩ := ih ms cs (i + 1) (fun k hk' => hk k (by simp [hk'])) hm.2 hf2 hs2 hb'
          obtain ⟨c, hc⟩ := value_uniform k m v (hk k (by simp)) hm.1 hf1 hs1
          refine ⟨c :: vs, fun t => ?_⟩
          rw [Spec.storeCells, List.append_assoc, List.length_cons, LogRow.readCols, Bitmap.index_eq, h0]
          dsimp only [Cell.hasValue]
          step (hc (Spec.storeCells ks cs ++ t))
          step (h1 t)
          rfl

theorem readImage_uniform (ks : List ColKind) (ms : List ColumnMeta) (presentBm : Bytes) (present : List Bool)
    (r : Image) (hk : ∀ k ∈ ks, k.Ok) (hm : ks.map metaOf = ms.map some) (hn : ks.length + 7 < 2 ^ 32)
    (hp : Covers presentBm present) (hr : r.Ok ks present) (hs : WidthCells ks r.cells) :
    ∃ vs, ∀ t, readImage ks.length (countPresent presentBm ks.length) presentBm ms (r.encode ks ++ t) = .ok vs t := by
  obtain ⟨hf, hpr, hcov⟩ := hr
  have hlen : ks.length = present.length := by rw [← hpr, List.length_map, cellsFit_length ks _ hf]
  have hcount : (Spec.nullBits r.cells).length = present.count true := by
    rw [← hpr]
    unfold Spec.nullBits
    rw [List.length_map, ← List.countP_eq_length_filter, List.count, List.countP_map]
    congr 1
    funext c
    simp
  obtain ⟨bm', e1, _, e3⟩ := markNulls_spec r.nullBitmap r.cells 0 0 presentBm
    (by rw [hpr]; intro x b h; rw [Nat.zero_add]; exact hp.2 x b h)
    (by intro x b h; rw [Nat.zero_add]; exact hcov.2 x b h)
  obtain ⟨vs, h1⟩ := readCols_uniform bm' ks ms r.cells 0 hk hm hf hs e3
  refine ⟨vs, fun t => ?_⟩
  rw [hlen, countPresent_spec _ _ hp, ← hlen]
  unfold readImage Image.encode
  rw [List.append_assoc]
  step (readLen_append' _ r.nullBitmap _ (by rw [hcov.1, Bitmap.shr3, hcount]))
  rw [← hpr, e1]
  dsimp only
  unfold LogRow.readFrom
  step (withCapacity_ok ks.length 40 (by omega) _)
  exact h1 t

/-- a loop over items that are each read to one value -/
theorem whileRemaining_uniform {α β : Type} (p : P β) (enc : α → Bytes) (l : List α)
    (h : ∀ a ∈ l, enc a ≠ [] ∧ ∃ b, ∀ t, p (enc a ++ t) = .ok b t) (dflt : β) :
    ∃ dec : α → β, ∀ l' : List α, (∀ a ∈ l', a ∈ l) → P.whileRemaining p (l'.map enc).flatten = .ok (l'.map dec) [] := by
  classical
  refine ⟨fun a => if ha : a ∈ l then Classical.choose (h a ha).2 else dflt, ?_⟩
  intro l'
  induction l' with
  | nil => intro _; rw [P.whileRemaining]; simp
  | cons a as ih =>
    intro hl
    have ha := hl a List.mem_cons_self
    have h1 := (h a ha).1
    have h2 := Classical.choose_spec (h a ha).2
    have h3 := ih fun x hx => hl x (List.mem_cons_of_mem _ hx)
    rw [P.whileRemaining, List.map_cons, List.flatten_cons, if_neg (by simp [h1]), h2 (as.map enc).flatten]
    have hl : ((as.map enc).flatten).length < (enc a ++ (as.map enc).flatten).length := by
      have := List.length_pos_of_ne_nil h1
      rw [List.length_append]; omega
    dsimp only
    rw [dif_pos hl, h3]
    dsimp only
    rw [List.map_cons, dif_pos ha]

/-- what the library makes of each row image does not depend on the other rows, nor on the extra data -/
theorem rows_uniform (ks : List ColKind) (ms : List ColumnMeta) (presentBm : Bytes) (present : List Bool)
    (rows : List Image) (hk : ∀ k ∈ ks, k.Ok) (hm : ks.map metaOf = ms.map some) (hn : ks.length + 7 < 2 ^ 32)
    (hp : Covers presentBm present) (hpl : present.length = ks.length) (hone : true ∈ present)
    (hr : ∀ r ∈ rows, ImageReadable ks present r) :
    ∃ dec : Image → List BinlogColumnValue, ∀ rows' : List Image, (∀ r ∈ rows', r ∈ rows) → ∀ extra : Bytes, extra.length + 2 < 2 ^ 16 →
      RowsV2.readFrom (extra.length + 2) ms (Spec.rowsPayload ks extra presentBm rows')
        = .ok ⟨extra, ks.length, presentBm, rows'.map dec⟩ [] := by
  obtain ⟨dec, h1⟩ := whileRemaining_uniform (readImage ks.length (countPresent presentBm ks.length) presentBm ms)
    (Image.encode ks) rows
    (fun r hr' => ⟨image_ne_nil ks present r (hr r hr').1 hone,
      readImage_uniform ks ms presentBm present r hk hm hn hp (hr r hr').1 (hr r hr').2⟩) []
  refine ⟨dec, fun rows' hsub extra he => ?_⟩
  unfold RowsV2.readFrom Spec.rowsPayload
  simp only [List.append_assoc]
  step (readRowsHeader_spec extra ks.length he hn _)
  dsimp only
  step (readLen_append' _ presentBm _ (by rw [hp.1, Bitmap.shr3, hpl]))
  show R.bind (P.whileRemaining _ _) _ = _
  rw [h1 rows' hsub]
  rfl

theorem updates_uniform (ks : List ColKind) (ms : List ColumnMeta) (beforeBm afterBm : Bytes)
    (before after : List Bool) (rows : List (Image × Image))
    (hk : ∀ k ∈ ks, k.Ok) (hm : ks.map metaOf = ms.map some) (hn : ks.length + 7 < 2 ^ 32)
    (hb : Covers beforeBm before) (hbl : before.length = ks.length)
    (ha : Covers afterBm after) (hal : after.length = ks.length) (hone : true ∈ before)
    (hr : ∀ r ∈ rows, ImageReadable ks before r.1 ∧ ImageReadable ks after r.2) :
    ∃ dec : Image × Image → List BinlogColumnValue × List BinlogColumnValue, ∀ rows' : List (Image × Image), (∀ r ∈ rows', r ∈ rows) →
      ∀ extra : Bytes, extra.length + 2 < 2 ^ 16 →
      UpdateRowsV2.readFrom (extra.length + 2) ms (Spec.updatePayload ks extra beforeBm afterBm rows')
        = .ok ⟨extra, ks.length, beforeBm, afterBm, rows'.map dec⟩ [] := by
  obtain ⟨dec, h1⟩ := whileRemaining_uniform (readUpdateRow ks.length beforeBm afterBm ms)
    (fun r => Image.encode ks r.1 ++ Image.encode ks r.2) rows
    (fun r hr' => by
      obtain ⟨⟨k1, k2⟩, k3, k4⟩ := hr r hr'
      refine ⟨?_, ?_⟩
      · intro hc; exact image_ne_nil ks before r.1 k1 hone (List.append_eq_nil_iff.1 hc).1
      · obtain ⟨v1, e1⟩ := readImage_uniform ks ms beforeBm before r.1 hk hm hn hb k1 k2
        obtain ⟨v2, e2⟩ := readImage_uniform ks ms afterBm after r.2 hk hm hn ha k3 k4
        refine ⟨(v1, v2), fun t => ?_⟩
        unfold readUpdateRow
        rw [List.append_assoc]
        step (e1 (r.2.encode ks ++ t))
        step (e2 t)
        rfl) ([], [])
  refine ⟨dec, fun rows' hsub extra he => ?_⟩
  unfold UpdateRowsV2.readFrom Spec.updatePayload
  simp only [List.append_assoc]
  step (readRowsHeader_spec extra ks.length he hn _)
  dsimp only
  step (readLen_append' _ beforeBm _ (by rw [hb.1, Bitmap.shr3, hbl]))
  step (readLen_append' _ afterBm _ (by rw [ha.1, Bitmap.shr3, hal]))
  show R.bind (P.whileRemaining _ _) _ = _
  rw [h1 rows' hsub]
  rfl

/-! ### the lines of an event and of its two parts -/

/-- no line is a note about a missing key -/
def NoNotes (ls : List DmlLine) : Prop := ∀ db tbl pos, DmlLine.note db tbl pos ∉ ls

theorem NoNotes.append (a b : List DmlLine) : NoNotes (a ++ b) ↔ NoNotes a ∧ NoNotes b := by
  unfold NoNotes
  constructor
  · exact fun h => ⟨fun d t p hm => h d t p (List.mem_append_left _ hm), fun d t p hm => h d t p (List.mem_append_right _ hm)⟩
  · intro ⟨h1, h2⟩ d t p hm
    rcases List.mem_append.1 hm with hm | hm
    · exact h1 d t p hm
    · exact h2 d t p hm

theorem noNotes_stmts (l : List Bytes) : NoNotes (l.map .stmt) := by
  intro d t p h
  obtain ⟨s, -, h⟩ := List.mem_map.1 h
  cases h

/-- the lines of the whole are there, without a note, when those of the two parts are, and are these one after the other -/
def Joins (whole first second : R (List DmlLine)) : Prop :=
  ∀ ls, (∃ r, whole = .ok ls r) ∧ NoNotes ls ↔
    ∃ l1 l2, ls = l1 ++ l2 ∧ ((∃ r, first = .ok l1 r) ∧ NoNotes l1) ∧ (∃ r, second = .ok l2 r) ∧ NoNotes l2

theorem allSome_append_iff {α β : Type} (f : α → Option β) (a b : List α) (ls : List β) :
    allSome ((a ++ b).map f) = some ls ↔ ∃ l1 l2, ls = l1 ++ l2 ∧ allSome (a.map f) = some l1 ∧ allSome (b.map f) = some l2 := by
  constructor
  · exact allSome_append_inv f a b ls
  · rintro ⟨l1, l2, rfl, h1, h2⟩
    rw [List.map_append]
    exact allSome_append _ _ _ _ h1 h2

theorem sqlLines_ok (ft : FloatText) (o : Option PreparedSql) (ls : List DmlLine) :
    (∃ r, sqlLines ft o = .ok ls r) ↔ ∃ p l, o = some p ∧ p.sqlList ft = some l ∧ ls = l.map .stmt := by
  unfold sqlLines
  cases o with
  | none => simp
  | some p =>
    dsimp only
    cases h : p.sqlList ft with
    | none => simp [h]
    | some l => simp [h, eq_comm]

/-- one statement per row, made from the row alone -/
theorem sqlLines_joins {α : Type} (ft : FloatText) (db : Bytes) (frags : Option (List Bytes))
    (f : α → Option (List StmtColumnValue)) (make : List α → Option PreparedSql)
    (hmake : ∀ rows p, make rows = some p ↔
      ∃ fr ps, frags = some fr ∧ allSome (rows.map f) = some ps ∧ p = ⟨db, fr, ps⟩) (a b : List α) :
    Joins (sqlLines ft (make (a ++ b))) (sqlLines ft (make a)) (sqlLines ft (make b)) := by
  have key : ∀ rows ls, (∃ r, sqlLines ft (make rows) = .ok ls r) ↔
      ∃ fr ps l, frags = some fr ∧ allSome (rows.map f) = some ps ∧ allSome (ps.map (fillFragments ft fr)) = some l ∧
        ls = l.map .stmt := by
    intro rows ls
    rw [sqlLines_ok]
    constructor
    · rintro ⟨p, l, h1, h2, h3⟩
      obtain ⟨fr, ps, g1, g2, rfl⟩ := (hmake rows p).1 h1
      exact ⟨fr, ps, l, g1, g2, h2, h3⟩
    · rintro ⟨fr, ps, l, g1, g2, g3, g4⟩
      exact ⟨⟨db, fr, ps⟩, l, (hmake rows _).2 ⟨fr, ps, g1, g2, rfl⟩, g3, g4⟩
  intro ls
  simp only [key]
  constructor
  · rintro ⟨⟨fr, ps, l, h1, h2, h3, rfl⟩, -⟩
    obtain ⟨p1, p2, rfl, a1, a2⟩ := (allSome_append_iff f a b ps).1 h2
    obtain ⟨l1, l2, rfl, b1, b2⟩ := (allSome_append_iff _ p1 p2 l).1 h3
    exact ⟨l1.map .stmt, l2.map .stmt, by rw [List.map_append], ⟨⟨fr, p1, l1, h1, a1, b1, rfl⟩, noNotes_stmts _⟩,
      ⟨fr, p2, l2, h1, a2, b2, rfl⟩, noNotes_stmts _⟩
  · rintro ⟨_, _, rfl, ⟨⟨fr, p1, l1, h1, a1, b1, rfl⟩, -⟩, ⟨fr', p2, l2, h1', a2, b2, rfl⟩, -⟩
    rw [h1] at h1'
    injection h1' with h1'
    subst h1'
    rw [← List.map_append]
    exact ⟨⟨fr, p1 ++ p2, l1 ++ l2, h1, (allSome_append_iff f a b _).2 ⟨p1, p2, rfl, a1, a2⟩,
      (allSome_append_iff _ p1 p2 _).2 ⟨l1, l2, rfl, b1, b2⟩, rfl⟩, noNotes_stmts _⟩

theorem fromInsert_rows (db tbl : Bytes) (bm : Bytes) (n : Nat) (defs : List ColumnDefinition) (extra : Bytes)
    (rows : List (List BinlogColumnValue)) (p : PreparedSql) :
    PreparedSql.fromInsert db tbl ⟨extra, n, bm, rows⟩ defs = some p ↔
      ∃ fr ps, some (insertFragments db tbl (filterColDefs bm defs)) = some fr ∧
        allSome (rows.map (rowParams (fun _ => true) (filterColDefs bm defs))) = some ps ∧ p = ⟨db, fr, ps⟩ := by
  unfold PreparedSql.fromInsert
  dsimp only
  cases allSome (rows.map (rowParams (fun _ => true) (filterColDefs bm defs))) with
  | none => simp
  | some ps => simp [eq_comm]

theorem fromDelete_rows (db tbl : Bytes) (bm : Bytes) (n : Nat) (defs : List ColumnDefinition) (extra : Bytes)
    (rows : List (List BinlogColumnValue)) (p : PreparedSql) :
    PreparedSql.fromDelete db tbl ⟨extra, n, bm, rows⟩ defs = some p ↔
      ∃ fr ps, deleteFragments db tbl (filterColDefs bm defs) = some fr ∧
        allSome (rows.map (rowParams (·.key) (filterColDefs bm defs))) = some ps ∧ p = ⟨db, fr, ps⟩ := by
  unfold PreparedSql.fromDelete
  dsimp only
  cases deleteFragments db tbl (filterColDefs bm defs) with
  | none => simp
  | some fr =>
    dsimp only
    cases allSome (rows.map (rowParams (·.key) (filterColDefs bm defs))) with
    | none => simp
    | some ps => simp [eq_comm]

theorem fromUpdate_rows (db tbl : Bytes) (bb ab : Bytes) (n : Nat) (defs : List ColumnDefinition) (extra : Bytes)
    (rows : List (List BinlogColumnValue × List BinlogColumnValue)) (p : PreparedSql) :
    PreparedSql.fromUpdate db tbl ⟨extra, n, bb, ab, rows⟩ defs = some p ↔
      ∃ fr ps, updateFragments db tbl (filterColDefs bb defs) (filterColDefs ab defs) = some fr ∧
        allSome (rows.map (updateParams (filterColDefs bb defs) (filterColDefs ab defs))) = some ps ∧ p = ⟨db, fr, ps⟩ := by
  unfold PreparedSql.fromUpdate
  dsimp only
  cases updateFragments db tbl (filterColDefs bb defs) (filterColDefs ab defs) with
  | none => simp
  | some fr =>
    dsimp only
    cases allSome (rows.map (updateParams (filterColDefs bb defs) (filterColDefs ab defs))) with
    | none => simp
    | some ps => simp [eq_comm]

/-! ### the log, event by event -/

/-- what the program gets to see of an event of the log -/
def seenEvent (crc : Bool) (e : LogEvent) : Option Event :=
  if e.code ∈ Spec.supportedCodes then
    (LogEventType.tryFrom e.code).map fun k => ⟨k, ⟨e.timestamp, k, e.serverId, e.len crc, e.nextPos, e.flags⟩, e.payload⟩
  else none

theorem tryFrom_toByte (k : LogEventType) : LogEventType.tryFrom k.toByte = some k := by cases k <;> rfl

theorem seenEvent_eq {crc : Bool} {e : LogEvent} {o : Option Event} (h : Spec.Seen crc e o) : o = seenEvent crc e := by
  unfold Spec.Seen at h
  unfold seenEvent
  split at h
  · rename_i hc
    obtain ⟨k, h1, rfl⟩ := h
    rw [if_pos hc, ← h1, tryFrom_toByte]
    rfl
  · rename_i hc
    rw [if_neg hc, h]

/-- what the program does with the events of a log, up to the end of the log -/
def runLog (ft : FloatText) (o : DmlOpts) (crc : Bool) : DmlState → List LogEvent → List DmlLine × DmlEnd
  | _, [] => ([], .done)
  | st, e :: es =>
    match seenEvent crc e with
    | none => runLog ft o crc st es
    | some ev =>
      match onEvent ft o st ev with
      | (out, .go st') => (out ++ (runLog ft o crc st' es).1, (runLog ft o crc st' es).2)
      | (out, .stop) => (out, .done)
      | (out, .err e) => (out, .err e)
      | (out, .panic) => (out, .panic)
      | (out, .hang) => (out, .hang)

theorem dmlLoop_runLog (ft : FloatText) (o : DmlOpts) (s : BinlogStream) (hs : s.completed = false)
    (hb : s.nonBlock = true) (eof rest : Bytes) : ∀ (log : List LogEvent) (st : DmlState) (c : Conn),
    (∀ e ∈ log, e.InRange) → Spec.Delivers c.inp (log.map (Spec.streamMessage s.pv4.checksum) ++ [0xfe :: eof]) rest →
    dmlLoop ft o s st c = runLog ft o s.pv4.checksum st log
  | [], st, c, _, hd => by
    obtain ⟨c3, d1, -, -, -⟩ := Delivers.recv hd
    have hend : s.nextEvent c = .ok (none, s) c3 := by
      unfold BinlogStream.nextEvent
      rw [if_neg (by simp [hs]), BinlogStream.nextLoop.eq_def]
      have : s.recvAndParse c = .ok .theEnd c3 := by
        unfold BinlogStream.recvAndParse
        rw [d1]
        dsimp only
        rw [if_pos (by simp [hb])]
      rw [this]
    rw [dmlLoop.eq_def, hend]
    rfl
  | e :: log, st, c, hin, hd => by
    rw [List.map_cons, List.cons_append] at hd
    obtain ⟨c1, o1, a1, a2, a3, a4, a5⟩ := recvAndParse_event s e (hin e List.mem_cons_self) _ rest c hd
    have ih := fun st => dmlLoop_runLog ft o s hs hb eof rest log st c1 (fun x hx => hin x (List.mem_cons_of_mem _ hx)) a4
    rw [runLog, ← seenEvent_eq a1]
    cases o1 with
    | none =>
      have hloop : s.nextLoop c = s.nextLoop c1 := by
        rw [BinlogStream.nextLoop.eq_def, a2]
        dsimp only
        rw [if_pos a5]
      rw [dmlLoop_skip ft o s st c c1 hs hloop a5, ih]
    | some ev =>
      have hloop : s.nextLoop c = .ok (some ev, s) c1 := by
        rw [BinlogStream.nextLoop.eq_def, a2]
      rw [dmlLoop.eq_def]
      unfold BinlogStream.nextEvent
      rw [if_neg (by simp [hs]), hloop]
      dsimp only
      rcases onEvent ft o st ev with ⟨out, next⟩
      cases next with
      | go st' =>
        dsimp only
        rw [if_pos a5, ih]
      | _ => rfl

/-- a whole run over a log that a master sends without waiting -/
theorem printDmls_runLog (ft : FloatText) (o : DmlOpts) (hb : o.nonBlock = true)
    (hf : o.filename.length < 10 ^ 9 ∧ validUtf8 o.filename = true) (uuid : Bytes) (hu : uuid.length = 36) (random : Nat)
    (hr : random < 2 ^ 32) (conn helper : Conn) (crc : Bool) (opening : List Bytes)
    (hopen : Spec.OpensStream conn.caps crc opening) (log : List LogEvent) (hin : ∀ e ∈ log, e.InRange) (eof rest : Bytes)
    (hd : Spec.Delivers conn.inp (opening ++ (log.map (Spec.streamMessage crc) ++ [0xfe :: eof])) rest) :
    printDmls ft o uuid random conn helper = runLog ft o crc ⟨[], [], 0, helper⟩ log := by
  obtain ⟨s, c1, a1, a2, a3, rfl, a5⟩ := requestStream_opens o hf uuid hu random hr conn crc opening _ rest hopen hd
  unfold printDmls
  rw [a1]
  dsimp only
  exact dmlLoop_runLog ft o s a2 (a3.trans hb) eof rest log _ c1 hin a5

/-! ### grouping -/

/-- an event that inserts (code 30) or deletes (code 32) these rows of the table with this id; `bm` marks the columns
that are logged -/
def Spec.RowsOf (code id : Nat) (ks : List ColKind) (bm : List UInt8) (rows : List Image) (e : LogEvent) : Prop :=
  e.code = code ∧ ∃ flags < 2 ^ 16, ∃ extra : List UInt8, extra.length + 2 < 2 ^ 16 ∧
    e.payload = Spec.rowsHead id flags extra ++ Spec.rowsPayload ks extra bm rows

/-- an event that updates these rows -/
def Spec.UpdatesOf (id : Nat) (ks : List ColKind) (bb ab : List UInt8) (rows : List (Image × Image)) (e : LogEvent) : Prop :=
  e.code = 31 ∧ ∃ flags < 2 ^ 16, ∃ extra : List UInt8, extra.length + 2 < 2 ^ 16 ∧
    e.payload = Spec.rowsHead id flags extra ++ Spec.updatePayload ks extra bb ab rows

/-- The rows of the first event, in their order, are in two events. -/
inductive Spec.InTwo (id : Nat) (ks : List ColKind) (e e1 e2 : LogEvent) : Prop
  | changed (code : Nat) (bm : List UInt8) (present : List Bool) (a b : List Image) (hc : code = 30 ∨ code = 32)
      (hp : Covers bm present) (hl : present.length = ks.length) (hone : true ∈ present)
      (hr : ∀ r ∈ a ++ b, ImageReadable ks present r) (h : Spec.RowsOf code id ks bm (a ++ b) e)
      (h1 : Spec.RowsOf code id ks bm a e1) (h2 : Spec.RowsOf code id ks bm b e2)
  | updated (bb ab : List UInt8) (before after : List Bool) (a b : List (Image × Image))
      (hb : Covers bb before) (hbl : before.length = ks.length) (ha : Covers ab after) (hal : after.length = ks.length)
      (hone : true ∈ before) (hr : ∀ r ∈ a ++ b, ImageReadable ks before r.1 ∧ ImageReadable ks after r.2)
      (h : Spec.UpdatesOf id ks bb ab (a ++ b) e) (h1 : Spec.UpdatesOf id ks bb ab a e1) (h2 : Spec.UpdatesOf id ks bb ab b e2)

/-- in this part of a log file, whenever a table is announced for the id it has these columns -/
def Spec.AnnouncedWith (id : Nat) (ks : List ColKind) (part : List LogEvent) : Prop :=
  ∀ x ∈ part, x.code = 19 → ∃ i t, x.Says (.tableMap i t) ∧ (i = id → TableReadable t ∧ t.columns = ks)

/-- a log up to the end of one of its files (or nothing of it) -/
def Spec.WholeFiles (part : List LogEvent) : Prop := part = [] ∨ ∃ p x, part = p ++ [x] ∧ x.code = 4

/-- The second log is the first with the rows of one event in two events. -/
def Spec.Splits (log log' : List LogEvent) : Prop :=
  ∃ (id : Nat) (ks : List ColKind) (files part after : List LogEvent) (e e1 e2 : LogEvent), id < 2 ^ 48 ∧
    Spec.WholeFiles files ∧ Spec.AnnouncedWith id ks part ∧ Spec.InTwo id ks e e1 e2 ∧
    log = files ++ (part ++ e :: after) ∧ log' = files ++ (part ++ e1 :: e2 :: after)

/-- The logs say the same changes of rows in the same order, grouped into events in two ways. -/
def Spec.Regrouped : List LogEvent → List LogEvent → Prop := Relation.EqvGen Spec.Splits

/-- the run ends without an error and prints these lines, none of them a note -/
def Good (r : List DmlLine × DmlEnd) (out : List DmlLine) : Prop := r = (out, .done) ∧ NoNotes out

theorem good_cons {r : List DmlLine × DmlEnd} {ls out : List DmlLine} :
    Good (ls ++ r.1, r.2) out ↔ NoNotes ls ∧ ∃ rest, out = ls ++ rest ∧ Good r rest := by
  unfold Good
  constructor
  · rintro ⟨h1, h2⟩
    injection h1 with h1 h3
    subst h1
    rw [NoNotes.append] at h2
    exact ⟨h2.1, r.1, rfl, by rw [← h3], h2.2⟩
  · rintro ⟨h1, rest, rfl, h2, h3⟩
    rw [h2]
    exact ⟨rfl, (NoNotes.append _ _).2 ⟨h1, h3⟩⟩

/-- the columns the program uses for the id are these -/
def Uses (id : Nat) (ks : List ColKind) (st : DmlState) : Prop :=
  ∀ tm, st.tbls.lookup id = some tm →
    ks.map metaOf = tm.colMetas.map some ∧ (∀ k ∈ ks, k.Ok) ∧ ks.length + 7 < 2 ^ 32

theorem runLog_congr (ft : FloatText) (o : DmlOpts) (crc : Bool) (I : DmlState → Prop) (X Y : List LogEvent) :
    ∀ (pre : List LogEvent) (st : DmlState),
    (∀ e ∈ pre, ∀ ev st st' ls, seenEvent crc e = some ev → I st → onEvent ft o st ev = (ls, .go st') → I st') → I st →
    (∀ st, I st → ∀ out, Good (runLog ft o crc st X) out ↔ Good (runLog ft o crc st Y) out) → ∀ out,
    Good (runLog ft o crc st (pre ++ X)) out ↔ Good (runLog ft o crc st (pre ++ Y)) out
  | [], st, _, hI, h, out => h st hI out
  | e :: pre, st, hp, hI, h, out => by
    have ih := fun st' hI' => runLog_congr ft o crc I X Y pre st' (fun x hx => hp x (List.mem_cons_of_mem _ hx)) hI' h
    rw [List.cons_append, List.cons_append, runLog, runLog]
    cases hs : seenEvent crc e with
    | none => exact ih st hI out
    | some ev =>
      dsimp only
      cases ho : onEvent ft o st ev with
      | mk ls next =>
        cases next with
        | go st' =>
          dsimp only
          have hI' := hp e List.mem_cons_self ev st st' ls hs hI ho
          rw [good_cons, good_cons]
          constructor
          · rintro ⟨h1, rest, h2, h3⟩; exact ⟨h1, rest, h2, (ih st' hI' rest).1 h3⟩
          · rintro ⟨h1, rest, h2, h3⟩; exact ⟨h1, rest, h2, (ih st' hI' rest).2 h3⟩
        | _ => exact Iff.rfl

theorem onRows_tbls {limit : Nat} {lines : TableMeta → RowsDataV2 → R (List DmlLine)} {st st' : DmlState} {data : Bytes}
    {ls : List DmlLine} (h : onRows limit lines st data = (ls, .go st')) : st'.tbls = st.tbls := by
  unfold onRows at h
  split at h
  · split at h
    · cases h; rfl
    · split at h
      · cases h; rfl
      · split at h
        · split at h <;> cases h; rfl
        all_goals cases h
  all_goals cases h

theorem onEvent_uses {ft : FloatText} {o : DmlOpts} {crc : Bool} {id : Nat} {ks : List ColKind} {part : List LogEvent}
    (h : Spec.AnnouncedWith id ks part) : ∀ e ∈ part, ∀ ev st st' ls, seenEvent crc e = some ev → Uses id ks st →
    onEvent ft o st ev = (ls, .go st') → Uses id ks st' := by
  intro e he ev st st' ls hs hu ho
  unfold seenEvent at hs
  split at hs
  swap
  · cases hs
  obtain ⟨k, hk, rfl⟩ := Option.map_eq_some_iff.1 hs
  have same : st'.tbls = st.tbls → Uses id ks st' := fun e => by unfold Uses; rw [e]; exact hu
  unfold onEvent at ho
  dsimp only at ho
  by_cases hkt : k = .tableMap
  · subst hkt
    have hcode : e.code = 19 := by
      have := hk
      unfold LogEventType.tryFrom at this
      split at this <;> first | (injection this with this; cases this) | rfl | cases this
      rename_i h; exact h
    obtain ⟨i, t, ⟨-, hi, flags, hfl, hpay⟩, hcols⟩ := h e he hcode
    dsimp only at ho
    injection ho with _ ho
    unfold onTableMap at ho
    rw [hpay, List.append_assoc, C34_data i flags t.encode hi hfl] at ho
    dsimp only at ho
    split at ho
    · cases ho; exact hu
    · split at ho
      · rename_i tm r htm
        split at ho
        · cases ho; exact same rfl
        · split at ho
          · cases ho; exact same rfl
          · split at ho
            · rename_i defs hc' _
              cases ho
              intro tm' htm'
              by_cases hid : id = i
              · subst hid
                obtain ⟨hread, hc⟩ := hcols rfl
                obtain ⟨ha, hb, hn, hnull, hcol, ms, hms⟩ := hread
                have hdec := C34_table_map_partial t ms ha ⟨hb.1, hb.2.1⟩ (by omega) hnull hcol hms []
                rw [List.append_nil, htm] at hdec
                injection hdec with hdec _
                rw [List.lookup_cons_self] at htm'
                injection htm' with htm'
                subst htm' hdec hc
                exact ⟨hms, hcol, hn⟩
              · rw [List.lookup_cons, show (id == i) = false from by simpa using hid] at htm'
                exact hu tm' htm'
            all_goals cases ho
      all_goals cases ho
  · cases k <;> first
      | exact absurd rfl hkt
      | exact same (onRows_tbls ho)
      | (cases ho; exact same rfl)
      | (dsimp only at ho; split at ho <;> cases ho; exact fun tm h => by cases h)

/-- one event of rows, without a limit -/
theorem onRows_free (lines : TableMeta → RowsDataV2 → R (List DmlLine)) (st : DmlState) (data : Bytes) (d : RowsDataV2)
    (r : Bytes) (hd : RowsDataV2.readFrom data = .ok d r) :
    onRows 0 lines st data = if d.tableId ∈ st.skip then ([], .go st)
      else match st.tbls.lookup d.tableId with
        | none => ([], .go st)
        | some tm => match lines tm d with
          | .ok ls _ => (ls, .go { st with nRows := st.nRows + statements ls })
          | .err e _ => ([], .err e)
          | .panic => ([], .panic)
          | .hang => ([], .hang) := by
  unfold onRows
  rw [hd]
  dsimp only
  split
  · rfl
  · cases st.tbls.lookup d.tableId with
    | none => rfl
    | some tm =>
      dsimp only
      cases lines tm d with
      | ok ls r => dsimp only; rw [printLines_unlimited]
      | _ => rfl

theorem runLog_rows (ft : FloatText) (o : DmlOpts) (crc : Bool) (st : DmlState) (e : LogEvent) (after : List LogEvent)
    (lines : TableMeta → RowsDataV2 → R (List DmlLine)) (d : RowsDataV2) (r : Bytes) (ev : Event)
    (hs : seenEvent crc e = some ev) (ho : onEvent ft o st ev = onRows 0 lines st e.payload)
    (hd : RowsDataV2.readFrom e.payload = .ok d r) (out : List DmlLine) :
    Good (runLog ft o crc st (e :: after)) out ↔
      if d.tableId ∈ st.skip ∨ st.tbls.lookup d.tableId = none then Good (runLog ft o crc st after) out
      else ∃ tm ls rest, st.tbls.lookup d.tableId = some tm ∧ (∃ r, lines tm d = .ok ls r) ∧ NoNotes ls ∧ out = ls ++ rest ∧
        Good (runLog ft o crc { st with nRows := st.nRows + statements ls } after) rest := by
  rw [runLog, hs]
  dsimp only
  rw [ho, onRows_free lines st e.payload d r hd]
  by_cases h1 : d.tableId ∈ st.skip
  · rw [if_pos h1, if_pos (Or.inl h1)]
    exact Iff.rfl
  · rw [if_neg h1]
    cases hl : st.tbls.lookup d.tableId with
    | none =>
      rw [if_pos (Or.inr rfl)]
      exact Iff.rfl
    | some tm =>
      rw [if_neg (by simp [h1])]
      dsimp only
      cases hln : lines tm d with
      | ok ls r1 =>
        dsimp only
        rw [good_cons]
        constructor
        · rintro ⟨g1, rest, g2, g3⟩
          exact ⟨tm, ls, rest, rfl, ⟨r1, hln⟩, g1, g2, g3⟩
        · rintro ⟨tm', ls', rest, e1, ⟨r2, e2⟩, g1, g2, g3⟩
          injection e1 with e1
          subst e1
          rw [hln] at e2
          injection e2 with e2 _
          subst e2
          exact ⟨g1, rest, g2, g3⟩
      | err e r1 =>
        constructor
        · rintro ⟨h, -⟩; cases h
        · rintro ⟨tm', ls', rest, e1, ⟨r2, e2⟩, -⟩
          injection e1 with e1; subst e1; rw [hln] at e2; cases e2
      | panic =>
        constructor
        · rintro ⟨h, -⟩; cases h
        · rintro ⟨tm', ls', rest, e1, ⟨r2, e2⟩, -⟩
          injection e1 with e1; subst e1; rw [hln] at e2; cases e2
      | hang =>
        constructor
        · rintro ⟨h, -⟩; cases h
        · rintro ⟨tm', ls', rest, e1, ⟨r2, e2⟩, -⟩
          injection e1 with e1; subst e1; rw [hln] at e2; cases e2

/-- an event and the two with its parts, at a point of a log -/
theorem runLog_joins (ft : FloatText) (o : DmlOpts) (crc : Bool) (st : DmlState) (e e1 e2 : LogEvent)
    (after : List LogEvent) (lines lines1 lines2 : TableMeta → RowsDataV2 → R (List DmlLine)) (d d1 d2 : RowsDataV2)
    (r r1 r2 : Bytes) (ev ev1 ev2 : Event) (id : Nat)
    (hs : seenEvent crc e = some ev) (hs1 : seenEvent crc e1 = some ev1) (hs2 : seenEvent crc e2 = some ev2)
    (ho : ∀ st, onEvent ft o st ev = onRows 0 lines st e.payload)
    (ho1 : ∀ st, onEvent ft o st ev1 = onRows 0 lines1 st e1.payload)
    (ho2 : ∀ st, onEvent ft o st ev2 = onRows 0 lines2 st e2.payload)
    (hd : RowsDataV2.readFrom e.payload = .ok d r) (hd1 : RowsDataV2.readFrom e1.payload = .ok d1 r1)
    (hd2 : RowsDataV2.readFrom e2.payload = .ok d2 r2) (hid : d.tableId = id) (hid1 : d1.tableId = id)
    (hid2 : d2.tableId = id)
    (hj : ∀ tm, st.tbls.lookup id = some tm → Joins (lines tm d) (lines1 tm d1) (lines2 tm d2)) (out : List DmlLine) :
    Good (runLog ft o crc st (e :: after)) out ↔ Good (runLog ft o crc st (e1 :: e2 :: after)) out := by
  rw [runLog_rows ft o crc st e after lines d r ev hs (ho st) hd,
    runLog_rows ft o crc st e1 (e2 :: after) lines1 d1 r1 ev1 hs1 (ho1 st) hd1]
  simp only [runLog_rows ft o crc _ e2 after lines2 d2 r2 ev2 hs2 (ho2 _) hd2, hid, hid1, hid2]
  by_cases hq : id ∈ st.skip ∨ st.tbls.lookup id = none
  · rw [if_pos hq, if_pos hq, if_pos hq]
  · simp only [if_neg hq]
    constructor
    · rintro ⟨tm, ls, rest, g1, g2, g3, rfl, g5⟩
      obtain ⟨l1, l2, rfl, ⟨a1, a2⟩, b1, b2⟩ := (hj tm g1 ls).1 ⟨g2, g3⟩
      refine ⟨tm, l1, l2 ++ rest, g1, a1, a2, by rw [List.append_assoc], tm, l2, rest, g1, b1, b2, rfl, ?_⟩
      rw [statements_append, ← Nat.add_assoc] at g5
      exact g5
    · rintro ⟨tm, l1, rest1, g1, a1, a2, rfl, tm', l2, rest, g1', b1, b2, rfl, g5⟩
      rw [g1] at g1'
      injection g1' with g1'
      subst g1'
      obtain ⟨g2, g3⟩ := (hj tm g1 (l1 ++ l2)).2 ⟨l1, l2, rfl, ⟨a1, a2⟩, b1, b2⟩
      refine ⟨tm, l1 ++ l2, rest, g1, g2, g3, by rw [List.append_assoc], ?_⟩
      rw [statements_append, ← Nat.add_assoc]
      exact g5

/-- the rows of an insert or delete, and of its two parts -/
theorem rowLines_joins (ft : FloatText) (make : Bytes → Bytes → RowsV2 → List ColumnDefinition → Option PreparedSql)
    (hmake : make = PreparedSql.fromInsert ∨ make = PreparedSql.fromDelete) (tm : TableMeta) (ks : List ColKind)
    (bm : Bytes) (present : List Bool) (a b : List Image) (hk : ∀ k ∈ ks, k.Ok) (hm : ks.map metaOf = tm.colMetas.map some)
    (hn : ks.length + 7 < 2 ^ 32) (hp : Covers bm present) (hpl : present.length = ks.length) (hone : true ∈ present)
    (hr : ∀ r ∈ a ++ b, ImageReadable ks present r) (id f f1 f2 : Nat) (x x1 x2 : Bytes)
    (hx : x.length + 2 < 2 ^ 16) (hx1 : x1.length + 2 < 2 ^ 16) (hx2 : x2.length + 2 < 2 ^ 16) :
    Joins (rowLines ft make tm ⟨id, f, x.length + 2, Spec.rowsPayload ks x bm (a ++ b)⟩)
      (rowLines ft make tm ⟨id, f1, x1.length + 2, Spec.rowsPayload ks x1 bm a⟩)
      (rowLines ft make tm ⟨id, f2, x2.length + 2, Spec.rowsPayload ks x2 bm b⟩) := by
  obtain ⟨dec, hdec⟩ := rows_uniform ks tm.colMetas bm present (a ++ b) hk hm hn hp hpl hone hr
  unfold rowLines
  dsimp only
  rw [hdec (a ++ b) (fun r h => h) x hx, hdec a (fun r h => List.mem_append_left _ h) x1 hx1,
    hdec b (fun r h => List.mem_append_right _ h) x2 hx2, List.map_append]
  dsimp only
  rcases hmake with rfl | rfl
  · have h := sqlLines_joins ft tm.db _ _ (fun rows => PreparedSql.fromInsert tm.db tm.tbl ⟨x, ks.length, bm, rows⟩ tm.colDefs)
      (fun rows p => fromInsert_rows tm.db tm.tbl bm ks.length tm.colDefs x rows p) (a.map dec) (b.map dec)
    exact h
  · have h := sqlLines_joins ft tm.db _ _ (fun rows => PreparedSql.fromDelete tm.db tm.tbl ⟨x, ks.length, bm, rows⟩ tm.colDefs)
      (fun rows p => fromDelete_rows tm.db tm.tbl bm ks.length tm.colDefs x rows p) (a.map dec) (b.map dec)
    exact h

theorem updateLines_joins (ft : FloatText) (n n1 n2 : Nat) (tm : TableMeta) (ks : List ColKind)
    (bb ab : Bytes) (before after : List Bool) (a b : List (Image × Image)) (hk : ∀ k ∈ ks, k.Ok)
    (hm : ks.map metaOf = tm.colMetas.map some) (hn : ks.length + 7 < 2 ^ 32) (hb : Covers bb before)
    (hbl : before.length = ks.length) (ha : Covers ab after) (hal : after.length = ks.length) (hone : true ∈ before)
    (hr : ∀ r ∈ a ++ b, ImageReadable ks before r.1 ∧ ImageReadable ks after r.2) (id f f1 f2 : Nat) (x x1 x2 : Bytes)
    (hx : x.length + 2 < 2 ^ 16) (hx1 : x1.length + 2 < 2 ^ 16) (hx2 : x2.length + 2 < 2 ^ 16) :
    Joins (updateLines ft n tm ⟨id, f, x.length + 2, Spec.updatePayload ks x bb ab (a ++ b)⟩)
      (updateLines ft n1 tm ⟨id, f1, x1.length + 2, Spec.updatePayload ks x1 bb ab a⟩)
      (updateLines ft n2 tm ⟨id, f2, x2.length + 2, Spec.updatePayload ks x2 bb ab b⟩) := by
  obtain ⟨dec, hdec⟩ := updates_uniform ks tm.colMetas bb ab before after (a ++ b) hk hm hn hb hbl ha hal hone hr
  unfold updateLines
  dsimp only
  rw [hdec (a ++ b) (fun r h => h) x hx, hdec a (fun r h => List.mem_append_left _ h) x1 hx1,
    hdec b (fun r h => List.mem_append_right _ h) x2 hx2, List.map_append]
  dsimp only
  by_cases hkey : keyExists tm.colDefs = true
  · rw [if_pos hkey, if_pos hkey, if_pos hkey]
    have h := sqlLines_joins ft tm.db _ _
      (fun rows => PreparedSql.fromUpdate tm.db tm.tbl ⟨x, ks.length, bb, ab, rows⟩ tm.colDefs)
      (fun rows p => fromUpdate_rows tm.db tm.tbl bb ab ks.length tm.colDefs x rows p) (a.map dec) (b.map dec)
    exact h
  · rw [if_neg hkey, if_neg hkey, if_neg hkey]
    intro ls
    constructor
    · rintro ⟨⟨r, h1⟩, h2⟩
      injection h1 with h1 _
      subst h1
      exact absurd List.mem_cons_self (h2 tm.db tm.tbl n)
    · rintro ⟨l1, l2, -, ⟨⟨r, h1⟩, h2⟩, -⟩
      injection h1 with h1 _
      subst h1
      exact absurd List.mem_cons_self (h2 tm.db tm.tbl n1)

theorem seen_code {crc : Bool} {e : LogEvent} (k : LogEventType) (hk : k.supported = true) (hc : e.code = k.toByte) :
    seenEvent crc e = some ⟨k, ⟨e.timestamp, k, e.serverId, e.len crc, e.nextPos, e.flags⟩, e.payload⟩ := by
  unfold seenEvent
  rw [if_pos (by rw [hc]; exact (supported_iff k).1 hk), hc, tryFrom_toByte]
  rfl

theorem inTwo_run (ft : FloatText) (o : DmlOpts) (h0 : o.limit = 0) (crc : Bool) (id : Nat) (hid : id < 2 ^ 48)
    (ks : List ColKind) (e e1 e2 : LogEvent) (after : List LogEvent) (h : Spec.InTwo id ks e e1 e2) (st : DmlState)
    (hu : Uses id ks st) (out : List DmlLine) :
    Good (runLog ft o crc st (e :: after)) out ↔ Good (runLog ft o crc st (e1 :: e2 :: after)) out := by
  have data : ∀ (e : LogEvent) (flags : Nat) (x p : Bytes), flags < 2 ^ 16 → x.length + 2 < 2 ^ 16 →
      e.payload = Spec.rowsHead id flags x ++ p →
      RowsDataV2.readFrom e.payload = .ok ⟨id, flags, x.length + 2, p⟩ [] := by
    intro e flags x p hf hx he
    rw [he]
    unfold Spec.rowsHead
    simp only [List.append_assoc]
    exact C35_data id flags (x.length + 2) p hid hf hx
  cases h with
  | changed code bm present a b hc hp hl hone hr h h1 h2 =>
    obtain ⟨c, f, hf, x, hx, hpay⟩ := h
    obtain ⟨c1, f1, hf1, x1, hx1, hpay1⟩ := h1
    obtain ⟨c2, f2, hf2, x2, hx2, hpay2⟩ := h2
    rcases hc with rfl | rfl
    · refine runLog_joins ft o crc st e e1 e2 after (rowLines ft PreparedSql.fromInsert) (rowLines ft PreparedSql.fromInsert)
        (rowLines ft PreparedSql.fromInsert) _ _ _ _ _ _ _ _ _ id (seen_code .writeRowsV2 rfl c)
        (seen_code .writeRowsV2 rfl c1) (seen_code .writeRowsV2 rfl c2) (fun st => by rw [← h0]; rfl)
        (fun st => by rw [← h0]; rfl) (fun st => by rw [← h0]; rfl) (data e f x _ hf hx hpay) (data e1 f1 x1 _ hf1 hx1 hpay1)
        (data e2 f2 x2 _ hf2 hx2 hpay2) rfl rfl rfl (fun tm htm => ?_) out
      obtain ⟨u1, u2, u3⟩ := hu tm htm
      exact rowLines_joins ft _ (Or.inl rfl) tm ks bm present a b u2 u1 u3 hp hl hone hr id f f1 f2 x x1 x2 hx hx1 hx2
    · refine runLog_joins ft o crc st e e1 e2 after (rowLines ft PreparedSql.fromDelete) (rowLines ft PreparedSql.fromDelete)
        (rowLines ft PreparedSql.fromDelete) _ _ _ _ _ _ _ _ _ id (seen_code .deleteRowsV2 rfl c)
        (seen_code .deleteRowsV2 rfl c1) (seen_code .deleteRowsV2 rfl c2) (fun st => by rw [← h0]; rfl)
        (fun st => by rw [← h0]; rfl) (fun st => by rw [← h0]; rfl) (data e f x _ hf hx hpay) (data e1 f1 x1 _ hf1 hx1 hpay1)
        (data e2 f2 x2 _ hf2 hx2 hpay2) rfl rfl rfl (fun tm htm => ?_) out
      obtain ⟨u1, u2, u3⟩ := hu tm htm
      exact rowLines_joins ft _ (Or.inr rfl) tm ks bm present a b u2 u1 u3 hp hl hone hr id f f1 f2 x x1 x2 hx hx1 hx2
  | updated bb ab before after' a b hb hbl ha hal hone hr h h1 h2 =>
    obtain ⟨c, f, hf, x, hx, hpay⟩ := h
    obtain ⟨c1, f1, hf1, x1, hx1, hpay1⟩ := h1
    obtain ⟨c2, f2, hf2, x2, hx2, hpay2⟩ := h2
    refine runLog_joins ft o crc st e e1 e2 after (updateLines ft e.nextPos) (updateLines ft e1.nextPos)
      (updateLines ft e2.nextPos) _ _ _ _ _ _ _ _ _ id (seen_code .updateRowsV2 rfl c)
      (seen_code .updateRowsV2 rfl c1) (seen_code .updateRowsV2 rfl c2) (fun st => by rw [← h0]; rfl)
      (fun st => by rw [← h0]; rfl) (fun st => by rw [← h0]; rfl) (data e f x _ hf hx hpay) (data e1 f1 x1 _ hf1 hx1 hpay1)
      (data e2 f2 x2 _ hf2 hx2 hpay2) rfl rfl rfl (fun tm htm => ?_) out
    obtain ⟨u1, u2, u3⟩ := hu tm htm
    exact updateLines_joins ft e.nextPos e1.nextPos e2.nextPos tm ks bb ab before after' a b u2 u1 u3 hb hbl ha hal hone hr id
      f f1 f2 x x1 x2 hx hx1 hx2

theorem splits_run (ft : FloatText) (o : DmlOpts) (h0 : o.limit = 0) (crc : Bool) (st : DmlState) (hst : st.tbls = [])
    (log log' : List LogEvent) (h : Spec.Splits log log') (out : List DmlLine) :
    Good (runLog ft o crc st log) out ↔ Good (runLog ft o crc st log') out := by
  obtain ⟨id, ks, files, part, after, e, e1, e2, hid, hw, hann, htwo, rfl, rfl⟩ := h
  have inner : ∀ st, Uses id ks st → ∀ out, Good (runLog ft o crc st (part ++ e :: after)) out ↔
      Good (runLog ft o crc st (part ++ e1 :: e2 :: after)) out := by
    intro st hu out
    exact runLog_congr ft o crc (Uses id ks) _ _ part st (onEvent_uses hann) hu
      (fun st hu out => inTwo_run ft o h0 crc id hid ks e e1 e2 after htwo st hu out) out
  have fresh : ∀ st : DmlState, st.tbls = [] → Uses id ks st := by
    intro st h tm htm
    rw [h] at htm
    cases htm
  rcases hw with rfl | ⟨p, x, rfl, hx⟩
  · exact inner st (fresh st hst) out
  · rw [List.append_assoc, List.append_assoc]
    refine runLog_congr ft o crc (fun _ => True) _ _ p st (fun _ _ _ _ _ _ _ _ _ => trivial) trivial (fun st _ out => ?_) out
    rw [List.cons_append, List.cons_append, List.nil_append, List.nil_append, runLog, runLog,
      seen_code .rotate rfl hx]
    dsimp only
    have ho : ∀ h, onEvent ft o st ⟨.rotate, h, x.payload⟩
        = if o.untilNow then ([], .go { st with tbls := [], skip := [] }) else ([], .stop) := fun _ => rfl
    rw [ho]
    by_cases hnow : o.untilNow = true
    · rw [if_pos hnow]
      dsimp only
      rw [good_cons, good_cons]
      constructor
      · rintro ⟨g1, rest, g2, g3⟩; exact ⟨g1, rest, g2, (inner _ (fresh _ rfl) rest).1 g3⟩
      · rintro ⟨g1, rest, g2, g3⟩; exact ⟨g1, rest, g2, (inner _ (fresh _ rfl) rest).2 g3⟩
    · rw [if_neg hnow]

theorem regrouped_run (ft : FloatText) (o : DmlOpts) (h0 : o.limit = 0) (crc : Bool) (st : DmlState) (hst : st.tbls = [])
    (log log' : List LogEvent) (h : Spec.Regrouped log log') (out : List DmlLine) :
    Good (runLog ft o crc st log) out ↔ Good (runLog ft o crc st log') out := by
  induction h with
  | rel a b h => exact splits_run ft o h0 crc st hst a b h out
  | refl a => exact Iff.rfl
  | symm a b _ ih => exact ih.symm
  | trans a b c _ _ ih1 ih2 => exact ih1.trans ih2

/-- C107: two logs with the same row changes in the same order, however grouped into events, which the master sends in
two streams: when reading the first to its end gives no error and no note about a missing key, then the program prints
the same lines for both and ends without an error, with every limit. Missing from the full claim: updates of tables
without a key (`C107_note_false`) and logs with a row that cannot be written (`C107_broken_false`). -/
theorem C107_grouping_partial (ft : FloatText) (o : DmlOpts) (hb : o.nonBlock = true)
    (hf : o.filename.length < 10 ^ 9 ∧ validUtf8 o.filename = true) (uuid uuid' : Bytes) (hu : uuid.length = 36)
    (hu' : uuid'.length = 36) (random random' : Nat) (hr : random < 2 ^ 32) (hr' : random' < 2 ^ 32)
    (conn conn' helper : Conn) (crc : Bool) (opening opening' : List Bytes)
    (hopen : Spec.OpensStream conn.caps crc opening) (hopen' : Spec.OpensStream conn'.caps crc opening')
    (log log' : List LogEvent) (hin : ∀ e ∈ log, e.InRange) (hin' : ∀ e ∈ log', e.InRange) (eof eof' rest rest' : Bytes)
    (hd : Spec.Delivers conn.inp (opening ++ (log.map (Spec.streamMessage crc) ++ [0xfe :: eof])) rest)
    (hd' : Spec.Delivers conn'.inp (opening' ++ (log'.map (Spec.streamMessage crc) ++ [0xfe :: eof'])) rest')
    (hg : Spec.Regrouped log log')
    (hdone : (printDmls ft { o with limit := 0 } uuid random conn helper).2 = .done)
    (hnotes : ∀ db tbl pos, DmlLine.note db tbl pos ∉ (printDmls ft { o with limit := 0 } uuid random conn helper).1) :
    printDmls ft o uuid' random' conn' helper = printDmls ft o uuid random conn helper ∧
      (printDmls ft o uuid' random' conn' helper).2 = .done := by
  have e1 := printDmls_runLog ft { o with limit := 0 } hb hf uuid hu random hr conn helper crc opening hopen log hin eof rest hd
  have e2 := printDmls_runLog ft { o with limit := 0 } hb hf uuid' hu' random' hr' conn' helper crc opening' hopen' log' hin'
    eof' rest' hd'
  have g1 : Good (runLog ft { o with limit := 0 } crc ⟨[], [], 0, helper⟩ log)
      (printDmls ft { o with limit := 0 } uuid random conn helper).1 := by
    refine ⟨?_, hnotes⟩
    rw [← e1, ← hdone]
  have g2 := (regrouped_run ft { o with limit := 0 } rfl crc ⟨[], [], 0, helper⟩ rfl log log' hg _).1 g1
  rw [← e1] at g1
  rw [← e2] at g2
  have c1 := printDmls_cut ft o uuid random conn helper _ g1.1
  have c2 := printDmls_cut ft o uuid' random' conn' helper _ g2.1
  rw [c1, c2]
  exact ⟨rfl, rfl⟩

/-- the log of C43 (and `example_run`, which ends without an error and prints no note), with one row per event -/
def exampleRegrouped : List LogEvent :=
  [⟨1, 19, 7, 100, 0, Spec.le 6 5 ++ Spec.le 2 1 ++ exampleTable.encode⟩,
   ⟨1, 30, 7, 150, 0, Spec.rowsHead 5 0 [] ++ Spec.rowsPayload [.longLong] [] [1] [exampleImage 3]⟩,
   ⟨1, 30, 7, 200, 0, Spec.rowsHead 5 1 [] ++ Spec.rowsPayload [.longLong] [] [1] [exampleImage 4]⟩,
   ⟨1, 4, 7, 300, 0, Spec.le 8 4 ++ Spec.ascii "f2"⟩,
   ⟨1, 32, 7, 400, 0, Spec.rowsHead 5 1 [] ++ Spec.rowsPayload [.longLong] [] [1] [exampleImage 3]⟩]

theorem example_readable : TableReadable exampleTable := by
  refine ⟨⟨by decide, by decide⟩, ⟨by decide, by decide, by decide⟩, by decide +kernel, by decide, ?_, [.longLong], rfl⟩
  intro k hk
  have hk : k ∈ [ColKind.longLong] := hk
  simp only [List.mem_singleton] at hk
  subst hk
  trivial

theorem example_regrouped (ft : FloatText) : Spec.Regrouped (exampleLog.map (·.1)) exampleRegrouped := by
  refine .rel _ _ ⟨5, [.longLong], [], [⟨1, 19, 7, 100, 0, Spec.le 6 5 ++ Spec.le 2 1 ++ exampleTable.encode⟩],
    [⟨1, 4, 7, 300, 0, Spec.le 8 4 ++ Spec.ascii "f2"⟩,
      ⟨1, 32, 7, 400, 0, Spec.rowsHead 5 1 [] ++ Spec.rowsPayload [.longLong] [] [1] [exampleImage 3]⟩],
    ⟨1, 30, 7, 200, 0, Spec.rowsHead 5 1 [] ++ Spec.rowsPayload [.longLong] [] [1] [exampleImage 3, exampleImage 4]⟩,
    ⟨1, 30, 7, 150, 0, Spec.rowsHead 5 0 [] ++ Spec.rowsPayload [.longLong] [] [1] [exampleImage 3]⟩,
    ⟨1, 30, 7, 200, 0, Spec.rowsHead 5 1 [] ++ Spec.rowsPayload [.longLong] [] [1] [exampleImage 4]⟩,
    by norm_num, Or.inl rfl, ?_, ?_, rfl, rfl⟩
  · intro x hx _
    rw [List.mem_singleton] at hx
    subst hx
    exact ⟨5, exampleTable, ⟨rfl, by norm_num, 1, by norm_num, rfl⟩, fun _ => ⟨example_readable, rfl⟩⟩
  · refine .changed 30 [1] [true] [exampleImage 3] [exampleImage 4] (Or.inl rfl) (covers_of _ _ rfl (by decide)) rfl (by simp) ?_
      ⟨rfl, 1, by norm_num, [], by norm_num, rfl⟩ ⟨rfl, 0, by norm_num, [], by norm_num, rfl⟩
      ⟨rfl, 1, by norm_num, [], by norm_num, rfl⟩
    intro r hr
    simp only [List.cons_append, List.nil_append, List.mem_cons, List.not_mem_nil, or_false] at hr
    rcases hr with rfl | rfl
    · exact (example_image ft 3 (by norm_num)).1
    · exact (example_image ft 4 (by norm_num)).1

/-! ### where grouping matters -/

/-- C107 fails for updates of tables without a key: there is one note for each event, with the position after it, however
many rows the event has. So one event gives one note, and the same rows in two events two other ones. -/
theorem C107_note_false (ft : FloatText) (o : DmlOpts) (h0 : o.limit = 0) (crc : Bool) (id : Nat) (hid : id < 2 ^ 48)
    (ks : List ColKind) (bb ab : List UInt8) (before after : List Bool) (a b : List (Image × Image))
    (hb : Covers bb before) (hbl : before.length = ks.length) (ha : Covers ab after) (hal : after.length = ks.length)
    (hone : true ∈ before) (hr : ∀ r ∈ a ++ b, ImageReadable ks before r.1 ∧ ImageReadable ks after r.2)
    (e e1 e2 : LogEvent) (h : Spec.UpdatesOf id ks bb ab (a ++ b) e) (h1 : Spec.UpdatesOf id ks bb ab a e1)
    (h2 : Spec.UpdatesOf id ks bb ab b e2) (st : DmlState) (tm : TableMeta) (hskip : id ∉ st.skip)
    (htm : st.tbls.lookup id = some tm) (hu : Uses id ks st) (hkey : keyExists tm.colDefs = false) :
    runLog ft o crc st [e] = ([.note tm.db tm.tbl e.nextPos], .done) ∧
    runLog ft o crc st [e1, e2] = ([.note tm.db tm.tbl e1.nextPos, .note tm.db tm.tbl e2.nextPos], .done) := by
  obtain ⟨u1, u2, u3⟩ := hu tm htm
  obtain ⟨dec, hdec⟩ := updates_uniform ks tm.colMetas bb ab before after (a ++ b) u2 u1 u3 hb hbl ha hal hone hr
  have one : ∀ (rows : List (Image × Image)) (e : LogEvent) (more : List LogEvent), (∀ r ∈ rows, r ∈ a ++ b) →
      Spec.UpdatesOf id ks bb ab rows e →
      runLog ft o crc st (e :: more)
        = (.note tm.db tm.tbl e.nextPos :: (runLog ft o crc st more).1, (runLog ft o crc st more).2) := by
    rintro rows e more hsub ⟨c, f, hf, x, hx, hpay⟩
    have hd : RowsDataV2.readFrom e.payload = .ok ⟨id, f, x.length + 2, Spec.updatePayload ks x bb ab rows⟩ [] := by
      rw [hpay]
      unfold Spec.rowsHead
      simp only [List.append_assoc]
      exact C35_data id f (x.length + 2) _ hid hf hx
    rw [runLog, seen_code .updateRowsV2 rfl c]
    dsimp only
    have ho : ∀ h, onEvent ft o st ⟨.updateRowsV2, h, e.payload⟩ = onRows 0 (updateLines ft h.nextPos) st e.payload :=
      fun h => by rw [← h0]; rfl
    rw [ho, onRows_free _ _ _ _ _ hd]
    dsimp only
    rw [if_neg hskip, htm]
    dsimp only
    unfold updateLines
    dsimp only
    rw [hdec rows hsub x hx]
    dsimp only
    rw [if_neg (by simp [hkey])]
    rfl
  rw [one _ e [] (fun r h => h) h, one a e1 [e2] (fun r h => List.mem_append_left _ h) h1,
    one b e2 [] (fun r h => List.mem_append_right _ h) h2]
  exact ⟨rfl, rfl⟩

/-- an update of a table with one INT column that is no key -/
example : keyExists [exampleCol "a" 0] = false ∧ true ∈ [true] ∧
    ImageReadable [.longLong] [true] (exampleImage 3) := ⟨by decide, by simp, (example_image ⟨fun _ => [], fun _ => []⟩ 3 (by norm_num)).1⟩

/-- a row with a date -/
def dateImage (y m d : Nat) : Image := ⟨[.value (.date y m d)], [0]⟩

/-- C107 fails when a row cannot be written, such as one with the date 0000-00-00, at which the program panics (see C42):
in one event with others, these are lost as well; in an event of its own, those before it are printed first. -/
theorem C107_broken_false (ft : FloatText) (o : DmlOpts) (h0 : o.limit = 0) (crc : Bool) (helper : Conn) :
    let st : DmlState := ⟨[(5, ⟨asc "d", asc "t", [.date], [exampleCol "a" 0]⟩)], [], 0, helper⟩
    let event := fun rows : List Image =>
      (⟨1, 30, 7, 200, 0, Spec.rowsHead 5 1 [] ++ Spec.rowsPayload [.date] [] [1] rows⟩ : LogEvent)
    Spec.InTwo 5 [.date] (event [dateImage 2024 2 29, dateImage 0 0 0]) (event [dateImage 2024 2 29]) (event [dateImage 0 0 0]) ∧
    runLog ft o crc st [event [dateImage 2024 2 29, dateImage 0 0 0]] = ([], .panic) ∧
    runLog ft o crc st [event [dateImage 2024 2 29], event [dateImage 0 0 0]]
      = ([.stmt (Spec.ascii "INSERT INTO `d`.`t` (`a`) VALUES ('2024-02-29')")], .panic) := by
  intro st event
  have hd : ∀ rows, RowsDataV2.readFrom (event rows).payload = .ok ⟨5, 1, 2, Spec.rowsPayload [.date] [] [1] rows⟩ [] := by
    intro rows
    show RowsDataV2.readFrom (Spec.rowsHead 5 1 [] ++ Spec.rowsPayload [.date] [] [1] rows) = _
    unfold Spec.rowsHead
    simp only [List.append_assoc]
    exact C35_data 5 1 2 _ (by norm_num) (by norm_num) (by norm_num)
  have step1 : ∀ (rows : List Image) (n : Nat), onEvent ft o { st with nRows := n }
      ⟨.writeRowsV2, ⟨1, .writeRowsV2, 7, (event rows).len crc, 200, 0⟩, (event rows).payload⟩
      = match rowLines ft PreparedSql.fromInsert ⟨asc "d", asc "t", [.date], [exampleCol "a" 0]⟩
          ⟨5, 1, 2, Spec.rowsPayload [.date] [] [1] rows⟩ with
        | .ok ls _ => (ls, .go { st with nRows := n + statements ls })
        | .err e _ => ([], .err e)
        | .panic => ([], .panic)
        | .hang => ([], .hang) := by
    intro rows n
    have ho : onEvent ft o { st with nRows := n }
        ⟨.writeRowsV2, ⟨1, .writeRowsV2, 7, (event rows).len crc, 200, 0⟩, (event rows).payload⟩
        = onRows 0 (rowLines ft PreparedSql.fromInsert) { st with nRows := n } (event rows).payload := by rw [← h0]; rfl
    rw [ho, onRows_free _ _ _ _ _ (hd rows)]
    rfl
  have r1 : RowsV2.readFrom 2 [.date] (Spec.rowsPayload [.date] [] [1] [dateImage 2024 2 29, dateImage 0 0 0])
      = .ok ⟨[], 1, [1], [[.date 2024 2 29], [.date 0 0 0]]⟩ [] := by decide +kernel
  have r2 : RowsV2.readFrom 2 [.date] (Spec.rowsPayload [.date] [] [1] [dateImage 2024 2 29])
      = .ok ⟨[], 1, [1], [[.date 2024 2 29]]⟩ [] := by decide +kernel
  have r3 : RowsV2.readFrom 2 [.date] (Spec.rowsPayload [.date] [] [1] [dateImage 0 0 0])
      = .ok ⟨[], 1, [1], [[.date 0 0 0]]⟩ [] := by decide +kernel
  have p1 : PreparedSql.fromInsert (asc "d") (asc "t") ⟨[], 1, [1], [[.date 2024 2 29], [.date 0 0 0]]⟩ [exampleCol "a" 0]
      = none := by decide +kernel
  have p2 : PreparedSql.fromInsert (asc "d") (asc "t") ⟨[], 1, [1], [[.date 2024 2 29]]⟩ [exampleCol "a" 0]
      = some ⟨asc "d", [asc "INSERT INTO `d`.`t` (`a`) VALUES (", asc "?", asc ")"],
        [[.newDate ⟨2024, 2, 29, 0, 0, 0, 0⟩]]⟩ := by decide +kernel
  have p3 : PreparedSql.fromInsert (asc "d") (asc "t") ⟨[], 1, [1], [[.date 0 0 0]]⟩ [exampleCol "a" 0] = none := by
    decide +kernel
  have l1 : rowLines ft PreparedSql.fromInsert ⟨asc "d", asc "t", [.date], [exampleCol "a" 0]⟩
      ⟨5, 1, 2, Spec.rowsPayload [.date] [] [1] [dateImage 2024 2 29, dateImage 0 0 0]⟩ = .panic := by
    unfold rowLines; dsimp only; rw [r1]; dsimp only; rw [p1]; rfl
  have l2 : rowLines ft PreparedSql.fromInsert ⟨asc "d", asc "t", [.date], [exampleCol "a" 0]⟩
      ⟨5, 1, 2, Spec.rowsPayload [.date] [] [1] [dateImage 2024 2 29]⟩
      = .ok [.stmt (Spec.ascii "INSERT INTO `d`.`t` (`a`) VALUES ('2024-02-29')")] [] := by
    unfold rowLines; dsimp only; rw [r2]; dsimp only; rw [p2]; rfl
  have l3 : rowLines ft PreparedSql.fromInsert ⟨asc "d", asc "t", [.date], [exampleCol "a" 0]⟩
      ⟨5, 1, 2, Spec.rowsPayload [.date] [] [1] [dateImage 0 0 0]⟩ = .panic := by
    unfold rowLines; dsimp only; rw [r3]; dsimp only; rw [p3]; rfl
  refine ⟨?_, ?_, ?_⟩
  · refine .changed 30 [1] [true] [dateImage 2024 2 29] [dateImage 0 0 0] (Or.inl rfl) (covers_of _ _ rfl (by decide)) rfl
      (by simp) ?_ ⟨rfl, 1, by norm_num, [], by norm_num, rfl⟩ ⟨rfl, 1, by norm_num, [], by norm_num, rfl⟩
      ⟨rfl, 1, by norm_num, [], by norm_num, rfl⟩
    intro r hr
    simp only [List.cons_append, List.nil_append, List.mem_cons, List.not_mem_nil, or_false] at hr
    rcases hr with rfl | rfl
    · exact ⟨⟨⟨by norm_num [Spec.Fits], trivial⟩, rfl, covers_of [0] [false] rfl (by decide)⟩, trivial, trivial⟩
    · exact ⟨⟨⟨by norm_num [Spec.Fits], trivial⟩, rfl, covers_of [0] [false] rfl (by decide)⟩, trivial, trivial⟩
  · rw [runLog, seen_code .writeRowsV2 rfl rfl]
    dsimp only
    have := step1 [dateImage 2024 2 29, dateImage 0 0 0] 0
    rw [l1] at this
    rw [show onEvent ft o st _ = _ from this]
  · rw [runLog, seen_code .writeRowsV2 rfl rfl]
    dsimp only
    have h1 := step1 [dateImage 2024 2 29] 0
    rw [l2] at h1
    rw [show onEvent ft o st _ = _ from h1]
    dsimp only
    rw [runLog, seen_code .writeRowsV2 rfl rfl]
    dsimp only
    have h2 := step1 [dateImage 0 0 0]
      (0 + statements [.stmt (Spec.ascii "INSERT INTO `d`.`t` (`a`) VALUES ('2024-02-29')")])
    rw [l3] at h2
    rw [show onEvent ft o _ _ = _ from h2]
    rfl

end Mybin
