/-
C101: room is asked for only for what has arrived.
-/
import Verif.Model.Reserve
import Verif.Props.C36_rows
import Verif.Props.C43
import Verif.Props.C75_C77
import Verif.Props.C78

namespace Mybin

/-! ### The readers with their sizes are the readers -/

/-- `q` reads what `p` reads -/
def Same {α : Type} (q : Q α) (p : P α) : Prop := ∀ bs, (q bs).1 = p bs

namespace Same
variable {α β : Type}

theorem of (p : P α) : Same (Q.of p) p := fun _ => rfl
theorem pure (a : α) : Same (pure a : Q α) (pure a : P α) := fun _ => rfl
theorem capacity (n sz : Nat) : Same (Q.capacity n sz) (withCapacity n sz) := fun _ => rfl

theorem bind {q : Q α} {p : P α} {f : α → Q β} {g : α → P β} (h : Same q p) (hf : ∀ a, Same (f a) (g a)) :
    Same (q >>= f) (p >>= g) := by
  intro bs
  have h := h bs
  show (Q.next (q bs) f).1 = (p bs).bind g
  rw [← h]
  obtain ⟨o, l⟩ := q bs
  cases o with
  | ok a r => exact hf a r
  | _ => rfl

theorem times {q : Q α} {p : P α} (h : Same q p) : ∀ n, Same (Q.times q n) (P.times p n)
  | 0 => pure []
  | n + 1 => bind h fun _ => bind (times h n) fun _ => pure _

theorem onSub {q : Q α} {p : P α} (sub : Bytes) (h : Same q p) : Same (Q.onSub sub q) (P.onSub sub p) := by
  intro bs
  unfold Q.onSub P.onSub
  rw [← h sub]
  obtain ⟨o, l⟩ := q sub
  cases o <;> rfl

theorem whileRemaining {q : Q α} {p : P α} (h : Same q p) (bs : Bytes) :
    (Q.whileRemaining q bs).1 = P.whileRemaining p bs := by
  rw [Q.whileRemaining.eq_def, P.whileRemaining.eq_def]
  by_cases h0 : bs = []
  · rw [if_pos h0, if_pos h0]
  rw [if_neg h0, if_neg h0, ← h bs]
  obtain ⟨o, l⟩ := q bs
  cases o with
  | ok a r =>
    dsimp only
    by_cases hr : r.length < bs.length
    · rw [dif_pos hr, dif_pos hr, ← whileRemaining h r]
      obtain ⟨o', l'⟩ := Q.whileRemaining q r
      cases o' <;> rfl
    · rw [dif_neg hr, dif_neg hr]
  | _ => rfl
termination_by bs.length

end Same

theorem same_gtidRange : Same GtidRange.reserving GtidRange.readFrom :=
  .bind (.of _) fun _ => .bind (.of _) fun _ => .bind (.capacity _ _) fun _ => .bind (.of _) fun _ => .pure _

theorem same_gtidRanges : ∀ n m, Same (readGtidRanges.reserving n m) (readGtidRanges n m)
  | 0, _ => .pure _
  | n + 1, _ => .bind same_gtidRange fun _ => same_gtidRanges n _

theorem same_sidRange : Same SidRange.reserving SidRange.readFrom :=
  .bind (.of _) fun _ => .bind (.of _) fun _ => .bind (.capacity _ _) fun _ => .bind (.of _) fun _ => .pure _

theorem same_columnMetas (n : Nat) (ds : Bytes) : Same (ColumnMetas.reserving n ds) (ColumnMetas.readFrom n ds) := by
  refine .bind (.capacity _ _) fun _ => ?_
  by_cases h : n ≤ ds.length
  · rw [if_pos h, if_pos h]; exact .of _
  · rw [if_neg h, if_neg h]; exact .bind (.of _) fun _ => .of _

theorem same_image (n k : Nat) (bm : Bytes) (ms : List ColumnMeta) :
    Same (readImage.reserving n k bm ms) (readImage n k bm ms) := by
  refine .bind (.of _) fun nb => ?_
  cases markNulls nb k 0 0 bm with
  | none => exact .of _
  | some colBm => exact .bind (.capacity _ _) fun _ => .of _

theorem same_binaryRow (cts : List ColumnType) : Same (BinaryRow.reserving cts) (BinaryRow.readFrom cts) :=
  .bind (.of _) fun _ => .bind (.of _) fun _ _ => rfl

/-- The readers with their sizes read what the readers read. -/
theorem C101_same (bs : Bytes) (extraLen n : Nat) (ms : List ColumnMeta) (cts : List ColumnType) :
    (GtidSet.reserving bs).1 = GtidSet.readFrom bs ∧
    (SidData.reserving bs).1 = SidData.readFrom bs ∧
    (TableMapData.reserving bs).1 = TableMapData.tableMap bs ∧
    (RowsV2.reserving extraLen ms bs).1 = RowsV2.readFrom extraLen ms bs ∧
    (UpdateRowsV2.reserving extraLen ms bs).1 = UpdateRowsV2.readFrom extraLen ms bs ∧
    (TextRow.reserving n bs).1 = TextRow.readFrom n bs ∧
    (BinaryRow.reserving cts bs).1 = BinaryRow.readFrom cts bs := by
  refine ⟨?_, ?_, ?_, ?_, ?_, ?_, same_binaryRow cts bs⟩
  · exact Same.bind (.of _) (fun _ => .bind (.capacity _ _) fun _ => same_gtidRanges _ _) bs
  · exact Same.bind (.of _) (fun _ => .bind (.capacity _ _) fun _ => .times same_sidRange _) bs
  · exact Same.bind (.of _) (fun _ => .bind (.of _) fun _ => .bind (.of _) fun _ =>
      .bind (.onSub _ (same_columnMetas _ _)) fun _ => .pure _) bs
  · exact Same.bind (.of _) (fun _ => .bind (.of _) fun _ =>
      .bind (fun bs => Same.whileRemaining (same_image _ _ _ _) bs) fun _ => .pure _) bs
  · exact Same.bind (.of _) (fun _ => .bind (.of _) fun _ => .bind (.of _) fun _ =>
      .bind (fun bs => Same.whileRemaining (q := readUpdateRow.reserving _ _ _ _) (p := readUpdateRow _ _ _ _)
        (.bind (same_image _ _ _ _) fun _ => .bind (same_image _ _ _ _) fun _ => .pure _) bs) fun _ => .pure _) bs
  · exact Same.bind (.capacity _ _) (fun _ => .of _) bs

/-! ### Bounds -/

/-- `q` never asks for more than `k` elements -/
def AtMost {α : Type} (k : Nat) (q : Q α) : Prop := ∀ bs, ∀ n ∈ (q bs).2, n ≤ k

namespace AtMost
variable {α β : Type} {k : Nat}

theorem of (p : P α) : AtMost k (Q.of p) := by intro bs n h; cases h
theorem pure (a : α) : AtMost k (pure a : Q α) := by intro bs n h; cases h
theorem capacity {n : Nat} (sz : Nat) (h : n ≤ k) : AtMost k (Q.capacity n sz) := by
  intro bs m hm
  unfold Q.capacity at hm
  dsimp only at hm
  split at hm
  · rw [List.mem_singleton] at hm; omega
  · cases hm

theorem bind {q : Q α} {f : α → Q β} (h : AtMost k q) (hf : ∀ a, AtMost k (f a)) : AtMost k (q >>= f) := by
  intro bs n hn
  change n ∈ (Q.next (q bs) f).2 at hn
  have h := h bs n
  generalize q bs = x at h hn
  obtain ⟨o, l⟩ := x
  cases o with
  | ok a r =>
    change n ∈ l ++ (f a r).2 at hn
    rcases List.mem_append.1 hn with hn | hn
    · exact h hn
    · exact hf a r n hn
  | _ => exact h hn

theorem onSub {q : Q α} (sub : Bytes) (h : AtMost k q) : AtMost k (Q.onSub sub q) := by
  intro bs n hn
  have h := h sub n
  unfold Q.onSub at hn
  generalize q sub = x at h hn
  obtain ⟨o, l⟩ := x
  cases o <;> exact h hn

theorem whileRemaining {q : Q α} (h : AtMost k q) (bs : Bytes) : ∀ n ∈ (Q.whileRemaining q bs).2, n ≤ k := by
  intro n hn
  rw [Q.whileRemaining.eq_def] at hn
  by_cases h0 : bs = []
  · rw [if_pos h0] at hn; cases hn
  rw [if_neg h0] at hn
  have h1 := h bs n
  generalize q bs = x at h1 hn
  obtain ⟨o, l⟩ := x
  cases o with
  | ok a r =>
    dsimp only at hn
    by_cases hr : r.length < bs.length
    · rw [dif_pos hr] at hn
      have h2 := whileRemaining h r n
      generalize Q.whileRemaining q r = y at h2 hn
      obtain ⟨o', l'⟩ := y
      have : n ∈ l ++ l' := by cases o' <;> exact hn
      rcases List.mem_append.1 this with hn | hn
      · exact h1 hn
      · exact h2 hn
    · rw [dif_neg hr] at hn; exact h1 hn
  | _ => exact h1 hn
termination_by bs.length

end AtMost

/-- what is asked for after a first step that asks for nothing -/
theorem asked_after {α β : Type} {p : P α} {f : α → Q β} {bs : Bytes} {n : Nat} (h : n ∈ ((Q.of p >>= f) bs).2) :
    ∃ a r, p bs = .ok a r ∧ n ∈ (f a r).2 := by
  change n ∈ (Q.next (p bs, []) f).2 at h
  generalize p bs = x at h
  cases x with
  | ok a r => exact ⟨a, r, rfl, h⟩
  | _ => cases h

theorem image_atMost (n k : Nat) (bm : Bytes) (ms : List ColumnMeta) : AtMost n (readImage.reserving n k bm ms) := by
  refine .bind (.of _) fun nb => ?_
  cases markNulls nb k 0 0 bm with
  | none => exact .of _
  | some colBm => exact .bind (.capacity _ (Nat.le_refl _)) fun _ => .of _

theorem rowsHeader_shorter {extraLen : Nat} {bs r : Bytes} {x : Bytes × Nat} (h : readRowsHeader extraLen bs = .ok x r) :
    r.length ≤ bs.length := by
  unfold readRowsHeader at h
  split at h
  · cases h
  · obtain ⟨_, r1, h1, h⟩ := P.bind_eq_ok.1 h
    obtain ⟨_, r2, h2, h⟩ := P.bind_eq_ok.1 h
    obtain ⟨_, r3, h3, h⟩ := P.bind_eq_ok.1 h
    have e1 := (Well.len (extraLen - 2)) bs
    rw [h1] at e1
    have e2 := Well.lenEncInt r1
    rw [h2] at e2
    have e3 := P.orErr_eq_ok.1 h3
    have l1 := e1.length_le
    have l2 := e2.length_le
    split at h
    · have := (P.pure_eq_ok.1 h).2
      rw [← this, ← e3.2]
      omega
    · cases h

theorem readLen_needs {k : Nat} {bs r x : Bytes} (h : readLen k bs = .ok x r) : k ≤ bs.length := by
  obtain ⟨h1, h2⟩ := readLen_eq_ok.1 h
  subst h1
  rw [h2, List.length_append]
  omega

theorem Well.shorter {α : Type} {p : P α} {bs r : Bytes} {a : α} (w : Well p) (h : p bs = .ok a r) :
    r.length ≤ bs.length := by
  have e := w bs
  rw [h] at e
  exact e.length_le

theorem rawTableMap_needs {bs r : Bytes} {raw : RawTableMap} (h : RawTableMap.readFrom bs = .ok raw r) :
    raw.colCnt ≤ bs.length := by
  unfold RawTableMap.readFrom at h
  obtain ⟨_, r1, h1, h⟩ := P.bind_eq_ok.1 h
  obtain ⟨_, r2, h2, h⟩ := P.bind_eq_ok.1 h
  obtain ⟨_, r3, h3, h⟩ := P.bind_eq_ok.1 h
  obtain ⟨_, r4, h4, h⟩ := P.bind_eq_ok.1 h
  obtain ⟨_, r5, h5, h⟩ := P.bind_eq_ok.1 h
  obtain ⟨_, r6, h6, h⟩ := P.bind_eq_ok.1 h
  obtain ⟨_, r7, h7, h⟩ := P.bind_eq_ok.1 h
  obtain ⟨cnt, r8, h8, h⟩ := P.bind_eq_ok.1 h
  obtain ⟨_, r9, h9, h⟩ := P.bind_eq_ok.1 h
  obtain ⟨_, r10, h10, h⟩ := P.bind_eq_ok.1 h
  obtain ⟨_, r11, h11, h⟩ := P.bind_eq_ok.1 h
  obtain ⟨_, r12, h12, h⟩ := P.bind_eq_ok.1 h
  obtain ⟨_, r13, h13, h⟩ := P.bind_eq_ok.1 h
  obtain ⟨rfl, -⟩ := P.pure_eq_ok.1 h
  have := Well.shorter (.u8) h1
  have := Well.shorter (.len _) h2
  have := Well.shorter (.len _) h3
  have := Well.shorter (.u8) h4
  have := Well.shorter (.len _) h5
  have := Well.shorter (.len _) h6
  have := Well.shorter (.lenEncInt) h7
  have e8 := (P.orErr_eq_ok.1 h8).2
  have e9 := readLen_needs h9
  show cnt ≤ bs.length
  rw [← e8] at e9
  omega

/-- Table maps ask for no more than there are bytes, rows events for no more than eight times as many: the number of columns
is taken from the event, but the bitmaps, which have a bit for each column, are read first. -/
theorem C101_log_partial (payload : Bytes) (extraLen : Nat) (ms : List ColumnMeta) :
    (∀ n ∈ (TableMapData.reserving payload).2, n ≤ payload.length) ∧
    (∀ n ∈ (RowsV2.reserving extraLen ms payload).2, n ≤ 8 * payload.length) ∧
    (∀ n ∈ (UpdateRowsV2.reserving extraLen ms payload).2, n ≤ 8 * payload.length) := by
  refine ⟨?_, ?_, ?_⟩
  · intro n hn
    obtain ⟨raw, r, hr, hn⟩ := asked_after hn
    have hc := rawTableMap_needs hr
    exact AtMost.bind (.of _) (fun _ => .bind (.of _) fun _ => .bind (.onSub _ (.bind (.capacity _ hc) fun _ => by
      by_cases h : raw.colCnt ≤ raw.colDefs.length
      · rw [if_pos h]; exact .of _
      · rw [if_neg h]; exact .bind (.of _) fun _ => .of _)) fun _ => .pure _) r n hn
  · intro n hn
    obtain ⟨⟨extra, nCols⟩, r, hr, hn⟩ := asked_after hn
    obtain ⟨bm, r', hr', hn⟩ := asked_after hn
    have h1 := rowsHeader_shorter hr
    have h2 := readLen_needs hr'
    rw [Nat.shiftRight_eq_div_pow] at h2
    have := AtMost.bind (k := nCols) (fun bs => AtMost.whileRemaining (image_atMost _ _ _ _) bs) (fun _ => .pure _) r' n hn
    omega
  · intro n hn
    obtain ⟨⟨extra, nCols⟩, r, hr, hn⟩ := asked_after hn
    obtain ⟨bm, r', hr', hn⟩ := asked_after hn
    obtain ⟨bm2, r2, hr2, hn⟩ := asked_after hn
    have h1 := rowsHeader_shorter hr
    have h2 := readLen_needs hr'
    rw [Nat.shiftRight_eq_div_pow] at h2
    have := AtMost.bind (k := nCols) (fun bs => AtMost.whileRemaining
      (.bind (image_atMost _ _ _ _) fun _ => .bind (image_atMost _ _ _ _) fun _ => .pure _) bs) (fun _ => .pure _) r2 n hn
    omega

/-! ### How many requests -/

/-- `q` asks at most `m` times -/
def Asks {α : Type} (m : Nat) (q : Q α) : Prop := ∀ bs, (q bs).2.length ≤ m

namespace Asks
variable {α β : Type} {m m' : Nat}

theorem pure (a : α) : Asks 0 (pure a : Q α) := fun _ => Nat.le_refl _
theorem of (p : P α) : Asks m (Q.of p) := fun _ => Nat.zero_le _
theorem capacity (n sz : Nat) : Asks 1 (Q.capacity n sz) := by
  intro bs
  show (if n * sz < 2 ^ 63 then [n] else []).length ≤ 1
  split <;> simp

theorem bind {q : Q α} {f : α → Q β} (h : Asks m q) (h' : ∀ a, Asks m' (f a)) : Asks (m + m') (q >>= f) := by
  intro bs
  show (Q.next (q bs) f).2.length ≤ _
  have h := h bs
  generalize q bs = x at h
  obtain ⟨o, l⟩ := x
  cases o with
  | ok a r =>
    show (l ++ (f a r).2).length ≤ _
    have := h' a r
    rw [List.length_append]
    dsimp only at h
    omega
  | _ => exact Nat.le_trans h (Nat.le_add_right _ _)

theorem whileRemaining {q : Q α} (h : Asks m q) (bs : Bytes) : (Q.whileRemaining q bs).2.length ≤ m * bs.length := by
  rw [Q.whileRemaining.eq_def]
  by_cases hb : bs = []
  · rw [if_pos hb]; exact Nat.zero_le _
  rw [if_neg hb]
  have h1 := h bs
  have hpos : 0 < bs.length := List.length_pos_iff.2 hb
  have hm : m ≤ m * bs.length := Nat.le_mul_of_pos_right _ hpos
  generalize q bs = x at h1
  obtain ⟨o, l⟩ := x
  dsimp only at h1
  cases o with
  | ok a r =>
    dsimp only
    by_cases hr : r.length < bs.length
    · rw [dif_pos hr]
      have h2 := whileRemaining h r
      generalize Q.whileRemaining q r = y at h2
      obtain ⟨o', l'⟩ := y
      dsimp only at h2
      have h3 : m * (r.length + 1) ≤ m * bs.length := Nat.mul_le_mul_left _ hr
      have : (l ++ l').length ≤ m * bs.length := by rw [List.length_append]; rw [Nat.mul_succ] at h3; omega
      cases o' <;> exact this
    · rw [dif_neg hr]; exact Nat.le_trans h1 hm
  | _ => exact Nat.le_trans h1 hm
termination_by bs.length

end Asks

theorem image_asks (n k : Nat) (bm : Bytes) (ms : List ColumnMeta) : Asks 1 (readImage.reserving n k bm ms) := by
  have : Asks (0 + 1) (readImage.reserving n k bm ms) := by
    refine .bind (.of _) fun nb => ?_
    cases markNulls nb k 0 0 bm with
    | none => exact .of _
    | some colBm => exact .bind (m := 1) (m' := 0) (.capacity _ _) fun _ => .of _
  exact this

theorem sum_le_mul (l : List Nat) (k : Nat) (h : ∀ n ∈ l, n ≤ k) : l.sum ≤ l.length * k := by
  induction l with
  | nil => simp
  | cons a t ih =>
    have h1 := h a (by simp)
    have h2 := ih fun n hn => h n (by simp [hn])
    rw [List.sum_cons, List.length_cons, Nat.succ_mul]
    omega

/-- All the rows of an event together ask for no more than the square of its length: one request a row, and no row takes
less than a byte. `C101_rows_false` shows that it can be that much. -/
theorem C101_total_partial (payload : Bytes) (extraLen : Nat) (ms : List ColumnMeta) :
    (RowsV2.reserving extraLen ms payload).2.sum ≤ 8 * payload.length ^ 2 ∧
    (UpdateRowsV2.reserving extraLen ms payload).2.sum ≤ 16 * payload.length ^ 2 := by
  obtain ⟨-, b1, b2⟩ := C101_log_partial payload extraLen ms
  constructor
  · have hl : (RowsV2.reserving extraLen ms payload).2.length ≤ payload.length := by
      show (Q.next (readRowsHeader extraLen payload, []) _).2.length ≤ _
      cases hr : readRowsHeader extraLen payload with
      | ok x r =>
        obtain ⟨extra, nCols⟩ := x
        have h1 := rowsHeader_shorter hr
        show (Q.next (readLen ((nCols + 7) >>> 3) r, []) _).2.length ≤ _
        cases hr' : readLen ((nCols + 7) >>> 3) r with
        | ok bm r' =>
          have h2 := Well.shorter (.len _) hr'
          show (Q.next (Q.whileRemaining _ r') _).2.length ≤ _
          have h3 := Asks.whileRemaining (image_asks nCols (countPresent bm nCols) bm ms) r'
          generalize Q.whileRemaining _ r' = y at h3
          obtain ⟨o, l⟩ := y
          have h4 : l.length ≤ payload.length := by dsimp only at h3; omega
          cases o with
          | ok a r2 => show (l ++ []).length ≤ _; rwa [List.append_nil]
          | _ => exact h4
        | _ => exact Nat.zero_le _
      | _ => exact Nat.zero_le _
    refine Nat.le_trans (sum_le_mul _ _ b1) ?_
    refine Nat.le_trans (Nat.mul_le_mul_right _ hl) ?_
    rw [Nat.pow_two]
    exact Nat.le_of_eq (Nat.mul_left_comm _ _ _)
  · have hl : (UpdateRowsV2.reserving extraLen ms payload).2.length ≤ 2 * payload.length := by
      show (Q.next (readRowsHeader extraLen payload, []) _).2.length ≤ _
      cases hr : readRowsHeader extraLen payload with
      | ok x r =>
        obtain ⟨extra, nCols⟩ := x
        have h1 := rowsHeader_shorter hr
        show (Q.next (readLen ((nCols + 7) >>> 3) r, []) _).2.length ≤ _
        cases hr' : readLen ((nCols + 7) >>> 3) r with
        | ok bm r' =>
          have h2 := Well.shorter (.len _) hr'
          show (Q.next (readLen ((nCols + 7) >>> 3) r', []) _).2.length ≤ _
          cases hr2 : readLen ((nCols + 7) >>> 3) r' with
          | ok bm2 r2 =>
            have h2' := Well.shorter (.len _) hr2
            show (Q.next (Q.whileRemaining _ r2) _).2.length ≤ _
            have hq : Asks 2 (readUpdateRow.reserving nCols bm bm2 ms) :=
              .bind (m := 1) (m' := 1) (image_asks _ _ _ _) fun _ =>
                .bind (m := 1) (m' := 0) (image_asks _ _ _ _) fun _ => .pure _
            have h3 := Asks.whileRemaining hq r2
            generalize Q.whileRemaining _ r2 = y at h3
            obtain ⟨o, l⟩ := y
            have h4 : l.length ≤ 2 * payload.length := by dsimp only at h3; omega
            cases o with
            | ok a r3 => show (l ++ []).length ≤ _; rwa [List.append_nil]
            | _ => exact h4
          | _ => exact Nat.zero_le _
        | _ => exact Nat.zero_le _
      | _ => exact Nat.zero_le _
    refine Nat.le_trans (sum_le_mul _ _ b2) ?_
    refine Nat.le_trans (Nat.mul_le_mul_right _ hl) ?_
    rw [Nat.pow_two, Nat.mul_mul_mul_comm]

/-! ### Rows of a result set -/

theorem recvMsg_header {c c' : Conn} {m : Bytes} (h : recvMsg c = .ok m c') : c'.inp.length + 4 ≤ c.inp.length := by
  unfold recvMsg at h
  split at h
  · rename_i h'
    cases h
    have := recvLoop_consumes _ _ _ _ _ _ h'
    dsimp only
    omega
  · cases h

theorem colDefs_take (n : Nat) : ∀ (c c' : Conn) (ds : List ColumnDefinition), recvColDefs n c = .ok ds c' →
    c'.inp.length + 4 * n ≤ c.inp.length := by
  induction n with
  | zero => intro c c' ds h; cases h; exact Nat.le_refl _
  | succ n ih =>
    intro c c' ds h
    rw [recvColDefs, M.bind_apply] at h
    cases h1 : recvMsg c with
    | ok m c1 =>
      have e1 := recvMsg_header h1
      rw [h1, MR.bind_ok, M.bind_apply] at h
      rcases M.parse_total (C49_no_panic false) m c1 with ⟨a, h2⟩ | ⟨e, h2⟩
      · rw [h2, MR.bind_ok, M.bind_apply] at h
        cases h3 : recvColDefs n c1 with
        | ok ds' c2 =>
          have e2 := ih _ _ _ h3
          rw [h3, MR.bind_ok] at h
          cases h
          omega
        | _ => rw [h3] at h; cases h
      · rw [h2] at h; cases h
    | _ => rw [h1] at h; cases h

theorem defsEof_take {c c' : Conn} {u : Unit} (h : recvDefsEof c = .ok u c') : c'.inp.length ≤ c.inp.length := by
  unfold recvDefsEof at h
  rw [M.bind_apply, getCaps_apply, MR.bind_ok] at h
  split at h
  · rw [M.bind_apply] at h
    cases h1 : recvMsg c with
    | ok m c1 =>
      have e1 := recvMsg_header h1
      rw [h1, MR.bind_ok, M.bind_apply] at h
      rcases M.parse_total (Well.eofPacket c.caps) m c1 with ⟨a, h2⟩ | ⟨e, h2⟩
      · rw [h2, MR.bind_ok] at h
        cases h
        omega
      · rw [h2] at h; cases h
    | _ => rw [h1] at h; cases h
  · cases h; exact Nat.le_refl _

theorem parseColCnt_conn {m : Bytes} {c c' : Conn} {k : Nat} (h : parseColCnt m c = .ok k c') : c' = c := by
  cases m with
  | nil => cases h
  | cons b t =>
    unfold parseColCnt at h
    dsimp only at h
    rw [M.bind_apply, getCaps_apply, MR.bind_ok] at h
    split_ifs at h with h1 h2
    · unfold failWithErrPacket at h
      rw [M.bind_apply, getCaps_apply, MR.bind_ok, M.bind_apply] at h
      rcases M.parse_total (Well.errPacket c.caps true) (b :: t) c with ⟨a, e⟩ | ⟨e', e⟩
      · rw [e] at h; cases h
      · rw [e] at h; cases h
    · rw [M.bind_apply] at h
      rcases M.parse_total (Well.okPacket c.caps) (b :: t) c with ⟨a, e⟩ | ⟨e', e⟩
      · rw [e] at h; cases h; rfl
      · rw [e] at h; cases h
    · unfold readColCnt at h
      split at h
      · split at h
        · cases h; rfl
        · split at h <;> cases h
      all_goals cases h

/-- A row of a prepared statement asks for one value per column, no more than eight for every byte of the row; a row of a
query asks for one value per definition that arrived, each of which took a packet with its header. -/
theorem C101_row (row : Bytes) (cts : List ColumnType) :
    (∀ n ∈ (BinaryRow.reserving cts row).2, n ≤ 8 * row.length) ∧
    (∀ (c c' : Conn) (stmtId : Option Nat) (rs : ResultSet), newResultSet stmtId c = .ok rs c' →
      ∀ n ∈ (TextRow.reserving rs.colDefs.length row).2, 4 * n ≤ c.inp.length - c'.inp.length) := by
  refine ⟨?_, ?_⟩
  · intro n hn
    obtain ⟨_, r, hr, hn⟩ := asked_after hn
    obtain ⟨bm, r', hr', hn⟩ := asked_after hn
    have h1 := Well.shorter .u8 hr
    have h2 := readLen_needs hr'
    rw [Nat.shiftRight_eq_div_pow] at h2
    rw [List.mem_singleton] at hn
    omega
  · intro c c' sid rs h n hn
    have hn : n ≤ rs.colDefs.length := (AtMost.bind (.capacity _ (Nat.le_refl _)) fun _ => .of _ : AtMost _ _) row n hn
    unfold newResultSet at h
    rw [M.bind_apply] at h
    cases h1 : recvMsg c with
    | ok m c1 =>
      have e1 := recvMsg_header h1
      rw [h1, MR.bind_ok, M.bind_apply] at h
      cases h2 : parseColCnt m c1 with
      | ok k c2 =>
        have hc : c2 = c1 := parseColCnt_conn h2
        subst hc
        rw [h2, MR.bind_ok] at h
        by_cases h0 : k = 0
        · rw [if_pos h0, M.pure_apply] at h
          cases h
          have : n = 0 := Nat.le_zero.1 hn
          omega
        · rw [if_neg h0, M.bind_apply] at h
          cases h3 : recvColDefs k c2 with
          | ok ds c3 =>
            have e3 := colDefs_take _ _ _ _ h3
            have l3 := recvColDefs_length _ _ _ _ h3
            rw [h3, MR.bind_ok, M.bind_apply] at h
            cases h4 : recvDefsEof c3 with
            | ok u c4 =>
              have e4 := defsEof_take h4
              rw [h4, MR.bind_ok, M.pure_apply] at h
              cases h
              change n ≤ ds.length at hn
              omega
            | _ => rw [h4] at h; cases h
          | _ => rw [h3] at h; cases h
      | _ => rw [h2] at h; cases h
    | _ => rw [h1] at h; cases h

/-! ### Messages -/

/-- Receiving a message asks for room packet by packet: for less than 16 MiB at a time, and in all for no more than the bytes
that were sent and one packet. -/
theorem C101_message (inp : Bytes) :
    (∀ n ∈ recvLoop.reserving inp, n < 2 ^ 24) ∧ (recvLoop.reserving inp).sum < inp.length + 2 ^ 24 := by
  induction hi : inp.length using Nat.strong_induction_on generalizing inp with | _ N ih => ?_
  subst hi
  rw [recvLoop.reserving.eq_def]
  split
  · rename_i l0 l1 l2 sq rest
    have hlen : l0.toNat + (l1.toNat <<< 8) + (l2.toNat <<< 16) < 2 ^ 24 := by
      have := l0.toNat_lt
      have := l1.toNat_lt
      have := l2.toNat_lt
      simp only [Nat.shiftLeft_eq]
      omega
    dsimp only
    generalize l0.toNat + (l1.toNat <<< 8) + (l2.toNat <<< 16) = len at hlen ⊢
    split_ifs with h1 h2
    · refine ⟨by simpa using hlen, ?_⟩
      rw [List.sum_singleton]
      omega
    · refine ⟨by simpa using hlen, ?_⟩
      rw [List.sum_singleton]
      omega
    · obtain ⟨i1, i2⟩ := ih (rest.drop len).length (by rw [List.length_drop]; simp only [List.length_cons]; omega) _ rfl
      refine ⟨?_, ?_⟩
      · intro n hn
        rcases List.mem_cons.1 hn with rfl | hn
        · exact hlen
        · exact i1 n hn
      · rw [List.sum_cons]
        rw [List.length_drop] at i2
        simp only [List.length_cons]
        omega
  · exact ⟨by simp, by simp⟩

/-! ### Where it is not so -/

/-- Eight bytes that say how many server ids a GTID set has ask for as many entries, however many that is, before the first
entry is read: an event or a command with nothing else in it. The same goes for the intervals of one server id. -/
theorem C101_gtid_false (n : Nat) (h : n * 48 < 2 ^ 63) (rest : Bytes) :
    n ∈ (GtidSet.reserving (Spec.le 8 n ++ rest)).2 ∧ n ∈ (SidData.reserving (Spec.le 8 n ++ rest)).2 ∧
    (∀ sid, sid < 2 ^ 128 → n ∈ (GtidRange.reserving (Spec.le 16 sid ++ (Spec.le 8 n ++ rest))).2 ∧
      n ∈ (SidRange.reserving (Spec.le 16 sid ++ (Spec.le 8 n ++ rest))).2) := by
  have hn : n < 2 ^ 64 := by omega
  have key : ∀ {α β : Type} (p : P α) (bs r : Bytes) (a : α) (f : α → Q β), p bs = .ok a r → n ∈ (f a r).2 →
      n ∈ ((Q.of p >>= f) bs).2 := by
    intro α β p bs r a f hp hf
    show n ∈ (Q.next (p bs, []) f).2
    rw [hp]
    exact hf
  have cap : ∀ {β : Type} (sz : Nat) (f : Unit → Q β) (bs : Bytes), n * sz < 2 ^ 63 →
      n ∈ ((Q.capacity n sz >>= f) bs).2 := by
    intro β sz f bs hs
    show n ∈ (Q.next (withCapacity n sz bs, if n * sz < 2 ^ 63 then [n] else []) f).2
    rw [if_pos hs]
    cases withCapacity n sz bs with
    | ok a r => exact List.mem_append_left _ (by simp)
    | _ => exact List.mem_singleton.2 rfl
  refine ⟨key _ _ rest n _ (readLeU64_le n rest hn) (cap _ _ _ (by omega)),
    key _ _ rest n _ (readLeU64_le n rest hn) (cap _ _ _ (by omega)), fun sid hs => ⟨?_, ?_⟩⟩
  · exact key _ _ _ _ _ (readLeU128_le sid _ hs) (key _ _ rest n _ (readLeU64_le n rest hn) (cap _ _ _ (by omega)))
  · exact key _ _ _ _ _ (readLeU128_le sid _ hs) (key _ _ rest n _ (readLeU64_le n rest hn) (cap _ _ _ (by omega)))

/-- A server that says that a result has `n` columns makes the client ask for `n` definitions, any number that fits 32
bits, before it has sent the first: nine bytes do it. -/
theorem C101_columns_false (n : Nat) (h0 : 0 < n) (h : n < 2 ^ 32) (c : Conn) (seq : UInt8)
    (hc : c.inp = [9, 0, 0, seq, 0xfe] ++ Spec.le 8 n) : newResultSet.reserving c = [n] := by
  have hl : (Spec.le 8 n).length = 8 := by simp [Spec.le]
  have hm : recvMsg c = .ok (0xfe :: Spec.le 8 n) { c with inp := [], pktNr := if seq = 0xff then 0 else seq.toNat + 1 } := by
    unfold recvMsg
    rw [hc]
    simp only [List.cons_append, List.nil_append]
    rw [recvLoop]
    have e : (9 : UInt8).toNat + ((0 : UInt8).toNat <<< 8) + ((0 : UInt8).toNat <<< 16) = 9 := by decide
    rw [e, if_neg (by rw [List.length_cons, hl]; omega), if_pos (by decide)]
    rw [List.take_of_length_le (by rw [List.length_cons, hl]), List.drop_of_length_le (by rw [List.length_cons, hl])]
    rfl
  unfold newResultSet.reserving
  rw [hm]
  have hp : ∀ c', parseColCnt (0xfe :: Spec.le 8 n) c' = .ok n c' := by
    intro c'
    unfold parseColCnt
    dsimp only
    rw [M.bind_apply, getCaps_apply, MR.bind_ok, if_neg (by decide), if_neg (by decide)]
    unfold readColCnt
    have := readLeU64_le n [] (by omega)
    rw [List.append_nil] at this
    rw [readLenEncInt_fe, this]
    have e : LenEncInt.toU32 (.len9 n) = some n := by rw [LenEncInt.toU32, Nat.mod_eq_of_lt h]
    show (match (R.ok (LenEncInt.len9 n) [] : R LenEncInt) with
      | .ok lei rest =>
        match lei.toU32 with
        | some n => MR.ok n c'
        | none => if rest.isEmpty then .panic else .err .packet c'
      | .err e _ => .err e c'
      | .panic => .panic
      | .hang => .hang) = _
    dsimp only
    rw [e]
  dsimp only
  rw [hp]
  dsimp only
  rw [if_neg (by omega)]

/-- a rows event of `k` bytes of bitmap, one column of `8 * k` logged, and `k` rows in which that column is NULL -/
def Spec.manyColumns (k : Nat) : List UInt8 :=
  (0xfe :: Spec.le 8 (8 * k)) ++ ((0x01 :: List.replicate (k - 1) 0x00) ++ List.replicate k 0x01)

theorem bit_zeros (k i : Nat) (h : i < 8 * k) : Spec.bit? (List.replicate k 0) i = some false := by
  unfold Spec.bit?
  rw [List.getElem?_replicate, if_pos (by omega)]
  simp

theorem readCols_zeros (k : Nat) (bs : Bytes) : ∀ (n i : Nat), i + n ≤ 8 * k → ∀ ms : List ColumnMeta,
    LogRow.readCols (List.replicate k 0) n i ms bs = .ok (List.replicate n .null) bs := by
  intro n
  induction n with
  | zero => intro i _ ms; rfl
  | succ n ih =>
    intro i h ms
    rw [LogRow.readCols.eq_def]
    dsimp only
    rw [Bitmap.index_eq, bit_zeros k i (by omega)]
    dsimp only
    rw [P.bind_apply, ih (i + 1) (by omega)]
    rfl

theorem count_one (k : Nat) : countPresent (0x01 :: List.replicate k 0) (8 * (k + 1)) = 1 := by
  rw [countPresent_firstBits _ _ (by simp)]
  unfold Spec.firstBits
  rw [show 8 * (k + 1) = 8 * k + 7 + 1 from by omega, List.range_succ_eq_map, List.map_cons, List.count_cons]
  have h0 : (Spec.bit? (0x01 :: List.replicate k 0) 0 == some true) = true := rfl
  rw [h0, List.count_eq_zero.2]
  · rfl
  · intro hm
    simp only [List.mem_map, List.mem_range, exists_exists_and_eq_and] at hm
    obtain ⟨i, hi, hb⟩ := hm
    have hb : Spec.bit? (0x01 :: List.replicate k 0) (i + 1) = some true := by simpa using hb
    unfold Spec.bit? at hb
    by_cases h7 : i < 7
    · rw [show (i + 1) / 8 = 0 from by omega] at hb
      simp only [List.getElem?_cons_zero, Option.map_some, Option.some.injEq] at hb
      have : (i + 1) % 8 = i + 1 := by omega
      rw [this] at hb
      have hi7 : ∀ j : Fin 7, Nat.testBit (1 : UInt8).toNat (j.val + 1) = false := by decide
      rw [hi7 ⟨i, h7⟩] at hb
      cases hb
    · obtain ⟨j, hj⟩ : ∃ j, (i + 1) / 8 = j + 1 := ⟨(i + 1) / 8 - 1, by omega⟩
      rw [hj, List.getElem?_cons_succ, List.getElem?_replicate] at hb
      split at hb
      · simp at hb
      · cases hb

theorem Q.then {α β : Type} {q : Q α} {f : α → Q β} {bs r : Bytes} {a : α} {o : R β} {l l' : List Nat}
    (h : q bs = (.ok a r, l)) (h' : f a r = (o, l')) : (q >>= f) bs = (o, l ++ l') := by
  show Q.next (q bs) f = _
  rw [h]
  show ((f a r).1, l ++ (f a r).2) = _
  rw [h']

theorem image_many (k : Nat) (ms : List ColumnMeta) (t : Bytes) (h : 8 * (k + 1) * 40 < 2 ^ 63) :
    readImage.reserving (8 * (k + 1)) 1 (0x01 :: List.replicate k 0) ms (0x01 :: t) =
      (.ok (List.replicate (8 * (k + 1)) .null) t, [8 * (k + 1)]) := by
  have hm : markNulls [0x01] 1 0 0 (0x01 :: List.replicate k 0) = some (List.replicate (k + 1) 0) := by
    rw [markNulls, nextSet.eq_def]
    rfl
  have hr : readLen ((1 + 7) >>> 3) (0x01 :: t) = .ok [0x01] t := by
    simp [readLen]
  have hc := readCols_zeros (k + 1) t (8 * (k + 1)) 0 (by omega) ms
  refine Q.then (l := []) (l' := [8 * (k + 1)]) (by rw [Q.of, hr]) ?_
  rw [hm]
  dsimp only
  refine Q.then (l := [8 * (k + 1)]) (l' := []) (a := ()) (r := t) ?_ ?_
  · unfold Q.capacity withCapacity
    rw [if_pos h, if_pos h]
    rfl
  · rw [Q.of, hc]

theorem rows_many (k : Nat) (ms : List ColumnMeta) (h : 8 * (k + 1) * 40 < 2 ^ 63) : ∀ j : Nat,
    Q.whileRemaining (readImage.reserving (8 * (k + 1)) 1 (0x01 :: List.replicate k 0) ms) (List.replicate j 0x01) =
      (.ok (List.replicate j (List.replicate (8 * (k + 1)) .null)) [], List.replicate j (8 * (k + 1))) := by
  intro j
  induction j with
  | zero => rw [Q.whileRemaining.eq_def]; rfl
  | succ j ih =>
    rw [Q.whileRemaining.eq_def, List.replicate_succ, if_neg (by simp), image_many k ms _ h]
    dsimp only
    rw [dif_pos (by simp), ih]
    rfl

/-- Rows events that ask for more than any multiple of their length: every row asks for as many values as the event has
columns, and a row in which most columns are not logged takes a single byte. -/
theorem C101_rows_false (k : Nat) (h0 : 0 < k) (h : 8 * k + 7 < 2 ^ 32) (ms : List ColumnMeta) :
    (Spec.manyColumns k).length = 2 * k + 9 ∧
    (RowsV2.reserving 2 ms (Spec.manyColumns k)).2 = List.replicate k (8 * k) ∧
    RowsV2.readFrom 2 ms (Spec.manyColumns k) =
      .ok ⟨[], 8 * k, 0x01 :: List.replicate (k - 1) 0x00, List.replicate k (List.replicate (8 * k) .null)⟩ [] := by
  obtain ⟨k, rfl⟩ : ∃ j, k = j + 1 := ⟨k - 1, by omega⟩
  simp only [Nat.add_sub_cancel]
  have hl : (Spec.le 8 (8 * (k + 1))).length = 8 := by simp [Spec.le]
  have key : RowsV2.reserving 2 ms (Spec.manyColumns (k + 1)) =
      (.ok ⟨[], 8 * (k + 1), 0x01 :: List.replicate k 0x00,
        List.replicate (k + 1) (List.replicate (8 * (k + 1)) .null)⟩ [], List.replicate (k + 1) (8 * (k + 1))) := by
    have h1 : readRowsHeader 2 (Spec.manyColumns (k + 1)) =
        .ok ([], 8 * (k + 1)) ((0x01 :: List.replicate k 0x00) ++ List.replicate (k + 1) 0x01) := by
      unfold readRowsHeader Spec.manyColumns
      rw [if_neg (by omega), P.bind_apply, show (2 - 2 : Nat) = 0 from rfl,
        show ∀ bs, readLen 0 bs = .ok [] bs from fun bs => readLen_eq_ok.2 ⟨rfl, rfl⟩]
      rw [R.bind_ok, P.bind_apply, List.cons_append, readLenEncInt_fe, readLeU64_le _ _ (by omega)]
      rw [R.bind_ok]
      show R.bind (.ok (LenEncInt.len9 (8 * (k + 1))) _) _ = _
      rw [R.bind_ok, P.bind_apply]
      rw [show LenEncInt.toU32 (.len9 (8 * (k + 1))) = some (8 * (k + 1)) from by
        rw [LenEncInt.toU32, Nat.mod_eq_of_lt (by omega)]]
      show (if 8 * (k + 1) + 7 < 2 ^ 32 then _ else _ : P _) _ = _
      rw [if_pos h]
      rfl
    have h2 : readLen ((8 * (k + 1) + 7) >>> 3) ((0x01 :: List.replicate k 0x00) ++ List.replicate (k + 1) 0x01) =
        .ok (0x01 :: List.replicate k 0x00) (List.replicate (k + 1) 0x01) := by
      refine readLen_eq_ok.2 ⟨?_, rfl⟩
      rw [List.length_cons, List.length_replicate, Nat.shiftRight_eq_div_pow]
      omega
    refine Q.then (l := []) (l' := List.replicate (k + 1) (8 * (k + 1))) (by rw [Q.of, h1]) ?_
    dsimp only
    refine Q.then (l := []) (l' := List.replicate (k + 1) (8 * (k + 1))) (by rw [Q.of, h2]) ?_
    rw [count_one]
    have h3 := rows_many k ms (by omega) (k + 1)
    have := Q.then (f := fun rows => (pure ⟨[], 8 * (k + 1), 0x01 :: List.replicate k 0x00, rows⟩ : Q RowsV2)) h3 rfl
    rwa [List.append_nil] at this
  refine ⟨?_, by rw [key], ?_⟩
  · unfold Spec.manyColumns
    simp only [List.length_append, List.length_cons, List.length_replicate, hl]
    omega
  · rw [← (C101_same (Spec.manyColumns (k + 1)) 2 0 ms []).2.2.2.1, key]

/-- Put together: whatever the factor, there is a rows event whose rows ask for more than that many values for each of its
bytes (the factor is bounded only because the number of columns is), and a GTID event of eight bytes that asks for more. -/
theorem C101_factor_false (f : Nat) (h : f < 2 ^ 26) :
    (∃ payload, ∀ ms, f * payload.length < (RowsV2.reserving 2 ms payload).2.sum) ∧
    (∃ payload n, payload.length = 8 ∧ n ∈ (GtidSet.reserving payload).2 ∧ f * payload.length < n) := by
  constructor
  · refine ⟨Spec.manyColumns (2 * f + 9), fun ms => ?_⟩
    obtain ⟨h1, h2, -⟩ := C101_rows_false (2 * f + 9) (by omega) (by omega) ms
    have hs : ∀ a b : Nat, (List.replicate a b).sum = a * b := by
      intro a b
      induction a with
      | zero => simp
      | succ a ih => rw [List.replicate_succ, List.sum_cons, ih, Nat.succ_mul, Nat.add_comm]
    rw [h1, h2, hs]
    nlinarith
  · refine ⟨Spec.le 8 (f * 8 + 1), f * 8 + 1, by simp [Spec.le], ?_, by simp [Spec.le]⟩
    have := (C101_gtid_false (f * 8 + 1) (by omega) []).1
    rwa [List.append_nil] at this

/-! ### Examples -/

/-- a table map of four columns asks for four, in 26 bytes; it has metadata for all of them -/
example : (TableMapData.reserving ([4] ++ asc "shop" ++ [0, 4] ++ asc "item" ++ [0, 4, 3, 8, 15, 252, 3, 64, 0, 2, 0x0e])).2 = [4] := by
  decide +kernel

/-- two rows of two columns: two values each -/
example : (RowsV2.reserving 2 [.long, .tiny] [2, 3, 0, 7, 0, 0, 0, 1, 0, 8, 0, 0, 0, 2]).2 = [2, 2] := by decide +kernel

/-- an update: two values for the row before, two for the row after -/
example : (UpdateRowsV2.reserving 2 [.long, .tiny] [2, 3, 3, 0, 7, 0, 0, 0, 1, 0, 8, 0, 0, 0, 2]).2 = [2, 2] := by
  decide +kernel

/-- a row of a prepared statement of two columns -/
example : (BinaryRow.reserving [.long, .tiny] [0, 0, 7, 0, 0, 0, 1]).2 = [2] := by decide +kernel

/-- a result of one column, whose definition arrived, and a row of it -/
example : (match newResultSet none { inp :=
      [1, 0, 0, 1, 1] ++ ([23, 0, 0, 2, 3] ++ asc "def" ++ [0, 0, 0, 1] ++ asc "a" ++ [0, 12, 33, 0, 4, 0, 0, 0, 253, 0, 0, 0, 0, 0]) ++
        [5, 0, 0, 3, 254, 0, 0, 2, 0], caps := Cap.PROTOCOL_41 } with
    | .ok rs _ => (rs.colDefs.length, (TextRow.reserving rs.colDefs.length [1, 0x37]).2)
    | _ => (0, [])) = (1, [1]) := by decide +kernel

/-- a message of five bytes of which three have arrived asks for five -/
example : recvLoop.reserving [5, 0, 0, 1, 1, 2, 3] = [5] := by decide +kernel

example : (GtidSet.reserving [0, 0, 0, 0, 0, 1, 0, 0]).2 = [2 ^ 40] := by decide +kernel

example : (RowsV2.reserving 2 [] (Spec.manyColumns 3)).2 = [24, 24, 24] ∧ (Spec.manyColumns 3).length = 15 := by decide +kernel

end Mybin
