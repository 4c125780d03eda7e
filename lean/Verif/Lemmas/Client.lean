/- Lemmas for the command side of the client: receiving the messages of a response one by one. -/
import Verif.Model.Client
import Verif.Spec.Client
import Verif.Props.C11_C13
import Verif.Props.C14_C16
import Verif.Props.C49

namespace Mybin

/-- only the received bytes (and the packet number) changed -/
structure Moved (c c' : Conn) : Prop where
  out : c'.out = c.out
  caps : c'.caps = c.caps
  status : c'.status = c.status

theorem Moved.refl (c : Conn) : Moved c c := ⟨rfl, rfl, rfl⟩
theorem Moved.trans {a b c : Conn} (h : Moved a b) (k : Moved b c) : Moved a c :=
  ⟨k.out.trans h.out, k.caps.trans h.caps, k.status.trans h.status⟩

theorem Delivers.nil {inp rest : Bytes} (h : Spec.Delivers inp [] rest) : inp = rest := by
  obtain ⟨runs, _, h2, rfl⟩ := h
  rw [List.map_eq_nil_iff.1 h2]
  rfl

theorem Delivers.nil_iff {inp rest : Bytes} : Spec.Delivers inp [] rest ↔ inp = rest :=
  ⟨Delivers.nil, fun h => ⟨[], by simp, rfl, by simp [h]⟩⟩

theorem wire_pos {ps : List Spec.Packet} (h : Spec.IsMessage ps) : 0 < (Spec.wire ps).length := by
  obtain ⟨init, last, rfl, -⟩ := h
  simp [Spec.wire, Spec.Packet.wire, Spec.u8]

theorem Delivers.cons_inv {inp m rest : Bytes} {ms : List Bytes} (h : Spec.Delivers inp (m :: ms) rest) :
    ∃ ps mid, Spec.IsMessage ps ∧ Spec.payload ps = m ∧ inp = Spec.wire ps ++ mid ∧
      Spec.Delivers mid ms rest := by
  obtain ⟨runs, h1, h2, rfl⟩ := h
  cases runs with
  | nil => cases h2
  | cons ps runs =>
    simp only [List.map_cons, List.cons.injEq] at h2
    exact ⟨ps, (runs.map Spec.wire).flatten ++ rest, h1 ps (by simp), h2.1, by simp,
      runs, fun r hr => h1 r (by simp [hr]), h2.2, rfl⟩

/-- receiving the next message of a response -/
theorem Delivers.recv {c : Conn} {m rest : Bytes} {ms : List Bytes} (h : Spec.Delivers c.inp (m :: ms) rest) :
    ∃ c', recvMsg c = .ok m c' ∧ Moved c c' ∧ Spec.Delivers c'.inp ms rest ∧
      c'.inp.length < c.inp.length := by
  obtain ⟨ps, mid, h1, rfl, h3, h4⟩ := Delivers.cons_inv h
  obtain ⟨nr, e, -⟩ := C11_recv_message ps h1 mid c h3
  refine ⟨_, e, ⟨rfl, rfl, rfl⟩, h4, ?_⟩
  have := wire_pos h1
  rw [h3]
  simp only [List.length_append]
  omega

theorem Delivers.append {inp rest : Bytes} {ms ns : List Bytes} (h : Spec.Delivers inp (ms ++ ns) rest) :
    ∃ mid, Spec.Delivers inp ms mid ∧ Spec.Delivers mid ns rest := by
  induction ms generalizing inp with
  | nil => exact ⟨inp, Delivers.nil_iff.2 rfl, h⟩
  | cons m ms ih =>
    obtain ⟨ps, mid, h1, h2, h3, h4⟩ := Delivers.cons_inv h
    obtain ⟨mid', runs, a1, a2, a3⟩ := ih h4 |>.imp fun _ x => x.1
    obtain ⟨mid'', b1, b2⟩ := ih h4
    obtain ⟨runs, a1, a2, a3⟩ := b1
    refine ⟨mid'', ⟨ps :: runs, ?_, by simp [h2, a2], by simp [h3, a3]⟩, b2⟩
    intro r hr
    rcases List.mem_cons.1 hr with rfl | hr
    · exact h1
    · exact a1 r hr

/-- messages that fit one packet each can be delivered -/
theorem delivers_small (msgs : List Bytes) (rest : Bytes) (h : ∀ m ∈ msgs, m.length < 0xffffff) :
    ∃ inp, Spec.Delivers inp msgs rest := by
  refine ⟨_, msgs.map (fun m => [⟨0, m⟩]), ?_, ?_, rfl⟩
  · intro r hr
    obtain ⟨m, hm, rfl⟩ := List.mem_map.1 hr
    exact ⟨[], ⟨0, m⟩, rfl, by simp, h m hm, by simp⟩
  · rw [List.map_map]
    conv_rhs => rw [← List.map_id msgs]
    exact List.map_congr_left (fun m _ => by simp [Spec.payload])

theorem M.parse_ok {α : Type} {msg : Bytes} {p : P α} {a : α} {r : Bytes} (h : p msg = .ok a r) (c : Conn) :
    M.parse msg p c = .ok a c := by
  unfold M.parse
  rw [h]

@[simp] theorem getCaps_apply (c : Conn) : getCaps c = .ok c.caps c := rfl

/-- sending a command -/
theorem sendMsg_spec (bs : Bytes) (c : Conn) (hn : bs.length / 0xffffff < 255) :
    ∃ ps c', Spec.IsMessage ps ∧ Spec.Numbered 0 ps ∧ Spec.payload ps = bs ∧
      sendMsg bs true c = .ok () c' ∧ c'.out = c.out ++ Spec.wire ps ∧ c'.inp = c.inp ∧
      c'.caps = c.caps ∧ c'.status = c.status := by
  obtain ⟨ps, h1, h2, h3, h4⟩ := C12_sent_packets_partial bs true c (by simpa using hn)
  exact ⟨ps, _, h1, h2, h3, h4, rfl, rfl, rfl, rfl⟩

/-- a column definition the client can decode, with the type its code stands for -/
def Spec.Supported (dc : Spec.ColDef × ColumnType) : Prop :=
  dc.1.Ok ∧ (dc.2, dc.1.typeCode) ∈ Spec.columnTypeCodes

/-- the definitions the client reports -/
def clientDefs (cols : List (Spec.ColDef × ColumnType)) : List ColumnDefinition :=
  cols.map fun dc => clientDef dc.1 dc.2 []

theorem caps_eof (caps : Nat) : hasFlag caps Cap.DEPRECATE_EOF = caps.testBit Spec.DEPRECATE_EOF :=
  hasFlag_eq_testBit caps 24

theorem recvColDefs_spec (cols : List (Spec.ColDef × ColumnType)) (hs : ∀ dc ∈ cols, Spec.Supported dc)
    (ms : List Bytes) (rest : Bytes) (c : Conn)
    (hd : Spec.Delivers c.inp (cols.map (fun dc => Spec.columnDef dc.1) ++ ms) rest) :
    ∃ c', recvColDefs cols.length c = .ok (clientDefs cols) c' ∧ Moved c c' ∧ Spec.Delivers c'.inp ms rest := by
  induction cols generalizing c with
  | nil => exact ⟨c, rfl, Moved.refl c, hd⟩
  | cons dc cols ih =>
    obtain ⟨c1, h1, m1, d1, -⟩ := Delivers.recv hd
    obtain ⟨c2, h2, m2, d2⟩ := ih (fun x hx => hs x (by simp [hx])) c1 d1
    have hp := C49_column_def_partial dc.1 dc.2 [] (hs dc (by simp)).1 (hs dc (by simp)).2
    rw [List.append_nil] at hp
    refine ⟨c2, ?_, m1.trans m2, d2⟩
    simp only [List.length_cons, recvColDefs, M.bind_apply, h1, MR.bind_ok, M.parse_ok hp, h2, M.pure_apply,
      clientDefs, List.map_cons]

theorem recvDefsEof_spec (w s : Nat) (hw : w < 2 ^ 16) (hs : s < 2 ^ 15) (ms : List Bytes) (rest : Bytes)
    (c : Conn) (hd : Spec.Delivers c.inp (Spec.defsEnd c.caps w s ++ ms) rest) :
    ∃ c', recvDefsEof c = .ok () c' ∧ Moved c c' ∧ Spec.Delivers c'.inp ms rest := by
  unfold Spec.defsEnd at hd
  unfold recvDefsEof
  simp only [M.bind_apply, getCaps_apply, MR.bind_ok, M.ite_apply, caps_eof]
  cases he : c.caps.testBit Spec.DEPRECATE_EOF with
  | true =>
    rw [he] at hd
    exact ⟨c, by simp, Moved.refl c, hd⟩
  | false =>
    rw [he] at hd
    obtain ⟨c1, h1, m1, d1, -⟩ := Delivers.recv hd
    refine ⟨c1, ?_, m1, d1⟩
    have := C15_eof_packet c.caps w s hw hs
    simp only [Bool.not_false, if_true, h1, MR.bind_ok]
    rw [M.bind_apply, M.parse_ok this]
    rfl

theorem recvDefs_spec (cols : List (Spec.ColDef × ColumnType)) (hs : ∀ dc ∈ cols, Spec.Supported dc)
    (w s : Nat) (hw : w < 2 ^ 16) (hss : s < 2 ^ 15) (ms : List Bytes) (rest : Bytes) (c : Conn)
    (hd : Spec.Delivers c.inp (cols.map (fun dc => Spec.columnDef dc.1)
      ++ (if cols = [] then [] else Spec.defsEnd c.caps w s) ++ ms) rest) :
    ∃ c', recvDefs cols.length c = .ok (clientDefs cols) c' ∧ Moved c c' ∧ Spec.Delivers c'.inp ms rest := by
  unfold recvDefs
  by_cases hc : cols = []
  · subst hc
    exact ⟨c, rfl, Moved.refl c, hd⟩
  · rw [if_neg hc, List.append_assoc] at hd
    rw [if_neg (by simpa using hc)]
    obtain ⟨c1, h1, m1, d1⟩ := recvColDefs_spec cols hs _ rest c hd
    rw [← m1.caps] at d1
    obtain ⟨c2, h2, m2, d2⟩ := recvDefsEof_spec w s hw hss ms rest c1 d1
    exact ⟨c2, by simp only [M.bind_apply, h1, MR.bind_ok, h2, M.pure_apply], m1.trans m2, d2⟩

/-! ### the column count -/

theorem lenEncInt_head (n : Nat) (h0 : 0 < n) (h : n < 2 ^ 32) :
    ∃ b t, Spec.lenEncInt n = b :: t ∧ b ≠ 0 ∧ b ≠ 0xff := by
  have key : ∀ m, m < 256 → m ≠ 0 → m ≠ 255 → UInt8.ofNat m ≠ 0 ∧ UInt8.ofNat m ≠ 0xff := by
    intro m hm h1 h2
    constructor <;> intro e <;> have := congrArg UInt8.toNat e <;>
      rw [UInt8.toNat_ofNat', Nat.mod_eq_of_lt hm] at this
    · exact h1 this
    · exact h2 this
  unfold Spec.lenEncInt
  split_ifs with h1 h2 h3
  · exact ⟨_, _, rfl, key n (by omega) (by omega) (by omega)⟩
  · exact ⟨_, _, rfl, by decide, by decide⟩
  · exact ⟨_, _, rfl, by decide, by decide⟩
  · exact ⟨_, _, rfl, by decide, by decide⟩

theorem parseColCnt_spec (n : Nat) (h0 : 0 < n) (h : n < 2 ^ 32) (c : Conn) :
    parseColCnt (Spec.lenEncInt n) c = .ok n c := by
  obtain ⟨b, t, e, h1, h2⟩ := lenEncInt_head n h0 h
  have hr := readLenEncInt_spec n [] (lt_trans h (by norm_num))
  rw [List.append_nil] at hr
  rw [e] at hr ⊢
  unfold parseColCnt
  simp only [M.bind_apply, getCaps_apply, MR.bind_ok, if_neg h2, if_neg h1]
  unfold readColCnt
  simp only [hr, canonLei_toU32 n h]

/-- reading the head of a result set -/
theorem newResultSet_spec (sid : Option Nat) (cols : List (Spec.ColDef × ColumnType)) (h0 : cols ≠ [])
    (hlen : cols.length < 2 ^ 32)
    (hs : ∀ dc ∈ cols, Spec.Supported dc) (w s : Nat) (hw : w < 2 ^ 16) (hss : s < 2 ^ 15)
    (ms : List Bytes) (rest : Bytes) (c : Conn)
    (hd : Spec.Delivers c.inp (Spec.resultSetHead c.caps (cols.map (·.1)) w s ++ ms) rest) :
    ∃ c', newResultSet sid c = .ok ⟨clientDefs cols, false, sid⟩ c' ∧ Moved c c' ∧
      Spec.Delivers c'.inp ms rest := by
  have hpos : 0 < cols.length := List.length_pos_iff.2 h0
  unfold Spec.resultSetHead at hd
  rw [List.map_map, List.append_assoc, List.append_assoc, List.length_map] at hd
  obtain ⟨c1, h1, m1, d1, -⟩ := Delivers.recv hd
  obtain ⟨c2, h2, m2, d2⟩ := recvColDefs_spec cols hs _ rest c1 d1
  rw [← m1.caps, ← m2.caps] at d2
  obtain ⟨c3, h3, m3, d3⟩ := recvDefsEof_spec w s hw hss ms rest c2 d2
  refine ⟨c3, ?_, (m1.trans m2).trans m3, d3⟩
  unfold newResultSet
  simp only [M.bind_apply, h1, MR.bind_ok, parseColCnt_spec _ hpos hlen, M.ite_apply]
  rw [if_neg (by omega)]
  simp only [M.bind_apply, h2, MR.bind_ok, h3, M.pure_apply]

/-! ### rows -/

/-- a message that `next_row` takes for a row -/
def RowShaped (b : Bytes) : Prop := b ≠ [] ∧ (b.head? = some 0xfe → 0xffffff < b.length)

theorem nextRow_row {ρ : Type} (read : P ρ) (rs : ResultSet) (hrs : rs.completed = false) (m : Bytes)
    (hm : RowShaped m) (r : ρ) (l : Bytes) (hr : read m = .ok r l) (ms : List Bytes) (rest : Bytes) (c : Conn)
    (hd : Spec.Delivers c.inp (m :: ms) rest) :
    ∃ c', rs.nextRow read c = .ok (some r, rs) c' ∧ Moved c c' ∧ Spec.Delivers c'.inp ms rest ∧
      c'.inp.length < c.inp.length := by
  obtain ⟨c1, h1, m1, d1, l1⟩ := Delivers.recv hd
  refine ⟨c1, ?_, m1, d1, l1⟩
  unfold ResultSet.nextRow
  rw [hrs]
  obtain ⟨hne, hfe⟩ := hm
  cases m with
  | nil => exact absurd rfl hne
  | cons b t =>
    have : ¬ (b = 0xfe ∧ (b :: t).length ≤ 0xffffff) := by
      rintro ⟨rfl, hl⟩
      have := hfe rfl
      omega
    simp only [Bool.false_eq_true, if_false, M.bind_apply, h1, MR.bind_ok, getCaps_apply, M.ite_apply, if_neg this,
      M.parse_ok hr, M.pure_apply]

theorem okPacket_head (caps : Nat) (f : Spec.OkFields) : ∃ t, Spec.okPacket caps 0xfe f = 0xfe :: t := by
  unfold Spec.okPacket
  simp only [List.append_assoc]
  exact ⟨_, rfl⟩

theorem eofPacket_head (caps w s : Nat) : ∃ t, Spec.eofPacket caps w s = 0xfe :: t := ⟨_, rfl⟩

theorem terminator_spec (caps : Nat) (msg : Bytes) (h : Spec.IsTerminator caps msg) :
    (∃ t, msg = 0xfe :: t) ∧ msg.length ≤ 0xffffff ∧ ∀ c, readTerminator caps msg c = .ok () c := by
  unfold Spec.IsTerminator at h
  unfold readTerminator
  rw [caps_eof]
  cases he : caps.testBit Spec.DEPRECATE_EOF with
  | true =>
    rw [he, if_pos rfl] at h
    obtain ⟨f, ⟨h1, h2, h3, h4, h5, h6⟩, rfl, hl⟩ := h
    refine ⟨okPacket_head caps f, hl, fun c => ?_⟩
    rw [if_pos rfl, C14_ok_packet caps 0xfe (by norm_num) f ⟨h1, h2, h3, h4, h5, h6⟩]
  | false =>
    rw [he, if_neg (by simp)] at h
    obtain ⟨w, s, hw, hs, rfl⟩ := h
    refine ⟨eofPacket_head caps w s, ?_, fun c => ?_⟩
    · unfold Spec.eofPacket Spec.opt
      split <;> simp [Spec.u8]
    · rw [if_neg (by simp), C15_eof_packet caps w s hw hs]

theorem nextRow_end {ρ : Type} (read : P ρ) (rs : ResultSet) (hrs : rs.completed = false) (m : Bytes)
    (ms : List Bytes) (rest : Bytes) (c : Conn) (hm : Spec.IsTerminator c.caps m)
    (hd : Spec.Delivers c.inp (m :: ms) rest) :
    ∃ c', rs.nextRow read c = .ok (none, { rs with completed := true }) c' ∧ Moved c c' ∧
      Spec.Delivers c'.inp ms rest := by
  obtain ⟨c1, h1, m1, d1, l1⟩ := Delivers.recv hd
  refine ⟨c1, ?_, m1, d1⟩
  obtain ⟨⟨t, rfl⟩, hl, ht⟩ := terminator_spec c.caps m hm
  unfold ResultSet.nextRow
  rw [hrs]
  simp only [Bool.false_eq_true, if_false, M.bind_apply, h1, MR.bind_ok, getCaps_apply, M.ite_apply, m1.caps,
    if_pos (And.intro trivial hl), ht, M.pure_apply]

theorem nextRow_completed {ρ : Type} (read : P ρ) (rs : ResultSet) (hrs : rs.completed = true) (c : Conn) :
    rs.nextRow read c = .ok (none, rs) c := by
  unfold ResultSet.nextRow
  rw [hrs]
  rfl

/-- `rows` come as the messages `ms` -/
def RowsAs {ρ : Type} (read : P ρ) (rows : List ρ) (ms : List Bytes) : Prop :=
  List.Forall₂ (fun r m => RowShaped m ∧ ∃ l, read m = .ok r l) rows ms

theorem foldRows_spec {ρ σ : Type} (read : P ρ) (f : σ → ρ → σ) (rows : List ρ) (ms : List Bytes)
    (hrows : RowsAs read rows ms) (rs : ResultSet) (hrs : rs.completed = false) (term : Bytes) (rest : Bytes)
    (s : σ) (c : Conn) (ht : Spec.IsTerminator c.caps term)
    (hd : Spec.Delivers c.inp (ms ++ [term]) rest) :
    ∃ c', rs.foldRows read f s c = .ok (rows.foldl f s) c' ∧ Moved c c' ∧ c'.inp = rest := by
  induction hrows generalizing s c with
  | nil =>
    obtain ⟨c1, h1, m1, d1⟩ := nextRow_end read rs hrs term [] rest c ht hd
    refine ⟨c1, ?_, m1, Delivers.nil d1⟩
    rw [ResultSet.foldRows, h1]
    rfl
  | @cons r m rows ms hr hrows ih =>
    obtain ⟨hm, l, hr⟩ := hr
    obtain ⟨c1, h1, m1, d1, l1⟩ := nextRow_row read rs hrs m hm r l hr (ms ++ [term]) rest c hd
    rw [← m1.caps] at ht
    obtain ⟨c2, h2, m2, d2⟩ := ih (f s r) c1 ht d1
    refine ⟨c2, ?_, m1.trans m2, d2⟩
    rw [ResultSet.foldRows, h1]
    simp only [if_pos l1, h2, List.foldl_cons]

/-- `k` calls of `next_row` -/
def nextRows {ρ : Type} (read : P ρ) : Nat → ResultSet → M (List (Option ρ) × ResultSet)
  | 0, rs => pure ([], rs)
  | k + 1, rs => do
    let (r, rs) ← rs.nextRow read
    let (l, rs) ← nextRows read k rs
    return (r :: l, rs)

/-- what `k` calls should return: the rows in order, then `None` for ever -/
def Spec.rowsThenNone {ρ : Type} (rows : List ρ) (k : Nat) : List (Option ρ) :=
  (List.range k).map fun i => rows[i]?

theorem rowsThenNone_cons {ρ : Type} (r : ρ) (rows : List ρ) (k : Nat) :
    Spec.rowsThenNone (r :: rows) (k + 1) = some r :: Spec.rowsThenNone rows k := by
  unfold Spec.rowsThenNone
  rw [List.range_succ_eq_map, List.map_cons, List.map_map]
  rfl

theorem rowsThenNone_nil {ρ : Type} (k : Nat) :
    Spec.rowsThenNone ([] : List ρ) (k + 1) = none :: Spec.rowsThenNone ([] : List ρ) k := by
  unfold Spec.rowsThenNone
  rw [List.range_succ_eq_map, List.map_cons, List.map_map]
  rfl

theorem nextRows_completed {ρ : Type} (read : P ρ) (k : Nat) (rs : ResultSet) (hrs : rs.completed = true)
    (c : Conn) : nextRows read k rs c = .ok (Spec.rowsThenNone [] k, rs) c := by
  induction k with
  | zero => rfl
  | succ k ih =>
    simp only [nextRows, M.bind_apply, nextRow_completed read rs hrs, MR.bind_ok, ih, M.pure_apply,
      rowsThenNone_nil]

theorem nextRows_spec {ρ : Type} (read : P ρ) (rows : List ρ) (ms : List Bytes)
    (hrows : RowsAs read rows ms) (rs : ResultSet) (hrs : rs.completed = false) (term : Bytes) (rest : Bytes)
    (c : Conn) (ht : Spec.IsTerminator c.caps term) (k : Nat)
    (hd : Spec.Delivers c.inp (ms ++ [term]) rest) :
    ∃ rs' c', nextRows read k rs c = .ok (Spec.rowsThenNone rows k, rs') c' ∧ Moved c c' ∧
      Spec.Delivers c'.inp ((ms ++ [term]).drop k) rest := by
  induction hrows generalizing k c with
  | nil =>
    cases k with
    | zero => exact ⟨rs, c, rfl, Moved.refl c, hd⟩
    | succ k =>
      obtain ⟨c1, h1, m1, d1⟩ := nextRow_end read rs hrs term [] rest c ht hd
      refine ⟨{ rs with completed := true }, c1, ?_, m1, by simpa using d1⟩
      · simp only [nextRows, M.bind_apply, h1, MR.bind_ok,
          nextRows_completed read k { rs with completed := true } rfl, M.pure_apply, rowsThenNone_nil]
  | @cons r m rows ms hr hrows ih =>
    cases k with
    | zero => exact ⟨rs, c, rfl, Moved.refl c, hd⟩
    | succ k =>
      obtain ⟨hm, l, hr⟩ := hr
      obtain ⟨c1, h1, m1, d1, l1⟩ := nextRow_row read rs hrs m hm r l hr (ms ++ [term]) rest c hd
      rw [← m1.caps] at ht
      obtain ⟨rs2, c2, h2, m2, d2⟩ := ih c1 ht k d1
      refine ⟨rs2, c2, ?_, m1.trans m2, by simpa using d2⟩
      simp only [nextRows, M.bind_apply, h1, MR.bind_ok, h2, M.pure_apply, rowsThenNone_cons]

end Mybin
