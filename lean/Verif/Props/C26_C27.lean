/-
C26: iterating over a result set.
C27: errors in place of rows.
-/
import Verif.Lemmas.Client

namespace Mybin

/-- a row of the text protocol: the values one after the other -/
def Spec.textRow (vs : List (Option (List UInt8))) : List UInt8 := (vs.map Spec.textValue).flatten

/-- a row of the binary protocol with its NULL bitmap (bit 2 of the bitmap is the first column) and the bytes
of its values -/
structure Spec.BinRow where
  cells : List Spec.BinCell
  bitmap : List UInt8

/-- header 0x00, bitmap, values -/
def Spec.BinRow.bytes (r : Spec.BinRow) : List UInt8 := [0] ++ r.bitmap ++ (r.cells.map (·.bytes)).flatten

structure Spec.BinRow.Ok (types : List ColumnType) (r : Spec.BinRow) : Prop where
  cells : ∀ c ∈ r.cells, c.Ok
  types : r.cells.map (·.ct) = types
  len : r.bitmap.length = (r.cells.length + 9) / 8
  nulls : ∀ i c, r.cells[i]? = some c → Spec.bit? r.bitmap (i + 2) = some c.value.isNone

/-- the values of the row -/
def Spec.BinRow.values (r : Spec.BinRow) : List BinaryColumnValue := r.cells.map (·.value.getD .null)

/-! ### rows are recognised as rows -/

theorem textRow_shaped (vs : List (Option Bytes)) (h0 : vs ≠ []) (h : ∀ s, some s ∈ vs → s.length < 2 ^ 64) :
    RowShaped (Spec.textRow vs) := by
  cases vs with
  | nil => exact absurd rfl h0
  | cons v vs =>
    unfold Spec.textRow
    simp only [List.map_cons, List.flatten_cons]
    cases v with
    | none => exact ⟨by simp [Spec.textValue, Spec.u8], fun h => absurd (Option.some.inj h) (by decide)⟩
    | some s =>
      simp only [Spec.textValue, Spec.lenEncStr]
      refine ⟨?_, fun hfe => ?_⟩
      · unfold Spec.lenEncInt; split_ifs <;> simp [Spec.u8]
      · simp only [List.length_append]
        unfold Spec.lenEncInt at hfe
        split_ifs at hfe with h1 h2 h3
        · have := Option.some.inj hfe
          have := congrArg UInt8.toNat this
          rw [UInt8.toNat_ofNat', Nat.mod_eq_of_lt (by omega)] at this
          change s.length = 254 at this
          omega
        · exact absurd (Option.some.inj hfe) (by decide)
        · exact absurd (Option.some.inj hfe) (by decide)
        · omega

theorem textRows_as (rs : ResultSet) (rows : List (List (Option Bytes)))
    (hn0 : 0 < rs.colDefs.length) (hn : rs.colDefs.length < 2 ^ 32)
    (hl : ∀ row ∈ rows, row.length = rs.colDefs.length)
    (hs : ∀ row ∈ rows, ∀ s, some s ∈ row → s.length < 2 ^ 64) :
    RowsAs rs.textRow rows (rows.map Spec.textRow) := by
  unfold RowsAs
  rw [List.forall₂_map_right_iff]
  refine List.forall₂_same.2 fun row hr => ?_
  refine ⟨textRow_shaped row ?_ (hs row hr), [], ?_⟩
  · rintro rfl
    have := hl _ hr
    simp only [List.length_nil] at this
    omega
  · have := C25_decode row [] (hs row hr) (by rw [hl row hr]; omega)
    rw [List.append_nil, hl row hr] at this
    exact this

theorem binRow_shaped (r : Spec.BinRow) : RowShaped r.bytes :=
  ⟨by simp [Spec.BinRow.bytes], fun h => absurd (Option.some.inj h) (by decide)⟩

theorem binRows_as (rs : ResultSet) (rows : List Spec.BinRow)
    (h : ∀ r ∈ rows, r.Ok (rs.colDefs.map (·.colType))) :
    RowsAs rs.binaryRow (rows.map (·.values)) (rows.map (·.bytes)) := by
  unfold RowsAs
  rw [List.forall₂_map_left_iff, List.forall₂_map_right_iff]
  refine List.forall₂_same.2 fun r hr => ?_
  obtain ⟨h1, h2, h3, h4⟩ := h r hr
  refine ⟨binRow_shaped r, [], ?_⟩
  have := C24_decode r.cells 0 r.bitmap [] h1 h3 h4
  rw [List.append_nil, h2] at this
  exact this

/-! ### C26 -/

/-- C26, text rows, one by one: for any number of rows and any number `k` of calls, the calls return the rows in
order and then `None`. After `k` calls the unread input is what follows the `k`-th message, and what follows the
terminator once it has been read, however often `next_row` is called again. Nothing is sent. -/
theorem C26_text_next_row (rs : ResultSet) (hrs : rs.completed = false)
    (hn0 : 0 < rs.colDefs.length) (hn : rs.colDefs.length < 2 ^ 32) (rows : List (List (Option Bytes)))
    (hl : ∀ row ∈ rows, row.length = rs.colDefs.length)
    (hs : ∀ row ∈ rows, ∀ s, some s ∈ row → s.length < 2 ^ 64)
    (term rest : Bytes) (c : Conn) (ht : Spec.IsTerminator c.caps term) (k : Nat)
    (hd : Spec.Delivers c.inp (rows.map Spec.textRow ++ [term]) rest) :
    ∃ rs' c', nextRows rs.textRow k rs c = .ok ((List.range k).map (fun i => rows[i]?), rs') c' ∧
      c'.out = c.out ∧ Spec.Delivers c'.inp ((rows.map Spec.textRow ++ [term]).drop k) rest ∧
      (rows.length < k → c'.inp = rest) := by
  obtain ⟨rs', c', h1, h2, h3⟩ :=
    nextRows_spec rs.textRow rows _ (textRows_as rs rows hn0 hn hl hs) rs hrs term rest c ht k hd
  refine ⟨rs', c', h1, h2.out, h3, fun hk => ?_⟩
  rw [List.drop_eq_nil_of_le (by simp; omega)] at h3
  exact Delivers.nil h3

/-- C26, binary rows, one by one. -/
theorem C26_binary_next_row (rs : ResultSet) (hrs : rs.completed = false) (rows : List Spec.BinRow)
    (hr : ∀ r ∈ rows, r.Ok (rs.colDefs.map (·.colType)))
    (term rest : Bytes) (c : Conn) (ht : Spec.IsTerminator c.caps term) (k : Nat)
    (hd : Spec.Delivers c.inp (rows.map (·.bytes) ++ [term]) rest) :
    ∃ rs' c', nextRows rs.binaryRow k rs c
        = .ok ((List.range k).map (fun i => (rows.map (·.values))[i]?), rs') c' ∧
      c'.out = c.out ∧ Spec.Delivers c'.inp ((rows.map (·.bytes) ++ [term]).drop k) rest ∧
      (rows.length < k → c'.inp = rest) := by
  obtain ⟨rs', c', h1, h2, h3⟩ :=
    nextRows_spec rs.binaryRow _ _ (binRows_as rs rows hr) rs hrs term rest c ht k hd
  refine ⟨rs', c', h1, h2.out, h3, fun hk => ?_⟩
  rw [List.drop_eq_nil_of_le (by simp; omega)] at h3
  exact Delivers.nil h3

/-- what `all`, `first`, `first_or_none` and `count` should do on a result set with these rows -/
structure Collects {ρ : Type} (read : P ρ) (rs : ResultSet) (rows : List ρ) (c : Conn) (rest : Bytes) : Prop where
  all : ∃ c', rs.all read c = .ok rows c' ∧ c'.inp = rest ∧ c'.out = c.out ∧ c'.caps = c.caps
  firstOrNone : ∃ c', rs.firstOrNone read c = .ok rows.head? c' ∧ c'.inp = rest ∧ c'.out = c.out ∧ c'.caps = c.caps
  first : ∀ r, rows.head? = some r → ∃ c', rs.first read c = .ok r c' ∧ c'.inp = rest ∧ c'.out = c.out ∧ c'.caps = c.caps
  firstEmpty : rows = [] → ∃ c', rs.first read c = .err .emptyResultSet c' ∧ c'.inp = rest ∧ c'.out = c.out ∧ c'.caps = c.caps
  count : ∃ c', rs.count read c = .ok rows.length c' ∧ c'.inp = rest ∧ c'.out = c.out ∧ c'.caps = c.caps

theorem foldl_append_singleton {ρ : Type} (rows acc : List ρ) :
    rows.foldl (fun rows r => rows ++ [r]) acc = acc ++ rows := by
  induction rows generalizing acc with
  | nil => simp
  | cons r rows ih => rw [List.foldl_cons, ih]; simp

theorem foldl_first {ρ : Type} (rows : List ρ) :
    rows.foldl (fun first r => if first.isNone then some r else first) none = rows.head? := by
  have key : ∀ (rows : List ρ) (a : ρ),
      rows.foldl (fun first r => if first.isNone then some r else first) (some a) = some a := by
    intro rows
    induction rows with
    | nil => intro a; rfl
    | cons r rows ih => intro a; exact ih a
  cases rows with
  | nil => rfl
  | cons r rows => exact key rows r

theorem foldl_count {ρ : Type} (rows : List ρ) (n : Nat) :
    rows.foldl (fun cnt _ => cnt + 1) n = n + rows.length := by
  induction rows generalizing n with
  | nil => rfl
  | cons r rows ih => rw [List.foldl_cons, ih, List.length_cons]; omega

theorem collects {ρ : Type} (read : P ρ) (rows : List ρ) (ms : List Bytes) (hrows : RowsAs read rows ms)
    (rs : ResultSet) (hrs : rs.completed = false) (term rest : Bytes) (c : Conn)
    (ht : Spec.IsTerminator c.caps term) (hd : Spec.Delivers c.inp (ms ++ [term]) rest) :
    Collects read rs rows c rest := by
  have key : ∀ {σ : Type} (f : σ → ρ → σ) (s : σ), _ := fun {σ} f s =>
    foldRows_spec read f rows ms hrows rs hrs term rest s c ht hd
  have hf : ∃ c', rs.firstOrNone read c = .ok rows.head? c' ∧ c'.inp = rest ∧ c'.out = c.out ∧ c'.caps = c.caps := by
    obtain ⟨c', h1, h2, h3⟩ := key (fun first r => if first.isNone then some r else first) none
    exact ⟨c', by rw [← foldl_first]; exact h1, h3, h2.out, h2.caps⟩
  refine ⟨?_, hf, fun r hr => ?_, fun hr => ?_, ?_⟩
  · obtain ⟨c', h1, h2, h3⟩ := key (fun rows r => rows ++ [r]) []
    exact ⟨c', by rw [foldl_append_singleton] at h1; exact h1, h3, h2.out, h2.caps⟩
  · obtain ⟨c', h1, h2⟩ := hf
    refine ⟨c', ?_, h2⟩
    unfold ResultSet.first
    rw [M.bind_apply, h1, hr]
    rfl
  · obtain ⟨c', h1, h2⟩ := hf
    refine ⟨c', ?_, h2⟩
    subst hr
    unfold ResultSet.first
    rw [M.bind_apply, h1]
    rfl
  · obtain ⟨c', h1, h2, h3⟩ := key (fun cnt _ => cnt + 1) 0
    exact ⟨c', by rw [foldl_count, Nat.zero_add] at h1; exact h1, h3, h2.out, h2.caps⟩

/-- C26, text rows: `all`, `first`, `first_or_none` and `count` agree with the rows and leave the connection after
the terminator. -/
theorem C26_text_collect (rs : ResultSet) (hrs : rs.completed = false)
    (hn0 : 0 < rs.colDefs.length) (hn : rs.colDefs.length < 2 ^ 32) (rows : List (List (Option Bytes)))
    (hl : ∀ row ∈ rows, row.length = rs.colDefs.length)
    (hs : ∀ row ∈ rows, ∀ s, some s ∈ row → s.length < 2 ^ 64)
    (term rest : Bytes) (c : Conn) (ht : Spec.IsTerminator c.caps term)
    (hd : Spec.Delivers c.inp (rows.map Spec.textRow ++ [term]) rest) :
    Collects rs.textRow rs rows c rest :=
  collects _ rows _ (textRows_as rs rows hn0 hn hl hs) rs hrs term rest c ht hd

/-- C26, binary rows. -/
theorem C26_binary_collect (rs : ResultSet) (hrs : rs.completed = false) (rows : List Spec.BinRow)
    (hr : ∀ r ∈ rows, r.Ok (rs.colDefs.map (·.colType)))
    (term rest : Bytes) (c : Conn) (ht : Spec.IsTerminator c.caps term)
    (hd : Spec.Delivers c.inp (rows.map (·.bytes) ++ [term]) rest) :
    Collects rs.binaryRow rs (rows.map (·.values)) c rest :=
  collects _ _ _ (binRows_as rs rows hr) rs hrs term rest c ht hd

/-- C26 for mapped result sets: with any mapper the results are the mapped rows, in the same order. -/
theorem C26_map_rows {τ : Type} (mapper : List (Option Bytes) → τ) (rs : ResultSet) (hrs : rs.completed = false)
    (hn0 : 0 < rs.colDefs.length) (hn : rs.colDefs.length < 2 ^ 32) (rows : List (List (Option Bytes)))
    (hl : ∀ row ∈ rows, row.length = rs.colDefs.length)
    (hs : ∀ row ∈ rows, ∀ s, some s ∈ row → s.length < 2 ^ 64)
    (term rest : Bytes) (c : Conn) (ht : Spec.IsTerminator c.caps term)
    (hd : Spec.Delivers c.inp (rows.map Spec.textRow ++ [term]) rest) :
    Collects (mapRow rs.textRow mapper) rs (rows.map mapper) c rest := by
  refine collects _ _ (rows.map Spec.textRow) ?_ rs hrs term rest c ht hd
  have := textRows_as rs rows hn0 hn hl hs
  unfold RowsAs at this ⊢
  rw [List.forall₂_map_left_iff]
  refine this.imp ?_
  rintro r m ⟨h1, l, h2⟩
  refine ⟨h1, l, ?_⟩
  unfold mapRow
  rw [P.bind_apply, h2]
  rfl

/-- C26, from the query on: the client sends the query as one message with command byte 3, and for every answer with
definitions of supported columns, rows and a terminator, `qry(..).all()` returns the rows and leaves what follows the
answer. -/
theorem C26_query_all (q : Bytes) (hq : q.length + 1 < 255 * 0xffffff)
    (cols : List (Spec.ColDef × ColumnType)) (hc0 : cols ≠ []) (hc : cols.length < 2 ^ 32)
    (hsup : ∀ dc ∈ cols, Spec.Supported dc) (w s : Nat) (hw : w < 2 ^ 16) (hst : s < 2 ^ 15)
    (rows : List (List (Option Bytes))) (hl : ∀ row ∈ rows, row.length = cols.length)
    (hs : ∀ row ∈ rows, ∀ s, some s ∈ row → s.length < 2 ^ 64)
    (term rest : Bytes) (c : Conn) (ht : Spec.IsTerminator c.caps term)
    (hd : Spec.Delivers c.inp
      (Spec.resultSetHead c.caps (cols.map (·.1)) w s ++ (rows.map Spec.textRow ++ [term])) rest) :
    ∃ ps c', (Query.qry q >>= fun rs => rs.all rs.textRow) c = .ok rows c' ∧ c'.inp = rest ∧
      c'.out = c.out ++ Spec.wire ps ∧ Spec.IsMessage ps ∧ Spec.Numbered 0 ps ∧ Spec.payload ps = 3 :: q := by
  have e : (ComQuery.writeTo [] q).1 = 3 :: q := rfl
  obtain ⟨ps, c1, a1, a2, a3, a4, a5, a6, a7, a8⟩ := sendMsg_spec (3 :: q) c
    (Nat.div_lt_of_lt_mul (by rw [List.length_cons]; omega))
  rw [← a6, ← a7] at hd
  obtain ⟨c2, b1, b2, b3⟩ := newResultSet_spec none cols hc0 hc hsup w s hw hst _ rest c1 hd
  have hlen : (clientDefs cols).length = cols.length := by simp [clientDefs]
  have hpos : 0 < cols.length := List.length_pos_iff.2 hc0
  obtain ⟨c3, d1, d2, d3⟩ := (C26_text_collect ⟨clientDefs cols, false, none⟩ rfl (by simpa [hlen] using hpos)
    (by simpa [hlen] using hc) rows (by simpa [hlen] using hl) hs term rest c2
    (by rw [b2.caps, a7]; exact ht) b3).all
  refine ⟨ps, c3, ?_, d2, by rw [d3.1, b2.out, a5], a1, a2, a3⟩
  unfold Query.qry
  rw [e]
  simp only [M.bind_apply, a4, MR.bind_ok, b1, d1]

/-! ### C27 -/

/-- C27, text rows: any message starting with 0xff, which includes every ERR packet, is an error and not a row. (The
error is not the server's one: the code and message of the ERR packet are lost.) -/
theorem C27_text_err_partial (rs : ResultSet) (hrs : rs.completed = false)
    (hn0 : 0 < rs.colDefs.length) (hn : rs.colDefs.length < 2 ^ 32) (t rest : Bytes) (ms : List Bytes) (c : Conn)
    (hd : Spec.Delivers c.inp ((0xff :: t) :: ms) rest) :
    ∃ e c', rs.nextRow rs.textRow c = .err e c' := by
  obtain ⟨c1, h1, -⟩ := Delivers.recv hd
  refine ⟨.constraint, c1, ?_⟩
  unfold ResultSet.nextRow
  rw [hrs]
  have : ¬ ((0xff : UInt8) = 0xfe ∧ (0xff :: t).length ≤ 0xffffff) := by rintro ⟨h, -⟩; exact absurd h (by decide)
  simp only [Bool.false_eq_true, if_false, M.bind_apply, h1, MR.bind_ok, getCaps_apply, M.ite_apply, if_neg this]
  have hr : ∃ r, rs.textRow (0xff :: t) = .err .constraint r := by
    unfold ResultSet.textRow TextRow.readFrom
    rw [P.bind_apply, withCapacity_ok _ _ (by omega), R.bind_ok]
    cases hlen : rs.colDefs.length with
    | zero => omega
    | succ n => exact ⟨t, rfl⟩
  obtain ⟨r, hr⟩ := hr
  unfold M.parse
  rw [hr]
  rfl

/-- the ERR packet 3024 (maximum statement execution time exceeded), SQL state HY000 -/
def interruptedPacket : Bytes := Spec.errPacket true 3024 [0x48, 0x59, 0x30, 0x30, 0x30] []

/-- C27 is false for binary rows: an ERR packet is returned as a row. -/
theorem C27_binary_false : ∃ (rs : ResultSet) (c : Conn), rs.completed = false ∧
    rs.colDefs.map (·.colType) = [.long] ∧
    Spec.Delivers c.inp [interruptedPacket] [] ∧
    ∃ row c', rs.nextRow rs.binaryRow c = .ok (some row, rs) c' := by
  have hd : Spec.Delivers (Spec.wire [⟨0, interruptedPacket⟩]) [interruptedPacket] [] := by
    refine ⟨[[⟨0, interruptedPacket⟩]], ?_, rfl, rfl⟩
    simp only [List.mem_singleton, forall_eq]
    exact ⟨[], _, rfl, by simp, by decide, by simp⟩
  refine ⟨⟨[clientDef (exampleDef 3) .long []], false, some 1⟩,
    { inp := Spec.wire [⟨0, interruptedPacket⟩], caps := 2 ^ 9 }, rfl, rfl, hd, ?_⟩
  obtain ⟨c', h1, -⟩ := Delivers.recv (c := { inp := Spec.wire [⟨0, interruptedPacket⟩], caps := 2 ^ 9 }) hd
  refine ⟨[.long 0x5948230b], c', ?_⟩
  unfold ResultSet.nextRow
  rw [if_neg (by simp), M.bind_apply, h1]
  rfl

/-! ### a concrete response meets the hypotheses -/

/-- two text columns, two rows (one with a NULL), and the terminating EOF packet -/
def exampleRows : List (List (Option Bytes)) := [[some [0x31], none], [some [], some [0xfe, 0xff]]]

def exampleMessages : List Bytes := exampleRows.map Spec.textRow ++ [Spec.eofPacket (2 ^ 9) 0 2]

def examplePackets : List (List Spec.Packet) := exampleMessages.map fun m => [⟨7, m⟩]

example : Spec.IsTerminator (2 ^ 9) (Spec.eofPacket (2 ^ 9) 0 2) ∧
    Spec.Delivers ((examplePackets.map Spec.wire).flatten ++ [1, 2, 3]) exampleMessages [1, 2, 3] ∧
    (∀ row ∈ exampleRows, row.length = 2) := by
  refine ⟨⟨0, 2, by norm_num, by norm_num, rfl⟩, ⟨examplePackets, ?_, rfl, rfl⟩, by decide⟩
  have : ∀ m ∈ exampleMessages, m.length < 0xffffff := by decide
  intro r hr
  obtain ⟨m, hm, rfl⟩ := List.mem_map.1 hr
  exact ⟨[], ⟨7, m⟩, rfl, by simp, this m hm, by simp⟩

example : (⟨[⟨.long, some (.long 5), [5, 0, 0, 0]⟩, ⟨.tiny, none, []⟩], [8]⟩ : Spec.BinRow).Ok [.long, .tiny] := by
  refine ⟨?_, rfl, rfl, ?_⟩
  · intro c hc
    simp only [List.mem_cons, List.not_mem_nil, or_false] at hc
    rcases hc with rfl | rfl
    · exact ⟨by simp, by simp [Spec.typesOf], by norm_num, rfl⟩
    · rfl
  · intro i c h
    match i, h with
    | 0, h => cases h; rfl
    | 1, h => cases h; rfl
    | i + 2, h => cases h

example : Spec.Supported (exampleDef 8, .longLong) := by
  refine ⟨?_, by decide⟩
  constructor <;> first | (exact ⟨by decide, by decide⟩) | (exact (by decide))

end Mybin
