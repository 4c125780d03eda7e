/-
C78 no answer of the server makes a command panic or loop forever: for every stream of bytes, also malformed ones and
ones that end anywhere, with the exact list of exceptions.
-/
import Verif.Props.C70_C73
import Verif.Props.C59_C60
import Verif.Props.C04_C07
import Verif.Lemmas.Invert

namespace Mybin

/-- on every connection the call ends with a value or an error -/
def Safe {α : Type} (p : M α) : Prop := ∀ c, Returns (p c)

namespace Safe
variable {α β : Type}

theorem pure (a : α) : Safe (pure a : M α) := fun _ => .inl ⟨_, _, rfl⟩
theorem fail (e : Err) : Safe (M.fail e : M α) := fun _ => .inr ⟨_, _, rfl⟩
theorem caps : Safe getCaps := fun _ => .inl ⟨_, _, rfl⟩
theorem recv : Safe recvMsg := recvMsg_total

theorem bind {p : M α} {f : α → M β} (hp : Safe p) (hf : ∀ a, Safe (f a)) : Safe (p >>= f) := by
  intro c
  rw [M.bind_apply]
  rcases hp c with ⟨a, c', h⟩ | ⟨e, c', h⟩
  · rw [h]; exact hf a c'
  · rw [h]; exact .inr ⟨_, _, rfl⟩

theorem ite {c : Prop} [Decidable c] {p q : M α} (hp : c → Safe p) (hq : ¬c → Safe q) : Safe (if c then p else q) := by
  split
  · exact hp ‹_›
  · exact hq ‹_›

theorem parse {p : P α} (h : Well p) (m : Bytes) : Safe (M.parse m p) := by
  intro c
  rcases M.parse_total h m c with ⟨a, h⟩ | ⟨e, h⟩
  · exact .inl ⟨_, _, h⟩
  · exact .inr ⟨_, _, h⟩

theorem send (bs : Bytes) (h : bs.length < 255 * 0xffffff) : Safe (sendMsg bs true) := by
  intro c
  obtain ⟨ps, c', -, -, -, h, -⟩ := sendMsg_spec bs c (Nat.div_lt_of_lt_mul (by omega))
  exact .inl ⟨_, _, h⟩

theorem errPacket (m : Bytes) : Safe (failWithErrPacket m : M α) :=
  bind caps fun _ => bind (parse (Well.errPacket _ true) m) fun _ => fail _

theorem colDefs (n : Nat) : Safe (recvColDefs n) := by
  induction n with
  | zero => exact pure _
  | succ n ih => exact bind recv fun m => bind (parse (C49_no_panic false) m) fun _ => bind ih fun _ => pure _

theorem defsEof : Safe recvDefsEof :=
  bind caps fun _ => ite (fun _ => bind recv fun m => bind (parse (Well.eofPacket _) m) fun _ => pure _) fun _ => pure _

theorem defs (n : Nat) : Safe (recvDefs n) :=
  ite (fun _ => pure _) fun _ => bind (colDefs n) fun _ => bind defsEof fun _ => pure _

theorem ofRes (r : Res α) (h : r ≠ .panic) : Safe (Cmd.M.ofRes r) := by
  intro c
  cases r with
  | ok a => exact .inl ⟨_, _, rfl⟩
  | err e => exact .inr ⟨_, _, rfl⟩
  | panic => exact (h rfl).elim

end Safe

theorem Returns.ne_panic {α : Type} {r : MR α} (h : Returns r) : r ≠ .panic := by
  rcases h with ⟨a, c', h⟩ | ⟨e, c', h⟩ <;> rw [h] <;> simp
theorem Returns.ne_hang {α : Type} {r : MR α} (h : Returns r) : r ≠ .hang := by
  rcases h with ⟨a, c', h⟩ | ⟨e, c', h⟩ <;> rw [h] <;> simp

/-- `r` is a panic when `bad` holds, otherwise a value or an error -/
def PanicsWhen {α : Type} (bad : Prop) (r : MR α) : Prop := (bad → r = .panic) ∧ (¬bad → Returns r)

/-- a message that was received is the next one in the stream, and the only one that can be read there -/
theorem recv_delivers {c c1 : Conn} {m : Bytes} (h : recvMsg c = .ok m c1) : Spec.Delivers c.inp [m] c1.inp := by
  obtain ⟨ps, h1, h2, h3⟩ := C11_recv_sound c c1 m h
  exact ⟨[ps], by simpa using h1, by simp [h3], by simp [h2]⟩

theorem recv_shorter {c c1 : Conn} {m : Bytes} (h : recvMsg c = .ok m c1) : c1.inp.length < c.inp.length := by
  obtain ⟨ps, h1, h2, h3⟩ := C11_recv_sound c c1 m h
  have := wire_pos h1
  rw [h2, List.length_append]
  omega

theorem delivers_cons {inp m mid : Bytes} (h : Spec.Delivers inp [m] mid) (ms : List Bytes) (rest : Bytes)
    (h2 : Spec.Delivers mid ms rest) : Spec.Delivers inp (m :: ms) rest := by
  obtain ⟨runs, a1, a2, a3⟩ := h
  obtain ⟨runs2, b1, b2, b3⟩ := h2
  refine ⟨runs ++ runs2, ?_, by simp [a2, b2], by simp [a3, b3]⟩
  intro r hr
  rcases List.mem_append.1 hr with hr | hr
  · exact a1 r hr
  · exact b1 r hr

/-! ### result sets -/

/-- the messages a client cannot take as the beginning of a result set: an empty one, and the one byte 0xfb -/
def Spec.badHead (inp : List UInt8) : Prop := ∃ m rest, Delivers inp [m] rest ∧ (m = [] ∨ m = [0xfb])

theorem readColCnt_panic (b : UInt8) (t : Bytes) (hb : b ≠ 0xff) (c : Conn) :
    PanicsWhen (b :: t = [0xfb]) (readColCnt (b :: t) c) := by
  have hw := Well.lenEncInt (b :: t)
  unfold readColCnt
  revert hw
  cases h : readLenEncInt (b :: t) with
  | panic => exact False.elim
  | hang => exact False.elim
  | err e r =>
    intro _
    refine ⟨fun e => ?_, fun _ => .inr ⟨_, _, rfl⟩⟩
    rw [e, show readLenEncInt [0xfb] = .ok .null [] by decide] at h
    cases h
  | ok lei rest =>
    intro _
    by_cases h0 : b = 0xfb
    · subst h0
      have e : readLenEncInt (0xfb :: t) = .ok .null t := by
        simp [readLenEncInt, readU8, P.bind_apply, R.bind]
      rw [e] at h
      cases h
      dsimp only [LenEncInt.toU32]
      cases t with
      | nil => exact ⟨fun _ => rfl, fun e => (e rfl).elim⟩
      | cons x t => exact ⟨fun e => by simp at e, fun _ => .inr ⟨_, _, rfl⟩⟩
    · refine ⟨fun e => by simp at e; exact (h0 e.1).elim, fun _ => ?_⟩
      have h5 := (C05_len_enc_int_decoding b t).2
      have hu : ∃ n, lei.toU64 = some n := by
        revert h5
        cases hh : Spec.leiHead b with
        | literal n => rintro ⟨v, e, hv⟩; rw [h] at e; cases e; exact ⟨_, hv⟩
        | null =>
          unfold Spec.leiHead at hh
          split_ifs at hh with h1 h2
          exact (h0 (UInt8.toNat_inj.1 h2)).elim
        | err =>
          unfold Spec.leiHead at hh
          have := b.toNat_lt
          split_ifs at hh with h1 h2 h3 h4 h5
          exact (hb (UInt8.toNat_inj.1 (by show b.toNat = 255; omega))).elim
        | following k =>
          rintro ⟨h1, h2⟩
          by_cases hk : k ≤ t.length
          · obtain ⟨v, e, hv⟩ := h1 hk
            rw [h] at e; cases e; exact ⟨_, hv⟩
          · rw [h] at h2
            cases h2 (by omega)
      obtain ⟨n, hu⟩ := hu
      have : ∃ k, lei.toU32 = some k := by
        cases lei <;> first | exact ⟨_, rfl⟩ | cases hu
      obtain ⟨k, hk⟩ := this
      dsimp only
      rw [hk]
      exact .inl ⟨_, _, rfl⟩

theorem delivers_iff {c c1 : Conn} {m : Bytes} (h : recvMsg c = .ok m c1) (Q : Bytes → Prop) :
    (∃ m rest, Spec.Delivers c.inp [m] rest ∧ Q m) ↔ Q m := by
  constructor
  · rintro ⟨m', rest, hd, hq⟩
    obtain ⟨c', e, -⟩ := Delivers.recv hd
    rw [h] at e
    cases e
    exact hq
  · exact fun hq => ⟨m, _, recv_delivers h, hq⟩

theorem not_delivers {c c1 : Conn} {e : Err} (h : recvMsg c = .err e c1) (m rest : Bytes) (ms : List Bytes) :
    ¬ Spec.Delivers c.inp (m :: ms) rest := by
  intro hd
  obtain ⟨c', e, -⟩ := Delivers.recv hd
  rw [h] at e
  cases e

theorem parseColCnt_panic (m : Bytes) (c : Conn) : PanicsWhen (m = [] ∨ m = [0xfb]) (parseColCnt m c) := by
  cases m with
  | nil => exact ⟨fun _ => rfl, fun h => (h (.inl rfl)).elim⟩
  | cons b t =>
    unfold parseColCnt
    dsimp only
    rw [M.bind_apply, getCaps_apply, MR.bind_ok]
    by_cases h1 : b = 0xff
    · rw [if_pos h1]
      subst h1
      exact ⟨fun e => by simp at e, fun _ => Safe.errPacket _ c⟩
    · rw [if_neg h1]
      by_cases h2 : b = 0
      · rw [if_pos h2]
        subst h2
        exact ⟨fun e => by simp at e, fun _ => Safe.bind (Safe.parse (Well.okPacket _) _) (fun _ => Safe.pure _) c⟩
      · rw [if_neg h2]
        have := readColCnt_panic b t h1 c
        exact ⟨fun e => this.1 (by simpa using e), fun e => this.2 (by simpa using e)⟩

theorem newResultSet_panic (sid : Option Nat) (c : Conn) : PanicsWhen (Spec.badHead c.inp) (newResultSet sid c) := by
  unfold newResultSet
  rw [M.bind_apply]
  rcases recvMsg_total c with ⟨m, c1, h⟩ | ⟨e, c1, h⟩
  · have hb : Spec.badHead c.inp ↔ (m = [] ∨ m = [0xfb]) := delivers_iff h _
    rw [h, MR.bind_ok, M.bind_apply, hb]
    have := parseColCnt_panic m c1
    refine ⟨fun hm => by rw [this.1 hm]; rfl, fun hm => ?_⟩
    rcases this.2 hm with ⟨n, c2, h2⟩ | ⟨e, c2, h2⟩
    · rw [h2, MR.bind_ok]
      exact Safe.ite (fun _ => Safe.pure _) (fun _ => Safe.bind (Safe.colDefs n) fun _ => Safe.bind Safe.defsEof fun _ =>
        Safe.pure _) c2
    · rw [h2]; exact .inr ⟨_, _, rfl⟩
  · rw [h]
    exact ⟨fun ⟨m, rest, hd, _⟩ => (not_delivers h m rest [] hd).elim, fun _ => .inr ⟨_, _, rfl⟩⟩

theorem PanicsWhen.afterSend {α : Type} {bs : Bytes} (h : bs.length < 255 * 0xffffff) {bad : Bytes → Prop} {f : Unit → M α}
    (hf : ∀ c, PanicsWhen (bad c.inp) (f () c)) (c : Conn) : PanicsWhen (bad c.inp) ((sendMsg bs true >>= f) c) := by
  obtain ⟨ps, c', -, -, -, h, -, h2, -⟩ := sendMsg_spec bs c (Nat.div_lt_of_lt_mul (by omega))
  rw [M.bind_apply, h, MR.bind_ok, ← h2]
  exact hf c'

/-- C78 for queries: whatever the server sends, the call ends with a value or an error, unless the answer begins with
an empty message or the message 0xfb; then it panics. -/
theorem C78_query_partial (q : Bytes) (hq : q.length + 1 < 255 * 0xffffff) (c : Conn) :
    PanicsWhen (Spec.badHead c.inp) (Query.qry q c) :=
  PanicsWhen.afterSend (bs := (ComQuery.writeTo [] q).1)
    (by have : (ComQuery.writeTo [] q).1 = 0x03 :: q := rfl
        rw [this, List.length_cons]; exact hq) (fun c => newResultSet_panic none c) c

theorem readTerminator_returns (caps : Nat) (m : Bytes) : Safe (readTerminator caps m) := by
  intro c
  unfold readTerminator
  split
  · have := Well.okPacket caps m
    revert this
    cases OkPacket.readFrom caps m with
    | ok a r => exact fun _ => .inl ⟨_, _, rfl⟩
    | err e r => exact fun _ => .inr ⟨_, _, rfl⟩
    | panic => exact False.elim
    | hang => exact False.elim
  · have := Well.eofPacket caps m
    revert this
    cases EofPacket.readFrom caps m with
    | ok a r => exact fun _ => .inl ⟨_, _, rfl⟩
    | err e r => exact fun _ => .inr ⟨_, _, rfl⟩
    | panic => exact False.elim
    | hang => exact False.elim

theorem nextRow_returns {ρ : Type} (read : P ρ) (h : Well read) (rs : ResultSet) : Safe (rs.nextRow read) := by
  unfold ResultSet.nextRow
  refine Safe.ite (fun _ => Safe.pure _) fun _ => Safe.bind Safe.recv fun m => Safe.bind Safe.caps fun caps => ?_
  cases m with
  | nil => exact Safe.fail _
  | cons b t =>
    exact Safe.ite (fun _ => Safe.bind (readTerminator_returns _ _) fun _ => Safe.pure _) fun _ =>
      Safe.bind (Safe.parse h _) fun _ => Safe.pure _

theorem parse_conn {α : Type} {m : Bytes} {p : P α} {c c' : Conn} {a : α} (h : M.parse m p c = .ok a c') : c' = c := by
  unfold M.parse at h
  split at h <;> cases h
  rfl

theorem nextRow_shorter {ρ : Type} (read : P ρ) (rs rs' : ResultSet) (r : ρ) (c c' : Conn)
    (h : rs.nextRow read c = .ok (some r, rs') c') : c'.inp.length < c.inp.length := by
  unfold ResultSet.nextRow at h
  by_cases hc : rs.completed
  · rw [if_pos hc, M.pure_apply] at h
    simp at h
  · rw [if_neg hc, M.bind_apply] at h
    rcases recvMsg_total c with ⟨m, c1, h1⟩ | ⟨e, c1, h1⟩
    · have hs := recv_shorter h1
      rw [h1, MR.bind_ok, M.bind_apply, getCaps_apply, MR.bind_ok] at h
      cases m with
      | nil => cases h
      | cons b t =>
        dsimp only at h
        by_cases ht : b = 0xfe ∧ (b :: t).length ≤ 0xffffff
        · rw [if_pos ht, M.bind_apply] at h
          rcases readTerminator_returns c1.caps (b :: t) c1 with ⟨u, c2, h2⟩ | ⟨e, c2, h2⟩
          · rw [h2, MR.bind_ok, M.pure_apply] at h
            simp at h
          · rw [h2] at h; cases h
        · rw [if_neg ht, M.bind_apply] at h
          cases hp : M.parse (b :: t) read c1 with
          | ok a c2 =>
            rw [hp, MR.bind_ok, M.pure_apply] at h
            cases h
            rw [parse_conn hp]
            exact hs
          | err e c2 => rw [hp] at h; cases h
          | panic => rw [hp] at h; cases h
          | hang => rw [hp] at h; cases h
    · rw [h1] at h; cases h

theorem foldRows_returns {ρ σ : Type} (read : P ρ) (h : Well read) (f : σ → ρ → σ) (s : σ) (rs : ResultSet) (c : Conn) :
    Returns (rs.foldRows read f s c) := by
  induction hn : c.inp.length using Nat.strong_induction_on generalizing s rs c with
  | _ n ih =>
    rw [ResultSet.foldRows]
    rcases nextRow_returns read h rs c with ⟨⟨o, rs'⟩, c', e⟩ | ⟨e', c', e⟩
    · rw [e]
      cases o with
      | none => exact .inl ⟨_, _, rfl⟩
      | some r =>
        have := nextRow_shorter read rs rs' r c c' e
        dsimp only
        rw [if_pos this]
        exact ih _ (hn ▸ this) _ _ _ rfl
    · rw [e]; exact .inr ⟨_, _, rfl⟩

/-- C78 for the rows of a text result set: there is no exception. `all`, `first_or_none` and `count` are loops over
`next_row`; `g` is any row mapper that is a function. -/
theorem C78_text_rows {ρ σ : Type} (rs : ResultSet) (hrs : rs.colDefs.length < 2 ^ 32) (g : List (Option Bytes) → ρ)
    (f : σ → ρ → σ) (s : σ) (c : Conn) :
    Returns (rs.nextRow (mapRow rs.textRow g) c) ∧ Returns (rs.foldRows (mapRow rs.textRow g) f s c) := by
  have hw : Well (mapRow rs.textRow g) := Well.bind (C25_no_panic _ (by omega)) fun _ => Well.pure _
  exact ⟨nextRow_returns _ hw rs c, foldRows_returns _ hw f s rs c⟩

/-- C78 for binary rows without DOUBLE columns (for those see `C24_double_panics_false`). -/
theorem C78_binary_rows_partial {ρ σ : Type} (rs : ResultSet) (hd : ∀ d ∈ rs.colDefs, d.colType ≠ .double)
    (g : List BinaryColumnValue → ρ) (f : σ → ρ → σ) (s : σ) (c : Conn) :
    Returns (rs.nextRow (mapRow rs.binaryRow g) c) ∧ Returns (rs.foldRows (mapRow rs.binaryRow g) f s c) := by
  have hw : Well (mapRow rs.binaryRow g) := Well.bind (C24_no_panic_partial _ (by
    intro h
    obtain ⟨d, h1, h2⟩ := List.mem_map.1 h
    exact hd d h1 h2)) fun _ => Well.pure _
  exact ⟨nextRow_returns _ hw rs c, foldRows_returns _ hw f s rs c⟩

/-! ### execution -/

/-- the stream has an empty message before the first one that begins with 0x00 or 0xff -/
def Spec.emptyBeforeEnd (inp : List UInt8) : Prop :=
  ∃ ms rest, Delivers inp (ms ++ [[]]) rest ∧ ∀ m ∈ ms, ∃ b t, m = b :: t ∧ b ≠ 0 ∧ b ≠ 0xff

theorem execLoop_panic (c : Conn) : PanicsWhen (Spec.emptyBeforeEnd c.inp) (execLoop c) := by
  induction hn : c.inp.length using Nat.strong_induction_on generalizing c with
  | _ n ih =>
    rw [execLoop]
    rcases recvMsg_total c with ⟨m, c1, h⟩ | ⟨e, c1, h⟩
    · rw [h]
      cases m with
      | nil =>
        refine ⟨fun _ => rfl, fun hb => (hb ⟨[], _, recv_delivers h, by simp⟩).elim⟩
      | cons b t =>
        have hinv : Spec.emptyBeforeEnd c.inp ↔ b ≠ 0 ∧ b ≠ 0xff ∧ Spec.emptyBeforeEnd c1.inp := by
          constructor
          · rintro ⟨ms, rest, hd, hm⟩
            cases ms with
            | nil =>
              obtain ⟨c', e, -⟩ := Delivers.recv hd
              rw [h] at e
              cases e
            | cons m ms =>
              obtain ⟨c', e, -, hd', -⟩ := Delivers.recv (m := m) (ms := ms ++ [[]]) hd
              rw [h] at e
              cases e
              obtain ⟨b', t', e, h1, h2⟩ := hm (b :: t) (by simp)
              cases e
              exact ⟨h1, h2, ms, rest, hd', fun m hm' => hm m (by simp [hm'])⟩
          · rintro ⟨h1, h2, ms, rest, hd, hm⟩
            refine ⟨(b :: t) :: ms, rest, delivers_cons (recv_delivers h) _ _ hd, ?_⟩
            intro m hm'
            rcases List.mem_cons.1 hm' with rfl | hm'
            · exact ⟨b, t, rfl, h1, h2⟩
            · exact hm m hm'
        dsimp only
        rw [hinv]
        by_cases h1 : b = 0xff
        · rw [if_pos h1]
          exact ⟨fun hb => (hb.2.1 h1).elim, fun _ => Safe.errPacket _ c1⟩
        · rw [if_neg h1]
          by_cases h2 : b = 0
          · rw [if_pos h2]
            refine ⟨fun hb => (hb.1 h2).elim, fun _ => ?_⟩
            rcases M.parse_total (Well.okPacket c1.caps) (b :: t) c1 with ⟨a, e⟩ | ⟨e', e⟩
            · rw [e]; exact .inl ⟨_, _, rfl⟩
            · rw [e]; exact .inr ⟨_, _, rfl⟩
          · rw [if_neg h2, if_pos (recv_shorter h)]
            have := ih _ (hn ▸ recv_shorter h) c1 rfl
            exact ⟨fun hb => this.1 hb.2.2, fun hb => this.2 fun hb' => hb ⟨h2, h1, hb'⟩⟩
    · rw [h]
      refine ⟨?_, fun _ => .inr ⟨_, _, rfl⟩⟩
      rintro ⟨ms, rest, hd, -⟩
      cases ms with
      | nil => exact (not_delivers h _ _ _ hd).elim
      | cons m ms => exact (not_delivers h _ _ _ hd).elim

/-- C78 for `exec` of a query: the call ends, unless an empty message comes before the first OK or ERR; then it
panics. -/
theorem C78_exec_partial (q : Bytes) (hq : q.length + 1 < 255 * 0xffffff) (c : Conn) :
    PanicsWhen (Spec.emptyBeforeEnd c.inp) (Query.exec q c) :=
  PanicsWhen.afterSend (bs := (ComQuery.writeTo [] q).1)
    (by have : (ComQuery.writeTo [] q).1 = 0x03 :: q := rfl
        rw [this, List.length_cons]; exact hq) (fun c => execLoop_panic c) c

/-- C78 for `prepare`: there is no exception. -/
theorem C78_prepare (q : Bytes) (hq : q.length + 1 < 255 * 0xffffff) (c : Conn) : Returns (Stmt.prepare q c) := by
  have key : Safe (Stmt.prepare q) := by
    unfold Stmt.prepare
    refine Safe.bind (Safe.send _ ?_) fun _ => Safe.bind Safe.recv fun m => ?_
    · have : (ComStmtPrepare.writeTo [] q).1 = 0x16 :: q := rfl
      rw [this, List.length_cons]; exact hq
    · cases m with
      | nil => exact Safe.fail _
      | cons b t =>
        refine Safe.bind (Safe.ite (fun _ => Safe.errPacket _) fun _ => Safe.parse ?_ _) fun ok =>
          Safe.bind (Safe.defs _) fun _ => Safe.bind (Safe.defs _) fun _ => Safe.pure _
        unfold StmtPrepareOk.readFrom
        well
  exact key c

/-- C78 for prepared statements: executing one ends as for queries. -/
theorem C78_stmt_partial (st : PreparedStmt) (hid : st.stmtId < 2 ^ 32) (params : List StmtColumnValue)
    (hsound : ∀ p ∈ params, p.Sound) (c : Conn) :
    ∃ e, Spec.D.all (Spec.D.stmtExecute params.length) e = some ⟨st.stmtId, 0, 1, params.map Spec.serverParam⟩ ∧
    (e.length < 255 * 0xffffff →
      PanicsWhen (Spec.emptyBeforeEnd c.inp) (st.exec params c) ∧
      PanicsWhen (Spec.emptyBeforeEnd c.inp) (st.execClose params c) ∧
      PanicsWhen (Spec.badHead c.inp) (st.qry params c)) := by
  obtain ⟨cmd, e, h1, h2, h3⟩ := C22_server_sees_parameters_partial st.stmtId params hid hsound
  refine ⟨e, h3, fun hn => ?_⟩
  have hsend : st.send params = sendMsg e true := by
    unfold PreparedStmt.send
    rw [h1]
    dsimp only
    rw [h2]
    rfl
  have hexec : PanicsWhen (Spec.emptyBeforeEnd c.inp) (st.exec params c) := by
    unfold PreparedStmt.exec
    rw [hsend]
    exact PanicsWhen.afterSend hn (fun c => execLoop_panic c) c
  refine ⟨hexec, ?_, ?_⟩
  · have hclose : Safe st.close := Safe.send _ (by
      have : (ComStmtClose.writeTo [] st.stmtId).1.length = 5 := rfl
      rw [this]; norm_num)
    unfold PreparedStmt.execClose
    refine ⟨fun hb => by rw [hexec.1 hb], fun hb => ?_⟩
    rcases hexec.2 hb with ⟨a, c', h⟩ | ⟨e, c', h⟩
    · rw [h]
      rcases hclose c' with ⟨a, c', h⟩ | ⟨e, c', h⟩
      · simp only [h]; exact .inl ⟨_, _, rfl⟩
      · simp only [h]; exact .inl ⟨_, _, rfl⟩
    · rw [h]
      rcases hclose c' with ⟨a, c', h⟩ | ⟨e, c', h⟩
      · simp only [h]; exact .inr ⟨_, _, rfl⟩
      · simp only [h]; exact .inr ⟨_, _, rfl⟩
  · unfold PreparedStmt.qry
    rw [hsend]
    exact PanicsWhen.afterSend hn (fun c => newResultSet_panic _ c) c

/-! ### the other commands -/

/-- C78 for the commands with a single answer: there is no exception (see also C61_no_panic and C64_no_panic). -/
theorem C78_commands (multi : Bool) (c : Conn) :
    Returns (Cmd.ping c) ∧ Returns (Cmd.statistics c) ∧ Returns (Cmd.debug c) ∧ Returns (Cmd.setMultiStmts multi c) ∧
    Returns (Cmd.quit c) := by
  have h1 : ∀ cmd, Safe (sendMsg (writeSingleByteCmd [] cmd).1 true) := fun cmd => Safe.send _ (by
    have : (writeSingleByteCmd [] cmd).1.length = 1 := rfl
    rw [this]; norm_num)
  have hcap : ∀ f, Safe (insertCap f) ∧ Safe (removeCap f) := fun f => ⟨fun _ => .inl ⟨_, _, rfl⟩, fun _ => .inl ⟨_, _, rfl⟩⟩
  refine ⟨?_, ?_, ?_, ?_, h1 _ c⟩
  · exact Safe.bind (h1 _) (fun _ => Safe.bind Safe.recv fun m => Safe.bind Safe.caps fun _ =>
      Safe.bind (Safe.parse (Well.okPacket _) m) fun _ => Safe.pure _) c
  · exact Safe.bind (h1 _) (fun _ => Safe.bind Safe.recv fun m => Safe.ite (fun _ => Safe.pure _) fun _ => Safe.fail _) c
  · refine Safe.bind (h1 _) (fun _ => Safe.bind Safe.recv fun m => Safe.bind Safe.caps fun _ =>
      Safe.bind (Safe.parse (C16_no_panic _).2.2.2 m) fun r => ?_) c
    cases r
    · exact Safe.pure _
    · exact Safe.fail _
  · refine Safe.bind (Safe.send _ ?_) (fun _ => Safe.bind Safe.recv fun m => Safe.bind Safe.caps fun _ =>
      Safe.bind (Safe.parse (C16_no_panic _).2.2.2 m) fun r => ?_) c
    · have : (ComSetOption.writeTo [] multi).1.length = 3 := by cases multi <;> rfl
      rw [this]; norm_num
    · cases r
      · exact Safe.ite (fun _ => (hcap _).1) fun _ => (hcap _).2
      · exact Safe.fail _

theorem PanicsWhen.bind {α β : Type} {bad : Prop} {p : M α} {c : Conn} (h : PanicsWhen bad (p c)) {f : α → M β}
    (hf : ∀ a c', p c = .ok a c' → Returns (f a c')) : PanicsWhen bad ((p >>= f) c) := by
  rw [M.bind_apply]
  refine ⟨fun hb => by rw [h.1 hb]; rfl, fun hb => ?_⟩
  rcases h.2 hb with ⟨a, c', e⟩ | ⟨e', c', e⟩
  · rw [e]; exact hf a c' e
  · rw [e]; exact .inr ⟨_, _, rfl⟩

theorem recvColDefs_length (n : Nat) (c c' : Conn) (ds : List ColumnDefinition) (h : recvColDefs n c = .ok ds c') :
    ds.length = n := by
  induction n generalizing c c' ds with
  | zero => cases h; rfl
  | succ n ih =>
    unfold recvColDefs at h
    rw [M.bind_apply] at h
    rcases recvMsg_total c with ⟨m, c1, h1⟩ | ⟨e, c1, h1⟩
    · rw [h1, MR.bind_ok, M.bind_apply] at h
      rcases M.parse_total (C49_no_panic false) m c1 with ⟨d, h2⟩ | ⟨e, h2⟩
      · rw [h2, MR.bind_ok, M.bind_apply] at h
        rcases Safe.colDefs n c1 with ⟨ds', c2, h3⟩ | ⟨e, c2, h3⟩
        · rw [h3, MR.bind_ok, M.pure_apply] at h
          cases h
          simp [ih _ _ _ h3]
        · rw [h3] at h; cases h
      · rw [h2] at h; cases h
    · rw [h1] at h; cases h

theorem fixed_bound {k : Nat} {r : P Nat} (hr : FixedRead k leVal r) {bs rest : Bytes} {n : Nat} (h : r bs = .ok n rest) :
    n < 256 ^ k := by
  by_cases hk : k ≤ bs.length
  · rw [(hr bs).1 hk] at h
    cases h
    have := leVal_lt (bs.take k)
    rwa [List.length_take, Nat.min_eq_left hk] at this
  · rw [(hr bs).2 (by omega)] at h
    cases h

theorem lei_bound (m r : Bytes) (lei : LenEncInt) (n : Nat) (h : readLenEncInt m = .ok lei r) (hn : lei.toU32 = some n) :
    n < 2 ^ 32 := by
  cases m with
  | nil => cases h
  | cons b t =>
    have hb := b.toNat_lt
    have hof : ∀ k : Nat, b.toNat = k → b = UInt8.ofNat k := fun k h => by rw [← h]; simp
    by_cases h1 : b.toNat < 251
    · rw [readLenEncInt_cons_len1 b t h1] at h
      cases h
      cases hn
      omega
    · have hc : b.toNat = 0xfb ∨ b.toNat = 0xfc ∨ b.toNat = 0xfd ∨ b.toNat = 0xfe ∨ b.toNat = 0xff := by omega
      rcases hc with hc | hc | hc | hc | hc
      · rw [hof _ hc, show UInt8.ofNat 0xfb = 0xfb from rfl, readLenEncInt_fb] at h
        cases h; cases hn
      · rw [hof _ hc, show UInt8.ofNat 0xfc = 0xfc from rfl, readLenEncInt_fc] at h
        cases hr : readLeU16 t with
        | ok k r' =>
          rw [hr] at h
          cases h; cases hn
          exact lt_trans (fixed_bound (fixedRead_readFixed 2 leVal) hr) (by norm_num)
        | err e r' => rw [hr] at h; cases h
        | panic => rw [hr] at h; cases h
        | hang => rw [hr] at h; cases h
      · rw [hof _ hc, show UInt8.ofNat 0xfd = 0xfd from rfl, readLenEncInt_fd] at h
        cases hr : readLeU24 t with
        | ok k r' =>
          rw [hr] at h
          cases h; cases hn
          exact lt_trans (fixed_bound fixedRead_leU24 hr) (by norm_num)
        | err e r' => rw [hr] at h; cases h
        | panic => rw [hr] at h; cases h
        | hang => rw [hr] at h; cases h
      · rw [hof _ hc, show UInt8.ofNat 0xfe = 0xfe from rfl, readLenEncInt_fe] at h
        cases hr : readLeU64 t with
        | ok k r' =>
          rw [hr] at h
          cases h; cases hn
          exact Nat.mod_lt _ (by norm_num)
        | err e r' => rw [hr] at h; cases h
        | panic => rw [hr] at h; cases h
        | hang => rw [hr] at h; cases h
      · rw [hof _ hc, show UInt8.ofNat 0xff = 0xff from rfl, readLenEncInt_ff] at h
        cases h; cases hn

theorem parseColCnt_bound (m : Bytes) (c c' : Conn) (n : Nat) (h : parseColCnt m c = .ok n c') : n < 2 ^ 32 := by
  cases m with
  | nil => cases h
  | cons b t =>
    unfold parseColCnt at h
    dsimp only at h
    rw [M.bind_apply, getCaps_apply, MR.bind_ok] at h
    split_ifs at h with h1 h2
    · unfold failWithErrPacket at h
      rw [M.bind_apply, getCaps_apply, MR.bind_ok, M.bind_apply] at h
      rcases M.parse_total (Well.errPacket c.caps true) (b :: t) c with ⟨a, e⟩ | ⟨e', e⟩
      · rw [e] at h; cases h
      · rw [e] at h; cases h
    · rw [M.bind_apply] at h
      rcases M.parse_total (Well.okPacket c.caps) (b :: t) c with ⟨a, e⟩ | ⟨e', e⟩
      · rw [e] at h; cases h; norm_num
      · rw [e] at h; cases h
    · unfold readColCnt at h
      split at h
      · rename_i lei r hl
        split at h
        · rename_i k hk
          cases h
          exact lei_bound _ _ _ _ hl hk
        · split at h <;> cases h
      all_goals cases h

theorem newResultSet_bound (sid : Option Nat) (c c' : Conn) (rs : ResultSet) (h : newResultSet sid c = .ok rs c') :
    rs.colDefs.length < 2 ^ 32 := by
  unfold newResultSet at h
  rw [M.bind_apply] at h
  rcases recvMsg_total c with ⟨m, c1, h1⟩ | ⟨e, c1, h1⟩
  · rw [h1, MR.bind_ok, M.bind_apply] at h
    cases h2 : parseColCnt m c1 with
    | ok n c2 =>
      have hn := parseColCnt_bound m c1 c2 n h2
      rw [h2, MR.bind_ok] at h
      by_cases h0 : n = 0
      · rw [if_pos h0, M.pure_apply] at h
        cases h; norm_num
      · rw [if_neg h0, M.bind_apply] at h
        rcases Safe.colDefs n c2 with ⟨ds, c3, h3⟩ | ⟨e, c3, h3⟩
        · rw [h3, MR.bind_ok, M.bind_apply] at h
          rcases Safe.defsEof c3 with ⟨u, c4, h4⟩ | ⟨e, c4, h4⟩
          · rw [h4, MR.bind_ok, M.pure_apply] at h
            cases h
            show ds.length < _
            rwa [recvColDefs_length _ _ _ _ h3]
          · rw [h4] at h; cases h
        · rw [h3] at h; cases h
    | err e c2 => rw [h2] at h; cases h
    | panic => rw [h2] at h; cases h
    | hang => rw [h2] at h; cases h
  · rw [h1] at h; cases h

theorem query_bound (q : Bytes) (c c' : Conn) (rs : ResultSet) (h : Query.qry q c = .ok rs c') :
    rs.colDefs.length < 2 ^ 32 := by
  unfold Query.qry at h
  rw [M.bind_apply] at h
  cases hs : sendMsg (ComQuery.writeTo [] q).1 true c with
  | ok u c1 => rw [hs, MR.bind_ok] at h; exact newResultSet_bound _ _ _ _ h
  | err e c1 => rw [hs] at h; cases h
  | panic => rw [hs] at h; cases h
  | hang => rw [hs] at h; cases h

theorem nextRow_value {ρ : Type} (read : P ρ) (rs rs' : ResultSet) (r : ρ) (c c' : Conn)
    (h : rs.nextRow read c = .ok (some r, rs') c') : ∃ m rest, read m = .ok r rest := by
  unfold ResultSet.nextRow at h
  by_cases hc : rs.completed
  · rw [if_pos hc, M.pure_apply] at h
    simp at h
  · rw [if_neg hc, M.bind_apply] at h
    rcases recvMsg_total c with ⟨m, c1, h1⟩ | ⟨e, c1, h1⟩
    · rw [h1, MR.bind_ok, M.bind_apply, getCaps_apply, MR.bind_ok] at h
      cases m with
      | nil => cases h
      | cons b t =>
        dsimp only at h
        by_cases ht : b = 0xfe ∧ (b :: t).length ≤ 0xffffff
        · rw [if_pos ht, M.bind_apply] at h
          rcases readTerminator_returns c1.caps (b :: t) c1 with ⟨u, c2, h2⟩ | ⟨e, c2, h2⟩
          · rw [h2, MR.bind_ok, M.pure_apply] at h
            simp at h
          · rw [h2] at h; cases h
        · rw [if_neg ht, M.bind_apply] at h
          unfold M.parse at h
          cases hp : read (b :: t) with
          | ok a r' =>
            rw [hp] at h
            simp only [MR.bind_ok, M.pure_apply] at h
            cases h
            exact ⟨_, _, hp⟩
          | err e c2 => rw [hp] at h; cases h
          | panic => rw [hp] at h; cases h
          | hang => rw [hp] at h; cases h
    · rw [h1] at h; cases h

theorem foldRows_inv {ρ σ : Type} (read : P ρ) (f : σ → ρ → σ) (Inv : σ → Prop)
    (hstep : ∀ s r m rest, Inv s → read m = .ok r rest → Inv (f s r)) (s : σ) (hs : Inv s) (rs : ResultSet) (c c' : Conn)
    (s' : σ) (h : rs.foldRows read f s c = .ok s' c') : Inv s' := by
  induction hn : c.inp.length using Nat.strong_induction_on generalizing s rs c with
  | _ n ih =>
    rw [ResultSet.foldRows] at h
    cases he : rs.nextRow read c with
    | ok v c1 =>
      obtain ⟨o, rs'⟩ := v
      rw [he] at h
      cases o with
      | none => cases h; exact hs
      | some r =>
        dsimp only at h
        split_ifs at h with hl
        obtain ⟨m, rest, hr⟩ := nextRow_value read rs rs' r c c1 he
        exact ih _ (hn ▸ hl) (f s r) (hstep s r m rest hs hr) rs' c1 h rfl
    | err e c1 => rw [he] at h; cases h
    | panic => rw [he] at h; cases h
    | hang => rw [he] at h; cases h

theorem mapRow_value {ρ τ : Type} {read : P ρ} {g : ρ → τ} {m rest : Bytes} {v : τ} (h : mapRow read g m = .ok v rest) :
    ∃ r, v = g r := by
  unfold mapRow at h
  rw [P.bind_eq_ok] at h
  obtain ⟨r, r1, -, h⟩ := h
  rw [P.pure_eq_ok] at h
  exact ⟨r, h.1.symm⟩

theorem getColAs_ne_panic {γ α : Type} (conv : γ → Res α) (hconv : ∀ v, conv v ≠ .panic) (row : List γ) (i : Nat) :
    getColAs conv row i ≠ .panic := by
  unfold getColAs
  split
  · exact hconv _
  · simp

/-- C78 for reading variables, with any conversion that does not panic. -/
theorem C78_variables_partial {α : Type} (conv : Option Bytes → Res α) (hconv : ∀ v, conv v ≠ .panic) (name : Bytes)
    (hn : name.length + 64 < 255 * 0xffffff) (global : Bool) (c : Conn) :
    PanicsWhen (Spec.badHead c.inp) (Cmd.getVar conv name global c) ∧
    PanicsWhen (Spec.badHead c.inp) (Cmd.getUserVar conv name c) := by
  have hfirst : ∀ (i : Nat) (rs : ResultSet) (c : Conn), rs.colDefs.length < 2 ^ 32 →
      Returns (Cmd.firstMapped (fun row => getColAs conv row i) rs c) := by
    intro i rs c hrs
    unfold Cmd.firstMapped
    rw [M.bind_apply]
    unfold ResultSet.firstOrNone
    rcases (C78_text_rows rs hrs (fun row => getColAs conv row i)
      (fun first r => if first.isNone then some r else first) none c).2 with ⟨o, c', h⟩ | ⟨e, c', h⟩
    · have hinv := foldRows_inv _ _ (fun o : Option (Res α) => ∀ v, o = some v → v ≠ .panic) (by
        intro s r m rest hs hr v hv
        obtain ⟨row, rfl⟩ := mapRow_value hr
        cases s with
        | none => cases hv; exact getColAs_ne_panic conv hconv row i
        | some s => exact hs v hv) none (by simp) rs c c' o h
      rw [h, MR.bind_ok]
      cases o with
      | none => exact Safe.pure _ c'
      | some v => exact Safe.bind (Safe.ofRes v (hinv v rfl)) (fun _ => Safe.pure _) c'
    · rw [h]
      exact .inr ⟨_, _, rfl⟩
  constructor
  · unfold Cmd.getVar
    refine PanicsWhen.bind (C78_query_partial _ ?_ c) fun rs c' h => hfirst 1 rs c' (query_bound _ _ _ _ h)
    have h1 : (Cmd.str "SHOW GLOBAL VARIABLES LIKE '").length = 28 := by decide
    have h2 : (Cmd.str "SHOW VARIABLES LIKE '").length = 21 := by decide
    have h3 : (Cmd.str "'").length = 1 := by decide
    split <;> simp only [List.length_append, h1, h2, h3] <;> omega
  · unfold Cmd.getUserVar
    refine PanicsWhen.bind (C78_query_partial _ ?_ c) fun rs c' h => hfirst 0 rs c' (query_bound _ _ _ _ h)
    have h1 : (Cmd.str "SELECT @").length = 8 := by decide
    simp only [List.length_append, h1]
    omega

theorem nonNull_ne_panic {γ α : Type} (conv : Conv γ α) (h : ∀ v, conv v ≠ .panic) (v : γ) : conv.nonNull v ≠ .panic := by
  unfold Conv.nonNull
  have := h v
  split <;> simp_all

theorem fromText_ne_panic {α : Type} (f : Bytes → Option α) (v : Option Bytes) : fromText f v ≠ .panic := by
  unfold fromText
  repeat' split
  all_goals simp

theorem binlogFileMapper_ne_panic (row : List (Option Bytes)) : Cmd.binlogFileMapper row ≠ .panic := by
  have h0 := getColAs_ne_panic _ (nonNull_ne_panic stringFromText (fromText_ne_panic _)) row 0
  have h1 := getColAs_ne_panic _ (nonNull_ne_panic (uintFromText 64) (fromText_ne_panic _)) row 1
  unfold Cmd.binlogFileMapper
  show Res.bind _ _ ≠ _
  cases e0 : getColAs stringFromText.nonNull row 0 with
  | panic => exact (h0 e0).elim
  | err e => simp [Res.bind]
  | ok a =>
    show Res.bind _ _ ≠ _
    cases e1 : getColAs (uintFromText 64).nonNull row 1 with
    | panic => exact (h1 e1).elim
    | err e => exact fun h => by cases h
    | ok b => exact fun h => by cases h

theorem nextRow_defs {ρ : Type} (read : P ρ) (rs rs' : ResultSet) (o : Option ρ) (c c' : Conn)
    (h : rs.nextRow read c = .ok (o, rs') c') : rs'.colDefs = rs.colDefs := by
  unfold ResultSet.nextRow at h
  by_cases hc : rs.completed
  · rw [if_pos hc, M.pure_apply] at h
    cases h; rfl
  · rw [if_neg hc, M.bind_apply] at h
    rcases recvMsg_total c with ⟨m, c1, h1⟩ | ⟨e, c1, h1⟩
    · rw [h1, MR.bind_ok, M.bind_apply, getCaps_apply, MR.bind_ok] at h
      cases m with
      | nil => cases h
      | cons b t =>
        dsimp only at h
        by_cases ht : b = 0xfe ∧ (b :: t).length ≤ 0xffffff
        · rw [if_pos ht, M.bind_apply] at h
          rcases readTerminator_returns c1.caps (b :: t) c1 with ⟨u, c2, h2⟩ | ⟨e, c2, h2⟩
          · rw [h2, MR.bind_ok, M.pure_apply] at h
            cases h; rfl
          · rw [h2] at h; cases h
        · rw [if_neg ht, M.bind_apply] at h
          cases hp : M.parse (b :: t) read c1 with
          | ok a c2 =>
            rw [hp, MR.bind_ok, M.pure_apply] at h
            cases h; rfl
          | err e c2 => rw [hp] at h; cases h
          | panic => rw [hp] at h; cases h
          | hang => rw [hp] at h; cases h
    · rw [h1] at h; cases h

/-- C78 for listing the log files of the server and its threads. -/
theorem C78_lists_partial (c : Conn) :
    PanicsWhen (Spec.badHead c.inp) (Cmd.binlogFiles c) ∧ PanicsWhen (Spec.badHead c.inp) (Cmd.processInfo c) := by
  have hloop : ∀ (n : Nat) (rs : ResultSet) (files : List Cmd.BinlogFile) (c : Conn), c.inp.length = n →
      rs.colDefs.length < 2 ^ 32 → Returns (Cmd.filesLoop rs files c) := by
    intro n
    induction n using Nat.strong_induction_on with
    | _ n ih =>
      intro rs files c hn hrs
      rw [Cmd.filesLoop]
      have hw : Well (mapRow rs.textRow Cmd.binlogFileMapper) := Well.bind (C25_no_panic _ (by omega)) fun _ => Well.pure _
      rcases nextRow_returns _ hw rs c with ⟨⟨o, rs'⟩, c', h⟩ | ⟨e, c', h⟩
      · rw [h]
        have hrs' : rs'.colDefs = rs.colDefs := nextRow_defs _ _ _ _ _ _ h
        cases o with
        | none => exact .inl ⟨_, _, rfl⟩
        | some r =>
          have hl := nextRow_shorter _ _ _ _ _ _ h
          cases r with
          | ok f =>
            dsimp only
            rw [if_pos hl]
            exact ih _ (hn ▸ hl) rs' _ c' rfl (hrs' ▸ hrs)
          | err e => exact .inr ⟨_, _, rfl⟩
          | panic =>
            obtain ⟨m, rest, hr⟩ := nextRow_value _ _ _ _ _ _ h
            obtain ⟨row, hr⟩ := mapRow_value hr
            exact (binlogFileMapper_ne_panic row hr.symm).elim
      · rw [h]; exact .inr ⟨_, _, rfl⟩
  constructor
  · unfold Cmd.binlogFiles
    exact PanicsWhen.bind (C78_query_partial _ (by decide) c) fun rs c' h => hloop _ rs [] c' rfl (query_bound _ _ _ _ h)
  · exact PanicsWhen.afterSend (by decide) (fun c => newResultSet_panic none c) c

/-! ### connecting -/

/-- a server that, after its greeting, neither asks for another method (a message that begins with 0xfe) nor numbers a
packet 254 -/
def Spec.NoSwitch (inp : List UInt8) : Prop :=
  ∀ (runs : List (List Packet)) (rest : List UInt8), (∀ r ∈ runs, IsMessage r) → inp = (runs.map wire).flatten ++ rest →
    ∀ r ∈ runs, (payload r).head? ≠ some 0xfe ∧ ∀ p ∈ r, p.seq ≠ 254

theorem plain_recv {c c1 : Conn} {m : Bytes} (hp : Spec.NoSwitch c.inp) (h : recvMsg c = .ok m c1) :
    m.head? ≠ some 0xfe ∧ c1.pktNr < 255 ∧ Spec.NoSwitch c1.inp := by
  obtain ⟨ps, h1, h2, h3⟩ := C11_recv_sound c c1 m h
  have hh := hp [ps] c1.inp (by simpa using h1) (by simpa using h2) ps (by simp)
  refine ⟨h3 ▸ hh.1, ?_, ?_⟩
  · obtain ⟨nr, e, hnr⟩ := C11_recv_message ps h1 c1.inp c h2
    rw [h] at e
    obtain ⟨init, last, rfl, -, -, hs⟩ := h1
    have e1 := hnr last (by simp)
    have e2 : c1.pktNr = nr := by
      simp only [MR.ok.injEq] at e
      rw [e.2]
    have e3 := hs last (by simp)
    have e4 := hh.2 last (by simp)
    omega
  · intro runs rest hr he r hm
    exact hp (ps :: runs) rest (by
      intro r hr'
      rcases List.mem_cons.1 hr' with rfl | hr'
      · exact h1
      · exact hr r hr') (by rw [h2, he]; simp) r (by simp [hm])

/-- the plugins of the client: no TLS -/
def PluginOk : AuthPlugin → Prop
  | .native _ => True
  | .cachingSha2 _ _ _ ssl => ssl = false

theorem newAuthPlugin_ok (name : Bytes) (pl : AuthPlugin) (h : newAuthPlugin name = .ok pl) :
    PluginOk pl ∧ name.length = 21 := by
  unfold newAuthPlugin at h
  split_ifs at h with h1 h2
  · cases h; exact ⟨trivial, by rw [h1]; decide⟩
  · cases h; exact ⟨rfl, by rw [h2]; decide⟩

theorem xorBytes_length_le (a b : Bytes) : (xorBytes a b).length ≤ a.length := by
  unfold xorBytes
  rw [List.length_zipWith]
  omega

theorem next_ok (H : Hashes) (hH : H.Sized) (pl pl' : AuthPlugin) (hp : PluginOk pl) (input out : Bytes)
    (h : pl.next H input = .ok (out, pl')) : PluginOk pl' ∧ out.length ≤ 32 := by
  cases pl with
  | native password =>
    unfold AuthPlugin.next at h
    dsimp only at h
    split_ifs at h <;> cases h
    · exact ⟨trivial, by simp⟩
    · have := xorBytes_length_le (H.sha1 (input ++ H.sha1 (H.sha1 password))) (H.sha1 password)
      rw [hH.sha1] at this
      exact ⟨trivial, le_trans this (by norm_num)⟩
  | cachingSha2 password seed stage ssl =>
    have hs : ssl = false := hp
    subst hs
    unfold AuthPlugin.next at h
    dsimp only at h
    split_ifs at h
    · cases h; exact ⟨rfl, by simp⟩
    · cases stage with
      | sendScramble =>
        cases h
        have := xorBytes_length_le (H.sha256 password) (H.sha256 (H.sha256 (H.sha256 password) ++ seed))
        rw [hH.sha256] at this
        exact ⟨rfl, this⟩
      | readResult =>
        cases input with
        | nil => cases h
        | cons b t =>
          dsimp only at h
          split_ifs at h
          · cases h; exact ⟨rfl, by simp⟩
          · cases h
      | complete => cases h
      | fullAuth => cases h

theorem setCredential_ok (password : Bytes) (pl : AuthPlugin) (h : PluginOk pl) : PluginOk (pl.setCredential password) := by
  cases pl <;> exact h

theorem send_small (bs : Bytes) (hb : bs.length < 2 ^ 24 - 1) (c : Conn) (hn : c.pktNr < 255) :
    ∃ c', sendMsg bs false c = .ok () c' ∧ c'.inp = c.inp := by
  have h0 : bs.length / maxPacket = 0 := Nat.div_eq_of_lt (by unfold maxPacket; omega)
  obtain ⟨ps, -, -, -, -, h⟩ := sendLoop_spec bs c (by rw [h0]; omega)
  exact ⟨_, h, rfl⟩

theorem handshakeLoop_returns (H : Hashes) (hH : H.Sized) (caps : Nat) (pl : AuthPlugin) (hp : PluginOk pl) (c : Conn)
    (hc : Spec.NoSwitch c.inp) : Returns (handshakeLoop H caps pl c) := by
  induction hn : c.inp.length using Nat.strong_induction_on generalizing pl c with
  | _ n ih =>
    rw [handshakeLoop.eq_def]
    rcases recvMsg_total c with ⟨m, c1, h⟩ | ⟨e, c1, h⟩
    · obtain ⟨g1, g2, g3⟩ := plain_recv hc h
      have hl := recv_shorter h
      rw [h]
      dsimp only
      rcases M.parse_total (Well.handshakeMessage caps) m c1 with ⟨a, e⟩ | ⟨e', e⟩
      · rw [e]
        cases a with
        | ok p => exact .inl ⟨_, _, rfl⟩
        | err p => exact .inr ⟨_, _, rfl⟩
        | switch s =>
          exfalso
          cases m with
          | nil => cases e
          | cons b t =>
            have hb : b ≠ 0xfe := by simpa using g1
            obtain ⟨h1, h2, h3, -, h5, -⟩ := C16_handshake_message caps b t
            unfold M.parse at e
            by_cases b0 : b = 0
            · rw [h1 b0] at e
              revert e
              cases OkPacket.readFrom caps (b :: t) <;> intro e <;> cases e
            · by_cases b1 : b = 1
              · rw [h2 b1] at e
                cases e
              · by_cases b2 : b = 0xff
                · rw [h3 b2] at e
                  revert e
                  cases ErrPacket.readFrom caps false (b :: t) <;> intro e <;> cases e
                · rw [h5 b0 b1 b2 hb] at e
                  cases e
        | moreData d =>
          dsimp only
          cases hnx : pl.next H d.pluginData with
          | error e => exact .inr ⟨_, _, rfl⟩
          | ok v =>
            obtain ⟨resp, pl'⟩ := v
            obtain ⟨k1, k2⟩ := next_ok H hH pl pl' hp _ _ hnx
            dsimp only
            by_cases hr : resp.isEmpty
            · rw [if_pos hr, M.pure_apply]
              dsimp only
              rw [if_pos hl]
              exact ih _ (hn ▸ hl) pl' k1 c1 g3 rfl
            · rw [if_neg hr]
              obtain ⟨c2, s1, s2⟩ := send_small resp (by omega) c1 g2
              rw [s1]
              dsimp only
              rw [s2, if_pos hl]
              exact ih c2.inp.length (by rw [s2]; exact hn ▸ hl) pl' k1 c2 (by rw [s2]; exact g3) rfl
      · rw [e]; exact .inr ⟨_, _, rfl⟩
    · rw [h]; exact .inr ⟨_, _, rfl⟩

/-- a greeting that sets SECURE_CONNECTION and announces fewer than eight bytes of authentication data -/
def Spec.ShortNonce (m : List UInt8) : Prop :=
  ∃ (proto : UInt8) (version id data1 filler : List UInt8) (lo0 lo1 charset : UInt8) (status hi : List UInt8) (len : UInt8)
    (reserved rest : List UInt8), 0 ∉ version ∧ id.length = 4 ∧ data1.length = 8 ∧ filler.length = 1 ∧ 128 ≤ lo1.toNat ∧
    status.length = 2 ∧ hi.length = 2 ∧ len.toNat < 8 ∧ reserved.length = 10 ∧
    m = proto :: (version ++ 0 :: (id ++ (data1 ++ (filler ++ (lo0 :: lo1 :: charset :: (status ++ (hi ++ (len :: (reserved ++ rest)))))))))

theorem bind_panic {α β : Type} {x : P α} (hx : Well x) {f : α → P β} {bs : Bytes} :
    (x >>= f) bs = .panic ↔ ∃ a r, x bs = .ok a r ∧ f a r = .panic := by
  have := hx bs
  rw [P.bind_apply]
  cases h : x bs with
  | ok a r => simp [R.bind]
  | err e r => simp [R.bind]
  | panic => rw [h] at this; exact this.elim
  | hang => rw [h] at this; exact this.elim

theorem bind_not_hang {α β : Type} {x : P α} {f : α → P β} {bs : Bytes} (hx : x bs ≠ .hang)
    (hf : ∀ a r, x bs = .ok a r → f a r ≠ .hang) : (x >>= f) bs ≠ .hang := by
  rw [P.bind_apply]
  cases h : x bs with
  | ok a r => exact hf a r h
  | err e r => simp [R.bind]
  | panic => simp [R.bind]
  | hang => exact (hx h).elim

theorem Well.ne_hang {α : Type} {x : P α} (h : Well x) (bs : Bytes) : x bs ≠ .hang := by
  have := h bs
  intro e
  rw [e] at this
  exact this

theorem Well.ne_panic {α : Type} {x : P α} (h : Well x) (bs : Bytes) : x bs ≠ .panic := by
  have := h bs
  intro e
  rw [e] at this
  exact this

theorem readUntil_eq_ok {x : Bytes} {bs r : Bytes} : readUntil 0 false bs = .ok x r ↔ 0 ∉ x ∧ bs = x ++ 0 :: r := by
  constructor
  · intro h
    by_cases h0 : (0 : UInt8) ∈ bs
    · obtain ⟨a, b, rfl, ha⟩ : ∃ a b, bs = a ++ 0 :: b ∧ (0 : UInt8) ∉ a := List.eq_append_cons_of_mem h0
      rw [readUntil_append 0 a b ha] at h
      cases h
      exact ⟨ha, rfl⟩
    · rw [readUntil_none 0 false bs h0] at h
      cases h
  · rintro ⟨h, rfl⟩
    exact readUntil_append 0 x r h

theorem readLeU16_eq_ok {bs r : Bytes} {n : Nat} :
    readLeU16 bs = .ok n r ↔ ∃ a b : UInt8, bs = a :: b :: r ∧ n = a.toNat + 256 * b.toNat := by
  show readFixed 2 leVal bs = _ ↔ _
  rw [readFixed_eq_ok]
  constructor
  · rintro ⟨h1, h2, h3⟩
    rcases bs with _ | ⟨a, _ | ⟨b, t⟩⟩
    · simp at h1
    · simp at h1
    · exact ⟨a, b, by simp [h3], by simp [h2, leVal]⟩
  · rintro ⟨a, b, rfl, rfl⟩
    simp [leVal]

theorem readLeU32_eq_ok {bs r : Bytes} {n : Nat} :
    readLeU32 bs = .ok n r ↔ ∃ x : Bytes, x.length = 4 ∧ bs = x ++ r ∧ n = leVal x := by
  show readFixed 4 leVal bs = _ ↔ _
  rw [readFixed_eq_ok]
  constructor
  · rintro ⟨h1, h2, h3⟩
    exact ⟨bs.take 4, by simp; omega, by simp [h3], h2⟩
  · rintro ⟨x, h, rfl, rfl⟩
    exact ⟨by simp; omega, by rw [← h, List.take_left], by rw [← h, List.drop_left]⟩

theorem secure_bit (lo0 lo1 : UInt8) (hi : Nat) :
    hasFlag ((lo0.toNat + 256 * lo1.toNat ||| hi <<< 16) &&& Cap.ALL) Cap.SECURE_CONNECTION = true ↔ 128 ≤ lo1.toNat := by
  rw [caps_secure, Nat.testBit_and, Nat.testBit_or, Nat.testBit_shiftLeft]
  have e : Nat.testBit Cap.ALL Spec.SECURE_CONNECTION = true := by decide
  have e2 : decide (Spec.SECURE_CONNECTION ≥ 16) = false := by decide
  rw [e, e2, Bool.and_true, Bool.false_and, Bool.or_false]
  have := lo0.toNat_lt
  have := lo1.toNat_lt
  show Nat.testBit _ 15 = true ↔ _
  rw [Nat.testBit_eq_decide_div_mod_eq]
  simp only [decide_eq_true_eq]
  omega

theorem nonce_panic {β : Type} {c : Prop} [Decidable c] {n k : Nat} {g : Bytes → P β} (hg : ∀ a, Well (g a)) {r : Bytes} :
    ((if c then (if n < 8 then P.panic else readLen k) else pure []) >>= g) r = .panic ↔ c ∧ n < 8 := by
  by_cases hc : c
  · by_cases hn : n < 8
    · simp only [hc, hn, if_true, and_self, iff_true]
      rfl
    · simp only [hc, hn, if_true, if_false, and_false, iff_false]
      exact (Well.bind (Well.len k) hg).ne_panic r
  · simp only [hc, if_false, false_and, iff_false]
    exact (hg []).ne_panic r

theorem greeting_panic (m : Bytes) : InitialHandshake.readFrom m = .panic ↔ Spec.ShortNonce m := by
  unfold InitialHandshake.readFrom
  simp only [bind_panic Well.u8, bind_panic (Well.until_ 0 false), bind_panic Well.leU32, bind_panic (Well.len _),
    bind_panic Well.leU16, readU8_eq_ok, readUntil_eq_ok, readLeU32_eq_ok, readLen_eq_ok, readLeU16_eq_ok]
  constructor
  · rintro ⟨_, _, ⟨proto, rfl, rfl⟩, version, _, ⟨hv, rfl⟩, _, _, ⟨id, hid, rfl, rfl⟩, data1, _, ⟨h1, rfl⟩, filler, _, ⟨hf, rfl⟩,
      _, _, ⟨lo0, lo1, rfl, rfl⟩, _, _, ⟨cs, rfl, rfl⟩, _, _, ⟨st0, st1, rfl, rfl⟩, _, _, ⟨hi0, hi1, rfl, rfl⟩, _, _, ⟨len, rfl, rfl⟩,
      reserved, rest, ⟨hr, rfl⟩, h⟩
    rw [nonce_panic (fun a => Well.bind (Well.ite (fun _ => Well.bind (Well.until_ 0 false) fun _ => Well.utf8 _) (fun _ => Well.pure _))
      fun _ => Well.pure _), secure_bit] at h
    exact ⟨proto, version, id, data1, filler, lo0, lo1, cs, [st0, st1], [hi0, hi1], len, reserved, rest, hv, hid, h1, hf, h.1, rfl, rfl,
      h.2, hr, by simp⟩
  · rintro ⟨proto, version, id, data1, filler, lo0, lo1, cs, st, hi, len, reserved, rest, hv, hid, h1, hf, hlo, hst, hhi, hl, hr, rfl⟩
    obtain ⟨st0, st1, rfl⟩ := List.length_eq_two.1 hst
    obtain ⟨hi0, hi1, rfl⟩ := List.length_eq_two.1 hhi
    refine ⟨_, _, ⟨proto, rfl, rfl⟩, version, _, ⟨hv, rfl⟩, _, _, ⟨id, hid, rfl, rfl⟩, data1, _, ⟨h1, rfl⟩, filler, _, ⟨hf, rfl⟩,
      _, _, ⟨lo0, lo1, rfl, rfl⟩, _, _, ⟨cs, rfl, rfl⟩, _, _, ⟨st0, st1, rfl, rfl⟩, _, _, ⟨hi0, hi1, rfl, rfl⟩, _, _, ⟨len, rfl, rfl⟩,
      reserved, rest, ⟨hr, rfl⟩, ?_⟩
    rw [nonce_panic (fun a => Well.bind (Well.ite (fun _ => Well.bind (Well.until_ 0 false) fun _ => Well.utf8 _) (fun _ => Well.pure _))
      fun _ => Well.pure _), secure_bit]
    exact ⟨hlo, hl⟩

theorem greeting_not_hang (m : Bytes) : InitialHandshake.readFrom m ≠ .hang := by
  unfold InitialHandshake.readFrom
  refine bind_not_hang (Well.u8.ne_hang _) fun _ _ _ => ?_
  refine bind_not_hang ((Well.until_ 0 false).ne_hang _) fun _ _ _ => ?_
  refine bind_not_hang (Well.leU32.ne_hang _) fun _ _ _ => ?_
  refine bind_not_hang ((Well.len _).ne_hang _) fun _ _ _ => ?_
  refine bind_not_hang ((Well.len _).ne_hang _) fun _ _ _ => ?_
  refine bind_not_hang (Well.leU16.ne_hang _) fun _ _ _ => ?_
  refine bind_not_hang (Well.u8.ne_hang _) fun _ _ _ => ?_
  refine bind_not_hang (Well.leU16.ne_hang _) fun _ _ _ => ?_
  refine bind_not_hang (Well.leU16.ne_hang _) fun _ _ _ => ?_
  refine bind_not_hang (Well.u8.ne_hang _) fun _ _ _ => ?_
  refine bind_not_hang ((Well.len _).ne_hang _) fun _ _ _ => ?_
  refine bind_not_hang ?_ fun _ _ _ => ?_
  · split_ifs
    · exact fun h => by cases h
    · exact (Well.len _).ne_hang _
    · exact (Well.pure _).ne_hang _
  · exact (Well.bind (Well.ite (fun _ => Well.bind (Well.until_ 0 false) fun _ => Well.utf8 _) (fun _ => Well.pure _)) fun _ => Well.pure _).ne_hang _

/-- no packet of a message is numbered 254 -/
def Spec.No254 (inp : List UInt8) : Prop :=
  ∀ (runs : List (List Packet)) (rest : List UInt8), (∀ r ∈ runs, IsMessage r) → inp = (runs.map wire).flatten ++ rest →
    ∀ r ∈ runs, ∀ p ∈ r, p.seq ≠ 254

theorem no254_recv {c c1 : Conn} {m : Bytes} (hp : Spec.No254 c.inp) (h : recvMsg c = .ok m c1) :
    c1.pktNr < 255 ∧ Spec.No254 c1.inp := by
  obtain ⟨ps, h1, h2, h3⟩ := C11_recv_sound c c1 m h
  have hh := hp [ps] c1.inp (by simpa using h1) (by simpa using h2) ps (by simp)
  refine ⟨?_, ?_⟩
  · obtain ⟨nr, e, hnr⟩ := C11_recv_message ps h1 c1.inp c h2
    rw [h] at e
    obtain ⟨init, last, rfl, -, -, hs⟩ := h1
    have e1 := hnr last (by simp)
    have e2 : c1.pktNr = nr := by
      simp only [MR.ok.injEq] at e
      rw [e.2]
    have e3 := hs last (by simp)
    have e4 := hh last (by simp)
    omega
  · intro runs rest hr he r hm
    exact hp (ps :: runs) rest (by
      intro r hr'
      rcases List.mem_cons.1 hr' with rfl | hr'
      · exact h1
      · exact hr r hr') (by rw [h2, he]; simp) r (by simp [hm])

theorem lenEnc_length_le (n : Nat) (out : Bytes) : ((LenEncInt.ofU64 n).writeTo out).1.length ≤ out.length + 9 := by
  unfold LenEncInt.ofU64
  split_ifs <;> simp [LenEncInt.writeTo, length_leBytes] <;> omega

theorem response_length_le (r : HandshakeResponse41) (h : r.connectAttrs = []) :
    (r.writeTo []).1.length ≤ r.username.length + r.authResponse.length + r.database.length + r.authPluginName.length + 53 := by
  have h1 := fun out => lenEnc_length_le r.authResponse.length out
  have e0 : ∀ out, ((LenEncInt.ofU64 0).writeTo out).1 = out ++ [0] := fun _ => rfl
  unfold HandshakeResponse41.writeTo
  simp only [h, writeConnectAttrs, List.length_nil, writeBytes, writeU8, writeLeU32]
  have := h1 ((((([] ++ leBytes 4 r.capabilityFlags) ++ leBytes 4 r.maxPacketSize) ++ leBytes 1 r.charset) ++ List.replicate 23 0)
    ++ r.username ++ leBytes 1 0)
  simp only [List.length_append, length_leBytes, List.length_nil, List.length_replicate] at this
  split_ifs <;> simp only [e0, List.length_append, length_leBytes, List.length_nil, List.length_cons] <;> omega

/-- C78, connecting: whatever the server answers, `handshake` ends with success or an error, provided its greeting does not
announce authentication data shorter than eight bytes, it does not ask for another method and it does not number a packet
254; see `C78_greeting`, `C58_switch_panics_false` and `C78_packet_number_false` for what happens otherwise. -/
theorem C78_handshake_partial (H : Hashes) (hH : H.Sized) (opts : ConnOpts)
    (hsz : opts.username.length + opts.database.length < 2 ^ 23) (c : Conn)
    (hc : ∀ (run : List Spec.Packet) (rest : List UInt8), Spec.IsMessage run → c.inp = Spec.wire run ++ rest →
      ¬ Spec.ShortNonce (Spec.payload run) ∧ (∀ p ∈ run, p.seq ≠ 254) ∧ Spec.NoSwitch rest) :
    Returns (handshake H opts c) := by
  unfold handshake
  rw [M.bind_apply]
  rcases recvMsg_total c with ⟨m, c1, h⟩ | ⟨e, c1, h⟩
  swap
  · rw [h]; exact .inr ⟨_, _, rfl⟩
  obtain ⟨ps, h1, h2, h3⟩ := C11_recv_sound c c1 m h
  obtain ⟨g1, g2, g3⟩ := hc ps c1.inp h1 h2
  have hnr : c1.pktNr < 255 := by
    obtain ⟨nr, e, hnr⟩ := C11_recv_message ps h1 c1.inp c h2
    rw [h] at e
    obtain ⟨init, last, rfl, -, -, hs⟩ := h1
    have e1 := hnr last (by simp)
    have e2 : c1.pktNr = nr := by
      simp only [MR.ok.injEq] at e
      rw [e.2]
    have e3 := hs last (by simp)
    have e4 := g2 last (by simp)
    omega
  rw [h, MR.bind_ok, M.bind_apply]
  rw [h3] at g1
  unfold M.parse
  cases hg : InitialHandshake.readFrom m with
  | panic => exact (g1 ((greeting_panic m).1 hg)).elim
  | hang => exact (greeting_not_hang m hg).elim
  | err e r => exact .inr ⟨_, _, rfl⟩
  | ok hs r =>
    simp only [MR.bind_ok, M.bind_apply, insertCap, removeCap]
    cases hn : newAuthPlugin hs.authPluginName with
    | error e => exact .inr ⟨_, _, rfl⟩
    | ok pl =>
      obtain ⟨k1, k2⟩ := newAuthPlugin_ok _ _ hn
      simp only [M.ofExcept, MR.bind_ok]
      cases hi : genInitAuthResp H pl opts.password (hs.authPluginData1 ++ hs.authPluginData2) with
      | error e => exact .inr ⟨_, _, rfl⟩
      | ok v =>
        obtain ⟨auth, pl'⟩ := v
        obtain ⟨k3, k4⟩ := next_ok H hH _ pl' (setCredential_ok opts.password pl k1) _ _ hi
        have key : ∀ c2 : Conn, c2.inp = c1.inp → c2.pktNr = c1.pktNr → Returns (MR.bind (sendMsg
            (HandshakeResponse41.writeTo [] ⟨c2.caps, 0xffffff, 33, opts.username, auth, opts.database, hs.authPluginName, []⟩).1
            false c2) fun _ => handshakeLoop H c2.caps pl') := by
          intro c2 e1 e2
          have hl := response_length_le ⟨c2.caps, 0xffffff, 33, opts.username, auth, opts.database, hs.authPluginName, []⟩ rfl
          dsimp only at hl
          obtain ⟨c3, s1, s2⟩ := send_small _ (lt_of_le_of_lt hl (by omega)) c2 (by rw [e2]; exact hnr)
          rw [s1]
          show Returns (handshakeLoop H c2.caps pl' c3)
          exact handshakeLoop_returns H hH _ _ k3 _ (by rw [s2, e1]; exact g3)
        by_cases hdb : opts.database.isEmpty = true
        · simp only [hdb, if_true]
          exact key _ rfl rfl
        · simp only [hdb]
          exact key _ rfl rfl

theorem changeUserLoop_returns (H : Hashes) (hH : H.Sized) (password : Bytes) (pl : Option AuthPlugin)
    (hp : ∀ p, pl = some p → PluginOk p) (c : Conn) (hc : Spec.No254 c.inp)
    (h1 : pl = none → ∀ (run : List Spec.Packet) (rest : List UInt8), Spec.IsMessage run → c.inp = Spec.wire run ++ rest →
      (Spec.payload run).head? ≠ some 1) : Returns (changeUserLoop H password pl c) := by
  induction hn : c.inp.length using Nat.strong_induction_on generalizing pl c with
  | _ n ih =>
    rw [changeUserLoop.eq_def]
    rcases recvMsg_total c with ⟨m, c1, h⟩ | ⟨e, c1, h⟩
    swap
    · rw [h]; exact .inr ⟨_, _, rfl⟩
    obtain ⟨g2, g3⟩ := no254_recv hc h
    have hl := recv_shorter h
    rw [h]
    dsimp only
    rcases M.parse_total (C16_no_panic c1.caps).2.2.1 m c1 with ⟨a, e⟩ | ⟨e', e⟩
    swap
    · rw [e]; exact .inr ⟨_, _, rfl⟩
    rw [e]
    have go : ∀ (resp : Bytes) (pl' : AuthPlugin), PluginOk pl' → resp.length ≤ 32 →
        Returns (match sendMsg resp false c1 with
          | .ok _ c3 => if c3.inp.length < c.inp.length then changeUserLoop H password (some pl') c3 else .hang
          | .err e c3 => .err e c3
          | .panic => .panic
          | .hang => .hang) := by
      intro resp pl' k1 k2
      obtain ⟨c2, s1, s2⟩ := send_small resp (by omega) c1 g2
      rw [s1]
      dsimp only
      rw [s2, if_pos hl]
      exact ih c2.inp.length (by rw [s2]; exact hn ▸ hl) (some pl') (fun p hp => by cases hp; exact k1) c2 (by rw [s2]; exact g3)
        (fun h => by cases h) rfl
    cases a with
    | ok p => exact .inl ⟨_, _, rfl⟩
    | err p => exact .inr ⟨_, _, rfl⟩
    | switch s =>
      dsimp only
      cases hnw : newAuthPlugin s.pluginName with
      | error e => exact .inr ⟨_, _, rfl⟩
      | ok p =>
        dsimp only
        cases hi : genInitAuthResp H p password s.authPluginData with
        | error e => exact .inr ⟨_, _, rfl⟩
        | ok v =>
          obtain ⟨resp, pl'⟩ := v
          obtain ⟨k3, k4⟩ := next_ok H hH _ pl' (setCredential_ok password p (newAuthPlugin_ok _ _ hnw).1) _ _ hi
          exact go resp pl' k3 k4
    | moreData d =>
      cases pl with
      | none =>
        exfalso
        obtain ⟨ps, q1, q2, q3⟩ := C11_recv_sound c c1 m h
        have hh := h1 rfl ps c1.inp q1 q2
        rw [q3] at hh
        cases m with
        | nil => cases e
        | cons b t =>
          have hb : b ≠ 1 := by simpa using hh
          obtain ⟨f1, -, f3, f4, f5, -⟩ := C16_change_user_response c1.caps b t
          unfold M.parse at e
          by_cases b0 : b = 0
          · rw [f1 b0] at e
            revert e
            cases OkPacket.readFrom c1.caps (b :: t) <;> intro e <;> cases e
          · by_cases b2 : b = 0xff
            · rw [f3 b2] at e
              revert e
              cases ErrPacket.readFrom c1.caps true (b :: t) <;> intro e <;> cases e
            · by_cases b3 : b = 0xfe
              · rw [f4 b3] at e
                revert e
                cases AuthSwitchRequest.readFrom (b :: t) <;> intro e <;> cases e
              · rw [f5 b0 hb b2 b3] at e
                cases e
      | some p =>
        dsimp only
        cases hi : p.next H d.pluginData with
        | error e => exact .inr ⟨_, _, rfl⟩
        | ok v =>
          obtain ⟨resp, pl'⟩ := v
          obtain ⟨k3, k4⟩ := next_ok H hH p pl' (hp p rfl) _ _ hi
          exact go resp pl' k3 k4

/-- C78, the greeting: reading it panics exactly when it announces less than eight bytes of authentication data (with
SECURE_CONNECTION set), and `handshake` then panics too; see C17. -/
theorem C78_greeting (H : Hashes) (opts : ConnOpts) (c : Conn) (run : List Spec.Packet) (rest : List UInt8)
    (hm : Spec.IsMessage run) (hc : c.inp = Spec.wire run ++ rest) :
    (InitialHandshake.readFrom (Spec.payload run) = .panic ↔ Spec.ShortNonce (Spec.payload run)) ∧
    InitialHandshake.readFrom (Spec.payload run) ≠ .hang ∧
    (Spec.ShortNonce (Spec.payload run) → handshake H opts c = .panic) := by
  refine ⟨greeting_panic _, greeting_not_hang _, fun h => ?_⟩
  obtain ⟨nr, e, -⟩ := C11_recv_message run hm rest c hc
  unfold handshake
  rw [M.bind_apply, e, MR.bind_ok, M.bind_apply, M.parse, (greeting_panic _).2 h]
  rfl

/-- C78, `change_user`: whatever the server answers, the call ends with success or an error, provided the first answer does
not begin with 0x01 and no packet is numbered 254; see `C60_more_data_false` and `C78_packet_number_false`. -/
theorem C78_change_user_partial (H : Hashes) (hH : H.Sized) (user password db : Bytes) (attrs : List (Bytes × Bytes))
    (hu : (0 : UInt8) ∉ user) (hdb : (0 : UInt8) ∉ db) (hk : ∀ kv ∈ attrs, kv.1.length ≠ 251 ∧ kv.2.length ≠ 251)
    (ht : (Spec.attrBytes attrs).length ≠ 251) (hk' : ∀ kv ∈ attrs, kv.1.length < 2 ^ 64 ∧ kv.2.length < 2 ^ 64)
    (hsz : user.length + db.length + (Spec.attrBytes attrs).length < 2 ^ 31) (c : Conn) (hc : Spec.No254 c.inp)
    (h1 : ∀ (run : List Spec.Packet) (rest : List UInt8), Spec.IsMessage run → c.inp = Spec.wire run ++ rest →
      (Spec.payload run).head? ≠ some 1) :
    Returns (changeUser H user password db (attrs.map fun (k, v) => ⟨k, v⟩) c) := by
  obtain ⟨c', a1, a2, -⟩ := changeUser_start H user password db attrs hu hdb hk ht hk' hsz c
  rw [a1]
  exact changeUserLoop_returns H hH password none (fun p h => by cases h) c' (by rw [a2]; exact hc) (fun _ => by rw [a2]; exact h1)

/-- C78 fails: a server that numbers its "more data" packet 254 crashes the client, which computes the number of its answer
in a byte; this happens both when connecting and when changing the user. -/
theorem C78_packet_number_false (H : Hashes) (hH : H.Sized) (password data : Bytes) (hp : password ≠ []) (caps : Nat)
    (hd : data.length < 2 ^ 24 - 2) (c : Conn) (mid : Bytes) (hin : c.inp = Spec.wire [⟨254, Spec.authMoreData data⟩] ++ mid) :
    handshakeLoop H caps (.native password) c = .panic ∧
    changeUserLoop H password (some (.native password)) c = .panic := by
  obtain ⟨nr, r1, r2⟩ := C11_recv_message [⟨254, Spec.authMoreData data⟩]
    ⟨[], _, rfl, by simp, by simp [Spec.authMoreData, Spec.u8]; omega, by simp⟩ mid c hin
  have hnr : nr = 255 := r2 _ rfl
  have hpay : Spec.payload [⟨254, Spec.authMoreData data⟩] = Spec.authMoreData data := by simp [Spec.payload]
  rw [hpay] at r1
  have hx : (scramble411 H password data).length = 20 := by
    unfold scramble411
    dsimp only
    rw [xorBytes_length _ _ (by rw [hH.sha1, hH.sha1]), hH.sha1]
  have hnext : (AuthPlugin.native password).next H data = .ok (scramble411 H password data, .native password) := by
    unfold AuthPlugin.next
    dsimp only
    rw [if_neg (by simpa using hp)]
  have hsend : ∀ c1 : Conn, c1.pktNr = 255 → sendMsg (scramble411 H password data) false c1 = .panic := by
    intro c1 h1
    show sendLoop _ c1 = _
    rw [sendLoop, dif_neg (by rw [hx]; decide)]
    simp [sendPacket, h1]
  have e1 : HandshakeMessage.readFrom caps (Spec.authMoreData data) = .ok (.moreData ⟨1, data⟩) [] :=
    (C16_handshake_message caps 1 data).2.1 rfl
  have e2 : ∀ caps, ComChangeUserResponse.readFrom caps (Spec.authMoreData data) = .ok (.moreData ⟨1, data⟩) [] := fun caps =>
    (C16_change_user_response caps 1 data).2.1 rfl
  constructor
  · rw [handshakeLoop.eq_def, r1]
    simp only [M.parse_ok e1, hnext]
    rw [if_neg (by rw [List.isEmpty_iff]; intro h; rw [h] at hx; cases hx), hsend _ hnr]
  · rw [changeUserLoop.eq_def, r1]
    simp only [M.parse_ok (e2 _), hnext]
    rw [hsend _ hnr]

/-! ### the hypotheses can be met -/

theorem packet_unique (p q : Spec.Packet) (x y : Bytes) (hp : p.body.length < 2 ^ 24) (hq : q.body.length < 2 ^ 24)
    (sp : p.seq < 256) (sq : q.seq < 256) (h : p.wire ++ x = q.wire ++ y) : p = q ∧ x = y := by
  unfold Spec.Packet.wire at h
  simp only [List.append_assoc] at h
  obtain ⟨h1, h2⟩ := List.append_inj h (by rw [Spec.length_le, Spec.length_le])
  obtain ⟨h3, h4⟩ := List.append_inj h2 rfl
  have e1 : p.body.length = q.body.length := by
    have := congrArg leVal h1
    rw [← leBytes_eq_spec, ← leBytes_eq_spec, leVal_leBytes, leVal_leBytes] at this
    rw [Nat.mod_eq_of_lt (by omega), Nat.mod_eq_of_lt (by omega)] at this
    exact this
  obtain ⟨h5, h6⟩ := List.append_inj h4 e1
  have e2 : p.seq = q.seq := by
    simp only [Spec.u8, List.cons.injEq, and_true] at h3
    have := congrArg UInt8.toNat h3
    simpa [Nat.mod_eq_of_lt sp, Nat.mod_eq_of_lt sq] using this
  cases p; cases q
  simp_all

/-- a stream begins with at most one message: one that was one packet -/
theorem message_unique (q : Spec.Packet) (hq : q.body.length < 0xffffff) (sq : q.seq < 256) (run : List Spec.Packet)
    (hr : Spec.IsMessage run) (x y : Bytes) (h : Spec.wire run ++ x = q.wire ++ y) : run = [q] ∧ x = y := by
  obtain ⟨init, last, rfl, h1, h2, h3⟩ := hr
  cases init with
  | nil =>
    obtain ⟨e1, e2⟩ := packet_unique last q x y (by omega) (by omega) (h3 last (by simp)) sq (by simpa [Spec.wire] using h)
    exact ⟨by rw [e1]; rfl, e2⟩
  | cons p t =>
    obtain ⟨e1, -⟩ := packet_unique p q (Spec.wire (t ++ [last]) ++ x) y (by rw [h1 p (by simp)]; norm_num) (by omega)
      (h3 p (by simp)) sq (by simpa [Spec.wire] using h)
    have := h1 p (by simp)
    rw [e1] at this
    omega

theorem runs_nil (runs : List (List Spec.Packet)) (rest : Bytes) (hr : ∀ r ∈ runs, Spec.IsMessage r)
    (h : [] = (runs.map Spec.wire).flatten ++ rest) : runs = [] := by
  cases runs with
  | nil => rfl
  | cons r t =>
    have := wire_pos (hr r (by simp))
    have := congrArg List.length h
    simp at this
    omega

theorem runs_cons (q : Spec.Packet) (hq : q.body.length < 0xffffff) (sq : q.seq < 256) (inp : Bytes) (runs : List (List Spec.Packet))
    (rest : Bytes) (hr : ∀ r ∈ runs, Spec.IsMessage r) (h : q.wire ++ inp = (runs.map Spec.wire).flatten ++ rest) :
    runs = [] ∨ ∃ runs', runs = [q] :: runs' ∧ inp = (runs'.map Spec.wire).flatten ++ rest := by
  cases runs with
  | nil => exact .inl rfl
  | cons r t =>
    obtain ⟨e1, e2⟩ := message_unique q hq sq r (hr r (by simp)) ((t.map Spec.wire).flatten ++ rest) inp (by simpa using h.symm)
    exact .inr ⟨t, by rw [e1], e2.symm⟩

theorem noSwitch_nil : Spec.NoSwitch [] := by
  intro runs rest hr h r hm
  rw [runs_nil runs rest hr h] at hm
  cases hm

theorem noSwitch_cons (q : Spec.Packet) (hq : q.body.length < 0xffffff) (sq : q.seq < 254) (hb : q.body.head? ≠ some 0xfe)
    (inp : Bytes) (h : Spec.NoSwitch inp) : Spec.NoSwitch (q.wire ++ inp) := by
  intro runs rest hr he r hm
  rcases runs_cons q hq (by omega) inp runs rest hr he with rfl | ⟨runs', rfl, e⟩
  · cases hm
  · rcases List.mem_cons.1 hm with rfl | hm
    · refine ⟨by simpa [Spec.payload] using hb, fun p hp => ?_⟩
      rw [List.mem_singleton.1 hp]
      omega
    · exact h runs' rest (fun r hr' => hr r (by simp [hr'])) e r hm

theorem no254_nil : Spec.No254 [] := by
  intro runs rest hr h r hm
  rw [runs_nil runs rest hr h] at hm
  cases hm

theorem no254_cons (q : Spec.Packet) (hq : q.body.length < 0xffffff) (sq : q.seq < 254)
    (inp : Bytes) (h : Spec.No254 inp) : Spec.No254 (q.wire ++ inp) := by
  intro runs rest hr he r hm
  rcases runs_cons q hq (by omega) inp runs rest hr he with rfl | ⟨runs', rfl, e⟩
  · cases hm
  · rcases List.mem_cons.1 hm with rfl | hm
    · intro p hp
      rw [List.mem_singleton.1 hp]
      omega
    · exact h runs' rest (fun r hr' => hr r (by simp [hr'])) e r hm

/-- C78: a stream with a bad first message, one without, one with an empty message before the end -/
example : Spec.badHead (Spec.wire [⟨1, []⟩]) ∧ Spec.badHead (Spec.wire [⟨1, [0xfb]⟩]) ∧
    ¬ Spec.badHead (Spec.wire [⟨1, [1, 2, 3]⟩]) ∧ Spec.emptyBeforeEnd (Spec.wire [⟨1, [1]⟩] ++ Spec.wire [⟨2, []⟩]) := by
  refine ⟨⟨[], [], ⟨[[⟨1, []⟩]], ?_, rfl, by simp⟩, .inl rfl⟩, ⟨[0xfb], [], ⟨[[⟨1, [0xfb]⟩]], ?_, rfl, by simp⟩, .inr rfl⟩, ?_,
    ⟨[[1]], [], ⟨[[⟨1, [1]⟩], [⟨2, []⟩]], ?_, rfl, by simp⟩, ?_⟩⟩
  · simp only [List.mem_singleton, forall_eq]; exact ⟨[], _, rfl, by simp, by simp, by simp⟩
  · simp only [List.mem_singleton, forall_eq]; exact ⟨[], _, rfl, by simp, by simp, by simp⟩
  · rintro ⟨m, rest, ⟨runs, hr, hm, h⟩, hb⟩
    rcases runs_cons ⟨1, [1, 2, 3]⟩ (by simp) (by simp) [] runs rest hr (by simpa [Spec.wire] using h) with rfl | ⟨runs', rfl, e⟩
    · cases hm
    · simp only [List.map_cons, List.cons.injEq] at hm
      rw [← hm.1] at hb
      revert hb
      decide
  · intro r hr
    simp only [List.mem_cons, List.not_mem_nil, or_false] at hr
    rcases hr with rfl | rfl
    · exact ⟨[], _, rfl, by simp, by simp, by simp⟩
    · exact ⟨[], _, rfl, by simp, by simp, by simp⟩
  · simp only [List.mem_singleton, forall_eq]; exact ⟨1, [], rfl, by decide, by decide⟩

/-- C78, connecting: a greeting that is not one, followed by nonsense -/
example : ∀ (run : List Spec.Packet) (rest : List UInt8), Spec.IsMessage run →
    Spec.wire [⟨0, [10, 56, 0, 1, 2]⟩] ++ Spec.wire [⟨2, [1, 7, 7]⟩] = Spec.wire run ++ rest →
      ¬ Spec.ShortNonce (Spec.payload run) ∧ (∀ p ∈ run, p.seq ≠ 254) ∧ Spec.NoSwitch rest := by
  intro run rest hr h
  obtain ⟨rfl, rfl⟩ := message_unique ⟨0, [10, 56, 0, 1, 2]⟩ (by simp) (by simp) run hr rest (Spec.wire [⟨2, [1, 7, 7]⟩])
    (by simpa [Spec.wire] using h.symm)
  refine ⟨?_, by simp, ?_⟩
  · rw [← greeting_panic]
    intro h
    cases h
  · have := noSwitch_cons ⟨2, [1, 7, 7]⟩ (by simp) (by simp) (by decide) [] noSwitch_nil
    simpa [Spec.wire] using this

/-- C78: a greeting with a short nonce -/
example : Spec.ShortNonce ([10, 56, 0] ++ List.replicate 13 7 ++ [0, 128, 33, 2, 0, 0, 0, 7] ++ List.replicate 10 0) := by
  rw [← greeting_panic]
  rfl

/-- C78, `change_user`: an answer the client does not understand -/
example : Spec.No254 (Spec.Packet.wire ⟨1, [9, 9]⟩ ++ []) ∧ ∀ (run : List Spec.Packet) (rest : List UInt8), Spec.IsMessage run →
    Spec.Packet.wire ⟨1, [9, 9]⟩ ++ [] = Spec.wire run ++ rest → (Spec.payload run).head? ≠ some 1 := by
  refine ⟨no254_cons _ (by simp) (by simp) [] no254_nil, fun run rest hr h => ?_⟩
  obtain ⟨rfl, -⟩ := message_unique ⟨1, [9, 9]⟩ (by simp) (by simp) run hr rest [] h.symm
  decide

end Mybin
