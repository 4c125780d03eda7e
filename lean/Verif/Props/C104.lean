/-
C104: transactions a reader names in a request for a stream are not sent again, and only they. The specification of the
log of transactions, of sets of GTIDs and of the master is in Spec/Gtids.
-/
import Verif.Spec.Gtids
import Verif.Props.C103

namespace Mybin

/-! ### what a reader remembers -/

/-- the request for what comes after the transaction of a GTID event: its source, and the interval of its number alone -/
def gtidOf (e : Event) : Option SidRange :=
  match e.kind with
  | .gtid =>
    match GtidLogData.readFrom e.data with
    | .ok g _ => some ⟨g.encodedSid, [((g.encodedGno : Int), (g.encodedGno : Int) + 1)]⟩
    | _ => none
  | _ => none

/-- the elements before the last one with a property -/
def beforeLast {α : Type} (p : α → Bool) : List α → List α
  | [] => []
  | x :: l => if l.any p then x :: beforeLast p l else []

/-- the results before the last GTID event: those of transactions known to be complete, as another one began -/
def settled (os : List (Option Event)) : List (Option Event) :=
  beforeLast (fun o => o.elim false fun e => e.kind = .gtid) os

/-- the transactions among results, as a request names them -/
def executed (os : List (Option Event)) : List SidRange := (os.filterMap id).filterMap gtidOf

/-- the results that belong to transactions -/
def ofTransactions (os : List (Option Event)) : List (Option Event) :=
  os.filter fun o => o.elim false fun e =>
    e.kind ≠ .rotate ∧ e.kind ≠ .formatDescription ∧ e.kind ≠ .heartbeat ∧ e.kind ≠ .previousGtids

/-! ### sets of GTIDs -/

/-- what a master reads of a `SidRange` -/
def SidRange.block (s : SidRange) : Spec.GtidBlock :=
  (Spec.le 16 s.sid, s.intervals.map fun i => (Spec.pattern 64 i.1, Spec.pattern 64 i.2))

theorem gtidBlocks_sidData (d : List SidRange) (hl : SidData.bytesLen d < 2 ^ 32) :
    Spec.gtidBlocks (Spec.sidData d) = some (d.map SidRange.block) := by
  unfold Spec.gtidBlocks Spec.D.all Spec.sidData
  have hlen : ∀ s ∈ d, s.intervals.length < 2 ^ 32 := by
    intro s hs
    have := intervals_le_sum hs
    unfold SidData.bytesLen at hl
    have hb : s.bytesLen = 16 + 8 + 16 * s.intervals.length := rfl
    omega
  have hd : d.length < 2 ^ 64 := by
    have := sum_ge_length d
    unfold SidData.bytesLen at hl
    omega
  have key := Spec.D.times_spec Spec.D.gtidBlock Spec.sidRange SidRange.block d (by
    intro s hs t
    unfold Spec.D.gtidBlock Spec.sidRange SidRange.block
    simp only [List.append_assoc]
    rw [Spec.D.bind_some (Spec.D.bytes_spec 16 _ _ (Spec.length_le _ _)),
      Spec.D.bind_some (Spec.D.le_spec 8 _ _ (by have := hlen s hs; omega))]
    have hi := Spec.D.times_spec Spec.D.gtidInterval Spec.interval
      (fun i => (Spec.pattern 64 i.1, Spec.pattern 64 i.2)) s.intervals (by
        intro i _ t
        unfold Spec.D.gtidInterval Spec.interval
        rw [List.append_assoc, Spec.D.bind_some (Spec.D.le_spec 8 _ _ (by have := pattern_lt 64 i.1; omega)),
          Spec.D.bind_some (Spec.D.le_spec 8 _ _ (by have := pattern_lt 64 i.2; omega))]
        rfl) t
    rw [Spec.D.bind_some hi]
    rfl) []
  rw [List.append_nil] at key
  rw [Spec.D.bind_some (Spec.D.le_spec 8 _ _ (by omega)), key]

theorem has_append (a b : List Spec.GtidBlock) (sid gno : Nat) :
    Spec.Has (a ++ b) sid gno ↔ Spec.Has a sid gno ∨ Spec.Has b sid gno := by
  unfold Spec.Has
  constructor
  · rintro ⟨x, hx, h⟩
    rcases List.mem_append.1 hx with hx | hx
    · exact .inl ⟨x, hx, h⟩
    · exact .inr ⟨x, hx, h⟩
  · rintro (⟨x, hx, h⟩ | ⟨x, hx, h⟩)
    · exact ⟨x, by simp [hx], h⟩
    · exact ⟨x, by simp [hx], h⟩

/-- the transaction as a request names it -/
def Spec.Transaction.range (t : Spec.Transaction) : SidRange := ⟨t.sid, [((t.gno : Int), (t.gno : Int) + 1)]⟩

theorem range_block (t : Spec.Transaction) (ok : t.Ok) : t.range.block = (Spec.le 16 t.sid, [(t.gno, t.gno + 1)]) := by
  unfold Spec.Transaction.range SidRange.block
  have := ok.gno_lt
  rw [List.map_cons, List.map_nil]
  dsimp only
  rw [pattern_nat 64 t.gno (by omega), show ((t.gno : Int) + 1) = ((t.gno + 1 : Nat) : Int) by push_cast; rfl,
    pattern_nat 64 (t.gno + 1) (by omega)]

theorem has_ranges (ts : List Spec.Transaction) (ok : ∀ t ∈ ts, t.Ok) (sid gno : Nat) (hs : sid < 2 ^ 128) :
    Spec.Has ((ts.map Spec.Transaction.range).map SidRange.block) sid gno ↔ (sid, gno) ∈ ts.map fun t => (t.sid, t.gno) := by
  unfold Spec.Has
  constructor
  · rintro ⟨b, hb, h1, i, hi, h2, h3⟩
    simp only [List.mem_map] at hb
    obtain ⟨_, ⟨t, ht, rfl⟩, rfl⟩ := hb
    rw [range_block t (ok t ht)] at h1 hi
    rw [List.mem_singleton] at hi
    subst hi
    have hsid : t.sid = sid := by
      have e1 := Spec.D.le_spec 16 t.sid [] (by have := (ok t ht).sid_lt; omega)
      have e2 := Spec.D.le_spec 16 sid [] (by omega)
      rw [show Spec.le 16 t.sid = Spec.le 16 sid from h1, e2] at e1
      injection e1 with e1
      injection e1 with e1
      exact e1.symm
    have hgno : t.gno = gno := by dsimp only at h2 h3; omega
    exact List.mem_map.2 ⟨t, ht, by rw [hsid, hgno]⟩
  · intro h
    obtain ⟨t, ht, h⟩ := List.mem_map.1 h
    rw [Prod.mk.injEq] at h
    refine ⟨t.range.block, List.mem_map.2 ⟨_, List.mem_map.2 ⟨t, ht, rfl⟩, rfl⟩, ?_⟩
    rw [range_block t (ok t ht)]
    exact ⟨by rw [h.1], _, List.mem_singleton.2 rfl, by rw [h.2], by rw [h.2]; exact Nat.lt_succ_self _⟩

/-! ### results and events -/

theorem beforeLast_filter {α : Type} (p q : α → Bool) (h : ∀ x, p x = true → q x = true) (l : List α) :
    (beforeLast p l).filter q = beforeLast p (l.filter q) := by
  have hany : ∀ l : List α, (l.filter q).any p = l.any p := by
    intro l
    rw [Bool.eq_iff_iff]
    simp only [List.any_eq_true, List.mem_filter]
    constructor
    · rintro ⟨x, ⟨h1, -⟩, h2⟩; exact ⟨x, h1, h2⟩
    · rintro ⟨x, h1, h2⟩; exact ⟨x, ⟨h1, h x h2⟩, h2⟩
  induction l with
  | nil => rfl
  | cons x l ih =>
    by_cases hq : q x = true
    · rw [List.filter_cons_of_pos hq, beforeLast, beforeLast, hany]
      split
      · rw [List.filter_cons_of_pos hq, ih]
      · rfl
    · rw [List.filter_cons_of_neg hq, beforeLast]
      split
      · rw [List.filter_cons_of_neg hq, ih]
      · rename_i hn
        rw [← hany] at hn
        generalize l.filter q = m at hn
        cases m with
        | nil => rfl
        | cons y m =>
          rw [beforeLast, if_neg]
          · rfl
          · intro h'
            exact hn (by rw [List.any_cons, h', Bool.or_true])

theorem beforeLast_rel {α β : Type} {R : α → β → Prop} (p : α → Bool) (q : β → Bool) (h : ∀ a b, R a b → p a = q b)
    {l : List α} {m : List β} (hr : List.Forall₂ R l m) : List.Forall₂ R (beforeLast p l) (beforeLast q m) := by
  have hany : ∀ {l : List α} {m : List β}, List.Forall₂ R l m → l.any p = m.any q := by
    intro l m hr
    induction hr with
    | nil => rfl
    | cons h1 _ ih => rw [List.any_cons, List.any_cons, ih, h _ _ h1]
  induction hr with
  | nil => exact .nil
  | cons h1 h2 ih =>
    rw [beforeLast, beforeLast, hany h2]
    split
    · exact .cons h1 ih
    · exact .nil

theorem filter_rel {α β : Type} {R : α → β → Prop} (p : α → Bool) (q : β → Bool) (h : ∀ a b, R a b → p a = q b)
    {l : List α} {m : List β} (hr : List.Forall₂ R l m) : List.Forall₂ R (l.filter p) (m.filter q) := by
  induction hr with
  | nil => exact .nil
  | @cons a b l m h1 h2 ih =>
    by_cases hp : p a = true
    · rw [List.filter_cons_of_pos hp, List.filter_cons_of_pos (by rw [← h _ _ h1]; exact hp)]
      exact .cons h1 ih
    · rw [List.filter_cons_of_neg hp, List.filter_cons_of_neg (by rw [← h _ _ h1]; exact hp)]
      exact ih

/-- seen, and of a type this library knows -/
def Spec.Returned (crc : Bool) (e : Spec.LogEvent) (o : Option Event) : Prop :=
  e.code ∈ Spec.supportedCodes ∧ Spec.Seen crc e o

theorem returned_visible (crc : Bool) (es : List Spec.LogEvent) (os : List (Option Event))
    (h : List.Forall₂ (Spec.Seen crc) (Spec.visible es) os) : List.Forall₂ (Spec.Returned crc) (Spec.visible es) os := by
  have hv : ∀ e ∈ Spec.visible es, e.code ∈ Spec.supportedCodes := by
    intro e he
    simpa using List.of_mem_filter he
  generalize Spec.visible es = vs at h hv
  revert hv
  induction h with
  | nil => intro _; exact .nil
  | cons h1 _ ih => intro hv; exact .cons ⟨hv _ List.mem_cons_self, h1⟩ (ih fun e he => hv e (List.mem_cons_of_mem _ he))

theorem returned_gtid (crc : Bool) (e : Spec.LogEvent) (o : Option Event) (h : Spec.Returned crc e o) :
    decide (e.code = 33) = o.elim false fun e => decide (e.kind = .gtid) := by
  obtain ⟨h1, h2⟩ := h
  unfold Spec.Seen at h2
  rw [if_pos h1] at h2
  obtain ⟨k, hk, rfl⟩ := h2
  rw [← hk]
  cases k <;> rfl

theorem returned_between (crc : Bool) (e : Spec.LogEvent) (o : Option Event) (h : Spec.Returned crc e o) :
    decide (e.code ∉ Spec.betweenCodes) = o.elim false fun e => decide (e.kind ≠ .rotate ∧ e.kind ≠ .formatDescription ∧
      e.kind ≠ .heartbeat ∧ e.kind ≠ .previousGtids) := by
  obtain ⟨h1, h2⟩ := h
  unfold Spec.Seen at h2
  rw [if_pos h1] at h2
  obtain ⟨k, hk, rfl⟩ := h2
  rw [← hk]
  cases k <;> rfl

/-- what a GTID event says, as a request names it -/
def gtidSaid (e : Spec.LogEvent) : Option SidRange :=
  if e.code = 33 then
    match GtidLogData.readFrom e.payload with
    | .ok g _ => some ⟨g.encodedSid, [((g.encodedGno : Int), (g.encodedGno : Int) + 1)]⟩
    | _ => none
  else none

theorem executed_returned (crc : Bool) (es : List Spec.LogEvent) (os : List (Option Event))
    (h : List.Forall₂ (Spec.Returned crc) es os) : executed os = es.filterMap gtidSaid := by
  unfold executed
  induction h with
  | nil => rfl
  | @cons e o es os h1 _ ih =>
    have hg : o.bind gtidOf = gtidSaid e := by
      obtain ⟨h1, h2⟩ := h1
      unfold Spec.Seen at h2
      rw [if_pos h1] at h2
      obtain ⟨k, hk, rfl⟩ := h2
      unfold gtidSaid
      rw [← hk]
      cases k <;> rfl
    obtain ⟨h1, h2⟩ := h1
    unfold Spec.Seen at h2
    rw [if_pos h1] at h2
    obtain ⟨k, hk, rfl⟩ := h2
    rw [List.filterMap_cons_some (show id (some _) = some _ from rfl), List.filterMap_cons, List.filterMap_cons, ← hg, ih]
    rfl

theorem gtidLogData_says (flags sid gno : Nat) (more : Bytes) (hf : flags < 2 ^ 8) (hs : sid < 2 ^ 128) (hg : gno < 2 ^ 64) :
    ∃ d r, GtidLogData.readFrom (Spec.u8 flags ++ Spec.le 16 sid ++ Spec.le 8 gno ++ more) = .ok d r ∧ d.encodedSid = sid ∧
      d.encodedGno = gno := by
  have hl : ∃ l r, LogicalTs.readFrom more = .ok l r := by
    unfold LogicalTs.readFrom
    rw [P.bind_apply, remaining_apply, R.bind_ok]
    split
    · exact ⟨_, _, rfl⟩
    · rename_i hlen
      obtain ⟨a, b, c, rest, rfl, h1, h2, h3⟩ : ∃ a b c rest : Bytes, more = a ++ (b ++ (c ++ rest)) ∧ a.length = 1 ∧
          b.length = 8 ∧ c.length = 8 := by
        refine ⟨more.take 1, (more.drop 1).take 8, (more.drop 9).take 8, more.drop 17, ?_, ?_, ?_, ?_⟩
        · rw [show more.drop 17 = (more.drop 9).drop 8 by rw [List.drop_drop], List.take_append_drop,
            show more.drop 9 = (more.drop 1).drop 8 by rw [List.drop_drop], List.take_append_drop, List.take_append_drop]
        all_goals simp only [List.length_take, List.length_drop]; omega
      rw [P.bind_apply, fixedRead_u8.append _ _ h1, R.bind_ok, P.bind_apply, readLeU64,
        (fixedRead_readFixed 8 leVal).append _ _ h2, R.bind_ok, P.bind_apply, (fixedRead_readFixed 8 leVal).append _ _ h3,
        R.bind_ok]
      exact ⟨_, _, rfl⟩
  obtain ⟨l, r, hl⟩ := hl
  refine ⟨⟨flags, sid, gno, l.tsType, l.lastCommitted, l.seqNum⟩, r, ?_, rfl, rfl⟩
  unfold GtidLogData.readFrom
  simp only [List.append_assoc]
  step (readU8_u8 flags _ hf)
  step (readLeU128_le sid _ hs)
  step (readLeU64_le gno _ hg)
  step hl
  rfl

/-! ### transactions -/

theorem gtidSaid_first (t : Spec.Transaction) (ok : t.Ok) : gtidSaid t.first = some t.range := by
  obtain ⟨flags, more, hf, hp⟩ := ok.tells
  obtain ⟨d, r, h1, h2, h3⟩ := gtidLogData_says flags t.sid t.gno more hf ok.sid_lt (by have := ok.gno_lt; omega)
  unfold gtidSaid
  rw [if_pos ok.first_code, hp, h1]
  simp only [h2, h3]
  rfl

theorem gtidSaid_others (t : Spec.Transaction) (ok : t.Ok) : t.others.filterMap gtidSaid = [] := by
  rw [List.filterMap_eq_nil_iff]
  intro e he
  unfold gtidSaid
  rw [if_neg (ok.others_code e he).1]

theorem gtidSaid_all (ts : List Spec.Transaction) (ok : ∀ t ∈ ts, t.Ok) :
    (ts.flatMap Spec.Transaction.events).filterMap gtidSaid = ts.map Spec.Transaction.range := by
  induction ts with
  | nil => rfl
  | cons t ts ih =>
    have hok := ok t List.mem_cons_self
    rw [List.flatMap_cons, List.filterMap_append, ih fun x hx => ok x (List.mem_cons_of_mem _ hx), Spec.Transaction.events,
      List.filterMap_cons, gtidSaid_first t hok, gtidSaid_others t hok]
    rfl

theorem gtidSaid_visible (es : List Spec.LogEvent) : (Spec.visible es).filterMap gtidSaid = es.filterMap gtidSaid := by
  induction es with
  | nil => rfl
  | cons e es ih =>
    by_cases hs : e.code ∈ Spec.supportedCodes
    · rw [Spec.visible, List.filter_cons_of_pos (by simpa using hs), List.filterMap_cons, List.filterMap_cons, ← ih]
      rfl
    · rw [Spec.visible, List.filter_cons_of_neg (by simpa using hs), List.filterMap_cons, ← ih]
      have : gtidSaid e = none := by
        unfold gtidSaid
        rw [if_neg]
        intro h
        exact hs (by rw [h]; decide)
      rw [this]
      rfl

theorem gtidSaid_between (es : List Spec.LogEvent) : (Spec.inTransactions es).filterMap gtidSaid = es.filterMap gtidSaid := by
  induction es with
  | nil => rfl
  | cons e es ih =>
    by_cases hs : e.code ∈ Spec.betweenCodes
    · rw [Spec.inTransactions, List.filter_cons_of_neg (by simpa using hs), List.filterMap_cons, ← ih]
      have : gtidSaid e = none := by
        unfold gtidSaid
        rw [if_neg]
        intro h
        rw [h] at hs
        revert hs
        decide
      rw [this]
      rfl
    · rw [Spec.inTransactions, List.filter_cons_of_pos (by simpa using hs), List.filterMap_cons, List.filterMap_cons, ← ih]
      rfl

/-- the settled part of a beginning of the events of transactions are those of whole transactions -/
theorem beforeLast_whole (ts : List Spec.Transaction) (ok : ∀ t ∈ ts, t.Ok) (w v : List Spec.LogEvent)
    (h : w ++ v = ts.flatMap Spec.Transaction.events) :
    ∃ k ≤ ts.length, beforeLast (fun e => decide (e.code = 33)) w = (ts.take k).flatMap Spec.Transaction.events := by
  have none_last : ∀ (x : Spec.LogEvent) (l : List Spec.LogEvent), (∀ e ∈ l, e.code ≠ 33) →
      beforeLast (fun e => decide (e.code = 33)) (x :: l) = [] := by
    intro x l hl
    rw [beforeLast, if_neg]
    simp only [List.any_eq_true, decide_eq_true_eq, not_exists, not_and]
    exact hl
  have keep : ∀ (l m : List Spec.LogEvent), m.any (fun e => decide (e.code = 33)) = true →
      beforeLast (fun e => decide (e.code = 33)) (l ++ m) = l ++ beforeLast (fun e => decide (e.code = 33)) m := by
    intro l m hm
    induction l with
    | nil => rfl
    | cons x l ih => rw [List.cons_append, beforeLast, if_pos (by rw [List.any_append, hm, Bool.or_true]), ih]; rfl
  induction ts generalizing w with
  | nil =>
    rw [List.flatMap_nil, List.append_eq_nil_iff] at h
    exact ⟨0, le_rfl, by rw [h.1]; rfl⟩
  | cons t ts ih =>
    have hok := ok t List.mem_cons_self
    rw [List.flatMap_cons] at h
    have short : ∀ l, l <+: t.events → ∃ k ≤ (t :: ts).length, beforeLast (fun e => decide (e.code = 33)) l
        = ((t :: ts).take k).flatMap Spec.Transaction.events := by
      intro l hl
      refine ⟨0, Nat.zero_le _, ?_⟩
      rw [List.take_zero, List.flatMap_nil]
      cases l with
      | nil => rfl
      | cons x l =>
        rw [Spec.Transaction.events, List.cons_prefix_cons] at hl
        exact none_last x l fun e he => (hok.others_code e (hl.2.subset he)).1
    rcases List.append_eq_append_iff.1 h with ⟨a, h1, h2⟩ | ⟨a, h1, h2⟩
    · exact short w ⟨a, h1.symm⟩
    · obtain ⟨k, hk, hb⟩ := ih (fun x hx => ok x (List.mem_cons_of_mem _ hx)) a h2.symm
      cases ha : a.any (fun e => decide (e.code = 33))
      · have : a = [] := by
          cases a with
          | nil => rfl
          | cons x a =>
            cases ts with
            | nil => simp at h2
            | cons t' ts =>
              rw [List.flatMap_cons, Spec.Transaction.events, List.cons_append, List.cons_append, List.cons.injEq] at h2
              rw [List.any_cons, ← h2.1] at ha
              simp [(ok t' (by simp)).first_code] at ha
        rw [this, List.append_nil] at h1
        rw [h1]
        exact short _ (List.prefix_refl _)
      · refine ⟨k + 1, by rw [List.length_cons]; omega, ?_⟩
        rw [h1, keep _ _ ha, hb, List.take_succ_cons, List.flatMap_cons]

theorem drop_missing (T : List Spec.Transaction) (hn : (T.map fun t => (t.sid, t.gno)).Nodup) (k : Nat)
    (p : Spec.Transaction → Bool)
    (hp : ∀ t ∈ T, p t = true ↔ (t.sid, t.gno) ∉ (T.take k).map fun t => (t.sid, t.gno)) :
    T.filter p = T.drop k := by
  have hsplit := List.take_append_drop k T
  rw [← hsplit, List.map_append, List.nodup_append] at hn
  rw [← hsplit, List.filter_append]
  have h1 : (T.take k).filter p = [] := by
    rw [List.filter_eq_nil_iff]
    intro t ht hpt
    exact (hp t (List.mem_of_mem_take ht)).1 hpt (List.mem_map.2 ⟨t, ht, rfl⟩)
  have h2 : (T.drop k).filter p = T.drop k := by
    rw [List.filter_eq_self]
    intro t ht
    refine (hp t (List.mem_of_mem_drop ht)).2 fun hm => ?_
    exact hn.2.2 _ hm _ (List.mem_map.2 ⟨t, ht, rfl⟩) rfl
  rw [h1, h2, List.nil_append]
  simp

/-! ### the claim -/

/-- as `Spec.OpensStream`, for a master in GTID mode -/
def Spec.OpensGtidStream (caps : Nat) (crc : Bool) (msgs : List Bytes) : Prop :=
  ∃ (masterId : Nat) (checksum : Bytes) (i j k : Nat) (answers : List Bytes) (rot : Spec.LogEvent) (pos : Nat)
    (file : Bytes) (e : Spec.LogEvent) (f : Spec.Fde) (alg : Nat),
    checksum.length < 251 ∧ Spec.MasterAnswers caps masterId checksum (Spec.ascii "ON") i j k answers ∧
    Spec.RotateTo rot pos file ∧ Spec.Describes e f alg ∧ crc = decide (alg = 1) ∧
    msgs = answers ++ [Spec.streamMessage (decide (checksum = Spec.ascii "CRC32")) rot, Spec.streamMessage false e]

/-- the dump command a master in GTID mode hears for a request -/
def BinlogRequest.gtidDump (r : BinlogRequest) (random : Nat) : Spec.ServerCmd :=
  .binlogDumpGtid (Spec.gtidDumpFlags r.nonBlock (!r.sids.isEmpty)) (if r.serverId = 0 then random else r.serverId)
    r.binlogFilename r.binlogPos (Spec.sidData r.sids)

theorem gtid_reader (r : BinlogRequest) (ok : r.Ok) (uuid : Bytes) (hu : uuid.length = 36) (random : Nat) (hr : random < 2 ^ 32)
    (hl : r.binlogFilename.length + SidData.bytesLen r.sids + 64 < 255 * 0xffffff)
    (crc : Bool) (c : Conn) (opening : List Bytes) (ho : Spec.OpensGtidStream c.caps crc opening) (es : List Spec.LogEvent)
    (hes : ∀ e ∈ es, e.InRange) (left : Bytes)
    (hd : Spec.Delivers c.inp (opening ++ es.map (Spec.streamMessage crc)) left) :
    ∃ s c1 c2 os, r.requestStream uuid random c = .ok s c1 ∧ s.calls (Spec.visible es).length c1 = .ok (os, s) c2 ∧
      (∃ setup, Spec.Heard c.caps c.out c1.out (setup ++ [.command (r.gtidDump random)])) ∧
      List.Forall₂ (Spec.Returned crc) (Spec.visible es) os := by
  obtain ⟨masterId, checksum, i, j, k, answers, rot, pos, file, e, f, alg, h1, h2, h3, h4, rfl, rfl⟩ := ho
  obtain ⟨mid, d1, d2⟩ := Delivers.append hd
  obtain ⟨c1, a1, a2, a3, a4⟩ := C74_request_partial r ok uuid hu random hr c.caps masterId checksum (Spec.ascii "ON") h1 hl
    (fun h => absurd rfl h) i j k answers h2 rot pos file h3 e f alg h4 c mid rfl d1
  obtain ⟨c2, os, more, b1, b2, -⟩ := C53_events
    ⟨⟨0 :: f.lens, decide (alg = 1)⟩, r.validateChecksum, false, r.nonBlock⟩ rfl es hes [] left c1
    (by rw [List.append_nil, a2]; exact d2)
  rw [Spec.dumpSaid, if_pos rfl] at a4
  exact ⟨_, c1, c2, os, a1, b1, ⟨_, a4⟩, returned_visible _ _ _ b2⟩

theorem gtidDump_bit (nb byGtid : Bool) : (Spec.gtidDumpFlags nb byGtid).testBit 2 = byGtid := by
  cases nb <;> cases byGtid <;> decide

/-- what a master sends for a request, if the set of the request is accepted -/
theorem sends_missing (log : List Spec.Transaction) (r : BinlogRequest) (random : Nat)
    (hl : SidData.bytesLen r.sids < 2 ^ 32) (es : List Spec.LogEvent) (h : Spec.SendsFor log (r.gtidDump random) es) :
    Spec.inTransactions es = (Spec.missing log (r.sids.map SidRange.block)).flatMap Spec.Transaction.events ∧
      (∀ b ∈ r.sids.map SidRange.block, Spec.Ascending 0 b.2) ∧ (r.sids = [] → r.binlogFilename = [] ∧ r.binlogPos = 4) := by
  obtain ⟨-, h⟩ := h
  unfold BinlogRequest.gtidDump at h
  dsimp only at h
  rw [gtidDump_bit] at h
  by_cases hs : r.sids = []
  · rw [hs] at h
    obtain ⟨h1, h2, h3⟩ := h
    refine ⟨?_, by simp [hs], fun _ => ⟨h1, h2⟩⟩
    rw [h3, hs]
    congr 1
    unfold Spec.missing
    symm
    rw [List.filter_eq_self]
    intro t _
    simp [Spec.Has]
  · rw [if_pos (by cases hr : r.sids with | nil => exact absurd hr hs | cons a b => rfl)] at h
    obtain ⟨blocks, h1, h2, h3⟩ := h
    rw [gtidBlocks_sidData _ hl] at h1
    injection h1 with h1
    subst h1
    exact ⟨h3, h2, fun h => absurd h hs⟩

/-- C104: for every log of transactions with different GTIDs, every request to a master in GTID mode, whatever transactions
it names, and every moment its reader stops at: if a new request names, besides, the transactions the reader has seen to
the end (whatever comes before the last GTID event returned), then the master accepts the set and hears it as it is meant,
and what the first reader saw of these transactions and the second saw is, event by event, with nothing lost and nothing
twice, what the log has for the first request, up to what the second reader was not sent. `R` and `R'` are what was not yet
sent when the readers stopped. -/
theorem C104_resume (log : List Spec.Transaction) (ok : ∀ t ∈ log, t.Ok)
    (distinct : (log.map fun t => (t.sid, t.gno)).Nodup) (crc : Bool) (r : BinlogRequest) (hr : r.Ok)
    (hsize : r.binlogFilename.length + (SidData.bytesLen r.sids + 40 * log.length) + 64 < 2 ^ 31)
    (uuid : Bytes) (hu : uuid.length = 36) (random : Nat) (hrand : random < 2 ^ 32) (P R : List Spec.LogEvent)
    (hsends : Spec.SendsFor log (r.gtidDump random) (P ++ R)) (c : Conn) (opening : List Bytes)
    (ho : Spec.OpensGtidStream c.caps crc opening) (left : Bytes)
    (hd : Spec.Delivers c.inp (opening ++ P.map (Spec.streamMessage crc)) left) :
    ∃ s c1 c2 os, r.requestStream uuid random c = .ok s c1 ∧ s.calls (Spec.visible P).length c1 = .ok (os, s) c2 ∧
      ∀ r' : BinlogRequest, r' = { r with sids := r.sids ++ executed (settled os) } →
        (∀ random', ∃ es, Spec.SendsFor log (r'.gtidDump random') es) ∧
        ∀ (uuid' : Bytes), uuid'.length = 36 → ∀ random' < 2 ^ 32, ∀ P' R',
          Spec.SendsFor log (r'.gtidDump random') (P' ++ R') → ∀ (c' : Conn) (opening' : List Bytes),
          Spec.OpensGtidStream c'.caps crc opening' → ∀ left',
          Spec.Delivers c'.inp (opening' ++ P'.map (Spec.streamMessage crc)) left' →
          ∃ s' c1' c2' os', r'.requestStream uuid' random' c' = .ok s' c1' ∧
            (∃ setup, Spec.Heard c'.caps c'.out c1'.out (setup ++ [.command (r'.gtidDump random')])) ∧
            s'.calls (Spec.visible P').length c1' = .ok (os', s') c2' ∧
            ∃ seen, Spec.visible (Spec.inTransactions (P ++ R)) = seen ++ Spec.visible (Spec.inTransactions R') ∧
              List.Forall₂ (Spec.Seen crc) seen (ofTransactions (settled os) ++ ofTransactions os') := by
  have hl32 : SidData.bytesLen r.sids < 2 ^ 32 := by omega
  obtain ⟨s, c1, c2, os, a1, a2, -, a4⟩ := gtid_reader r hr uuid hu random hrand (by omega) crc c opening ho P
    (fun e he => hsends.1 e (by simp [he])) left hd
  obtain ⟨hT, hasc, hfile⟩ := sends_missing log r random hl32 _ hsends
  generalize hTdef : Spec.missing log (r.sids.map SidRange.block) = T at hT
  have hTlog : ∀ t ∈ T, t ∈ log := by
    intro t ht
    rw [← hTdef] at ht
    exact List.mem_of_mem_filter ht
  have hTok : ∀ t ∈ T, t.Ok := fun t ht => ok t (hTlog t ht)
  have hTlen : T.length ≤ log.length := by
    rw [← hTdef]
    exact List.length_filter_le _ _
  have hTnodup : (T.map fun t => (t.sid, t.gno)).Nodup := by
    rw [← hTdef]
    exact distinct.sublist (List.filter_sublist.map _)
  rw [Spec.inTransactions, List.filter_append] at hT
  obtain ⟨k, hk, hbefore⟩ := beforeLast_whole T hTok _ _ hT
  -- the settled results are those of the first `k` transactions
  have hset : List.Forall₂ (Spec.Returned crc) (beforeLast (fun e => decide (e.code = 33)) (Spec.visible P)) (settled os) :=
    beforeLast_rel _ _ (fun a b h => returned_gtid crc a b h) a4
  have hown : List.Forall₂ (Spec.Returned crc)
      (Spec.visible ((T.take k).flatMap Spec.Transaction.events)) (ofTransactions (settled os)) := by
    have := filter_rel (fun e : Spec.LogEvent => decide (e.code ∉ Spec.betweenCodes)) _ (fun a b h => returned_between crc a b h) hset
    rw [beforeLast_filter _ _ (by
      intro x hx
      simp only [decide_eq_true_eq] at hx ⊢
      rw [hx]
      decide), Spec.visible, List.filter_filter] at this
    rw [← hbefore, Spec.visible, beforeLast_filter _ _ (by
      intro x hx
      simp only [decide_eq_true_eq] at hx ⊢
      rw [hx]
      decide), List.filter_filter, ofTransactions]
    simp only [Bool.and_comm] at this ⊢
    exact this
  have hexec : executed (settled os) = (T.take k).map Spec.Transaction.range := by
    rw [executed_returned crc _ _ hset, ← gtidSaid_between]
    have e1 : Spec.inTransactions (beforeLast (fun e => decide (e.code = 33)) (Spec.visible P))
        = Spec.visible (beforeLast (fun e => decide (e.code = 33)) (P.filter fun e => e.code ∉ Spec.betweenCodes)) := by
      rw [Spec.inTransactions, Spec.visible, Spec.visible, beforeLast_filter _ _ (by
        intro x hx
        simp only [decide_eq_true_eq] at hx ⊢
        rw [hx]
        decide), beforeLast_filter _ _ (by
        intro x hx
        simp only [decide_eq_true_eq] at hx ⊢
        rw [hx]
        decide), List.filter_filter, List.filter_filter]
      simp only [Bool.and_comm]
    rw [e1, gtidSaid_visible, hbefore, gtidSaid_all _ fun t ht => hTok t (List.mem_of_mem_take ht)]
  refine ⟨s, c1, c2, os, a1, a2, ?_⟩
  rintro r' rfl
  rw [hexec]
  have hbl : SidData.bytesLen (r.sids ++ (T.take k).map Spec.Transaction.range)
      = SidData.bytesLen r.sids + 40 * (T.take k).length := by
    unfold SidData.bytesLen
    have : ∀ ts : List Spec.Transaction, ((ts.map Spec.Transaction.range).map SidRange.bytesLen).sum = 40 * ts.length := by
      intro ts
      induction ts with
      | nil => rfl
      | cons t ts ih =>
        rw [List.map_cons, List.map_cons, List.sum_cons, ih, List.length_cons]
        show 40 + _ = _
        omega
    rw [List.map_append, List.sum_append, this]
    omega
  have hklen : (T.take k).length ≤ log.length := by rw [List.length_take]; omega
  have hok' : ({ r with sids := r.sids ++ (T.take k).map Spec.Transaction.range } : BinlogRequest).Ok := by
    refine ⟨hr.serverId_lt, hr.heartbeat_lt, hr.file_len, hr.file_utf8, hr.pos_lt, ?_, ?_⟩
    · intro x hx
      rcases List.mem_append.1 hx with hx | hx
      · exact hr.sids_ok x hx
      · obtain ⟨t, ht, rfl⟩ := List.mem_map.1 hx
        have htok := hTok t (List.mem_of_mem_take ht)
        have hg := htok.gno_lt
        refine ⟨htok.sid_lt, ?_⟩
        intro i hi
        rw [Spec.Transaction.range, List.mem_singleton] at hi
        subst hi
        unfold Spec.SignedRange
        norm_num at hg ⊢
        omega
    · show SidData.bytesLen (r.sids ++ _) < _
      rw [hbl]
      omega
  classical
  have hmiss : Spec.missing log ((r.sids ++ (T.take k).map Spec.Transaction.range).map SidRange.block) = T.drop k := by
    have : Spec.missing log ((r.sids ++ (T.take k).map Spec.Transaction.range).map SidRange.block)
        = Spec.missing T (((T.take k).map Spec.Transaction.range).map SidRange.block) := by
      rw [← hTdef]
      unfold Spec.missing
      rw [List.filter_filter]
      apply List.filter_congr
      intro t _
      rw [List.map_append, Bool.eq_iff_iff, Bool.and_eq_true, decide_eq_true_eq, decide_eq_true_eq, decide_eq_true_eq,
        has_append, not_or, and_comm]
    rw [this]
    apply drop_missing T hTnodup k
    intro t ht
    rw [decide_eq_true_eq, has_ranges _ (fun x hx => hTok x (List.mem_of_mem_take hx)) _ _ (hTok t ht).sid_lt]
  have hasc' : ∀ b ∈ (r.sids ++ (T.take k).map Spec.Transaction.range).map SidRange.block, Spec.Ascending 0 b.2 := by
    intro b hb
    rw [List.map_append] at hb
    rcases List.mem_append.1 hb with hb | hb
    · exact hasc b hb
    · obtain ⟨_, hx, rfl⟩ := List.mem_map.1 hb
      obtain ⟨t, ht, rfl⟩ := List.mem_map.1 hx
      have htok := hTok t (List.mem_of_mem_take ht)
      rw [range_block t htok]
      exact ⟨htok.gno_pos, Nat.lt_succ_self _, trivial⟩
  have hinr : ∀ ts : List Spec.Transaction, (∀ t ∈ ts, t.Ok) →
      (∀ e ∈ ts.flatMap Spec.Transaction.events, e.InRange) ∧
      Spec.inTransactions (ts.flatMap Spec.Transaction.events) = ts.flatMap Spec.Transaction.events := by
    intro ts hts
    constructor
    · intro e he
      obtain ⟨t, ht, he⟩ := List.mem_flatMap.1 he
      rcases List.mem_cons.1 he with rfl | he
      · exact (hts t ht).first_range
      · exact (hts t ht).others_range e he
    · unfold Spec.inTransactions
      rw [List.filter_eq_self]
      intro e he
      obtain ⟨t, ht, he⟩ := List.mem_flatMap.1 he
      rw [decide_eq_true_eq]
      rcases List.mem_cons.1 he with rfl | he
      · rw [(hts t ht).first_code]; decide
      · exact ((hts t ht).others_code e he).2
  constructor
  · intro random'
    have hTd := hinr (T.drop k) fun t ht => hTok t (List.mem_of_mem_drop ht)
    refine ⟨(T.drop k).flatMap Spec.Transaction.events, hTd.1, ?_⟩
    unfold BinlogRequest.gtidDump
    dsimp only
    rw [gtidDump_bit]
    by_cases hs : r.sids ++ (T.take k).map Spec.Transaction.range = []
    · rw [hs] at hmiss ⊢
      refine ⟨(hfile (List.append_eq_nil_iff.1 hs).1).1, (hfile (List.append_eq_nil_iff.1 hs).1).2, ?_⟩
      rw [hTd.2, ← hmiss]
      congr 1
      unfold Spec.missing
      rw [List.filter_eq_self]
      intro t _
      simp [Spec.Has]
    · rw [if_pos (by
        generalize r.sids ++ (T.take k).map Spec.Transaction.range = m at hs
        cases m with
        | nil => exact absurd rfl hs
        | cons a b => rfl)]
      exact ⟨_, gtidBlocks_sidData _ (by rw [hbl]; omega), hasc', by rw [hmiss, hTd.2]⟩
  · intro uuid' hu' random' hr' P' R' hsends' c' opening' ho' left' hd'
    obtain ⟨s', c1', c2', os', b1, b2, b3, b4⟩ := gtid_reader _ hok' uuid' hu' random' hr'
      (by show r.binlogFilename.length + SidData.bytesLen (r.sids ++ _) + 64 < _; rw [hbl]; omega) crc c' opening' ho' P'
      (fun e he => hsends'.1 e (by simp [he])) left' hd'
    obtain ⟨hT', -, -⟩ := sends_missing log _ random' (by show SidData.bytesLen (r.sids ++ _) < _; rw [hbl]; omega) _ hsends'
    dsimp only at hT'
    rw [hmiss] at hT'
    refine ⟨s', c1', c2', os', b1, b3, b2, Spec.visible ((T.take k).flatMap Spec.Transaction.events) ++
      Spec.visible (Spec.inTransactions P'), ?_, ?_⟩
    · have e1 : Spec.inTransactions (P ++ R) = T.flatMap Spec.Transaction.events := by
        rw [Spec.inTransactions, List.filter_append]; exact hT
      have e2 : T.flatMap Spec.Transaction.events = (T.take k).flatMap Spec.Transaction.events ++
          (T.drop k).flatMap Spec.Transaction.events := by
        rw [← List.flatMap_append, List.take_append_drop]
      rw [e1, e2, ← hT']
      simp only [Spec.visible, Spec.inTransactions, List.filter_append, List.append_assoc]
    · have h1 : List.Forall₂ (Spec.Seen crc) (Spec.visible ((T.take k).flatMap Spec.Transaction.events))
          (ofTransactions (settled os)) := hown.imp fun _ _ h => h.2
      have h2 : List.Forall₂ (Spec.Seen crc) (Spec.visible (Spec.inTransactions P')) (ofTransactions os') := by
        have := filter_rel (fun e : Spec.LogEvent => decide (e.code ∉ Spec.betweenCodes)) _
          (fun a b h => returned_between crc a b h) b4
        rw [Spec.visible, List.filter_filter] at this
        rw [Spec.visible, Spec.inTransactions, List.filter_filter]
        simp only [Bool.and_comm] at this ⊢
        exact this.imp fun _ _ h => h.2
      exact List.rel_append h1 h2

theorem le16_inj {a b : Nat} (ha : a < 2 ^ 128) (hb : b < 2 ^ 128) (h : Spec.le 16 a = Spec.le 16 b) : a = b := by
  have e1 := Spec.D.le_spec 16 a [] (by omega)
  have e2 := Spec.D.le_spec 16 b [] (by omega)
  rw [h, e2] at e1
  injection e1 with e1
  injection e1 with e1
  exact e1.symm

/-- the GTIDs a request means: intervals from the first number up to, but without, the second -/
def Spec.Names (sids : List SidRange) (sid gno : Nat) : Prop :=
  ∃ s ∈ sids, s.sid = sid ∧ ∃ i ∈ s.intervals, i.1 ≤ (gno : Int) ∧ (gno : Int) < i.2

/-- C104: the set of GTIDs a master hears is the one the request names, read with the end of an interval exclusive. -/
theorem C104_named (sids : List SidRange) (hs : SidsInRange sids)
    (hpos : ∀ s ∈ sids, ∀ i ∈ s.intervals, 0 ≤ i.1 ∧ 0 ≤ i.2) (hl : SidData.bytesLen sids < 2 ^ 32) :
    ∃ blocks, Spec.gtidBlocks (Spec.sidData sids) = some blocks ∧
      ∀ sid < 2 ^ 128, ∀ gno, Spec.Has blocks sid gno ↔ Spec.Names sids sid gno := by
  refine ⟨_, gtidBlocks_sidData sids hl, ?_⟩
  intro sid hsid gno
  have pat : ∀ s ∈ sids, ∀ i ∈ s.intervals, (Spec.pattern 64 i.1 : Int) = i.1 ∧ (Spec.pattern 64 i.2 : Int) = i.2 := by
    intro s hm i hi
    obtain ⟨h1, h2⟩ := (hs s hm).2 i hi
    obtain ⟨p1, p2⟩ := hpos s hm i hi
    unfold Spec.SignedRange at h1 h2
    norm_num at h1 h2
    obtain ⟨a, ha⟩ := Int.eq_ofNat_of_zero_le p1
    obtain ⟨b, hb⟩ := Int.eq_ofNat_of_zero_le p2
    rw [ha, hb]
    exact ⟨by rw [pattern_nat 64 a (by norm_num; omega)], by rw [pattern_nat 64 b (by norm_num; omega)]⟩
  unfold Spec.Has Spec.Names
  constructor
  · rintro ⟨b, hb, h1, i, hi, h2, h3⟩
    obtain ⟨s, hm, rfl⟩ := List.mem_map.1 hb
    obtain ⟨j, hj, rfl⟩ := List.mem_map.1 hi
    have := pat s hm j hj
    exact ⟨s, hm, le16_inj (hs s hm).1 hsid h1, j, hj, by dsimp only at h2 h3; omega, by dsimp only at h2 h3; omega⟩
  · rintro ⟨s, hm, rfl, i, hi, h1, h2⟩
    have := pat s hm i hi
    exact ⟨_, List.mem_map.2 ⟨s, hm, rfl⟩, rfl, _, List.mem_map.2 ⟨i, hi, rfl⟩, by dsimp only; omega, by dsimp only; omega⟩

/-- the ranges for a request that name a set of GTIDs, whose intervals have inclusive ends -/
def Spec.Gtids.range (g : Spec.Gtids) : SidRange := ⟨g.sid, g.intervals.map fun i => ((i.1 : Int), (i.2 : Int) + 1)⟩

/-- the GTID is in the set -/
def Spec.InSet (gs : List Spec.Gtids) (sid gno : Nat) : Prop := ∃ g ∈ gs, g.sid = sid ∧ ∃ i ∈ g.intervals, i.1 ≤ gno ∧ gno ≤ i.2

theorem gtidSet_sidData (gs : List Spec.Gtids) (hg : ∀ g ∈ gs, ∀ i ∈ g.intervals, i.1 < 2 ^ 63 ∧ i.2 + 1 < 2 ^ 63) :
    Spec.gtidSet gs = Spec.sidData (gs.map Spec.Gtids.range) := by
  unfold Spec.gtidSet Spec.sidData
  rw [List.length_map, List.map_map]
  congr 2
  apply List.map_congr_left
  intro g hm
  show g.encode = Spec.sidRange g.range
  unfold Spec.Gtids.encode Spec.sidRange Spec.Gtids.range
  dsimp only
  rw [List.length_map, List.map_map]
  congr 2
  apply List.map_congr_left
  intro i hi
  obtain ⟨h1, h2⟩ := hg g hm i hi
  show _ = Spec.le 8 (Spec.pattern 64 (i.1 : Int)) ++ Spec.le 8 (Spec.pattern 64 ((i.2 : Int) + 1))
  rw [pattern_nat 64 i.1 (by omega), show ((i.2 : Int) + 1) = ((i.2 + 1 : Nat) : Int) by push_cast; rfl,
    pattern_nat 64 (i.2 + 1) (by omega)]

theorem ordered_bounds (lo : Nat) (l : List (Nat × Nat)) (h : Spec.Ordered lo l) : ∀ i ∈ l, lo < i.1 ∧ i.1 ≤ i.2 := by
  induction l generalizing lo with
  | nil => intro i hi; cases hi
  | cons x l ih =>
    obtain ⟨a, b⟩ := x
    obtain ⟨h1, h2, h3⟩ := h
    intro i hi
    rcases List.mem_cons.1 hi with rfl | hi
    · exact ⟨h1, h2⟩
    · have := ih _ h3 i hi
      show lo < i.1 ∧ i.1 ≤ i.2
      omega

/-- C104: the set a PREVIOUS_GTIDS event says, read as the ranges of a request and given to one, names the same
transactions to the master, which accepts it. -/
theorem C104_previous (gs : List Spec.Gtids) (ok : ∀ g ∈ gs, g.Ok)
    (hg : ∀ g ∈ gs, ∀ i ∈ g.intervals, i.2 + 1 < 2 ^ 63) (hl : (Spec.gtidSet gs).length < 2 ^ 32) :
    ∃ sids, SidData.readFrom (Spec.gtidSet gs) = .ok sids [] ∧ SidsInRange sids ∧
      ∃ blocks, Spec.gtidBlocks (Spec.sidData sids) = some blocks ∧ (∀ b ∈ blocks, Spec.Ascending 0 b.2) ∧
        ∀ sid < 2 ^ 128, ∀ gno, Spec.Has blocks sid gno ↔ Spec.InSet gs sid gno := by
  have hb : ∀ g ∈ gs, ∀ i ∈ g.intervals, i.1 < 2 ^ 63 ∧ i.2 + 1 < 2 ^ 63 := by
    intro g hm i hi
    have := ordered_bounds 0 _ (ok g hm).2.1 i hi
    have := hg g hm i hi
    omega
  have hs : SidsInRange (gs.map Spec.Gtids.range) := by
    intro s hs
    obtain ⟨g, hm, rfl⟩ := List.mem_map.1 hs
    refine ⟨(ok g hm).1, ?_⟩
    intro i hi
    obtain ⟨j, hj, rfl⟩ := List.mem_map.1 hi
    have := hb g hm j hj
    unfold Spec.SignedRange
    norm_num at this ⊢
    omega
  rw [gtidSet_sidData gs hb] at hl ⊢
  have hl' : SidData.bytesLen (gs.map Spec.Gtids.range) < 2 ^ 32 := by rw [← length_sidData]; exact hl
  have hread := SidData.readFrom_spec _ hs hl' []
  rw [List.append_nil] at hread
  refine ⟨_, hread, hs, ?_⟩
  obtain ⟨blocks, h1, h2⟩ := C104_named _ hs (by
    intro s hs i hi
    obtain ⟨g, hm, rfl⟩ := List.mem_map.1 hs
    obtain ⟨j, hj, rfl⟩ := List.mem_map.1 hi
    dsimp only
    omega) hl'
  refine ⟨blocks, h1, ?_, ?_⟩
  · rw [gtidBlocks_sidData _ hl'] at h1
    injection h1 with h1
    subst h1
    intro b hb'
    obtain ⟨s, hs, rfl⟩ := List.mem_map.1 hb'
    obtain ⟨g, hm, rfl⟩ := List.mem_map.1 hs
    show Spec.Ascending 0 ((g.intervals.map _).map _)
    rw [List.map_map]
    have key : ∀ (l : List (Nat × Nat)) (lo : Nat), Spec.Ordered lo l → (∀ i ∈ l, i.1 < 2 ^ 63 ∧ i.2 + 1 < 2 ^ 63) →
        Spec.Ascending lo (l.map ((fun i : Int × Int => (Spec.pattern 64 i.1, Spec.pattern 64 i.2)) ∘
          fun i : Nat × Nat => ((i.1 : Int), (i.2 : Int) + 1))) := by
      intro l
      induction l with
      | nil => intros; trivial
      | cons x l ih =>
        intro lo ho hx
        obtain ⟨a, b⟩ := x
        obtain ⟨o1, o2, o3⟩ := ho
        have := hx (a, b) List.mem_cons_self
        rw [List.map_cons, Function.comp]
        dsimp only at this ⊢
        rw [pattern_nat 64 a (by omega), show ((b : Int) + 1) = ((b + 1 : Nat) : Int) by push_cast; rfl,
          pattern_nat 64 (b + 1) (by omega)]
        exact ⟨o1, by omega, ih (b + 1) o3 fun i hi => hx i (List.mem_cons_of_mem _ hi)⟩
    exact key _ 0 (ok g hm).2.1 (hb g hm)
  · intro sid hsid gno
    rw [h2 sid hsid gno]
    unfold Spec.Names Spec.InSet
    constructor
    · rintro ⟨s, hs, rfl, i, hi, a, b⟩
      obtain ⟨g, hm, rfl⟩ := List.mem_map.1 hs
      obtain ⟨j, hj, rfl⟩ := List.mem_map.1 hi
      dsimp only at a b
      exact ⟨g, hm, rfl, j, hj, by omega, by omega⟩
    · rintro ⟨g, hm, rfl, i, hi, a, b⟩
      exact ⟨_, List.mem_map.2 ⟨g, hm, rfl⟩, rfl, _, List.mem_map.2 ⟨i, hi, rfl⟩, by dsimp only; omega, by dsimp only; omega⟩

/-- a decoded range with its intervals as they are, as the range of a request -/
def carriedOver (g : GtidRange) : SidRange := ⟨g.sid, g.intervals.map fun i => ((i.1 : Int), (i.2 : Int))⟩

/-- The two types of this library for sets of GTIDs disagree on the end of an interval: in the ranges decoded from a
PREVIOUS_GTIDS event it is included, in the ranges of a request it is not. Intervals carried over as they are name every
transaction of the set but the last of each interval, which is then sent again. -/
theorem C104_carried_over_false (gs : List Spec.Gtids) (ok : ∀ g ∈ gs, g.Ok) (distinct : (gs.map (·.sid)).Nodup)
    (hg : ∀ g ∈ gs, ∀ i ∈ g.intervals, i.2 + 1 < 2 ^ 63) (hl : (Spec.gtidSet gs).length < 2 ^ 32) :
    ∃ decoded, GtidSet.readFrom (Spec.gtidSet gs) = .ok decoded [] ∧
      ∃ blocks, Spec.gtidBlocks (Spec.sidData (decoded.map carriedOver)) = some blocks ∧
        ∀ g ∈ gs, ∀ i ∈ g.intervals, Spec.InSet gs g.sid i.2 ∧ ¬ Spec.Has blocks g.sid i.2 := by
  have hb : ∀ g ∈ gs, ∀ i ∈ g.intervals, i.1 < 2 ^ 63 ∧ i.2 + 1 < 2 ^ 63 := by
    intro g hm i hi
    have := ordered_bounds 0 _ (ok g hm).2.1 i hi
    have := hg g hm i hi
    omega
  have hl0 : SidData.bytesLen (gs.map Spec.Gtids.range) < 2 ^ 32 := by
    rw [← length_sidData, ← gtidSet_sidData gs hb]; exact hl
  have hlen : ∀ g ∈ gs, g.intervals.length < 2 ^ 32 := by
    intro g hm
    have := intervals_le_sum (List.mem_map_of_mem (f := Spec.Gtids.range) hm)
    unfold SidData.bytesLen at hl0
    have hb' : g.range.bytesLen = 16 + 8 + 16 * (g.intervals.map fun i => ((i.1 : Int), (i.2 : Int) + 1)).length := rfl
    rw [List.length_map] at hb'
    omega
  have hn : gs.length < 2 ^ 32 := by
    have := sum_ge_length (gs.map Spec.Gtids.range)
    unfold SidData.bytesLen at hl0
    rw [List.length_map] at this
    omega
  have hdec := C33_decode_set gs (fun g hm => ⟨ok g hm, by have := hlen g hm; omega⟩) distinct (by omega) []
  rw [List.append_nil] at hdec
  refine ⟨_, hdec, ?_⟩
  rw [List.map_map]
  generalize hc : (carriedOver ∘ fun g : Spec.Gtids => (⟨g.sid, g.intervals⟩ : GtidRange)) = carried
  have hc1 : ∀ g, (carried g).sid = g.sid := fun g => by rw [← hc]; rfl
  have hc2 : ∀ g, (carried g).intervals = g.intervals.map fun i => ((i.1 : Int), (i.2 : Int)) := fun g => by rw [← hc]; rfl
  have hl' : SidData.bytesLen (gs.map carried) < 2 ^ 32 := by
    have : SidData.bytesLen (gs.map carried) = SidData.bytesLen (gs.map Spec.Gtids.range) := by
      have he : ∀ l : List Spec.Gtids, (l.map carried).map SidRange.bytesLen = (l.map Spec.Gtids.range).map SidRange.bytesLen := by
        intro l
        rw [List.map_map, List.map_map]
        apply List.map_congr_left
        intro g _
        rw [Function.comp, Function.comp, SidRange.bytesLen, SidRange.bytesLen, hc2, Spec.Gtids.range]
        simp only [List.length_map]
      rw [SidData.bytesLen, SidData.bytesLen, he]
    rw [this]
    exact hl0
  obtain ⟨blocks, h1, h2⟩ := C104_named (gs.map carried) (by
    intro s hs
    obtain ⟨g, hm, rfl⟩ := List.mem_map.1 hs
    refine ⟨by rw [hc1]; exact (ok g hm).1, ?_⟩
    intro i hi
    rw [hc2] at hi
    obtain ⟨j, hj, rfl⟩ := List.mem_map.1 hi
    have := hb g hm j hj
    unfold Spec.SignedRange
    norm_num at this ⊢
    omega) (by
    intro s hs i hi
    obtain ⟨g, hm, rfl⟩ := List.mem_map.1 hs
    rw [hc2] at hi
    obtain ⟨j, hj, rfl⟩ := List.mem_map.1 hi
    dsimp only
    omega) hl'
  refine ⟨blocks, h1, ?_⟩
  intro g hm i hi
  refine ⟨⟨g, hm, rfl, i, hi, (ordered_bounds 0 _ (ok g hm).2.1 i hi).2, le_rfl⟩, ?_⟩
  rw [h2 g.sid (ok g hm).1]
  rintro ⟨s, hs, he, j, hj, a, b⟩
  obtain ⟨g', hm', rfl⟩ := List.mem_map.1 hs
  rw [hc1] at he
  rw [hc2] at hj
  have : g' = g := List.inj_on_of_nodup_map distinct hm' hm he
  subst this
  obtain ⟨k, hk, rfl⟩ := List.mem_map.1 hj
  dsimp only at a b
  have key : ∀ (l : List (Nat × Nat)) (lo : Nat), Spec.Ordered lo l → ∀ i ∈ l, ∀ k ∈ l, k.1 ≤ i.2 → i.2 < k.2 → False := by
    intro l
    induction l with
    | nil => intro lo _ i hi; cases hi
    | cons x l ih =>
      intro lo ho i hi k hk h1 h2
      obtain ⟨y, z⟩ := x
      obtain ⟨o1, o2, o3⟩ := ho
      rcases List.mem_cons.1 hi with rfl | hi
      · rcases List.mem_cons.1 hk with rfl | hk
        · omega
        · have := ordered_bounds _ _ o3 k hk
          dsimp only at h1
          omega
      · rcases List.mem_cons.1 hk with rfl | hk
        · have := ordered_bounds _ _ o3 i hi
          dsimp only at h2
          omega
        · exact ih _ o3 i hi k hk h1 h2
  exact key _ 0 (ok g' hm).2.1 i hi k hk (by omega) (by omega)

/-! ### the hypotheses can be met -/

theorem plain_opens_gtid : ∃ opening, Spec.OpensGtidStream plainCaps true opening ∧ ∀ m ∈ opening, m.length < 0xffffff := by
  let tells : Bytes → List Bytes := fun value => Spec.textAnswer plainCaps [exampleTextDef, exampleTextDef] 0 2
      [[some (Spec.ascii "x"), some value]] (Spec.okPacket plainCaps 0xfe ⟨0, 0, 2, 0, [], []⟩)
  let accepts : Nat → List Bytes := fun id => Spec.prepareResponse plainCaps ⟨id, 0⟩ [exampleTextDef] [] 0 2 0 0
    ++ [Spec.okPacket plainCaps 0 ⟨0, 0, 2, 0, [], []⟩]
  let msgs : List Bytes := [tells (Spec.ascii "7"), accepts 1, tells (Spec.ascii "CRC32"), accepts 2, tells (Spec.ascii "ON"),
    tells (Spec.ascii "u"), accepts 3, [Spec.okPacket plainCaps 0 ⟨0, 0, 2, 0, [], []⟩]].flatten
  let rot : Spec.LogEvent := ⟨0, 4, 7, 0, 0, Spec.le 8 4 ++ Spec.ascii "f1"⟩
  let e : Spec.LogEvent := ⟨0, 15, 7, 0, 0, exampleFde.encode ++ Spec.u8 1 ++ Spec.le 4 5⟩
  refine ⟨_, ⟨7, Spec.ascii "CRC32", 1, 2, 3, msgs, rot, 4, Spec.ascii "f1", e, exampleFde, 1, by decide +kernel,
    ?_, ?_, ?_, rfl, rfl⟩, ?_⟩
  · exact ⟨Spec.ascii "7", Spec.ascii "u", _, _, _, _, _, _, _, ⟨0, 0, 2, 0, [], []⟩, by decide +kernel, by norm_num,
      by decide +kernel, by decide +kernel, by decide +kernel, plain_tells _ (by decide), plain_accepts 1 (by norm_num),
      plain_tells _ (by decide), plain_accepts 2 (by norm_num), plain_tells _ (by decide), plain_tells _ (by decide),
      plain_accepts 3 (by norm_num), by constructor <;> norm_num, rfl⟩
  · exact ⟨by unfold Spec.LogEvent.InRange; decide +kernel, rfl, by norm_num, rfl⟩
  · exact ⟨by unfold Spec.LogEvent.InRange; decide +kernel, exampleFde_ok.1, exampleFde_ok.2, by norm_num, 5, by norm_num, rfl⟩
  · rw [decide_eq_true rfl]
    decide +kernel

/-- transaction `gno` of source 9: its GTID event, a query event, an event of a type this library does not know -/
def smallTransaction (gno : Nat) : Spec.Transaction :=
  ⟨9, gno, ⟨1, 33, 7, 0, 0, Spec.u8 0 ++ Spec.le 16 9 ++ Spec.le 8 gno ++ []⟩,
    [⟨2, 2, 7, 0, 0, [1, 2]⟩, ⟨3, 36, 7, 0, 0, []⟩]⟩

theorem smallTransaction_ok (gno : Nat) (h1 : 0 < gno) (h2 : gno < 2 ^ 62) : (smallTransaction gno).Ok where
  sid_lt := by show 9 < _; norm_num
  gno_pos := h1
  gno_lt := by show gno + 1 < _; omega
  first_range := by
    unfold Spec.LogEvent.InRange smallTransaction
    simp only [List.length_append, Spec.length_le, Spec.u8, List.length_cons, List.length_nil]
    norm_num
  first_code := rfl
  tells := ⟨0, [], by norm_num, rfl⟩
  others_range := by
    show ∀ e ∈ [(⟨2, 2, 7, 0, 0, [1, 2]⟩ : Spec.LogEvent), ⟨3, 36, 7, 0, 0, []⟩], e.InRange
    unfold Spec.LogEvent.InRange
    decide +kernel
  others_code := by
    show ∀ e ∈ [(⟨2, 2, 7, 0, 0, [1, 2]⟩ : Spec.LogEvent), ⟨3, 36, 7, 0, 0, []⟩], e.code ≠ 33 ∧ e.code ∉ Spec.betweenCodes
    decide +kernel

/-- a request that names transaction 5 of source 9 -/
def gtidRequest : BinlogRequest :=
  { binlogFilename := [], binlogPos := 4, serverId := 0, sids := [⟨9, [(5, 6)]⟩], nonBlock := false, validateChecksum := true,
    heartbeatNanos := 30 }

/-- the hypotheses of `C104_resume` can be met: transactions 5 to 8 of source 9, the first of which the request names; the
reader stops within the third, after a heartbeat -/
theorem example_gtid_resume : ∃ (r : BinlogRequest) (s : _) (c c1 c2 : Conn) (os : List (Option Event)) (s' : _)
    (c' c1' c2' : Conn) (os' : List (Option Event)), r.sids = [⟨9, [(5, 6)]⟩] ∧
    r.requestStream (List.replicate 36 0x30) 5 c = .ok s c1 ∧ s.calls 4 c1 = .ok (os, s) c2 ∧
    ({ r with sids := r.sids ++ executed (settled os) } : BinlogRequest).requestStream (List.replicate 36 0x31) 6 c'
      = .ok s' c1' ∧ s'.calls 4 c1' = .ok (os', s') c2' ∧
    List.Forall₂ (Spec.Seen true) (Spec.visible ([6, 7, 8].flatMap fun g => (smallTransaction g).events))
      (ofTransactions (settled os) ++ ofTransactions os') := by
  classical
  obtain ⟨opening, o1, o2⟩ := plain_opens_gtid
  let r : BinlogRequest := gtidRequest
  let log : List Spec.Transaction := [smallTransaction 5, smallTransaction 6, smallTransaction 7, smallTransaction 8]
  have hlog : ∀ t ∈ log, t.Ok := by
    intro t ht
    simp only [log, List.mem_cons, List.not_mem_nil, or_false] at ht
    rcases ht with rfl | rfl | rfl | rfl <;> exact smallTransaction_ok _ (by norm_num) (by norm_num)
  have hrange : ∀ t : Spec.Transaction, t.Ok → ∀ e ∈ t.events, e.InRange := by
    intro t ht e he
    rcases List.mem_cons.1 he with rfl | he
    · exact ht.first_range
    · exact ht.others_range e he
  let P : List Spec.LogEvent := (smallTransaction 6).events ++ [⟨0, 27, 7, 0, 0, []⟩, (smallTransaction 7).first]
  let R : List Spec.LogEvent := (smallTransaction 7).others ++ (smallTransaction 8).events
  let P' : List Spec.LogEvent := (smallTransaction 7).events ++ (smallTransaction 8).events
  have hPr : ∀ e ∈ P ++ R, e.InRange := by
    intro e he
    simp only [P, R, List.mem_append, List.mem_cons, List.not_mem_nil, or_false] at he
    rcases he with (he | rfl | rfl) | he | he
    · exact hrange _ (hlog _ (by simp [log])) e he
    · unfold Spec.LogEvent.InRange; decide +kernel
    · exact hrange (smallTransaction 7) (hlog _ (by simp [log])) _ List.mem_cons_self
    · exact hrange (smallTransaction 7) (hlog _ (by simp [log])) _ (List.mem_cons_of_mem _ he)
    · exact hrange (smallTransaction 8) (hlog _ (by simp [log])) _ he
  have hblock : ∀ t : SidRange, t = ⟨9, [(5, 6)]⟩ → t.block = (Spec.le 16 9, [(5, 6)]) := by
    intro t ht
    subst ht
    exact range_block (smallTransaction 5) (hlog _ (by simp [log]))
  have hhas : ∀ g, Spec.Has [((⟨9, [(5, 6)]⟩ : SidRange).block)] 9 g ↔ g = 5 := by
    intro g
    rw [hblock _ rfl]
    unfold Spec.Has
    simp
    omega
  have hmiss : Spec.missing log (r.sids.map SidRange.block) = [smallTransaction 6, smallTransaction 7, smallTransaction 8] := by
    show log.filter (fun t => decide ¬ Spec.Has [((⟨9, [(5, 6)]⟩ : SidRange).block)] t.sid t.gno) = _
    have : ∀ t ∈ log, (decide ¬ Spec.Has [((⟨9, [(5, 6)]⟩ : SidRange).block)] t.sid t.gno) = decide (t.gno ≠ 5) := by
      intro t ht
      have h9 : t.sid = 9 := by
        simp only [log, List.mem_cons, List.not_mem_nil, or_false] at ht
        rcases ht with rfl | rfl | rfl | rfl <;> rfl
      rw [h9, decide_eq_decide, hhas]
    rw [List.filter_congr this]
    rfl
  have hbl : SidData.bytesLen r.sids = 48 := rfl
  have hok : r.Ok := by
    refine ⟨by show 0 < _; norm_num, by show 30 < _; norm_num, by decide +kernel, by decide +kernel, by show 4 < _; norm_num, ?_, ?_⟩
    · intro s hs
      simp only [r, gtidRequest, List.mem_singleton] at hs
      subst hs
      refine ⟨by norm_num, ?_⟩
      intro i hi
      rw [List.mem_singleton] at hi
      subst hi
      unfold Spec.SignedRange
      norm_num
    · rw [hbl]; norm_num
  have hs : Spec.SendsFor log (r.gtidDump 5) (P ++ R) := by
    refine ⟨hPr, ?_⟩
    unfold BinlogRequest.gtidDump
    dsimp only
    rw [gtidDump_bit, if_pos (show (!r.sids.isEmpty) = true from rfl)]
    refine ⟨_, gtidBlocks_sidData _ (by rw [hbl]; norm_num), ?_, ?_⟩
    · intro b hb
      obtain ⟨t, ht, rfl⟩ := List.mem_map.1 hb
      rw [hblock t (by simpa [r, gtidRequest] using ht)]
      exact ⟨by norm_num, by norm_num, trivial⟩
    · rw [hmiss]
      rfl
  have small : ∀ es : List Spec.LogEvent, (∀ e ∈ es, e.payload.length < 100) →
      ∀ m ∈ opening ++ es.map (Spec.streamMessage true), m.length < 0xffffff := by
    intro es h m hm
    rcases List.mem_append.1 hm with hm | hm
    · exact o2 m hm
    · obtain ⟨e, he, rfl⟩ := List.mem_map.1 hm
      have := h e he
      rw [Spec.streamMessage, List.length_append, encode_length]
      simp only [Spec.LogEvent.len, Spec.u8, List.length_cons, List.length_nil]
      split <;> omega
  obtain ⟨inp, hd⟩ := delivers_small (opening ++ P.map (Spec.streamMessage true)) [] (small P (by decide +kernel))
  obtain ⟨inp', hd'⟩ := delivers_small (opening ++ P'.map (Spec.streamMessage true)) [] (small P' (by decide +kernel))
  obtain ⟨s, c1, c2, os, a1, a2, a3⟩ := C104_resume log hlog (by decide +kernel) true r hok
    (by rw [hbl]; show 0 + (48 + 40 * 4) + 64 < _; norm_num) (List.replicate 36 0x30) (by simp) 5 (by norm_num) P R hs
    ⟨inp, [], 0, plainCaps, 0⟩ opening o1 [] hd
  have hex : executed (settled os) = [⟨9, [(6, 7)]⟩] := by
    obtain ⟨_, _, _, os2, b1, b2, -, b4⟩ := gtid_reader r hok (List.replicate 36 0x30) (by simp) 5 (by norm_num)
      (by rw [hbl]; show 0 + 48 + 64 < _; norm_num) true ⟨inp, [], 0, plainCaps, 0⟩ opening o1 P
      (fun e he => hPr e (by simp [he])) [] hd
    rw [a1] at b1
    injection b1 with b1 b1'
    subst b1 b1'
    rw [a2] at b2
    injection b2 with b2 _
    injection b2 with b2 _
    subst b2
    rw [settled, executed_returned true _ _ (beforeLast_rel _ _ (fun a b h => returned_gtid true a b h) b4)]
    decide +kernel
  obtain ⟨-, a5⟩ := a3 _ rfl
  have hmiss' : Spec.missing log ((r.sids ++ executed (settled os)).map SidRange.block)
      = [smallTransaction 7, smallTransaction 8] := by
    rw [hex]
    show log.filter (fun t => decide ¬ Spec.Has [((⟨9, [(5, 6)]⟩ : SidRange).block), ((⟨9, [(6, 7)]⟩ : SidRange).block)]
      t.sid t.gno) = _
    have h6 : (⟨9, [(6, 7)]⟩ : SidRange).block = (Spec.le 16 9, [(6, 7)]) :=
      range_block (smallTransaction 6) (hlog _ (by simp [log]))
    have : ∀ t ∈ log, (decide ¬ Spec.Has [((⟨9, [(5, 6)]⟩ : SidRange).block), ((⟨9, [(6, 7)]⟩ : SidRange).block)] t.sid t.gno)
        = decide (t.gno ≠ 5 ∧ t.gno ≠ 6) := by
      intro t ht
      have h9 : t.sid = 9 := by
        simp only [log, List.mem_cons, List.not_mem_nil, or_false] at ht
        rcases ht with rfl | rfl | rfl | rfl <;> rfl
      rw [h9, decide_eq_decide, h6, hblock _ rfl]
      unfold Spec.Has
      simp
      omega
    rw [List.filter_congr this]
    rfl
  have hs' : Spec.SendsFor log (({ r with sids := r.sids ++ executed (settled os) } : BinlogRequest).gtidDump 6) (P' ++ []) := by
    refine ⟨?_, ?_⟩
    · intro e he
      simp only [P', List.append_nil, List.mem_append] at he
      rcases he with he | he
      · exact hrange (smallTransaction 7) (hlog _ (by simp [log])) _ he
      · exact hrange (smallTransaction 8) (hlog _ (by simp [log])) _ he
    unfold BinlogRequest.gtidDump
    dsimp only
    rw [gtidDump_bit, if_pos (show (!(r.sids ++ executed (settled os)).isEmpty) = true from rfl)]
    refine ⟨_, gtidBlocks_sidData _ (by rw [hex]; show 88 < _; norm_num), ?_, ?_⟩
    · rw [hex]
      intro b hb
      obtain ⟨t, ht, rfl⟩ := List.mem_map.1 hb
      simp only [r, gtidRequest, List.cons_append, List.nil_append, List.mem_cons, List.not_mem_nil, or_false] at ht
      rcases ht with rfl | rfl
      · rw [hblock _ rfl]
        exact ⟨by norm_num, by norm_num, trivial⟩
      · rw [show (⟨9, [(6, 7)]⟩ : SidRange).block = (Spec.le 16 9, [(6, 7)]) from
          range_block (smallTransaction 6) (hlog _ (by simp [log]))]
        exact ⟨by norm_num, by norm_num, trivial⟩
    · rw [hmiss']
      rfl
  obtain ⟨s', c1', c2', os', b1, -, b3, seen, b4, b5⟩ := a5 (List.replicate 36 0x31) (by simp) 6 (by norm_num) P' [] hs'
    ⟨inp', [], 0, plainCaps, 0⟩ opening o1 [] hd'
  refine ⟨r, s, _, c1, c2, os, s', _, c1', c2', os', rfl, a1, a2, b1, b3, ?_⟩
  rw [show Spec.visible (Spec.inTransactions ([] : List Spec.LogEvent)) = [] from rfl, List.append_nil] at b4
  rw [← b4] at b5
  exact b5

/-- the hypotheses of `C104_named`, `C104_previous` and `C104_carried_over_false` can be met: two sources, one with two intervals -/
example : (∀ g ∈ [(⟨7, [(1, 4), (6, 6)]⟩ : Spec.Gtids), ⟨8, [(3, 9)]⟩], g.Ok ∧ ∀ i ∈ g.intervals, i.2 + 1 < 2 ^ 63) ∧
    ([(⟨7, [(1, 4), (6, 6)]⟩ : Spec.Gtids), ⟨8, [(3, 9)]⟩].map (·.sid)).Nodup ∧
    (Spec.gtidSet [(⟨7, [(1, 4), (6, 6)]⟩ : Spec.Gtids), ⟨8, [(3, 9)]⟩]).length < 2 ^ 32 ∧
    SidsInRange [⟨7, [(1, 5), (6, 7)]⟩] := by
  refine ⟨?_, by decide, by decide +kernel, ?_⟩
  · unfold Spec.Gtids.Ok Spec.Ordered
    simp [Spec.Ordered]
    constructor <;> omega
  · unfold SidsInRange Spec.SignedRange
    simp
    omega

end Mybin
