/-
C20 (event types); C28 event extents; C29 walking a binlog; C30 checksum validation; C31 burst errors;
C32 format description events.
-/
import Verif.Lemmas.Invert
import Verif.Lemmas.Crc
import Verif.Spec.Binlog

namespace Mybin

/-! ### C20 (event types) -/

/-- C20: event types and codes correspond one to one; the codes are exactly 0 to 38, everything else is
rejected; the first types of MySQL's published list have their published position. -/
theorem C20_event_types :
    (∀ k : LogEventType, LogEventType.tryFrom k.toByte = some k) ∧
    (∀ j k : LogEventType, j.toByte = k.toByte → j = k) ∧
    (∀ n k, LogEventType.tryFrom n = some k → k.toByte = n) ∧
    (∀ n, LogEventType.tryFrom n = none ↔ 39 ≤ n) ∧
    [LogEventType.query, .rotate, .formatDescription, .xid, .tableMap, .writeRowsV1, .updateRowsV1,
      .deleteRowsV1, .writeRowsV2, .updateRowsV2, .deleteRowsV2, .gtid, .anonymousGtid,
      .previousGtids].map (·.toByte) = [2, 4, 15, 16, 19, 23, 24, 25, 30, 31, 32, 33, 34, 35] := by
  have h1 : ∀ k : LogEventType, LogEventType.tryFrom k.toByte = some k := by
    intro k; cases k <;> rfl
  have h3 : ∀ n k, LogEventType.tryFrom n = some k → k.toByte = n := by
    intro n k h
    unfold LogEventType.tryFrom at h
    split at h <;> first | (cases h; rfl) | cases h
  refine ⟨h1, ?_, h3, ?_, rfl⟩
  · intro j k h
    have := h1 j
    rw [h, h1 k] at this
    exact (Option.some.inj this).symm
  · intro n
    constructor
    · intro h
      by_contra hc
      have : ∀ m, m < 39 → LogEventType.tryFrom m ≠ none := by decide +kernel
      exact this n (by omega) h
    · intro h
      cases e : LogEventType.tryFrom n with
      | none => rfl
      | some k =>
        have hk := h3 n k e
        have : k.toByte < 39 := by cases k <;> decide
        omega

/-! ### headers -/

/-- the announced length of the event at the head of the input: bytes 9 to 12 -/
def Spec.announced (bs : List UInt8) : Nat := Spec.leNat ((bs.drop 9).take 4)

/-- the input starts with a complete header of a known event type -/
def Spec.HasHeader (bs : List UInt8) : Prop :=
  19 ≤ bs.length ∧ ∃ b, bs[4]? = some b ∧ b.toNat ≤ 38

theorem header_raw (a : Bytes) (b : UInt8) (c d e f rest : Bytes) (ha : a.length = 4)
    (hc : c.length = 4) (hd : d.length = 4) (he : e.length = 4) (hf : f.length = 2)
    (k : LogEventType) (hk : LogEventType.tryFrom b.toNat = some k) :
    EventHeader.readFrom (a ++ ([b] ++ (c ++ (d ++ (e ++ (f ++ rest))))))
      = .ok ⟨leVal a, k, leVal c, leVal d, leVal e, leVal f &&& 0x03ff⟩ rest := by
  have r4 : ∀ x t : Bytes, x.length = 4 → readLeU32 (x ++ t) = .ok (leVal x) t :=
    fun x t h => readFixed_append leVal x t h
  have r2 : ∀ x t : Bytes, x.length = 2 → readLeU16 (x ++ t) = .ok (leVal x) t :=
    fun x t h => readFixed_append leVal x t h
  have r1 : ∀ t : Bytes, readU8 ([b] ++ t) = .ok b.toNat t := fun t => rfl
  have hv1 : EventHeaderV1.readFrom (a ++ ([b] ++ (c ++ (d ++ (e ++ (f ++ rest))))))
      = .ok ⟨leVal a, k, leVal c, leVal d⟩ (e ++ (f ++ rest)) := by
    unfold EventHeaderV1.readFrom
    step (r4 a _ ha)
    step (r1 _)
    step (r4 c _ hc)
    step (r4 d _ hd)
    rw [hk]
    rfl
  unfold EventHeader.readFrom
  step hv1
  step (r4 e _ he)
  step (r2 f _ hf)
  rfl

theorem header_ok (bs : Bytes) (h : Spec.HasHeader bs) :
    ∃ hd : EventHeader, EventHeader.readFrom bs = .ok hd (bs.drop 19) ∧
      hd.eventLen = Spec.announced bs := by
  obtain ⟨hl, b, hb, hb38⟩ := h
  obtain ⟨a, r, rfl, ha, hr⟩ := split_at 4 bs (by omega)
  cases r with
  | nil => simp at hl; omega
  | cons b' r =>
    have : b' = b := by
      rw [List.getElem?_append_right (by omega), ha] at hb
      simpa using hb
    subst this
    simp only [List.length_append, List.length_cons] at hl hr
    obtain ⟨c, r, rfl, hc, -⟩ := split_at 4 r (by omega)
    obtain ⟨d, r, rfl, hd, -⟩ := split_at 4 r (by simp at hl; omega)
    obtain ⟨e, r, rfl, he, -⟩ := split_at 4 r (by simp at hl; omega)
    obtain ⟨f, r, rfl, hf, -⟩ := split_at 2 r (by simp at hl; omega)
    obtain ⟨k, hk⟩ : ∃ k, LogEventType.tryFrom b'.toNat = some k := by
      cases e : LogEventType.tryFrom b'.toNat with
      | none => have := (C20_event_types.2.2.2.1 _).1 e; omega
      | some k => exact ⟨k, rfl⟩
    have h := header_raw a b' c d e f r ha hc hd he hf k hk
    refine ⟨⟨leVal a, k, leVal c, leVal d, leVal e, leVal f &&& 0x03ff⟩, ?_, ?_⟩
    · have e1 : (a ++ b' :: (c ++ (d ++ (e ++ (f ++ r))))).drop 19 = r := by
        have : a ++ b' :: (c ++ (d ++ (e ++ (f ++ r)))) = (a ++ [b'] ++ c ++ d ++ e ++ f) ++ r := by simp
        rw [this, List.drop_left' (by simp; omega)]
      rw [e1]
      simpa using h
    · show leVal d = _
      unfold Spec.announced
      have : a ++ b' :: (c ++ (d ++ (e ++ (f ++ r)))) = (a ++ [b'] ++ c) ++ (d ++ (e ++ (f ++ r))) := by
        simp
      rw [this, List.drop_left' (by simp; omega), List.take_left' hd, leVal_eq_spec]

theorem header_inv (bs r : Bytes) (hd : EventHeader) (h : EventHeader.readFrom bs = .ok hd r) :
    Spec.HasHeader bs := by
  unfold EventHeader.readFrom EventHeaderV1.readFrom readLeU32 readLeU16 at h
  simp only [P.bind_eq_ok, readFixed_eq_ok, P.pure_eq_ok, P.orErr_eq_ok, readU8_eq_ok] at h
  obtain ⟨v1, r1, ⟨t, r2, ⟨h4, -, rfl⟩, c, r3, ⟨b, hb, rfl⟩, s, r4, ⟨h9, -, rfl⟩, l, r5, ⟨h13, -, rfl⟩,
    k, r6, ⟨hk, rfl⟩, -, rfl⟩, n, r7, ⟨h17, -, rfl⟩, f, r8, ⟨h19, -, -⟩, -⟩ := h
  have hl := congrArg List.length hb
  simp only [List.length_drop, List.length_cons] at hl h9 h13 h17 h19
  refine ⟨by omega, b, ?_, ?_⟩
  · have := congrArg (·[0]?) hb
    simpa using this
  · have h4 := C20_event_types.2.2.2.1 b.toNat
    rw [hk] at h4
    simp at h4
    omega

theorem Well.header : Well EventHeader.readFrom := by
  unfold EventHeader.readFrom EventHeaderV1.readFrom
  well

theorem header_err (bs : Bytes) (h : ¬ Spec.HasHeader bs) :
    ∃ e r, EventHeader.readFrom bs = .err e r := by
  have hw := Well.header bs
  cases he : EventHeader.readFrom bs with
  | ok a r => exact absurd (header_inv bs r a he) h
  | err e r => exact ⟨e, r, rfl⟩
  | panic => rw [he] at hw; exact hw.elim
  | hang => rw [he] at hw; exact hw.elim

theorem dataLen_ok (h : EventHeader) (hl : 19 ≤ h.eventLen) (bs : Bytes) :
    h.dataLen bs = .ok (h.eventLen - 19) bs := by
  unfold EventHeader.dataLen; rw [if_neg (by omega)]; rfl

/-! ### C28 -/

/-- C28: skipping an event, for every input: with a complete header of a known type and an announced
length of at least 19, exactly the announced number of bytes is consumed, or an error is returned when
fewer are there. -/
theorem C28_skip (p : ParserV4) (bs : Bytes) (hh : Spec.HasHeader bs) (hl : 19 ≤ Spec.announced bs) :
    (Spec.announced bs ≤ bs.length → p.skipEvent bs = .ok () (bs.drop (Spec.announced bs))) ∧
    (bs.length < Spec.announced bs → ∃ need, p.skipEvent bs = .err (.incomplete need) (bs.drop 19)) := by
  obtain ⟨hd, h1, h2⟩ := header_ok bs hh
  have hlen := hh.1
  unfold ParserV4.skipEvent
  rw [P.bind_apply, h1, R.bind_ok, P.bind_apply, dataLen_ok hd (by omega), R.bind_ok, P.bind_apply]
  constructor
  · intro hle
    have : readLen (hd.eventLen - 19) (bs.drop 19)
        = .ok ((bs.drop 19).take (hd.eventLen - 19)) (bs.drop (Spec.announced bs)) := by
      unfold readLen
      rw [if_neg (by rw [List.length_drop]; omega), List.drop_drop]
      congr 2; omega
    rw [this]; rfl
  · intro hlt
    have : ∃ need, readLen (hd.eventLen - 19) (bs.drop 19) = .err (.incomplete need) (bs.drop 19) := by
      unfold readLen
      rw [if_pos (by rw [List.length_drop]; omega)]
      exact ⟨_, rfl⟩
    obtain ⟨need, hn⟩ := this
    exact ⟨need, by rw [hn]; rfl⟩

/-- C28: whatever the input, an event (or `None`) is only returned after consuming exactly the announced
number of bytes, which include the 19-byte header. -/
theorem C28_parse_extent (p : ParserV4) (validate : Bool) (bs rest : Bytes) (o : Option Event)
    (h : p.parseEvent validate bs = .ok o rest) :
    Spec.HasHeader bs ∧ 19 ≤ Spec.announced bs ∧ Spec.announced bs ≤ bs.length ∧
      rest = bs.drop (Spec.announced bs) := by
  unfold ParserV4.parseEvent at h
  rw [P.bind_eq_ok] at h
  obtain ⟨_, r0, hv, h⟩ := h
  have hr0 : r0 = bs := by
    by_cases hc : (p.checksum && validate) = true
    · rw [if_pos hc] at hv
      unfold ParserV4.verifyChecksum at hv
      simp only [P.bind_eq_ok, P.peek_eq] at hv
      obtain ⟨hd, r1, h1, raw, r2, h2, h3⟩ := hv
      have e1 : r1 = bs := by
        cases e : EventHeader.readFrom bs <;> rw [e] at h1 <;> cases h1; rfl
      subst e1
      have e2 : r2 = r1 := by
        cases e : readLen hd.eventLen r1 <;> rw [e] at h2 <;> cases h2; rfl
      subst e2
      by_cases hc1 : raw.length < 4
      · rw [if_pos hc1] at h3; cases h3
      · rw [if_neg hc1] at h3
        split at h3
        · cases h3
        · cases h3; rfl
    · rw [if_neg hc] at hv; cases hv; rfl
  subst hr0
  rw [P.bind_eq_ok] at h
  obtain ⟨hd, r1, h1, h⟩ := h
  have hh := header_inv _ _ _ h1
  obtain ⟨hd', h1', h2'⟩ := header_ok _ hh
  rw [h1'] at h1
  obtain ⟨rfl, rfl⟩ := R.ok.inj h1
  rw [P.bind_eq_ok] at h
  obtain ⟨n, r2, hn, h⟩ := h
  unfold EventHeader.dataLen at hn
  by_cases hc : hd'.eventLen < 19
  · rw [if_pos hc] at hn; cases hn
  · rw [if_neg hc] at hn
    cases hn
    rw [P.bind_eq_ok] at h
    obtain ⟨data, r3, hr, h⟩ := h
    rw [readLen_eq_ok] at hr
    rw [P.bind_eq_ok] at h
    obtain ⟨data', r4, hd4, h⟩ := h
    have e4 : r4 = r3 := by
      by_cases hc1 : p.checksum = true
      · rw [if_pos hc1] at hd4
        by_cases hc2 : data.length < 4
        · rw [if_pos hc2] at hd4; cases hd4
        · rw [if_neg hc2] at hd4; cases hd4; rfl
      · rw [if_neg hc1] at hd4; cases hd4; rfl
    subst e4
    have e5 : rest = r4 := by
      split at h <;> cases h <;> rfl
    subst e5
    have hlen := congrArg List.length hr.2
    have hh1 := hh.1
    rw [List.length_drop, List.length_append, hr.1] at hlen
    refine ⟨hh, by omega, by omega, ?_⟩
    have : (r0.drop 19).drop (hd'.eventLen - 19) = rest := by
      rw [hr.2, List.drop_left' hr.1]
    rw [← this, List.drop_drop]
    congr 1; omega

/-- C28: on inputs whose announced length leaves room for the header (and, with checksums, the
checksum), parsing and skipping end with a result or an error. Announced lengths below that are a panic:
`C28_short_length_false`. -/
theorem C28_no_panic_partial (p : ParserV4) (validate : Bool) (bs : Bytes)
    (hl : (if p.checksum then 23 else 19) ≤ Spec.announced bs) :
    (∃ a r, p.parseEvent validate bs = .ok a r) ∨ (∃ e r, p.parseEvent validate bs = .err e r) := by
  have h19 : 19 ≤ Spec.announced bs := by split at hl <;> omega
  -- the checksum step
  have hver : ((if p.checksum && validate then ParserV4.verifyChecksum else pure () : P Unit) bs = .ok () bs)
      ∨ ∃ e r, (if p.checksum && validate then ParserV4.verifyChecksum else pure () : P Unit) bs = .err e r := by
    by_cases hc : (p.checksum && validate) = true
    · rw [if_pos hc]
      unfold ParserV4.verifyChecksum
      by_cases hh : Spec.HasHeader bs
      · obtain ⟨hd, h1, h2⟩ := header_ok bs hh
        have hp : P.peek EventHeader.readFrom bs = .ok hd bs := by rw [P.peek_eq, h1]
        rw [P.bind_apply, hp, R.bind_ok, P.bind_apply]
        by_cases hle : Spec.announced bs ≤ bs.length
        · have hr : P.peek (readLen hd.eventLen) bs = .ok (bs.take hd.eventLen) bs := by
            rw [P.peek_eq, readLen, if_neg (by omega)]
          rw [hr, R.bind_ok]
          rw [if_neg (by rw [List.length_take]; omega)]
          split
          · exact Or.inr ⟨_, _, rfl⟩
          · exact Or.inl rfl
        · have hr : ∃ e, P.peek (readLen hd.eventLen) bs = .err e bs := by
            rw [P.peek_eq, readLen, if_pos (by omega)]; exact ⟨_, rfl⟩
          obtain ⟨e, hr⟩ := hr
          exact Or.inr ⟨e, bs, by rw [hr]; rfl⟩
      · obtain ⟨e, r, he⟩ := header_err bs hh
        refine Or.inr ⟨e, bs, ?_⟩
        rw [P.bind_apply, P.peek_eq, he]; rfl
    · rw [if_neg hc]; exact Or.inl rfl
  unfold ParserV4.parseEvent
  rw [P.bind_apply]
  rcases hver with hv | ⟨e, r, hv⟩
  · rw [hv, R.bind_ok, P.bind_apply]
    by_cases hh : Spec.HasHeader bs
    · obtain ⟨hd, h1, h2⟩ := header_ok bs hh
      rw [h1, R.bind_ok, P.bind_apply, dataLen_ok hd (by omega), R.bind_ok, P.bind_apply, readLen]
      by_cases hle : (bs.drop 19).length < hd.eventLen - 19
      · rw [if_pos hle]; exact Or.inr ⟨_, _, rfl⟩
      · rw [if_neg hle, R.bind_ok, P.bind_apply]
        by_cases hc : p.checksum = true
        · rw [if_pos hc] at hl
          rw [if_pos hc, if_neg (by rw [List.length_take]; omega), P.pure_apply, R.bind_ok]
          split <;> exact Or.inl ⟨_, _, rfl⟩
        · rw [if_neg hc, P.pure_apply, R.bind_ok]
          split <;> exact Or.inl ⟨_, _, rfl⟩
    · obtain ⟨e, r, he⟩ := header_err bs hh
      rw [he]; exact Or.inr ⟨_, _, rfl⟩
  · rw [hv]; exact Or.inr ⟨_, _, rfl⟩

/-- C28 fails for impossible lengths: whenever the announced length is below 19, skipping and (without
checksum validation) parsing panic instead of failing. -/
theorem C28_short_length_false (p : ParserV4) (bs : Bytes) (hh : Spec.HasHeader bs)
    (hl : Spec.announced bs < 19) :
    p.skipEvent bs = .panic ∧ p.parseEvent false bs = .panic := by
  obtain ⟨hd, h1, h2⟩ := header_ok bs hh
  have hp : hd.dataLen (bs.drop 19) = .panic := by
    unfold EventHeader.dataLen; rw [if_pos (by omega)]; rfl
  constructor
  · unfold ParserV4.skipEvent
    rw [P.bind_apply, h1, R.bind_ok, P.bind_apply, hp]; rfl
  · unfold ParserV4.parseEvent
    rw [Bool.and_false, if_neg (by simp), P.bind_apply, P.pure_apply, R.bind_ok, P.bind_apply, h1,
      R.bind_ok, P.bind_apply, hp]; rfl

/-- such an input exists -/
example : Spec.HasHeader (List.replicate 19 0) ∧ Spec.announced (List.replicate 19 0) < 19 :=
  ⟨⟨by simp, 0, by simp, by decide⟩, by decide⟩

/-! ### C29 -/

/-- `o` is what the API should return for the logged event `e`: `None` for types it does not support,
otherwise the variant of that type with the header fields and the payload (no checksum). -/
def Spec.Seen (crc : Bool) (e : Spec.LogEvent) (o : Option Event) : Prop :=
  if e.code ∈ Spec.supportedCodes then
    ∃ k : LogEventType, k.toByte = e.code ∧
      o = some ⟨k, ⟨e.timestamp, k, e.serverId, e.len crc, e.nextPos, e.flags⟩, e.payload⟩
  else o = none

theorem supported_iff (k : LogEventType) : k.supported = true ↔ k.toByte ∈ Spec.supportedCodes := by
  cases k <;> decide

theorem header_encoded (crc : Bool) (e : Spec.LogEvent) (he : e.InRange) (t : Bytes) :
    ∃ k : LogEventType, k.toByte = e.code ∧
      EventHeader.readFrom (e.body crc ++ t)
        = .ok ⟨e.timestamp, k, e.serverId, e.len crc, e.nextPos, e.flags⟩ (e.payload ++ t) := by
  obtain ⟨h1, h2, h3, h4, h5, h6⟩ := he
  obtain ⟨k, hk⟩ : ∃ k, LogEventType.tryFrom e.code = some k := by
    cases hk : LogEventType.tryFrom e.code with
    | none => have := (C20_event_types.2.2.2.1 _).1 hk; omega
    | some k => exact ⟨k, rfl⟩
  refine ⟨k, C20_event_types.2.2.1 _ _ hk, ?_⟩
  have hlen : e.len crc < 2 ^ 32 := by
    unfold Spec.LogEvent.len; split <;> omega
  have hb : (UInt8.ofNat e.code).toNat = e.code := by
    rw [UInt8.toNat_ofNat']; omega
  have := header_raw (Spec.le 4 e.timestamp) (UInt8.ofNat e.code) (Spec.le 4 e.serverId)
    (Spec.le 4 (e.len crc)) (Spec.le 4 e.nextPos) (Spec.le 2 e.flags) (e.payload ++ t)
    (by simp) (by simp) (by simp) (by simp) (by simp) k (by rw [hb, hk])
  rw [leVal_le 4 _ (by omega), leVal_le 4 _ (by omega), leVal_le 4 _ (by omega),
    leVal_le 4 _ (by omega), leVal_le 2 _ (by omega)] at this
  have hf : e.flags &&& 0x03ff = e.flags := by
    have : e.flags &&& 0x03ff = e.flags % 2 ^ 10 := Nat.and_two_pow_sub_one_eq_mod _ 10
    rw [this, Nat.mod_eq_of_lt h5]
  rw [hf] at this
  rw [← this]
  simp [Spec.LogEvent.body, Spec.u8]

theorem body_length (crc : Bool) (e : Spec.LogEvent) :
    (e.body crc).length = 19 + e.payload.length := by
  simp [Spec.LogEvent.body, Spec.u8]; omega

theorem encode_length (crc : Bool) (e : Spec.LogEvent) : (e.encode crc).length = e.len crc := by
  unfold Spec.LogEvent.encode Spec.LogEvent.len
  cases crc <;> simp [body_length]

theorem verify_encoded (e : Spec.LogEvent) (he : e.InRange) (t : Bytes) :
    ParserV4.verifyChecksum (e.encode true ++ t) = .ok () (e.encode true ++ t) := by
  obtain ⟨k, -, hk⟩ := header_encoded true e he (Spec.le 4 (Spec.crc32 (e.body true)) ++ t)
  have henc : e.encode true ++ t = e.body true ++ (Spec.le 4 (Spec.crc32 (e.body true)) ++ t) := by
    simp [Spec.LogEvent.encode]
  have hp : P.peek EventHeader.readFrom (e.encode true ++ t)
      = .ok ⟨e.timestamp, k, e.serverId, e.len true, e.nextPos, e.flags⟩ (e.encode true ++ t) := by
    rw [P.peek_eq, henc, hk]
  have hr : P.peek (readLen (e.len true)) (e.encode true ++ t)
      = .ok (e.encode true) (e.encode true ++ t) := by
    rw [P.peek_eq, readLen_append' _ _ _ (encode_length true e)]
  unfold ParserV4.verifyChecksum
  rw [P.bind_apply, hp, R.bind_ok, P.bind_apply, hr, R.bind_ok]
  have hl := encode_length true e
  have hle : e.len true = 19 + e.payload.length + 4 := rfl
  rw [if_neg (by omega)]
  have hbl := body_length true e
  have e1 : (e.encode true).length - 4 = (e.body true).length := by omega
  have henc2 : e.encode true = e.body true ++ Spec.le 4 (Spec.crc32 (e.body true)) := by
    simp [Spec.LogEvent.encode]
  have e2 : (e.encode true).take (e.body true).length = e.body true := by
    rw [henc2, List.take_left]
  have e3 : (e.encode true).drop (e.body true).length = Spec.le 4 (Spec.crc32 (e.body true)) := by
    rw [henc2, List.drop_left]
  rw [e1, e2, e3, leVal_le 4 _ (crc32_lt _), checksumCrc32_eq, if_neg (by simp)]
  rfl

/-- C29: one event. Whatever follows it, parsing an event laid out by the format (with a checksum when
the parser expects one) returns the event and leaves exactly what follows. -/
theorem C29_parse_event (p : ParserV4) (validate : Bool) (e : Spec.LogEvent) (he : e.InRange)
    (rest : Bytes) :
    ∃ o, p.parseEvent validate (e.encode p.checksum ++ rest) = .ok o rest ∧
      Spec.Seen p.checksum e o := by
  have hv : (if p.checksum && validate then ParserV4.verifyChecksum else pure () : P Unit)
      (e.encode p.checksum ++ rest) = .ok () (e.encode p.checksum ++ rest) := by
    by_cases hc : (p.checksum && validate) = true
    · rw [if_pos hc]
      have : p.checksum = true := by
        cases h : p.checksum
        · rw [h] at hc; simp at hc
        · rfl
      rw [this]
      exact verify_encoded e he rest
    · rw [if_neg hc]; rfl
  obtain ⟨k, hkc, hk⟩ := header_encoded p.checksum e he
    ((if p.checksum then Spec.le 4 (Spec.crc32 (e.body p.checksum)) else []) ++ rest)
  unfold ParserV4.parseEvent
  rw [P.bind_apply, hv, R.bind_ok, P.bind_apply]
  have henc : e.encode p.checksum ++ rest = e.body p.checksum
      ++ ((if p.checksum then Spec.le 4 (Spec.crc32 (e.body p.checksum)) else []) ++ rest) := by
    simp [Spec.LogEvent.encode]
  rw [henc, hk, R.bind_ok, P.bind_apply, dataLen_ok _ (by
    show 19 ≤ e.len p.checksum
    unfold Spec.LogEvent.len; omega), R.bind_ok, P.bind_apply, ← List.append_assoc,
    readLen_append' _ _ _ (by
      show _ = e.len p.checksum - 19
      unfold Spec.LogEvent.len
      cases p.checksum <;> simp <;> omega), R.bind_ok, P.bind_apply]
  have hd : (if p.checksum then
      if (e.payload ++ if p.checksum then Spec.le 4 (Spec.crc32 (e.body p.checksum)) else []).length < 4
      then P.panic
      else pure ((e.payload ++ if p.checksum then Spec.le 4 (Spec.crc32 (e.body p.checksum)) else []).take
        ((e.payload ++ if p.checksum then Spec.le 4 (Spec.crc32 (e.body p.checksum)) else []).length - 4))
    else pure (e.payload ++ if p.checksum then Spec.le 4 (Spec.crc32 (e.body p.checksum)) else []) :
      P Bytes) rest = .ok e.payload rest := by
    cases p.checksum
    · simp
    · simp only [if_true]
      rw [if_neg (by simp)]
      simp
  rw [hd, R.bind_ok]
  unfold Spec.Seen
  by_cases hs : e.code ∈ Spec.supportedCodes
  · have hs' : k.supported = true := by rw [supported_iff, hkc]; exact hs
    simp only [if_pos hs]
    rw [if_pos hs']
    exact ⟨_, rfl, k, hkc, rfl⟩
  · have hs' : ¬ k.supported = true := by rw [supported_iff, hkc]; exact hs
    simp only [if_neg hs]
    rw [if_neg hs']
    exact ⟨_, rfl, rfl⟩

/-- C29: any number of events. Calling `parse_event` once per event returns them all, in order. -/
theorem C29_walk (p : ParserV4) (validate : Bool) (es : List Spec.LogEvent)
    (he : ∀ e ∈ es, e.InRange) (rest : Bytes) :
    ∃ os, P.times (p.parseEvent validate) es.length
        ((es.map (·.encode p.checksum)).flatten ++ rest) = .ok os rest ∧
      List.Forall₂ (Spec.Seen p.checksum) es os := by
  induction es with
  | nil => exact ⟨[], rfl, .nil⟩
  | cons e es ih =>
    obtain ⟨os, h1, h2⟩ := ih (fun x hx => he x (by simp [hx]))
    obtain ⟨o, h3, h4⟩ := C29_parse_event p validate e (he e (by simp))
      ((es.map (·.encode p.checksum)).flatten ++ rest)
    refine ⟨o :: os, ?_, .cons h4 h2⟩
    simp only [List.map_cons, List.flatten_cons, List.append_assoc, List.length_cons, P.times]
    step h3
    step h1
    rfl

/-- C29: skipping an event leaves the same input as parsing it. -/
theorem C29_skip_same (p : ParserV4) (e : Spec.LogEvent) (he : e.InRange) (rest : Bytes) :
    p.skipEvent (e.encode p.checksum ++ rest) = .ok () rest := by
  obtain ⟨o, h, -⟩ := C29_parse_event p false e he rest
  obtain ⟨h1, h2, h3, h4⟩ := C28_parse_extent p false _ _ _ h
  rw [(C28_skip p _ h1 h2).1 h3, ← h4]

/-- three events, one of an unsupported type (transaction context, 36) and one with an empty payload -/
example : ∀ e ∈ [(⟨1, 2, 3, 4, 8, [1, 2]⟩ : Spec.LogEvent), ⟨0, 36, 0, 0, 0, [9]⟩, ⟨7, 3, 0, 0, 1, []⟩],
    e.InRange := by
  intro e he
  simp only [List.mem_cons, List.not_mem_nil, or_false] at he
  rcases he with rfl | rfl | rfl <;> norm_num [Spec.LogEvent.InRange]

/-! ### C30 -/

/-- C30: for every input that has a header and is as long as announced, checksum validation succeeds if
the last 4 bytes of the event are the CRC-32 of the preceding ones; otherwise it reports the mismatch.
The input is left alone in both cases. -/
theorem verify_raw (bs : Bytes) (hh : Spec.HasHeader bs) (h4 : 4 ≤ Spec.announced bs)
    (hl : Spec.announced bs ≤ bs.length) :
    ParserV4.verifyChecksum bs =
      (let stored := Spec.leNat ((bs.take (Spec.announced bs)).drop (Spec.announced bs - 4))
       let actual := Spec.crc32 (bs.take (Spec.announced bs - 4))
       if stored = actual then .ok () bs else .err (.checksumMismatch stored actual) bs) := by
  obtain ⟨hd, h1, h2⟩ := header_ok bs hh
  have hp : P.peek EventHeader.readFrom bs = .ok hd bs := by rw [P.peek_eq, h1]
  have hr : P.peek (readLen hd.eventLen) bs = .ok (bs.take (Spec.announced bs)) bs := by
    rw [P.peek_eq, readLen, if_neg (by omega), h2]
  unfold ParserV4.verifyChecksum
  rw [P.bind_apply, hp, R.bind_ok, P.bind_apply, hr, R.bind_ok,
    if_neg (by rw [List.length_take]; omega)]
  have e1 : (bs.take (Spec.announced bs)).length - 4 = Spec.announced bs - 4 := by
    rw [List.length_take]; omega
  have e2 : (bs.take (Spec.announced bs)).take (Spec.announced bs - 4)
      = bs.take (Spec.announced bs - 4) := by
    rw [List.take_take]; congr 1; omega
  rw [e1, e2, leVal_eq_spec, checksumCrc32_eq]
  by_cases hc : Spec.leNat ((bs.take (Spec.announced bs)).drop (Spec.announced bs - 4))
      = Spec.crc32 (bs.take (Spec.announced bs - 4))
  · rw [if_neg (by simpa using hc), if_pos hc]; rfl
  · rw [if_pos hc, if_neg hc]; rfl

/-- C30: `checksum_event` (checksums enabled) succeeds if the last 4 bytes of the event are the CRC-32 of
the preceding ones, and reports a mismatch otherwise. -/
theorem C30_checksum_event (p : ParserV4) (hp : p.checksum = true) (bs : Bytes)
    (hh : Spec.HasHeader bs) (h4 : 4 ≤ Spec.announced bs) (hl : Spec.announced bs ≤ bs.length) :
    p.checksumEvent bs =
      (let stored := Spec.leNat ((bs.take (Spec.announced bs)).drop (Spec.announced bs - 4))
       let actual := Spec.crc32 (bs.take (Spec.announced bs - 4))
       if stored = actual then .ok () bs else .err (.checksumMismatch stored actual) bs) := by
  unfold ParserV4.checksumEvent
  rw [if_pos hp, P.peek_eq, verify_raw bs hh h4 hl]
  by_cases hc : Spec.leNat ((bs.take (Spec.announced bs)).drop (Spec.announced bs - 4))
      = Spec.crc32 (bs.take (Spec.announced bs - 4))
  · simp only [if_pos hc]
  · simp only [if_neg hc]

/-- C30: with validation on, `parse_event` on an event whose checksum is wrong reports the mismatch and
consumes nothing; on an event whose checksum is right it does what it does without validation. -/
theorem C30_parse_event (p : ParserV4) (hp : p.checksum = true) (bs : Bytes)
    (hh : Spec.HasHeader bs) (h4 : 4 ≤ Spec.announced bs) (hl : Spec.announced bs ≤ bs.length) :
    let stored := Spec.leNat ((bs.take (Spec.announced bs)).drop (Spec.announced bs - 4))
    let actual := Spec.crc32 (bs.take (Spec.announced bs - 4))
    (stored ≠ actual → p.parseEvent true bs = .err (.checksumMismatch stored actual) bs) ∧
    (stored = actual → p.parseEvent true bs = p.parseEvent false bs) := by
  intro stored actual
  have hv := verify_raw bs hh h4 hl
  dsimp only at hv
  constructor
  · intro hne
    rw [if_neg hne] at hv
    unfold ParserV4.parseEvent
    rw [hp, Bool.and_true, if_pos rfl, P.bind_apply, hv]
    rfl
  · intro heq
    rw [if_pos heq] at hv
    unfold ParserV4.parseEvent
    rw [hp, Bool.and_true, Bool.and_false, if_pos rfl, P.bind_apply, hv, R.bind_ok]
    rfl

/-- a parser without checksums refuses to validate -/
theorem C30_not_enabled (p : ParserV4) (hp : p.checksum = false) (bs : Bytes) :
    p.checksumEvent bs = .err .binlogFormat bs := by
  unfold ParserV4.checksumEvent
  rw [hp]; rfl

/-- C30's hypotheses hold for every event laid out by the format, whose checksum then matches; and
flipping the last byte of the checksum below makes it mismatch. -/
example : (⟨[], true⟩ : ParserV4).checksumEvent ((⟨1, 2, 3, 4, 8, [1, 2]⟩ : Spec.LogEvent).encode true)
    = .ok () ((⟨1, 2, 3, 4, 8, [1, 2]⟩ : Spec.LogEvent).encode true) := by
  have := verify_encoded ⟨1, 2, 3, 4, 8, [1, 2]⟩ (by norm_num [Spec.LogEvent.InRange]) []
  rw [List.append_nil] at this
  unfold ParserV4.checksumEvent
  rw [if_pos rfl, P.peek_eq, this]

/-! ### C31 -/

theorem messageBits_length (a : Bytes) : (Spec.messageBits a).length = 8 * a.length := by
  unfold Spec.messageBits
  induction a with
  | nil => rfl
  | cons b a ih => rw [List.flatMap_cons, List.length_append, ih]; simp; omega

theorem messageBits_inj (a b : Bytes) (hl : a.length = b.length)
    (h : Spec.messageBits a = Spec.messageBits b) : a = b := by
  induction a generalizing b with
  | nil => cases b with
    | nil => rfl
    | cons _ _ => simp at hl
  | cons x a ih => cases b with
    | nil => simp at hl
    | cons y b =>
      unfold Spec.messageBits at h
      rw [List.flatMap_cons, List.flatMap_cons] at h
      obtain ⟨h1, h2⟩ := List.append_inj h (by simp)
      have hxy : x = y := by
        apply UInt8.toNat_inj.mp
        apply Nat.eq_of_testBit_eq
        intro i
        by_cases hi : i < 8
        · have := congrArg (·[i]?) h1
          simp [hi] at this
          rw [Nat.testBit_eq_decide_div_mod_eq, Nat.testBit_eq_decide_div_mod_eq]
          simpa using this
        · have hx : x.toNat < 2 ^ i :=
            Nat.lt_of_lt_of_le x.toNat_lt (Nat.pow_le_pow_right (by norm_num) (by omega))
          have hy : y.toNat < 2 ^ i :=
            Nat.lt_of_lt_of_le y.toNat_lt (Nat.pow_le_pow_right (by norm_num) (by omega))
          rw [Nat.testBit_lt_two_pow hx, Nat.testBit_lt_two_pow hy]
      rw [hxy, ih b (by simpa using hl) h2]

theorem crc32_burst (a b : Bytes) (h : Spec.Burst a b) : Spec.crc32 a ≠ Spec.crc32 b := by
  obtain ⟨hl, hne, pos, hpos⟩ := h
  rw [← checksumCrc32_eq, ← checksumCrc32_eq]
  unfold checksumCrc32
  intro e
  have e1 := BitVec.eq_of_toNat_eq e
  have e2 := congrArg (· ^^^ 0xFFFFFFFF#32) e1
  simp only [BitVec.xor_assoc, BitVec.xor_self, BitVec.xor_zero] at e2
  rw [← messageBits_eq, ← messageBits_eq] at e2
  have hbl : (Spec.messageBits a).length = (Spec.messageBits b).length := by
    rw [messageBits_length, messageBits_length, hl]
  generalize hz : List.zipWith (· ^^ ·) (Spec.messageBits a) (Spec.messageBits b) = z
  have hzi : ∀ i, z[i]? = some true → pos ≤ i ∧ i < pos + 32 := by
    intro i hi
    apply hpos
    intro heq
    rw [← hz, List.getElem?_zipWith, heq] at hi
    cases hb : (Spec.messageBits b)[i]? <;> rw [hb] at hi <;> simp at hi
  have hfalse : ∀ (l : List Bool), (∀ i : Nat, l[i]? ≠ some true) → l = List.replicate l.length false := by
    intro l hl
    rw [List.eq_replicate_iff]
    refine ⟨rfl, fun x hx => ?_⟩
    obtain ⟨i, hi⟩ := List.getElem?_of_mem hx
    cases x
    · rfl
    · exact absurd hi (hl i)
  have h1 := hfalse (z.take pos) (fun i hi => by
    rw [List.getElem?_take] at hi
    split at hi
    · have := (hzi i hi).1; omega
    · cases hi)
  have h2 := hfalse (z.drop (pos + 32)) (fun i hi => by
    rw [List.getElem?_drop] at hi
    have := (hzi _ hi).2; omega)
  have hzsplit : z = List.replicate (z.take pos).length false ++ (z.drop pos).take 32
      ++ List.replicate (z.drop (pos + 32)).length false := by
    rw [← h1, ← h2, List.append_assoc]
    have : z.drop pos = (z.drop pos).take 32 ++ z.drop (pos + 32) := by
      have := (List.take_append_drop 32 (z.drop pos)).symm
      rwa [List.drop_drop] at this
    rw [← this, List.take_append_drop]
  have ht : true ∈ z := by
    by_contra hc
    apply hne
    apply messageBits_inj a b hl
    apply List.ext_getElem? 
    intro i
    by_contra hd
    have hx : z[i]? ≠ some true := fun h => hc (List.mem_of_getElem? h)
    apply hx
    rw [← hz, List.getElem?_zipWith]
    by_cases hi : i < (Spec.messageBits a).length
    · rw [List.getElem?_eq_getElem hi, List.getElem?_eq_getElem (by omega)] at hd ⊢
      generalize (Spec.messageBits a)[i] = x, (Spec.messageBits b)[i]'(by omega) = y at hd ⊢
      cases x <;> cases y <;> first | exact absurd rfl hd | rfl
    · rw [List.getElem?_eq_none (by omega), List.getElem?_eq_none (by omega)] at hd
      exact absurd rfl hd
  have ht2 : true ∈ (z.drop pos).take 32 := by
    rw [hzsplit] at ht
    simp only [List.mem_append, List.mem_replicate] at ht
    rcases ht with (⟨_, h⟩ | h) | ⟨_, h⟩
    · cases h
    · exact h
    · cases h
  exact crc_detects _ _ _ _ _ (by simp) ht2 hbl (hz.trans hzsplit) _ e2

/-- C31: if an event passes validation, then after changing any bits of its checksummed part that lie
within 32 consecutive bits, leaving the announced length as it was, validation fails. (Full claim: also
when the corruption hits the length field. That is false, `C31_length_field_false`.) -/
theorem C31_burst_detected_partial (p : ParserV4) (body body' crc rest r : Bytes) (hc : crc.length = 4)
    (hlen : Spec.announced (body ++ crc ++ rest) = body.length + 4)
    (hok : p.checksumEvent (body ++ crc ++ rest) = .ok () r)
    (hb : Spec.Burst body body')
    (hsame : Spec.announced (body' ++ crc ++ rest) = Spec.announced (body ++ crc ++ rest)) :
    ∃ e r', p.checksumEvent (body' ++ crc ++ rest) = .err e r' := by
  have hl := hb.1
  have hp : p.checksum = true := by
    cases h : p.checksum
    · rw [C30_not_enabled p h] at hok; cases hok
    · rfl
  by_cases hh' : Spec.HasHeader (body' ++ crc ++ rest)
  · have hh : Spec.HasHeader (body ++ crc ++ rest) := by
      by_contra hn
      obtain ⟨e, r', he⟩ := header_err _ hn
      unfold ParserV4.checksumEvent at hok
      rw [if_pos hp, P.peek_eq] at hok
      have : ParserV4.verifyChecksum (body ++ crc ++ rest) = .err e (body ++ crc ++ rest) := by
        unfold ParserV4.verifyChecksum
        rw [P.bind_apply, P.peek_eq, he]; rfl
      rw [this] at hok; cases hok
    rw [C30_checksum_event p hp _ hh (by omega) (by rw [hlen]; simp; omega)] at hok
    rw [C30_checksum_event p hp _ hh' (by omega) (by rw [hsame, hlen]; simp; omega)]
    rw [hsame, hlen]
    rw [hlen] at hok
    have t1 : ∀ x : Bytes, x.length = body.length →
        ((x ++ crc ++ rest).take (body.length + 4)).drop (body.length + 4 - 4) = crc := by
      intro x hx
      rw [List.take_left' (by simp; omega), Nat.add_sub_cancel, List.drop_left' hx]
    have t2 : ∀ x : Bytes, x.length = body.length →
        (x ++ crc ++ rest).take (body.length + 4 - 4) = x := by
      intro x hx
      rw [Nat.add_sub_cancel, List.append_assoc, List.take_left' hx]
    dsimp only at hok ⊢
    rw [t1 body rfl, t2 body rfl] at hok
    rw [t1 body' hl.symm, t2 body' hl.symm]
    have heq : Spec.leNat crc = Spec.crc32 body := by
      by_contra hne
      rw [if_neg hne] at hok; cases hok
    rw [if_neg (by rw [heq]; exact crc32_burst body body' hb)]
    exact ⟨_, _, rfl⟩
  · obtain ⟨e, r', he⟩ := header_err _ hh'
    refine ⟨e, body' ++ crc ++ rest, ?_⟩
    unfold ParserV4.checksumEvent
    rw [if_pos hp, P.peek_eq]
    have : ParserV4.verifyChecksum (body' ++ crc ++ rest) = .err e (body' ++ crc ++ rest) := by
      unfold ParserV4.verifyChecksum
      rw [P.bind_apply, P.peek_eq, he]; rfl
    rw [this]

/-- C31: any change to the stored checksum itself is detected. -/
theorem C31_stored_checksum (p : ParserV4) (body crc crc' rest r : Bytes) (hc : crc.length = 4)
    (hc' : crc'.length = 4) (hlen : Spec.announced (body ++ crc ++ rest) = body.length + 4)
    (h19 : 19 ≤ body.length) (hok : p.checksumEvent (body ++ crc ++ rest) = .ok () r)
    (hne : crc ≠ crc') :
    ∃ e r', p.checksumEvent (body ++ crc' ++ rest) = .err e r' := by
  have hp : p.checksum = true := by
    cases h : p.checksum
    · rw [C30_not_enabled p h] at hok; cases hok
    · rfl
  have hpre : ∀ x : Bytes, Spec.announced (body ++ x ++ rest) = Spec.announced body := by
    intro x
    unfold Spec.announced
    rw [List.append_assoc, List.drop_append_of_le_length (by omega),
      List.take_append_of_le_length (by rw [List.length_drop]; omega)]
  have hhead : ∀ x y : Bytes, Spec.HasHeader (body ++ x ++ rest) → Spec.HasHeader (body ++ y ++ rest) := by
    rintro x y ⟨-, b, hb, hb2⟩
    refine ⟨by simp; omega, b, ?_, hb2⟩
    rw [List.append_assoc, List.getElem?_append_left (by omega)] at hb ⊢
    exact hb
  have hh : Spec.HasHeader (body ++ crc ++ rest) := by
    by_contra hn
    obtain ⟨e, r', he⟩ := header_err _ hn
    unfold ParserV4.checksumEvent at hok
    rw [if_pos hp, P.peek_eq] at hok
    have : ParserV4.verifyChecksum (body ++ crc ++ rest) = .err e (body ++ crc ++ rest) := by
      unfold ParserV4.verifyChecksum
      rw [P.bind_apply, P.peek_eq, he]; rfl
    rw [this] at hok; cases hok
  have hlen' : Spec.announced (body ++ crc' ++ rest) = body.length + 4 := by
    rw [hpre crc', ← hpre crc, hlen]
  rw [C30_checksum_event p hp _ hh (by omega) (by rw [hlen]; simp; omega)] at hok
  rw [C30_checksum_event p hp _ (hhead crc crc' hh) (by omega) (by rw [hlen']; simp; omega)]
  rw [hlen]  at hok
  rw [hlen']
  have t1 : ∀ x : Bytes, x.length = 4 →
      ((body ++ x ++ rest).take (body.length + 4)).drop (body.length + 4 - 4) = x := by
    intro x hx
    rw [List.take_left' (by simp; omega), Nat.add_sub_cancel, List.drop_left]
  have t2 : ∀ x : Bytes, (body ++ x ++ rest).take (body.length + 4 - 4) = body := by
    intro x
    rw [Nat.add_sub_cancel, List.append_assoc, List.take_left]
  dsimp only at hok ⊢
  rw [t1 crc hc, t2] at hok
  rw [t1 crc' hc', t2]
  have heq : Spec.leNat crc = Spec.crc32 body := by
    by_contra hne
    rw [if_neg hne] at hok; cases hok
  rw [if_neg]
  · exact ⟨_, _, rfl⟩
  · intro h
    apply hne
    have h2 : leVal crc = leVal crc' := by rw [leVal_eq_spec, leVal_eq_spec, heq, h]
    have := leVal_inj crc crc' (by omega) h2
    exact this

/-- C31 fails when the burst hits the length field: here one byte of it changes from 27 to 23, and the
corrupted event is accepted (as a shorter event whose checksum is part of the old payload). -/
theorem C31_length_field_false :
    ∃ body body' crc : Bytes, Spec.Burst body body' ∧
      (⟨[], true⟩ : ParserV4).checksumEvent (body ++ crc) = .ok () (body ++ crc) ∧
      (⟨[], true⟩ : ParserV4).checksumEvent (body' ++ crc) = .ok () (body' ++ crc) := by
  refine ⟨[0, 0, 0, 0, 3, 0, 0, 0, 0, 27, 0, 0, 0, 0, 0, 0, 0, 0, 0, 135, 57, 7, 14],
    [0, 0, 0, 0, 3, 0, 0, 0, 0, 23, 0, 0, 0, 0, 0, 0, 0, 0, 0, 135, 57, 7, 14],
    [49, 78, 177, 11], ⟨rfl, by decide, 72, ?_⟩, ?_, ?_⟩
  · intro i
    by_cases hi : i < 184
    · revert i; decide +kernel
    · intro h
      rw [List.getElem?_eq_none (by rw [messageBits_length]; simp; omega),
        List.getElem?_eq_none (by rw [messageBits_length]; simp; omega)] at h
      exact absurd rfl h
  · decide +kernel
  · decide +kernel

/-! ### C32 -/

theorem start_spec (f : Spec.Fde) (hf : f.Ok) (hu : validUtf8 f.server = true) (t : Bytes) :
    StartData.readFrom (Spec.le 2 f.version ++ (f.server ++ [0] ++ f.junk) ++ Spec.le 4 f.timestamp ++ t)
      = .ok ⟨f.version, f.server, f.timestamp⟩ t := by
  obtain ⟨h1, h2, h3, h4, h5, -⟩ := hf
  unfold StartData.readFrom
  rw [List.append_assoc, List.append_assoc]
  step (readLeU16_le f.version _ h1)
  step (readLen_append' 50 (f.server ++ [0] ++ f.junk) _ (by simp; omega))
  have hs : P.onSub (f.server ++ [0] ++ f.junk) (readUntil 0 false) (Spec.le 4 f.timestamp ++ t)
      = .ok f.server (Spec.le 4 f.timestamp ++ t) := by
    unfold P.onSub
    rw [List.append_assoc, List.singleton_append, readUntil_append 0 f.server f.junk h2]
  step hs
  have hv : toUtf8 f.server (Spec.le 4 f.timestamp ++ t) = .ok f.server (Spec.le 4 f.timestamp ++ t) := by
    unfold toUtf8; rw [if_pos hu]; rfl
  step hv
  step (readLeU32_le f.timestamp _ h4)
  rfl

/-- C32: the payload of a format description event, followed by a checksum-algorithm byte (5.6 and later)
and anything else, decodes to the fields and post-header lengths the server wrote, and that byte; without
the byte, the checksum flag is 0. -/
theorem C32_decode (f : Spec.Fde) (hf : f.Ok) (hu : validUtf8 f.server = true) :
    (∀ alg tail, alg < 256 →
      FormatDescriptionData.readFrom (f.encode ++ Spec.u8 alg ++ tail)
        = .ok ⟨f.version, f.server, f.timestamp, f.headerLen, f.lens, alg⟩ tail) ∧
    FormatDescriptionData.readFrom f.encode
      = .ok ⟨f.version, f.server, f.timestamp, f.headerLen, f.lens, 0⟩ [] := by
  obtain ⟨-, -, -, -, h5, b, hb, hb2⟩ := id hf
  have hidx : ∀ t : Bytes, (f.lens ++ t)[LogEventType.formatDescription.toByte - 1]? = some b := by
    intro t
    show (f.lens ++ t)[14]? = some b
    have : 14 < f.lens.length := by
      by_contra hc
      rw [List.getElem?_eq_none (by omega)] at hb; cases hb
    rw [List.getElem?_append_left this, hb]
  have hn : ∀ t : Bytes, fdeCount (f.lens ++ t) = .ok f.lens.length (f.lens ++ t) := by
    intro t
    unfold fdeCount
    rw [hidx t]
    dsimp only
    rw [if_neg (by omega), hb2, Nat.add_sub_cancel_left]
  constructor
  · intro alg tail ha
    have he : f.encode ++ Spec.u8 alg ++ tail
        = Spec.le 2 f.version ++ (f.server ++ [0] ++ f.junk) ++ Spec.le 4 f.timestamp
          ++ (Spec.u8 f.headerLen ++ (f.lens ++ (Spec.u8 alg ++ tail))) := by
      simp [Spec.Fde.encode]
    unfold FormatDescriptionData.readFrom
    rw [he]
    step (start_spec f hf hu _)
    step (readU8_u8 f.headerLen _ h5)
    step (hn _)
    rw [P.bind_apply, remaining_apply, R.bind_ok, if_neg (by simp [Spec.u8]), if_neg (by simp)]
    step (readLen_append' f.lens.length f.lens _ rfl)
    step (readU8_u8 alg _ ha)
    rfl
  · have he : f.encode
        = Spec.le 2 f.version ++ (f.server ++ [0] ++ f.junk) ++ Spec.le 4 f.timestamp
          ++ (Spec.u8 f.headerLen ++ (f.lens ++ [])) := by
      simp [Spec.Fde.encode]
    unfold FormatDescriptionData.readFrom
    rw [he]
    step (start_spec f hf hu _)
    step (readU8_u8 f.headerLen _ h5)
    step (hn _)
    rw [P.bind_apply, remaining_apply, R.bind_ok, if_pos (by simp)]
    simp only [List.append_nil]
    rfl

/-- C32: from the bytes of a whole format description event (with the algorithm byte and the 4-byte
checksum the server always writes after it), the parser gets the post-header lengths, and treats events
as checksummed exactly when the algorithm byte is 1. -/
theorem C32_parser (f : Spec.Fde) (hf : f.Ok) (hu : validUtf8 f.server = true) (e : Spec.LogEvent)
    (he : e.InRange) (alg crc : Nat) (ha : alg < 256) (hcrc : crc < 2 ^ 32)
    (hp : e.payload = f.encode ++ Spec.u8 alg ++ Spec.le 4 crc) (rest : Bytes) :
    ParserV4.fromFdeBytes (e.encode false ++ rest)
      = .ok (⟨0 :: f.lens, decide (alg = 1)⟩, if alg = 1 then some crc else none) rest := by
  obtain ⟨k, -, hk⟩ := header_encoded false e he rest
  have henc : e.encode false ++ rest = e.body false ++ rest := by simp [Spec.LogEvent.encode]
  unfold ParserV4.fromFdeBytes
  rw [henc]
  step hk
  rw [P.bind_apply, dataLen_ok _ (by show 19 ≤ e.len false; unfold Spec.LogEvent.len; omega), R.bind_ok]
  step (readLen_append' _ e.payload rest (by
    show _ = e.len false - 19
    unfold Spec.LogEvent.len; simp))
  have hin : (do
      let data ← FormatDescriptionData.readFrom
      let crc ← (if data.checksumFlag = 1 then do
          let rem ← remaining
          if rem < 4 then P.fail .binlogEvent
          else do return some (← readLeU32)
        else return none : P (Option Nat))
      return (data, crc) : P (FormatDescriptionData × Option Nat)) e.payload
      = .ok (⟨f.version, f.server, f.timestamp, f.headerLen, f.lens, alg⟩,
          if alg = 1 then some crc else none) (if alg = 1 then [] else Spec.le 4 crc) := by
    rw [hp]
    step ((C32_decode f hf hu).1 alg (Spec.le 4 crc) ha)
    by_cases h1 : alg = 1
    · simp only [h1, if_true]
      rw [P.bind_apply, P.bind_apply, remaining_apply, R.bind_ok, if_neg (by simp)]
      have := readLeU32_le crc [] hcrc
      rw [List.append_nil] at this
      rw [P.bind_apply, this]
      rfl
    · simp only [h1, if_false]
      rfl
  have hsub : P.onSub e.payload (do
      let data ← FormatDescriptionData.readFrom
      let crc ← (if data.checksumFlag = 1 then do
          let rem ← remaining
          if rem < 4 then P.fail .binlogEvent
          else do return some (← readLeU32)
        else return none : P (Option Nat))
      return (data, crc) : P (FormatDescriptionData × Option Nat)) rest
      = .ok (⟨f.version, f.server, f.timestamp, f.headerLen, f.lens, alg⟩,
          if alg = 1 then some crc else none) rest := by
    unfold P.onSub
    rw [hin]
  step hsub
  show R.ok (ParserV4.fromFde _, _) rest = _
  unfold ParserV4.fromFde
  rfl

/-- the parser made from the beginning of a binlog file, whatever follows -/
theorem fromBinlogFile_encoded (f : Spec.Fde) (hf : f.Ok) (hu : validUtf8 f.server = true)
    (e : Spec.LogEvent) (he : e.InRange) (hcode : e.code = 15) (alg crc : Nat) (ha : alg < 256)
    (hcrc : crc < 2 ^ 32) (hp : e.payload = f.encode ++ Spec.u8 alg ++ Spec.le 4 crc) (log : Bytes) :
    ParserV4.fromBinlogFile (Spec.magic ++ e.encode false ++ log)
      = .ok ⟨0 :: f.lens, decide (alg = 1)⟩ log := by
  unfold ParserV4.fromBinlogFile
  obtain ⟨k, hk, hh⟩ := header_encoded false e he log
  have hk15 : k = .formatDescription := by
    apply C20_event_types.2.1
    rw [hk, hcode]; rfl
  have henc : e.encode false ++ log = e.body false ++ log := by simp [Spec.LogEvent.encode]
  have hpk : P.peek EventHeader.readFrom (e.encode false ++ log)
      = .ok ⟨e.timestamp, .formatDescription, e.serverId, e.len false, e.nextPos, e.flags⟩
        (e.encode false ++ log) := by
    rw [P.peek_eq, henc, hh, hk15]
  rw [List.append_assoc]
  have hver : BinlogVersion.readFrom (Spec.magic ++ (e.encode false ++ log))
      = .ok .v4 (e.encode false ++ log) := by
    unfold BinlogVersion.readFrom
    step (readLen_append' 4 Spec.magic (e.encode false ++ log) rfl)
    rw [if_neg (by simp [Spec.magic])]
    step hpk
    rfl
  step hver
  rw [if_neg (by simp)]
  step (C32_parser f hf hu e he alg crc ha hcrc hp log)
  rfl

/-- C29: the whole file: after the magic and the format description event, the parser is set up with the
announced checksum setting, stands at the first event, and returns every event in order. -/
theorem C29_file (f : Spec.Fde) (hf : f.Ok) (hu : validUtf8 f.server = true) (e : Spec.LogEvent)
    (he : e.InRange) (hcode : e.code = 15) (alg crc : Nat) (ha : alg < 256) (hcrc : crc < 2 ^ 32)
    (hp : e.payload = f.encode ++ Spec.u8 alg ++ Spec.le 4 crc) (validate : Bool)
    (es : List Spec.LogEvent) (hes : ∀ e ∈ es, e.InRange) (rest : Bytes) :
    ∃ p log os,
      ParserV4.fromBinlogFile (Spec.magic ++ e.encode false
        ++ ((es.map (·.encode (decide (alg = 1)))).flatten ++ rest)) = .ok p log ∧
      P.times (p.parseEvent validate) es.length log = .ok os rest ∧
      List.Forall₂ (Spec.Seen (decide (alg = 1))) es os := by
  obtain ⟨os, h1, h2⟩ := C29_walk ⟨0 :: f.lens, decide (alg = 1)⟩ validate es hes rest
  refine ⟨_, _, os, ?_, h1, h2⟩
  exact fromBinlogFile_encoded f hf hu e he hcode alg crc ha hcrc hp _

/-- a MySQL-5.7-like format description: 38 post-header lengths, that of type 15 being 95 = 57 + 38 -/
def exampleFde : Spec.Fde :=
  ⟨4, [53, 46, 55], List.replicate 46 0, 7, 19, List.replicate 14 8 ++ [95] ++ List.replicate 23 0⟩

theorem exampleFde_ok : exampleFde.Ok ∧ validUtf8 exampleFde.server = true :=
  ⟨⟨by decide, by decide, by decide, by decide, by decide, 95, by decide, by decide⟩, by decide⟩

/-- C32: on malformed payloads decoding ends with a result or an error as long as the post-header length
of type 15 is there, is at least 57, and leaves no more than the remaining bytes. Other payloads are a
panic: `C32_malformed_false`. -/
theorem C32_no_panic_partial (start tail : Bytes) (hs : start.length = 57) (b : UInt8)
    (hb : tail[14]? = some b) (h57 : 57 ≤ b.toNat) (hle : b.toNat - 57 ≤ tail.length) :
    (∃ a r, FormatDescriptionData.readFrom (start ++ tail) = .ok a r) ∨
    (∃ e r, FormatDescriptionData.readFrom (start ++ tail) = .err e r) := by
  obtain ⟨s1, v, rfl, hl1, -⟩ := split_at 56 start (by omega)
  have hv : v.length = 1 := by simp at hs; omega
  obtain ⟨w, rfl⟩ : ∃ w, v = [w] := List.length_eq_one_iff.mp hv
  have hw : Well StartData.readFrom := by unfold StartData.readFrom; well
  unfold FormatDescriptionData.readFrom
  rw [P.bind_apply]
  have h0 := hw (s1 ++ [w] ++ tail)
  cases hst : StartData.readFrom (s1 ++ [w] ++ tail) with
  | err e r => exact Or.inr ⟨_, _, rfl⟩
  | panic => rw [hst] at h0; exact h0.elim
  | hang => rw [hst] at h0; exact h0.elim
  | ok s r =>
    have hr : r = [w] ++ tail := by
      unfold StartData.readFrom readLeU16 readLeU32 at hst
      simp only [P.bind_eq_ok, readFixed_eq_ok, readLen_eq_ok, P.pure_eq_ok] at hst
      obtain ⟨_, r1, ⟨-, -, rfl⟩, fld, r2, ⟨hf1, hf2⟩, sv, r3, h3, sv2, r4, h4, ts, r5, ⟨-, -, rfl⟩,
        -, rfl⟩ := hst
      have e3 : r3 = r2 := by
        unfold P.onSub at h3
        cases hq : readUntil 0 false fld <;> rw [hq] at h3 <;> cases h3; rfl
      have e4 : r4 = r3 := by
        unfold toUtf8 at h4
        split at h4 <;> cases h4; rfl
      subst e4; subst e3
      have : r4 = (s1 ++ [w] ++ tail).drop 52 := by
        rw [show (52 : Nat) = 2 + 50 from rfl, ← List.drop_drop, hf2, List.drop_left' hf1]
      rw [this, List.drop_drop, List.append_assoc, List.drop_left' (by omega)]
    subst hr
    rw [R.bind_ok, P.bind_apply, List.singleton_append, readU8_cons, R.bind_ok, P.bind_apply]
    have hn : fdeCount tail = .ok (b.toNat - 57) tail := by
      show (match tail[14]? with
        | none => .panic
        | some b => if b.toNat < 57 then .panic else .ok (b.toNat - 57) tail : R Nat) = _
      rw [hb]
      dsimp only
      rw [if_neg (by omega)]
    rw [hn, R.bind_ok, P.bind_apply, remaining_apply, R.bind_ok]
    by_cases hc : tail.length = b.toNat - 57
    · rw [if_pos hc]; exact Or.inl ⟨_, _, rfl⟩
    · rw [if_neg hc, if_neg (by omega)]
      have hw2 : Well (do
        let lens ← readLen (b.toNat - 57)
        let flag ← readU8
        return ⟨s.binlogVersion, s.serverVersion, s.createTimestamp, w.toNat, lens, flag⟩ :
          P FormatDescriptionData) := by well
      have := hw2 tail
      revert this
      generalize (do
        let lens ← readLen (b.toNat - 57)
        let flag ← readU8
        return ⟨s.binlogVersion, s.serverVersion, s.createTimestamp, w.toNat, lens, flag⟩ :
          P FormatDescriptionData) tail = res
      intro this
      cases res with
      | ok a r => exact Or.inl ⟨_, _, rfl⟩
      | err e r => exact Or.inr ⟨_, _, rfl⟩
      | panic => exact this.elim
      | hang => exact this.elim

/-- C32 fails on malformed format descriptions: too few post-header lengths, a length of type 15 below
57, or one that announces more lengths than there are bytes: each is a panic. -/
theorem C32_malformed_false :
    FormatDescriptionData.readFrom (List.replicate 57 0 ++ List.replicate 14 0) = .panic ∧
    FormatDescriptionData.readFrom (List.replicate 57 0 ++ (List.replicate 14 0 ++ [56])) = .panic ∧
    FormatDescriptionData.readFrom (List.replicate 57 0 ++ (List.replicate 14 0 ++ [73])) = .panic := by
  refine ⟨?_, ?_, ?_⟩ <;> decide +kernel

end Mybin
