/-
C105: a stream that goes from one file of the log to the next.
-/
import Verif.Spec.Files
import Verif.Props.C53

namespace Mybin
open BinlogStream

theorem fileEvents_same (b : Bool) (fs : List Spec.LogFile) (h : ∀ f ∈ fs, f.crc = b) :
    Spec.fileEvents fs = (fs.flatMap (·.events)).map (fun e => (b, e)) := by
  induction fs with
  | nil => rfl
  | cons f fs ih =>
    unfold Spec.fileEvents at ih ⊢
    rw [List.flatMap_cons, List.flatMap_cons, List.map_append, ih (fun x hx => h x (by simp [hx])), h f (by simp)]

theorem filter_marked (b : Bool) (es : List Spec.LogEvent) :
    (es.map (fun e => (b, e))).filter (fun x : Bool × Spec.LogEvent => x.2.code ∈ Spec.supportedCodes)
      = (Spec.visible es).map (fun e => (b, e)) := by
  unfold Spec.visible
  rw [List.filter_map]
  rfl

/-- C105: files written with the checksum setting the stream started with. One call per event this library knows returns
these events, file after file, in order. Missing from the full claim: files with the other setting
(`C105_changed_false`). -/
theorem C105_same_partial (s : BinlogStream) (hs : s.completed = false) (fs : List Spec.LogFile)
    (he : ∀ f ∈ fs, ∀ e ∈ f.events, e.InRange) (hsame : ∀ f ∈ fs, f.crc = s.pv4.checksum) (rest : Bytes) (c : Conn)
    (hd : Spec.Delivers c.inp (Spec.fileMessages fs) rest) :
    ∃ c' os, s.calls (Spec.fileVisible fs).length c = .ok (os, s) c' ∧
      List.Forall₂ (fun x o => Spec.Seen x.1 x.2 o) (Spec.fileVisible fs) os ∧ (∀ o ∈ os, o ≠ none) ∧ c'.out = c.out := by
  have e1 := fileEvents_same _ fs hsame
  have e2 : Spec.fileMessages fs = (fs.flatMap (·.events)).map (Spec.streamMessage s.pv4.checksum) := by
    unfold Spec.fileMessages
    rw [e1, List.map_map]
    rfl
  have e3 : Spec.fileVisible fs = (Spec.visible (fs.flatMap (·.events))).map (fun e => (s.pv4.checksum, e)) := by
    unfold Spec.fileVisible
    rw [e1, filter_marked]
  obtain ⟨c', os, left, a1, a2, a3, a4, -⟩ := C53_events s hs (fs.flatMap (·.events)) (by
    intro e h
    obtain ⟨f, hf, hfe⟩ := List.mem_flatMap.1 h
    exact he f hf e hfe) [] rest c (by rw [List.append_nil, ← e2]; exact hd)
  rw [e3, List.length_map]
  refine ⟨c', os, a1, ?_, a3, a4⟩
  rw [List.forall₂_map_left_iff]
  exact a2

/-! ### files with the other setting -/

/-- the event with these bytes as its payload -/
def Spec.LogEvent.withPayload (e : Spec.LogEvent) (p : List UInt8) : Spec.LogEvent := { e with payload := p }

theorem encode_as_plain (e : Spec.LogEvent) :
    e.encode true = (e.withPayload (e.payload ++ Spec.le 4 (Spec.crc32 (e.body true)))).encode false := by
  simp [Spec.LogEvent.encode, Spec.LogEvent.withPayload, Spec.LogEvent.body, Spec.LogEvent.len, Nat.add_assoc]

/-- an event without a checksum, read by a parser that expects one but does not verify it -/
theorem parse_cut (p : ParserV4) (hp : p.checksum = true) (e : Spec.LogEvent) (he : e.InRange) :
    (e.payload.length < 4 → p.parseEvent false (e.encode false) = .panic) ∧
    (4 ≤ e.payload.length → ∃ k : LogEventType, k.toByte = e.code ∧
      p.parseEvent false (e.encode false) = .ok (if k.supported then
        some ⟨k, ⟨e.timestamp, k, e.serverId, e.len false, e.nextPos, e.flags⟩,
          e.payload.take (e.payload.length - 4)⟩ else none) []) := by
  obtain ⟨k, hkc, hk⟩ := header_encoded false e he []
  rw [List.append_nil, List.append_nil] at hk
  have henc : e.encode false = e.body false := by simp [Spec.LogEvent.encode]
  have hrd : ∀ n, n = e.payload.length → readLen n e.payload = .ok e.payload [] := by
    intro n hn
    have := readLen_append' n e.payload [] hn.symm
    rwa [List.append_nil] at this
  have hpre : p.parseEvent false (e.encode false) = ((if e.payload.length < 4 then P.panic else
      (pure (e.payload.take (e.payload.length - 4)) : P Bytes)) []).bind (fun data => (if k.supported then
        pure (some ⟨k, ⟨e.timestamp, k, e.serverId, e.len false, e.nextPos, e.flags⟩, data⟩) else pure none
          : P (Option Event))) := by
    unfold ParserV4.parseEvent
    rw [hp, Bool.and_false, P.bind_apply]
    show R.bind (.ok () (e.encode false)) _ = _
    rw [R.bind_ok, P.bind_apply, henc, hk, R.bind_ok, P.bind_apply, dataLen_ok _ (by
      show 19 ≤ e.len false
      unfold Spec.LogEvent.len; omega), R.bind_ok, P.bind_apply, hrd _ (by
      show e.len false - 19 = _
      unfold Spec.LogEvent.len; simp), R.bind_ok, P.bind_apply]
    simp only [if_true]
  constructor
  · intro h
    rw [hpre, if_pos h]
    rfl
  · intro h
    refine ⟨k, hkc, ?_⟩
    rw [hpre, if_neg (by omega)]
    cases k.supported <;> rfl

theorem encode_header (crc : Bool) (e : Spec.LogEvent) (he : e.InRange) :
    Spec.HasHeader (e.encode crc) ∧ Spec.announced (e.encode crc) = e.len crc := by
  have hlen : e.len crc < 2 ^ 32 := by
    unfold Spec.LogEvent.len
    have := he.2.2.2.2.2
    split <;> omega
  refine ⟨⟨?_, UInt8.ofNat e.code, ?_, ?_⟩, ?_⟩
  · rw [encode_length]; unfold Spec.LogEvent.len; omega
  · simp [Spec.LogEvent.encode, Spec.LogEvent.body, Spec.u8, Spec.le]
  · have := he.2.1
    rw [UInt8.toNat_ofNat']; omega
  · have : ((e.encode crc).drop 9).take 4 = Spec.le 4 (e.len crc) := by
      simp [Spec.LogEvent.encode, Spec.LogEvent.body, Spec.u8, Spec.le, List.range_succ]
    unfold Spec.announced
    rw [this, ← leVal_eq_spec, leVal_le 4 _ (by omega)]

/-- the message of an event as it was sent is what the parser sees -/
theorem recvAndParse_sent (s : BinlogStream) (q : Bool) (e : Spec.LogEvent) (ms : List Bytes) (rest : Bytes) (c : Conn)
    (hd : Spec.Delivers c.inp (Spec.streamMessage q e :: ms) rest) :
    ∃ c', Moved c c' ∧ Spec.Delivers c'.inp ms rest ∧
      s.recvAndParse c = match s.pv4.parseEvent s.validateChecksum (e.encode q) with
        | .ok (some x) _ => .ok (.single x) c'
        | .ok none _ => .ok .unsupported c'
        | .err x _ => .err x c'
        | .panic => .panic
        | .hang => .hang := by
  obtain ⟨c', h1, h2, h3, -⟩ := Delivers.recv hd
  refine ⟨c', h2, h3, ?_⟩
  unfold recvAndParse
  rw [h1]
  have : Spec.streamMessage q e = 0 :: e.encode q := rfl
  rw [this]
  dsimp only
  rw [if_neg (by simp), if_neg (by simp)]
  unfold M.parse
  rcases s.pv4.parseEvent s.validateChecksum (e.encode q) with ⟨o, _⟩ | ⟨x, _⟩ | _ | _
  · cases o <;> rfl
  · rfl
  · rfl
  · rfl

/-- C105, the checksum setting of a later file is not taken over. A stream that started with a file without checksums
hands out the events of a later file with the four bytes of the checksum at the end of their payload. -/
theorem C105_changed_false (s : BinlogStream) (hs : s.completed = false) (hp : s.pv4.checksum = false) (e : Spec.LogEvent)
    (he : e.InRange) (hl : e.payload.length + 27 < 2 ^ 32) (hk : e.code ∈ Spec.supportedCodes) (ms : List Bytes)
    (rest : Bytes) (c : Conn) (hd : Spec.Delivers c.inp (Spec.streamMessage true e :: ms) rest) :
    ∃ c' k, k.toByte = e.code ∧ Spec.Delivers c'.inp ms rest ∧ s.nextEvent c
      = .ok (some ⟨k, ⟨e.timestamp, k, e.serverId, e.len true, e.nextPos, e.flags⟩,
          e.payload ++ Spec.le 4 (Spec.crc32 (e.body true))⟩, s) c' := by
  obtain ⟨c', h1, h2, h3⟩ := recvAndParse_sent s true e ms rest c hd
  obtain ⟨o, p1, p2⟩ := C29_parse_event s.pv4 s.validateChecksum
    (e.withPayload (e.payload ++ Spec.le 4 (Spec.crc32 (e.body true)))) (by
      obtain ⟨a1, a2, a3, a4, a5, -⟩ := he
      refine ⟨a1, a2, a3, a4, a5, ?_⟩
      simp [Spec.LogEvent.withPayload]; omega) []
  rw [hp, List.append_nil, ← encode_as_plain] at p1
  rw [hp] at p2
  unfold Spec.Seen at p2
  rw [if_pos (by exact hk)] at p2
  obtain ⟨k, hk1, rfl⟩ := p2
  refine ⟨c', k, hk1, h2, ?_⟩
  unfold nextEvent
  rw [if_neg (by simp [hs]), nextLoop.eq_def, h3, p1]
  simp [Spec.LogEvent.withPayload, Spec.LogEvent.len, Nat.add_assoc]

/-- C105, the other way round, without validation: a stream that started with a file with checksums cuts the last four
bytes off the payload of every event of a later file without them; a payload shorter than that makes it panic. -/
theorem C105_cut_false (s : BinlogStream) (hs : s.completed = false) (hp : s.pv4.checksum = true)
    (hv : s.validateChecksum = false) (e : Spec.LogEvent) (he : e.InRange) (hk : e.code ∈ Spec.supportedCodes)
    (ms : List Bytes) (rest : Bytes) (c : Conn) (hd : Spec.Delivers c.inp (Spec.streamMessage false e :: ms) rest) :
    (4 ≤ e.payload.length → ∃ c' k, k.toByte = e.code ∧ Spec.Delivers c'.inp ms rest ∧ s.nextEvent c
      = .ok (some ⟨k, ⟨e.timestamp, k, e.serverId, e.len false, e.nextPos, e.flags⟩,
          e.payload.take (e.payload.length - 4)⟩, s) c') ∧
    (e.payload.length < 4 → s.nextEvent c = .panic) := by
  obtain ⟨c', h1, h2, h3⟩ := recvAndParse_sent s false e ms rest c hd
  obtain ⟨p1, p2⟩ := parse_cut s.pv4 hp e he
  rw [hv] at h3
  constructor
  · intro h
    obtain ⟨k, k1, k2⟩ := p2 h
    have hs' : k.supported = true := by rw [supported_iff, k1]; exact hk
    refine ⟨c', k, k1, h2, ?_⟩
    unfold nextEvent
    rw [if_neg (by simp [hs]), nextLoop.eq_def, h3, k2, hs']
    rfl
  · intro h
    unfold nextEvent
    rw [if_neg (by simp [hs]), nextLoop.eq_def, h3, p1 h]

/-- C105, the other way round, with validation: every event of a later file without checksums is refused, unless its
last four bytes happen to be the checksum of those before. -/
theorem C105_refused_false (s : BinlogStream) (hs : s.completed = false) (hp : s.pv4.checksum = true)
    (hv : s.validateChecksum = true) (e : Spec.LogEvent) (he : e.InRange)
    (hne : Spec.leNat ((e.encode false).drop (e.len false - 4)) ≠ Spec.crc32 ((e.encode false).take (e.len false - 4)))
    (ms : List Bytes) (rest : Bytes) (c : Conn) (hd : Spec.Delivers c.inp (Spec.streamMessage false e :: ms) rest) :
    ∃ c', s.nextEvent c = .err (.checksumMismatch (Spec.leNat ((e.encode false).drop (e.len false - 4)))
      (Spec.crc32 ((e.encode false).take (e.len false - 4)))) c' := by
  obtain ⟨c', h1, h2, h3⟩ := recvAndParse_sent s false e ms rest c hd
  obtain ⟨b1, b2⟩ := encode_header false e he
  have h19 : 19 ≤ e.len false := by unfold Spec.LogEvent.len; omega
  have h := (C30_parse_event s.pv4 hp (e.encode false) b1 (by omega) (by rw [b2, encode_length])).1
  rw [b2, List.take_of_length_le (by rw [encode_length])] at h
  refine ⟨c', ?_⟩
  unfold nextEvent
  rw [if_neg (by simp [hs]), nextLoop.eq_def, h3, hv, h hne]

/-- C105: an event this library knows is handed out as it is in the log if and only if its file was written with the
checksum setting the stream started with, whether checksums are verified or not. -/
theorem C105_exactly (s : BinlogStream) (hs : s.completed = false) (q : Bool) (e : Spec.LogEvent) (he : e.InRange)
    (hl : e.payload.length + 27 < 2 ^ 32) (hk : e.code ∈ Spec.supportedCodes) (ms : List Bytes) (rest : Bytes) (c : Conn)
    (hd : Spec.Delivers c.inp (Spec.streamMessage q e :: ms) rest) :
    (∃ o c', s.nextEvent c = .ok (o, s) c' ∧ Spec.Seen q e o) ↔ q = s.pv4.checksum := by
  constructor
  · rintro ⟨o, c', h1, h2⟩
    unfold Spec.Seen at h2
    rw [if_pos hk] at h2
    obtain ⟨k, hk1, rfl⟩ := h2
    by_contra hne
    cases hp : s.pv4.checksum
    · have hq : q = true := by rw [hp] at hne; simpa using hne
      subst hq
      obtain ⟨c2, k2, -, -, h3⟩ := C105_changed_false s hs hp e he hl hk ms rest c hd
      rw [h3] at h1
      have := congrArg (fun r : MR (Option Event × BinlogStream) => match r with
        | .ok (some x, _) _ => x.data.length
        | _ => 0) h1
      simp at this
    · have hq : q = false := by rw [hp] at hne; simpa using hne
      subst hq
      have key : ∀ v, s.validateChecksum = v → v = true →
          s.pv4.parseEvent true (e.encode false) = s.pv4.parseEvent false (e.encode false) := by
        intro v hv hvt
        subst hvt
        by_contra hpar
        obtain ⟨b1, b2⟩ := encode_header false e he
        have h19 : 19 ≤ e.len false := by unfold Spec.LogEvent.len; omega
        have h := (C30_parse_event s.pv4 hp (e.encode false) b1 (by omega) (by rw [b2, encode_length])).2
        rw [b2, List.take_of_length_le (by rw [encode_length])] at h
        obtain ⟨c2, h4⟩ := C105_refused_false s hs hp hv e he (fun x => hpar (h x)) ms rest c hd
        rw [h4] at h1
        cases h1
      obtain ⟨c3, -, -, h3⟩ := recvAndParse_sent s false e ms rest c hd
      have hpar : s.pv4.parseEvent s.validateChecksum (e.encode false) = s.pv4.parseEvent false (e.encode false) := by
        cases hv : s.validateChecksum
        · rfl
        · exact key true hv rfl
      rw [hpar] at h3
      obtain ⟨p1, p2⟩ := parse_cut s.pv4 hp e he
      unfold nextEvent at h1
      rw [if_neg (by simp [hs]), nextLoop.eq_def, h3] at h1
      by_cases h4 : 4 ≤ e.payload.length
      · obtain ⟨k2, k3, k4⟩ := p2 h4
        have hs' : k2.supported = true := by rw [supported_iff, k3]; exact hk
        rw [k4, hs'] at h1
        have := congrArg (fun r : MR (Option Event × BinlogStream) => match r with
          | .ok (some x, _) _ => x.data.length
          | _ => 0) h1
        simp at this
        omega
      · rw [p1 (by omega)] at h1
        cases h1
  · rintro rfl
    obtain ⟨c', o, a1, a2, -⟩ := nextLoop_event s e he hk ms rest c hd
    exact ⟨o, c', by unfold nextEvent; rw [if_neg (by simp [hs]), a2], a1⟩

/-- two files, the second written after checksums were turned off: a query event of the second file loses its end -/
def exampleFiles : List Spec.LogFile :=
  [⟨true, [exampleStreamEvent 16 [1, 2, 3, 4, 5, 6, 7, 8], exampleStreamEvent 4 [4, 0, 0, 0, 0, 0, 0, 0, 98]]⟩,
   ⟨false, [exampleStreamEvent 2 [1, 2, 3, 4, 5, 6], exampleStreamEvent 36 [9], exampleStreamEvent 3 []]⟩]

/-- the hypotheses of `C105_same_partial` can be met: two files with checksums -/
example : ∃ (s : BinlogStream) (fs : List Spec.LogFile) (inp : Bytes), s.completed = false ∧ fs.length = 2 ∧
    (∀ f ∈ fs, ∀ e ∈ f.events, e.InRange) ∧ (∀ f ∈ fs, f.crc = s.pv4.checksum) ∧ (Spec.fileVisible fs).length = 4 ∧
    Spec.Delivers inp (Spec.fileMessages fs) [] := by
  obtain ⟨inp, h⟩ := delivers_small (Spec.fileMessages (exampleFiles.map (fun f => ⟨true, f.events⟩))) [] (by
    intro m hm
    simp only [Spec.fileMessages, Spec.fileEvents, exampleFiles, List.map_cons, List.map_nil, List.flatMap_cons,
      List.flatMap_nil, List.append_nil, List.cons_append, List.nil_append, List.mem_cons, List.not_mem_nil,
      or_false] at hm
    rcases hm with rfl | rfl | rfl | rfl | rfl <;> simp [Spec.streamMessage, exampleStreamEvent, encode_length,
      Spec.LogEvent.len, Spec.u8])
  refine ⟨⟨⟨[], true⟩, true, false, true⟩, _, inp, rfl, rfl, ?_, ?_, by decide, h⟩
  · intro f hf e he
    simp only [exampleFiles, List.map_cons, List.map_nil, List.mem_cons, List.not_mem_nil, or_false] at hf
    rcases hf with rfl | rfl <;> simp only [List.mem_cons, List.not_mem_nil, or_false] at he
    · rcases he with rfl | rfl <;> (unfold Spec.LogEvent.InRange exampleStreamEvent; simp)
    · rcases he with rfl | rfl | rfl <;> (unfold Spec.LogEvent.InRange exampleStreamEvent; simp)
  · intro f hf
    obtain ⟨g, -, rfl⟩ := List.mem_map.1 hf
    rfl

/-- the hypotheses of the others can be met: a query event, sent with or without a checksum -/
example (q : Bool) : ∃ (e : Spec.LogEvent) (inp : Bytes), e.InRange ∧ e.payload.length + 27 < 2 ^ 32 ∧
    e.code ∈ Spec.supportedCodes ∧ Spec.Delivers inp [Spec.streamMessage q e] [] := by
  obtain ⟨inp, h⟩ := delivers_small [Spec.streamMessage q (exampleStreamEvent 2 [1, 2, 3, 4, 5, 6])] [] (by
    intro m hm
    simp only [List.mem_cons, List.not_mem_nil, or_false] at hm
    subst hm
    cases q <;> simp [Spec.streamMessage, exampleStreamEvent, encode_length, Spec.LogEvent.len, Spec.u8])
  exact ⟨_, inp, by unfold Spec.LogEvent.InRange exampleStreamEvent; simp, by simp [exampleStreamEvent], by decide, h⟩

/-- and this event is refused when checksums are verified -/
example : Spec.leNat (((exampleStreamEvent 2 [1, 2, 3, 4, 5, 6]).encode false).drop
      ((exampleStreamEvent 2 [1, 2, 3, 4, 5, 6]).len false - 4))
    ≠ Spec.crc32 (((exampleStreamEvent 2 [1, 2, 3, 4, 5, 6]).encode false).take
      ((exampleStreamEvent 2 [1, 2, 3, 4, 5, 6]).len false - 4)) := by
  decide +kernel

end Mybin
