/-
C53: iterating over a binlog stream.
-/
import Verif.Model.Stream
import Verif.Spec.Stream
import Verif.Lemmas.Client
import Verif.Props.C28_C32

namespace Mybin
open BinlogStream

theorem recvAndParse_event (s : BinlogStream) (e : Spec.LogEvent) (he : e.InRange) (ms : List Bytes) (rest : Bytes)
    (c : Conn) (hd : Spec.Delivers c.inp (Spec.streamMessage s.pv4.checksum e :: ms) rest) :
    ∃ c' o, Spec.Seen s.pv4.checksum e o ∧
      s.recvAndParse c = .ok (match o with | some e => .single e | none => .unsupported) c' ∧
      Moved c c' ∧ Spec.Delivers c'.inp ms rest ∧ c'.inp.length < c.inp.length := by
  obtain ⟨c', h1, h2, h3, h4⟩ := Delivers.recv hd
  obtain ⟨o, p1, p2⟩ := C29_parse_event s.pv4 s.validateChecksum e he []
  rw [List.append_nil] at p1
  refine ⟨c', o, p2, ?_, h2, h3, h4⟩
  unfold recvAndParse
  rw [h1]
  have : Spec.streamMessage s.pv4.checksum e = 0 :: e.encode s.pv4.checksum := rfl
  rw [this]
  dsimp only
  rw [if_neg (by simp), if_neg (by simp), M.parse_ok p1]
  cases o <;> rfl

/-- unsupported events are skipped -/
theorem nextLoop_skip (s : BinlogStream) (es : List Spec.LogEvent) (he : ∀ e ∈ es, e.InRange)
    (hu : ∀ e ∈ es, e.code ∉ Spec.supportedCodes) (ms : List Bytes) (rest : Bytes) (c : Conn)
    (hd : Spec.Delivers c.inp (es.map (Spec.streamMessage s.pv4.checksum) ++ ms) rest) :
    ∃ c', s.nextLoop c = s.nextLoop c' ∧ Moved c c' ∧ Spec.Delivers c'.inp ms rest := by
  induction es generalizing c with
  | nil => exact ⟨c, rfl, Moved.refl c, hd⟩
  | cons e es ih =>
    obtain ⟨c1, o, a1, a2, a3, a4, a5⟩ := recvAndParse_event s e (he e (by simp)) _ rest c hd
    obtain ⟨c2, b1, b2, b3⟩ := ih (fun x hx => he x (by simp [hx])) (fun x hx => hu x (by simp [hx])) c1 a4
    have ho : o = none := by
      unfold Spec.Seen at a1
      rw [if_neg (hu e (by simp))] at a1
      exact a1
    subst ho
    refine ⟨c2, ?_, a3.trans b2, b3⟩
    rw [nextLoop.eq_def, a2]
    dsimp only
    rw [if_pos a5, b1]

/-- the next supported event -/
theorem nextLoop_event (s : BinlogStream) (e : Spec.LogEvent) (he : e.InRange) (hs : e.code ∈ Spec.supportedCodes)
    (ms : List Bytes) (rest : Bytes) (c : Conn)
    (hd : Spec.Delivers c.inp (Spec.streamMessage s.pv4.checksum e :: ms) rest) :
    ∃ c' o, Spec.Seen s.pv4.checksum e o ∧ s.nextLoop c = .ok (o, s) c' ∧ Moved c c' ∧
      Spec.Delivers c'.inp ms rest := by
  obtain ⟨c1, o, a1, a2, a3, a4, a5⟩ := recvAndParse_event s e he _ rest c hd
  have ho : ∃ x, o = some x := by
    unfold Spec.Seen at a1
    rw [if_pos hs] at a1
    obtain ⟨k, -, h⟩ := a1
    exact ⟨_, h⟩
  obtain ⟨x, rfl⟩ := ho
  refine ⟨c1, _, a1, ?_, a3, a4⟩
  rw [nextLoop.eq_def, a2]

theorem split_visible (es : List Spec.LogEvent) :
    (∃ skipped e more, es = skipped ++ e :: more ∧ (∀ x ∈ skipped, x.code ∉ Spec.supportedCodes) ∧
      e.code ∈ Spec.supportedCodes ∧ Spec.visible es = e :: Spec.visible more) ∨
    ((∀ x ∈ es, x.code ∉ Spec.supportedCodes) ∧ Spec.visible es = []) := by
  induction es with
  | nil => exact Or.inr ⟨by simp, rfl⟩
  | cons a es ih =>
    by_cases ha : a.code ∈ Spec.supportedCodes
    · exact Or.inl ⟨[], a, es, rfl, by simp, ha, by simp [Spec.visible, ha]⟩
    · rcases ih with ⟨sk, e, more, h1, h2, h3, h4⟩ | ⟨h1, h2⟩
      · refine Or.inl ⟨a :: sk, e, more, by rw [h1]; rfl, ?_, h3, ?_⟩
        · intro x hx
          rcases List.mem_cons.1 hx with rfl | hx
          · exact ha
          · exact h2 x hx
        · rw [← h4]; simp [Spec.visible, ha]
      · refine Or.inr ⟨?_, ?_⟩
        · intro x hx
          rcases List.mem_cons.1 hx with rfl | hx
          · exact ha
          · exact h1 x hx
        · rw [← h2]; simp [Spec.visible, ha]

/-- C53: for every sequence of events in a stream, whatever follows it, one call per supported event returns exactly
the supported events, in order, with their header fields and payloads; nothing is sent, and the calls leave at most
unsupported events of the sequence unread. -/
theorem C53_events (s : BinlogStream) (hs : s.completed = false) (es : List Spec.LogEvent)
    (he : ∀ e ∈ es, e.InRange) (ms : List Bytes) (rest : Bytes) (c : Conn)
    (hd : Spec.Delivers c.inp (es.map (Spec.streamMessage s.pv4.checksum) ++ ms) rest) :
    ∃ c' os left, s.calls (Spec.visible es).length c = .ok (os, s) c' ∧
      List.Forall₂ (Spec.Seen s.pv4.checksum) (Spec.visible es) os ∧ (∀ o ∈ os, o ≠ none) ∧ c'.out = c.out ∧
      left <:+ es ∧ (∀ e ∈ left, e.code ∉ Spec.supportedCodes) ∧
      Spec.Delivers c'.inp (left.map (Spec.streamMessage s.pv4.checksum) ++ ms) rest := by
  generalize hn : es.length = n
  induction n using Nat.strong_induction_on generalizing es c with
  | _ n ih =>
  rcases split_visible es with ⟨sk, e, more, rfl, h2, h3, h4⟩ | ⟨h1, h2⟩
  · rw [h4]
    rw [List.map_append, List.append_assoc] at hd
    obtain ⟨c1, a1, a2, a3⟩ := nextLoop_skip s sk (fun x hx => he x (by simp [hx])) h2 _ rest c hd
    obtain ⟨c2, o, b1, b2, b3, b4⟩ := nextLoop_event s e (he e (by simp)) h3 _ rest c1 a3
    obtain ⟨c3, os, left, d1, d2, d3, d4, d5, d6, d7⟩ := ih more.length (by rw [← hn]; simp; omega) more
      (fun x hx => he x (by simp [hx])) c2 b4 rfl
    have ho : o ≠ none := by
      unfold Spec.Seen at b1
      rw [if_pos h3] at b1
      obtain ⟨k, -, h⟩ := b1
      rw [h]; simp
    refine ⟨c3, o :: os, left, ?_, .cons b1 d2, ?_, by rw [d4, b3.out, a2.out], ?_, d6, d7⟩
    · have hne : s.nextEvent c = .ok (o, s) c2 := by
        unfold nextEvent
        rw [if_neg (by simp [hs]), a1, b2]
      rw [List.length_cons, BinlogStream.calls]
      simp only [M.bind_apply, hne, MR.bind_ok, d1, M.pure_apply]
    · intro x hx
      rcases List.mem_cons.1 hx with rfl | hx
      · exact ho
      · exact d3 x hx
    · exact d5.trans ((List.suffix_cons e more).trans (List.suffix_append sk _))
  · rw [h2]
    exact ⟨c, [], es, rfl, .nil, by simp, rfl, List.suffix_refl es, h1, hd⟩

theorem calls_succ (s : BinlogStream) (n : Nat) (c : Conn) (os : List (Option Event)) (s' : BinlogStream) (c' : Conn)
    (h : s.calls n c = .ok (os, s') c') :
    s.calls (n + 1) c = (s'.nextEvent c').bind (fun r => pure (os ++ [r.1], r.2)) := by
  induction n generalizing s c os with
  | zero =>
    cases h
    simp only [BinlogStream.calls, M.bind_apply]
    cases s'.nextEvent c' <;> rfl
  | succ n ih =>
    rw [BinlogStream.calls] at h ⊢
    simp only [M.bind_apply] at h ⊢
    cases h1 : s.nextEvent c with
    | ok r c1 =>
      rw [h1] at h
      simp only [MR.bind_ok, M.bind_apply] at h ⊢
      cases h2 : r.2.calls n c1 with
      | ok q c2 =>
        obtain ⟨os2, s2⟩ := q
        rw [h2] at h
        simp only [MR.bind_ok, M.pure_apply] at h
        cases h
        rw [ih r.2 c1 os2 h2]
        cases s'.nextEvent c' <;> rfl
      | err e c2 => rw [h2] at h; cases h
      | panic => rw [h2] at h; cases h
      | hang => rw [h2] at h; cases h
    | err e c2 => rw [h1] at h; cases h
    | panic => rw [h1] at h; cases h
    | hang => rw [h1] at h; cases h

/-- C53: a non-blocking stream that the server ends with an EOF packet: one more call reports the end, having consumed
exactly the stream. (Full claim: every later call reports the end as well; `C53_after_end_false` shows it does not.) -/
theorem C53_end_partial (s : BinlogStream) (hs : s.completed = false) (hb : s.nonBlock = true)
    (es : List Spec.LogEvent) (he : ∀ e ∈ es, e.InRange) (eof rest : Bytes) (c : Conn)
    (hd : Spec.Delivers c.inp (es.map (Spec.streamMessage s.pv4.checksum) ++ [0xfe :: eof]) rest) :
    ∃ c' os s', s.calls ((Spec.visible es).length + 1) c = .ok (os ++ [none], s') c' ∧
      List.Forall₂ (Spec.Seen s.pv4.checksum) (Spec.visible es) os ∧ c'.inp = rest ∧ c'.out = c.out := by
  obtain ⟨c1, os, left, a1, a2, -, a4, a5, a6, a7⟩ := C53_events s hs es he _ rest c hd
  obtain ⟨c2, b1, b2, b3⟩ := nextLoop_skip s left (fun x hx => he x (a5.subset hx)) a6 _ rest c1 a7
  obtain ⟨c3, d1, d2, d3, d4⟩ := Delivers.recv b3
  have hr : s.recvAndParse c2 = .ok .theEnd c3 := by
    unfold recvAndParse
    rw [d1]
    dsimp only
    rw [if_pos (by simp [hb])]
  have hn : s.nextEvent c1 = .ok (none, s) c3 := by
    unfold nextEvent
    rw [if_neg (by simp [hs]), b1, nextLoop.eq_def, hr]
  refine ⟨c3, os, s, ?_, a2, Delivers.nil d3, by rw [d2.out, b2.out, a4]⟩
  rw [calls_succ s _ c os s c1 a1, hn]
  rfl

/-- C53: a stream the server ended at once (request_stream marks it completed) reports the end on every call, without
touching the connection. -/
theorem C53_completed (s : BinlogStream) (hs : s.completed = true) (n : Nat) (c : Conn) :
    s.calls n c = .ok (List.replicate n none, s) c := by
  induction n with
  | zero => rfl
  | succ n ih =>
    have hn : s.nextEvent c = .ok (none, s) c := by
      unfold nextEvent
      rw [if_pos hs]
    rw [BinlogStream.calls]
    simp only [M.bind_apply, hn, MR.bind_ok, ih, M.pure_apply, List.replicate_succ]

/-- C53, the end is not remembered: after `None` the next call reads the connection again. Whatever the server sends
afterwards is returned as another event: here a stream whose end is reported, followed by an event. -/
theorem C53_after_end_false (s : BinlogStream) (hs : s.completed = false) (hb : s.nonBlock = true)
    (eof : Bytes) (e : Spec.LogEvent) (he : e.InRange) (hsup : e.code ∈ Spec.supportedCodes) (rest : Bytes) (c : Conn)
    (hd : Spec.Delivers c.inp [0xfe :: eof, Spec.streamMessage s.pv4.checksum e] rest) :
    ∃ c' x, s.calls 2 c = .ok ([none, some x], s) c' := by
  obtain ⟨c1, d1, d2, d3, d4⟩ := Delivers.recv hd
  have hr : s.recvAndParse c = .ok .theEnd c1 := by
    unfold recvAndParse
    rw [d1]
    dsimp only
    rw [if_pos (by simp [hb])]
  have hn : s.nextEvent c = .ok (none, s) c1 := by
    unfold nextEvent
    rw [if_neg (by simp [hs]), nextLoop.eq_def, hr]
  obtain ⟨c2, o, b1, b2, b3, b4⟩ := nextLoop_event s e he hsup _ rest c1 d3
  have hn2 : s.nextEvent c1 = .ok (o, s) c2 := by
    unfold nextEvent
    rw [if_neg (by simp [hs]), b2]
  unfold Spec.Seen at b1
  rw [if_pos hsup] at b1
  obtain ⟨k, -, rfl⟩ := b1
  refine ⟨c2, ⟨k, ⟨e.timestamp, k, e.serverId, e.len s.pv4.checksum, e.nextPos, e.flags⟩, e.payload⟩, ?_⟩
  simp only [BinlogStream.calls, M.bind_apply, hn, MR.bind_ok, hn2, M.pure_apply]

/-- C53, the same for a connection the server closes after the end: the second call fails with an io error. -/
theorem C53_after_end_error (s : BinlogStream) (hs : s.completed = false) (hb : s.nonBlock = true)
    (eof : Bytes) (c : Conn) (hd : Spec.Delivers c.inp [0xfe :: eof] []) :
    ∃ c', s.calls 2 c = .err .io c' := by
  obtain ⟨c1, d1, d2, d3, d4⟩ := Delivers.recv hd
  have hi := Delivers.nil d3
  have hr : s.recvAndParse c = .ok .theEnd c1 := by
    unfold recvAndParse
    rw [d1]
    dsimp only
    rw [if_pos (by simp [hb])]
  have hn : s.nextEvent c = .ok (none, s) c1 := by
    unfold nextEvent
    rw [if_neg (by simp [hs]), nextLoop.eq_def, hr]
  have hrm : recvMsg c1 = .err .io { c1 with inp := [] } := by
    unfold recvMsg
    rw [hi, recvLoop.eq_def]
  have hn2 : s.nextEvent c1 = .err .io { c1 with inp := [] } := by
    unfold nextEvent
    rw [if_neg (by simp [hs]), nextLoop.eq_def, recvAndParse, hrm]
  refine ⟨{ c1 with inp := [] }, ?_⟩
  simp only [BinlogStream.calls, M.bind_apply, hn, MR.bind_ok, hn2, MR.bind]

/-- C53: a message that is neither an event nor, in a non-blocking stream, the end is an error, never an event. An ERR
packet of the server is such a message: its code and text are lost. -/
theorem C53_other_message (s : BinlogStream) (hs : s.completed = false) (b : UInt8) (t : Bytes) (h0 : b ≠ 0)
    (hb : s.nonBlock = false ∨ b ≠ 0xfe) (ms : List Bytes) (rest : Bytes) (c : Conn)
    (hd : Spec.Delivers c.inp ((b :: t) :: ms) rest) :
    ∃ c', s.nextEvent c = .err .packet c' := by
  obtain ⟨c1, d1, d2, d3, d4⟩ := Delivers.recv hd
  have hr : s.recvAndParse c = .err .packet c1 := by
    unfold recvAndParse
    rw [d1]
    dsimp only
    rw [if_neg (by rcases hb with h | h <;> simp [h]), if_pos h0]
  refine ⟨c1, ?_⟩
  unfold nextEvent
  rw [if_neg (by simp [hs]), nextLoop.eq_def, hr]

/-- an event the server could send; the transaction context event (36) is not supported -/
def exampleStreamEvent (code : Nat) (payload : Bytes) : Spec.LogEvent := ⟨7, code, 1, 120, 0, payload⟩

/-- the hypotheses can be met: two supported events around an unsupported one, then the end -/
example : ∃ (s : BinlogStream) (es : List Spec.LogEvent) (inp : Bytes),
    s.completed = false ∧ s.nonBlock = true ∧ (∀ e ∈ es, e.InRange) ∧ (Spec.visible es).length = 2 ∧ es.length = 3 ∧
    Spec.Delivers inp (es.map (Spec.streamMessage s.pv4.checksum) ++ [[0xfe, 0, 0, 2, 0]]) [] := by
  obtain ⟨inp, h⟩ := delivers_small (([exampleStreamEvent 16 [1, 2, 3, 4, 5, 6, 7, 8], exampleStreamEvent 36 [9],
    exampleStreamEvent 3 []].map (Spec.streamMessage true)) ++ [[0xfe, 0, 0, 2, 0]]) [] (by
      intro m hm
      simp only [List.map_cons, List.map_nil, List.cons_append, List.nil_append, List.mem_cons, List.not_mem_nil,
        or_false] at hm
      rcases hm with rfl | rfl | rfl | rfl <;> simp [Spec.streamMessage, exampleStreamEvent, encode_length,
        Spec.LogEvent.len, Spec.u8])
  refine ⟨⟨⟨[], true⟩, true, false, true⟩, _, inp, rfl, rfl, ?_, by decide, rfl, h⟩
  intro e he
  simp only [List.mem_cons, List.not_mem_nil, or_false] at he
  rcases he with rfl | rfl | rfl <;> (unfold Spec.LogEvent.InRange exampleStreamEvent; simp)

end Mybin
