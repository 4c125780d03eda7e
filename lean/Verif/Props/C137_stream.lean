/-
C137, continued: the stream of the API.
-/
import Verif.Props.C137

namespace Mybin

open Spec (SameOutcome)

theorem recvAndParse_waiting (s : BinlogStream) (c c' : Conn) (v : BinlogStreamEvent)
    (h : ({ s with nonBlock := false } : BinlogStream).recvAndParse c = .ok v c') : s.recvAndParse c = .ok v c' := by
  rcases recvAndParse_wait s false (by intro h; cases h) c with e | ⟨c1, e⟩
  · rw [← e]; exact h
  · exfalso
    unfold BinlogStream.recvAndParse at h e
    cases hr : recvMsg c with
    | ok m c2 =>
      rw [hr] at h e
      cases m with
      | nil => cases h
      | cons b t =>
        dsimp only at h e
        by_cases hb : b = 0xfe
        · subst hb
          rw [if_neg (by decide), if_pos (by decide)] at h
          cases h
        · have hf : (b == 0xfe) = false := by simpa using hb
          rw [hf, Bool.and_false, if_neg (by decide)] at e
          split at e
          · cases e
          · generalize M.parse t (s.pv4.parseEvent s.validateChecksum) c2 = r at e
            cases r with
            | ok o c3 => cases o <;> cases e
            | err => cases e
            | panic => cases e
            | hang => cases e
    | err => rw [hr] at h; cases h
    | panic => rw [hr] at h; cases h
    | hang => rw [hr] at h; cases h

theorem nextLoop_waiting (s s' : BinlogStream) (c c' : Conn) (v : Option Event)
    (h : ({ s with nonBlock := false } : BinlogStream).nextLoop c = .ok (v, s') c') :
    s' = { s with nonBlock := false } ∧ s.nextLoop c = .ok (v, s) c' := by
  induction hn : c.inp.length using Nat.strong_induction_on generalizing c with
  | _ n ih =>
    rw [BinlogStream.nextLoop.eq_def] at h ⊢
    cases hr : ({ s with nonBlock := false } : BinlogStream).recvAndParse c with
    | ok w c1 =>
      rw [hr] at h
      rw [recvAndParse_waiting s c c1 w hr]
      cases w with
      | single e => cases h; exact ⟨rfl, rfl⟩
      | unsupported =>
        dsimp only at h ⊢
        split at h
        · rename_i hlt
          rw [if_pos hlt]
          exact ih _ (by omega) c1 h rfl
        · cases h
      | theEnd => cases h; exact ⟨rfl, rfl⟩
    | err => rw [hr] at h; cases h
    | panic => rw [hr] at h; cases h
    | hang => rw [hr] at h; cases h

theorem nextEvent_waiting (s s' : BinlogStream) (c c' : Conn) (v : Option Event)
    (h : ({ s with nonBlock := false } : BinlogStream).nextEvent c = .ok (v, s') c') :
    s' = { s with nonBlock := false } ∧ s.nextEvent c = .ok (v, s) c' := by
  unfold BinlogStream.nextEvent at h ⊢
  dsimp only at h
  split at h
  · rename_i hc
    rw [if_pos hc]
    cases h
    exact ⟨rfl, rfl⟩
  · rename_i hc
    rw [if_neg hc]
    exact nextLoop_waiting s s' c c' v h

theorem calls_waiting (k : Nat) (s s' : BinlogStream) (c c' : Conn) (o : Bytes) (es : List (Option Event))
    (h : ({ s with nonBlock := false } : BinlogStream).calls k { c with out := o } = .ok (es, s') c') :
    ∃ s2 c2, s.calls k c = .ok (es, s2) c2 ∧ c2.inp = c'.inp := by
  induction k generalizing s c es s' c' o with
  | zero => cases h; exact ⟨s, c, rfl, rfl⟩
  | succ k ih =>
    change ((({ s with nonBlock := false } : BinlogStream).nextEvent { c with out := o }).bind fun p =>
      p.2.calls k >>= fun q => pure (p.1 :: q.1, q.2)) = _ at h
    have hd := Deaf.nextEvent { s with nonBlock := false } c o
    show ∃ s2 c2, ((s.nextEvent c).bind fun p => p.2.calls k >>= fun q => pure (p.1 :: q.1, q.2)) = .ok (es, s2) c2 ∧ _
    generalize hx : ({ s with nonBlock := false } : BinlogStream).nextEvent c = x at hd
    generalize ({ s with nonBlock := false } : BinlogStream).nextEvent { c with out := o } = x' at hd h
    cases hd with
    | ok a c1 o1 =>
      obtain ⟨v, s1⟩ := a
      obtain ⟨e1, e2⟩ := nextEvent_waiting s s1 c c1 v hx
      subst e1
      rw [e2]
      change ((({ s with nonBlock := false } : BinlogStream).calls k { c1 with out := o1 }).bind fun q => pure (v :: q.1, q.2)) = _ at h
      cases hk : ({ s with nonBlock := false } : BinlogStream).calls k { c1 with out := o1 } with
      | ok q c3 =>
        rw [hk] at h
        obtain ⟨qs, qstream⟩ := q
        cases h
        obtain ⟨s2, c2, i1, i2⟩ := ih s _ c1 _ o1 _ hk
        refine ⟨s2, c2, ?_, i2⟩
        show ((s.calls k c1).bind fun q => pure (v :: q.1, q.2)) = _
        rw [i1]
        rfl
      | err => rw [hk] at h; cases h
      | panic => rw [hk] at h; cases h
      | hang => rw [hk] at h; cases h
    | err => cases h
    | panic => cases h
    | hang => cases h

/-- C137: whatever events a stream that waits gives, in any number of calls, the stream that does not wait gives too, for the
same answers of the server, and reads the same bytes for them -/
theorem C137_stream (r : BinlogRequest) (u : Bytes) (n k : Nat) (c c' : Conn) (es : List (Option Event)) (s' : BinlogStream)
    (h : (({ r with nonBlock := false } : BinlogRequest).requestStream u n >>= fun s => s.calls k) c = .ok (es, s') c') :
    ∃ s2 c2, (({ r with nonBlock := true } : BinlogRequest).requestStream u n >>= fun s => s.calls k) c = .ok (es, s2) c2 ∧
      c2.inp = c'.inp := by
  have hw := requestStream_wait { r with nonBlock := true } false u n c
  change WaitAlike false _ (({ r with nonBlock := false } : BinlogRequest).requestStream u n c) at hw
  change ((({ r with nonBlock := false } : BinlogRequest).requestStream u n c).bind fun s => s.calls k) = _ at h
  show ∃ s2 c2, ((({ r with nonBlock := true } : BinlogRequest).requestStream u n c).bind fun s => s.calls k) = _ ∧ _
  generalize ({ r with nonBlock := false } : BinlogRequest).requestStream u n c = x' at hw h
  generalize ({ r with nonBlock := true } : BinlogRequest).requestStream u n c = x at hw
  cases hw with
  | ok s c1 o => exact calls_waiting k s s' c1 c' o es h
  | err => cases h
  | panic => cases h
  | hang => cases h

/-- a server that answers a request and sends two events -/
theorem exampleRequest_answered : exampleRequest.Ok ∧ ∃ (c : Conn) (msgs : List Bytes) (rot e : Spec.LogEvent) (es : List Spec.LogEvent),
    Spec.MasterAnswers (2 ^ 9) 7 (Spec.ascii "CRC32") (Spec.ascii "ON") 1 2 3 msgs ∧
    Spec.RotateTo rot (2 ^ 33) (Spec.ascii "mysql-bin.000003") ∧ Spec.Describes e exampleFde 1 ∧
    (∀ e ∈ es, e.InRange) ∧ (Spec.visible es).length = 2 ∧ c.caps = 2 ^ 9 ∧
    Spec.Delivers c.inp ((msgs ++ [Spec.streamMessage (decide (Spec.ascii "CRC32" = Spec.ascii "CRC32")) rot,
      Spec.streamMessage false e]) ++ es.map (Spec.streamMessage (decide (1 = 1)))) [9] := by
  refine ⟨exampleRequest_ok, ?_⟩
  let tells : Bytes → List Bytes := fun value => Spec.textAnswer (2 ^ 9) [exampleTextDef, exampleTextDef] 0 2
      [[some (Spec.ascii "x"), some value]] (Spec.eofPacket (2 ^ 9) 0 2)
  let accepts : Nat → List Bytes := fun id => Spec.prepareResponse (2 ^ 9) ⟨id, 0⟩ [exampleTextDef] [] 0 2 0 0
    ++ [Spec.okPacket (2 ^ 9) 0 ⟨0, 0, 2, 0, [], []⟩]
  let msgs : List Bytes := [tells (Spec.ascii "7"), accepts 1, tells (Spec.ascii "CRC32"), accepts 2, tells (Spec.ascii "ON"),
    tells (Spec.ascii "u"), accepts 3, [Spec.okPacket (2 ^ 9) 0 ⟨0, 0, 2, 0, [], []⟩]].flatten
  let rot : Spec.LogEvent := ⟨0, 4, 7, 0, 0, Spec.le 8 (2 ^ 33) ++ Spec.ascii "mysql-bin.000003"⟩
  let e : Spec.LogEvent := ⟨0, 15, 7, 0, 0, exampleFde.encode ++ Spec.u8 1 ++ Spec.le 4 5⟩
  let es : List Spec.LogEvent := [⟨1, 16, 7, 100, 0, Spec.le 8 3⟩, ⟨2, 16, 7, 200, 0, Spec.le 8 4⟩]
  obtain ⟨inp, hd⟩ := delivers_small ((msgs ++ [Spec.streamMessage true rot, Spec.streamMessage false e])
    ++ es.map (Spec.streamMessage true)) [9] (by decide +kernel)
  refine ⟨⟨inp, [], 0, 2 ^ 9, 0⟩, msgs, rot, e, es, ?_, ?_, ?_, ?_, by decide +kernel, rfl, ?_⟩
  · exact ⟨Spec.ascii "7", Spec.ascii "u", _, _, _, _, _, _, _, ⟨0, 0, 2, 0, [], []⟩, by decide +kernel, by norm_num,
      by decide +kernel, by decide +kernel, by decide +kernel, example_tells _ (by decide), example_accepts 1 (by norm_num),
      example_tells _ (by decide), example_accepts 2 (by norm_num), example_tells _ (by decide), example_tells _ (by decide),
      example_accepts 3 (by norm_num), by constructor <;> norm_num, rfl⟩
  · exact ⟨by unfold Spec.LogEvent.InRange; decide +kernel, rfl, by norm_num, rfl⟩
  · exact ⟨by unfold Spec.LogEvent.InRange; decide +kernel, exampleFde_ok.1, exampleFde_ok.2, by norm_num, 5, by norm_num, rfl⟩
  · unfold Spec.LogEvent.InRange
    decide +kernel
  · rw [decide_eq_true rfl, decide_eq_true rfl]
    exact hd

/-- a stream that waits and gives two events -/
example : ∃ (c c' : Conn) (es : List (Option Event)) (s' : BinlogStream), es.length = 2 ∧ (∀ e ∈ es, e ≠ none) ∧
    (({ exampleRequest with nonBlock := false } : BinlogRequest).requestStream (List.replicate 36 0x61) 5 >>= fun s => s.calls 2) c
      = .ok (es, s') c' := by
  obtain ⟨ok, c, msgs, rot, e, es, h1, h2, h3, h4, h5, h6, h7⟩ := exampleRequest_answered
  obtain ⟨s, c1, c2, os, a1, a2, a3, a4, -⟩ := C74_events_partial { exampleRequest with nonBlock := false }
    ⟨ok.1, ok.2, ok.3, ok.4, ok.5, ok.6, ok.7⟩ (List.replicate 36 0x61) (by decide +kernel) 5 (by norm_num) (2 ^ 9) 7 (Spec.ascii "CRC32")
    (Spec.ascii "ON") (by decide +kernel) (by decide +kernel) (fun h => absurd rfl h) 1 2 3 msgs h1 rot _ _ h2 e exampleFde 1 h3 es h4
    c h6 [9] h7
  refine ⟨c, c2, os, s, by rw [← a3.length_eq, h5], a4, ?_⟩
  show ((({ exampleRequest with nonBlock := false } : BinlogRequest).requestStream (List.replicate 36 0x61) 5 c).bind fun s => s.calls 2) = _
  rw [a1]
  rw [h5] at a2
  exact a2

end Mybin
