/-
C137: how far a run is to go decides only where its output stops.
-/
import Verif.Props.C136
import Verif.Props.C43

namespace Mybin

open Spec (SameOutcome)

/-! ### streams that wait and streams that do not -/

/-- another stream in the result of `next_event` -/
def reStream (s' : BinlogStream) (r : MR (Option Event × BinlogStream)) : MR (Option Event × BinlogStream) :=
  r.bind fun p => pure (p.1, s')

theorem recvAndParse_wait (s : BinlogStream) (b : Bool) (hb : b = true → s.nonBlock = true) (c : Conn) :
    ({ s with nonBlock := b } : BinlogStream).recvAndParse c = s.recvAndParse c ∨ ∃ c', s.recvAndParse c = .ok .theEnd c' := by
  unfold BinlogStream.recvAndParse
  cases hr : recvMsg c with
  | ok m c' =>
    cases m with
    | nil => exact .inl rfl
    | cons x t =>
      dsimp only
      cases hn : s.nonBlock with
      | false =>
        have : b = false := by cases b with
          | false => rfl
          | true => rw [hb rfl] at hn; cases hn
        subst this
        exact .inl rfl
      | true =>
        cases hx : x == 0xfe with
        | true => exact .inr ⟨c', rfl⟩
        | false => rw [Bool.and_false, Bool.and_false]; exact .inl rfl
  | err e c' => exact .inl rfl
  | panic => exact .inl rfl
  | hang => exact .inl rfl

theorem nextLoop_wait (s : BinlogStream) (b : Bool) (hb : b = true → s.nonBlock = true) (c : Conn) :
    (({ s with nonBlock := b } : BinlogStream).nextLoop c = reStream { s with nonBlock := b } (s.nextLoop c) ∧
      ∀ e s2 c', s.nextLoop c = .ok (e, s2) c' → s2 = s) ∨ ∃ s2 c', s.nextLoop c = .ok (none, s2) c' := by
  induction hn : c.inp.length using Nat.strong_induction_on generalizing c with
  | _ n ih =>
    rcases recvAndParse_wait s b hb c with h | ⟨c', h⟩
    · rw [BinlogStream.nextLoop.eq_def, BinlogStream.nextLoop.eq_def s, h]
      cases hr : s.recvAndParse c with
      | ok v c' =>
        cases v with
        | single e =>
          left
          refine ⟨rfl, ?_⟩
          intro e2 s2 c2 h2
          dsimp only at h2
          cases h2
          rfl
        | unsupported =>
          dsimp only
          split
          · exact ih _ (by omega) c' rfl
          · left
            refine ⟨rfl, ?_⟩
            intro e2 s2 c2 h2
            cases h2
        | theEnd => exact .inr ⟨_, _, rfl⟩
      | err e c' => left; refine ⟨rfl, ?_⟩; intro e2 s2 c2 h2; dsimp only at h2; cases h2
      | panic => left; refine ⟨rfl, ?_⟩; intro e2 s2 c2 h2; dsimp only at h2; cases h2
      | hang => left; refine ⟨rfl, ?_⟩; intro e2 s2 c2 h2; dsimp only at h2; cases h2
    · right
      rw [BinlogStream.nextLoop.eq_def, h]
      exact ⟨_, _, rfl⟩

theorem nextEvent_wait (s : BinlogStream) (b : Bool) (hb : b = true → s.nonBlock = true) (c : Conn) :
    (({ s with nonBlock := b } : BinlogStream).nextEvent c = reStream { s with nonBlock := b } (s.nextEvent c) ∧
      ∀ e s2 c', s.nextEvent c = .ok (e, s2) c' → s2 = s) ∨ ∃ s2 c', s.nextEvent c = .ok (none, s2) c' := by
  unfold BinlogStream.nextEvent
  dsimp only
  split
  · exact .inr ⟨_, _, rfl⟩
  · exact nextLoop_wait s b hb c

/-- the beginning of what another run prints, and all of it with the same end unless it stops by itself -/
def Spec.BeginningOf {α : Type} (a b : List α × DmlEnd) : Prop := a.1 <+: b.1 ∧ (a.2 ≠ .done → a = b)

theorem beginning_refl {α : Type} (a : List α × DmlEnd) : Spec.BeginningOf a a := ⟨List.prefix_rfl, fun _ => rfl⟩

theorem beginning_done {α : Type} (b : List α × DmlEnd) : Spec.BeginningOf ([], .done) b :=
  ⟨List.nil_prefix, fun h => absurd rfl h⟩

theorem beginning_trans {α : Type} {a b c : List α × DmlEnd} (h : Spec.BeginningOf a b) (h' : Spec.BeginningOf b c) :
    Spec.BeginningOf a c := by
  refine ⟨h.1.trans h'.1, fun hd => ?_⟩
  have := h.2 hd
  rw [this] at hd ⊢
  exact h'.2 hd

theorem dmlLoop_further (ft : FloatText) (file : Bytes) (u u' : Bool) (df tf : Option (Bytes → Bool)) (nb nb' : Bool)
    (limit : Nat) (hu : u = true → u' = true) (b : Bool) (s : BinlogStream) (hb : b = true → s.nonBlock = true) (st : DmlState)
    (c : Conn) :
    Spec.BeginningOf (dmlLoop ft ⟨file, u, df, tf, nb, limit⟩ s st c)
      (dmlLoop ft ⟨file, u', df, tf, nb', limit⟩ { s with nonBlock := b } st c) := by
  induction hn : c.inp.length using Nat.strong_induction_on generalizing c st with
  | _ n ih =>
    rw [dmlLoop.eq_def, dmlLoop.eq_def ft ⟨file, u', df, tf, nb', limit⟩]
    rcases nextEvent_wait s b hb c with ⟨h, hs⟩ | ⟨s2, c', h⟩
    · rw [h]
      cases hr : s.nextEvent c with
      | ok v c' =>
        obtain ⟨e, s2⟩ := v
        have : s2 = s := hs _ _ _ hr
        subst this
        cases e with
        | none => exact beginning_done _
        | some ev =>
          have he : onEvent ft ⟨file, u', df, tf, nb', limit⟩ st ev = onEvent ft ⟨file, u, df, tf, nb, limit⟩ st ev ∨
              onEvent ft ⟨file, u, df, tf, nb, limit⟩ st ev = ([], .stop) := by
            unfold onEvent
            cases ev.kind <;> try exact .inl rfl
            cases u with
            | false => exact .inr rfl
            | true => rw [hu rfl]; exact .inl rfl
          show Spec.BeginningOf _ (match onEvent ft ⟨file, u', df, tf, nb', limit⟩ st ev with
            | (out, .go st') =>
              if c'.inp.length < c.inp.length then
                let r := dmlLoop ft ⟨file, u', df, tf, nb', limit⟩ { s2 with nonBlock := b } st' c'
                (out ++ r.1, r.2)
              else (out, .hang)
            | (out, .stop) => (out, .done)
            | (out, .err e) => (out, .err e)
            | (out, .panic) => (out, .panic)
            | (out, .hang) => (out, .hang))
          dsimp only
          rcases he with he | he
          · rw [he]
            rcases onEvent ft ⟨file, u, df, tf, nb, limit⟩ st ev with ⟨out, nx⟩
            cases nx with
            | go st' =>
              dsimp only
              split
              · obtain ⟨i1, i2⟩ := ih _ (by omega) st' c' rfl
                refine ⟨(List.prefix_append_right_inj out).2 i1, fun hd => ?_⟩
                rw [i2 hd]
              · exact beginning_refl _
            | stop => exact beginning_refl _
            | err e => exact beginning_refl _
            | panic => exact beginning_refl _
            | hang => exact beginning_refl _
          · rw [he]
            exact beginning_done _
      | err e c' => exact beginning_refl _
      | panic => exact beginning_refl _
      | hang => exact beginning_refl _
    · rw [h]
      exact beginning_done _

/-! ### the request -/

/-- the streams of two requests that differ in whether to wait -/
inductive WaitAlike (b : Bool) : MR BinlogStream → MR BinlogStream → Prop where
  | ok (s : BinlogStream) (c : Conn) (o : Bytes) : WaitAlike b (.ok s c) (.ok { s with nonBlock := b } { c with out := o })
  | err (e : Err) (c : Conn) (o : Bytes) : WaitAlike b (.err e c) (.err e { c with out := o })
  | panic : WaitAlike b .panic .panic
  | hang : WaitAlike b .hang .hang

theorem WaitAlike.bind {α : Type} {b : Bool} {x x' : MR α} {f f' : α → M BinlogStream} (h : SameOutcome x x')
    (hf : ∀ a c o, WaitAlike b (f a c) (f' a { c with out := o })) : WaitAlike b (x.bind f) (x'.bind f') := by
  cases h with
  | ok a c o => exact hf a c o
  | err e c o => exact .err e c o
  | panic => exact .panic
  | hang => exact .hang

theorem firstEvents_wait (r : BinlogRequest) (b k : Bool) (c : Conn) (o : Bytes) :
    WaitAlike b (r.firstEvents k c) (({ r with nonBlock := b } : BinlogRequest).firstEvents k { c with out := o }) := by
  unfold BinlogRequest.firstEvents
  refine WaitAlike.bind (Deaf.recvMsg c o) fun msg c o => ?_
  cases msg with
  | nil => exact .err _ _ _
  | cons x t =>
    dsimp only
    split
    · unfold failWithErrPacket
      refine WaitAlike.bind (Deaf.getCaps c o) fun caps c o => ?_
      exact WaitAlike.bind (Deaf.parse _ _ c o) fun p c o => .err _ _ _
    · split
      · refine WaitAlike.bind (Deaf.getCaps c o) fun caps c o => ?_
        refine WaitAlike.bind (Deaf.parse _ _ c o) fun _ c o => ?_
        exact .ok ⟨⟨[], false⟩, r.validateChecksum, true, r.nonBlock⟩ c o
      · split
        · refine WaitAlike.bind (Deaf.parse _ _ c o) fun _ c o => ?_
          refine WaitAlike.bind (Deaf.recvMsg c o) fun msg c o => ?_
          refine WaitAlike.bind (Deaf.parse _ _ c o) fun f c o => ?_
          exact .ok ⟨f.1, r.validateChecksum, false, r.nonBlock⟩ c o
        · exact .err _ _ _

theorem dump_wait_lengths (r : BinlogRequest) (b : Bool) (i : Nat) (g : Bytes) :
    (r.dumpBytes i g).length = (({ r with nonBlock := b } : BinlogRequest).dumpBytes i g).length := by
  unfold BinlogRequest.dumpBytes
  split
  · rcases r with ⟨file, pos, id, sids, nb, vc, hb⟩
    cases nb <;> cases b <;> cases hs : sids.isEmpty <;>
    simp [ComBinlogDumpGtid.writeTo, ComBinlogDumpGtid.nonBlock, ComBinlogDumpGtid.useGtid, SidData.writeTo, hs, Spec.length_u8, writeU8_spec,
      writeBytes_spec, writeLeU32_spec, writeLeU16_spec, writeLeU64_spec, writeSids_spec, List.length_append, Spec.length_le]
  · simp only [ComBinlogDump.writeTo, ComBinlogDump.nonBlock, writeU8_spec, writeBytes_spec, writeLeU32_spec, writeLeU16_spec,
      List.length_append, Spec.length_le]

theorem requestStream_wait (r : BinlogRequest) (b : Bool) (u : Bytes) (n : Nat) (c : Conn) :
    WaitAlike b (r.requestStream u n c) (({ r with nonBlock := b } : BinlogRequest).requestStream u n c) := by
  unfold BinlogRequest.requestStream
  have hs : ({ r with nonBlock := b } : BinlogRequest).setup u n = r.setup u n := rfl
  rw [hs]
  refine WaitAlike.bind (b := b) (Deaf.setup r u n c c.out) fun s c o => ?_
  refine WaitAlike.bind (sendMsg_lengths _ _ true (dump_wait_lengths r b s.2.2 s.2.1) c o) fun _ c o => ?_
  exact firstEvents_wait r b _ c o

theorem waitAlike_nonBlock {b : Bool} {x y : MR BinlogStream} (h : WaitAlike b x y) (s : BinlogStream) (c : Conn)
    (e : y = .ok s c) : s.nonBlock = b := by
  cases h with
  | ok s c o => cases e; rfl
  | err => cases e
  | panic => cases e
  | hang => cases e

theorem requestStream_nonBlock (r : BinlogRequest) (u : Bytes) (n : Nat) (c : Conn) :
    ∀ s c', r.requestStream u n c = .ok s c' → s.nonBlock = r.nonBlock := by
  have h := requestStream_wait r r.nonBlock u n c
  change WaitAlike r.nonBlock _ (r.requestStream u n c) at h
  intro s c' e
  exact waitAlike_nonBlock h s c' e

theorem printDmls_further (ft : FloatText) (file : Bytes) (u u' : Bool) (df tf : Option (Bytes → Bool)) (nb nb' : Bool)
    (limit : Nat) (hu : u = true → u' = true) (hb : nb' = true → nb = true) (uuid : Bytes) (random : Nat) (conn helper : Conn) :
    Spec.BeginningOf (printDmls ft ⟨file, u, df, tf, nb, limit⟩ uuid random conn helper)
      (printDmls ft ⟨file, u', df, tf, nb', limit⟩ uuid random conn helper) := by
  have h := requestStream_wait (DmlOpts.request ⟨file, u, df, tf, nb, limit⟩) nb' uuid random conn
  have hnb := requestStream_nonBlock (DmlOpts.request ⟨file, u, df, tf, nb, limit⟩) uuid random conn
  change WaitAlike nb' _ ((DmlOpts.request ⟨file, u', df, tf, nb', limit⟩).requestStream uuid random conn) at h
  unfold printDmls
  generalize (DmlOpts.request ⟨file, u, df, tf, nb, limit⟩).requestStream uuid random conn = x at h hnb
  generalize (DmlOpts.request ⟨file, u', df, tf, nb', limit⟩).requestStream uuid random conn = x' at h
  cases h with
  | ok s c o =>
    dsimp only
    have ha := dmlLoop_alike ft ⟨file, u', df, tf, nb', limit⟩ { s with nonBlock := nb' } ⟨[], [], 0, helper⟩ c o helper.out
    change dmlLoop ft ⟨file, u', df, tf, nb', limit⟩ { s with nonBlock := nb' } ⟨[], [], 0, helper⟩ { c with out := o } = _ at ha
    rw [ha]
    exact dmlLoop_further ft file u u' df tf nb nb' limit hu nb' s (fun h => by rw [hnb s c rfl]; exact hb h) _ c
  | err e c o => exact beginning_refl _
  | panic => exact beginning_refl _
  | hang => exact beginning_refl _

theorem upTo_prefix (n : Nat) (ls : List DmlLine) : upTo n ls <+: ls := by
  induction ls generalizing n with
  | nil => rw [upTo_nil]
  | cons l ls ih =>
    cases n with
    | zero => rw [upTo_zero]; exact List.nil_prefix
    | succ n =>
      cases l with
      | stmt s => rw [upTo]; exact (List.prefix_cons_inj _).2 (ih n)
      | note d t p => rw [upTo]; exact (List.prefix_cons_inj _).2 (ih (n + 1))

theorem upTo_upTo (n m : Nat) (h : n ≤ m) (ls : List DmlLine) : upTo n ls <+: upTo m ls := by
  have : upTo n ls = upTo n (upTo m ls) := by
    induction ls generalizing n m with
    | nil => rw [upTo_nil, upTo_nil, upTo_nil]
    | cons l ls ih =>
      cases n with
      | zero => rw [upTo_zero, upTo_zero]
      | succ n =>
        cases m with
        | zero => omega
        | succ m =>
          cases l with
          | stmt s => rw [upTo, upTo, upTo, ih n m (by omega)]
          | note d t p => rw [upTo, upTo, upTo, ih (n + 1) (m + 1) h]
  rw [this]
  exact upTo_prefix _ _

theorem printDmls_limits (ft : FloatText) (file : Bytes) (u : Bool) (df tf : Option (Bytes → Bool)) (nb : Bool)
    (limit limit' : Nat) (hl : limit' = 0 ∨ limit ≠ 0 ∧ limit ≤ limit') (uuid : Bytes) (random : Nat) (conn helper : Conn) :
    Spec.BeginningOf (printDmls ft ⟨file, u, df, tf, nb, limit⟩ uuid random conn helper)
      (printDmls ft ⟨file, u, df, tf, nb, limit'⟩ uuid random conn helper) := by
  by_cases h0 : limit = 0
  · have : limit' = 0 := by omega
    rw [h0, this]
    exact beginning_refl _
  have h1 := C43_limit ft ⟨file, u, df, tf, nb, limit⟩ uuid random conn helper h0
  dsimp only at h1
  rw [h1]
  by_cases h0' : limit' = 0
  · rw [h0']
    refine ⟨upTo_prefix _ _, fun hd => ?_⟩
    dsimp only at hd
    split at hd
    · exact absurd rfl hd
    · rename_i hs
      rw [upTo_all _ _ (by omega), if_neg hs]
  · have h2 := C43_limit ft ⟨file, u, df, tf, nb, limit'⟩ uuid random conn helper h0'
    dsimp only at h2
    rw [h2]
    refine ⟨upTo_upTo _ _ (by omega) _, fun hd => ?_⟩
    dsimp only at hd
    split at hd
    · exact absurd rfl hd
    · rename_i hs
      rw [upTo_all _ _ (by omega), if_neg hs, upTo_all _ _ (by omega), if_neg (by omega)]

/-! ### the theorem -/

/-- C137: a run that is told to follow the log to the next file, to wait for more or to print more statements prints
everything that the run without prints, in the same order, before anything else; and unless the shorter run stops by
itself, both are the same to the end. -/
theorem C137_mybinlog (w : World) (host port user password file : Bytes) (df tf : Option Bytes)
    (untilNow untilNow' block block' : Bool) (limit limit' : Nat) (hu : untilNow = true → untilNow' = true)
    (hb : block = true → block' = true) (hl : limit' = 0 ∨ limit ≠ 0 ∧ limit ≤ limit') :
    let short := mybinlog w ⟨host, port, user, password, .dml file untilNow df tf block limit⟩
    let long := mybinlog w ⟨host, port, user, password, .dml file untilNow' df tf block' limit'⟩
    short.lines <+: long.lines ∧ (short.theEnd ≠ .done → short.lines = long.lines ∧ short.theEnd = long.theEnd) := by
  dsimp only
  unfold mybinlog
  dsimp only
  cases connect w 0 host port user password with
  | ok _ conn =>
    dsimp only
    cases connect w 1 host port user password with
    | ok _ helper =>
      dsimp only
      cases compileFilter w df with
      | none => exact ⟨List.prefix_rfl, fun _ => ⟨rfl, rfl⟩⟩
      | some df =>
        dsimp only
        cases compileFilter w tf with
        | none => exact ⟨List.prefix_rfl, fun _ => ⟨rfl, rfl⟩⟩
        | some tf =>
          dsimp only
          obtain ⟨h1, h2⟩ := beginning_trans
            (printDmls_further w.ft file untilNow untilNow' df tf (!block) (!block') limit hu
              (by intro h; cases block with
                | false => rfl
                | true => rw [hb rfl] at h; cases h) w.uuid w.random conn helper)
            (printDmls_limits w.ft file untilNow' df tf (!block') limit limit' hl w.uuid w.random conn helper)
          exact ⟨h1.map _, fun hd => ⟨congrArg (fun r => r.1.map ProgLine.dml) (h2 hd), congrArg Prod.snd (h2 hd)⟩⟩
    | err e c => exact ⟨List.prefix_rfl, fun _ => ⟨rfl, rfl⟩⟩
    | panic => exact ⟨List.prefix_rfl, fun _ => ⟨rfl, rfl⟩⟩
    | hang => exact ⟨List.prefix_rfl, fun _ => ⟨rfl, rfl⟩⟩
  | err e c => exact ⟨List.prefix_rfl, fun _ => ⟨rfl, rfl⟩⟩
  | panic => exact ⟨List.prefix_rfl, fun _ => ⟨rfl, rfl⟩⟩
  | hang => exact ⟨List.prefix_rfl, fun _ => ⟨rfl, rfl⟩⟩

/-- the run for one file and three statements, and the one that goes on; by `C43_limit` and `C129_files_partial` there are logs
for which the second prints more -/
example (w : World) (host port user password file : Bytes) :
    (mybinlog w ⟨host, port, user, password, .dml file false none none false 3⟩).lines <+:
      (mybinlog w ⟨host, port, user, password, .dml file true none none true 0⟩).lines :=
  (C137_mybinlog w host port user password file none none false true false true 3 0 (by decide) (by decide) (.inl rfl)).1

end Mybin
