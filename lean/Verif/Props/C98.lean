/-
C98: a log read from a file and the same log read from the server give the same events and the same end.
-/
import Verif.Props.C74
import Verif.Props.C86

namespace Mybin
open BinlogStream

/-! ### the specification -/

/-- how reading a log ends -/
inductive Spec.LogEnd where
  /-- the log is over -/
  | finished
  /-- a call returned an error, which ends the reading -/
  | failed (e : Err)
  | panicked
  deriving DecidableEq, Repr

/-- the bytes of one stored event, whatever they say: a header whose length field is right. The type may be unknown,
the checksum wrong, the payload nonsense. -/
def Spec.Whole (b : List UInt8) : Prop := 19 ≤ b.length ∧ Spec.announced b = b.length

/-- Reading the events of a file: `parse_event` until nothing is left, keeping the events it returns and going on after
`None`; the first error ends the reading. `FileReads p v log xs e`: the events are `xs` and the end is `e`. -/
inductive FileReads (p : ParserV4) (v : Bool) : Bytes → List Event → Spec.LogEnd → Prop
  | finished : FileReads p v [] [] .finished
  | event {log rest x xs e} : log ≠ [] → p.parseEvent v log = .ok (some x) rest → FileReads p v rest xs e →
      FileReads p v log (x :: xs) e
  | skipped {log rest xs e} : log ≠ [] → p.parseEvent v log = .ok none rest → FileReads p v rest xs e →
      FileReads p v log xs e
  | failed {log e rest} : log ≠ [] → p.parseEvent v log = .err e rest → FileReads p v log [] (.failed e)
  | panicked {log} : log ≠ [] → p.parseEvent v log = .panic → FileReads p v log [] .panicked

/-- Reading the events of a stream: `next_event` until it returns `None`; the first error ends the reading. -/
inductive StreamReads : BinlogStream → Conn → List Event → Spec.LogEnd → Prop
  | finished {s s' c c'} : s.nextEvent c = .ok (none, s') c' → StreamReads s c [] .finished
  | event {s s' c c' x xs e} : s.nextEvent c = .ok (some x, s') c' → StreamReads s' c' xs e → StreamReads s c (x :: xs) e
  | failed {s c e c'} : s.nextEvent c = .err e c' → StreamReads s c [] (.failed e)
  | panicked {s c} : s.nextEvent c = .panic → StreamReads s c [] .panicked

/-- Reading a whole binlog file: the parser is made from its beginning, then the events are read. -/
inductive FileLog (v : Bool) : Bytes → List Event → Spec.LogEnd → Prop
  | opened {file p log xs e} : ParserV4.fromBinlogFile file = .ok p log → FileReads p v log xs e → FileLog v file xs e
  | failed {file e rest} : ParserV4.fromBinlogFile file = .err e rest → FileLog v file [] (.failed e)
  | panicked {file} : ParserV4.fromBinlogFile file = .panic → FileLog v file [] .panicked

/-- Reading a log from the server, from the answer to the dump command on: the stream is made from the first two
events, then the others are read. `crc` says whether the server said it writes checksums. -/
inductive StreamLog (r : BinlogRequest) (crc : Bool) : Conn → List Event → Spec.LogEnd → Prop
  | opened {c s c' xs e} : r.firstEvents crc c = .ok s c' → StreamReads s c' xs e → StreamLog r crc c xs e
  | failed {c e c'} : r.firstEvents crc c = .err e c' → StreamLog r crc c [] (.failed e)
  | panicked {c} : r.firstEvents crc c = .panic → StreamLog r crc c [] .panicked

/-! ### what a reader does depends on what it needs -/

/-- more input behind -/
def R.plus {α : Type} (m : Bytes) : R α → R α
  | .ok a r => .ok a (r ++ m)
  | .err e r => .err e (r ++ m)
  | .panic => .panic
  | .hang => .hang

/-- the reader does the same on `b` whatever follows, and consumes `k` bytes when it succeeds -/
def AsIf {α : Type} (p : P α) (b : Bytes) (k : Nat) : Prop :=
  (∀ m, p (b ++ m) = (p b).plus m) ∧ ∀ a r, p b = .ok a r → r = b.drop k

namespace AsIf
variable {α β : Type}

theorem bind {x : P α} {f : α → P β} {b : Bytes} {k l : Nat} (hx : AsIf x b k)
    (hf : ∀ a, x b = .ok a (b.drop k) → AsIf (f a) (b.drop k) l) : AsIf (x >>= f) b (k + l) := by
  constructor
  · intro m
    rw [P.bind_apply, P.bind_apply, hx.1 m]
    cases h : x b with
    | ok a r =>
      have hr := hx.2 a r h
      subst hr
      exact (hf a h).1 m
    | err e r => rfl
    | panic => rfl
    | hang => rfl
  · intro a r h
    rw [P.bind_eq_ok] at h
    obtain ⟨a1, r1, h1, h2⟩ := h
    have hr := hx.2 a1 r1 h1
    subst hr
    have := (hf a1 h1).2 a r h2
    rw [this, List.drop_drop]

theorem pure (a : α) (b : Bytes) : AsIf (pure a : P α) b 0 :=
  ⟨fun _ => rfl, fun _ _ h => by cases h; rfl⟩

theorem fail (e : Err) (b : Bytes) (k : Nat) : AsIf (P.fail e : P α) b k :=
  ⟨fun _ => rfl, fun _ _ h => by cases h⟩

theorem panic (b : Bytes) (k : Nat) : AsIf (P.panic : P α) b k :=
  ⟨fun _ => rfl, fun _ _ h => by cases h⟩

theorem orErr (o : Option α) (e : Err) (b : Bytes) : AsIf (P.orErr o e) b 0 := by
  cases o
  · exact fail e b 0
  · exact pure _ b

theorem ofFixed {k : Nat} {val : Bytes → α} {r : P α} (h : FixedRead k val r) {b : Bytes} (hb : k ≤ b.length) :
    AsIf r b k := by
  constructor
  · intro m
    rw [(h (b ++ m)).1 (by simp; omega), (h b).1 hb, List.take_append_of_le_length hb, List.drop_append_of_le_length hb]
    rfl
  · intro a r' hr
    rw [(h b).1 hb] at hr
    cases hr; rfl

theorem readLen {n : Nat} {b : Bytes} (hb : n ≤ b.length) : AsIf (readLen n) b n := by
  constructor
  · intro m
    unfold Mybin.readLen
    rw [if_neg (by simp; omega), if_neg (by omega), List.take_append_of_le_length hb, List.drop_append_of_le_length hb]
    rfl
  · intro a r hr
    unfold Mybin.readLen at hr
    rw [if_neg (by omega)] at hr
    cases hr; rfl

theorem peek {p : P α} {b : Bytes} {k : Nat} (h : AsIf p b k) : AsIf (P.peek p) b 0 := by
  constructor
  · intro m
    rw [P.peek_eq, P.peek_eq, h.1 m]
    cases p b <;> rfl
  · intro a r hr
    rw [P.peek_eq] at hr
    cases h : p b <;> rw [h] at hr <;> cases hr
    rfl

theorem onSub (sub : Bytes) (p : P α) (b : Bytes) : AsIf (P.onSub sub p) b 0 := by
  constructor
  · intro m
    unfold P.onSub
    cases p sub <;> rfl
  · intro a r hr
    unfold P.onSub at hr
    cases h : p sub <;> rw [h] at hr <;> cases hr
    rfl

theorem mono {p : P α} {b : Bytes} {k l : Nat} (h : AsIf p b k) (e : k = l) : AsIf p b l := e ▸ h

theorem header {b : Bytes} (hb : 19 ≤ b.length) : AsIf EventHeader.readFrom b 19 := by
  unfold EventHeader.readFrom EventHeaderV1.readFrom
  refine mono (k := (4 + (1 + (4 + (4 + (0 + 0))))) + (4 + (2 + 0))) ?_ rfl
  refine bind (bind (ofFixed (fixedRead_readFixed 4 leVal) (by omega)) fun _ _ =>
    bind (ofFixed fixedRead_u8 (by simp; omega)) fun _ _ =>
    bind (ofFixed (fixedRead_readFixed 4 leVal) (by simp; omega)) fun _ _ =>
    bind (ofFixed (fixedRead_readFixed 4 leVal) (by simp; omega)) fun _ _ =>
    bind (orErr _ _ _) fun _ _ => pure _ _) fun _ _ =>
    bind (ofFixed (fixedRead_readFixed 4 leVal) (by simp; omega)) fun _ _ =>
    bind (ofFixed (fixedRead_readFixed 2 leVal) (by simp; omega)) fun _ _ => pure _ _

end AsIf

theorem Whole.eventLen {b : Bytes} (hb : Spec.Whole b) {h : EventHeader} {r : Bytes}
    (hh : EventHeader.readFrom b = .ok h r) : h.eventLen = b.length := by
  obtain ⟨hd, h1, h2⟩ := header_ok b (header_inv b r h hh)
  rw [h1] at hh
  cases hh
  rw [h2, hb.2]

theorem AsIf.dataLen {b : Bytes} {h : EventHeader} (hl : 19 ≤ h.eventLen) : AsIf h.dataLen b 0 := by
  unfold EventHeader.dataLen
  rw [if_neg (by omega)]
  exact AsIf.pure _ _

theorem AsIf.verifyChecksum {b : Bytes} (hb : Spec.Whole b) : AsIf ParserV4.verifyChecksum b 0 := by
  unfold ParserV4.verifyChecksum
  refine AsIf.mono (k := 0 + (0 + 0)) ?_ rfl
  refine AsIf.bind (AsIf.peek (AsIf.header hb.1)) fun h hh => ?_
  have hl : h.eventLen = b.length := by
    rw [P.peek_eq] at hh
    cases e : EventHeader.readFrom b <;> rw [e] at hh <;> cases hh
    exact Whole.eventLen hb e
  refine AsIf.bind (AsIf.peek (AsIf.readLen (by simp [hl]))) fun raw _ => ?_
  split
  · exact AsIf.panic _ _
  · dsimp only
    split
    · exact AsIf.fail _ _ _
    · exact AsIf.pure _ _

/-- `parse_event` does with an event the same whatever follows it -/
theorem AsIf.parseEvent (p : ParserV4) (v : Bool) {b : Bytes} (hb : Spec.Whole b) :
    AsIf (p.parseEvent v) b b.length := by
  unfold ParserV4.parseEvent
  have h19 := hb.1
  refine AsIf.mono (k := 0 + (19 + (0 + (b.length - 19 + (0 + 0))))) ?_ (by omega)
  refine AsIf.bind ?_ fun _ _ => ?_
  · split
    · exact AsIf.verifyChecksum hb
    · exact AsIf.pure _ _
  rw [List.drop_zero]
  refine AsIf.bind (AsIf.header hb.1) fun h hh => ?_
  have hl := Whole.eventLen hb hh
  refine AsIf.bind (AsIf.dataLen (by omega)) fun n hn => ?_
  have : n = b.length - 19 := by
    rw [dataLen_ok h (by omega)] at hn
    cases hn
    rw [hl]
  subst this
  refine AsIf.bind (AsIf.readLen (by simp)) fun data _ => ?_
  refine AsIf.bind ?_ fun data' _ => ?_
  · split
    · split
      · exact AsIf.panic _ _
      · exact AsIf.pure _ _
    · exact AsIf.pure _ _
  · split
    · exact AsIf.pure _ _
    · exact AsIf.pure _ _

/-- the same for making the parser -/
theorem AsIf.fromFdeBytes {b : Bytes} (hb : Spec.Whole b) : AsIf ParserV4.fromFdeBytes b b.length := by
  unfold ParserV4.fromFdeBytes
  have h19 := hb.1
  refine AsIf.mono (k := 19 + (0 + (b.length - 19 + (0 + 0)))) ?_ (by omega)
  refine AsIf.bind (AsIf.header hb.1) fun h hh => ?_
  have hl := Whole.eventLen hb hh
  refine AsIf.bind (AsIf.dataLen (by omega)) fun n hn => ?_
  have : n = b.length - 19 := by
    rw [dataLen_ok h (by omega)] at hn
    cases hn
    rw [hl]
  subst this
  refine AsIf.bind (AsIf.readLen (by simp)) fun data _ => ?_
  exact AsIf.bind (AsIf.onSub _ _ _) fun _ _ => AsIf.pure _ _

/-! ### the events -/

/-- what `next_event` makes of one stored event -/
theorem next_whole (s : BinlogStream) (hs : s.completed = false) (b : Bytes) (ms : List Bytes) (rest : Bytes)
    (c : Conn) (hd : Spec.Delivers c.inp ((0 :: b) :: ms) rest) :
    ∃ c', Moved c c' ∧ Spec.Delivers c'.inp ms rest ∧
      match s.pv4.parseEvent s.validateChecksum b with
      | .ok (some x) _ => s.nextEvent c = .ok (some x, s) c'
      | .ok none _ => s.nextEvent c = s.nextEvent c'
      | .err e _ => s.nextEvent c = .err e c'
      | .panic => s.nextEvent c = .panic
      | .hang => s.nextEvent c = .hang := by
  obtain ⟨c', h1, h2, h3, h4⟩ := Delivers.recv hd
  refine ⟨c', h2, h3, ?_⟩
  have hn : ∀ c, s.nextEvent c = s.nextLoop c := fun c => by
    unfold BinlogStream.nextEvent
    rw [if_neg (by simp [hs])]
  rw [hn, hn, nextLoop.eq_def]
  unfold recvAndParse
  rw [h1]
  dsimp only
  rw [if_neg (by simp), if_neg (by simp)]
  unfold M.parse
  cases h : s.pv4.parseEvent s.validateChecksum b with
  | ok o r =>
    cases o with
    | none =>
      dsimp only
      rw [if_pos h4]
    | some x => rfl
  | err e r => rfl
  | panic => rfl
  | hang => rfl

theorem next_end (s : BinlogStream) (hs : s.completed = false) (hb : s.nonBlock = true) (eof : Bytes)
    (rest : Bytes) (c : Conn) (hd : Spec.Delivers c.inp [0xfe :: eof] rest) :
    ∃ c', s.nextEvent c = .ok (none, s) c' := by
  obtain ⟨c', h1, h2, h3, h4⟩ := Delivers.recv hd
  refine ⟨c', ?_⟩
  unfold BinlogStream.nextEvent
  rw [if_neg (by simp [hs]), nextLoop.eq_def]
  unfold recvAndParse
  rw [h1]
  dsimp only
  rw [if_pos (by simp [hb])]

theorem whole_ne {b : Bytes} (hb : Spec.Whole b) (m : Bytes) : b ++ m ≠ [] := by
  intro h
  have := congrArg List.length h
  have h19 := hb.1
  rw [List.length_append, List.length_nil] at this
  omega

theorem fileReads_iff (p : ParserV4) (v : Bool) (log : Bytes) (h0 : log ≠ []) (xs : List Event) (e : Spec.LogEnd) :
    FileReads p v log xs e ↔
      match p.parseEvent v log with
      | .ok (some x) rest => ∃ ys, xs = x :: ys ∧ FileReads p v rest ys e
      | .ok none rest => FileReads p v rest xs e
      | .err e' _ => xs = [] ∧ e = .failed e'
      | .panic => xs = [] ∧ e = .panicked
      | .hang => False := by
  constructor
  · intro h
    cases h with
    | finished => exact absurd rfl h0
    | event _ h1 h2 => rw [h1]; exact ⟨_, rfl, h2⟩
    | skipped _ h1 h2 => rw [h1]; exact h2
    | failed _ h1 => rw [h1]; exact ⟨rfl, rfl⟩
    | panicked _ h1 => rw [h1]; exact ⟨rfl, rfl⟩
  · intro h
    split at h
    · obtain ⟨ys, rfl, h2⟩ := h
      exact .event h0 ‹_› h2
    · exact .skipped h0 ‹_› h
    · obtain ⟨rfl, rfl⟩ := h
      exact .failed h0 ‹_›
    · obtain ⟨rfl, rfl⟩ := h
      exact .panicked h0 ‹_›
    · exact h.elim

theorem streamReads_iff (s : BinlogStream) (c : Conn) (xs : List Event) (e : Spec.LogEnd) :
    StreamReads s c xs e ↔
      match s.nextEvent c with
      | .ok (some x, s') c' => ∃ ys, xs = x :: ys ∧ StreamReads s' c' ys e
      | .ok (none, _) _ => xs = [] ∧ e = .finished
      | .err e' _ => xs = [] ∧ e = .failed e'
      | .panic => xs = [] ∧ e = .panicked
      | .hang => False := by
  constructor
  · intro h
    cases h with
    | finished h1 => rw [h1]; exact ⟨rfl, rfl⟩
    | event h1 h2 => rw [h1]; exact ⟨_, rfl, h2⟩
    | failed h1 => rw [h1]; exact ⟨rfl, rfl⟩
    | panicked h1 => rw [h1]; exact ⟨rfl, rfl⟩
  · intro h
    split at h
    · obtain ⟨ys, rfl, h2⟩ := h
      exact .event ‹_› h2
    · obtain ⟨rfl, rfl⟩ := h
      exact .finished ‹_›
    · obtain ⟨rfl, rfl⟩ := h
      exact .failed ‹_›
    · obtain ⟨rfl, rfl⟩ := h
      exact .panicked ‹_›
    · exact h.elim

/-- C98: for every log whose events have right lengths (and are otherwise anything: unknown types, wrong checksums,
damaged payloads), reading it from a file and reading it from a stream give the same events, in the same order, and
the same end: the end of the log, the same error at the same event, or a panic at the same event. -/
theorem C98_events (s : BinlogStream) (hs : s.completed = false) (hb : s.nonBlock = true) (bs : List Bytes)
    (hw : ∀ b ∈ bs, Spec.Whole b) (eof rest : Bytes) (c : Conn)
    (hd : Spec.Delivers c.inp (bs.map (0 :: ·) ++ [0xfe :: eof]) rest) (xs : List Event) (e : Spec.LogEnd) :
    FileReads s.pv4 s.validateChecksum bs.flatten xs e ↔ StreamReads s c xs e := by
  induction bs generalizing c xs with
  | nil =>
    obtain ⟨c', h⟩ := next_end s hs hb eof rest c hd
    rw [streamReads_iff, h]
    dsimp only
    constructor
    · intro hf
      cases hf with
      | finished => exact ⟨rfl, rfl⟩
      | event h0 _ _ => exact absurd rfl h0
      | skipped h0 _ _ => exact absurd rfl h0
      | failed h0 _ => exact absurd rfl h0
      | panicked h0 _ => exact absurd rfl h0
    · rintro ⟨rfl, rfl⟩
      exact .finished
  | cons b bs ih =>
    have hwb := hw b (by simp)
    obtain ⟨c', h2, h3, h4⟩ := next_whole s hs b _ rest c hd
    have has := AsIf.parseEvent s.pv4 s.validateChecksum hwb
    have ih' := ih (fun x hx => hw x (by simp [hx])) c' h3
    rw [List.flatten_cons, fileReads_iff _ _ _ (whole_ne hwb _), has.1]
    cases hp : s.pv4.parseEvent s.validateChecksum b with
    | ok o r =>
      have hr := has.2 o r hp
      rw [List.drop_length] at hr
      subst hr
      rw [hp] at h4
      cases o with
      | some x =>
        rw [streamReads_iff, h4]
        exact exists_congr fun ys => and_congr_right fun _ => ih' ys
      | none =>
        rw [streamReads_iff, h4, ← streamReads_iff]
        exact ih' xs
    | err e' r =>
      rw [hp] at h4
      rw [streamReads_iff, h4]
      exact Iff.rfl
    | panic =>
      rw [hp] at h4
      rw [streamReads_iff, h4]
      exact Iff.rfl
    | hang =>
      rw [hp] at h4
      rw [streamReads_iff, h4]
      exact Iff.rfl

/-! ### the whole log -/

/-- making a parser from a file and from the second message of a stream -/
theorem fromFile_whole (f : Bytes) (hf : Spec.Whole f) (h15 : f[4]? = some 15) (log : Bytes) :
    ParserV4.fromBinlogFile (Spec.magic ++ f ++ log)
      = match ParserV4.fromFdeBytes f with
        | .ok p _ => .ok p.1 log
        | .err e r => .err e (r ++ log)
        | .panic => .panic
        | .hang => .hang := by
  have hhh : Spec.HasHeader f := ⟨hf.1, 15, h15, by decide⟩
  obtain ⟨hd, h1, -⟩ := header_ok f hhh
  have hty : hd.typeCode = .formatDescription := by
    have h1' := h1
    unfold EventHeader.readFrom EventHeaderV1.readFrom readLeU32 readLeU16 at h1'
    simp only [P.bind_eq_ok, readFixed_eq_ok, P.pure_eq_ok, P.orErr_eq_ok, readU8_eq_ok] at h1'
    obtain ⟨v1, r1, ⟨t, r2, ⟨h4, -, rfl⟩, c, r3, ⟨b, hb, rfl⟩, s, r4, ⟨h9, -, rfl⟩, l, r5, ⟨h13, -, rfl⟩,
      k, r6, ⟨hk, rfl⟩, rfl, rfl⟩, n, r7, ⟨h17, -, rfl⟩, fl, r8, ⟨h19, -, -⟩, rfl, -⟩ := h1'
    have := congrArg (·[0]?) hb
    simp only [List.getElem?_drop, Nat.add_zero, List.getElem?_cons_zero] at this
    rw [h15] at this
    cases this
    cases hk
    rfl
  have has := AsIf.header hf.1
  have hpk : P.peek EventHeader.readFrom (f ++ log) = .ok hd (f ++ log) := by
    rw [P.peek_eq, has.1, h1]; rfl
  have hver : BinlogVersion.readFrom (Spec.magic ++ (f ++ log)) = .ok .v4 (f ++ log) := by
    unfold BinlogVersion.readFrom
    step (readLen_append' 4 Spec.magic (f ++ log) rfl)
    rw [if_neg (by simp [Spec.magic])]
    step hpk
    rw [hty]
    rfl
  unfold ParserV4.fromBinlogFile
  rw [List.append_assoc]
  step hver
  rw [if_neg (by simp)]
  have hfb := AsIf.fromFdeBytes hf
  rw [P.bind_apply, hfb.1]
  cases h : ParserV4.fromFdeBytes f with
  | ok p r =>
    have hr := hfb.2 p r h
    rw [List.drop_length] at hr
    subst hr
    rfl
  | err e r => rfl
  | panic => rfl
  | hang => rfl

theorem firstEvents_whole (r : BinlogRequest) (crc : Bool) (rot : Spec.LogEvent) (pos : Nat) (file : Bytes)
    (hr : Spec.RotateTo rot pos file) (f : Bytes) (ms : List Bytes) (rest : Bytes) (c : Conn)
    (hd : Spec.Delivers c.inp (Spec.streamMessage crc rot :: (0 :: f) :: ms) rest) :
    ∃ c', Spec.Delivers c'.inp ms rest ∧ r.firstEvents crc c
      = match ParserV4.fromFdeBytes f with
        | .ok p _ => .ok ⟨p.1, r.validateChecksum, false, r.nonBlock⟩ c'
        | .err e _ => .err e c'
        | .panic => .panic
        | .hang => .hang := by
  obtain ⟨c1, a1, a2, a3, -⟩ := Delivers.recv hd
  obtain ⟨c2, b1, b2, b3, -⟩ := Delivers.recv a3
  obtain ⟨hr1, hr2, hr3, hr4⟩ := hr
  have hrot := firstRotate_spec crc rot hr1 hr2 pos hr3 file hr4
  refine ⟨c2, b3, ?_⟩
  unfold BinlogRequest.firstEvents
  rw [M.bind_apply, a1, MR.bind_ok]
  obtain ⟨t, ht⟩ : ∃ t, Spec.streamMessage crc rot = 0 :: t := ⟨_, rfl⟩
  rw [ht]
  dsimp only
  rw [← ht, if_neg (by decide), if_neg (by decide), if_pos rfl]
  rw [M.bind_apply, M.parse_ok hrot, MR.bind_ok, M.bind_apply, b1, MR.bind_ok, M.bind_apply]
  have hff : BinlogRequest.firstFde (0 :: f) = ParserV4.fromFdeBytes f := rfl
  unfold M.parse
  rw [hff]
  cases ParserV4.fromFdeBytes f <;> rfl

/-- C98: the whole log. The file is the magic, a format description event `f` and further events `bs`; the server
announces the file with a rotate event and then sends the same events, and at last the end. For every such log, with
events of right lengths that are otherwise anything, the format description event included, both readings give the same
events in the same order and the same end. -/
theorem C98_log (r : BinlogRequest) (hb : r.nonBlock = true) (crc : Bool) (rot : Spec.LogEvent) (pos : Nat)
    (file : Bytes) (hr : Spec.RotateTo rot pos file) (f : Bytes) (hf : Spec.Whole f) (h15 : f[4]? = some 15)
    (bs : List Bytes) (hw : ∀ b ∈ bs, Spec.Whole b) (eof rest : Bytes) (c : Conn)
    (hd : Spec.Delivers c.inp (Spec.streamMessage crc rot :: (0 :: f) :: (bs.map (0 :: ·) ++ [0xfe :: eof])) rest)
    (xs : List Event) (e : Spec.LogEnd) :
    FileLog r.validateChecksum (Spec.magic ++ f ++ bs.flatten) xs e ↔ StreamLog r crc c xs e := by
  obtain ⟨c', h1, h2⟩ := firstEvents_whole r crc rot pos file hr f _ rest c hd
  have h3 := fromFile_whole f hf h15 bs.flatten
  cases h : ParserV4.fromFdeBytes f with
  | ok p t =>
    rw [h] at h2 h3
    have h4 := C98_events ⟨p.1, r.validateChecksum, false, r.nonBlock⟩ rfl hb bs hw eof rest c' h1 xs e
    constructor
    · intro hl
      cases hl with
      | opened o1 o2 => rw [h3] at o1; cases o1; exact .opened h2 (h4.1 o2)
      | failed o1 => rw [h3] at o1; cases o1
      | panicked o1 => rw [h3] at o1; cases o1
    · intro hl
      cases hl with
      | opened o1 o2 => rw [h2] at o1; cases o1; exact .opened h3 (h4.2 o2)
      | failed o1 => rw [h2] at o1; cases o1
      | panicked o1 => rw [h2] at o1; cases o1
  | err e' t =>
    rw [h] at h2 h3
    constructor
    · intro hl
      cases hl with
      | opened o1 o2 => rw [h3] at o1; cases o1
      | failed o1 => rw [h3] at o1; cases o1; exact .failed h2
      | panicked o1 => rw [h3] at o1; cases o1
    · intro hl
      cases hl with
      | opened o1 o2 => rw [h2] at o1; cases o1
      | failed o1 => rw [h2] at o1; cases o1; exact .failed h3
      | panicked o1 => rw [h2] at o1; cases o1
  | panic =>
    rw [h] at h2 h3
    constructor
    · intro hl
      cases hl with
      | opened o1 o2 => rw [h3] at o1; cases o1
      | failed o1 => rw [h3] at o1; cases o1
      | panicked o1 => exact .panicked h2
    · intro hl
      cases hl with
      | opened o1 o2 => rw [h2] at o1; cases o1
      | failed o1 => rw [h2] at o1; cases o1
      | panicked o1 => exact .panicked h3
  | hang =>
    rw [h] at h2 h3
    constructor
    · intro hl
      cases hl with
      | opened o1 o2 => rw [h3] at o1; cases o1
      | failed o1 => rw [h3] at o1; cases o1
      | panicked o1 => rw [h3] at o1; cases o1
    · intro hl
      cases hl with
      | opened o1 o2 => rw [h2] at o1; cases o1
      | failed o1 => rw [h2] at o1; cases o1
      | panicked o1 => rw [h2] at o1; cases o1

/-- C98: reading a log always comes to one end: for every sequence of bytes whatsoever there is exactly one list of
events and one end. -/
theorem C98_one_reading (p : ParserV4) (v : Bool) (log : Bytes) :
    ∃ xs e, FileReads p v log xs e ∧ ∀ ys e', FileReads p v log ys e' → ys = xs ∧ e' = e := by
  induction hn : log.length using Nat.strong_induction_on generalizing log with
  | _ n ih =>
    subst hn
    by_cases h0 : log = []
    · subst h0
      refine ⟨[], .finished, .finished, fun ys e' h => ?_⟩
      cases h with
      | finished => exact ⟨rfl, rfl⟩
      | event h0 _ _ => exact absurd rfl h0
      | skipped h0 _ _ => exact absurd rfl h0
      | failed h0 _ => exact absurd rfl h0
      | panicked h0 _ => exact absurd rfl h0
    · simp only [fileReads_iff p v log h0]
      have hpan := C86_parse_event p v log
      cases h : p.parseEvent v log with
      | ok o r =>
        obtain ⟨-, h19, hle, rfl⟩ := C28_parse_extent p v log r o h
        obtain ⟨xs, e, h1, h2⟩ := ih _ (by rw [List.length_drop]; omega) (log.drop (Spec.announced log)) rfl
        cases o with
        | some x =>
          refine ⟨x :: xs, e, ⟨xs, rfl, h1⟩, ?_⟩
          rintro ys e' ⟨zs, rfl, h3⟩
          obtain ⟨rfl, rfl⟩ := h2 zs e' h3
          exact ⟨rfl, rfl⟩
        | none => exact ⟨xs, e, h1, h2⟩
      | err e' r => exact ⟨[], .failed e', ⟨rfl, rfl⟩, fun ys e'' h => h⟩
      | panic => exact ⟨[], .panicked, ⟨rfl, rfl⟩, fun ys e'' h => h⟩
      | hang =>
        rw [h] at hpan
        by_cases hb : Spec.impossibleLength p.checksum v log
        · cases hpan.1 hb
        · rcases hpan.2 hb with ⟨a, b, h⟩ | ⟨a, b, h⟩ <;> cases h

/-- every event laid out by the format is such a stored event -/
theorem encoded_whole (crc : Bool) (e : Spec.LogEvent) (he : e.InRange) : Spec.Whole (e.encode crc) := by
  obtain ⟨o, h, -⟩ := C29_parse_event ⟨[], crc⟩ false e he []
  rw [List.append_nil] at h
  obtain ⟨h1, h2, h3, h4⟩ := C28_parse_extent _ _ _ _ _ h
  have := congrArg List.length h4
  rw [List.length_nil, List.length_drop] at this
  refine ⟨h1.1, ?_⟩
  change Spec.announced (e.encode crc) ≤ (e.encode crc).length at h3
  change 0 = (e.encode crc).length - Spec.announced (e.encode crc) at this
  omega

/-- a log: an XID event (16), an event of a type the library does not support (36), and an XID event whose checksum is
wrong (its last byte was changed) -/
def wholeLog : List Bytes :=
  [(⟨1, 16, 3, 4, 0, [7, 0, 0, 0, 0, 0, 0, 0]⟩ : Spec.LogEvent).encode true,
   (⟨1, 36, 3, 4, 0, [9]⟩ : Spec.LogEvent).encode true,
   ((⟨1, 16, 3, 4, 0, [8, 0, 0, 0, 0, 0, 0, 0]⟩ : Spec.LogEvent).encode true).dropLast ++ [0xaa]]

theorem wholeLog_whole : ∀ b ∈ wholeLog, Spec.Whole b := by
  unfold wholeLog Spec.Whole
  decide +kernel

/-- the readings of that log: the first event, and then an error if checksums are verified -/
example : ∃ e, FileReads ⟨[], true⟩ true wholeLog.flatten
      [⟨.xid, ⟨1, .xid, 3, 31, 4, 0⟩, [7, 0, 0, 0, 0, 0, 0, 0]⟩] (.failed e) := by
  have h : (match (⟨[], true⟩ : ParserV4).parseEvent true (wholeLog.flatten.drop 55) with
      | .err _ _ => true | _ => false) = true := by decide +kernel
  cases hp : (⟨[], true⟩ : ParserV4).parseEvent true (wholeLog.flatten.drop 55) with
  | err e r =>
    refine ⟨e, .event (by decide +kernel) (rest := wholeLog.flatten.drop 31) ?_
      (.skipped (by decide +kernel) (rest := wholeLog.flatten.drop 55) ?_ (.failed (by decide +kernel) hp))⟩
    all_goals decide +kernel
  | ok a r => rw [hp] at h; cases h
  | panic => rw [hp] at h; cases h
  | hang => rw [hp] at h; cases h

/-- and both, if they are not -/
example : FileReads ⟨[], true⟩ false wholeLog.flatten
      [⟨.xid, ⟨1, .xid, 3, 31, 4, 0⟩, [7, 0, 0, 0, 0, 0, 0, 0]⟩,
       ⟨.xid, ⟨1, .xid, 3, 31, 4, 0⟩, [8, 0, 0, 0, 0, 0, 0, 0]⟩] .finished := by
  refine .event (by decide +kernel) (rest := wholeLog.flatten.drop 31) ?_
    (.skipped (by decide +kernel) (rest := wholeLog.flatten.drop 55) ?_
    (.event (by decide +kernel) (rest := []) ?_ .finished))
  all_goals decide +kernel

/-- a connection on which the server sends it, after the rotate event and the description -/
example (f : Bytes) (hf : f.length < 1000) (rot : Spec.LogEvent) (hr : (Spec.streamMessage true rot).length < 1000) :
    ∃ c : Conn, Spec.Delivers c.inp
      (Spec.streamMessage true rot :: (0 :: f) :: (wholeLog.map (0 :: ·) ++ [0xfe :: [0, 0, 2, 0]])) [] := by
  obtain ⟨inp, h⟩ := delivers_small
    (Spec.streamMessage true rot :: (0 :: f) :: (wholeLog.map (0 :: ·) ++ [0xfe :: [0, 0, 2, 0]])) [] (by
      have hl : ∀ m ∈ wholeLog.map (0 :: ·) ++ [0xfe :: [0, 0, 2, 0]], m.length < 1000 := by decide +kernel
      intro m hm
      rcases List.mem_cons.1 hm with rfl | hm
      · omega
      · rcases List.mem_cons.1 hm with rfl | hm
        · simp; omega
        · have := hl m hm; omega)
  exact ⟨{ inp := inp }, h⟩

end Mybin
