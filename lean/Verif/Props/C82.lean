import Verif.Props.C28_C32
import Verif.Props.C35

/-!
C82: choosing events by their type. The type of the event at the front of the input can be read from a
copy of the input; a loop that does so, parses the events it wants and skips the others gets exactly the
events it wants.
-/

namespace Mybin

/-- one round of the loop of parser.rs:666-681: read the type from a copy of the input
(`LogEventType::read_from(&mut input.clone())?`), then parse the event or skip it -/
def selectEvent (p : ParserV4) (validate : Bool) (want : LogEventType → Bool) : P (Option Event) := do
  let t ← P.peek LogEventType.readFrom
  if want t then p.parseEvent validate
  else do
    p.skipEvent
    return none

/-- C82: what `LogEventType::read_from` does with any input at all. The type is the fifth byte: with
five bytes and a defined code (0 to 38) it is returned, an undefined code is an error, and so is an input
of fewer than five bytes. It never panics. -/
theorem C82_event_type (bs : Bytes) :
    (∀ k rest, LogEventType.readFrom bs = .ok k rest ↔
      ∃ a b c d, bs = a :: b :: c :: d :: UInt8.ofNat k.toByte :: rest) ∧
    (5 ≤ bs.length → (∀ b, bs[4]? = some b → 38 < b.toNat) →
      ∃ rest, LogEventType.readFrom bs = .err .constraint rest) ∧
    (bs.length < 5 → ∃ n rest, LogEventType.readFrom bs = .err (.incomplete n) rest) := by
  unfold LogEventType.readFrom
  match bs with
  | [] => exact ⟨by intro k rest; simp [P.bind_apply, readLen], by simp, fun _ => ⟨_, _, rfl⟩⟩
  | [a] => exact ⟨by intro k rest; simp [P.bind_apply, readLen], by simp, fun _ => ⟨_, _, rfl⟩⟩
  | [a, b] => exact ⟨by intro k rest; simp [P.bind_apply, readLen], by simp, fun _ => ⟨_, _, rfl⟩⟩
  | [a, b, c] => exact ⟨by intro k rest; simp [P.bind_apply, readLen], by simp, fun _ => ⟨_, _, rfl⟩⟩
  | [a, b, c, d] =>
    exact ⟨by intro k rest; simp [P.bind_apply, readLen], by simp, fun _ => ⟨_, _, rfl⟩⟩
  | a :: b :: c :: d :: e :: t =>
    have h0 : readLen 4 (a :: b :: c :: d :: e :: t) = .ok [a, b, c, d] (e :: t) := by simp [readLen]
    rw [P.bind_apply, h0, R.bind_ok, P.bind_apply, readU8_cons, R.bind_ok]
    cases hk : LogEventType.tryFrom e.toNat with
    | none =>
      have h39 := (C20_event_types.2.2.2.1 _).1 hk
      refine ⟨?_, fun _ _ => ⟨t, rfl⟩, fun h => absurd h (by simp)⟩
      intro k rest
      constructor
      · intro h; cases h
      · rintro ⟨a', b', c', d', h⟩
        simp only [List.cons.injEq] at h
        obtain ⟨-, -, -, -, rfl, -⟩ := h
        exfalso
        revert h39
        cases k <;> decide
    | some k' =>
      have hc := C20_event_types.2.2.1 _ _ hk
      have hlt : ¬ 39 ≤ e.toNat := by
        intro h
        rw [(C20_event_types.2.2.2.1 _).2 h] at hk
        cases hk
      refine ⟨?_, fun _ h => absurd (h e rfl) (by omega), fun h => absurd h (by simp)⟩
      intro k rest
      constructor
      · intro h
        cases h
        exact ⟨a, b, c, d, by rw [hc]; simp⟩
      · rintro ⟨a', b', c', d', h⟩
        simp only [List.cons.injEq] at h
        obtain ⟨-, -, -, -, he, rfl⟩ := h
        have : k = k' := by
          apply C20_event_types.2.1
          rw [hc, he]
          cases k <;> rfl
        subst this
        rfl

/-- for instance a query event (code 2) with four bytes of timestamp -/
example : LogEventType.readFrom [1, 2, 3, 4, 2, 9] = .ok .query [9] :=
  ((C82_event_type _).1 _ _).2 ⟨1, 2, 3, 4, rfl⟩

/-- C28: what `EventLength::read_from` does with any input at all. From thirteen bytes on it returns the
length announced in bytes 9 to 12 (the one the whole header carries), and leaves what follows; with fewer
it is an error. It never panics. -/
theorem C28_event_length (bs : Bytes) :
    (13 ≤ bs.length → EventLength.readFrom bs = .ok (Spec.leNat ((bs.drop 9).take 4)) (bs.drop 13)) ∧
    (bs.length < 13 → ∃ n rest, EventLength.readFrom bs = .err (.incomplete n) rest) ∧
    (∀ hd rest, EventHeader.readFrom bs = .ok hd rest →
      EventLength.readFrom bs = .ok hd.eventLen (bs.drop 13)) := by
  have h1 : 13 ≤ bs.length →
      EventLength.readFrom bs = .ok (Spec.leNat ((bs.drop 9).take 4)) (bs.drop 13) := by
    intro h
    obtain ⟨a, r, rfl, ha, -⟩ := split_at 9 bs (by omega)
    obtain ⟨d, r, rfl, hd, -⟩ := split_at 4 r (by simp at h; omega)
    have e1 : (a ++ (d ++ r)).drop 13 = r := by
      rw [← List.append_assoc, List.drop_left' (by simp; omega)]
    have h0 : readLen 9 (a ++ (d ++ r)) = .ok a (d ++ r) := by
      rw [← ha]; simp [readLen]
    have h2 : readLeU32 (d ++ r) = .ok (leVal d) r := readFixed_append leVal d r hd
    unfold EventLength.readFrom
    rw [P.bind_apply, h0, R.bind_ok, h2, e1, List.drop_left' ha, List.take_left' hd, leVal_eq_spec]
  refine ⟨h1, ?_, ?_⟩
  · intro h
    unfold EventLength.readFrom
    rw [P.bind_apply]
    unfold readLen
    split
    · rw [R.bind_err]; exact ⟨_, _, rfl⟩
    · rw [R.bind_ok]
      unfold readLeU32 readFixed
      rw [if_pos (by rw [List.length_drop]; omega)]
      exact ⟨_, _, rfl⟩
  · intro hd rest he
    have hh := header_inv bs rest hd he
    obtain ⟨hd', h3, h4⟩ := header_ok bs hh
    rw [he] at h3
    injection h3 with h3
    rw [h1 (by have := hh.1; omega), h3, h4]
    rfl

/-- for instance an event announcing 31 bytes -/
example : EventLength.readFrom [1, 2, 3, 4, 2, 5, 6, 7, 8, 31, 0, 0, 0, 9] = .ok 31 [9] :=
  (C28_event_length _).1 (by decide)

/-- C82: the type of an event is read without touching it. -/
theorem C82_peek (crc : Bool) (e : Spec.LogEvent) (he : e.InRange) (rest : Bytes) :
    ∃ k : LogEventType, k.toByte = e.code ∧
      P.peek LogEventType.readFrom (e.encode crc ++ rest) = .ok k (e.encode crc ++ rest) := by
  obtain ⟨k, hk⟩ : ∃ k, LogEventType.tryFrom e.code = some k := by
    cases hk : LogEventType.tryFrom e.code with
    | none => have := (C20_event_types.2.2.2.1 _).1 hk; have := he.2.1; omega
    | some k => exact ⟨k, rfl⟩
  have hc := C20_event_types.2.2.1 _ _ hk
  refine ⟨k, hc, ?_⟩
  have : ∃ t, e.encode crc ++ rest = Spec.le 4 e.timestamp ++ (UInt8.ofNat k.toByte :: t) := by
    refine ⟨Spec.le 4 e.serverId ++ Spec.le 4 (e.len crc) ++ Spec.le 4 e.nextPos
        ++ Spec.le 2 e.flags ++ e.payload ++ (if crc then Spec.le 4 (Spec.crc32 (e.body crc)) else [])
        ++ rest, ?_⟩
    rw [hc]; simp [Spec.LogEvent.encode, Spec.LogEvent.body, Spec.u8]
  obtain ⟨t, ht⟩ := this
  have h := ((C82_event_type (e.encode crc ++ rest)).1 k t).2 ⟨_, _, _, _, by rw [ht]; rfl⟩
  unfold P.peek
  rw [h]

/-- what a round returns for a logged event: for a wanted type what `parse_event` returns, otherwise
nothing -/
def Selected (crc : Bool) (wanted : Nat → Prop) (e : Spec.LogEvent) (o : Option Event) : Prop :=
  (wanted e.code → Spec.Seen crc e o) ∧ (¬ wanted e.code → o = none)

theorem select_one (p : ParserV4) (validate : Bool) (want : LogEventType → Bool)
    (e : Spec.LogEvent) (he : e.InRange) (rest : Bytes) :
    ∃ o, selectEvent p validate want (e.encode p.checksum ++ rest) = .ok o rest ∧
      Selected p.checksum (fun c => ∃ k : LogEventType, k.toByte = c ∧ want k = true) e o := by
  obtain ⟨k, hk, hpk⟩ := C82_peek p.checksum e he rest
  unfold selectEvent
  rw [P.bind_apply, hpk, R.bind_ok]
  by_cases hw : want k = true
  · obtain ⟨o, h1, h2⟩ := C29_parse_event p validate e he rest
    rw [if_pos hw]
    exact ⟨o, h1, fun _ => h2, fun h => absurd ⟨k, hk, hw⟩ h⟩
  · rw [if_neg hw, P.bind_apply, C29_skip_same p e he rest, R.bind_ok]
    refine ⟨none, rfl, ?_, fun _ => rfl⟩
    rintro ⟨j, hj, hj'⟩
    have : j = k := C20_event_types.2.1 _ _ (hj.trans hk.symm)
    subst this
    exact absurd hj' hw

/-- C82: whichever types are wanted, the loop over any sequence of events ends at the end of the last
one, has returned each event of a wanted type (decoded as `parse_event` does) and nothing for the
others. -/
theorem C82_select (p : ParserV4) (validate : Bool) (want : LogEventType → Bool)
    (es : List Spec.LogEvent) (he : ∀ e ∈ es, e.InRange) :
    ∃ os, P.whileRemaining (selectEvent p validate want) (es.map (·.encode p.checksum)).flatten
        = .ok os [] ∧
      List.Forall₂
        (Selected p.checksum (fun c => ∃ k : LogEventType, k.toByte = c ∧ want k = true)) es os := by
  apply whileRemaining_rel
  intro e hm
  refine ⟨?_, fun t => select_one p validate want e (he e hm) t⟩
  intro h
  have := congrArg List.length h
  simp [Spec.LogEvent.encode, Spec.LogEvent.body, Spec.u8] at this

/-- C82: so what it gets are the wanted events of the log that `parse_event` supports, in order. -/
theorem C82_wanted (p : ParserV4) (validate : Bool) (want : LogEventType → Bool)
    (es : List Spec.LogEvent) (he : ∀ e ∈ es, e.InRange) :
    ∃ os, P.whileRemaining (selectEvent p validate want) (es.map (·.encode p.checksum)).flatten
        = .ok os [] ∧
      (os.filterMap id).map (fun o => (o.kind.toByte, o.header.timestamp, o.header.serverId,
          o.header.nextPos, o.header.flags, o.data))
        = (es.filter fun e => decide (e.code ∈ Spec.supportedCodes)
              && (LogEventType.tryFrom e.code).any want).map
            fun e => (e.code, e.timestamp, e.serverId, e.nextPos, e.flags, e.payload) := by
  obtain ⟨os, h, hs⟩ := C82_select p validate want es he
  refine ⟨os, h, ?_⟩
  clear h
  induction hs with
  | nil => rfl
  | @cons e o es os h1 h2 ih =>
    have ih := ih (fun x hx => he x (by simp [hx]))
    by_cases hc : ∃ k : LogEventType, k.toByte = e.code ∧ want k = true
    · have hseen := h1.1 hc
      obtain ⟨k, hk, hw⟩ := hc
      have ht : LogEventType.tryFrom e.code = some k := by rw [← hk]; exact C20_event_types.1 k
      unfold Spec.Seen at hseen
      split at hseen
      · rename_i hsup
        obtain ⟨j, hj, rfl⟩ := hseen
        have hp : (decide (e.code ∈ Spec.supportedCodes)
            && (LogEventType.tryFrom e.code).any want) = true := by
          rw [ht]; simp [hsup, hw]
        rw [List.filterMap_cons_some (f := id) rfl, List.map_cons, List.filter_cons, if_pos hp,
          List.map_cons, ih, hj]
      · rename_i hsup
        subst hseen
        rw [List.filterMap_cons_none rfl, List.filter_cons, if_neg (by simp [hsup]), ih]
    · have hn := h1.2 hc
      subst hn
      have : ¬ ((decide (e.code ∈ Spec.supportedCodes)
          && (LogEventType.tryFrom e.code).any want) = true) := by
        intro hh
        simp only [Bool.and_eq_true, Option.any_eq_true] at hh
        obtain ⟨-, k, hk, hw⟩ := hh
        exact hc ⟨k, C20_event_types.2.2.1 _ _ hk, hw⟩
      rw [List.filterMap_cons_none rfl, List.filter_cons, if_neg this, ih]

/-- C82: the same over a whole binlog file: the parser made from its beginning (the magic number and
the format description) and then the loop. -/
theorem C82_file (f : Spec.Fde) (hf : f.Ok) (hu : validUtf8 f.server = true) (e : Spec.LogEvent)
    (he : e.InRange) (hcode : e.code = 15) (alg crc : Nat) (ha : alg < 256) (hcrc : crc < 2 ^ 32)
    (hp : e.payload = f.encode ++ Spec.u8 alg ++ Spec.le 4 crc) (validate : Bool)
    (want : LogEventType → Bool) (es : List Spec.LogEvent) (hes : ∀ e ∈ es, e.InRange) :
    ∃ p log os,
      ParserV4.fromBinlogFile (Spec.magic ++ e.encode false
        ++ (es.map (·.encode (decide (alg = 1)))).flatten) = .ok p log ∧
      P.whileRemaining (selectEvent p validate want) log = .ok os [] ∧
      (os.filterMap id).map (fun o => (o.kind.toByte, o.header.timestamp, o.header.serverId,
          o.header.nextPos, o.header.flags, o.data))
        = (es.filter fun e => decide (e.code ∈ Spec.supportedCodes)
              && (LogEventType.tryFrom e.code).any want).map
            fun e => (e.code, e.timestamp, e.serverId, e.nextPos, e.flags, e.payload) := by
  obtain ⟨os, h1, h2⟩ := C82_wanted ⟨0 :: f.lens, decide (alg = 1)⟩ validate want es hes
  refine ⟨_, _, os, ?_, h1, h2⟩
  exact fromBinlogFile_encoded f hf hu e he hcode alg crc ha hcrc hp _

/-- three events, of which the second (user variable, 14) is wanted -/
example :
    let es : List Spec.LogEvent := [⟨1, 2, 3, 4, 8, [1, 2]⟩, ⟨5, 14, 1, 9, 0, [7, 7]⟩, ⟨7, 3, 0, 0, 1, []⟩]
    ∃ os, P.whileRemaining (selectEvent ⟨[], true⟩ true (fun k => decide (k = .userVar)))
        (es.map (·.encode true)).flatten = .ok os [] ∧
      (os.filterMap id).map (·.data) = [[7, 7]] := by
  intro es
  have hes : ∀ e ∈ es, e.InRange := by
    intro e he
    simp only [es, List.mem_cons, List.not_mem_nil, or_false] at he
    rcases he with rfl | rfl | rfl <;> (unfold Spec.LogEvent.InRange; decide)
  obtain ⟨os, h1, h2⟩ := C82_wanted ⟨[], true⟩ true (fun k => decide (k = .userVar)) es hes
  refine ⟨os, h1, ?_⟩
  have := congrArg (List.map fun x => x.2.2.2.2.2) h2
  simp only [List.map_map] at this
  exact this

end Mybin
