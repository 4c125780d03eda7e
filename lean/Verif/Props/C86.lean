/-
C86: malformed log events. Whatever the bytes, each event decoder gives a value or an error, except in the cases named
here, in which it panics; it never loops forever.
-/
import Verif.Props.C28_C32
import Verif.Props.C33_C47_C48
import Verif.Props.C34
import Verif.Props.C36
import Verif.Props.C53
import Verif.Props.C78

namespace Mybin

/-- decoding stops: it panics exactly when `bad` holds; otherwise it gives a value or an error -/
def PanicsIff {α : Type} (bad : Prop) (r : R α) : Prop :=
  (bad → r = .panic) ∧ (¬bad → (∃ a rest, r = .ok a rest) ∨ ∃ e rest, r = .err e rest)

theorem panicsIff_of {α : Type} {bad : Prop} {r : R α} (h1 : r = .panic ↔ bad) (h2 : r ≠ .hang) : PanicsIff bad r := by
  refine ⟨h1.2, fun hb => ?_⟩
  cases r with
  | ok a t => exact .inl ⟨_, _, rfl⟩
  | err e t => exact .inr ⟨_, _, rfl⟩
  | panic => exact (hb (h1.1 rfl)).elim
  | hang => exact (h2 rfl).elim

theorem PanicsIff.panic_iff {α : Type} {bad : Prop} {r : R α} (h : PanicsIff bad r) : r = .panic ↔ bad := by
  refine ⟨fun e => ?_, h.1⟩
  by_contra hb
  rcases h.2 hb with ⟨_, _, h⟩ | ⟨_, _, h⟩ <;> rw [h] at e <;> cases e

theorem PanicsIff.ne_hang {α : Type} {bad : Prop} {r : R α} (h : PanicsIff bad r) : r ≠ .hang := by
  intro e
  by_cases hb : bad
  · rw [h.1 hb] at e; cases e
  · rcases h.2 hb with ⟨_, _, h⟩ | ⟨_, _, h⟩ <;> rw [h] at e <;> cases e

theorem Well.panicsIff {α : Type} {p : P α} (h : Well p) (bs : Bytes) : PanicsIff False (p bs) :=
  panicsIff_of ⟨fun e => h.ne_panic bs e, False.elim⟩ (h.ne_hang bs)

theorem PanicsIff.congr {α : Type} {p q : Prop} {r : R α} (h : PanicsIff p r) (e : p ↔ q) : PanicsIff q r := by
  rwa [propext e] at h

theorem PanicsIff.bindWell {α β : Type} {bad : Prop} {p : P α} {bs : Bytes} (h : PanicsIff bad (p bs)) {f : α → P β}
    (hf : ∀ a, Well (f a)) : PanicsIff bad ((p >>= f) bs) := by
  rw [P.bind_apply]
  refine ⟨fun hb => by rw [h.1 hb]; rfl, fun hb => ?_⟩
  rcases h.2 hb with ⟨a, r, e⟩ | ⟨e', r, e⟩
  · rw [e, R.bind_ok]
    exact ((hf a).panicsIff r).2 id
  · rw [e]; exact .inr ⟨_, _, rfl⟩

theorem PanicsIff.onSub {α : Type} {bad : Prop} {p : P α} {sub : Bytes} (h : PanicsIff bad (p sub)) (bs : Bytes) :
    PanicsIff bad (P.onSub sub p bs) := by
  unfold P.onSub
  refine ⟨fun hb => by rw [h.1 hb], fun hb => ?_⟩
  rcases h.2 hb with ⟨a, r, e⟩ | ⟨e', r, e⟩
  · rw [e]; exact .inl ⟨_, _, rfl⟩
  · rw [e]; exact .inr ⟨_, _, rfl⟩

/-! ### events -/

/-- the checksum stored at the end of the event is that of its other bytes -/
def Spec.checksumMatches (bs : List UInt8) : Prop :=
  leNat ((bs.take (announced bs)).drop (announced bs - 4)) = crc32 (bs.take (announced bs - 4))

/-- the announced length is impossible: too short for the 19-byte header, or, in a log with checksums (`crc`), for the
header and the checksum. When checksums are validated, a truncated event or one whose checksum is wrong is an error
first, unless there is no room for the checksum itself. -/
def Spec.impossibleLength (crc validate : Bool) (bs : List UInt8) : Prop :=
  HasHeader bs ∧
    if crc then
      if validate then announced bs ≤ bs.length ∧ (announced bs < 4 ∨ (announced bs < 23 ∧ checksumMatches bs))
      else announced bs < 19 ∨ (announced bs < 23 ∧ announced bs ≤ bs.length)
    else announced bs < 19

theorem verify_cases (bs : Bytes) (hh : Spec.HasHeader bs) :
    (bs.length < Spec.announced bs → ∃ e r, ParserV4.verifyChecksum bs = .err e r) ∧
    (Spec.announced bs ≤ bs.length → Spec.announced bs < 4 → ParserV4.verifyChecksum bs = .panic) ∧
    (Spec.announced bs ≤ bs.length → 4 ≤ Spec.announced bs → Spec.checksumMatches bs → ParserV4.verifyChecksum bs = .ok () bs) ∧
    (Spec.announced bs ≤ bs.length → 4 ≤ Spec.announced bs → ¬ Spec.checksumMatches bs →
      ∃ e r, ParserV4.verifyChecksum bs = .err e r) := by
  obtain ⟨hd, h1, h2⟩ := header_ok bs hh
  have hp : P.peek EventHeader.readFrom bs = .ok hd bs := by rw [P.peek_eq, h1]
  refine ⟨fun hl => ?_, fun hl h4 => ?_, fun hl h4 hc => ?_, fun hl h4 hc => ?_⟩
  · unfold ParserV4.verifyChecksum
    rw [P.bind_apply, hp, R.bind_ok, P.bind_apply, P.peek_eq, readLen, if_pos (by omega)]
    exact ⟨_, _, rfl⟩
  · unfold ParserV4.verifyChecksum
    rw [P.bind_apply, hp, R.bind_ok, P.bind_apply, P.peek_eq, readLen, if_neg (by omega)]
    dsimp only
    rw [R.bind_ok, if_pos (by rw [List.length_take]; omega)]
    rfl
  · rw [verify_raw bs hh h4 hl]
    exact if_pos hc
  · rw [verify_raw bs hh h4 hl]
    exact ⟨_, _, if_neg hc⟩

theorem parse_false (p : ParserV4) (bs : Bytes) (hh : Spec.HasHeader bs) :
    PanicsIff (Spec.impossibleLength p.checksum false bs) (p.parseEvent false bs) := by
  by_cases h19 : Spec.announced bs < 19
  · refine ⟨fun _ => (C28_short_length_false p bs hh h19).2, fun hb => (hb ⟨hh, ?_⟩).elim⟩
    cases p.checksum
    · simpa using h19
    · simp [h19]
  · by_cases hc : p.checksum = true
    · by_cases h23 : Spec.announced bs < 23 ∧ Spec.announced bs ≤ bs.length
      · refine ⟨fun _ => ?_, fun hb => (hb ⟨hh, by simp [hc, h23]⟩).elim⟩
        obtain ⟨hd, h1, h2⟩ := header_ok bs hh
        unfold ParserV4.parseEvent
        rw [Bool.and_false, if_neg (by simp), P.bind_apply, P.pure_apply, R.bind_ok, P.bind_apply, h1,
          R.bind_ok, P.bind_apply, dataLen_ok hd (by omega), R.bind_ok, P.bind_apply, readLen,
          if_neg (by rw [List.length_drop]; omega), R.bind_ok, P.bind_apply, if_pos hc,
          if_pos (by rw [List.length_take]; omega)]
        rfl
      · refine ⟨fun hb => ?_, fun _ => ?_⟩
        · have := hb.2
          simp [hc] at this
          omega
        · by_cases hl : 23 ≤ Spec.announced bs
          · exact C28_no_panic_partial p false bs (by rw [if_pos hc]; exact hl)
          · obtain ⟨hd, h1, h2⟩ := header_ok bs hh
            unfold ParserV4.parseEvent
            rw [Bool.and_false, if_neg (by simp), P.bind_apply, P.pure_apply, R.bind_ok, P.bind_apply, h1,
              R.bind_ok, P.bind_apply, dataLen_ok hd (by omega), R.bind_ok, P.bind_apply, readLen,
              if_pos (by have := hh.1; rw [List.length_drop]; omega)]
            exact .inr ⟨_, _, rfl⟩
    · refine ⟨fun hb => ?_, fun _ => C28_no_panic_partial p false bs (by rw [if_neg hc]; omega)⟩
      have := hb.2
      simp [hc] at this
      omega

/-- C86: decoding an event, for every input: it panics exactly when the input has the header of a known event type that
announces an impossible length; everything else gives an event, `None` or an error. -/
theorem C86_parse_event (p : ParserV4) (validate : Bool) (bs : Bytes) :
    PanicsIff (Spec.impossibleLength p.checksum validate bs) (p.parseEvent validate bs) := by
  by_cases hh : Spec.HasHeader bs
  · by_cases hv : (p.checksum && validate) = true
    · rw [Bool.and_eq_true] at hv
      obtain ⟨hc, rfl⟩ := hv
      obtain ⟨v1, v2, v3, v4⟩ := verify_cases bs hh
      by_cases hl : Spec.announced bs ≤ bs.length
      · by_cases h4 : Spec.announced bs < 4
        · refine ⟨fun _ => ?_, fun hb => (hb ⟨hh, by simp [hc, hl, h4]⟩).elim⟩
          unfold ParserV4.parseEvent
          rw [hc, Bool.and_true, if_pos rfl, P.bind_apply, v2 hl h4]
          rfl
        · by_cases hm : Spec.checksumMatches bs
          · have he := (C30_parse_event p hc bs hh (by omega) hl).2 hm
            rw [he]
            have hf := parse_false p bs hh
            have hiff : Spec.impossibleLength p.checksum true bs ↔ Spec.impossibleLength p.checksum false bs := by
              unfold Spec.impossibleLength
              simp [hc, hm, hl]
              omega
            rwa [← hiff] at hf
          · obtain ⟨e, r, h⟩ := v4 hl (by omega) hm
            refine ⟨fun hb => ?_, fun _ => ?_⟩
            · have := hb.2
              simp [hc, hm] at this
              omega
            · unfold ParserV4.parseEvent
              rw [hc, Bool.and_true, if_pos rfl, P.bind_apply, h]
              exact .inr ⟨_, _, rfl⟩
      · obtain ⟨e, r, h⟩ := v1 (by omega)
        refine ⟨fun hb => ?_, fun _ => ?_⟩
        · have := hb.2
          simp [hc] at this
          omega
        · unfold ParserV4.parseEvent
          rw [hc, Bool.and_true, if_pos rfl, P.bind_apply, h]
          exact .inr ⟨_, _, rfl⟩
    · have h1 : p.parseEvent validate bs = p.parseEvent false bs := by
        unfold ParserV4.parseEvent
        rw [Bool.and_false, if_neg hv, if_neg (by simp)]
      have h2 : Spec.impossibleLength p.checksum validate bs ↔ Spec.impossibleLength p.checksum false bs := by
        rw [Bool.and_eq_true] at hv
        unfold Spec.impossibleLength
        cases hc : p.checksum
        · simp
        · cases validate
          · simp
          · exact (hv ⟨hc, rfl⟩).elim
      rw [h1]
      have hf := parse_false p bs hh
      rwa [← h2] at hf
  · refine ⟨fun hb => (hh hb.1).elim, fun _ => .inr ?_⟩
    obtain ⟨e, r, he⟩ := header_err bs hh
    unfold ParserV4.parseEvent
    rw [P.bind_apply]
    by_cases hv : (p.checksum && validate) = true
    · rw [if_pos hv]
      unfold ParserV4.verifyChecksum
      rw [P.bind_apply, P.peek_eq, he]
      exact ⟨_, _, rfl⟩
    · rw [if_neg hv, P.pure_apply, R.bind_ok, P.bind_apply, he]
      exact ⟨_, _, rfl⟩

/-- C86 for skipping an event. -/
theorem C86_skip_event (p : ParserV4) (bs : Bytes) :
    PanicsIff (Spec.HasHeader bs ∧ Spec.announced bs < 19) (p.skipEvent bs) := by
  by_cases hh : Spec.HasHeader bs
  · by_cases hl : Spec.announced bs < 19
    · exact ⟨fun _ => (C28_short_length_false p bs hh hl).1, fun hb => (hb ⟨hh, hl⟩).elim⟩
    · refine ⟨fun hb => (hl hb.2).elim, fun _ => ?_⟩
      have := C28_skip p bs hh (by omega)
      by_cases hle : Spec.announced bs ≤ bs.length
      · exact .inl ⟨_, _, this.1 hle⟩
      · obtain ⟨n, h⟩ := this.2 (by omega)
        exact .inr ⟨_, _, h⟩
  · refine ⟨fun hb => (hh hb.1).elim, fun _ => .inr ?_⟩
    obtain ⟨e, r, he⟩ := header_err bs hh
    unfold ParserV4.skipEvent
    rw [P.bind_apply, he]
    exact ⟨_, _, rfl⟩

/-- C86 for checking the checksum of an event. -/
theorem C86_checksum_event (p : ParserV4) (bs : Bytes) :
    PanicsIff (p.checksum = true ∧ Spec.HasHeader bs ∧ Spec.announced bs < 4) (p.checksumEvent bs) := by
  unfold ParserV4.checksumEvent
  by_cases hc : p.checksum = true
  · rw [if_pos hc, P.peek_eq]
    by_cases hh : Spec.HasHeader bs
    · obtain ⟨v1, v2, v3, v4⟩ := verify_cases bs hh
      have h19 := hh.1
      by_cases h4 : Spec.announced bs < 4
      · rw [v2 (by omega) h4]
        exact ⟨fun _ => rfl, fun hb => (hb ⟨hc, hh, h4⟩).elim⟩
      · refine ⟨fun hb => (h4 hb.2.2).elim, fun _ => ?_⟩
        by_cases hl : Spec.announced bs ≤ bs.length
        · by_cases hm : Spec.checksumMatches bs
          · rw [v3 hl (by omega) hm]; exact .inl ⟨_, _, rfl⟩
          · obtain ⟨e, r, h⟩ := v4 hl (by omega) hm
            rw [h]; exact .inr ⟨_, _, rfl⟩
        · obtain ⟨e, r, h⟩ := v1 (by omega)
          rw [h]; exact .inr ⟨_, _, rfl⟩
    · refine ⟨fun hb => (hh hb.2.1).elim, fun _ => ?_⟩
      obtain ⟨e, r, he⟩ := header_err bs hh
      have : ParserV4.verifyChecksum bs = .err e bs := by
        unfold ParserV4.verifyChecksum
        rw [P.bind_apply, P.peek_eq, he]; rfl
      rw [this]
      exact .inr ⟨_, _, rfl⟩
  · rw [if_neg hc]
    exact ⟨fun hb => (hc hb.1).elim, fun _ => .inr ⟨_, _, rfl⟩⟩

/-! ### the stream of events -/

/-- an event the stream passes over in silence: complete, of a type that is not supported, and, when checksums are
validated, with the right one -/
def Spec.passedOver (crc validate : Bool) (bs : List UInt8) : Prop :=
  HasHeader bs ∧ (∀ b, bs[4]? = some b → b.toNat ∉ supportedCodes) ∧ (if crc then 23 else 19) ≤ announced bs ∧
    announced bs ≤ bs.length ∧ (crc → validate → checksumMatches bs)

theorem header_type (bs r : Bytes) (hd : EventHeader) (h : EventHeader.readFrom bs = .ok hd r) :
    ∃ b, bs[4]? = some b ∧ hd.typeCode.toByte = b.toNat := by
  unfold EventHeader.readFrom EventHeaderV1.readFrom readLeU32 readLeU16 at h
  simp only [P.bind_eq_ok, readFixed_eq_ok, P.pure_eq_ok, P.orErr_eq_ok, readU8_eq_ok] at h
  obtain ⟨v1, r1, ⟨t, r2, ⟨h4, -, rfl⟩, c, r3, ⟨b, hb, rfl⟩, s, r4, ⟨h9, -, rfl⟩, l, r5, ⟨h13, -, rfl⟩,
    k, r6, ⟨hk, rfl⟩, rfl, rfl⟩, n, r7, ⟨h17, -, rfl⟩, f, r8, ⟨h19, -, -⟩, rfl, -⟩ := h
  refine ⟨b, ?_, C20_event_types.2.2.1 _ _ hk⟩
  have := congrArg (·[0]?) hb
  simpa using this

theorem parse_unsupported (p : ParserV4) (validate : Bool) (bs : Bytes) :
    (∃ r, p.parseEvent validate bs = .ok none r) ↔ Spec.passedOver p.checksum validate bs := by
  have hno : ∀ r, p.parseEvent validate bs = .ok none r → ∀ b, bs[4]? = some b → b.toNat ∉ Spec.supportedCodes := by
    intro r h b hb
    unfold ParserV4.parseEvent at h
    rw [P.bind_eq_ok] at h
    obtain ⟨_, r0, hv, h⟩ := h
    have hr0 : r0 = bs := by
      have hw : ∀ r1, (if p.checksum && validate then ParserV4.verifyChecksum else pure () : P Unit) bs = .ok () r1 → r1 = bs := by
        intro r1 hv
        by_cases hc : (p.checksum && validate) = true
        · rw [if_pos hc] at hv
          by_cases hh : Spec.HasHeader bs
          · obtain ⟨v1, v2, v3, v4⟩ := verify_cases bs hh
            by_cases hl : Spec.announced bs ≤ bs.length
            · by_cases h4 : Spec.announced bs < 4
              · rw [v2 hl h4] at hv; cases hv
              · by_cases hm : Spec.checksumMatches bs
                · rw [v3 hl (by omega) hm] at hv; cases hv; rfl
                · obtain ⟨e, r, h⟩ := v4 hl (by omega) hm
                  rw [h] at hv; cases hv
            · obtain ⟨e, r, h⟩ := v1 (by omega)
              rw [h] at hv; cases hv
          · obtain ⟨e, r, he⟩ := header_err bs hh
            unfold ParserV4.verifyChecksum at hv
            rw [P.bind_apply, P.peek_eq, he] at hv
            cases hv
        · rw [if_neg hc] at hv; cases hv; rfl
      exact hw r0 hv
    subst hr0
    simp only [P.bind_eq_ok] at h
    obtain ⟨hd, r1, h1, n, r2, -, d, r3, -, d', r4, -, h⟩ := h
    obtain ⟨b', hb', ht⟩ := header_type _ _ _ h1
    rw [hb] at hb'
    cases hb'
    intro hmem
    rw [← ht, ← supported_iff] at hmem
    rw [if_pos hmem] at h
    cases h
  constructor
  · rintro ⟨r, h⟩
    obtain ⟨hh, h19, hl, -⟩ := C28_parse_extent p validate bs r none h
    have hnp := (C86_parse_event p validate bs).1
    have hm : p.checksum = true → validate = true → Spec.checksumMatches bs := by
      intro hc hv
      subst hv
      by_contra hm
      have := (C30_parse_event p hc bs hh (by omega) hl).1 hm
      rw [h] at this
      cases this
    refine ⟨hh, hno r h, ?_, hl, hm⟩
    split
    · rename_i hc
      by_contra hlt
      have : Spec.impossibleLength p.checksum validate bs := by
        refine ⟨hh, ?_⟩
        rw [if_pos hc]
        split
        · rename_i hv; exact ⟨hl, .inr ⟨by omega, hm hc hv⟩⟩
        · exact .inr ⟨by omega, hl⟩
      rw [hnp this] at h
      cases h
    · exact h19
  · rintro ⟨hh, hs, hmin, hl, hm⟩
    have h19 : 19 ≤ Spec.announced bs := by split at hmin <;> omega
    obtain ⟨hd, h1, h2⟩ := header_ok bs hh
    obtain ⟨b, hb, ht⟩ := header_type _ _ _ h1
    have hns : ¬ hd.typeCode.supported = true := by
      rw [supported_iff, ht]; exact hs b hb
    have key : p.parseEvent false bs = .ok none (bs.drop 19 |>.drop (hd.eventLen - 19)) := by
      unfold ParserV4.parseEvent
      rw [Bool.and_false, if_neg (by simp), P.bind_apply, P.pure_apply, R.bind_ok, P.bind_apply, h1,
          R.bind_ok, P.bind_apply, dataLen_ok hd (by omega), R.bind_ok, P.bind_apply, readLen,
          if_neg (by rw [List.length_drop]; omega), R.bind_ok, P.bind_apply]
      by_cases hc : p.checksum = true
      · rw [if_pos hc] at hmin
        rw [if_pos hc, if_neg (by rw [List.length_take, List.length_drop]; omega), P.pure_apply, R.bind_ok, if_neg hns]
        rfl
      · rw [if_neg hc, P.pure_apply, R.bind_ok, if_neg hns]
        rfl
    refine ⟨_, Eq.trans ?_ key⟩
    by_cases hv : (p.checksum && validate) = true
    · rw [Bool.and_eq_true] at hv
      obtain ⟨hc, rfl⟩ := hv
      exact (C30_parse_event p hc bs hh (by omega) hl).2 (hm hc rfl)
    · unfold ParserV4.parseEvent
      rw [Bool.and_false, if_neg hv, if_neg (by simp)]

/-- what the server sent holds, after events the stream passes over, an event with an impossible length -/
def Spec.badEvent (crc validate : Bool) (inp : List UInt8) : Prop :=
  ∃ (over : List (List UInt8)) (e rest : List UInt8), Delivers inp ((over ++ [e]).map (0x00 :: ·)) rest ∧
    (∀ x ∈ over, passedOver crc validate x) ∧ impossibleLength crc validate e

theorem nextLoop_panic (s : BinlogStream) (c : Conn) :
    PanicsWhen (Spec.badEvent s.pv4.checksum s.validateChecksum c.inp) (s.nextLoop c) := by
  induction hn : c.inp.length using Nat.strong_induction_on generalizing c with
  | _ n ih =>
    rw [BinlogStream.nextLoop.eq_def]
    unfold BinlogStream.recvAndParse
    rcases recvMsg_total c with ⟨m, c1, h⟩ | ⟨e, c1, h⟩
    · have hfirst : ∀ m', (∃ over e rest, Spec.Delivers c.inp ((over ++ [e]).map ((0x00 : UInt8) :: ·)) rest ∧
          (over ++ [e]).head? = some m') → m = 0 :: m' := by
        rintro m' ⟨over, e, rest, hd, he⟩
        cases over with
        | nil =>
          obtain ⟨c', e', -⟩ := Delivers.recv hd
          rw [h] at e'
          cases e'
          simpa using he
        | cons x over =>
          obtain ⟨c', e', -⟩ := Delivers.recv hd
          rw [h] at e'
          cases e'
          simpa using he
      have hbad : Spec.badEvent s.pv4.checksum s.validateChecksum c.inp ↔
          ∃ t, m = 0 :: t ∧ (Spec.impossibleLength s.pv4.checksum s.validateChecksum t ∨
            (Spec.passedOver s.pv4.checksum s.validateChecksum t ∧
              Spec.badEvent s.pv4.checksum s.validateChecksum c1.inp)) := by
        constructor
        · rintro ⟨over, e, rest, hd, ho, he⟩
          cases over with
          | nil => exact ⟨e, hfirst e ⟨[], e, rest, hd, rfl⟩, .inl he⟩
          | cons x over =>
            have hm := hfirst x ⟨x :: over, e, rest, hd, rfl⟩
            obtain ⟨c', e', -, hd', -⟩ := Delivers.recv hd
            rw [h] at e'
            cases e'
            exact ⟨x, hm, .inr ⟨ho x (by simp), over, e, rest, hd', fun y hy => ho y (by simp [hy]), he⟩⟩
        · rintro ⟨t, rfl, hi | ⟨hp, over, e, rest, hd, ho, he⟩⟩
          · exact ⟨[], t, _, recv_delivers h, by simp, hi⟩
          · refine ⟨t :: over, e, rest, delivers_cons (recv_delivers h) _ _ hd, ?_, he⟩
            intro x hx
            rcases List.mem_cons.1 hx with rfl | hx
            · exact hp
            · exact ho x hx
      rw [hbad, h]
      cases m with
      | nil =>
        refine ⟨?_, fun _ => .inr ⟨_, _, rfl⟩⟩
        rintro ⟨t, e, -⟩
        cases e
      | cons b t =>
        dsimp only
        by_cases hb : b = 0
        · subst hb
          rw [if_neg (by simp), if_neg (by simp)]
          have hsimp : (∃ t', (0 : UInt8) :: t = 0 :: t' ∧ (Spec.impossibleLength s.pv4.checksum s.validateChecksum t' ∨
              (Spec.passedOver s.pv4.checksum s.validateChecksum t' ∧
                Spec.badEvent s.pv4.checksum s.validateChecksum c1.inp))) ↔
              (Spec.impossibleLength s.pv4.checksum s.validateChecksum t ∨
              (Spec.passedOver s.pv4.checksum s.validateChecksum t ∧
                Spec.badEvent s.pv4.checksum s.validateChecksum c1.inp)) := by
            constructor
            · rintro ⟨t', e, h⟩
              cases e
              exact h
            · exact fun h => ⟨t, rfl, h⟩
          rw [hsimp]
          obtain ⟨p1, p2⟩ := C86_parse_event s.pv4 s.validateChecksum t
          have hun := parse_unsupported s.pv4 s.validateChecksum t
          by_cases hi : Spec.impossibleLength s.pv4.checksum s.validateChecksum t
          · have : M.parse t (s.pv4.parseEvent s.validateChecksum) c1 = .panic := by
              unfold M.parse; rw [p1 hi]
            rw [this]
            exact ⟨fun _ => rfl, fun hb => (hb (.inl hi)).elim⟩
          · rcases p2 hi with ⟨o, r, ho⟩ | ⟨e, r, ho⟩
            · have : M.parse t (s.pv4.parseEvent s.validateChecksum) c1 = .ok o c1 := by
                unfold M.parse; rw [ho]
              rw [this]
              cases o with
              | some ev =>
                have hnp : ¬ Spec.passedOver s.pv4.checksum s.validateChecksum t := by
                  rw [← hun, ho]
                  rintro ⟨r, h⟩
                  cases h
                exact ⟨fun hb => (hb.elim hi fun h => (hnp h.1)).elim, fun _ => .inl ⟨_, _, rfl⟩⟩
              | none =>
                have hp := hun.1 ⟨r, ho⟩
                dsimp only
                rw [if_pos (recv_shorter h)]
                have := ih _ (hn ▸ recv_shorter h) c1 rfl
                exact ⟨fun hb => this.1 (hb.elim (fun h => (hi h).elim) fun h => h.2), fun hb => this.2 fun h => hb (.inr ⟨hp, h⟩)⟩
            · have : M.parse t (s.pv4.parseEvent s.validateChecksum) c1 = .err e c1 := by
                unfold M.parse; rw [ho]
              rw [this]
              have hnp : ¬ Spec.passedOver s.pv4.checksum s.validateChecksum t := by
                rw [← hun, ho]
                rintro ⟨r, h⟩
                cases h
              exact ⟨fun hb => (hb.elim hi fun h => (hnp h.1)).elim, fun _ => .inr ⟨_, _, rfl⟩⟩
        · refine ⟨?_, fun _ => ?_⟩
          · rintro ⟨t', e, -⟩
            cases e
            exact (hb rfl).elim
          · by_cases hf : (s.nonBlock && b == 0xfe) = true
            · rw [if_pos hf]; exact .inl ⟨_, _, rfl⟩
            · rw [if_neg hf, if_pos hb]; exact .inr ⟨_, _, rfl⟩
    · rw [h]
      refine ⟨?_, fun _ => .inr ⟨_, _, rfl⟩⟩
      rintro ⟨over, e, rest, hd, -⟩
      cases over with
      | nil => exact (not_delivers h _ _ _ hd).elim
      | cons m ms => exact (not_delivers h _ _ _ hd).elim

/-- C86 for the stream: on any connection, whatever the server has sent, asking for the next event panics exactly when
the stream is not complete and, after events that are passed over, there is one with an impossible length. -/
theorem C86_next_event (s : BinlogStream) (c : Conn) :
    PanicsWhen (s.completed = false ∧ Spec.badEvent s.pv4.checksum s.validateChecksum c.inp) (s.nextEvent c) := by
  unfold BinlogStream.nextEvent
  cases hc : s.completed
  · have := nextLoop_panic s c
    simpa using this
  · exact ⟨fun h => by simp at h, fun _ => .inl ⟨_, _, rfl⟩⟩

/-! ### format description events -/

/-- a format description whose start is well formed (version, NUL-terminated server version, time, header length) and
whose list of post-header lengths is not: it has no entry for format descriptions, or the entry is less than 57, or it
announces more post-header lengths than there are bytes -/
def Spec.badDescription (d : List UInt8) : Prop :=
  ∃ (ver v pad ts : List UInt8) (hl : UInt8) (lens : List UInt8), ver.length = 2 ∧ 0 ∉ v ∧ validUtf8 v = true ∧
    (v ++ 0 :: pad).length = 50 ∧ ts.length = 4 ∧ d = ver ++ ((v ++ 0 :: pad) ++ (ts ++ hl :: lens)) ∧
    ∀ b, lens[14]? = some b → b.toNat < 57 ∨ lens.length < b.toNat - 57

theorem Well.startData : Well StartData.readFrom := by unfold StartData.readFrom; well

theorem onSub_eq_ok {α : Type} {sub : Bytes} {p : P α} {bs r : Bytes} {a : α} :
    P.onSub sub p bs = .ok a r ↔ (∃ t, p sub = .ok a t) ∧ bs = r := by
  unfold P.onSub
  cases p sub <;> simp

theorem onSub_eq_panic {α : Type} {sub : Bytes} {p : P α} {bs : Bytes} : P.onSub sub p bs = .panic ↔ p sub = .panic := by
  unfold P.onSub
  cases p sub <;> simp

theorem onSub_ne_hang {α : Type} {sub : Bytes} {p : P α} {bs : Bytes} (h : p sub ≠ .hang) : P.onSub sub p bs ≠ .hang := by
  unfold P.onSub
  cases e : p sub <;> simp
  exact h e

theorem toUtf8_eq_ok {x y bs r : Bytes} : toUtf8 x bs = .ok y r ↔ validUtf8 x = true ∧ x = y ∧ bs = r := by
  unfold toUtf8
  split
  · simp [*]
  · simp [P.fail, *]

theorem startData_eq_ok {bs r : Bytes} : (∃ s, StartData.readFrom bs = .ok s r) ↔
    ∃ ver v pad ts : List UInt8, ver.length = 2 ∧ 0 ∉ v ∧ validUtf8 v = true ∧
      (v ++ 0 :: pad).length = 50 ∧ ts.length = 4 ∧ bs = ver ++ ((v ++ 0 :: pad) ++ (ts ++ r)) := by
  unfold StartData.readFrom readLeU16
  simp only [P.bind_eq_ok, readFixed_eq_ok, readLen_eq_ok, onSub_eq_ok, readUntil_eq_ok, toUtf8_eq_ok, readLeU32_eq_ok,
    P.pure_eq_ok]
  constructor
  · rintro ⟨s, n, r1, ⟨h1, -, rfl⟩, f, r2, ⟨h2, h3⟩, v, _, ⟨⟨pad, h4, rfl⟩, rfl⟩, _, _, ⟨h5, rfl, rfl⟩, m, _, ⟨ts, h6, rfl, -⟩,
      -, rfl⟩
    refine ⟨bs.take 2, v, pad, ts, by simp; omega, h4, h5, h2, h6, ?_⟩
    rw [← h3, List.take_append_drop]
  · rintro ⟨ver, v, pad, ts, h1, h2, h3, h4, h5, rfl⟩
    exact ⟨_, _, _, ⟨by simp; omega, rfl, rfl⟩, v ++ 0 :: pad, ts ++ r, ⟨h4, by rw [← h1, List.drop_left]⟩, v, _,
      ⟨⟨pad, h2, rfl⟩, rfl⟩, v, _, ⟨h3, rfl, rfl⟩, _, _, ⟨ts, h5, rfl, rfl⟩, rfl, rfl⟩

/-- C86 for the description of the format: it panics exactly on lists of post-header lengths that do not fit. -/
theorem C86_description (d : Bytes) : PanicsIff (Spec.badDescription d) (FormatDescriptionData.readFrom d) := by
  have tail : ∀ (f : Bytes → FormatDescriptionData) (g : Bytes → Nat → FormatDescriptionData) (lens : Bytes),
      (((fdeCount >>= fun n => remaining >>= fun rem =>
        if rem = n then readRest >>= fun l => pure (f l)
        else if rem < n then P.panic
        else readLen n >>= fun l => readU8 >>= fun fl => pure (g l fl)) lens : R FormatDescriptionData) = .panic ↔
      ∀ b, lens[14]? = some b → b.toNat < 57 ∨ lens.length < b.toNat - 57) ∧
      ((fdeCount >>= fun n => remaining >>= fun rem =>
        if rem = n then readRest >>= fun l => pure (f l)
        else if rem < n then P.panic
        else readLen n >>= fun l => readU8 >>= fun fl => pure (g l fl)) lens : R FormatDescriptionData) ≠ .hang := by
    intro f g lens
    rw [P.bind_apply]
    unfold fdeCount
    rw [show LogEventType.formatDescription.toByte - 1 = 14 from rfl]
    cases h : lens[14]? with
    | none => simp
    | some b =>
      dsimp only
      by_cases h57 : b.toNat < 57
      · rw [if_pos h57]
        simp [h57]
      · rw [if_neg h57, R.bind_ok, P.bind_apply]
        have hr : remaining lens = .ok lens.length lens := rfl
        rw [hr, R.bind_ok]
        by_cases h1 : lens.length = b.toNat - 57
        · rw [if_pos h1]
          have hw : Well (readRest >>= fun l => pure (f l) : P FormatDescriptionData) := by well
          refine ⟨⟨fun e => (hw.ne_panic _ e).elim, fun hb => ?_⟩, hw.ne_hang _⟩
          have := hb b rfl
          omega
        · rw [if_neg h1]
          by_cases h2 : lens.length < b.toNat - 57
          · rw [if_pos h2]
            refine ⟨⟨fun _ b' hb' => ?_, fun _ => rfl⟩, by simp [P.panic]⟩
            cases hb'
            exact .inr h2
          · rw [if_neg h2]
            have hw : Well (readLen (b.toNat - 57) >>= fun l => readU8 >>= fun fl => pure (g l fl) : P FormatDescriptionData) := by
              well
            refine ⟨⟨fun e => (hw.ne_panic _ e).elim, fun hb => ?_⟩, hw.ne_hang _⟩
            have := hb b rfl
            omega
  refine panicsIff_of ?_ ?_
  · unfold FormatDescriptionData.readFrom
    rw [bind_panic Well.startData]
    constructor
    · rintro ⟨s, r, h1, h2⟩
      rw [bind_panic (by well)] at h2
      obtain ⟨hl, lens, h3, h4⟩ := h2
      rw [readU8_eq_ok] at h3
      obtain ⟨b, rfl, rfl⟩ := h3
      obtain ⟨ver, v, pad, ts, k1, k2, k3, k4, k5, rfl⟩ := startData_eq_ok.1 ⟨s, h1⟩
      exact ⟨ver, v, pad, ts, b, lens, k1, k2, k3, k4, k5, rfl, (tail _ _ lens).1.1 h4⟩
    · rintro ⟨ver, v, pad, ts, b, lens, k1, k2, k3, k4, k5, rfl, h4⟩
      obtain ⟨s, hs⟩ := startData_eq_ok.2 ⟨ver, v, pad, ts, k1, k2, k3, k4, k5, rfl⟩
      refine ⟨s, b :: lens, hs, ?_⟩
      rw [bind_panic (by well)]
      exact ⟨b.toNat, lens, rfl, (tail _ _ lens).1.2 h4⟩
  · unfold FormatDescriptionData.readFrom
    refine bind_not_hang (Well.startData.ne_hang _) fun s r _ => bind_not_hang ((Well.u8).ne_hang _) fun hl lens _ => ?_
    exact (tail _ _ lens).2

/-- C86 for making a parser from a format description event. -/
theorem C86_from_description (bs : Bytes) :
    PanicsIff (Spec.HasHeader bs ∧ (Spec.announced bs < 19 ∨ (Spec.announced bs ≤ bs.length ∧
      Spec.badDescription ((bs.take (Spec.announced bs)).drop 19)))) (ParserV4.fromFdeBytes bs) := by
  by_cases hh : Spec.HasHeader bs
  · obtain ⟨hd, h1, h2⟩ := header_ok bs hh
    have h19 := hh.1
    unfold ParserV4.fromFdeBytes
    rw [P.bind_apply, h1, R.bind_ok, P.bind_apply]
    by_cases hl : Spec.announced bs < 19
    · have : hd.dataLen (bs.drop 19) = .panic := by unfold EventHeader.dataLen; rw [if_pos (by omega)]; rfl
      rw [this]
      exact ⟨fun _ => rfl, fun hb => (hb ⟨hh, .inl hl⟩).elim⟩
    · rw [dataLen_ok hd (by omega), R.bind_ok, P.bind_apply]
      by_cases hle : Spec.announced bs ≤ bs.length
      · have : readLen (hd.eventLen - 19) (bs.drop 19)
            = .ok ((bs.take (Spec.announced bs)).drop 19) ((bs.drop 19).drop (hd.eventLen - 19)) := by
          rw [readLen, if_neg (by rw [List.length_drop]; omega), h2, List.drop_take]
        rw [this, R.bind_ok]
        have hw : ∀ data : FormatDescriptionData, Well (do
            let crc ← (if data.checksumFlag = 1 then do
                let rem ← remaining
                if rem < 4 then P.fail .binlogEvent
                else do return some (← readLeU32)
              else return none : P (Option Nat))
            return (data, crc) : P (FormatDescriptionData × Option Nat)) := by intro data; well
        have := ((C86_description ((bs.take (Spec.announced bs)).drop 19)).bindWell hw).onSub
          ((bs.drop 19).drop (hd.eventLen - 19))
        refine (this.bindWell fun r => Well.pure _).congr ⟨fun hb => ⟨hh, .inr ⟨hle, hb⟩⟩, ?_⟩
        rintro ⟨-, h | ⟨-, h⟩⟩
        · omega
        · exact h
      · rw [readLen, if_pos (by rw [List.length_drop]; omega)]
        exact ⟨fun hb => by omega, fun _ => .inr ⟨_, _, rfl⟩⟩
  · refine ⟨fun hb => (hh hb.1).elim, fun _ => .inr ?_⟩
    obtain ⟨e, r, he⟩ := header_err bs hh
    unfold ParserV4.fromFdeBytes
    rw [P.bind_apply, he]
    exact ⟨_, _, rfl⟩

/-- C86 for opening a binlog file. -/
theorem C86_binlog_file (bs : Bytes) :
    PanicsIff (∃ log, bs = [0xfe, 0x62, 0x69, 0x6e] ++ log ∧ Spec.HasHeader log ∧ log[4]? = some 15 ∧
      (Spec.announced log < 19 ∨ (Spec.announced log ≤ log.length ∧
        Spec.badDescription ((log.take (Spec.announced log)).drop 19)))) (ParserV4.fromBinlogFile bs) := by
  have hwell : Well BinlogVersion.readFrom := by
    unfold BinlogVersion.readFrom
    refine Well.bind (by well) fun m => Well.ite (fun _ => by well) fun _ => Well.bind (Well.peek Well.header) fun h => ?_
    cases h.typeCode <;> well
  have hv4 : ∀ r, BinlogVersion.readFrom bs = .ok .v4 r ↔
      bs = [0xfe, 0x62, 0x69, 0x6e] ++ r ∧ Spec.HasHeader r ∧ r[4]? = some 15 := by
    intro r
    unfold BinlogVersion.readFrom
    rw [P.bind_eq_ok]
    simp only [readLen_eq_ok]
    constructor
    · rintro ⟨m, r1, ⟨hm, rfl⟩, h⟩
      by_cases hc : m ≠ [0xfe, 0x62, 0x69, 0x6e]
      · rw [if_pos hc] at h; cases h
      · rw [if_neg hc, P.bind_eq_ok] at h
        have hm' : m = [0xfe, 0x62, 0x69, 0x6e] := by simpa using hc
        obtain ⟨hd, r2, h1, h2⟩ := h
        rw [P.peek_eq] at h1
        cases e : EventHeader.readFrom r1 with
        | ok a t =>
          rw [e] at h1
          cases h1
          obtain ⟨b, hb, ht⟩ := header_type _ _ _ e
          have hk : hd.typeCode = .formatDescription ∧ r1 = r := by
            cases hk : hd.typeCode <;> rw [hk] at h2 <;> try (cases h2)
            · dsimp only at h2
              split at h2 <;> cases h2
            · exact ⟨rfl, rfl⟩
          obtain ⟨hk, rfl⟩ := hk
          refine ⟨by rw [hm'], header_inv _ _ _ e, ?_⟩
          rw [hk] at ht
          rw [hb]
          congr 1
          have h15 : b.toNat = 15 := ht.symm
          exact UInt8.toNat_inj.1 (by simpa using h15)
        | err e' t => rw [e] at h1; cases h1
        | panic => rw [e] at h1; cases h1
        | hang => rw [e] at h1; cases h1
    · rintro ⟨rfl, hh, h15⟩
      refine ⟨_, r, ⟨rfl, rfl⟩, ?_⟩
      rw [if_neg (by simp), P.bind_apply, P.peek_eq]
      obtain ⟨hd, h1, -⟩ := header_ok r hh
      obtain ⟨b, hb, ht⟩ := header_type _ _ _ h1
      rw [h15] at hb
      cases hb
      have hk : hd.typeCode = .formatDescription := C20_event_types.2.1 _ _ (by rw [ht]; rfl)
      rw [h1]
      dsimp only
      rw [R.bind_ok, hk]
      rfl
  unfold ParserV4.fromBinlogFile
  rw [P.bind_apply]
  have h0 := hwell bs
  cases hv : BinlogVersion.readFrom bs with
  | ok v r =>
    rw [R.bind_ok]
    by_cases hne : v ≠ .v4
    · rw [if_pos hne]
      refine ⟨?_, fun _ => .inr ⟨_, _, rfl⟩⟩
      rintro ⟨log, h1, h2, h3, -⟩
      have := (hv4 log).2 ⟨h1, h2, h3⟩
      rw [hv] at this
      cases this
      exact (hne rfl).elim
    · have hv' : v = .v4 := by simpa using hne
      subst hv'
      rw [if_neg hne]
      obtain ⟨h1, h2, h3⟩ := (hv4 r).1 hv
      refine ((C86_from_description r).bindWell fun r => Well.pure _).congr ⟨fun hb => ⟨r, h1, h2, h3, hb.2⟩, ?_⟩
      rintro ⟨log, h1', h2', h3', h4⟩
      have : log = r := by
        rw [h1] at h1'
        simpa using h1'.symm
      subst this
      exact ⟨h2, h4⟩
  | err e r =>
    refine ⟨?_, fun _ => .inr ⟨_, _, rfl⟩⟩
    rintro ⟨log, h1, h2, h3, -⟩
    have := (hv4 log).2 ⟨h1, h2, h3⟩
    rw [hv] at this
    cases this
  | panic => rw [hv] at h0; exact h0.elim
  | hang => rw [hv] at h0; exact h0.elim

/-! ### payloads -/

/-- C86 for the payloads with a plain layout: no input makes their decoders panic. -/
theorem C86_payloads (bs : Bytes) :
    PanicsIff False (XidData.readFrom bs) ∧ PanicsIff False (RotateData.readFrom bs) ∧
    PanicsIff False (QueryData.readFrom bs) ∧ PanicsIff False (QueryStatusVars.readFrom bs) ∧
    PanicsIff False (IntvarData.readFrom bs) ∧ PanicsIff False (RandData.readFrom bs) ∧
    PanicsIff False (UserVarData.readFrom bs) ∧ PanicsIff False (UserVarValue.readFrom bs) ∧
    PanicsIff False (IncidentData.readFrom bs) ∧ PanicsIff False (CreateFileData.readFrom bs) ∧
    PanicsIff False (AppendBlockData.readFrom bs) ∧ PanicsIff False (ExecLoadData.readFrom bs) ∧
    PanicsIff False (DeleteFileData.readFrom bs) ∧ PanicsIff False (BeginLoadQueryData.readFrom bs) ∧
    PanicsIff False (ExecuteLoadQueryData.readFrom bs) ∧ PanicsIff False (GtidLogData.readFrom bs) ∧
    PanicsIff False (TableMapData.readFrom bs) ∧ PanicsIff False (RowsDataV1.readFrom bs) ∧
    PanicsIff False (RowsDataV2.readFrom bs) := by
  refine ⟨?_, ?_, Well.queryData.panicsIff bs, ?_, ?_, ?_, ?_, ?_, ?_, ?_, ?_, ?_, ?_, ?_, ?_, ?_, ?_, ?_, ?_⟩
  · exact Well.panicsIff (by unfold XidData.readFrom; well) bs
  · exact Well.panicsIff (by unfold RotateData.readFrom; well) bs
  · exact Well.panicsIff (Well.whileRemaining Well.statusVar fun bs a r _ h => statusVar_consumes bs a r h) bs
  · exact Well.panicsIff (by unfold IntvarData.readFrom; well) bs
  · exact Well.panicsIff (by unfold RandData.readFrom; well) bs
  · exact Well.panicsIff (by unfold UserVarData.readFrom; well) bs
  · exact Well.panicsIff (by unfold UserVarValue.readFrom; well) bs
  · exact Well.panicsIff (by unfold IncidentData.readFrom; well) bs
  · exact Well.panicsIff (by unfold CreateFileData.readFrom; well) bs
  · exact Well.panicsIff (by unfold AppendBlockData.readFrom; well) bs
  · exact Well.panicsIff (by unfold ExecLoadData.readFrom; well) bs
  · exact Well.panicsIff (by unfold DeleteFileData.readFrom; well) bs
  · exact Well.panicsIff (by unfold BeginLoadQueryData.readFrom; well) bs
  · exact Well.panicsIff (by unfold ExecuteLoadQueryData.readFrom; well) bs
  · exact Well.panicsIff (by unfold GtidLogData.readFrom LogicalTs.readFrom; well) bs
  · exact Well.panicsIff (by unfold TableMapData.readFrom; well) bs
  · exact Well.panicsIff (by unfold RowsDataV1.readFrom TableMapData.readFrom; well) bs
  · exact Well.panicsIff (by unfold RowsDataV2.readFrom; well) bs

/-! ### LOAD DATA events -/

theorem bind_panic_u8 {β : Type} {f : Nat → P β} {bs : Bytes} :
    (readU8 >>= f) bs = .panic ↔ ∃ (b : UInt8) (r : Bytes), bs = b :: r ∧ f b.toNat r = .panic := by
  rw [bind_panic (by well)]
  simp only [readU8_eq_ok]
  constructor
  · rintro ⟨_, r, ⟨b, rfl, rfl⟩, h⟩; exact ⟨b, r, rfl, h⟩
  · rintro ⟨b, r, rfl, h⟩; exact ⟨_, r, ⟨b, rfl, rfl⟩, h⟩

theorem bind_panic_u32 {β : Type} {f : Nat → P β} {bs : Bytes} :
    (readLeU32 >>= f) bs = .panic ↔ ∃ (x r : Bytes), x.length = 4 ∧ bs = x ++ r ∧ f (Spec.leNat x) r = .panic := by
  rw [bind_panic (by well)]
  simp only [readLeU32_eq_ok, leVal_eq_spec]
  constructor
  · rintro ⟨_, r, ⟨x, h1, rfl, rfl⟩, h⟩; exact ⟨x, r, h1, rfl, h⟩
  · rintro ⟨x, r, h1, rfl, h⟩; exact ⟨_, r, ⟨x, h1, rfl, rfl⟩, h⟩

theorem bind_panic_str8 {β : Type} {f : Bytes → P β} {bs : Bytes} :
    (readLen8Str >>= f) bs = .panic ↔
      ∃ (n : UInt8) (x r : Bytes), x.length = n.toNat ∧ bs = n :: (x ++ r) ∧ f x r = .panic := by
  rw [bind_panic (by unfold readLen8Str; well)]
  unfold readLen8Str
  simp only [P.bind_eq_ok, readU8_eq_ok, readLen_eq_ok]
  constructor
  · rintro ⟨x, r, ⟨_, _, ⟨n, rfl, rfl⟩, h1, rfl⟩, h⟩; exact ⟨n, x, r, h1, rfl, h⟩
  · rintro ⟨n, x, r, h1, rfl, h⟩; exact ⟨x, r, ⟨_, _, ⟨n, rfl, rfl⟩, h1, rfl⟩, h⟩

theorem bind_panic_left {α β : Type} {p : P α} {f : α → P β} (hf : ∀ a, Well (f a)) {bs : Bytes} :
    (p >>= f) bs = .panic ↔ p bs = .panic := by
  rw [P.bind_apply]
  cases h : p bs with
  | ok a r => simp only [R.bind_ok, reduceCtorEq, iff_false]; exact (hf a).ne_panic r
  | err e r => simp [R.bind]
  | panic => simp [R.bind]
  | hang => simp [R.bind]

theorem loadNames_panic (n tl sl : Nat) (bs : Bytes) :
    LoadNames.readFrom n tl sl bs = .panic ↔
      ∃ lens rest : Bytes, lens.length = n ∧ bs = lens ++ rest ∧ 2 ^ 32 ≤ (lens.map (·.toNat)).sum + n := by
  unfold LoadNames.readFrom
  rw [bind_panic (by well)]
  simp only [readLen_eq_ok]
  have hw : ∀ (lens : Bytes) (total : Nat), Well (do
      let names ← readLen total
      let t ← readLen (tl + 1)
      let table ← P.onSub t (readUntil 0 false)
      let s ← readLen (sl + 1)
      let schema ← P.onSub s (readUntil 0 false)
      let f ← readRest
      let file ← P.onSub f (readUntil 0 false)
      return (⟨lens, names, table, schema, file⟩ : LoadNames) : P LoadNames) := by intro lens total; well
  have ht : ∀ (lens r : Bytes), fieldNameTotal lens n r = .panic ↔ 2 ^ 32 ≤ (lens.map (·.toNat)).sum + n := by
    intro lens r
    by_cases h : (lens.map (·.toNat)).sum + n < 2 ^ 32
    · have : fieldNameTotal lens n = pure ((lens.map (·.toNat)).sum + n) := if_pos h
      rw [this]
      simp only [P.pure_apply, reduceCtorEq, false_iff]; omega
    · have : fieldNameTotal lens n = P.panic := if_neg h
      rw [this]
      simp only [P.panic, true_iff]; omega
  constructor
  · rintro ⟨lens, r, ⟨h1, rfl⟩, h⟩
    rw [bind_panic_left (hw lens)] at h
    exact ⟨lens, r, h1, rfl, (ht lens r).1 h⟩
  · rintro ⟨lens, r, h1, rfl, h⟩
    refine ⟨lens, r, ⟨h1, rfl⟩, ?_⟩
    rw [bind_panic_left (hw lens)]
    exact (ht lens r).2 h

theorem loadNames_ne_hang (n tl sl : Nat) (bs : Bytes) : LoadNames.readFrom n tl sl bs ≠ .hang := by
  unfold LoadNames.readFrom
  refine bind_not_hang (Well.ne_hang (by well) _) fun lens r _ => bind_not_hang ?_ fun total r _ => Well.ne_hang (by well) _
  by_cases h : (lens.map (·.toNat)).sum + n < 2 ^ 32
  · have : fieldNameTotal lens n = pure ((lens.map (·.toNat)).sum + n) := if_pos h
    rw [this]
    simp
  · have : fieldNameTotal lens n = P.panic := if_neg h
    rw [this]
    simp [P.panic]

/-- a LOAD event whose field names, with their terminators, have a total length of 2^32 bytes or more: the number of
fields at offset 14, their name lengths, one byte each, after the 7 bytes that follow it -/
def Spec.hugeLoad (bs : List UInt8) : Prop :=
  ∃ front num mid lens rest : List UInt8, front.length = 14 ∧ num.length = 4 ∧ mid.length = 7 ∧ lens.length = leNat num ∧
    bs = front ++ (num ++ (mid ++ (lens ++ rest))) ∧ 2 ^ 32 ≤ (lens.map (·.toNat)).sum + lens.length

/-- the same for NEW_LOAD events, where five strings with a length byte each and a flags byte follow -/
def Spec.hugeNewLoad (bs : List UInt8) : Prop :=
  ∃ (front num : List UInt8) (strs : List (List UInt8)) (flags : UInt8) (lens rest : List UInt8),
    front.length = 14 ∧ num.length = 4 ∧ strs.length = 5 ∧ (∀ s ∈ strs, s.length < 256) ∧ lens.length = leNat num ∧
    bs = front ++ (num ++ ((strs.map fun s => UInt8.ofNat s.length :: s).flatten ++ (flags :: (lens ++ rest)))) ∧
    2 ^ 32 ≤ (lens.map (·.toNat)).sum + lens.length

/-- C86 for LOAD events: field names of 2^32 bytes or more make the decoder panic, nothing else does; so no payload
shorter than 2^24 bytes does. -/
theorem C86_load (bs : Bytes) :
    PanicsIff (Spec.hugeLoad bs) (LoadData.readFrom bs) ∧ PanicsIff (Spec.hugeNewLoad bs) (NewLoadData.readFrom bs) ∧
    (bs.length < 2 ^ 24 → ¬ Spec.hugeLoad bs ∧ ¬ Spec.hugeNewLoad bs) := by
  refine ⟨panicsIff_of ?_ ?_, panicsIff_of ?_ ?_, fun hl => ?_⟩
  · unfold LoadData.readFrom
    simp only [bind_panic_u8, bind_panic_u32]
    constructor
    · rintro ⟨x1, _, h1, rfl, x2, _, h2, rfl, x3, _, h3, rfl, t, _, rfl, s, _, rfl, num, _, h4, rfl, m1, _, rfl, m2, _, rfl,
        m3, _, rfl, m4, _, rfl, m5, _, rfl, m6, _, rfl, m7, _, rfl, h⟩
      rw [bind_panic_left (fun _ => Well.pure _), loadNames_panic] at h
      obtain ⟨lens, rest, h5, rfl, h6⟩ := h
      exact ⟨x1 ++ x2 ++ x3 ++ [t, s], num, [m1, m2, m3, m4, m5, m6, m7], lens, rest, by simp; omega, h4, rfl, h5, by simp, by omega⟩
    · rintro ⟨front, num, mid, lens, rest, h1, h2, h3, h4, rfl, h5⟩
      obtain ⟨x1, r, rfl, k1, -⟩ := split_at 4 front (by omega)
      obtain ⟨x2, r, rfl, k2, -⟩ := split_at 4 r (by simp at h1; omega)
      obtain ⟨x3, r, rfl, k3, -⟩ := split_at 4 r (by simp at h1; omega)
      have hr : r.length = 2 := by simp at h1; omega
      obtain ⟨t, s, rfl⟩ := List.length_eq_two.1 hr
      obtain ⟨m1, m2, m3, m4, m5, m6, m7, rfl⟩ : ∃ a b c d e f g, mid = [a, b, c, d, e, f, g] := by
        rcases mid with _ | ⟨a, _ | ⟨b, _ | ⟨c, _ | ⟨d, _ | ⟨e, _ | ⟨f, _ | ⟨g, _ | ⟨h, t⟩⟩⟩⟩⟩⟩⟩⟩ <;> simp at h3 ⊢
      refine ⟨x1, _, k1, by simp only [List.append_assoc]; rfl, x2, _, k2, rfl, x3, _, k3, rfl, t, _, rfl, s, _, rfl, num, _, h2, rfl,
        m1, _, rfl, m2, _, rfl, m3, _, rfl, m4, _, rfl, m5, _, rfl, m6, _, rfl, m7, _, rfl, ?_⟩
      rw [bind_panic_left (fun _ => Well.pure _), loadNames_panic]
      exact ⟨lens, rest, h4, rfl, by omega⟩
  · unfold LoadData.readFrom
    repeat' (first | exact loadNames_ne_hang _ _ _ _ | (refine bind_not_hang ?_ fun _ _ _ => ?_) | exact Well.ne_hang (by well) _)
  · unfold NewLoadData.readFrom
    simp only [bind_panic_u8, bind_panic_u32, bind_panic_str8]
    have hof : ∀ (n : UInt8) (x : Bytes), x.length = n.toNat → UInt8.ofNat x.length = n := by
      intro n x h; rw [h]; simp
    constructor
    · rintro ⟨x1, _, h1, rfl, x2, _, h2, rfl, x3, _, h3, rfl, t, _, rfl, s, _, rfl, num, _, h4, rfl, m1, s1, _, e1, rfl,
        m2, s2, _, e2, rfl, m3, s3, _, e3, rfl, m4, s4, _, e4, rfl, m5, s5, _, e5, rfl, m6, _, rfl, h⟩
      rw [bind_panic_left (fun _ => Well.pure _), loadNames_panic] at h
      obtain ⟨lens, rest, h5, rfl, h6⟩ := h
      refine ⟨x1 ++ x2 ++ x3 ++ [t, s], num, [s1, s2, s3, s4, s5], m6, lens, rest, by simp; omega, h4, rfl, ?_, h5, ?_, by omega⟩
      · have := m1.toNat_lt; have := m2.toNat_lt; have := m3.toNat_lt; have := m4.toNat_lt; have := m5.toNat_lt
        simp; omega
      · simp [hof _ _ e1, hof _ _ e2, hof _ _ e3, hof _ _ e4, hof _ _ e5]
    · rintro ⟨front, num, strs, m6, lens, rest, h1, h2, h3, h3', h4, rfl, h5⟩
      obtain ⟨x1, r, rfl, k1, -⟩ := split_at 4 front (by omega)
      obtain ⟨x2, r, rfl, k2, -⟩ := split_at 4 r (by simp at h1; omega)
      obtain ⟨x3, r, rfl, k3, -⟩ := split_at 4 r (by simp at h1; omega)
      have hr : r.length = 2 := by simp at h1; omega
      obtain ⟨t, s, rfl⟩ := List.length_eq_two.1 hr
      obtain ⟨m1, m2, m3, m4, m5, rfl⟩ : ∃ a b c d e, strs = [a, b, c, d, e] := by
        rcases strs with _ | ⟨a, _ | ⟨b, _ | ⟨c, _ | ⟨d, _ | ⟨e, _ | ⟨f, t⟩⟩⟩⟩⟩⟩ <;> simp at h3 ⊢
      have hn : ∀ x ∈ [m1, m2, m3, m4, m5], x.length = (UInt8.ofNat x.length).toNat := by
        intro x hx
        have := h3' x hx
        rw [UInt8.toNat_ofNat']
        omega
      refine ⟨x1, _, k1, by simp only [List.append_assoc]; rfl, x2, _, k2, rfl, x3, _, k3, rfl, t, _, rfl, s, _, rfl, num, _, h2, rfl,
        _, m1, _, hn m1 (by simp), by simp only [List.map_cons, List.flatten_cons, List.cons_append, List.append_assoc]; rfl,
        _, m2, _, hn m2 (by simp), rfl, _, m3, _, hn m3 (by simp), rfl,
        _, m4, _, hn m4 (by simp), rfl, _, m5, _, hn m5 (by simp), rfl, m6, _, rfl, ?_⟩
      rw [bind_panic_left (fun _ => Well.pure _), loadNames_panic]
      exact ⟨lens, rest, h4, rfl, by omega⟩
  · unfold NewLoadData.readFrom
    have h8 : Well readLen8Str := by unfold readLen8Str; well
    repeat' (first | exact loadNames_ne_hang _ _ _ _ | exact Well.ne_hang h8 _ | (refine bind_not_hang ?_ fun _ _ _ => ?_) |
      exact Well.ne_hang (by well) _)
  · have hsum : ∀ lens : Bytes, (lens.map (·.toNat)).sum ≤ 255 * lens.length := by
      intro lens
      induction lens with
      | nil => simp
      | cons b t ih =>
        have := b.toNat_lt
        simp only [List.map_cons, List.sum_cons, List.length_cons]
        omega
    constructor
    · rintro ⟨front, num, mid, lens, rest, -, -, -, -, rfl, h5⟩
      have := hsum lens
      simp only [List.length_append] at hl
      omega
    · rintro ⟨front, num, strs, m6, lens, rest, -, -, -, -, -, rfl, h5⟩
      have := hsum lens
      simp only [List.length_append, List.length_cons] at hl
      omega

/-! ### GTID sets -/

/-- a server's entry that announces so many intervals that the vector for them cannot be reserved -/
def Spec.hugeIntervals (bs : List UInt8) : Prop :=
  ∃ sid k rest, sid < 2 ^ 128 ∧ k < 2 ^ 64 ∧ 2 ^ 59 ≤ k ∧ bs = le 16 sid ++ (le 8 k ++ rest)

/-- a set that announces so many servers that the map for them cannot be reserved; or one where, after well-formed
entries, there is one of `n` announced that has too many intervals -/
def Spec.hugeSet (bs : List UInt8) : Prop :=
  ∃ n rest, n < 2 ^ 64 ∧ bs = le 8 n ++ rest ∧ (2 ^ 63 ≤ 40 * n ∨
    ∃ (gs : List Gtids) (r : List UInt8), (∀ g ∈ gs, g.Ok ∧ g.intervals.length < 2 ^ 59) ∧ gs.length < n ∧
      rest = (gs.map Gtids.encode).flatten ++ r ∧ hugeIntervals r)

theorem Well.gtidIntervals (n last : Nat) : Well (readGtidIntervals n last) := by
  induction n generalizing last with
  | zero => exact Well.pure _
  | succ n ih =>
    unfold readGtidIntervals
    refine Well.bind (by well) fun a => Well.bind (by well) fun b => Well.ite (fun _ => by well) fun _ => Well.bind (ih _) fun _ => ?_
    exact Well.pure _

theorem gtidRange_panicsIff (bs : Bytes) : PanicsIff (Spec.hugeIntervals bs) (GtidRange.readFrom bs) := by
  refine panicsIff_of ?_ ?_
  · unfold GtidRange.readFrom
    rw [bind_panic (by well)]
    constructor
    · rintro ⟨sid, r, h1, h2⟩
      rw [bind_panic (by well)] at h2
      obtain ⟨k, r1, h3, h4⟩ := h2
      rw [readLeU128_iff] at h1
      rw [readLeU64_iff] at h3
      rw [bind_panic_left (fun _ => Well.bind (Well.gtidIntervals _ _) fun _ => Well.pure _)] at h4
      refine ⟨sid, k, r1, h1.1, h3.1, ?_, by rw [h1.2, h3.2]⟩
      unfold withCapacity at h4
      by_contra hc
      rw [if_pos (by omega)] at h4
      cases h4
    · rintro ⟨sid, k, r, h1, h2, h3, rfl⟩
      refine ⟨sid, _, readLeU128_iff.2 ⟨h1, rfl⟩, ?_⟩
      rw [bind_panic (by well)]
      refine ⟨k, _, readLeU64_iff.2 ⟨h2, rfl⟩, ?_⟩
      rw [bind_panic_left (fun _ => Well.bind (Well.gtidIntervals _ _) fun _ => Well.pure _), withCapacity, if_neg (by omega)]
      rfl
  · unfold GtidRange.readFrom
    refine bind_not_hang (Well.ne_hang (by well) _) fun _ _ _ => bind_not_hang (Well.ne_hang (by well) _) fun n r _ =>
      bind_not_hang ?_ fun _ _ _ => bind_not_hang ((Well.gtidIntervals _ _).ne_hang _) fun _ _ _ => by simp
    unfold withCapacity
    split <;> simp [P.panic]

theorem gtidRanges_panicsIff (n : Nat) (m : List GtidRange) (bs : Bytes) :
    PanicsIff (∃ (gs : List Spec.Gtids) (r : Bytes), (∀ g ∈ gs, g.Ok ∧ g.intervals.length < 2 ^ 59) ∧ gs.length < n ∧
      bs = (gs.map Spec.Gtids.encode).flatten ++ r ∧ Spec.hugeIntervals r) (readGtidRanges n m bs) := by
  induction n generalizing m bs with
  | zero => exact ⟨fun ⟨_, _, _, h, _⟩ => by omega, fun _ => .inl ⟨_, _, rfl⟩⟩
  | succ n ih =>
    unfold readGtidRanges
    rw [P.bind_apply]
    have h0 := gtidRange_panicsIff bs
    have hfirst : ∀ (g : Spec.Gtids) (t : Bytes), g.Ok → g.intervals.length < 2 ^ 59 →
        GtidRange.readFrom (g.encode ++ t) = .ok ⟨g.sid, g.intervals⟩ t := fun g t h1 h2 =>
      (gtidRange_iff _ _ _).2 ⟨h1, by show g.intervals.length * 16 < 2 ^ 63; omega, rfl⟩
    cases h : GtidRange.readFrom bs with
    | ok g r =>
      rw [R.bind_ok]
      obtain ⟨h1, h2, h3⟩ := (gtidRange_iff _ _ _).1 h
      refine (ih (gtidInsert m g) r).congr ⟨?_, ?_⟩
      · rintro ⟨gs, t, k1, k2, rfl, k3⟩
        refine ⟨⟨g.sid, g.intervals⟩ :: gs, t, ?_, by simp; omega, by rw [h3]; simp, k3⟩
        intro x hx
        rcases List.mem_cons.1 hx with rfl | hx
        · exact ⟨h1, by show g.intervals.length < _; omega⟩
        · exact k1 x hx
      · rintro ⟨gs, t, k1, k2, k3, k4⟩
        cases gs with
        | nil =>
          have : bs = t := by simpa using k3
          rw [this] at h
          rw [(gtidRange_panicsIff t).1 k4] at h
          cases h
        | cons x gs =>
          have hx := k1 x (by simp)
          have h4 := hfirst x ((gs.map Spec.Gtids.encode).flatten ++ t) hx.1 hx.2
          have e : bs = x.encode ++ ((gs.map Spec.Gtids.encode).flatten ++ t) := by rw [k3]; simp
          rw [← e, h] at h4
          cases h4
          exact ⟨gs, t, fun y hy => k1 y (by simp [hy]), by simp at k2; omega, rfl, k4⟩
    | err e r =>
      refine ⟨?_, fun _ => .inr ⟨_, _, rfl⟩⟩
      rintro ⟨gs, t, k1, k2, rfl, k4⟩
      cases gs with
      | nil =>
        rw [show ([].map Spec.Gtids.encode).flatten ++ t = t by simp, (gtidRange_panicsIff t).1 k4] at h
        cases h
      | cons x gs =>
        have hx := k1 x (by simp)
        have h4 := hfirst x ((gs.map Spec.Gtids.encode).flatten ++ t) hx.1 hx.2
        rw [show ((x :: gs).map Spec.Gtids.encode).flatten ++ t = x.encode ++ ((gs.map Spec.Gtids.encode).flatten ++ t) by simp,
          h4] at h
        cases h
    | panic =>
      refine ⟨fun _ => rfl, fun hb => ?_⟩
      exact (hb ⟨[], bs, by simp, by simp, by simp, h0.panic_iff.1 h⟩).elim
    | hang => exact (h0.ne_hang h).elim

/-- C86 for GTID sets: only impossible counts make the decoder panic. -/
theorem C86_gtid_set (bs : Bytes) : PanicsIff (Spec.hugeSet bs) (GtidSet.readFrom bs) := by
  refine panicsIff_of ?_ ?_
  · unfold GtidSet.readFrom
    rw [bind_panic (by well)]
    simp only [readLeU64_iff]
    have hcap : ∀ n (r : Bytes), (withCapacity n 40 >>= fun _ => readGtidRanges n []) r = .panic ↔
        2 ^ 63 ≤ 40 * n ∨ readGtidRanges n [] r = .panic := by
      intro n r
      rw [P.bind_apply]
      unfold withCapacity
      split
      · rw [P.pure_apply, R.bind_ok]
        constructor
        · exact .inr
        · rintro (h | h)
          · omega
          · exact h
      · exact ⟨fun _ => .inl (by omega), fun _ => rfl⟩
    constructor
    · rintro ⟨n, r, ⟨h1, rfl⟩, h2⟩
      rw [hcap] at h2
      exact ⟨n, r, h1, rfl, h2.imp_right fun h => (gtidRanges_panicsIff n [] r).panic_iff.1 h⟩
    · rintro ⟨n, r, h1, rfl, h2⟩
      refine ⟨n, r, ⟨h1, rfl⟩, ?_⟩
      rw [hcap]
      exact h2.imp_right fun h => (gtidRanges_panicsIff n [] r).panic_iff.2 h
  · unfold GtidSet.readFrom
    refine bind_not_hang (Well.ne_hang (by well) _) fun n r _ => bind_not_hang ?_ fun _ _ _ =>
      (gtidRanges_panicsIff _ _ _).ne_hang
    unfold withCapacity
    split <;> simp [P.panic]

/-! ### table maps -/

/-- an integer with a length-encoded layout (not necessarily the shortest) -/
def Spec.lenEncoding (x : List UInt8) (n : Nat) : Prop :=
  (∃ b : UInt8, x = [b] ∧ b.toNat < 251 ∧ n = b.toNat) ∨ (∃ y, x = 0xfc :: y ∧ y.length = 2 ∧ n = leNat y) ∨
    (∃ y, x = 0xfd :: y ∧ y.length = 3 ∧ n = leNat y) ∨ (∃ y, x = 0xfe :: y ∧ y.length = 8 ∧ n = leNat y)

/-- the number of metadata bytes of a column type that the parser reads; the types it does not know have none -/
def Spec.metaWidth (code : Nat) : Option Nat :=
  if code ∈ [0, 1, 2, 3, 6, 8, 9, 10, 13] then some 0
  else if code ∈ [4, 5, 17, 18, 19, 249, 250, 251, 252, 255] then some 1
  else if code ∈ [15, 16, 246, 253, 254] then some 2
  else none

/-- a list of column types whose metadata makes the parser panic: an old TIMESTAMP (7), TIME (11) or DATETIME (12), or a
string (254) whose real type is neither an ENUM (low half-byte 7) nor a CHAR (14), for example a SET; it is reached only
if the columns before it are of known types and have their metadata -/
def Spec.badColumns : List UInt8 → List UInt8 → Prop
  | [], _ => False
  | c :: cs, ms =>
    c.toNat ∈ [7, 11, 12] ∨
    (c.toNat = 254 ∧ ∃ real len t, ms = real :: len :: t ∧ real.toNat % 16 ≠ 7 ∧ real.toNat % 16 ≠ 14) ∨
    ∃ w, metaWidth c.toNat = some w ∧ w ≤ ms.length ∧ badColumns cs (ms.drop w)

/-- a table map whose layout is right up to the end and whose columns are bad -/
def Spec.badTableMap (bs : List UInt8) : Prop :=
  ∃ (ls lt s0 t0 : UInt8) (schema table cnt codes mlen metas nulls rest : List UInt8),
    schema.length = ls.toNat ∧ table.length = lt.toNat ∧ lenEncoding cnt codes.length ∧ lenEncoding mlen metas.length ∧
    nulls.length = (codes.length + 7) / 8 ∧ validUtf8 schema = true ∧ validUtf8 table = true ∧
    bs = ls :: (schema ++ s0 :: (lt :: (table ++ t0 :: (cnt ++ (codes ++ (mlen ++ (metas ++ (nulls ++ rest)))))))) ∧
    badColumns codes metas

theorem lenEnc_iff {bs r : Bytes} {n : Nat} :
    (∃ l, readLenEncInt bs = .ok l r ∧ l.toU64 = some n) ↔ ∃ x, Spec.lenEncoding x n ∧ bs = x ++ r := by
  have fixed : ∀ (k : Nat) (p : P Nat), FixedRead k leVal p → ∀ (t : Bytes) (mk : Nat → LenEncInt), (∀ n, (mk n).toU64 = some n) →
      ((∃ l, (p t).bind (fun n r => .ok (mk n) r) = .ok l r ∧ l.toU64 = some n) ↔
        ∃ y, y.length = k ∧ n = Spec.leNat y ∧ t = y ++ r) := by
    intro k p hp t mk hmk
    constructor
    · rintro ⟨l, h, hn⟩
      cases e : p t with
      | ok a r' =>
        rw [e] at h
        cases h
        obtain ⟨y, h1, rfl, rfl⟩ := hp.inv e
        rw [hmk] at hn
        cases hn
        exact ⟨y, h1, leVal_eq_spec _, rfl⟩
      | err e' r' => rw [e] at h; cases h
      | panic => rw [e] at h; cases h
      | hang => rw [e] at h; cases h
    · rintro ⟨y, h1, rfl, rfl⟩
      refine ⟨mk (leVal y), ?_, by rw [hmk, leVal_eq_spec]⟩
      rw [hp.append y r h1]
      rfl
  cases bs with
  | nil =>
    constructor
    · rintro ⟨l, h, -⟩; cases h
    · rintro ⟨x, h, e⟩
      have : x = [] := by
        cases x with
        | nil => rfl
        | cons _ _ => simp at e
      subst this
      rcases h with ⟨_, h, -⟩ | ⟨_, h, -⟩ | ⟨_, h, -⟩ | ⟨_, h, -⟩ <;> simp at h
  | cons b t =>
    by_cases h1 : b.toNat < 251
    · rw [readLenEncInt_cons_len1 b t h1]
      constructor
      · rintro ⟨l, h, hn⟩
        cases h
        cases hn
        exact ⟨[b], .inl ⟨b, rfl, h1, rfl⟩, rfl⟩
      · rintro ⟨x, h, e⟩
        rcases h with ⟨b', rfl, -, rfl⟩ | ⟨_, rfl, -⟩ | ⟨_, rfl, -⟩ | ⟨_, rfl, -⟩
        · simp at e
          obtain ⟨rfl, rfl⟩ := e
          exact ⟨_, rfl, rfl⟩
        all_goals
          simp at e
          obtain ⟨rfl, -⟩ := e
          simp at h1
    · have hb := b.toNat_lt
      have hcases : b = 0xfb ∨ b = 0xfc ∨ b = 0xfd ∨ b = 0xfe ∨ b = 0xff := by
        have : b.toNat = 251 ∨ b.toNat = 252 ∨ b.toNat = 253 ∨ b.toNat = 254 ∨ b.toNat = 255 := by omega
        rcases this with h | h | h | h | h
        · exact .inl (UInt8.toNat_inj.1 h)
        · exact .inr (.inl (UInt8.toNat_inj.1 h))
        · exact .inr (.inr (.inl (UInt8.toNat_inj.1 h)))
        · exact .inr (.inr (.inr (.inl (UInt8.toNat_inj.1 h))))
        · exact .inr (.inr (.inr (.inr (UInt8.toNat_inj.1 h))))
      have none : ∀ v : UInt8, v = 0xfb ∨ v = 0xff → ¬ ∃ x, Spec.lenEncoding x n ∧ v :: t = x ++ r := by
        rintro v hv ⟨x, h, e⟩
        rcases h with ⟨b', rfl, h, -⟩ | ⟨_, rfl, -⟩ | ⟨_, rfl, -⟩ | ⟨_, rfl, -⟩ <;> simp at e <;> obtain ⟨rfl, -⟩ := e
        · rcases hv with rfl | rfl <;> simp at h
        all_goals simp at hv
      have some : ∀ v : UInt8, v = 0xfc ∨ v = 0xfd ∨ v = 0xfe → ((∃ x, Spec.lenEncoding x n ∧ v :: t = x ++ r) ↔
          ∃ y, y.length = (if v = 0xfc then 2 else if v = 0xfd then 3 else 8) ∧ n = Spec.leNat y ∧ t = y ++ r) := by
        intro v hv
        constructor
        · rintro ⟨x, h, e⟩
          rcases h with ⟨b', rfl, h, -⟩ | ⟨y, rfl, h, h'⟩ | ⟨y, rfl, h, h'⟩ | ⟨y, rfl, h, h'⟩ <;> simp at e <;>
            obtain ⟨rfl, rfl⟩ := e
          · rcases hv with rfl | rfl | rfl <;> simp at h
          · exact ⟨y, by simpa using h, h', rfl⟩
          · exact ⟨y, by simpa using h, h', rfl⟩
          · exact ⟨y, by simpa using h, h', rfl⟩
        · rintro ⟨y, h, h', rfl⟩
          rcases hv with rfl | rfl | rfl
          · exact ⟨_, .inr (.inl ⟨y, rfl, by simpa using h, h'⟩), rfl⟩
          · exact ⟨_, .inr (.inr (.inl ⟨y, rfl, by simpa using h, h'⟩)), rfl⟩
          · exact ⟨_, .inr (.inr (.inr ⟨y, rfl, by simpa using h, h'⟩)), rfl⟩
      rcases hcases with rfl | rfl | rfl | rfl | rfl
      · rw [readLenEncInt_fb]
        refine ⟨?_, fun h => (none _ (.inl rfl) h).elim⟩
        rintro ⟨l, h, hn⟩
        cases h
        cases hn
      · rw [some _ (.inl rfl), readLenEncInt_fc]
        exact fixed 2 _ (fixedRead_readFixed 2 leVal) t .len3 fun _ => rfl
      · rw [some _ (.inr (.inl rfl)), readLenEncInt_fd]
        exact fixed 3 _ fixedRead_leU24 t .len4 fun _ => rfl
      · rw [some _ (.inr (.inr rfl)), readLenEncInt_fe]
        exact fixed 8 _ (fixedRead_readFixed 8 leVal) t .len9 fun _ => rfl
      · rw [readLenEncInt_ff]
        refine ⟨?_, fun h => (none _ (.inr rfl) h).elim⟩
        rintro ⟨l, h, hn⟩
        cases h
        cases hn

theorem rawTableMap_iff {bs r : Bytes} {raw : RawTableMap} :
    RawTableMap.readFrom bs = .ok raw r ↔
      ∃ (ls lt s0 t0 : UInt8) (cnt mlen : Bytes), raw.schemaName.length = ls.toNat ∧ raw.tableName.length = lt.toNat ∧
        Spec.lenEncoding cnt raw.colCnt ∧ raw.colDefs.length = raw.colCnt ∧
        Spec.lenEncoding mlen raw.colMetaDefs.length ∧ raw.nullBitmap.length = (raw.colCnt + 7) / 8 ∧
        bs = ls :: (raw.schemaName ++ s0 :: (lt :: (raw.tableName ++ t0 :: (cnt ++ (raw.colDefs ++ (mlen ++
          (raw.colMetaDefs ++ (raw.nullBitmap ++ r)))))))) := by
  unfold RawTableMap.readFrom
  simp only [P.bind_eq_ok, readU8_eq_ok, readLen_eq_ok, P.orErr_eq_ok, P.pure_eq_ok]
  constructor
  · rintro ⟨_, _, ⟨ls, rfl, rfl⟩, s, _, ⟨h1, rfl⟩, s0, _, ⟨h2, rfl⟩, _, _, ⟨lt, rfl, rfl⟩, t, _, ⟨h3, rfl⟩, t0, _, ⟨h4, rfl⟩,
      l, _, h5, n, _, ⟨h6, rfl⟩, codes, _, ⟨h7, rfl⟩, l2, _, h8, n2, _, ⟨h9, rfl⟩, metas, _, ⟨h10, rfl⟩, nulls, _, ⟨h11, rfl⟩, rfl, rfl⟩
    obtain ⟨s0, rfl⟩ := List.length_eq_one_iff.1 h2
    obtain ⟨t0, rfl⟩ := List.length_eq_one_iff.1 h4
    obtain ⟨cnt, k1, rfl⟩ := lenEnc_iff.1 ⟨l, h5, h6⟩
    obtain ⟨mlen, k2, rfl⟩ := lenEnc_iff.1 ⟨l2, h8, h9⟩
    exact ⟨ls, lt, s0, t0, cnt, mlen, h1, h3, k1, h7, h10 ▸ k2, h11, by simp⟩
  · rintro ⟨ls, lt, s0, t0, cnt, mlen, h1, h2, h3, h4, h5, h6, rfl⟩
    obtain ⟨l, k1, k2⟩ := lenEnc_iff.2 ⟨cnt, h3, rfl⟩
    obtain ⟨l2, k3, k4⟩ := lenEnc_iff.2 ⟨mlen, h5, rfl⟩
    exact ⟨_, _, ⟨ls, rfl, rfl⟩, raw.schemaName, _, ⟨h1, rfl⟩, [s0], _, ⟨rfl, rfl⟩, _, _, ⟨lt, rfl, rfl⟩, raw.tableName, _, ⟨h2, rfl⟩,
      [t0], _, ⟨rfl, rfl⟩, l, _, k1, raw.colCnt, _, ⟨k2, rfl⟩, raw.colDefs, _, ⟨h4, rfl⟩, l2, _, k3, _, _, ⟨k4, rfl⟩,
      raw.colMetaDefs, _, ⟨rfl, rfl⟩, raw.nullBitmap, _, ⟨h6, rfl⟩, rfl, rfl⟩

/-- the metadata of one column of a type that is read without a panic -/
theorem meta_step (c : Nat) (ct : ColumnType) (h : ColumnType.tryFrom c = some ct)
    (hb : c ∉ [7, 11, 12, 254]) : ∃ w, Spec.metaWidth c = some w ∧ ∀ ms : Bytes,
      (w ≤ ms.length → ∃ m, ColumnMeta.readFrom ct ms = .ok m (ms.drop w)) ∧
      (ms.length < w → ∃ e r, ColumnMeta.readFrom ct ms = .err e r) := by
  unfold ColumnType.tryFrom at h
  split at h <;> first | cases h | skip
  all_goals first
    | (exfalso; revert hb; decide)
    | exact ⟨0, rfl, fun ms => ⟨fun _ => ⟨_, rfl⟩, fun h => by omega⟩⟩
    | (refine ⟨1, rfl, fun ms => ?_⟩
       rcases ms with _ | ⟨a, t⟩
       · exact ⟨fun h => by simp at h, fun _ => ⟨_, _, rfl⟩⟩
       · exact ⟨fun _ => ⟨_, rfl⟩, fun h => by simp at h⟩)
    | (refine ⟨2, rfl, fun ms => ?_⟩
       rcases ms with _ | ⟨a, _ | ⟨b, t⟩⟩
       · exact ⟨fun h => by simp at h, fun _ => ⟨_, _, rfl⟩⟩
       · exact ⟨fun h => by simp at h, fun _ => ⟨_, _, rfl⟩⟩
       · exact ⟨fun _ => ⟨_, rfl⟩, fun h => by simp at h; omega⟩)

theorem string_meta (a b : UInt8) (t : Bytes) :
    (a.toNat % 16 = 7 ∨ a.toNat % 16 = 14 → ∃ m, readStringMeta (a :: b :: t) = .ok m t) ∧
    (a.toNat % 16 ≠ 7 → a.toNat % 16 ≠ 14 → readStringMeta (a :: b :: t) = .panic) := by
  have key : ∀ n < 256, (n ||| 0xf0 = 0xf7 ↔ n % 16 = 7) ∧ (n ||| 0xf0 = 0xfe ↔ n % 16 = 14) := by decide +kernel
  obtain ⟨k1, k2⟩ := key a.toNat a.toNat_lt
  have e : readStringMeta (a :: b :: t) = (if a.toNat ||| 0xf0 = 0xf7 then (pure (.enum b.toNat) : P ColumnMeta)
      else if a.toNat ||| 0xf0 = 0xfe then
        pure (.string (((((a.toNat >>> 4) &&& 3) ^^^ 3) <<< 8) + b.toNat))
      else P.panic) t := rfl
  rw [e]
  constructor
  · rintro (h | h)
    · rw [if_pos (k1.2 h)]; exact ⟨_, rfl⟩
    · rw [if_neg (fun h' => by have := k1.1 h'; omega), if_pos (k2.2 h)]; exact ⟨_, rfl⟩
  · intro h1 h2
    rw [if_neg (fun h => h1 (k1.1 h)), if_neg (fun h => h2 (k2.1 h))]
    rfl

theorem readMetas_panicsIff (codes ms : Bytes) : PanicsIff (Spec.badColumns codes ms) (readMetas codes ms) := by
  induction codes generalizing ms with
  | nil => exact ⟨fun h => h.elim, fun _ => .inl ⟨_, _, rfl⟩⟩
  | cons c cs ih =>
    unfold readMetas Spec.badColumns
    rw [P.bind_apply]
    have cont : ∀ (ct : ColumnType) (m : ColumnMeta) (r : Bytes), ColumnMeta.readFrom ct ms = .ok m r →
        PanicsIff (Spec.badColumns cs r) ((ColumnMeta.readFrom ct >>= fun m => readMetas cs >>= fun ms => pure (m :: ms)) ms) := by
      intro ct m r h
      rw [P.bind_apply, h, R.bind_ok]
      exact (ih r).bindWell fun _ => Well.pure _
    cases h : ColumnType.tryFrom c.toNat with
    | none =>
      have hw : c.toNat ∉ [7, 11, 12] ∧ c.toNat ≠ 254 ∧ Spec.metaWidth c.toNat = none := by
        have : ∀ n < 256, ColumnType.tryFrom n = none → n ∉ [7, 11, 12] ∧ n ≠ 254 ∧ Spec.metaWidth n = none := by decide +kernel
        exact this _ c.toNat_lt h
      refine ⟨?_, fun _ => .inr ⟨_, _, rfl⟩⟩
      rintro (h1 | ⟨h1, -⟩ | ⟨w, h1, -⟩)
      · exact (hw.1 h1).elim
      · exact (hw.2.1 h1).elim
      · rw [hw.2.2] at h1; cases h1
    | some ct =>
      have horr : P.orErr (some ct) Err.constraint ms = .ok ct ms := rfl
      rw [horr, R.bind_ok]
      by_cases hold : c.toNat ∈ [7, 11, 12]
      · refine ⟨fun _ => ?_, fun hb => (hb (.inl hold)).elim⟩
        have : ct = .timestamp ∨ ct = .time ∨ ct = .dateTime := by
          simp only [List.mem_cons, List.not_mem_nil, or_false] at hold
          rcases hold with h' | h' | h' <;> rw [h'] at h <;> cases h <;> simp
        rcases this with rfl | rfl | rfl <;> rfl
      · by_cases hstr : c.toNat = 254
        · have hct : ct = .string := by rw [hstr] at h; cases h; rfl
          subst hct
          have hw : Spec.metaWidth c.toNat = some 2 := by rw [hstr]; rfl
          rcases ms with _ | ⟨a, _ | ⟨b, t⟩⟩
          · refine ⟨?_, fun _ => .inr ⟨_, _, rfl⟩⟩
            rintro (h1 | ⟨-, _, _, _, h1, -⟩ | ⟨w, h1, h2, -⟩)
            · exact (hold h1).elim
            · cases h1
            · rw [hw] at h1; cases h1; simp at h2
          · refine ⟨?_, fun _ => .inr ⟨_, _, rfl⟩⟩
            rintro (h1 | ⟨-, _, _, _, h1, -⟩ | ⟨w, h1, h2, -⟩)
            · exact (hold h1).elim
            · cases h1
            · rw [hw] at h1; cases h1; simp at h2
          · by_cases hreal : a.toNat % 16 = 7 ∨ a.toNat % 16 = 14
            · obtain ⟨m, hm⟩ := (string_meta a b t).1 hreal
              refine (cont .string m t hm).congr ⟨fun hb => .inr (.inr ⟨2, hw, by simp, hb⟩), ?_⟩
              rintro (h1 | ⟨-, _, _, _, h1, h2, h3⟩ | ⟨w, h1, h2, h3⟩)
              · exact (hold h1).elim
              · cases h1; omega
              · rw [hw] at h1; cases h1; exact h3
            · have hp := (string_meta a b t).2 (fun h => hreal (.inl h)) (fun h => hreal (.inr h))
              refine ⟨fun _ => ?_, fun hb => (hb (.inr (.inl ⟨hstr, a, b, t, rfl, fun h => hreal (.inl h), fun h => hreal (.inr h)⟩))).elim⟩
              have : ColumnMeta.readFrom .string (a :: b :: t) = .panic := hp
              rw [P.bind_apply, this]
              rfl
        · obtain ⟨w, hw, hms⟩ := meta_step _ ct h (by
            simp only [List.mem_cons, List.not_mem_nil, or_false, not_or] at hold ⊢
            exact ⟨hold.1, hold.2.1, hold.2.2, hstr⟩)
          have hiff : (c.toNat ∈ [7, 11, 12] ∨
              (c.toNat = 254 ∧ ∃ real len t, ms = real :: len :: t ∧ real.toNat % 16 ≠ 7 ∧ real.toNat % 16 ≠ 14) ∨
              ∃ w, Spec.metaWidth c.toNat = some w ∧ w ≤ ms.length ∧ Spec.badColumns cs (ms.drop w)) ↔
              (w ≤ ms.length ∧ Spec.badColumns cs (ms.drop w)) := by
            constructor
            · rintro (h1 | ⟨h1, -⟩ | ⟨w', h1, h2⟩)
              · exact (hold h1).elim
              · exact (hstr h1).elim
              · rw [hw] at h1; cases h1; exact h2
            · exact fun h => .inr (.inr ⟨w, hw, h⟩)
          rw [hiff]
          by_cases hl : w ≤ ms.length
          · obtain ⟨m, hm⟩ := (hms ms).1 hl
            exact (cont ct m _ hm).congr ⟨fun hb => ⟨hl, hb⟩, fun hb => hb.2⟩
          · obtain ⟨e, r, hm⟩ := (hms ms).2 (by omega)
            refine ⟨fun hb => (hl hb.1).elim, fun _ => .inr ?_⟩
            rw [P.bind_apply, hm]
            exact ⟨_, _, rfl⟩

/-- C86 for table maps (of less than 2^61 bytes, as all of memory is): only columns of unsupported types make the decoder
panic. -/
theorem C86_table_map (bs : Bytes) (hbs : bs.length < 2 ^ 61) :
    PanicsIff (Spec.badTableMap bs) (TableMapData.tableMap bs) := by
  have hraw : Well RawTableMap.readFrom := by unfold RawTableMap.readFrom; well
  have cols : ∀ (codes ms : Bytes), codes.length < 2 ^ 61 →
      PanicsIff (Spec.badColumns codes ms) (ColumnMetas.readFrom codes.length codes ms) := by
    intro codes ms hl
    have : ColumnMetas.readFrom codes.length codes ms = readMetas codes ms := by
      unfold ColumnMetas.readFrom withCapacity
      rw [if_pos (by omega), P.bind_apply, P.pure_apply, R.bind_ok, if_pos (le_refl _), List.take_length]
    rw [this]
    exact readMetas_panicsIff codes ms
  have ofRaw : ∀ (raw : RawTableMap) (r : Bytes), raw.colDefs.length = raw.colCnt → raw.colCnt < 2 ^ 61 →
      PanicsIff (validUtf8 raw.schemaName = true ∧ validUtf8 raw.tableName = true ∧
        Spec.badColumns raw.colDefs raw.colMetaDefs) (TableMap.ofRaw raw r) := by
    intro raw r h1 h2
    unfold TableMap.ofRaw toUtf8
    by_cases hs : validUtf8 raw.schemaName = true
    · rw [if_pos hs, P.bind_apply, P.pure_apply, R.bind_ok]
      by_cases ht : validUtf8 raw.tableName = true
      · rw [if_pos ht, P.bind_apply, P.pure_apply, R.bind_ok]
        have := cols raw.colDefs raw.colMetaDefs (by omega)
        rw [h1] at this
        exact ((this.onSub r).bindWell fun _ => Well.pure _).congr ⟨fun h => ⟨hs, ht, h⟩, fun h => h.2.2⟩
      · rw [if_neg ht]
        exact ⟨fun h => (ht h.2.1).elim, fun _ => .inr ⟨_, _, rfl⟩⟩
    · rw [if_neg hs]
      exact ⟨fun h => (hs h.1).elim, fun _ => .inr ⟨_, _, rfl⟩⟩
  have hlen : ∀ raw r, RawTableMap.readFrom bs = .ok raw r → raw.colDefs.length = raw.colCnt ∧ raw.colCnt < 2 ^ 61 := by
    intro raw r h
    obtain ⟨ls, lt, s0, t0, cnt, mlen, h1, h2, h3, h4, h5, h6, rfl⟩ := rawTableMap_iff.1 h
    refine ⟨h4, ?_⟩
    simp only [List.length_cons, List.length_append] at hbs
    omega
  refine panicsIff_of ?_ ?_
  · unfold TableMapData.tableMap
    rw [bind_panic hraw]
    constructor
    · rintro ⟨raw, r, h, hp⟩
      obtain ⟨l1, l2⟩ := hlen raw r h
      obtain ⟨k1, k2, k3⟩ := (ofRaw raw r l1 l2).panic_iff.1 hp
      obtain ⟨ls, lt, s0, t0, cnt, mlen, h1, h2, h3, h4, h5, h6, rfl⟩ := rawTableMap_iff.1 h
      exact ⟨ls, lt, s0, t0, raw.schemaName, raw.tableName, cnt, raw.colDefs, mlen, raw.colMetaDefs, raw.nullBitmap, r, h1, h2,
        h4 ▸ h3, h5, h4 ▸ h6, k1, k2, rfl, k3⟩
    · rintro ⟨ls, lt, s0, t0, schema, table, cnt, codes, mlen, metas, nulls, rest, h1, h2, h3, h4, h5, k1, k2, rfl, k3⟩
      have h : RawTableMap.readFrom _ = .ok ⟨schema, table, codes.length, codes, metas, nulls⟩ rest :=
        rawTableMap_iff.2 ⟨ls, lt, s0, t0, cnt, mlen, h1, h2, h3, rfl, h4, h5, rfl⟩
      refine ⟨_, _, h, ?_⟩
      obtain ⟨l1, l2⟩ := hlen _ _ h
      exact (ofRaw _ rest l1 l2).panic_iff.2 ⟨k1, k2, k3⟩
  · unfold TableMapData.tableMap
    refine bind_not_hang (hraw.ne_hang _) fun raw r h => ?_
    obtain ⟨l1, l2⟩ := hlen raw r h
    exact (ofRaw raw r l1 l2).ne_hang

/-! ### such inputs exist -/

/-- an event of 19 bytes that announces 0; it panics in every mode but one -/
example : Spec.impossibleLength false false (List.replicate 19 0) ∧ Spec.impossibleLength true true (List.replicate 19 0) ∧
    ¬ Spec.impossibleLength false false (List.replicate 18 0) := by
  refine ⟨⟨⟨by simp, 0, by simp, by decide⟩, show Spec.announced _ < 19 by decide⟩, ⟨⟨by simp, 0, by simp, by decide⟩, ?_⟩,
    fun h => ?_⟩
  · have : Spec.announced (List.replicate 19 0) = 0 := by decide
    rw [if_pos rfl, if_pos rfl, this]
    exact ⟨by simp, .inl (by decide)⟩
  · have := h.1.1
    simp at this

/-- an event passed over: type 38, which the parser knows but does not support -/
example : Spec.passedOver false false ([0, 0, 0, 0, 38, 1, 0, 0, 0, 19, 0, 0, 0, 0, 0, 0, 0, 0, 0] : List UInt8) :=
  ⟨⟨by simp, 38, by simp, by decide⟩, by simp [Spec.supportedCodes], by decide, by decide, by simp⟩

/-- a stream with such an event -/
example : ∃ inp, Spec.badEvent false false inp := by
  obtain ⟨inp, h⟩ := delivers_small [0 :: List.replicate 19 0] [] (by simp)
  exact ⟨inp, [], List.replicate 19 0, [], h, by simp, ⟨⟨by simp, 0, by simp, by decide⟩, show Spec.announced _ < 19 by decide⟩⟩

/-- a format description with 14 post-header lengths -/
example : Spec.badDescription (List.replicate 57 0 ++ List.replicate 14 0) :=
  ⟨[0, 0], [], List.replicate 49 0, [0, 0, 0, 0], 0, List.replicate 14 0, rfl, by simp, rfl, by simp, rfl, by decide, by simp⟩

/-- a LOAD event with 2^24 field names of 255 bytes -/
example : Spec.hugeLoad (List.replicate 14 0 ++ ([0, 0, 0, 1] ++ (List.replicate 7 0 ++ (List.replicate (2 ^ 24) 255 ++ [])))) :=
  ⟨_, _, _, _, _, by simp, rfl, by simp, by rw [List.length_replicate]; decide, rfl, by
    have : ∀ n, ((List.replicate n (255 : UInt8)).map (·.toNat)).sum = 255 * n := by
      intro n
      induction n with
      | zero => rfl
      | succ n ih =>
        have e : (255 : UInt8).toNat = 255 := rfl
        rw [List.replicate_succ, List.map_cons, List.sum_cons, ih, e]; omega
    rw [this, List.length_replicate]; norm_num⟩

/-- a GTID set with 2^64 - 1 servers -/
example : Spec.hugeSet (Spec.le 8 (2 ^ 64 - 1)) := ⟨2 ^ 64 - 1, [], by norm_num, by simp, .inl (by norm_num)⟩

/-- the map of a table with one column, a SET -/
example : Spec.badTableMap [0, 0, 0, 0, 1, 254, 2, 0xf8, 1, 0] :=
  ⟨0, 0, 0, 0, [], [], [1], [254], [2], [0xf8, 1], [0], [], rfl, rfl, .inl ⟨1, rfl, by decide, rfl⟩,
    .inl ⟨2, rfl, by decide, rfl⟩, rfl, rfl, rfl, rfl, .inr (.inl ⟨rfl, 0xf8, 1, [], rfl, by decide, by decide⟩)⟩

end Mybin
