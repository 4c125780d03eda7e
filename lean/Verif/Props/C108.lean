/-
C108: events of types a reader has no use for do not disturb it.
-/
import Verif.Props.C107

namespace Mybin

open Spec (LogEvent)

/-! ### the program for row changes -/

/-- events that matter for the changes of rows: the announcements of tables (19), the rows inserted, updated and deleted
(30, 31, 32), and the ends of log files (4), after which the tables are announced again -/
def Spec.AboutRows (e : LogEvent) : Prop := e.code ∈ [4, 19, 30, 31, 32]

instance (e : LogEvent) : Decidable (Spec.AboutRows e) := by unfold Spec.AboutRows; infer_instance

theorem onEvent_other (ft : FloatText) (o : DmlOpts) (crc : Bool) (st : DmlState) (e : LogEvent) (ev : Event)
    (hs : seenEvent crc e = some ev) (h : ¬ Spec.AboutRows e) : onEvent ft o st ev = ([], .go st) := by
  unfold seenEvent at hs
  split at hs
  · cases hk : LogEventType.tryFrom e.code with
    | none => rw [hk] at hs; cases hs
    | some k =>
      rw [hk] at hs
      injection hs with hs
      have hb := C20_event_types.2.2.1 _ _ hk
      subst hs
      unfold Spec.AboutRows at h
      rw [← hb] at h
      cases k <;> first | rfl | exact absurd (by decide) h
  · cases hs

theorem runLog_filter (ft : FloatText) (o : DmlOpts) (crc : Bool) : ∀ (log : List LogEvent) (st : DmlState),
    runLog ft o crc st (log.filter (fun e => decide (Spec.AboutRows e))) = runLog ft o crc st log
  | [], _ => rfl
  | e :: log, st => by
    by_cases h : Spec.AboutRows e
    · rw [List.filter_cons_of_pos (by simpa using h), runLog, runLog]
      cases seenEvent crc e with
      | none => exact runLog_filter ft o crc log st
      | some ev =>
        dsimp only
        rcases onEvent ft o st ev with ⟨out, next⟩
        cases next with
        | go st' => dsimp only; rw [runLog_filter ft o crc log st']
        | _ => rfl
    · rw [List.filter_cons_of_neg (by simpa using h), runLog_filter ft o crc log st]
      conv => rhs; rw [runLog]
      cases hs : seenEvent crc e with
      | none => rfl
      | some ev =>
        dsimp only
        rw [onEvent_other ft o crc st e ev hs h]
        rfl

/-- C108: what the program prints for a log, and how it ends, depend only on the events about rows: a log and another
that differ in events of other types only, known to the library (up to 38) or not supported by it, give the same. Missing
from the full claim: types the library does not know (`C108_dml_false`). -/
theorem C108_dml_partial (ft : FloatText) (o : DmlOpts) (hb : o.nonBlock = true)
    (hf : o.filename.length < 10 ^ 9 ∧ validUtf8 o.filename = true) (uuid uuid' : Bytes) (hu : uuid.length = 36)
    (hu' : uuid'.length = 36) (random random' : Nat) (hr : random < 2 ^ 32) (hr' : random' < 2 ^ 32)
    (conn conn' helper : Conn) (crc : Bool) (opening opening' : List Bytes)
    (hopen : Spec.OpensStream conn.caps crc opening) (hopen' : Spec.OpensStream conn'.caps crc opening')
    (log log' : List LogEvent) (hin : ∀ e ∈ log, e.InRange) (hin' : ∀ e ∈ log', e.InRange) (eof eof' rest rest' : Bytes)
    (hd : Spec.Delivers conn.inp (opening ++ (log.map (Spec.streamMessage crc) ++ [0xfe :: eof])) rest)
    (hd' : Spec.Delivers conn'.inp (opening' ++ (log'.map (Spec.streamMessage crc) ++ [0xfe :: eof'])) rest')
    (hsame : log.filter (fun e => decide (Spec.AboutRows e)) = log'.filter (fun e => decide (Spec.AboutRows e))) :
    printDmls ft o uuid' random' conn' helper = printDmls ft o uuid random conn helper := by
  rw [printDmls_runLog ft o hb hf uuid hu random hr conn helper crc opening hopen log hin eof rest hd,
    printDmls_runLog ft o hb hf uuid' hu' random' hr' conn' helper crc opening' hopen' log' hin' eof' rest' hd',
    ← runLog_filter, ← hsame, runLog_filter]

/-- the log of C43 with an event that the library does not support (the text of the statement, 29), one it ignores
(the start of a transaction, 34) and one with a statement (2) -/
example :
    let log : List LogEvent := exampleLog.map (·.1)
    (log.take 1 ++ [(⟨1, 29, 7, 90, 128, Spec.ascii " delete"⟩ : LogEvent), ⟨1, 34, 7, 95, 0, []⟩] ++ log.drop 1
        ++ [(⟨1, 2, 7, 500, 0, Spec.ascii "delete"⟩ : LogEvent)]).filter (fun e => decide (Spec.AboutRows e))
      = log.filter (fun e => decide (Spec.AboutRows e)) := by rfl

/-! ### types the library does not know -/

/-- a type newer than the library, such as 40, in which a server of version 8.0 writes compressed transactions -/
def Spec.OfNewType (e : LogEvent) : Prop := 38 < e.code ∧ e.code < 256

theorem header_new (crc : Bool) (e : LogEvent) (he : Spec.OfNewType e) (rest : Bytes) :
    EventHeader.readFrom (e.encode crc ++ rest) = .err .constraint ((e.encode crc ++ rest).drop 13) := by
  have henc : e.encode crc ++ rest = Spec.le 4 e.timestamp ++ ([UInt8.ofNat e.code] ++ (Spec.le 4 e.serverId ++
      (Spec.le 4 (e.len crc) ++ (Spec.le 4 e.nextPos ++ (Spec.le 2 e.flags ++ e.payload ++
        ((if crc then Spec.le 4 (Spec.crc32 (e.body crc)) else []) ++ rest)))))) := by
    conv => lhs; rw [Spec.LogEvent.encode]
    generalize (if crc then Spec.le 4 (Spec.crc32 (e.body crc)) else []) = x
    simp [Spec.LogEvent.body, Spec.u8]
  rw [henc]
  generalize Spec.le 4 e.nextPos ++ (Spec.le 2 e.flags ++ e.payload ++
    ((if crc then Spec.le 4 (Spec.crc32 (e.body crc)) else []) ++ rest)) = t
  have hb : (UInt8.ofNat e.code).toNat = e.code := by
    rw [UInt8.toNat_ofNat']; exact Nat.mod_eq_of_lt he.2
  have hn : LogEventType.tryFrom e.code = none := (C20_event_types.2.2.2.1 _).2 he.1
  have r4 : ∀ x t : Bytes, x.length = 4 → readLeU32 (x ++ t) = .ok (leVal x) t :=
    fun x t h => readFixed_append leVal x t h
  have r1 : ∀ t : Bytes, readU8 ([UInt8.ofNat e.code] ++ t) = .ok (UInt8.ofNat e.code).toNat t := fun t => rfl
  have hdrop : (Spec.le 4 e.timestamp ++ ([UInt8.ofNat e.code] ++ (Spec.le 4 e.serverId ++
      (Spec.le 4 (e.len crc) ++ t)))).drop 13 = t := by
    have : Spec.le 4 e.timestamp ++ ([UInt8.ofNat e.code] ++ (Spec.le 4 e.serverId ++ (Spec.le 4 (e.len crc) ++ t)))
        = (Spec.le 4 e.timestamp ++ ([UInt8.ofNat e.code] ++ (Spec.le 4 e.serverId ++ Spec.le 4 (e.len crc)))) ++ t := by
      simp
    rw [this, List.drop_left' (by simp)]
  rw [hdrop]
  suffices hv1 : EventHeaderV1.readFrom (Spec.le 4 e.timestamp ++ ([UInt8.ofNat e.code] ++ (Spec.le 4 e.serverId ++
      (Spec.le 4 (e.len crc) ++ t)))) = .err .constraint t by
    unfold EventHeader.readFrom
    rw [P.bind_apply, hv1]
    rfl
  unfold EventHeaderV1.readFrom
  step (r4 (Spec.le 4 e.timestamp) (([UInt8.ofNat e.code] ++ (Spec.le 4 e.serverId ++ (Spec.le 4 (e.len crc) ++ t)))) (by simp))
  step (r1 (Spec.le 4 e.serverId ++ (Spec.le 4 (e.len crc) ++ t)))
  step (r4 (Spec.le 4 e.serverId) (Spec.le 4 (e.len crc) ++ t) (by simp))
  step (r4 (Spec.le 4 (e.len crc)) t (by simp))
  rw [hb, hn]
  rfl

theorem parse_new (p : ParserV4) (validate : Bool) (e : LogEvent) (he : Spec.OfNewType e) (rest : Bytes) :
    ∃ r, p.parseEvent validate (e.encode p.checksum ++ rest) = .err .constraint r := by
  have hh := header_new p.checksum e he rest
  unfold ParserV4.parseEvent
  rw [P.bind_apply]
  by_cases hc : (p.checksum && validate) = true
  · rw [if_pos hc]
    unfold ParserV4.verifyChecksum
    rw [P.bind_apply, P.peek_eq, hh]
    exact ⟨_, rfl⟩
  · rw [if_neg hc, P.pure_apply, R.bind_ok, P.bind_apply, hh]
    exact ⟨_, rfl⟩

/-- C108 fails for types that are newer than the library, although they are to be passed over as others that are not
supported: to parse such an event is an error, and so is to skip it. After skipping, or parsing without verifying the
checksum, the reader is at the fourteenth byte of the event and not at the next one. -/
theorem C108_unknown_false (p : ParserV4) (e : LogEvent) (he : Spec.OfNewType e) (rest : Bytes) :
    p.parseEvent false (e.encode p.checksum ++ rest) = .err .constraint ((e.encode p.checksum ++ rest).drop 13) ∧
    (∃ r, p.parseEvent true (e.encode p.checksum ++ rest) = .err .constraint r) ∧
    p.skipEvent (e.encode p.checksum ++ rest) = .err .constraint ((e.encode p.checksum ++ rest).drop 13) ∧
    (e.encode p.checksum ++ rest).drop 13 ≠ rest := by
  have hh := header_new p.checksum e he rest
  refine ⟨?_, parse_new p true e he rest, ?_, ?_⟩
  · unfold ParserV4.parseEvent
    rw [Bool.and_false, if_neg (by simp), P.bind_apply, P.pure_apply, R.bind_ok, P.bind_apply, hh]
    rfl
  · unfold ParserV4.skipEvent
    rw [P.bind_apply, hh]
    rfl
  · intro h
    have h := congrArg List.length h
    have hl := encode_length p.checksum e
    have : 19 ≤ e.len p.checksum := by unfold Spec.LogEvent.len; omega
    simp only [List.length_drop, List.length_append, hl] at h
    omega

/-- a compressed transaction, marked as one that can be ignored -/
example : Spec.OfNewType ⟨1, 40, 7, 90, 0x80, [2, 1, 0]⟩ := by unfold Spec.OfNewType; norm_num

theorem recv_new (s : BinlogStream) (e : LogEvent) (he : Spec.OfNewType e) (ms : List Bytes) (rest : Bytes) (c : Conn)
    (hd : Spec.Delivers c.inp (Spec.streamMessage s.pv4.checksum e :: ms) rest) :
    ∃ c', s.recvAndParse c = .err .constraint c' ∧ Moved c c' ∧ Spec.Delivers c'.inp ms rest := by
  obtain ⟨c', h1, h2, h3, h4⟩ := Delivers.recv hd
  obtain ⟨r, hp⟩ := parse_new s.pv4 s.validateChecksum e he []
  rw [List.append_nil] at hp
  refine ⟨c', ?_, h2, h3⟩
  unfold BinlogStream.recvAndParse
  rw [h1]
  have : Spec.streamMessage s.pv4.checksum e = 0 :: e.encode s.pv4.checksum := rfl
  rw [this]
  dsimp only
  rw [if_neg (by simp), if_neg (by simp)]
  unfold M.parse
  rw [hp]

/-- C108, streams: an event of a new type ends `next_event` with an error. It is read as a whole, so that a caller that
takes no notice of the error gets the event after it from the next call. -/
theorem C108_stream_false (s : BinlogStream) (hs : s.completed = false) (e : LogEvent) (he : Spec.OfNewType e)
    (ms : List Bytes) (rest : Bytes) (c : Conn)
    (hd : Spec.Delivers c.inp (Spec.streamMessage s.pv4.checksum e :: ms) rest) :
    ∃ c', s.nextEvent c = .err .constraint c' ∧ c'.out = c.out ∧ Spec.Delivers c'.inp ms rest := by
  obtain ⟨c', h1, h2, h3⟩ := recv_new s e he ms rest c hd
  refine ⟨c', ?_, h2.out, h3⟩
  unfold BinlogStream.nextEvent
  rw [if_neg (by simp [hs]), BinlogStream.nextLoop.eq_def, h1]

theorem onEvent_no_stop (ft : FloatText) (o : DmlOpts) (h0 : o.limit = 0) (st : DmlState) (ev : Event) (out : List DmlLine)
    (h : onEvent ft o st ev = (out, .stop)) : ev.kind = .rotate ∧ o.untilNow = false := by
  have rows : ∀ (lines : TableMeta → RowsDataV2 → R (List DmlLine)), onRows o.limit lines st ev.data ≠ (out, .stop) := by
    intro lines hx
    rw [h0] at hx
    unfold onRows at hx
    split at hx
    · split at hx
      · cases hx
      · split at hx
        · cases hx
        · split at hx
          · rw [printLines_unlimited] at hx; cases hx
          · cases hx
          · cases hx
          · cases hx
    · cases hx
    · cases hx
    · cases hx
  unfold onEvent at h
  split at h
  · injection h with _ h
    unfold onTableMap at h
    repeat' split at h
    all_goals cases h
  · exact absurd h (rows _)
  · exact absurd h (rows _)
  · exact absurd h (rows _)
  · rename_i hk
    split at h
    · cases h
    · rename_i hn
      exact ⟨hk, by simpa using hn⟩
  · cases h

theorem dmlLoop_new (ft : FloatText) (o : DmlOpts) (h0 : o.limit = 0) (s : BinlogStream) (hs : s.completed = false)
    (e : LogEvent) (he : Spec.OfNewType e) (ms : List Bytes) (rest : Bytes) :
    ∀ (log : List LogEvent) (st : DmlState) (c : Conn) (out : List DmlLine), (∀ e ∈ log, e.InRange) →
    (o.untilNow = true ∨ ∀ e ∈ log, e.code ≠ 4) →
    Spec.Delivers c.inp (log.map (Spec.streamMessage s.pv4.checksum) ++ Spec.streamMessage s.pv4.checksum e :: ms) rest →
    runLog ft o s.pv4.checksum st log = (out, .done) → dmlLoop ft o s st c = (out, .err .constraint)
  | [], st, c, out, _, _, hd, hrun => by
    injection hrun with h1 _
    subst h1
    obtain ⟨c', h1, -, -⟩ := C108_stream_false s hs e he ms rest c hd
    rw [dmlLoop.eq_def, h1]
  | x :: log, st, c, out, hin, hrot, hd, hrun => by
    rw [List.map_cons, List.cons_append] at hd
    obtain ⟨c1, o1, a1, a2, a3, a4, a5⟩ := recvAndParse_event s x (hin x List.mem_cons_self) _ rest c hd
    have hrot' : o.untilNow = true ∨ ∀ e ∈ log, e.code ≠ 4 := hrot.imp_right fun h y hy => h y (List.mem_cons_of_mem _ hy)
    have ih := fun st out => dmlLoop_new ft o h0 s hs e he ms rest log st c1 out
      (fun y hy => hin y (List.mem_cons_of_mem _ hy)) hrot' a4
    rw [runLog, ← seenEvent_eq a1] at hrun
    cases o1 with
    | none =>
      have hloop : s.nextLoop c = s.nextLoop c1 := by
        rw [BinlogStream.nextLoop.eq_def, a2]
        dsimp only
        rw [if_pos a5]
      rw [dmlLoop_skip ft o s st c c1 hs hloop a5]
      exact ih st out hrun
    | some ev =>
      have hloop : s.nextLoop c = .ok (some ev, s) c1 := by
        rw [BinlogStream.nextLoop.eq_def, a2]
      rw [dmlLoop.eq_def]
      unfold BinlogStream.nextEvent
      rw [if_neg (by simp [hs]), hloop]
      dsimp only at hrun ⊢
      cases hev : onEvent ft o st ev with
      | mk out1 next =>
      rw [hev] at hrun
      cases next with
      | go st' =>
        dsimp only at hrun ⊢
        rw [if_pos a5]
        injection hrun with e1 e2
        rw [ih st' _ (Prod.ext rfl e2), ← e1]
      | stop =>
        exfalso
        obtain ⟨k1, k2⟩ := onEvent_no_stop ft o h0 st ev out1 hev
        rcases hrot with h | h
        · rw [h] at k2; cases k2
        · unfold Spec.Seen at a1
          split at a1
          · obtain ⟨k, b1, b2⟩ := a1
            injection b2 with b2
            subst b2
            have k1 : k = .rotate := k1
            subst k1
            exact h x List.mem_cons_self b1.symm
          · cases a1
      | err e => cases hrun
      | panic => cases hrun
      | hang => cases hrun

/-- C108 fails for the program for row changes: at an event of a new type anywhere in the log the run ends with an error.
What is printed is what would be printed for the log up to there; nothing after it is. -/
theorem C108_dml_false (ft : FloatText) (o : DmlOpts) (hb : o.nonBlock = true) (h0 : o.limit = 0)
    (hf : o.filename.length < 10 ^ 9 ∧ validUtf8 o.filename = true) (uuid uuid' : Bytes) (hu : uuid.length = 36)
    (hu' : uuid'.length = 36) (random random' : Nat) (hr : random < 2 ^ 32) (hr' : random' < 2 ^ 32)
    (conn conn' helper : Conn) (crc : Bool) (opening opening' : List Bytes)
    (hopen : Spec.OpensStream conn.caps crc opening) (hopen' : Spec.OpensStream conn'.caps crc opening')
    (log : List LogEvent) (hin : ∀ e ∈ log, e.InRange) (hrot : o.untilNow = true ∨ ∀ e ∈ log, e.code ≠ 4)
    (e : LogEvent) (he : Spec.OfNewType e) (after : List Bytes) (eof rest rest' : Bytes)
    (hd : Spec.Delivers conn.inp (opening ++ (log.map (Spec.streamMessage crc) ++ [0xfe :: eof])) rest)
    (hd' : Spec.Delivers conn'.inp (opening' ++ (log.map (Spec.streamMessage crc) ++ Spec.streamMessage crc e :: after)) rest')
    (hdone : (printDmls ft o uuid random conn helper).2 = .done) :
    printDmls ft o uuid' random' conn' helper = ((printDmls ft o uuid random conn helper).1, .err .constraint) := by
  have e1 := printDmls_runLog ft o hb hf uuid hu random hr conn helper crc opening hopen log hin eof rest hd
  obtain ⟨s, c1, a1, a2, a3, rfl, a5⟩ := requestStream_opens o hf uuid' hu' random' hr' conn' crc opening' _ rest' hopen' hd'
  have key := dmlLoop_new ft o h0 s a2 e he after rest' log ⟨[], [], 0, helper⟩ c1
    (printDmls ft o uuid random conn helper).1 hin hrot a5 (by rw [← e1]; exact Prod.ext rfl hdone)
  rw [← key]
  conv => lhs; unfold printDmls
  rw [a1]

end Mybin
