/-
C139: success is reported only for what has come to its end.
-/
import Verif.Props.C132
import Verif.Props.C137
import Verif.Props.C43
import Verif.Props.C87
import Verif.Props.C28_C32

namespace Mybin

/-- a message with which a server says that there are no more events -/
def Spec.SaysEnd (m : List UInt8) : Prop := m.head? = some 0xfe

/-- a message with a rotate event: the marker of an event, and the code of its type after the four bytes of the time -/
def Spec.SaysRotate (m : List UInt8) : Prop := m.head? = some 0 ∧ m[5]? = some 4

theorem header_rotate (bs r : Bytes) (hd : EventHeader) (h : EventHeader.readFrom bs = .ok hd r) (hk : hd.typeCode = .rotate) :
    bs[4]? = some 4 := by
  unfold EventHeader.readFrom EventHeaderV1.readFrom readLeU32 readLeU16 at h
  simp only [P.bind_eq_ok, readFixed_eq_ok, P.pure_eq_ok, P.orErr_eq_ok, readU8_eq_ok] at h
  obtain ⟨v1, r1, ⟨t, r2, ⟨h4, -, rfl⟩, c, r3, ⟨b, hb, rfl⟩, s, r4, ⟨h9, -, rfl⟩, l, r5, ⟨h13, -, rfl⟩,
    k, r6, ⟨hc, rfl⟩, hv, rfl⟩, n, r7, ⟨h17, -, rfl⟩, f, r8, ⟨h19, -, -⟩, hx, -⟩ := h
  subst hx
  subst hv
  dsimp only at hk
  subst hk
  have hb4 : b.toNat = 4 := by
    generalize b.toNat = n at hc
    unfold LogEventType.tryFrom at hc
    split at hc <;> first | rfl | cases hc
  have hb' : b = 4 := UInt8.toNat_inj.1 hb4
  have := congrArg (·[0]?) hb
  rw [hb'] at this
  simpa using this

theorem parse_rotate (p : ParserV4) (validate : Bool) (bs rest : Bytes) (e : Event)
    (h : p.parseEvent validate bs = .ok (some e) rest) (hk : e.kind = .rotate) : bs[4]? = some 4 := by
  unfold ParserV4.parseEvent at h
  rw [P.bind_eq_ok] at h
  obtain ⟨_, r0, hv, h⟩ := h
  have hr0 : r0 = bs := by
    by_cases hc : (p.checksum && validate) = true
    · rw [if_pos hc] at hv
      unfold ParserV4.verifyChecksum at hv
      simp only [P.bind_eq_ok, P.peek_eq] at hv
      obtain ⟨hd, r1, h1, raw, r2, h2, h3⟩ := hv
      have e1 : r1 = bs := by
        cases e : EventHeader.readFrom bs <;> rw [e] at h1 <;> cases h1; rfl
      subst e1
      have e2 : r2 = r1 := by
        cases e : readLen hd.eventLen r1 <;> rw [e] at h2 <;> cases h2; rfl
      subst e2
      by_cases hc1 : raw.length < 4
      · rw [if_pos hc1] at h3; cases h3
      · rw [if_neg hc1] at h3
        split at h3
        · cases h3
        · cases h3; rfl
    · rw [if_neg hc] at hv; cases hv; rfl
  subst hr0
  rw [P.bind_eq_ok] at h
  obtain ⟨hd, r1, h1, h⟩ := h
  rw [P.bind_eq_ok] at h
  obtain ⟨n, r2, hn, h⟩ := h
  rw [P.bind_eq_ok] at h
  obtain ⟨data, r3, hr, h⟩ := h
  rw [P.bind_eq_ok] at h
  obtain ⟨data', r4, hd4, h⟩ := h
  refine header_rotate _ _ hd h1 ?_
  split at h
  · cases h; exact hk
  · cases h

theorem recvAndParse_saw (s : BinlogStream) (c c' : Conn) (v : BinlogStreamEvent) (h : s.recvAndParse c = .ok v c') :
    ∃ m, Spec.Delivers c.inp [m] c'.inp ∧ (v = .theEnd → s.nonBlock = true ∧ Spec.SaysEnd m) ∧
      ∀ e, v = .single e → e.kind = .rotate → Spec.SaysRotate m := by
  unfold BinlogStream.recvAndParse at h
  cases hr : recvMsg c with
  | ok m c1 =>
    rw [hr] at h
    obtain ⟨ps, q1, q2, q3⟩ := C11_recv_sound c c1 m hr
    have hd : Spec.Delivers c.inp [m] c1.inp := ⟨[ps], by simpa using q1, by simp [q3], by simpa using q2⟩
    cases m with
    | nil => cases h
    | cons b t =>
      dsimp only at h
      split at h
      · rename_i hb
        rw [Bool.and_eq_true] at hb
        cases h
        refine ⟨_, hd, fun _ => ⟨hb.1, ?_⟩, fun e he => by cases he⟩
        have : b = 0xfe := by simpa using hb.2
        rw [this]
        rfl
      · split at h
        · cases h
        · rename_i hb
          have hb0 : b = 0 := by simpa using hb
          unfold M.parse at h
          cases hp : s.pv4.parseEvent s.validateChecksum t with
          | ok o rest =>
            rw [hp] at h
            cases o with
            | none =>
              cases h
              exact ⟨_, hd, (fun he => by cases he), fun e he => by cases he⟩
            | some ev =>
              cases h
              refine ⟨_, hd, (fun he => by cases he), fun e he hk => ?_⟩
              cases he
              refine ⟨by rw [hb0]; rfl, ?_⟩
              rw [List.getElem?_cons_succ]
              exact parse_rotate _ _ _ _ _ hp hk
          | err => rw [hp] at h; cases h
          | panic => rw [hp] at h; cases h
          | hang => rw [hp] at h; cases h
  | err => rw [hr] at h; cases h
  | panic => rw [hr] at h; cases h
  | hang => rw [hr] at h; cases h

theorem nextLoop_saw (s s' : BinlogStream) (c c' : Conn) (v : Option Event) (h : s.nextLoop c = .ok (v, s') c') :
    s' = s ∧ ∃ ms m, Spec.Delivers c.inp (ms ++ [m]) c'.inp ∧ (v = none → s.nonBlock = true ∧ Spec.SaysEnd m) ∧
      ∀ e, v = some e → e.kind = .rotate → Spec.SaysRotate m := by
  induction hn : c.inp.length using Nat.strong_induction_on generalizing c with
  | _ n ih =>
    rw [BinlogStream.nextLoop.eq_def] at h
    cases hr : s.recvAndParse c with
    | ok w c1 =>
      rw [hr] at h
      obtain ⟨m, d, m1, m2⟩ := recvAndParse_saw s c c1 w hr
      cases w with
      | single e =>
        cases h
        refine ⟨rfl, [], m, d, (fun he => by cases he), fun e he hk => ?_⟩
        cases he
        exact m2 _ rfl hk
      | unsupported =>
        dsimp only at h
        split at h
        · obtain ⟨i1, ms, m', i2, i3⟩ := ih _ (by omega) c1 h rfl
          exact ⟨i1, [m] ++ ms, m', by rw [List.append_assoc]; exact Delivers.join d i2, i3⟩
        · cases h
      | theEnd =>
        cases h
        exact ⟨rfl, [], m, d, fun _ => m1 rfl, fun e he => by cases he⟩
    | err => rw [hr] at h; cases h
    | panic => rw [hr] at h; cases h
    | hang => rw [hr] at h; cases h

theorem onRows_unlimited (lines : TableMeta → RowsDataV2 → R (List DmlLine)) (st : DmlState) (data : Bytes) :
    (onRows 0 lines st data).2 ≠ .stop := by
  unfold onRows
  split
  · split
    · intro h; cases h
    · split
      · intro h; cases h
      · split
        · split
          · intro h; cases h
          · rename_i hp
            rw [printLines_unlimited] at hp; cases hp
        · intro h; cases h
        · intro h; cases h
        · intro h; cases h
  · intro h; cases h
  · intro h; cases h
  · intro h; cases h

theorem onTableMap_goes (o : DmlOpts) (st : DmlState) (data : Bytes) : onTableMap o st data ≠ .stop := by
  unfold onTableMap
  repeat' split
  all_goals (intro h; cases h)

theorem onEvent_stops (ft : FloatText) (o : DmlOpts) (hl : o.limit = 0) (st : DmlState) (ev : Event)
    (h : (onEvent ft o st ev).2 = .stop) : ev.kind = .rotate ∧ o.untilNow = false := by
  unfold onEvent at h
  rw [hl] at h
  cases hk : ev.kind <;> rw [hk] at h <;> dsimp only at h <;>
    first
    | exact absurd h (onTableMap_goes _ _ _)
    | exact absurd h (onRows_unlimited _ _ _)
    | (cases hu : o.untilNow with
       | false => exact ⟨rfl, rfl⟩
       | true => rw [hu, if_pos rfl] at h; cases h)
    | cases h

theorem dmlLoop_done (ft : FloatText) (o : DmlOpts) (hl : o.limit = 0) (s : BinlogStream) (hs : s.completed = false)
    (st : DmlState) (c : Conn) (h : (dmlLoop ft o s st c).2 = .done) :
    ∃ ms m rest, Spec.Delivers c.inp (ms ++ [m]) rest ∧
      (s.nonBlock = true ∧ Spec.SaysEnd m ∨ o.untilNow = false ∧ Spec.SaysRotate m) := by
  induction hn : c.inp.length using Nat.strong_induction_on generalizing c st with
  | _ n ih =>
    rw [dmlLoop.eq_def] at h
    cases hr : s.nextEvent c with
    | ok v c1 =>
      obtain ⟨v, s'⟩ := v
      have hl' : s.nextLoop c = .ok (v, s') c1 := by
        unfold BinlogStream.nextEvent at hr
        rwa [hs, if_neg (by decide)] at hr
      obtain ⟨e1, ms, m, d, m1, m2⟩ := nextLoop_saw s s' c c1 v hl'
      subst e1
      rw [hr] at h
      cases v with
      | none => exact ⟨ms, m, _, d, .inl (m1 rfl)⟩
      | some ev =>
        dsimp only at h
        have hst := onEvent_stops ft o hl st ev
        generalize onEvent ft o st ev = x at h hst
        obtain ⟨out, nx⟩ := x
        cases nx with
        | go st' =>
          dsimp only at h
          split at h
          · obtain ⟨ms', m', rest, i1, i2⟩ := ih _ (by omega) st' c1 h rfl
            exact ⟨ms ++ [m] ++ ms', m', rest, by rw [List.append_assoc]; exact Delivers.join d i1, i2⟩
          · cases h
        | stop =>
          obtain ⟨hk, hu⟩ := hst rfl
          exact ⟨ms, m, _, d, .inr ⟨hu, m2 ev rfl hk⟩⟩
        | err e => cases h
        | panic => cases h
        | hang => cases h
    | err => rw [hr] at h; cases h
    | panic => rw [hr] at h; cases h
    | hang => rw [hr] at h; cases h

theorem run_ok_inv {α β : Type} {x : M α} {f : α → M β} {c c' : Conn} {b : β} (h : (x >>= f) c = .ok b c') :
    ∃ a c1, x c = .ok a c1 ∧ f a c1 = .ok b c' := by
  change (x c).bind f = _ at h
  cases hx : x c with
  | ok a c1 => rw [hx] at h; exact ⟨a, c1, rfl, h⟩
  | err => rw [hx] at h; cases h
  | panic => rw [hx] at h; cases h
  | hang => rw [hx] at h; cases h

theorem parse_ok_inv {α : Type} {msg : Bytes} {p : P α} {c c' : Conn} {a : α} (h : M.parse msg p c = .ok a c') : c' = c := by
  unfold M.parse at h
  cases hp : p msg with
  | ok => rw [hp] at h; cases h; rfl
  | err => rw [hp] at h; cases h
  | panic => rw [hp] at h; cases h
  | hang => rw [hp] at h; cases h

theorem firstEvents_saw (r : BinlogRequest) (k : Bool) (c c' : Conn) (s : BinlogStream) (h : r.firstEvents k c = .ok s c')
    (hs : s.completed = true) : ∃ m, Spec.Delivers c.inp [m] c'.inp ∧ Spec.SaysEnd m := by
  unfold BinlogRequest.firstEvents at h
  obtain ⟨m, c1, hr, h⟩ := run_ok_inv h
  obtain ⟨ps, q1, q2, q3⟩ := C11_recv_sound c c1 m hr
  have hd : Spec.Delivers c.inp [m] c1.inp := ⟨[ps], by simpa using q1, by simp [q3], by simpa using q2⟩
  cases m with
  | nil => cases h
  | cons b t =>
    dsimp only at h
    split at h
    · unfold failWithErrPacket at h
      obtain ⟨_, _, _, h⟩ := run_ok_inv h
      obtain ⟨_, _, _, h⟩ := run_ok_inv h
      cases h
    · split at h
      · rename_i hb
        obtain ⟨_, _, e1, h⟩ := run_ok_inv h
        cases e1
        obtain ⟨_, c3, e2, h3⟩ := run_ok_inv h
        have e3 := parse_ok_inv e2
        have e4 : c3 = c' := (MR.ok.inj h3).2
        rw [← e4, e3]
        exact ⟨_, hd, by rw [hb]; rfl⟩
      · split at h
        · obtain ⟨_, _, _, h⟩ := run_ok_inv h
          obtain ⟨_, _, _, h⟩ := run_ok_inv h
          obtain ⟨_, _, _, h⟩ := run_ok_inv h
          cases h
          cases hs
        · cases h

theorem took_ok {α : Type} {run : M α} (h : Takes run) {c c' : Conn} {a : α} (hr : run c = .ok a c') :
    ∃ ms, Spec.Delivers c.inp ms c'.inp := by
  have := h c
  rw [hr] at this
  exact this

theorem printDmls_done (ft : FloatText) (o : DmlOpts) (hl : o.limit = 0) (uuid : Bytes) (random : Nat) (conn helper : Conn)
    (h : (printDmls ft o uuid random conn helper).2 = .done) :
    ∃ ms m rest, Spec.Delivers conn.inp (ms ++ [m]) rest ∧
      ((o.nonBlock = true ∨ (printDmls ft o uuid random conn helper).1 = []) ∧ Spec.SaysEnd m ∨
        o.untilNow = false ∧ Spec.SaysRotate m) := by
  have hnb := requestStream_nonBlock o.request uuid random conn
  unfold printDmls at h ⊢
  cases hq : o.request.requestStream uuid random conn with
  | ok s c =>
    rw [hq] at h
    dsimp only at h ⊢
    cases hs : s.completed with
    | false =>
      obtain ⟨ms0, d0⟩ := took_ok (Takes.requestStream _ _ _) hq
      obtain ⟨ms, m, rest, d, hm⟩ := dmlLoop_done ft o hl s hs _ c h
      refine ⟨ms0 ++ ms, m, rest, by rw [List.append_assoc]; exact Delivers.join d0 d, ?_⟩
      rcases hm with ⟨h1, h2⟩ | hm
      · rw [hnb s c hq] at h1
        exact .inl ⟨.inl h1, h2⟩
      · exact .inr hm
    | true =>
      unfold BinlogRequest.requestStream at hq
      obtain ⟨x, c1, q1, hq⟩ := run_ok_inv hq
      obtain ⟨_, c2, q2, hq⟩ := run_ok_inv hq
      obtain ⟨ms1, d1⟩ := took_ok (Takes.setup _ _ _) q1
      obtain ⟨ms2, d2⟩ := took_ok (Takes.sendMsg _ _) q2
      obtain ⟨m, d3, hm⟩ := firstEvents_saw _ _ _ _ _ hq hs
      refine ⟨ms1 ++ ms2, m, c.inp, Delivers.join (Delivers.join d1 d2) d3, .inl ⟨.inr ?_, hm⟩⟩
      rw [dmlLoop.eq_def]
      unfold BinlogStream.nextEvent
      rw [hs, if_pos rfl]
  | err => rw [hq] at h; cases h
  | panic => rw [hq] at h; cases h
  | hang => rw [hq] at h; cases h

/-! ### the theorem -/

/-- C139: `mybinlog dml` reports success only if it has printed as many statements as the limit allows, or if the last message it
read is the end of the events (which it takes for one only if it does not wait, or in place of the first event, when it prints
nothing), or, if it does not follow the log, the end of the file. -/
theorem C139_mybinlog (w : World) (host port user password file : Bytes) (df tf : Option Bytes) (untilNow block : Bool) (limit : Nat)
    (h : (mybinlog w ⟨host, port, user, password, .dml file untilNow df tf block limit⟩).theEnd = .done) :
    ∃ printed : List DmlLine,
      (mybinlog w ⟨host, port, user, password, .dml file untilNow df tf block limit⟩).lines = printed.map .dml ∧
      (limit ≠ 0 ∧ statements printed = limit ∨
        ∃ inp ms m rest, w.stream 0 (address host port) = some inp ∧ Spec.Delivers inp (ms ++ [m]) rest ∧
          ((block = false ∨ printed = []) ∧ Spec.SaysEnd m ∨ untilNow = false ∧ Spec.SaysRotate m)) := by
  unfold mybinlog at h ⊢
  dsimp only at h ⊢
  cases hc : connect w 0 host port user password with
  | ok u conn =>
    rw [hc] at h
    dsimp only at h ⊢
    cases hc1 : connect w 1 host port user password with
    | ok u helper =>
      rw [hc1] at h
      dsimp only at h ⊢
      cases hf : compileFilter w df with
      | none => rw [hf] at h; cases h
      | some df =>
        rw [hf] at h
        dsimp only at h ⊢
        cases hf' : compileFilter w tf with
        | none => rw [hf'] at h; cases h
        | some tf =>
          rw [hf'] at h
          dsimp only at h ⊢
          refine ⟨_, rfl, ?_⟩
          have key : (printDmls w.ft ⟨file, untilNow, df, tf, !block, 0⟩ w.uuid w.random conn helper).2 = .done →
              ∃ inp ms m rest, w.stream 0 (address host port) = some inp ∧ Spec.Delivers inp (ms ++ [m]) rest ∧
                ((block = false ∨ (printDmls w.ft ⟨file, untilNow, df, tf, !block, 0⟩ w.uuid w.random conn helper).1 = []) ∧
                  Spec.SaysEnd m ∨ untilNow = false ∧ Spec.SaysRotate m) := by
            intro hd
            obtain ⟨ms, m, rest, d, hm⟩ := printDmls_done w.ft _ rfl w.uuid w.random conn helper hd
            unfold connect at hc
            cases hw : w.stream 0 (address host port) with
            | none => rw [hw] at hc; cases hc
            | some inp =>
              rw [hw] at hc
              obtain ⟨ms0, d0⟩ := took_ok (Takes.handshake _ _) hc
              refine ⟨inp, ms0 ++ ms, m, rest, rfl, by rw [List.append_assoc]; exact Delivers.join d0 d, ?_⟩
              simpa using hm
          by_cases h0 : limit = 0
          · subst h0
            exact .inr (key h)
          · have hlim := C43_limit w.ft ⟨file, untilNow, df, tf, !block, limit⟩ w.uuid w.random conn helper h0
            dsimp only at hlim
            rw [hlim] at h ⊢
            dsimp only at h ⊢
            by_cases hle : limit ≤ statements (printDmls w.ft ⟨file, untilNow, df, tf, !block, 0⟩ w.uuid w.random conn helper).1
            · left
              refine ⟨h0, ?_⟩
              rw [statements_upTo]
              omega
            · rw [if_neg hle] at h
              rw [upTo_all _ _ (by omega)]
              exact .inr (key h)
    | err => rw [hc1] at h; cases h
    | panic => rw [hc1] at h; cases h
    | hang => rw [hc1] at h; cases h
  | err => rw [hc] at h; cases h
  | panic => rw [hc] at h; cases h
  | hang => rw [hc] at h; cases h

/-- the program of C87 succeeds over its log, and what it has read ends with the message that says so -/
example (ft : FloatText) : ∃ inp1 inp2,
    (mybinlog (exampleWorld ft inp1 inp2) (exampleProg 0)).theEnd = .done ∧
    ∃ ms m rest, Spec.Delivers inp1 (ms ++ [m]) rest ∧ Spec.SaysEnd m := by
  obtain ⟨inp1, inp2, out, -, -, h⟩ := example_program ft 0
  refine ⟨inp1, inp2, h, ?_⟩
  obtain ⟨printed, -, h⟩ := C139_mybinlog _ _ _ _ _ _ _ _ _ _ _ h
  rcases h with ⟨h, -⟩ | ⟨inp, ms, m, rest, hw, d, ⟨-, hm⟩ | ⟨h, -⟩⟩
  · exact absurd rfl h
  · have ha : address (Spec.ascii "db") (Spec.ascii "3306") = Spec.ascii "db:3306" := by decide +kernel
    rw [ha] at hw
    have : some inp1 = some inp := by simpa [exampleWorld] using hw
    cases this
    exact ⟨ms, m, rest, d, hm⟩
  · cases h

end Mybin
