/-
C139: success is reported only for what has come to its end; the list of files and `mybinmsg`.
-/
import Verif.Props.C139
import Verif.Props.C117

namespace Mybin

theorem recvMsg_delivers {c c' : Conn} {m : Bytes} (hr : recvMsg c = .ok m c') : Spec.Delivers c.inp [m] c'.inp := by
  obtain ⟨ps, q1, q2, q3⟩ := C11_recv_sound c c' m hr
  exact ⟨[ps], by simpa using q1, by simp [q3], by simpa using q2⟩

theorem nextRow_none {ρ : Type} (read : P ρ) (rs rs' : ResultSet) (hs : rs.completed = false) (c c' : Conn)
    (h : rs.nextRow read c = .ok (none, rs') c') : ∃ m, Spec.Delivers c.inp [m] c'.inp ∧ Spec.SaysEnd m := by
  unfold ResultSet.nextRow at h
  rw [hs, if_neg (by decide)] at h
  obtain ⟨m, c1, hr, h⟩ := run_ok_inv h
  obtain ⟨caps, c2, e1, h⟩ := run_ok_inv h
  cases e1
  cases m with
  | nil => cases h
  | cons b t =>
    dsimp only at h
    split at h
    · rename_i hb
      obtain ⟨_, c3, e2, h3⟩ := run_ok_inv h
      have e4 : c3 = c' := (MR.ok.inj h3).2
      have e3 : c3 = c1 := by
        unfold readTerminator at e2
        split at e2
        · split at e2 <;> first | exact (MR.ok.inj e2).2.symm | cases e2
        · split at e2 <;> first | exact (MR.ok.inj e2).2.symm | cases e2
      rw [← e4, e3]
      exact ⟨_, recvMsg_delivers hr, by rw [hb.1]; rfl⟩
    · obtain ⟨_, _, _, h3⟩ := run_ok_inv h
      exact absurd (congrArg Prod.fst (MR.ok.inj h3).1) (by intro h; cases h)

theorem nextRow_some {ρ : Type} (read : P ρ) (rs rs' : ResultSet) (c c' : Conn) (r : ρ)
    (h : rs.nextRow read c = .ok (some r, rs') c') : rs' = rs := by
  unfold ResultSet.nextRow at h
  split at h
  · exact absurd (congrArg Prod.fst (MR.ok.inj h).1) (by intro h; cases h)
  · obtain ⟨m, c1, hr, h⟩ := run_ok_inv h
    obtain ⟨caps, c2, e1, h⟩ := run_ok_inv h
    cases m with
    | nil => cases h
    | cons b t =>
      dsimp only at h
      split at h
      · obtain ⟨_, _, _, h3⟩ := run_ok_inv h
        exact absurd (congrArg Prod.fst (MR.ok.inj h3).1) (by intro h; cases h)
      · obtain ⟨_, _, _, h3⟩ := run_ok_inv h
        exact (congrArg Prod.snd (MR.ok.inj h3).1).symm

theorem filesLoop_done (rs : ResultSet) (hs : rs.completed = false) (files out : List Cmd.BinlogFile) (c c' : Conn)
    (h : Cmd.filesLoop rs files c = .ok out c') : ∃ ms m, Spec.Delivers c.inp (ms ++ [m]) c'.inp ∧ Spec.SaysEnd m := by
  induction hn : c.inp.length using Nat.strong_induction_on generalizing c files with
  | _ n ih =>
    rw [Cmd.filesLoop.eq_def] at h
    cases hr : rs.nextRow (mapRow rs.textRow Cmd.binlogFileMapper) c with
    | ok v c1 =>
      rw [hr] at h
      obtain ⟨v, rs'⟩ := v
      cases v with
      | none =>
        obtain ⟨m, d, hm⟩ := nextRow_none _ _ _ hs _ _ hr
        cases h
        exact ⟨[], m, d, hm⟩
      | some v =>
        have e := nextRow_some _ _ _ _ _ _ hr
        subst e
        cases v with
        | ok f =>
          dsimp only at h
          split at h
          · obtain ⟨ms0, d0⟩ := took_ok (Takes.nextRow _ _) hr
            obtain ⟨ms, m, d, hm⟩ := ih _ (by omega) _ c1 h rfl
            exact ⟨ms0 ++ ms, m, by rw [List.append_assoc]; exact Delivers.join d0 d, hm⟩
          · cases h
        | err e => cases h
        | panic => cases h
    | err => rw [hr] at h; cases h
    | panic => rw [hr] at h; cases h
    | hang => rw [hr] at h; cases h

theorem filesLoop_completed (rs : ResultSet) (hs : rs.completed = true) (files : List Cmd.BinlogFile) (c : Conn) :
    Cmd.filesLoop rs files c = .ok files c := by
  rw [Cmd.filesLoop.eq_def]
  unfold ResultSet.nextRow
  rw [hs, if_pos rfl]
  rfl

theorem parseColCnt_stays (m : Bytes) (c c' : Conn) (n : Nat) (h : parseColCnt m c = .ok n c') : c' = c ∧ m.head? ≠ some 0xff := by
  unfold parseColCnt at h
  cases m with
  | nil => cases h
  | cons b t =>
    dsimp only at h
    obtain ⟨caps, c2, e1, h⟩ := run_ok_inv h
    cases e1
    split at h
    · unfold failWithErrPacket at h
      obtain ⟨_, _, _, h⟩ := run_ok_inv h
      obtain ⟨_, _, _, h⟩ := run_ok_inv h
      cases h
    · rename_i hb
      refine ⟨?_, by simpa using hb⟩
      split at h
      · obtain ⟨_, c3, e2, h3⟩ := run_ok_inv h
        rw [← (MR.ok.inj h3).2]
        exact parse_ok_inv e2
      · unfold readColCnt at h
        split at h
        · split at h
          · exact (MR.ok.inj h).2.symm
          · split at h <;> cases h
        all_goals cases h

theorem binlogFiles_done (c c' : Conn) (files : List Cmd.BinlogFile) (h : Cmd.binlogFiles c = .ok files c') :
    ∃ ms m, Spec.Delivers c.inp (ms ++ [m]) c'.inp ∧ (Spec.SaysEnd m ∨ files = [] ∧ m.head? ≠ some 0xff) := by
  unfold Cmd.binlogFiles at h
  obtain ⟨rs, c1, hq, h⟩ := run_ok_inv h
  cases hs : rs.completed with
  | false =>
    obtain ⟨ms0, d0⟩ := took_ok (Takes.query _) hq
    obtain ⟨ms, m, d, hm⟩ := filesLoop_done rs hs _ _ _ _ h
    exact ⟨ms0 ++ ms, m, by rw [List.append_assoc]; exact Delivers.join d0 d, .inl hm⟩
  | true =>
    rw [filesLoop_completed rs hs] at h
    cases h
    unfold Query.qry at hq
    obtain ⟨_, c2, q1, hq⟩ := run_ok_inv hq
    obtain ⟨ms0, d0⟩ := took_ok (Takes.sendMsg _ _) q1
    unfold newResultSet at hq
    obtain ⟨m, c3, q2, hq⟩ := run_ok_inv hq
    obtain ⟨n, c4, q3, hn⟩ := run_ok_inv hq
    obtain ⟨e1, e2⟩ := parseColCnt_stays _ _ _ _ q3
    subst e1
    split at hn
    · have e3 := (MR.ok.inj hn).2
      rw [← e3]
      exact ⟨ms0, m, Delivers.join d0 (recvMsg_delivers q2), .inr ⟨rfl, e2⟩⟩
    · obtain ⟨_, _, _, hn⟩ := run_ok_inv hn
      obtain ⟨_, _, _, hn⟩ := run_ok_inv hn
      have := (MR.ok.inj hn).1
      rw [← this] at hs
      cases hs

theorem connect_delivers {w : World} {n : Nat} {host port user password : Bytes} {u : Unit} {conn : Conn}
    (hc : connect w n host port user password = .ok u conn) :
    ∃ inp ms, w.stream n (address host port) = some inp ∧ Spec.Delivers inp ms conn.inp := by
  unfold connect at hc
  cases hw : w.stream n (address host port) with
  | none => rw [hw] at hc; cases hc
  | some inp =>
    rw [hw] at hc
    obtain ⟨ms0, d0⟩ := took_ok (Takes.handshake _ _) hc
    exact ⟨inp, ms0, rfl, d0⟩

/-- C139: `mybinlog list` reports success only if the last message it read ends the rows, or, when no file is printed, is an answer
that is not an error. -/
theorem C139_list (w : World) (host port user password : Bytes)
    (h : (mybinlog w ⟨host, port, user, password, .list⟩).theEnd = .done) :
    ∃ files inp ms m rest, (mybinlog w ⟨host, port, user, password, .list⟩).lines = [.files files] ∧
      w.stream 0 (address host port) = some inp ∧ Spec.Delivers inp (ms ++ [m]) rest ∧
      (Spec.SaysEnd m ∨ files = [] ∧ m.head? ≠ some 0xff) := by
  unfold mybinlog at h ⊢
  dsimp only at h ⊢
  cases hc : connect w 0 host port user password with
  | ok u conn =>
    rw [hc] at h
    dsimp only at h ⊢
    cases hb : Cmd.binlogFiles conn with
    | ok files c =>
      obtain ⟨inp, ms0, hw, d0⟩ := connect_delivers hc
      obtain ⟨ms, m, d, hm⟩ := binlogFiles_done _ _ _ hb
      exact ⟨files, inp, ms0 ++ ms, m, c.inp, rfl, hw, by rw [List.append_assoc]; exact Delivers.join d0 d, hm⟩
    | err => rw [hb] at h; cases h
    | panic => rw [hb] at h; cases h
    | hang => rw [hb] at h; cases h
  | err => rw [hc] at h; cases h
  | panic => rw [hc] at h; cases h
  | hang => rw [hc] at h; cases h

theorem msgLoop_waits (s : BinlogStream) (hs : s.completed = false) (hb : s.nonBlock = false) (c : Conn) :
    (msgLoop s c).2.1 ≠ .done := by
  induction hn : c.inp.length using Nat.strong_induction_on generalizing c with
  | _ n ih =>
    rw [msgLoop.eq_def]
    cases hr : s.nextEvent c with
    | ok v c1 =>
      obtain ⟨v, s'⟩ := v
      have hl' : s.nextLoop c = .ok (v, s') c1 := by
        unfold BinlogStream.nextEvent at hr
        rwa [hs, if_neg (by decide)] at hr
      obtain ⟨e1, ms, m, d, m1, m2⟩ := nextLoop_saw s s' c c1 v hl'
      subst e1
      cases v with
      | none =>
        have := (m1 rfl).1
        rw [hb] at this
        cases this
      | some ev =>
        dsimp only
        split
        · exact ih _ (by omega) c1 rfl
        · intro h; cases h
    | err => intro h; cases h
    | panic => intro h; cases h
    | hang => intro h; cases h

/-- C139: `mybinmsg` reports success only if the server has answered its request for events by their end, and it has printed no event.
It waits for events, and so no other end is a success. -/
theorem C139_mybinmsg (w : World) (host port user password : Bytes)
    (h : (mybinmsg w (.tcp host port user password)).theEnd = .done) :
    ∃ (files : List Cmd.BinlogFile) (inp : Bytes) (ms : List Bytes) (m rest : Bytes), (mybinmsg w (.tcp host port user password)).lines = files.map .file ∧
      w.stream 0 (address host port) = some inp ∧ Spec.Delivers inp (ms ++ [m]) rest ∧ Spec.SaysEnd m := by
  unfold mybinmsg at h ⊢
  dsimp only at h ⊢
  cases hc : connect w 0 host port user password with
  | ok u conn =>
    rw [hc] at h
    dsimp only at h ⊢
    cases hb : Cmd.binlogFiles conn with
    | ok files c =>
      rw [hb] at h
      dsimp only at h ⊢
      cases hq : defaultRequest.requestStream w.uuid w.random c with
      | ok s c3 =>
        rw [hq] at h
        dsimp only at h ⊢
        have hnb := requestStream_nonBlock _ _ _ _ s c3 hq
        cases hs : s.completed with
        | false => exact absurd h (msgLoop_waits s hs hnb c3)
        | true =>
          obtain ⟨inp, ms0, hw, d0⟩ := connect_delivers hc
          obtain ⟨ms1, d1⟩ := took_ok Takes.binlogFiles hb
          unfold BinlogRequest.requestStream at hq
          obtain ⟨x, c1, q1, hq⟩ := run_ok_inv hq
          obtain ⟨_, c2, q2, hq⟩ := run_ok_inv hq
          obtain ⟨ms2, d2⟩ := took_ok (Takes.setup _ _ _) q1
          obtain ⟨ms3, d3⟩ := took_ok (Takes.sendMsg _ _) q2
          obtain ⟨m, d4, hm⟩ := firstEvents_saw _ _ _ _ _ hq hs
          refine ⟨files, inp, ms0 ++ ms1 ++ ms2 ++ ms3, m, c3.inp, ?_, hw,
            Delivers.join (Delivers.join (Delivers.join (Delivers.join d0 d1) d2) d3) d4, hm⟩
          rw [msgLoop.eq_def]
          unfold BinlogStream.nextEvent
          rw [hs, if_pos rfl]
          simp
      | err => rw [hq] at h; cases h
      | panic => rw [hq] at h; cases h
      | hang => rw [hq] at h; cases h
    | err => rw [hb] at h; cases h
    | panic => rw [hb] at h; cases h
    | hang => rw [hb] at h; cases h
  | err => rw [hc] at h; cases h
  | panic => rw [hc] at h; cases h
  | hang => rw [hc] at h; cases h

/-! ### the hypotheses can be met -/

/-- a whole run of the list: a server with one file -/
example (ft : FloatText) : ∃ inp, (mybinlog (exampleWorld ft inp []) { exampleProg 0 with cmd := .list }).theEnd = .done := by
  obtain ⟨mid, hd⟩ := delivers_small _ [] plain_files_small
  obtain ⟨inp, w1⟩ := example_welcome mid
  obtain ⟨printed, text, -, h2, -, -⟩ := C117_list_partial Char.isAlphanum (exampleWorld ft inp []) realHashes_sized
    { exampleProg 0 with cmd := .list } rfl
    ⟨(by decide +kernel : (0 : UInt8) ∉ Spec.ascii "root"), (by decide +kernel : (Spec.ascii "root").length < 2 ^ 30)⟩ inp _ _
    mid [] rfl w1 plain_files [(['f', '1'], 120)]
    (.cons ⟨_, [], (rfl : [some (Spec.ascii "f1"), some (Spec.ascii "120")] = _), by decide +kernel, by decide +kernel,
      by norm_num⟩ .nil) hd
  exact ⟨inp, h2⟩

theorem plain_masters : ∃ msgs, Spec.MasterAnswers plainCaps 7 (Spec.ascii "CRC32") (Spec.ascii "ON") 1 2 3 msgs ∧
    ∀ m ∈ msgs, m.length < 0xffffff := by
  let tells : Bytes → List Bytes := fun value => Spec.textAnswer plainCaps [exampleTextDef, exampleTextDef] 0 2
      [[some (Spec.ascii "x"), some value]] (Spec.okPacket plainCaps 0xfe ⟨0, 0, 2, 0, [], []⟩)
  let accepts : Nat → List Bytes := fun id => Spec.prepareResponse plainCaps ⟨id, 0⟩ [exampleTextDef] [] 0 2 0 0
    ++ [Spec.okPacket plainCaps 0 ⟨0, 0, 2, 0, [], []⟩]
  let msgs : List Bytes := [tells (Spec.ascii "7"), accepts 1, tells (Spec.ascii "CRC32"), accepts 2, tells (Spec.ascii "ON"),
    tells (Spec.ascii "u"), accepts 3, [Spec.okPacket plainCaps 0 ⟨0, 0, 2, 0, [], []⟩]].flatten
  refine ⟨msgs, ⟨Spec.ascii "7", Spec.ascii "u", _, _, _, _, _, _, _, ⟨0, 0, 2, 0, [], []⟩, by decide +kernel, by norm_num,
      by decide +kernel, by decide +kernel, by decide +kernel, plain_tells _ (by decide), plain_accepts 1 (by norm_num),
      plain_tells _ (by decide), plain_accepts 2 (by norm_num), plain_tells _ (by decide), plain_tells _ (by decide),
      plain_accepts 3 (by norm_num), by constructor <;> norm_num, rfl⟩, by decide +kernel⟩

/-- a whole run of `mybinmsg` that succeeds: a server with one file answers the request for events by their end -/
example (ft : FloatText) : ∃ inp,
    (mybinmsg (exampleWorld ft inp []) (.tcp (Spec.ascii "db") (Spec.ascii "3306") (Spec.ascii "root") (Spec.ascii "pw"))).theEnd
      = .done := by
  obtain ⟨msgs, o1, o2⟩ := plain_masters
  obtain ⟨mid, hd⟩ := delivers_small (Spec.textAnswer plainCaps
    ([(exampleTextDef, ColumnType.varString), (exampleTextDef, ColumnType.varString)].map (·.1)) 0 2
      [[some (Spec.ascii "f1"), some (Spec.ascii "120")]] (Spec.okPacket plainCaps 0xfe ⟨0, 0, 2, 0, [], []⟩) ++
      (msgs ++ [Spec.eofPacket plainCaps 0 2])) [] (by
    intro m hm
    rcases List.mem_append.1 hm with hm | hm
    · exact plain_files_small m hm
    · rcases List.mem_append.1 hm with hm | hm
      · exact o2 m hm
      · simp only [List.mem_singleton] at hm
        subst hm
        decide +kernel)
  obtain ⟨inp, w1⟩ := example_welcome mid
  have hs : (exampleWorld ft inp []).stream 0 (Spec.ascii "db" ++ Spec.ascii ":" ++ Spec.ascii "3306") = some inp := rfl
  have hu : (0 : UInt8) ∉ Spec.ascii "root" ∧ (Spec.ascii "root").length < 2 ^ 30 := ⟨by decide +kernel, by decide +kernel⟩
  have hf : List.Forall₂ (fun row (f : Cmd.BinlogFile) => Spec.FileRow row f.filename f.size)
      [[some (Spec.ascii "f1"), some (Spec.ascii "120")]] [⟨Spec.ascii "f1", 120⟩] :=
    .cons ⟨_, [], rfl, by decide +kernel, by decide +kernel, by norm_num⟩ .nil
  obtain ⟨c, a1, a2, a3, a4⟩ := connect_welcome (exampleWorld ft inp []) realHashes_sized 0 (Spec.ascii "db") (Spec.ascii "3306")
    (Spec.ascii "root") (Spec.ascii "pw") hu inp _ _ mid hs w1
  subst a2
  have ha := plain_files
  unfold plainCaps at ha hd o1
  rw [← a3] at ha hd o1
  obtain ⟨mid2, d1, d2⟩ := Delivers.append hd
  obtain ⟨c', b1, rfl, b3, b4⟩ := C72_binlog_files ha [⟨Spec.ascii "f1", 120⟩] hf mid2 d1
  have hok : defaultRequest.Ok := by
    refine ⟨by show 0 < _; norm_num, by show 30 * 10 ^ 9 < _; norm_num, by decide, by decide, by show 4 < _; norm_num, ?_, ?_⟩
    · intro s hs; cases hs
    · show SidData.bytesLen [] < _
      norm_num [SidData.bytesLen]
  have hx := (C74_dump_refused defaultRequest hok (exampleWorld ft inp []).uuid (List.length_replicate ..)
    (exampleWorld ft inp []).random (by show 5 < _; norm_num) c.caps 7 (Spec.ascii "CRC32") (Spec.ascii "ON") (by decide +kernel)
    (by decide) (fun h => absurd rfl h) 1 2 3 msgs o1).2 0 2 (by norm_num) (by norm_num)
  obtain ⟨c2, e1, -⟩ := hx c' [] b3 d2
  refine ⟨inp, ?_⟩
  unfold mybinmsg
  dsimp only
  rw [a1]
  dsimp only
  rw [b1]
  dsimp only
  rw [e1]
  dsimp only
  rw [msgLoop.eq_def]
  rfl

end Mybin
