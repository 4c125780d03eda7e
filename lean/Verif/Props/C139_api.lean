/-
C139: success is reported only for what has come to its end; the operations of the library that read rows and events.
-/
import Verif.Props.C139_more

namespace Mybin

theorem foldRows_done {ρ σ : Type} (read : P ρ) (f : σ → ρ → σ) (s out : σ) (rs : ResultSet) (hs : rs.completed = false)
    (c c' : Conn) (h : rs.foldRows read f s c = .ok out c') :
    ∃ ms m, Spec.Delivers c.inp (ms ++ [m]) c'.inp ∧ Spec.SaysEnd m := by
  induction hn : c.inp.length using Nat.strong_induction_on generalizing c s with
  | _ n ih =>
    rw [ResultSet.foldRows.eq_def] at h
    cases hr : rs.nextRow read c with
    | ok v c1 =>
      rw [hr] at h
      obtain ⟨v, rs'⟩ := v
      cases v with
      | none =>
        obtain ⟨m, d, hm⟩ := nextRow_none _ _ _ hs _ _ hr
        cases h
        exact ⟨[], m, d, hm⟩
      | some v =>
        have e := nextRow_some _ _ _ _ _ _ hr
        subst e
        dsimp only at h
        split at h
        · obtain ⟨ms0, d0⟩ := took_ok (Takes.nextRow _ _) hr
          obtain ⟨ms, m, d, hm⟩ := ih _ (by omega) _ c1 h rfl
          exact ⟨ms0 ++ ms, m, by rw [List.append_assoc]; exact Delivers.join d0 d, hm⟩
        · cases h
    | err => rw [hr] at h; cases h
    | panic => rw [hr] at h; cases h
    | hang => rw [hr] at h; cases h

theorem foldRows_finished {ρ σ : Type} (read : P ρ) (f : σ → ρ → σ) (s : σ) (rs : ResultSet) (hs : rs.completed = true) (c : Conn) :
    rs.foldRows read f s c = .ok s c := by
  rw [ResultSet.foldRows.eq_def]
  unfold ResultSet.nextRow
  rw [hs, if_pos rfl]
  rfl

theorem query_completed (q : Bytes) (rs : ResultSet) (c c' : Conn) (hq : Query.qry q c = .ok rs c') (hs : rs.completed = true) :
    ∃ ms m, Spec.Delivers c.inp (ms ++ [m]) c'.inp ∧ m.head? ≠ some 0xff := by
  unfold Query.qry at hq
  obtain ⟨_, c2, q1, hq⟩ := run_ok_inv hq
  obtain ⟨ms0, d0⟩ := took_ok (Takes.sendMsg _ _) q1
  unfold newResultSet at hq
  obtain ⟨m, c3, q2, hq⟩ := run_ok_inv hq
  obtain ⟨n, c4, q3, hn⟩ := run_ok_inv hq
  obtain ⟨e1, e2⟩ := parseColCnt_stays _ _ _ _ q3
  subst e1
  split at hn
  · have e3 := (MR.ok.inj hn).2
    rw [← e3]
    exact ⟨ms0, m, Delivers.join d0 (recvMsg_delivers q2), e2⟩
  · obtain ⟨_, _, _, hn⟩ := run_ok_inv hn
    obtain ⟨_, _, _, hn⟩ := run_ok_inv hn
    have := (MR.ok.inj hn).1
    rw [← this] at hs
    cases hs

/-- C139, the rows of a query: whatever is made of the rows, it is a success only if the last message read ends the rows, or, if there
are none, is an answer that is not an error. Rows are never left out because the connection was cut. -/
theorem C139_query {ρ σ : Type} (read : ResultSet → P ρ) (f : σ → ρ → σ) (start out : σ) (q : Bytes) (rs : ResultSet) (c c1 c2 : Conn)
    (hq : Query.qry q c = .ok rs c1) (h : rs.foldRows (read rs) f start c1 = .ok out c2) :
    ∃ ms m, Spec.Delivers c.inp (ms ++ [m]) c2.inp ∧ (Spec.SaysEnd m ∨ out = start ∧ m.head? ≠ some 0xff) := by
  cases hs : rs.completed with
  | false =>
    obtain ⟨ms0, d0⟩ := took_ok (Takes.query _) hq
    obtain ⟨ms, m, d, hm⟩ := foldRows_done _ _ _ _ rs hs _ _ h
    exact ⟨ms0 ++ ms, m, by rw [List.append_assoc]; exact Delivers.join d0 d, .inl hm⟩
  | true =>
    rw [foldRows_finished _ _ _ rs hs] at h
    cases h
    obtain ⟨ms, m, d, hm⟩ := query_completed q rs c c1 hq hs
    exact ⟨ms, m, d, .inr ⟨rfl, hm⟩⟩

/-- C139, one row at a time: that there is no further row is told only after a message that ends the rows, for as long as the rows have
not been ended. -/
theorem C139_next_row {ρ : Type} (read : P ρ) (rs rs' : ResultSet) (hs : rs.completed = false) (c c' : Conn)
    (h : rs.nextRow read c = .ok (none, rs') c') : ∃ m, Spec.Delivers c.inp [m] c'.inp ∧ Spec.SaysEnd m :=
  nextRow_none read rs rs' hs c c' h

/-- C139, one event at a time: after a request, that there is no further event is told only if the last message read says so, and, if
it is not the answer to the request, only to a client that does not wait. -/
theorem C139_next_event (r : BinlogRequest) (uuid : Bytes) (random : Nat) (c c1 c2 : Conn) (s s' : BinlogStream)
    (hq : r.requestStream uuid random c = .ok s c1) (h : s.nextEvent c1 = .ok (none, s') c2) :
    ∃ ms m, Spec.Delivers c.inp (ms ++ [m]) c2.inp ∧ Spec.SaysEnd m ∧ (r.nonBlock = true ∨ c2 = c1) := by
  have hnb := requestStream_nonBlock _ _ _ _ s c1 hq
  cases hs : s.completed with
  | false =>
    have hl : s.nextLoop c1 = .ok (none, s') c2 := by
      unfold BinlogStream.nextEvent at h
      rwa [hs, if_neg (by decide)] at h
    obtain ⟨ms0, d0⟩ := took_ok (Takes.requestStream _ _ _) hq
    obtain ⟨-, ms, m, d, m1, -⟩ := nextLoop_saw s s' c1 c2 none hl
    exact ⟨ms0 ++ ms, m, by rw [List.append_assoc]; exact Delivers.join d0 d, (m1 rfl).2, .inl (hnb ▸ (m1 rfl).1)⟩
  | true =>
    unfold BinlogStream.nextEvent at h
    rw [hs, if_pos rfl] at h
    have e := (MR.ok.inj h).2
    subst e
    unfold BinlogRequest.requestStream at hq
    obtain ⟨x, c3, q1, hq⟩ := run_ok_inv hq
    obtain ⟨_, c4, q2, hq⟩ := run_ok_inv hq
    obtain ⟨ms1, d1⟩ := took_ok (Takes.setup _ _ _) q1
    obtain ⟨ms2, d2⟩ := took_ok (Takes.sendMsg _ _) q2
    obtain ⟨m, d3, hm⟩ := firstEvents_saw _ _ _ _ _ hq hs
    exact ⟨ms1 ++ ms2, m, Delivers.join (Delivers.join d1 d2) d3, hm, .inr rfl⟩

/-! ### the hypotheses can be met -/

/-- a query whose answer has one row -/
example : ∃ c rs c1 c2, Query.qry (Spec.ascii "SHOW MASTER LOGS") c = .ok rs c1 ∧
    rs.foldRows rs.textRow (fun rows r => rows ++ [r]) [] c1 = .ok [[some (Spec.ascii "f1"), some (Spec.ascii "120")]] c2 := by
  obtain ⟨mid, hd⟩ := delivers_small _ [] plain_files_small
  obtain ⟨h1, h2, h3, h4, h5, h6, h7, h8⟩ := plain_files
  obtain ⟨ps, c2, h, -⟩ := C26_query_all (Spec.ascii "SHOW MASTER LOGS") (by decide +kernel) _ h1 h2 h3 0 2 h4 h5 _ h6 h7 _ []
    { inp := mid, caps := plainCaps } h8 hd
  obtain ⟨rs, c1, h, h'⟩ := run_ok_inv h
  exact ⟨_, rs, c1, c2, h, h'⟩

/-- a request that does not wait, to a server that has no events -/
example : ∃ c s c1 c2 s', (DmlOpts.request ⟨Spec.ascii "f1", false, none, none, true, 0⟩).requestStream (List.replicate 36 0x61) 5 c
      = .ok s c1 ∧ s.nextEvent c1 = .ok (none, s') c2 := by
  obtain ⟨opening, o1, o2⟩ := plain_opens
  obtain ⟨mid, hd⟩ := delivers_small (opening ++ [[0xfe]]) [] (by
    intro m hm
    rcases List.mem_append.1 hm with hm | hm
    · exact o2 m hm
    · simp only [List.mem_singleton] at hm
      subst hm
      decide)
  obtain ⟨s, c1, e1, e2, e3, -, e5⟩ := requestStream_opens ⟨Spec.ascii "f1", false, none, none, true, 0⟩
    ⟨by decide +kernel, by decide +kernel⟩ (List.replicate 36 0x61) (List.length_replicate ..) 5 (by norm_num)
    { inp := mid, caps := plainCaps } true opening _ [] o1 hd
  obtain ⟨c2, d1, -⟩ := Delivers.recv e5
  refine ⟨_, s, c1, c2, s, e1, ?_⟩
  have e3 : s.nonBlock = true := e3
  have hr : s.recvAndParse c1 = .ok .theEnd c2 := by
    unfold BinlogStream.recvAndParse
    rw [d1]
    simp [e3]
  unfold BinlogStream.nextEvent
  rw [e2, if_neg (by decide), BinlogStream.nextLoop.eq_def, hr]

end Mybin
