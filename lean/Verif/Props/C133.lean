/-
C133: nothing is made up: the programs print no more statements, notes, files and events than bytes have arrived.
-/
import Verif.Props.C132
import Verif.Props.C101
import Verif.Props.C87
import Verif.Model.Program

namespace Mybin

/-! ### specification -/

/-- how many things a line of `mybinlog` tells: the files of a list, a statement, a note -/
def Spec.tells : ProgLine → Nat
  | .files fs => fs.length
  | .dml _ => 1

/-- the bytes the server sends on the connection the log is read from -/
def Spec.received (w : World) (host port : Bytes) : Bytes := (w.stream 0 (address host port)).getD []

/-! ### decoders -/

theorem whileRemaining_length {α : Type} (p : P α) (bs : Bytes) (as : List α) (r : Bytes) (h : P.whileRemaining p bs = .ok as r) :
    as.length ≤ bs.length := by
  induction hn : bs.length using Nat.strong_induction_on generalizing bs as r with
  | _ n ih =>
    rw [P.whileRemaining.eq_def] at h
    split at h
    · cases h; exact Nat.zero_le _
    · split at h
      · rename_i a r1 _
        split at h
        · rename_i hlt
          split at h
          · rename_i as' r' h'
            have := ih r1.length (by omega) r1 as' r' h' rfl
            cases h
            rw [List.length_cons]
            omega
          all_goals cases h
        · cases h
      all_goals cases h

theorem rowsV2_length {k : Nat} {ms : List ColumnMeta} {bs r : Bytes} {rows : RowsV2} (h : RowsV2.readFrom k ms bs = .ok rows r) :
    rows.rows.length ≤ bs.length := by
  unfold RowsV2.readFrom at h
  obtain ⟨x, r1, h1, h⟩ := P.bind_eq_ok.1 h
  obtain ⟨bm, r2, h2, h⟩ := P.bind_eq_ok.1 h
  obtain ⟨rs, r3, h3, h⟩ := P.bind_eq_ok.1 h
  have l1 := rowsHeader_shorter h1
  have l2 := Well.shorter (.len _) h2
  have l3 := whileRemaining_length _ _ _ _ h3
  have := (P.pure_eq_ok.1 h).1
  rw [← this]
  show rs.length ≤ _
  omega

theorem updateRowsV2_length {k : Nat} {ms : List ColumnMeta} {bs r : Bytes} {rows : UpdateRowsV2}
    (h : UpdateRowsV2.readFrom k ms bs = .ok rows r) : rows.rows.length ≤ bs.length := by
  unfold UpdateRowsV2.readFrom at h
  obtain ⟨x, r1, h1, h⟩ := P.bind_eq_ok.1 h
  obtain ⟨bm, r2, h2, h⟩ := P.bind_eq_ok.1 h
  obtain ⟨bm', r2', h2', h⟩ := P.bind_eq_ok.1 h
  obtain ⟨rs, r3, h3, h⟩ := P.bind_eq_ok.1 h
  have l1 := rowsHeader_shorter h1
  have l2 := Well.shorter (.len _) h2
  have l2' := Well.shorter (.len _) h2'
  have l3 := whileRemaining_length _ _ _ _ h3
  have := (P.pure_eq_ok.1 h).1
  rw [← this]
  show rs.length ≤ _
  omega

theorem fixed_takes {α : Type} {k : Nat} {val : Bytes → α} {p : P α} (hf : FixedRead k val p) {bs r : Bytes} {a : α}
    (h : p bs = .ok a r) : r.length + k = bs.length := by
  rcases Nat.lt_or_ge bs.length k with hl | hl
  · rw [(hf bs).2 hl] at h; cases h
  · rw [(hf bs).1 hl] at h
    cases h
    rw [List.length_drop]
    omega

theorem rowsData_length {data r : Bytes} {d : RowsDataV2} (h : RowsDataV2.readFrom data = .ok d r) :
    d.payload.length + 10 = data.length := by
  unfold RowsDataV2.readFrom at h
  obtain ⟨_, r1, h1, h⟩ := P.bind_eq_ok.1 h
  obtain ⟨_, r2, h2, h⟩ := P.bind_eq_ok.1 h
  obtain ⟨_, r3, h3, h⟩ := P.bind_eq_ok.1 h
  obtain ⟨pl, r4, h4, h⟩ := P.bind_eq_ok.1 h
  have e1 := fixed_takes fixedRead_leU48 h1
  have e2 := fixed_takes (fixedRead_readFixed 2 leVal) h2
  have e3 := fixed_takes (fixedRead_readFixed 2 leVal) h3
  have := (P.pure_eq_ok.1 h).1
  rw [← this]
  cases h4
  show r3.length + 10 = _
  omega

/-! ### statements -/

theorem sqlLines_length {ft : FloatText} {o : Option PreparedSql} {ls : List DmlLine} {r : Bytes} {n : Nat}
    (hn : ∀ p, o = some p → p.params.length = n) (h : sqlLines ft o = .ok ls r) : ls.length = n := by
  unfold sqlLines at h
  cases o with
  | none => cases h
  | some p =>
    dsimp only at h
    cases hp : p.sqlList ft with
    | none => rw [hp] at h; cases h
    | some l =>
      rw [hp] at h
      cases h
      rw [List.length_map, C41_one_per_row ft p l hp, hn p rfl]

theorem fromInsert_length (db tbl : Bytes) (r : RowsV2) (defs : List ColumnDefinition) (p : PreparedSql)
    (h : PreparedSql.fromInsert db tbl r defs = some p) : p.params.length = r.rows.length := by
  unfold PreparedSql.fromInsert at h
  obtain ⟨ps, h1, rfl⟩ := Option.map_eq_some_iff.1 h
  rw [allSome_length h1, List.length_map]

theorem fromDelete_length (db tbl : Bytes) (r : RowsV2) (defs : List ColumnDefinition) (p : PreparedSql)
    (h : PreparedSql.fromDelete db tbl r defs = some p) : p.params.length = r.rows.length := by
  unfold PreparedSql.fromDelete at h
  dsimp only at h
  split at h
  · cases h
  · obtain ⟨ps, h1, rfl⟩ := Option.map_eq_some_iff.1 h
    rw [allSome_length h1, List.length_map]

theorem fromUpdate_length (db tbl : Bytes) (r : UpdateRowsV2) (defs : List ColumnDefinition) (p : PreparedSql)
    (h : PreparedSql.fromUpdate db tbl r defs = some p) : p.params.length = r.rows.length := by
  unfold PreparedSql.fromUpdate at h
  dsimp only at h
  split at h
  · cases h
  · obtain ⟨ps, h1, rfl⟩ := Option.map_eq_some_iff.1 h
    rw [allSome_length h1, List.length_map]

theorem rowLines_length {ft : FloatText} {make : Bytes → Bytes → RowsV2 → List ColumnDefinition → Option PreparedSql}
    (hm : ∀ db tbl r defs p, make db tbl r defs = some p → p.params.length = r.rows.length)
    {tm : TableMeta} {d : RowsDataV2} {ls : List DmlLine} {r : Bytes} (h : rowLines ft make tm d = .ok ls r) :
    ls.length ≤ d.payload.length + 1 := by
  unfold rowLines at h
  cases hr : RowsV2.readFrom d.extraDataLen tm.colMetas d.payload with
  | ok rows r' =>
    rw [hr] at h
    have h1 := rowsV2_length hr
    have h2 := sqlLines_length (hm tm.db tm.tbl rows tm.colDefs) h
    omega
  | err e r' => rw [hr] at h; cases h
  | panic => rw [hr] at h; cases h
  | hang => rw [hr] at h; cases h

theorem updateLines_length {ft : FloatText} {pos : Nat} {tm : TableMeta} {d : RowsDataV2} {ls : List DmlLine} {r : Bytes}
    (h : updateLines ft pos tm d = .ok ls r) : ls.length ≤ d.payload.length + 1 := by
  unfold updateLines at h
  cases hr : UpdateRowsV2.readFrom d.extraDataLen tm.colMetas d.payload with
  | ok rows r' =>
    rw [hr] at h
    dsimp only at h
    split at h
    · have h1 := updateRowsV2_length hr
      have h2 := sqlLines_length (fromUpdate_length tm.db tm.tbl rows tm.colDefs) h
      omega
    · cases h
      simp
  | err e r' => rw [hr] at h; cases h
  | panic => rw [hr] at h; cases h
  | hang => rw [hr] at h; cases h

theorem printLines_length (limit : Nat) : ∀ (n : Nat) (ls : List DmlLine), (printLines limit n ls).1.length ≤ ls.length
  | _, [] => Nat.le_refl _
  | n, .note d t p :: ls => by
    rw [printLines]
    exact Nat.succ_le_succ (printLines_length limit n ls)
  | n, .stmt s :: ls => by
    rw [printLines]
    split
    · simp
    · exact Nat.succ_le_succ (printLines_length limit (n + 1) ls)

theorem onRows_length (limit : Nat) (lines : TableMeta → RowsDataV2 → R (List DmlLine)) (st : DmlState) (data : Bytes)
    (hl : ∀ tm d ls r, lines tm d = .ok ls r → ls.length ≤ d.payload.length + 1) :
    (onRows limit lines st data).1.length ≤ data.length := by
  unfold onRows
  cases hr : RowsDataV2.readFrom data with
  | ok d r =>
    have h10 := rowsData_length hr
    dsimp only
    split
    · exact Nat.zero_le _
    · cases st.tbls.lookup d.tableId with
      | none => exact Nat.zero_le _
      | some tm =>
        dsimp only
        cases hls : lines tm d with
        | ok ls r' =>
          dsimp only
          have h1 := hl tm d ls r' hls
          have h2 := printLines_length limit st.nRows ls
          generalize printLines limit st.nRows ls = x at h2
          obtain ⟨out, _ | n⟩ := x
          · show out.length ≤ _
            have h2 : out.length ≤ ls.length := h2
            omega
          · show out.length ≤ _
            have h2 : out.length ≤ ls.length := h2
            omega
        | err e r' => exact Nat.zero_le _
        | panic => exact Nat.zero_le _
        | hang => exact Nat.zero_le _
  | err e r => exact Nat.zero_le _
  | panic => exact Nat.zero_le _
  | hang => exact Nat.zero_le _

theorem onEvent_length (ft : FloatText) (o : DmlOpts) (st : DmlState) (ev : Event) :
    (onEvent ft o st ev).1.length ≤ ev.data.length := by
  unfold onEvent
  split
  · exact Nat.zero_le _
  · exact onRows_length _ _ _ _ fun _ _ _ _ h => rowLines_length fromDelete_length h
  · exact onRows_length _ _ _ _ fun _ _ _ _ h => updateLines_length h
  · exact onRows_length _ _ _ _ fun _ _ _ _ h => rowLines_length fromInsert_length h
  · split <;> exact Nat.zero_le _
  · exact Nat.zero_le _

/-! ### the stream -/

theorem payload_le_wire (ps : List Spec.Packet) : (Spec.payload ps).length ≤ (Spec.wire ps).length := by
  unfold Spec.payload Spec.wire
  induction ps with
  | nil => exact Nat.le_refl _
  | cons p ps ih =>
    simp only [List.map_cons, List.flatten_cons, List.length_append]
    have : p.body.length ≤ p.wire.length := by
      unfold Spec.Packet.wire
      simp only [List.length_append]
      omega
    omega

theorem recvMsg_room {c c' : Conn} {m : Bytes} (h : recvMsg c = .ok m c') : m.length + c'.inp.length ≤ c.inp.length := by
  unfold recvMsg at h
  split at h
  · rename_i h'
    cases h
    obtain ⟨ps, g1, g2, g3⟩ := recvLoop_sound _ _ _ _ _ _ h'
    have := payload_le_wire ps
    rw [g2, g3]
    simp only [List.length_append, List.nil_append]
    omega
  · cases h

theorem peek_same {α : Type} {p : P α} {bs r : Bytes} {a : α} (h : P.peek p bs = .ok a r) : r = bs := by
  unfold P.peek at h
  split at h <;> cases h
  rfl

theorem verifyChecksum_shorter {bs r : Bytes} {u : Unit} (h : ParserV4.verifyChecksum bs = .ok u r) : r.length ≤ bs.length := by
  unfold ParserV4.verifyChecksum at h
  obtain ⟨hd, r1, h1, h⟩ := P.bind_eq_ok.1 h
  obtain ⟨raw, r2, h2, h⟩ := P.bind_eq_ok.1 h
  have e1 := peek_same h1
  have e2 := peek_same h2
  split at h
  · cases h
  · dsimp only at h
    split at h
    · cases h
    · rw [← (P.pure_eq_ok.1 h).2, e2, e1]

theorem parseEvent_room {p : ParserV4} {v : Bool} {bs r : Bytes} {ev : Event} (h : p.parseEvent v bs = .ok (some ev) r) :
    ev.data.length ≤ bs.length := by
  unfold ParserV4.parseEvent at h
  obtain ⟨_, r1, h1, h⟩ := P.bind_eq_ok.1 h
  obtain ⟨hd, r2, h2, h⟩ := P.bind_eq_ok.1 h
  obtain ⟨n, r3, h3, h⟩ := P.bind_eq_ok.1 h
  obtain ⟨d, r4, h4, h⟩ := P.bind_eq_ok.1 h
  obtain ⟨d', r5, h5, h⟩ := P.bind_eq_ok.1 h
  have l1 : r1.length ≤ bs.length := by
    split at h1
    · exact verifyChecksum_shorter h1
    · rw [(P.pure_eq_ok.1 h1).2]
  have l2 := Well.shorter Well.header h2
  have l3 : r3.length ≤ r2.length := by
    unfold EventHeader.dataLen at h3
    split at h3
    · cases h3
    · rw [(P.pure_eq_ok.1 h3).2]
  have l4 : d.length ≤ r3.length := by
    obtain ⟨e1, e2⟩ := readLen_eq_ok.1 h4
    rw [e2, List.length_append]
    omega
  have l5 : d'.length ≤ d.length := by
    split at h5
    · split at h5
      · cases h5
      · rw [← (P.pure_eq_ok.1 h5).1, List.length_take]
        omega
    · rw [(P.pure_eq_ok.1 h5).1]
  split at h
  · have := (P.pure_eq_ok.1 h).1
    cases this
    show d'.length ≤ _
    omega
  · cases h

theorem recvAndParse_room {s : BinlogStream} {c c' : Conn} {ev : Event} (h : s.recvAndParse c = .ok (.single ev) c') :
    ev.data.length + c'.inp.length ≤ c.inp.length := by
  unfold BinlogStream.recvAndParse at h
  cases hr : recvMsg c with
  | ok m c1 =>
    have hlt := recvMsg_room hr
    rw [hr] at h
    cases m with
    | nil => cases h
    | cons b t =>
      dsimp only at h
      split at h
      · cases h
      · split at h
        · cases h
        · unfold M.parse at h
          cases hp : s.pv4.parseEvent s.validateChecksum t with
          | ok a r =>
            rw [hp] at h
            cases a with
            | none => cases h
            | some e =>
              cases h
              have := parseEvent_room hp
              rw [List.length_cons] at hlt
              omega
          | err e r => rw [hp] at h; cases h
          | panic => rw [hp] at h; cases h
          | hang => rw [hp] at h; cases h
  | err e c1 => rw [hr] at h; cases h
  | panic => rw [hr] at h; cases h
  | hang => rw [hr] at h; cases h

theorem nextLoop_room {s s' : BinlogStream} {c c' : Conn} {ev : Event} (h : s.nextLoop c = .ok (some ev, s') c') :
    ev.data.length + c'.inp.length ≤ c.inp.length := by
  induction hn : c.inp.length using Nat.strong_induction_on generalizing c with
  | _ n ih =>
    rw [BinlogStream.nextLoop.eq_def] at h
    cases hr : s.recvAndParse c with
    | ok y c1 =>
      have hlt := recvAndParse_consumes hr
      rw [hr] at h
      cases y with
      | single e =>
        cases h
        have := recvAndParse_room hr
        omega
      | unsupported =>
        dsimp only at h
        rw [if_pos hlt] at h
        have := ih _ (by omega) h rfl
        omega
      | theEnd => cases h
    | err e c1 => rw [hr] at h; cases h
    | panic => rw [hr] at h; cases h
    | hang => rw [hr] at h; cases h

theorem nextEvent_room {s s' : BinlogStream} {c c' : Conn} {ev : Event} (h : s.nextEvent c = .ok (some ev, s') c') :
    ev.data.length + c'.inp.length ≤ c.inp.length ∧ c'.inp.length < c.inp.length := by
  unfold BinlogStream.nextEvent at h
  split at h
  · cases h
  · exact ⟨nextLoop_room h, nextLoop_consumes h⟩

theorem dmlLoop_length (ft : FloatText) (o : DmlOpts) (s : BinlogStream) (st : DmlState) (c : Conn) :
    (dmlLoop ft o s st c).1.length ≤ c.inp.length := by
  induction hn : c.inp.length using Nat.strong_induction_on generalizing c s st with
  | _ n ih =>
    rw [dmlLoop.eq_def]
    cases hr : s.nextEvent c with
    | ok x c' =>
      obtain ⟨_ | ev, s'⟩ := x
      · exact Nat.zero_le _
      · dsimp only
        obtain ⟨h1, h2⟩ := nextEvent_room hr
        have h3 := onEvent_length ft o st ev
        generalize onEvent ft o st ev = y at h3
        obtain ⟨out, nx⟩ := y
        have h3 : out.length ≤ ev.data.length := h3
        cases nx with
        | go st' =>
          dsimp only
          rw [if_pos h2]
          have := ih _ (by omega) s' st' c' rfl
          show (out ++ _).length ≤ _
          rw [List.length_append]
          omega
        | stop => show out.length ≤ _; omega
        | err e => show out.length ≤ _; omega
        | panic => show out.length ≤ _; omega
        | hang => show out.length ≤ _; omega
    | err e c' => exact Nat.zero_le _
    | panic => exact Nat.zero_le _
    | hang => exact Nat.zero_le _

theorem msgLoop_length (s : BinlogStream) (c : Conn) : (msgLoop s c).1.length ≤ c.inp.length := by
  induction hn : c.inp.length using Nat.strong_induction_on generalizing c s with
  | _ n ih =>
    rw [msgLoop.eq_def]
    cases hr : s.nextEvent c with
    | ok x c' =>
      obtain ⟨_ | ev, s'⟩ := x
      · exact Nat.zero_le _
      · dsimp only
        obtain ⟨-, h2⟩ := nextEvent_room hr
        rw [if_pos h2]
        have := ih _ (by omega) s' c' rfl
        show (_ :: _).length ≤ _
        rw [List.length_cons]
        omega
    | err e c' => exact Nat.zero_le _
    | panic => exact Nat.zero_le _
    | hang => exact Nat.zero_le _

/-! ### the operations before it -/

theorem delivers_shorter {inp rest : Bytes} (h : ∃ msgs, Spec.Delivers inp msgs rest) : rest.length ≤ inp.length := by
  obtain ⟨msgs, runs, -, -, rfl⟩ := h
  rw [List.length_append]
  omega

theorem Takes.shorter {α : Type} {run : M α} (h : Takes run) {c c' : Conn} {v : α} (hr : run c = .ok v c') :
    c'.inp.length ≤ c.inp.length := by
  have := h c
  rw [hr] at this
  exact delivers_shorter this

theorem filesLoop_length (rs : ResultSet) (fs : List Cmd.BinlogFile) (c c' : Conn) (out : List Cmd.BinlogFile)
    (h : Cmd.filesLoop rs fs c = .ok out c') : out.length + c'.inp.length ≤ fs.length + c.inp.length := by
  induction hn : c.inp.length using Nat.strong_induction_on generalizing c fs rs with
  | _ n ih =>
    rw [Cmd.filesLoop.eq_def] at h
    cases hr : rs.nextRow (mapRow rs.textRow Cmd.binlogFileMapper) c with
    | ok a c1 =>
      have h0 := Takes.shorter (Takes.nextRow _ _) hr
      rw [hr] at h
      obtain ⟨o, rs'⟩ := a
      rcases o with _ | r
      · cases h; omega
      · cases r with
        | ok f =>
          have hlt := nextRow_shorter _ _ _ _ _ _ hr
          dsimp only at h
          rw [if_pos hlt] at h
          have := ih _ (by omega) rs' _ c1 h rfl
          rw [List.length_append, List.length_singleton] at this
          omega
        | err e => cases h
        | panic => cases h
    | err e c1 => rw [hr] at h; cases h
    | panic => rw [hr] at h; cases h
    | hang => rw [hr] at h; cases h

theorem binlogFiles_length {c c' : Conn} {fs : List Cmd.BinlogFile} (h : Cmd.binlogFiles c = .ok fs c') :
    fs.length + c'.inp.length ≤ c.inp.length := by
  have h : (Query.qry (Cmd.str "SHOW MASTER LOGS") c).bind (fun rs => Cmd.filesLoop rs []) = .ok fs c' := h
  cases hq : Query.qry (Cmd.str "SHOW MASTER LOGS") c with
  | ok rs c1 =>
    rw [hq] at h
    have h : Cmd.filesLoop rs [] c1 = .ok fs c' := h
    have h1 := filesLoop_length _ _ _ _ _ h
    have h2 := Takes.shorter (Takes.query _) hq
    rw [List.length_nil] at h1
    omega
  | err e c1 => rw [hq] at h; cases h
  | panic => rw [hq] at h; cases h
  | hang => rw [hq] at h; cases h

theorem connect_length {w : World} {host port u pw : Bytes} {c : Conn} {x : Unit} (h : connect w 0 host port u pw = .ok x c) :
    c.inp.length ≤ (Spec.received w host port).length := by
  unfold connect at h
  unfold Spec.received
  cases hs : w.stream 0 (address host port) with
  | none => rw [hs] at h; cases h
  | some inp =>
    rw [hs] at h
    exact Takes.shorter (Takes.handshake _ _) h

theorem printDmls_length (ft : FloatText) (o : DmlOpts) (uuid : Bytes) (random : Nat) (conn helper : Conn) :
    (printDmls ft o uuid random conn helper).1.length ≤ conn.inp.length := by
  unfold printDmls
  cases hr : o.request.requestStream uuid random conn with
  | ok s c =>
    have h1 := Takes.shorter (Takes.requestStream _ _ _) hr
    have h2 := dmlLoop_length ft o s ⟨[], [], 0, helper⟩ c
    dsimp only
    omega
  | err e c => exact Nat.zero_le _
  | panic => exact Nat.zero_le _
  | hang => exact Nat.zero_le _

/-! ### the theorems -/

/-- C133: whatever the servers send and however the run ends, `mybinlog` tells no more files, statements and notes than there
are bytes that came on the connection it reads from -/
theorem C133_mybinlog (w : World) (o : ProgOpts) :
    ((mybinlog w o).lines.map Spec.tells).sum ≤ (Spec.received w o.host o.port).length := by
  unfold mybinlog
  cases hc : connect w 0 o.host o.port o.username o.password with
  | ok x conn =>
    have h0 := connect_length hc
    dsimp only
    cases o.cmd with
    | list =>
      dsimp only
      cases hb : Cmd.binlogFiles conn with
      | ok files c =>
        have h1 := binlogFiles_length hb
        show files.length + 0 ≤ _
        omega
      | err e c => exact Nat.zero_le _
      | panic => exact Nat.zero_le _
      | hang => exact Nat.zero_le _
    | dml filename untilNow df tf block limit =>
      dsimp only
      cases connect w 1 o.host o.port o.username o.password with
      | ok y helper =>
        dsimp only
        cases compileFilter w df with
        | none => exact Nat.zero_le _
        | some df =>
          dsimp only
          cases compileFilter w tf with
          | none => exact Nat.zero_le _
          | some tf =>
            have := printDmls_length w.ft ⟨filename, untilNow, df, tf, !block, limit⟩ w.uuid w.random conn helper
            dsimp only
            rw [List.map_map]
            have hs : ∀ l : List DmlLine, (l.map (Spec.tells ∘ ProgLine.dml)).sum = l.length := by
              intro l
              induction l with
              | nil => rfl
              | cons a l ih => rw [List.map_cons, List.sum_cons, ih, List.length_cons]; show 1 + _ = _; omega
            rw [hs]
            omega
      | err e c => exact Nat.zero_le _
      | panic => exact Nat.zero_le _
      | hang => exact Nat.zero_le _
  | err e c => exact Nat.zero_le _
  | panic => exact Nat.zero_le _
  | hang => exact Nat.zero_le _

/-- C133: and `mybinmsg` logs no more files and events -/
theorem C133_mybinmsg (w : World) (host port username password : Bytes) :
    (mybinmsg w (.tcp host port username password)).lines.length ≤ (Spec.received w host port).length := by
  unfold mybinmsg
  dsimp only
  cases hc : connect w 0 host port username password with
  | ok x conn =>
    have h0 := connect_length hc
    dsimp only
    cases hb : Cmd.binlogFiles conn with
    | ok files c =>
      have h1 := binlogFiles_length hb
      dsimp only
      cases hr : defaultRequest.requestStream w.uuid w.random c with
      | ok s c1 =>
        have h2 := Takes.shorter (Takes.requestStream _ _ _) hr
        have h3 := msgLoop_length s c1
        show (List.map _ files ++ _).length ≤ _
        rw [List.length_append, List.length_map]
        omega
      | err e c => show (List.map _ files).length ≤ _; rw [List.length_map]; omega
      | panic => show (List.map _ files).length ≤ _; rw [List.length_map]; omega
      | hang => show (List.map _ files).length ≤ _; rw [List.length_map]; omega
    | err e c => exact Nat.zero_le _
    | panic => exact Nat.zero_le _
    | hang => exact Nat.zero_le _
  | err e c => exact Nat.zero_le _
  | panic => exact Nat.zero_le _
  | hang => exact Nat.zero_le _

/-- the run of the example of C87 prints what its server sent: its input is at least as long as its log has events -/
example (ft : FloatText) : ∃ inp, exampleLog.length + 1 ≤ (Spec.received (exampleWorld ft inp []) (Spec.ascii "db") (Spec.ascii "3306")).length := by
  obtain ⟨inp, lines, h1, h2, -⟩ := example_mybinmsg ft
  refine ⟨inp, ?_⟩
  have := C133_mybinmsg (exampleWorld ft inp []) (Spec.ascii "db") (Spec.ascii "3306") (Spec.ascii "root") (Spec.ascii "pw")
  rw [h1, List.length_cons, h2] at this
  exact this

end Mybin
