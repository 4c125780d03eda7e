/-
C136: what is printed comes from the servers: who asks and what is asked for shows in nothing but the requests.
-/
import Verif.Props.C135
import Verif.Props.C78
import Verif.Props.C74

namespace Mybin

open Spec (SameOutcome)

/-! ### messages of one packet -/

theorem sendMsg_small (bs bs' : Bytes) (reset : Bool) (h : bs.length < maxPacket) (h' : bs'.length < maxPacket) (c : Conn)
    (o : Bytes) : SameOutcome (sendMsg bs reset c) (sendMsg bs' reset { c with out := o }) := by
  have hp : ∀ (c : Conn) (o : Bytes), SameOutcome (sendLoop bs c) (sendLoop bs' { c with out := o }) := by
    intro c o
    rw [sendLoop, dif_neg (by omega), sendLoop, dif_neg (by omega)]
    unfold sendPacket
    dsimp only
    split
    · exact .ok () { c with out := _, pktNr := c.pktNr + 1 } _
    · exact .panic
  unfold sendMsg
  cases reset
  · exact hp c o
  · exact hp { c with pktNr := 0 } o

/-- the bytes of an execution before its one parameter, an unsigned number of 64 bits -/
def executeNumberFront (id : Nat) : Bytes :=
  (writeSeq [] [(writeU8 · Command.stmtExecute.toByte), (writeLeU32 · id), (writeU8 · 0), (writeLeU32 · 1),
    (writeBytes · [0]), (writeU8 · 1), (fun out => writeParamType out (.newUnsignedBigint 0))]).1

theorem send_bigint (s : PreparedStmt) (n : Nat) :
    s.send [.newUnsignedBigint n] = sendMsg (writeLeU64 (executeNumberFront s.stmtId) n).1 true := by
  have hb : Bitmap.fromIter [false] 0 = some [0] := by decide +kernel
  have h1 : [StmtColumnValue.newUnsignedBigint n].map (·.isNull) = [false] := rfl
  unfold PreparedStmt.send ComStmtExecute.single
  rw [h1, hb]
  dsimp only
  unfold ComStmtExecute.writeTo
  dsimp only
  rw [if_neg (by simp), h1, hb]
  rfl

theorem execClose_of_send (s : PreparedStmt) (ps ps' : List StmtColumnValue)
    (h : ∀ c o, SameOutcome (s.send ps c) (s.send ps' { c with out := o })) (c : Conn) (o : Bytes) :
    SameOutcome (s.execClose ps c) (s.execClose ps' { c with out := o }) := by
  have hx : SameOutcome (s.exec ps c) (s.exec ps' { c with out := o }) :=
    SameOutcome.bind (h c o) fun _ c o _ => Deaf.execLoop c o
  unfold PreparedStmt.execClose
  generalize s.exec ps c = r at hx
  generalize s.exec ps' { c with out := o } = r' at hx
  cases hx with
  | ok a c o => simp only [close_sends]; exact .ok a { c with out := _, pktNr := 1 } _
  | err e c o => simp only [close_sends]; exact .err e { c with out := _, pktNr := 1 } _
  | panic => exact .panic
  | hang => exact .hang

theorem executeFront_length (id : Nat) : (executeFront id).length = 14 := rfl

theorem execute_small (id : Nat) (v : Bytes) (h : v.length < 2 ^ 23) :
    ((LenEncStr.bytes v).writeTo (executeFront id)).1.length < maxPacket := by
  have := lenEnc_length_le v.length (executeFront id)
  rw [executeFront_length] at this
  simp only [LenEncStr.writeTo, List.length_append]
  unfold maxPacket
  omega

/-! ### another request for a stream -/

theorem setup_requests (r r' : BinlogRequest) (u u' : Bytes) (hu : u.length < 2 ^ 23) (hu' : u'.length < 2 ^ 23) (n n' : Nat)
    (c : Conn) (o : Bytes) : SetupAlike (r.setup u n c) (r'.setup u' n' { c with out := o }) := by
  unfold BinlogRequest.setup
  refine SetupAlike.bind (Deaf.getVar _ _ _ c o) fun _ c o => ?_
  refine SetupAlike.bind (Deaf.someOr _ _ c o) fun _ c o => ?_
  refine SetupAlike.bind (?_ : SameOutcome (Cmd.setUserVar _ _ c) (Cmd.setUserVar _ _ { c with out := o })) fun _ c o => ?_
  · unfold Cmd.setUserVar
    refine SameOutcome.bind (Deaf.prepare _ c o) fun s c o _ => execClose_of_send s _ _ (fun c o => ?_) c o
    rw [send_bigint, send_bigint]
    exact sendMsg_lengths _ _ _ (by simp [writeLeU64]) c o
  refine SetupAlike.bind (Deaf.getVar _ _ _ c o) fun _ c o => ?_
  refine SetupAlike.bind (Deaf.someOr _ _ c o) fun _ c o => ?_
  refine SetupAlike.bind (Deaf.setUserVar _ _ c o) fun _ c o => ?_
  refine SetupAlike.bind (Deaf.getVar _ _ _ c o) fun _ c o => ?_
  refine SetupAlike.bind (Deaf.someOr _ _ c o) fun _ c o => ?_
  refine SetupAlike.bind (Deaf.getVar _ _ _ c o) fun _ c o => ?_
  refine SetupAlike.bind (Deaf.someOr _ _ c o) fun _ c o => ?_
  refine SetupAlike.bind (?_ : SameOutcome (Cmd.setUserVar _ _ c) (Cmd.setUserVar _ _ { c with out := o })) fun _ c o => ?_
  · unfold Cmd.setUserVar
    refine SameOutcome.bind (Deaf.prepare _ c o) fun s c o _ => execClose_of_send s _ _ (fun c o => ?_) c o
    rw [send_varstring, send_varstring]
    exact sendMsg_small _ _ _ (execute_small _ _ hu) (execute_small _ _ hu') c o
  · refine SetupAlike.bind (okCommand_lengths _ _ ?_ c o) fun _ c o => .ok _ _ _ _ _ _
    exact register_lengths _ _ _

theorem requestStream_requests (r r' : BinlogRequest) (hnb : r.nonBlock = r'.nonBlock)
    (hvc : r.validateChecksum = r'.validateChecksum) (hl : r.binlogFilename.length + SidData.bytesLen r.sids < 2 ^ 23)
    (hl' : r'.binlogFilename.length + SidData.bytesLen r'.sids < 2 ^ 23) (u u' : Bytes) (hu : u.length < 2 ^ 23)
    (hu' : u'.length < 2 ^ 23) (n n' : Nat) (c : Conn) (o : Bytes) :
    SameOutcome (r.requestStream u n c) (r'.requestStream u' n' { c with out := o }) := by
  have h := setup_requests r r' u u' hu hu' n n' c o
  show SameOutcome ((r.setup u n c).bind fun s => sendMsg (r.dumpBytes s.2.2 s.2.1) true >>= fun _ =>
      r.firstEvents (decide (s.1 = Cmd.str "CRC32")))
    ((r'.setup u' n' { c with out := o }).bind fun s => sendMsg (r'.dumpBytes s.2.2 s.2.1) true >>= fun _ =>
      r'.firstEvents (decide (s.1 = Cmd.str "CRC32")))
  generalize r.setup u n c = x at h
  generalize r'.setup u' n' { c with out := o } = x' at h
  have hf : ∀ b, r'.firstEvents b = r.firstEvents b := by
    intro b
    unfold BinlogRequest.firstEvents
    rw [hnb, hvc]
  cases h with
  | ok cs gm i j c o =>
    show SameOutcome ((sendMsg (r.dumpBytes i gm) true c).bind fun _ => r.firstEvents (decide (cs = Cmd.str "CRC32")))
      ((sendMsg (r'.dumpBytes j gm) true { c with out := o }).bind fun _ => r'.firstEvents (decide (cs = Cmd.str "CRC32")))
    rw [hf]
    have h1 := dumpBytes_length r i gm
    have h2 := dumpBytes_length r' j gm
    exact SameOutcome.bind (sendMsg_small _ _ _ (by unfold maxPacket; omega) (by unfold maxPacket; omega) c o)
      fun _ c o _ => Deaf.firstEvents _ _ c o
  | err e c o => exact .err _ _ _
  | panic => exact .panic
  | hang => exact .hang

/-! ### another user -/

theorem genInitAuthResp_small (H : Hashes) (hH : H.Sized) (name p seed : Bytes) (pl q : AuthPlugin) (r : Bytes)
    (hpl : newAuthPlugin name = .ok pl) (h : genInitAuthResp H pl p seed = .ok (r, q)) :
    r.length ≤ 32 ∧ name.length ≤ 21 := by
  have hn : nativeName.length = 21 ∧ cachingSha2Name.length = 21 := by decide +kernel
  unfold newAuthPlugin at hpl
  split at hpl
  · rename_i hname
    cases hpl
    refine ⟨?_, by rw [hname, hn.1]⟩
    unfold genInitAuthResp AuthPlugin.setCredential AuthPlugin.next at h
    dsimp only at h
    split at h
    · cases h; simp
    · cases h; rw [scramble411_length H hH]; norm_num
  · split at hpl
    · rename_i hname
      cases hpl
      refine ⟨?_, by rw [hname, hn.2]⟩
      unfold genInitAuthResp AuthPlugin.setCredential AuthPlugin.next at h
      dsimp only at h
      split at h
      · cases h; simp
      · cases h; rw [scrambleCachingSha2_length H hH]
    · cases hpl

theorem handshake_users (H : Hashes) (hH : H.Sized) (user user' p p' : Bytes) (hu : user.length < 2 ^ 23)
    (hu' : user'.length < 2 ^ 23) (hp : p ≠ []) (hp' : p' ≠ []) (c : Conn) (o : Bytes) :
    SameOutcome (handshake H ⟨user, p, []⟩ c) (handshake H ⟨user', p', []⟩ { c with out := o }) := by
  unfold handshake
  refine SameOutcome.bind (Deaf.recvMsg c o) fun msg c o _ => ?_
  refine SameOutcome.bind (Deaf.parse msg _ c o) fun hs c o _ => ?_
  refine SameOutcome.bind (Deaf.insertCap _ c o) fun _ c o _ => ?_
  refine SameOutcome.bind (Deaf.insertCap _ c o) fun _ c o _ => ?_
  refine SameOutcome.bind (Deaf.insertCap _ c o) fun _ c o _ => ?_
  refine SameOutcome.bind (Deaf.insertCap _ c o) fun _ c o _ => ?_
  refine SameOutcome.bind (Deaf.insertCap _ c o) fun _ c o _ => ?_
  refine SameOutcome.bind (Deaf.insertCap _ c o) fun _ c o _ => ?_
  refine SameOutcome.bind (Deaf.insertCap _ c o) fun _ c o _ => ?_
  refine SameOutcome.bind (Deaf.insertCap _ c o) fun _ c o _ => ?_
  refine SameOutcome.bind (Deaf.removeCap _ c o) fun _ c o _ => ?_
  cases hpl : newAuthPlugin hs.authPluginName with
  | error e => exact .err _ _ _
  | ok pl =>
    refine SameOutcome.bind (Deaf.ofExcept _ c o) fun pl' c o h => ?_
    cases h
    have hx := genInitAuthResp_alike H hH _ p p' (hs.authPluginData1 ++ hs.authPluginData2) hp hp' pl hpl
    have s1 := genInitAuthResp_small H hH hs.authPluginName p (hs.authPluginData1 ++ hs.authPluginData2) pl
    have s2 := genInitAuthResp_small H hH hs.authPluginName p' (hs.authPluginData1 ++ hs.authPluginData2) pl
    show SameOutcome ((M.ofExcept (genInitAuthResp H pl p (hs.authPluginData1 ++ hs.authPluginData2)) c).bind _)
      ((M.ofExcept (genInitAuthResp H pl p' (hs.authPluginData1 ++ hs.authPluginData2)) { c with out := o }).bind _)
    generalize genInitAuthResp H pl p (hs.authPluginData1 ++ hs.authPluginData2) = x at hx s1
    generalize genInitAuthResp H pl p' (hs.authPluginData1 ++ hs.authPluginData2) = x' at hx s2
    cases hx with
    | error e => exact .err _ _ _
    | ok r r' q q' hl hq =>
      obtain ⟨s1, s3⟩ := s1 q r hpl rfl
      obtain ⟨s2, -⟩ := s2 q' r' hpl rfl
      show SameOutcome ((getCaps c).bind fun caps =>
          sendMsg (({ capabilityFlags := caps, username := user, authResponse := r, database := [], authPluginName := hs.authPluginName } :
            HandshakeResponse41).writeTo []).1 false >>= fun _ => handshakeLoop H caps q)
        ((getCaps { c with out := o }).bind fun caps =>
          sendMsg (({ capabilityFlags := caps, username := user', authResponse := r', database := [], authPluginName := hs.authPluginName } :
            HandshakeResponse41).writeTo []).1 false >>= fun _ => handshakeLoop H caps q')
      refine SameOutcome.bind (Deaf.getCaps c o) fun caps c o _ => ?_
      have h1 := response_length_le { capabilityFlags := caps, username := user, authResponse := r, database := [], authPluginName := hs.authPluginName } rfl
      have h2 := response_length_le { capabilityFlags := caps, username := user', authResponse := r', database := [], authPluginName := hs.authPluginName } rfl
      simp only [List.length_nil] at h1 h2
      refine SameOutcome.bind (sendMsg_small _ _ false ?_ ?_ c o) fun _ c o _ => handshakeLoop_alike H hH caps q q' hq c o
      · unfold maxPacket; omega
      · unfold maxPacket; omega

theorem connect_users (w : World) (hH : w.hashes.Sized) (u' : Bytes) (n' : Nat) (k : Nat) (host port user user' p p' : Bytes)
    (hu : user.length < 2 ^ 23) (hu' : user'.length < 2 ^ 23) (hp : p ≠ []) (hp' : p' ≠ []) :
    SameOutcome (connect w k host port user p) (connect { w with uuid := u', random := n' } k host port user' p') := by
  unfold connect
  dsimp only
  cases w.stream k (address host port) with
  | none => exact .err _ _ _
  | some inp => exact handshake_users w.hashes hH user user' p p' hu hu' hp hp' { inp := inp } []

/-! ### the theorems -/

/-- C136: two requests for a stream of binlog events, for whatever files, positions, transactions and under whatever ids: with
the same answers, everything but the bytes sent is the same, whatever is done with the stream. Of the request, the stream
keeps only whether to wait and whether to check checksums. -/
theorem C136_stream {α : Type} (r r' : BinlogRequest) (hnb : r.nonBlock = r'.nonBlock)
    (hvc : r.validateChecksum = r'.validateChecksum) (hl : r.binlogFilename.length + SidData.bytesLen r.sids < 2 ^ 23)
    (hl' : r'.binlogFilename.length + SidData.bytesLen r'.sids < 2 ^ 23) (u u' : Bytes) (hu : u.length < 2 ^ 23)
    (hu' : u'.length < 2 ^ 23) (n n' : Nat) (f : BinlogStream → M α) (hf : ∀ s, Spec.Application (f s)) (c : Conn) :
    Spec.SameOutcome ((r.requestStream u n >>= f) c) ((r'.requestStream u' n' >>= f) c) :=
  SameOutcome.bind (requestStream_requests r r' hnb hvc hl hl' u u' hu hu' n n' c c.out) fun s c' o' _ =>
    Deaf.application (hf s) c' o'

/-- C136: what `mybinlog dml` prints, and how it ends, is decided by what the servers send, the filters, the limit and whether
to wait and to follow the log to the next file: not by the user, the password, the file asked for and the random values -/
theorem C136_dml (w : World) (hH : w.hashes.Sized) (uuid' : Bytes) (random' : Nat) (hw : w.uuid.length < 2 ^ 23)
    (hw' : uuid'.length < 2 ^ 23) (host port user user' p p' file file' : Bytes) (hu : user.length < 2 ^ 23)
    (hu' : user'.length < 2 ^ 23) (hp : p ≠ []) (hp' : p' ≠ []) (hf : file.length < 2 ^ 22) (hf' : file'.length < 2 ^ 22)
    (untilNow block : Bool) (df tf : Option Bytes) (limit : Nat) :
    (mybinlog w ⟨host, port, user, p, .dml file untilNow df tf block limit⟩).lines =
        (mybinlog { w with uuid := uuid', random := random' } ⟨host, port, user', p', .dml file' untilNow df tf block limit⟩).lines ∧
      (mybinlog w ⟨host, port, user, p, .dml file untilNow df tf block limit⟩).theEnd =
        (mybinlog { w with uuid := uuid', random := random' } ⟨host, port, user', p', .dml file' untilNow df tf block limit⟩).theEnd := by
  unfold mybinlog
  dsimp only
  have hcf : ∀ f, compileFilter { w with uuid := uuid', random := random' } f = compileFilter w f := by
    intro f; cases f <;> rfl
  rw [hcf, hcf]
  have h0 := connect_users w hH uuid' random' 0 host port user user' p p' hu hu' hp hp'
  have h1 := connect_users w hH uuid' random' 1 host port user user' p p' hu hu' hp hp'
  generalize connect w 0 host port user p = r0 at h0
  generalize connect { w with uuid := uuid', random := random' } 0 host port user' p' = r0' at h0
  generalize connect w 1 host port user p = r1 at h1
  generalize connect { w with uuid := uuid', random := random' } 1 host port user' p' = r1' at h1
  cases h0 with
  | ok _ conn o0 =>
    dsimp only
    cases h1 with
    | ok _ helper o1 =>
      dsimp only
      cases compileFilter w df with
      | none => exact ⟨rfl, rfl⟩
      | some df =>
        dsimp only
        cases compileFilter w tf with
        | none => exact ⟨rfl, rfl⟩
        | some tf =>
          have hd : printDmls w.ft ⟨file, untilNow, df, tf, !block, limit⟩ w.uuid w.random conn helper =
              printDmls w.ft ⟨file', untilNow, df, tf, !block, limit⟩ uuid' random' { conn with out := o0 } { helper with out := o1 } := by
            have hs : SidData.bytesLen [] = 8 := rfl
            have hi := requestStream_requests (DmlOpts.request ⟨file, untilNow, df, tf, !block, limit⟩)
              (DmlOpts.request ⟨file', untilNow, df, tf, !block, limit⟩) rfl rfl
              (by simp only [DmlOpts.request, hs]; omega) (by simp only [DmlOpts.request, hs]; omega)
              w.uuid uuid' hw hw' w.random random' conn o0
            unfold printDmls
            generalize (DmlOpts.request ⟨file, untilNow, df, tf, !block, limit⟩).requestStream w.uuid w.random conn = r at hi
            generalize (DmlOpts.request ⟨file', untilNow, df, tf, !block, limit⟩).requestStream uuid' random' { conn with out := o0 } = r' at hi
            have hfile : ∀ (s : BinlogStream) (st : DmlState) (c : Conn),
                dmlLoop w.ft ⟨file', untilNow, df, tf, !block, limit⟩ s st c = dmlLoop w.ft ⟨file, untilNow, df, tf, !block, limit⟩ s st c := by
              intro s st c
              induction hn : c.inp.length using Nat.strong_induction_on generalizing c s st with
              | _ n ih =>
                have he : ∀ st ev, onEvent w.ft ⟨file', untilNow, df, tf, !block, limit⟩ st ev =
                    onEvent w.ft ⟨file, untilNow, df, tf, !block, limit⟩ st ev := fun _ _ => rfl
                rw [dmlLoop.eq_def, dmlLoop.eq_def w.ft ⟨file, untilNow, df, tf, !block, limit⟩]
                simp only [he]
                cases s.nextEvent c with
                | ok v c' =>
                  obtain ⟨_ | ev, s'⟩ := v
                  · rfl
                  · dsimp only
                    rcases onEvent w.ft ⟨file, untilNow, df, tf, !block, limit⟩ st ev with ⟨out, nx⟩
                    cases nx with
                    | go st' =>
                      dsimp only
                      split
                      · rw [ih _ (by omega) s' st' c' rfl]
                      · rfl
                    | stop => rfl
                    | err e => rfl
                    | panic => rfl
                    | hang => rfl
                | err e c' => rfl
                | panic => rfl
                | hang => rfl
            cases hi with
            | ok s c' o' =>
              dsimp only
              rw [hfile]
              exact (dmlLoop_alike w.ft _ s ⟨[], [], 0, helper⟩ c' o' o1).symm
            | err e c' o' => rfl
            | panic => rfl
            | hang => rfl
          exact ⟨congrArg (fun r => r.1.map ProgLine.dml) hd, congrArg Prod.snd hd⟩
    | err e c o => exact ⟨rfl, rfl⟩
    | panic => exact ⟨rfl, rfl⟩
    | hang => exact ⟨rfl, rfl⟩
  | err e c o => exact ⟨rfl, rfl⟩
  | panic => exact ⟨rfl, rfl⟩
  | hang => exact ⟨rfl, rfl⟩

/-- C136: the same for `mybinlog list` -/
theorem C136_list (w : World) (hH : w.hashes.Sized) (host port user user' p p' : Bytes) (hu : user.length < 2 ^ 23)
    (hu' : user'.length < 2 ^ 23) (hp : p ≠ []) (hp' : p' ≠ []) :
    (mybinlog w ⟨host, port, user, p, .list⟩).lines = (mybinlog w ⟨host, port, user', p', .list⟩).lines ∧
      (mybinlog w ⟨host, port, user, p, .list⟩).theEnd = (mybinlog w ⟨host, port, user', p', .list⟩).theEnd := by
  unfold mybinlog
  dsimp only
  have h0 := connect_users w hH w.uuid w.random 0 host port user user' p p' hu hu' hp hp'
  change SameOutcome _ (connect w 0 host port user' p') at h0
  generalize connect w 0 host port user p = r0 at h0
  generalize connect w 0 host port user' p' = r0' at h0
  cases h0 with
  | ok _ conn o0 =>
    dsimp only
    have hb := Deaf.binlogFiles conn o0
    generalize Cmd.binlogFiles conn = b at hb
    generalize Cmd.binlogFiles { conn with out := o0 } = b' at hb
    cases hb <;> exact ⟨rfl, rfl⟩
  | err e c o => exact ⟨rfl, rfl⟩
  | panic => exact ⟨rfl, rfl⟩
  | hang => exact ⟨rfl, rfl⟩

/-- C136: the same for `mybinmsg` -/
theorem C136_mybinmsg (w : World) (hH : w.hashes.Sized) (uuid' : Bytes) (random' : Nat) (hw : w.uuid.length < 2 ^ 23)
    (hw' : uuid'.length < 2 ^ 23) (host port user user' p p' : Bytes) (hu : user.length < 2 ^ 23)
    (hu' : user'.length < 2 ^ 23) (hp : p ≠ []) (hp' : p' ≠ []) :
    (mybinmsg w (.tcp host port user p)).lines =
        (mybinmsg { w with uuid := uuid', random := random' } (.tcp host port user' p')).lines ∧
      (mybinmsg w (.tcp host port user p)).theEnd =
        (mybinmsg { w with uuid := uuid', random := random' } (.tcp host port user' p')).theEnd := by
  unfold mybinmsg
  dsimp only
  have h0 := connect_users w hH uuid' random' 0 host port user user' p p' hu hu' hp hp'
  generalize connect w 0 host port user p = r0 at h0
  generalize connect { w with uuid := uuid', random := random' } 0 host port user' p' = r0' at h0
  cases h0 with
  | ok _ conn o0 =>
    dsimp only
    have hb := Deaf.binlogFiles conn o0
    generalize Cmd.binlogFiles conn = b at hb
    generalize Cmd.binlogFiles { conn with out := o0 } = b' at hb
    cases hb with
    | ok files c o =>
      dsimp only
      have hq := requestStream_requests defaultRequest defaultRequest rfl rfl (by decide +kernel) (by decide +kernel)
        w.uuid uuid' hw hw' w.random random' c o
      generalize defaultRequest.requestStream w.uuid w.random c = q at hq
      generalize defaultRequest.requestStream uuid' random' { c with out := o } = q' at hq
      cases hq with
      | ok s c o =>
        obtain ⟨i1, i2⟩ := msgLoop_alike s c o
        exact ⟨congrArg (files.map MsgLine.file ++ ·) i1.symm, i2.symm⟩
      | err e c o => exact ⟨rfl, rfl⟩
      | panic => exact ⟨rfl, rfl⟩
      | hang => exact ⟨rfl, rfl⟩
    | err e c o => exact ⟨rfl, rfl⟩
    | panic => exact ⟨rfl, rfl⟩
    | hang => exact ⟨rfl, rfl⟩
  | err e c o => exact ⟨rfl, rfl⟩
  | panic => exact ⟨rfl, rfl⟩
  | hang => exact ⟨rfl, rfl⟩

/-- two requests that have nothing in common but whether to wait and whether to check checksums -/
example : ∃ r r' : BinlogRequest, r.nonBlock = r'.nonBlock ∧ r.validateChecksum = r'.validateChecksum ∧
    r.binlogFilename ≠ r'.binlogFilename ∧ r.binlogPos ≠ r'.binlogPos ∧ r.serverId ≠ r'.serverId ∧
    r.heartbeatNanos ≠ r'.heartbeatNanos ∧
    r.binlogFilename.length + SidData.bytesLen r.sids < 2 ^ 23 ∧ r'.binlogFilename.length + SidData.bytesLen r'.sids < 2 ^ 23 :=
  ⟨⟨Spec.ascii "mysql-bin.000001", 4, 7, [], true, true, 1000000000⟩, ⟨Spec.ascii "binlog.000042", 157, 0, [], true, true, 30000000000⟩,
    rfl, rfl, by decide +kernel, by decide +kernel, by decide +kernel, by decide +kernel, by decide +kernel, by decide +kernel⟩

/-- a login of two users with two passwords, to both of whom the server says yes -/
example : ∃ (c c1 c2 : Conn), realHashes.Sized ∧
    handshake realHashes ⟨Spec.ascii "root", Spec.ascii "pw", []⟩ c = .ok () c1 ∧
    handshake realHashes ⟨Spec.ascii "reader", Spec.ascii "another", []⟩ c = .ok () c2 ∧ c1.out ≠ c.out := by
  obtain ⟨mid, hd⟩ := delivers_small [Spec.okPacket (Spec.clientCaps []) 0 ⟨0, 0, 2, 0, [], []⟩] []
    (by intro m hm; simp only [List.mem_singleton] at hm; subst hm; decide +kernel)
  obtain ⟨c', ps, resp, h1, -, h2, h3, -⟩ := C56_native realHashes realHashes_sized
    ⟨Spec.ascii "root", Spec.ascii "pw", []⟩ exampleGreeting exampleGreeting_inRange
    (by decide +kernel) (by decide +kernel) (by decide +kernel) (by decide +kernel) ((List.range' 1 20).map UInt8.ofNat)
    (by decide +kernel) (by decide +kernel) (by decide +kernel) (by decide +kernel) ⟨0, 0, 2, 0, [], []⟩
    (by constructor <;> norm_num) { inp := Spec.wire [⟨0, Spec.handshakeV10 exampleGreeting⟩] ++ mid } rfl mid []
    (by decide +kernel) rfl hd
  have h := handshake_users realHashes realHashes_sized (Spec.ascii "root") (Spec.ascii "reader") (Spec.ascii "pw") (Spec.ascii "another")
    (by decide +kernel) (by decide +kernel)
    (by decide +kernel) (by decide +kernel) { inp := Spec.wire [⟨0, Spec.handshakeV10 exampleGreeting⟩] ++ mid } []
  rw [h1] at h
  generalize hr : handshake realHashes ⟨Spec.ascii "reader", Spec.ascii "another", []⟩ _ = r at h
  cases h with
  | ok _ _ o =>
    refine ⟨_, c', _, realHashes_sized, h1, hr, ?_⟩
    rw [h2]
    intro e
    have := congrArg List.length e
    rw [List.length_append] at this
    have := wire_pos h3
    omega

end Mybin
