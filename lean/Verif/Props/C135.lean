/-
C135: the random values a run draws (the UUID and the server id it registers with) do not show in what it prints.
-/
import Verif.Props.C134

namespace Mybin

open Spec (SameOutcome)

/-! ### messages of the same length -/

/-- the bytes of an execution before its one parameter, a string -/
def executeFront (id : Nat) : Bytes :=
  (writeSeq [] [(writeU8 · Command.stmtExecute.toByte), (writeLeU32 · id), (writeU8 · 0), (writeLeU32 · 1),
    (writeBytes · [0]), (writeU8 · 1), (fun out => writeParamType out (.newVarstring []))]).1

theorem send_varstring (s : PreparedStmt) (v : Bytes) :
    s.send [.newVarstring v] = sendMsg ((LenEncStr.bytes v).writeTo (executeFront s.stmtId)).1 true := by
  have hb : Bitmap.fromIter [false] 0 = some [0] := by decide +kernel
  have h1 : [StmtColumnValue.newVarstring v].map (·.isNull) = [false] := rfl
  unfold PreparedStmt.send ComStmtExecute.single
  rw [h1, hb]
  dsimp only
  unfold ComStmtExecute.writeTo
  dsimp only
  rw [if_neg (by simp), h1, hb]
  rfl

theorem lenEncStr_writes (v v' out : Bytes) (h : v.length = v'.length) :
    ((LenEncStr.bytes v).writeTo out).1.length = ((LenEncStr.bytes v').writeTo out).1.length := by
  simp only [LenEncStr.writeTo, writeBytes, List.length_append, h]

theorem exec_varstring (s : PreparedStmt) (v v' : Bytes) (h : v.length = v'.length) (c : Conn) (o : Bytes) :
    SameOutcome (s.execClose [.newVarstring v] c) (s.execClose [.newVarstring v'] { c with out := o }) := by
  have hx : SameOutcome (s.exec [.newVarstring v] c) (s.exec [.newVarstring v'] { c with out := o }) := by
    unfold PreparedStmt.exec
    rw [send_varstring, send_varstring]
    exact SameOutcome.bind (sendMsg_lengths _ _ _ (lenEncStr_writes v v' _ h) c o) fun _ c o _ => Deaf.execLoop c o
  unfold PreparedStmt.execClose
  generalize s.exec [.newVarstring v] c = r at hx
  generalize s.exec [.newVarstring v'] { c with out := o } = r' at hx
  cases hx with
  | ok a c o => simp only [close_sends]; exact .ok a { c with out := _, pktNr := 1 } _
  | err e c o => simp only [close_sends]; exact .err e { c with out := _, pktNr := 1 } _
  | panic => exact .panic
  | hang => exact .hang

theorem okCommand_lengths (bs bs' : Bytes) (h : bs.length = bs'.length) (c : Conn) (o : Bytes) :
    SameOutcome (okCommand bs c) (okCommand bs' { c with out := o }) := by
  unfold okCommand
  refine SameOutcome.bind (sendMsg_lengths _ _ _ h c o) fun _ c o _ => ?_
  refine SameOutcome.bind (Deaf.recvMsg c o) fun msg c o _ => ?_
  refine SameOutcome.bind (Deaf.getCaps c o) fun caps c o _ => ?_
  refine SameOutcome.bind (Deaf.parse msg _ c o) fun r c o _ => ?_
  cases r
  · exact .ok _ _ _
  · exact .err _ _ _

theorem register_lengths (i j m : Nat) : (ComRegisterSlave.writeTo [] ⟨i, [], [], [], 0, 0, m⟩).1.length =
    (ComRegisterSlave.writeTo [] ⟨j, [], [], [], 0, 0, m⟩).1.length := rfl

theorem dump_lengths (r : BinlogRequest) (i j : Nat) (g : Bytes) : (r.dumpBytes i g).length = (r.dumpBytes j g).length := by
  unfold BinlogRequest.dumpBytes
  split
  · rcases r with ⟨file, pos, id, sids, nb, vc, hb⟩
    cases nb <;> cases hs : sids.isEmpty <;>
    simp [ComBinlogDumpGtid.writeTo, ComBinlogDumpGtid.nonBlock, ComBinlogDumpGtid.useGtid, SidData.writeTo, hs, Spec.length_u8, writeU8_spec,
      writeBytes_spec, writeLeU32_spec, writeLeU16_spec, writeLeU64_spec, writeSids_spec, List.length_append, Spec.length_le]
  · simp only [ComBinlogDump.writeTo, ComBinlogDump.nonBlock, writeU8_spec, writeBytes_spec, writeLeU32_spec, writeLeU16_spec,
      List.length_append, Spec.length_le]

/-! ### requesting a stream with other random values -/

/-- what comes out of the settings: all but the server id is the same -/
inductive SetupAlike : MR (Bytes × Bytes × Nat) → MR (Bytes × Bytes × Nat) → Prop
  | ok (cs gm : Bytes) (i j : Nat) (c : Conn) (o : Bytes) : SetupAlike (.ok (cs, gm, i) c) (.ok (cs, gm, j) { c with out := o })
  | err (e : Err) (c : Conn) (o : Bytes) : SetupAlike (.err e c) (.err e { c with out := o })
  | panic : SetupAlike .panic .panic
  | hang : SetupAlike .hang .hang

theorem SetupAlike.bind {α : Type} {r r' : MR α} {f f' : α → M (Bytes × Bytes × Nat)} (h : SameOutcome r r')
    (hf : ∀ a c o, SetupAlike (f a c) (f' a { c with out := o })) : SetupAlike (r.bind f) (r'.bind f') := by
  cases h with
  | ok a c o => exact hf a c o
  | err e c o => exact .err e c o
  | panic => exact .panic
  | hang => exact .hang

theorem setup_alike (r : BinlogRequest) (u u' : Bytes) (hu : u.length = u'.length) (n n' : Nat) (c : Conn) (o : Bytes) :
    SetupAlike (r.setup u n c) (r.setup u' n' { c with out := o }) := by
  unfold BinlogRequest.setup
  refine SetupAlike.bind (Deaf.getVar _ _ _ c o) fun _ c o => ?_
  refine SetupAlike.bind (Deaf.someOr _ _ c o) fun _ c o => ?_
  refine SetupAlike.bind (Deaf.setUserVar _ _ c o) fun _ c o => ?_
  refine SetupAlike.bind (Deaf.getVar _ _ _ c o) fun _ c o => ?_
  refine SetupAlike.bind (Deaf.someOr _ _ c o) fun _ c o => ?_
  refine SetupAlike.bind (Deaf.setUserVar _ _ c o) fun _ c o => ?_
  refine SetupAlike.bind (Deaf.getVar _ _ _ c o) fun _ c o => ?_
  refine SetupAlike.bind (Deaf.someOr _ _ c o) fun _ c o => ?_
  refine SetupAlike.bind (Deaf.getVar _ _ _ c o) fun _ c o => ?_
  refine SetupAlike.bind (Deaf.someOr _ _ c o) fun _ c o => ?_
  refine SetupAlike.bind (?_ : SameOutcome (Cmd.setUserVar _ _ c) (Cmd.setUserVar _ _ { c with out := o })) fun _ c o => ?_
  · unfold Cmd.setUserVar
    exact SameOutcome.bind (Deaf.prepare _ c o) fun s c o _ => exec_varstring s u u' hu c o
  · refine SetupAlike.bind (okCommand_lengths _ _ ?_ c o) fun _ c o => .ok _ _ _ _ _ _
    exact register_lengths _ _ _

theorem requestStream_alike (r : BinlogRequest) (u u' : Bytes) (hu : u.length = u'.length) (n n' : Nat) (c : Conn) (o : Bytes) :
    SameOutcome (r.requestStream u n c) (r.requestStream u' n' { c with out := o }) := by
  have h := setup_alike r u u' hu n n' c o
  show SameOutcome ((r.setup u n c).bind fun s => sendMsg (r.dumpBytes s.2.2 s.2.1) true >>= fun _ =>
      r.firstEvents (decide (s.1 = Cmd.str "CRC32")))
    ((r.setup u' n' { c with out := o }).bind fun s => sendMsg (r.dumpBytes s.2.2 s.2.1) true >>= fun _ =>
      r.firstEvents (decide (s.1 = Cmd.str "CRC32")))
  generalize r.setup u n c = x at h
  generalize r.setup u' n' { c with out := o } = x' at h
  cases h with
  | ok cs gm i j c o =>
    show SameOutcome ((sendMsg (r.dumpBytes i gm) true c).bind fun _ => r.firstEvents (decide (cs = Cmd.str "CRC32")))
      ((sendMsg (r.dumpBytes j gm) true { c with out := o }).bind fun _ => r.firstEvents (decide (cs = Cmd.str "CRC32")))
    exact SameOutcome.bind (sendMsg_lengths _ _ _ (dump_lengths r i j gm) c o) fun _ c o _ => Deaf.firstEvents _ _ c o
  | err e c o => exact .err _ _ _
  | panic => exact .panic
  | hang => exact .hang

/-! ### the theorems -/

/-- C135: whatever an application does with a stream of binlog events: everything but the bytes sent is the same with other
random values. (The text of a UUID always has the same length.) -/
theorem C135_stream {α : Type} (r : BinlogRequest) (u u' : Bytes) (hu : u.length = u'.length) (n n' : Nat)
    (f : BinlogStream → M α) (hf : ∀ s, Spec.Application (f s)) (c : Conn) :
    Spec.SameOutcome ((r.requestStream u n >>= f) c) ((r.requestStream u' n' >>= f) c) :=
  SameOutcome.bind (requestStream_alike r u u' hu n n' c c.out) fun s c' o' _ => Deaf.application (hf s) c' o'

/-- C135: `mybinlog` prints the same lines and ends the same way with other random values -/
theorem C135_mybinlog (w : World) (u' : Bytes) (hu : w.uuid.length = u'.length) (n' : Nat) (o : ProgOpts) :
    (mybinlog { w with uuid := u', random := n' } o).lines = (mybinlog w o).lines ∧
      (mybinlog { w with uuid := u', random := n' } o).theEnd = (mybinlog w o).theEnd := by
  have hp : ∀ (opts : DmlOpts) (c h : Conn), printDmls w.ft opts u' n' c h = printDmls w.ft opts w.uuid w.random c h := by
    intro opts c h
    have hi := requestStream_alike opts.request w.uuid u' hu w.random n' c c.out
    unfold printDmls
    change SameOutcome _ (opts.request.requestStream u' n' c) at hi
    generalize opts.request.requestStream w.uuid w.random c = r at hi
    generalize opts.request.requestStream u' n' c = r' at hi
    cases hi with
    | ok s c' o' => exact dmlLoop_alike w.ft opts s ⟨[], [], 0, h⟩ c' o' h.out
    | err e c' o' => rfl
    | panic => rfl
    | hang => rfl
  have hc : ∀ k, connect { w with uuid := u', random := n' } k o.host o.port o.username o.password =
      connect w k o.host o.port o.username o.password := fun _ => rfl
  have hf : ∀ f, compileFilter { w with uuid := u', random := n' } f = compileFilter w f := by
    intro f; cases f <;> rfl
  unfold mybinlog
  simp only [hc, hf, hp]
  cases connect w 0 o.host o.port o.username o.password with
  | ok _ conn =>
    dsimp only
    cases o.cmd with
    | list => exact ⟨rfl, rfl⟩
    | dml filename untilNow df tf block limit =>
      dsimp only
      cases connect w 1 o.host o.port o.username o.password with
      | ok _ helper =>
        dsimp only
        cases compileFilter w df with
        | none => exact ⟨rfl, rfl⟩
        | some df =>
          dsimp only
          cases compileFilter w tf with
          | none => exact ⟨rfl, rfl⟩
          | some tf => exact ⟨rfl, rfl⟩
      | err e c => exact ⟨rfl, rfl⟩
      | panic => exact ⟨rfl, rfl⟩
      | hang => exact ⟨rfl, rfl⟩
  | err e c => exact ⟨rfl, rfl⟩
  | panic => exact ⟨rfl, rfl⟩
  | hang => exact ⟨rfl, rfl⟩

/-- C135: `mybinmsg` logs the same lines and ends the same way with other random values -/
theorem C135_mybinmsg (w : World) (u' : Bytes) (hu : w.uuid.length = u'.length) (n' : Nat) (conf : MsgConnect) :
    (mybinmsg { w with uuid := u', random := n' } conf).lines = (mybinmsg w conf).lines ∧
      (mybinmsg { w with uuid := u', random := n' } conf).theEnd = (mybinmsg w conf).theEnd := by
  unfold mybinmsg
  cases conf with
  | unixSocket => exact ⟨rfl, rfl⟩
  | tcp host port user password =>
    dsimp only
    have hc : connect { w with uuid := u', random := n' } 0 host port user password = connect w 0 host port user password := rfl
    rw [hc]
    cases connect w 0 host port user password with
    | ok _ conn =>
      dsimp only
      cases Cmd.binlogFiles conn with
      | ok files c =>
        dsimp only
        have hi := requestStream_alike defaultRequest w.uuid u' hu w.random n' c c.out
        change SameOutcome _ (defaultRequest.requestStream u' n' c) at hi
        generalize defaultRequest.requestStream w.uuid w.random c = q at hi
        generalize defaultRequest.requestStream u' n' c = q' at hi
        cases hi with
        | ok s c o =>
          obtain ⟨i1, i2⟩ := msgLoop_alike s c o
          exact ⟨congrArg (files.map MsgLine.file ++ ·) i1, i2⟩
        | err e c o => exact ⟨rfl, rfl⟩
        | panic => exact ⟨rfl, rfl⟩
        | hang => exact ⟨rfl, rfl⟩
      | err e c => exact ⟨rfl, rfl⟩
      | panic => exact ⟨rfl, rfl⟩
      | hang => exact ⟨rfl, rfl⟩
    | err e c => exact ⟨rfl, rfl⟩
    | panic => exact ⟨rfl, rfl⟩
    | hang => exact ⟨rfl, rfl⟩

/-- the hypotheses can be met: two UUIDs, and an application that reads two events and asks for the statistics if that fails -/
example : (Spec.ascii "67e55044-10b1-426f-9247-bb680e5fe0c8").length = (Spec.ascii "f47ac10b-58cc-4372-a567-0e02b2c3d479").length ∧
    ∀ s : BinlogStream, Spec.Application (s.nextEvent >>= fun x => Spec.recover (x.2.nextEvent >>= fun _ => pure [])
      fun _ => Cmd.statistics) :=
  ⟨by decide +kernel, fun s => .andThen _ _ (.nextEvent s) fun x => .recover _ _
    (.andThen _ _ (.nextEvent x.2) fun _ => .done _) fun _ => .statistics⟩

end Mybin
