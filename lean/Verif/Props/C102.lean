/-
C102: what the configuration of `mybinmsg` says is done. A configuration says where the server is, the events of which
tables to pass on, and where to.
-/
import Verif.Model.MsgConfig
import Verif.Props.C87

namespace Mybin

/-- the wish for a name: no filter, or a regular expression that matches -/
def Spec.NameWanted (regex : Bytes → Option (Bytes → Bool)) (filter : Option Bytes) (name : Bytes) : Prop :=
  ∀ text, filter = some text → ∃ matches_, regex text = some matches_ ∧ matches_ name = true

/-- the configuration asks for the events of this table -/
def Spec.TableWanted (regex : Bytes → Option (Bytes → Bool)) (conf : MsgConf) (schema table : Bytes) : Prop :=
  Spec.NameWanted regex conf.subscribe.databaseFilter schema ∧ Spec.NameWanted regex conf.subscribe.tableFilter table

/-- what was passed on by a run: what it printed or what it sent to the URL, as the configuration says -/
def Spec.passedOn (conf : MsgConf) (run : MsgRun) : List MsgLine :=
  match conf.notify.ty with
  | .stdout => run.stdout
  | .http => (run.posted.filter fun x => conf.notify.url = some x.1).map (·.2)

/-- C102, the part that holds: with a TCP address, whatever else is configured, the program connects to that host and
port as that user, and logs the files of the server and every event this library knows that the master sends. -/
theorem C102_connect_partial (w : World) (hH : w.hashes.Sized) (conf : MsgConf) (host user password : Bytes) (port : Nat)
    (hc : conf.connect = .tcp host port user password)
    (hu : (0 : UInt8) ∉ user ∧ user.length < 2 ^ 30) (huu : w.uuid.length = 36) (hr : w.random < 2 ^ 32)
    (inp method nonce mid rest : Bytes)
    (hs : w.stream 0 (host ++ Spec.ascii ":" ++ Spec.ascii (toString port)) = some inp)
    (hw : Spec.Welcomes password inp method nonce mid)
    {cols : List (Spec.ColDef × ColumnType)} {wa st : Nat} {rows : List (List (Option Bytes))} {term : Bytes}
    (ha : Spec.AnswerOk (Spec.clientCaps []) cols wa st rows term) (files : List Cmd.BinlogFile)
    (hf : List.Forall₂ (fun row f => Spec.FileRow row f.filename f.size) rows files)
    (crc : Bool) (opening : List Bytes) (hopen : Spec.OpensStream (Spec.clientCaps []) crc opening)
    (es : List Spec.LogEvent) (hes : ∀ e ∈ es, e.InRange) (more : List Bytes)
    (hd : Spec.Delivers mid (Spec.textAnswer (Spec.clientCaps []) (cols.map (·.1)) wa st rows term ++
      (opening ++ (es.map (Spec.streamMessage crc) ++ more))) rest) :
    ∃ lines after, (runMsg w conf).log = files.map .file ++ lines ++ after ∧
      List.Forall₂ (Spec.LogsEvent crc) (Spec.visible es) lines := by
  have ht : natText port = Spec.ascii (toString port) := by
    simp [natText, ascChars, Spec.ascii, toString, Nat.repr]
  rw [← ht] at hs
  have h := C87_mybinmsg_partial w hH host (natText port) user password hu huu hr inp method nonce mid rest hs hw ha files hf crc
    opening hopen es hes more hd
  unfold runMsg
  rw [hc]
  exact h

/-- C102 fails for the subscription: whatever the filters are, also when they are not regular expressions, the run is the
run without filters and without a notification: nothing but the address is looked at. -/
theorem C102_subscribe_false (w : World) (conf : MsgConf) (subscribe : ConfSubscribe) (notify : ConfNotify) :
    runMsg w { conf with subscribe := subscribe, notify := notify } = runMsg w conf := rfl

/-- C102 fails for the events of tables that are not wanted: an event is logged although the configuration does not ask
for its table. -/
theorem C102_unwanted_false (w : World) (hH : w.hashes.Sized) (conf : MsgConf) (host user password : Bytes) (port : Nat)
    (hc : conf.connect = .tcp host port user password)
    (hu : (0 : UInt8) ∉ user ∧ user.length < 2 ^ 30) (huu : w.uuid.length = 36) (hr : w.random < 2 ^ 32)
    (inp method nonce mid rest : Bytes)
    (hs : w.stream 0 (host ++ Spec.ascii ":" ++ Spec.ascii (toString port)) = some inp)
    (hw : Spec.Welcomes password inp method nonce mid)
    {cols : List (Spec.ColDef × ColumnType)} {wa st : Nat} {rows : List (List (Option Bytes))} {term : Bytes}
    (ha : Spec.AnswerOk (Spec.clientCaps []) cols wa st rows term) (files : List Cmd.BinlogFile)
    (hf : List.Forall₂ (fun row f => Spec.FileRow row f.filename f.size) rows files)
    (crc : Bool) (opening : List Bytes) (hopen : Spec.OpensStream (Spec.clientCaps []) crc opening)
    (es : List Spec.LogEvent) (hes : ∀ e ∈ es, e.InRange) (more : List Bytes)
    (hd : Spec.Delivers mid (Spec.textAnswer (Spec.clientCaps []) (cols.map (·.1)) wa st rows term ++
      (opening ++ (es.map (Spec.streamMessage crc) ++ more))) rest)
    (e : Spec.LogEvent) (he : e ∈ es) (id : Nat) (t : Spec.Table) (hsays : e.Says (.tableMap id t))
    (_hunwanted : ¬ Spec.TableWanted w.regex conf t.schema t.table) :
    ∃ line ∈ (runMsg w conf).log, Spec.LogsEvent crc e line := by
  obtain ⟨lines, after, h1, h2⟩ := C102_connect_partial w hH conf host user password port hc hu huu hr inp method nonce mid rest hs
    hw ha files hf crc opening hopen es hes more hd
  have hv : e ∈ Spec.visible es := by
    simp only [Spec.visible, List.mem_filter, decide_eq_true_eq]
    exact ⟨he, by rw [hsays.1]; decide⟩
  obtain ⟨i, hi, rfl⟩ := List.getElem_of_mem hv
  have hl : i < lines.length := by rw [← h2.length_eq]; exact hi
  exact ⟨lines[i], by rw [h1]; simp, List.Forall₂.get h2 hi hl⟩

/-- C102 fails for the notification: nothing is ever passed on, by printing or to the URL, in any run. -/
theorem C102_notify_false (w : World) (conf : MsgConf) : Spec.passedOn conf (runMsg w conf) = [] := by
  unfold Spec.passedOn runMsg
  split <;> rfl

/-- C102 fails for a server behind a socket: the configuration is accepted, and the program panics before it does
anything. -/
theorem C102_socket_false (w : World) (conf : MsgConf) (path : Bytes) (hc : conf.connect = .unixSocket path) :
    (runMsg w conf).theEnd = .panic ∧ (runMsg w conf).log = [] := by
  unfold runMsg
  rw [hc]
  exact ⟨rfl, rfl⟩

/-! ### the hypotheses can be met -/

/-- regular expressions without special characters -/
def literalWorld (ft : FloatText) (inp : Bytes) : World :=
  { exampleWorld ft inp [] with regex := fun s => some (fun name => name == s) }

/-- the events of the tables of the database `e` are to be sent to a URL -/
def exampleMsgConf : MsgConf where
  connect := .tcp (Spec.ascii "db") 3306 (Spec.ascii "root") (Spec.ascii "pw")
  subscribe := ⟨some (Spec.ascii "e"), none⟩
  notify := ⟨.http, some (Spec.ascii "http://localhost/")⟩

theorem example_unwanted (ft : FloatText) (inp : Bytes) :
    ¬ Spec.TableWanted (literalWorld ft inp).regex exampleMsgConf exampleTable.schema exampleTable.table := by
  rintro ⟨h, -⟩
  obtain ⟨m, h1, h2⟩ := h _ rfl
  simp only [literalWorld, Option.some.injEq] at h1
  subst h1
  revert h2
  decide +kernel

/-- a server with one file sends the example log of C43, with changes in the database `d`: they are all logged, and none
is sent to the URL -/
example (ft : FloatText) : ∃ inp, (∃ line ∈ (runMsg (literalWorld ft inp) exampleMsgConf).log,
      Spec.LogsEvent true ⟨1, 19, 7, 100, 0, Spec.le 6 5 ++ Spec.le 2 1 ++ exampleTable.encode⟩ line) ∧
    ¬ Spec.TableWanted (literalWorld ft inp).regex exampleMsgConf exampleTable.schema exampleTable.table ∧
    Spec.passedOn exampleMsgConf (runMsg (literalWorld ft inp) exampleMsgConf) = [] := by
  obtain ⟨opening, o1, o2⟩ := plain_opens
  obtain ⟨mid, hd⟩ := delivers_small (Spec.textAnswer plainCaps
    ([(exampleTextDef, ColumnType.varString), (exampleTextDef, ColumnType.varString)].map (·.1)) 0 2
      [[some (Spec.ascii "f1"), some (Spec.ascii "120")]] (Spec.okPacket plainCaps 0xfe ⟨0, 0, 2, 0, [], []⟩) ++
      (opening ++ ((exampleLog.map (·.1)).map (Spec.streamMessage true) ++ [[0xff, 0x10, 0x04]]))) [] (by
    intro m hm
    rcases List.mem_append.1 hm with hm | hm
    · exact plain_files_small m hm
    · rcases List.mem_append.1 hm with hm | hm
      · exact o2 m hm
      · exact plain_log_small m hm)
  obtain ⟨inp, w1⟩ := example_welcome mid
  refine ⟨inp, ?_, example_unwanted ft inp, C102_notify_false _ _⟩
  have hs : (literalWorld ft inp).stream 0 (Spec.ascii "db" ++ Spec.ascii ":" ++ Spec.ascii (toString 3306)) = some inp := by
    have : Spec.ascii "db" ++ Spec.ascii ":" ++ Spec.ascii (toString 3306) = Spec.ascii "db:3306" := by decide +kernel
    rw [this]
    rfl
  have hf : List.Forall₂ (fun row (f : Cmd.BinlogFile) => Spec.FileRow row f.filename f.size)
      [[some (Spec.ascii "f1"), some (Spec.ascii "120")]] [⟨Spec.ascii "f1", 120⟩] :=
    .cons ⟨_, [], rfl, by decide +kernel, by decide +kernel, by norm_num⟩ .nil
  have hz : (literalWorld ft inp).hashes.Sized := realHashes_sized
  have hid : (literalWorld ft inp).uuid.length = 36 := List.length_replicate ..
  have hr : (literalWorld ft inp).random < 2 ^ 32 := by show 5 < _; norm_num
  have hu : (0 : UInt8) ∉ Spec.ascii "root" ∧ (Spec.ascii "root").length < 2 ^ 30 := ⟨by decide +kernel, by decide +kernel⟩
  have h := C102_unwanted_false (literalWorld ft inp) hz exampleMsgConf (Spec.ascii "db") (Spec.ascii "root") (Spec.ascii "pw") 3306
    rfl hu hid hr inp _ _ mid [] hs w1 plain_files [⟨Spec.ascii "f1", 120⟩] hf true opening o1 (exampleLog.map (·.1))
    plain_log_range [[0xff, 0x10, 0x04]]
  have h := h hd
  have hm : (⟨1, 19, 7, 100, 0, Spec.le 6 5 ++ Spec.le 2 1 ++ exampleTable.encode⟩, .tableMap 5 exampleTable) ∈ exampleLog :=
    List.mem_cons_self
  exact h _ (List.mem_map_of_mem (f := (·.1)) hm) 5 exampleTable (example_says _ hm).2 (example_unwanted ft inp)

end Mybin
