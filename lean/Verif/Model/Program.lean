/-
Model of the two programs: `mybinlog/src/mybinlog.rs` and `mybinlog/src/opts.rs`, `mybinmsg/src/mybinmsg.rs` and
`mybinmsg/src/config.rs`. Reading the arguments (structopt, mybinlog.rs:19) and the configuration file (toml,
mybinmsg.rs:17-21) is library code: the programs get their result. Log output of the library is left out. The format
of a list of files on the terminal (`{:#?}`, mybinlog.rs:29) is in Model/ListText.lean and that of statements in
Model/DmlText.lean; the format of events in the log (`{:?}`) is in Model/MsgText.lean: here a line is the value. What
the servers send on the connections, what the regular expressions mean and the random values are given.
-/
import Verif.Model.Auth
import Verif.Model.Dml

namespace Mybin

/-- opts.rs:18-35 -/
inductive ProgCommand where
  | dml (filename : Bytes) (untilNow : Bool) (databaseFilter tableFilter : Option Bytes) (block : Bool) (limit : Nat)
  | list

/-- opts.rs:3-15 -/
structure ProgOpts where
  host : Bytes
  port : Bytes
  username : Bytes
  password : Bytes
  cmd : ProgCommand

/-- what a program meets: the bytes that come on the `n`-th connection it opens to an address (`none`: the connection
cannot be opened), the meaning of regular expressions (`none`: not a regular expression), the hash functions, the text
of floating point numbers, and the random values of a stream request -/
structure World where
  stream : Nat → Bytes → Option Bytes
  regex : Bytes → Option (Bytes → Bool)
  hashes : Hashes
  ft : FloatText
  uuid : Bytes
  random : Nat

/-- a line printed by `mybinlog`: the list of files (mybinlog.rs:29), or a line of the `dml` command -/
inductive ProgLine where
  | files (fs : List Cmd.BinlogFile)
  | dml (l : DmlLine)
  deriving DecidableEq, Repr

/-- a run of a program: the lines printed, how it ended, and the bytes sent on the connections it opened, in order. The
bytes sent before a panic are left out (`none`). -/
structure ProgRun (α : Type) where
  lines : List α
  theEnd : DmlEnd
  sent : Option (List Bytes)

/-- mybinlog.rs:69 and mybinmsg.rs:41: `format!("{}:{}", host, port)` -/
def address (host port : Bytes) : Bytes := host ++ Cmd.str ":" ++ port

/-- mybinlog.rs:68-79 and mybinmsg.rs:40-54 with conn.rs:136-143: the `n`-th connection; resolving the name of the host
(`to_socket_addrs`, mybinmsg.rs:41-44) is left out -/
def connect (w : World) (n : Nat) (host port username password : Bytes) : MR Unit :=
  match w.stream n (address host port) with
  | none => .err .io { inp := [] }
  | some inp => handshake w.hashes ⟨username, password, []⟩ { inp := inp }

/-- mybinlog.rs:42-51: `Regex::new(s)?` for a filter that is given -/
def compileFilter (w : World) : Option Bytes → Option (Option (Bytes → Bool))
  | none => some none
  | some s => (w.regex s).map some

/-- the helper connection after an event (mybinlog.rs:104-133); `none` after a panic -/
def helperAfter (o : DmlOpts) (st : DmlState) (ev : Event) : Option Conn :=
  match ev.kind with
  | .tableMap =>
    match TableMapData.readFrom ev.data with
    | .ok d _ =>
      if (st.tbls.lookup d.tableId).isSome ∨ d.tableId ∈ st.skip then some st.helper
      else
        match TableMapData.tableMap d.payload with
        | .ok tm _ =>
          if ¬ filterOk o.databaseFilter tm.schemaName then some st.helper
          else if ¬ filterOk o.tableFilter tm.tableName then some st.helper
          else
            match fetchColumns tm.schemaName tm.tableName st.helper with
            | .ok _ h => some h
            | .err _ h => some h
            | .panic => none
            | .hang => none
        | .err _ _ => some st.helper
        | .panic => none
        | .hang => none
    | .err _ _ => some st.helper
    | .panic => none
    | .hang => none
  | _ => some st.helper

/-- the loop of `dmlLoop` (mybinlog.rs:102-218), for the two connections at its end; `none` after a panic -/
def dmlConns (ft : FloatText) (o : DmlOpts) (s : BinlogStream) (st : DmlState) (c : Conn) : Option (Conn × Conn) :=
  match s.nextEvent c with
  | .ok (none, _) c' => some (c', st.helper)
  | .ok (some ev, s') c' =>
    match onEvent ft o st ev with
    | (_, .go st') => if c'.inp.length < c.inp.length then dmlConns ft o s' st' c' else none
    | (_, .stop) => some (c', st.helper)
    | (_, .err _) => (helperAfter o st ev).map fun h => (c', h)
    | (_, .panic) => none
    | (_, .hang) => none
  | .err _ c' => some (c', st.helper)
  | .panic => none
  | .hang => none
termination_by c.inp.length

/-- `printDmls` (mybinlog.rs:81-219), for the bytes sent -/
def dmlSent (ft : FloatText) (o : DmlOpts) (uuid : Bytes) (random : Nat) (conn helper : Conn) : Option (List Bytes) :=
  match o.request.requestStream uuid random conn with
  | .ok s c => (dmlConns ft o s ⟨[], [], 0, helper⟩ c).map fun cs => [cs.1.out, cs.2.out]
  | .err _ c => some [c.out, helper.out]
  | .panic => none
  | .hang => none

/-- mybinlog.rs:24-66: the whole program after reading its arguments. A filter that is not a regular expression is an
error, but the connections are opened first. -/
def mybinlog (w : World) (o : ProgOpts) : ProgRun ProgLine :=
  match connect w 0 o.host o.port o.username o.password with
  | .ok _ conn =>
    match o.cmd with
    | .list =>
      match Cmd.binlogFiles conn with
      | .ok files c => ⟨[.files files], .done, some [c.out]⟩
      | .err e c => ⟨[], .err e, some [c.out]⟩
      | .panic => ⟨[], .panic, none⟩
      | .hang => ⟨[], .hang, none⟩
    | .dml filename untilNow databaseFilter tableFilter block limit =>
      match connect w 1 o.host o.port o.username o.password with
      | .ok _ helper =>
        match compileFilter w databaseFilter with
        | none => ⟨[], .err .custom, some [conn.out, helper.out]⟩
        | some df =>
          match compileFilter w tableFilter with
          | none => ⟨[], .err .custom, some [conn.out, helper.out]⟩
          | some tf =>
            let opts : DmlOpts := ⟨filename, untilNow, df, tf, !block, limit⟩
            let r := printDmls w.ft opts w.uuid w.random conn helper
            ⟨r.1.map .dml, r.2, dmlSent w.ft opts w.uuid w.random conn helper⟩
      | .err e helper => ⟨[], .err e, some [conn.out, helper.out]⟩
      | .panic => ⟨[], .panic, none⟩
      | .hang => ⟨[], .hang, none⟩
  | .err e c => ⟨[], .err e, some [c.out]⟩
  | .panic => ⟨[], .panic, none⟩
  | .hang => ⟨[], .hang, none⟩

/-- config.rs:12-26: where the server is; the path of the socket is left out, and the port is given as text -/
inductive MsgConnect where
  | tcp (host port username password : Bytes)
  | unixSocket

/-- a line of the log of `mybinmsg` (mybinmsg.rs:26-34); fixed texts are left out -/
inductive MsgLine where
  | file (f : Cmd.BinlogFile)
  | event (e : Event)
  deriving DecidableEq, Repr

/-- mybinmsg.rs:33-35: the loop. Every event consumes input, so the `hang` branch of the length test is never taken. -/
def msgLoop (s : BinlogStream) (c : Conn) : List MsgLine × DmlEnd × Option Conn :=
  match s.nextEvent c with
  | .ok (none, _) c' => ([], .done, some c')
  | .ok (some ev, s') c' =>
    if c'.inp.length < c.inp.length then
      let r := msgLoop s' c'
      (.event ev :: r.1, r.2)
    else ([.event ev], .hang, none)
  | .err e c' => ([], .err e, some c')
  | .panic => ([], .panic, none)
  | .hang => ([], .hang, none)
termination_by c.inp.length

/-- binlog.rs:32-43: a request without settings -/
def defaultRequest : BinlogRequest := ⟨[], 4, 0, [], false, false, 30 * 10 ^ 9⟩

/-- mybinmsg.rs:15-38: the whole program after reading its configuration; another address than a TCP one panics
(`unwrap`, 24) -/
def mybinmsg (w : World) (conf : MsgConnect) : ProgRun MsgLine :=
  match conf with
  | .unixSocket => ⟨[], .panic, none⟩
  | .tcp host port username password =>
    match connect w 0 host port username password with
    | .ok _ conn =>
      match Cmd.binlogFiles conn with
      | .ok files c =>
        match defaultRequest.requestStream w.uuid w.random c with
        | .ok s c =>
          let r := msgLoop s c
          ⟨files.map .file ++ r.1, r.2.1, r.2.2.map fun c => [c.out]⟩
        | .err e c => ⟨files.map .file, .err e, some [c.out]⟩
        | .panic => ⟨files.map .file, .panic, none⟩
        | .hang => ⟨files.map .file, .hang, none⟩
      | .err e c => ⟨[], .err e, some [c.out]⟩
      | .panic => ⟨[], .panic, none⟩
      | .hang => ⟨[], .hang, none⟩
    | .err e c => ⟨[], .err e, some [c.out]⟩
    | .panic => ⟨[], .panic, none⟩
    | .hang => ⟨[], .hang, none⟩

end Mybin
