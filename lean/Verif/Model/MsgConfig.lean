/-
Model of the whole configuration of `mybinmsg` (mybinmsg/src/config.rs) and of what the program does with it
(mybinmsg/src/mybinmsg.rs:15-54). Reading the file and its syntax (toml, serde) are library code: the program gets the
values. `Model/Program.lean` has the run for the part of the configuration the program uses.
-/
import Verif.Model.Program
import Verif.Model.Sql

namespace Mybin

/-- config.rs:28-39: where the server is; the port is any 32-bit number -/
inductive ConfConnect where
  | tcp (host : Bytes) (port : Nat) (username password : Bytes)
  | unixSocket (path : Bytes)

/-- config.rs:41-45 -/
structure ConfSubscribe where
  databaseFilter : Option Bytes
  tableFilter : Option Bytes

/-- config.rs:55-61 -/
inductive NotifyType where
  | http
  | stdout
  deriving DecidableEq

/-- config.rs:47-53, 63-67 -/
structure ConfNotify where
  ty : NotifyType
  url : Option Bytes

/-- config.rs:3-10 -/
structure MsgConf where
  connect : ConfConnect
  subscribe : ConfSubscribe
  notify : ConfNotify

/-- config.rs:19-26 with mybinmsg.rs:40-44: the address the program makes of the configuration -/
def ConfConnect.used : ConfConnect → MsgConnect
  | .tcp host port username password => .tcp host (natText port) username password
  | .unixSocket _ => .unixSocket

/-- what a run of `mybinmsg` does outside: the lines of its log, what it prints, what it sends to which URL, and how it
ends -/
structure MsgRun where
  log : List MsgLine
  stdout : List MsgLine
  posted : List (Bytes × MsgLine)
  theEnd : DmlEnd

/-- mybinmsg.rs:15-38: the program. `conf.subscribe` and `conf.notify` do not occur in it; it has no statement that
prints, and none that opens another connection than the one to the server (mybinmsg.rs:24, 50). -/
def runMsg (w : World) (conf : MsgConf) : MsgRun where
  log := (mybinmsg w conf.connect.used).lines
  stdout := []
  posted := []
  theEnd := (mybinmsg w conf.connect.used).theEnd

end Mybin
