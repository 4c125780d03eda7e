/-
Specification of what a server hears from a client, message by message, and of the answers a server gives while a
client sets up a binlog stream.
-/
import Verif.Spec.Client
import Verif.Spec.Columns
import Verif.Spec.Stream
import Verif.Spec.Sql

namespace Mybin.Spec

/-- one message of a client: a command, or the execution of a prepared statement with parameters -/
inductive Said where
  | command (c : ServerCmd)
  | execute (id : Nat) (params : List ServerParam)

/-- the server reads the payload as this message -/
def Hears (caps : Nat) (payload : List UInt8) : Said → Prop
  | .command c => D.all (D.command caps) payload = some c
  | .execute id ps => D.all (D.stmtExecute ps.length) payload = some ⟨id, 0, 1, ps⟩

/-- between `before` and `after` the client sent exactly these messages, each numbered from 0 -/
def Heard (caps : Nat) (before after : List UInt8) (said : List Said) : Prop :=
  ∃ runs : List (List Packet), (∀ r ∈ runs, IsMessage r ∧ Numbered 0 r) ∧
    after = before ++ (runs.map wire).flatten ∧ List.Forall₂ (fun r s => Hears caps (payload r) s) runs said

/-- the messages that set a user variable by a prepared statement which the server calls `id` -/
def setUserVariable (name : List UInt8) (id : Nat) (v : ServerParam) : List Said :=
  [.command (.stmtPrepare (ascii "SET @" ++ name ++ ascii " = ?")), .execute id [v], .command (.stmtClose id)]

/-- the flags of COM_BINLOG_DUMP_GTID: do not wait for events (1), start at the position (2), start after the GTIDs (4) -/
def gtidDumpFlags (nonBlock byGtid : Bool) : Nat := (if nonBlock then 1 else 0) + (if byGtid then 4 else 2)

end Mybin.Spec
