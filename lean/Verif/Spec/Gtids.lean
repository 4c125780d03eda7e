/-
Specification of a log of transactions with GTIDs, of how a master reads the set of GTIDs in COM_BINLOG_DUMP_GTID
(rpl_gtid_set.cc, Gtid_set::add_gtid_encoding), and of what it sends to a reader that has these transactions.
-/
import Verif.Spec.Stream
import Verif.Spec.Grammar
import Verif.Spec.Server

namespace Mybin.Spec

/-- the GTIDs of one source: its 16-byte id and half-open intervals of transaction numbers -/
abbrev GtidBlock : Type := List UInt8 × List (Nat × Nat)

/-- an interval: first number, and the number after the last -/
def D.gtidInterval : D (Nat × Nat) := do
  let a ← D.le 8
  let b ← D.le 8
  return (a, b)

/-- the GTIDs of one source -/
def D.gtidBlock : D GtidBlock := do
  let sid ← D.bytes 16
  let n ← D.le 8
  let is ← D.times D.gtidInterval n
  return (sid, is)

/-- a set of GTIDs, to the last byte -/
def gtidBlocks (data : List UInt8) : Option (List GtidBlock) :=
  D.all (do let n ← D.le 8; D.times D.gtidBlock n) data

/-- the intervals of a source are not empty, ascend, do not touch, and begin at 1 at the least; else the set is refused -/
def Ascending : Nat → List (Nat × Nat) → Prop
  | _, [] => True
  | last, (a, b) :: t => last < a ∧ a < b ∧ Ascending b t

/-- the GTID of source `sid` and number `gno` is in the set -/
def Has (blocks : List GtidBlock) (sid gno : Nat) : Prop :=
  ∃ b ∈ blocks, b.1 = le 16 sid ∧ ∃ i ∈ b.2, i.1 ≤ gno ∧ gno < i.2

/-- a transaction: its GTID, the event that says it, and its other events -/
structure Transaction where
  sid : Nat
  gno : Nat
  first : LogEvent
  others : List LogEvent

/-- its events -/
def Transaction.events (t : Transaction) : List LogEvent := t.first :: t.others

/-- events that belong to no transaction: rotate events, format descriptions, heartbeats, sets of earlier GTIDs -/
def betweenCodes : List Nat := [4, 15, 27, 35]

/-- a transaction begins with its GTID event; no other event of it is one, or between transactions -/
structure Transaction.Ok (t : Transaction) : Prop where
  sid_lt : t.sid < 2 ^ 128
  gno_pos : 0 < t.gno
  gno_lt : t.gno + 1 < 2 ^ 63
  first_range : t.first.InRange
  first_code : t.first.code = 33
  tells : ∃ flags more, flags < 2 ^ 8 ∧ t.first.payload = u8 flags ++ le 16 t.sid ++ le 8 t.gno ++ more
  others_range : ∀ e ∈ t.others, e.InRange
  others_code : ∀ e ∈ t.others, e.code ≠ 33 ∧ e.code ∉ betweenCodes

open scoped Classical in
/-- the transactions of a log that are not in a set of GTIDs -/
noncomputable def missing (log : List Transaction) (blocks : List GtidBlock) : List Transaction :=
  log.filter (fun t => ¬ Has blocks t.sid t.gno)

/-- the events of transactions -/
def inTransactions (es : List LogEvent) : List LogEvent := es.filter (fun e => e.code ∉ betweenCodes)

/-- what a master whose log consists of these transactions sends when it hears a dump command: if the command goes by GTIDs
(flag 4), all transactions but those in the set; else, if it asks for the first file from its beginning on, all of them.
Events between transactions may come anywhere. -/
def SendsFor (log : List Transaction) (cmd : ServerCmd) (es : List LogEvent) : Prop :=
  (∀ e ∈ es, e.InRange) ∧
  match cmd with
  | .binlogDumpGtid flags _ file pos data =>
    if flags.testBit 2 then
      ∃ blocks, gtidBlocks data = some blocks ∧ (∀ b ∈ blocks, Ascending 0 b.2) ∧
        inTransactions es = (missing log blocks).flatMap Transaction.events
    else file = [] ∧ pos = 4 ∧ inTransactions es = log.flatMap Transaction.events
  | _ => False

end Mybin.Spec
