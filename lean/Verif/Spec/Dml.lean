/-
Specification of the row changes of a binary log: which table a table id stands for at each point of the log, and what
an event says about rows. Written from the MySQL documentation; independent of the model.
-/
import Verif.Spec.Rows
import Verif.Spec.Stream

namespace Mybin.Spec

/-- what an event of the log means for rows. The column kinds are those of the table when the event was logged; the
lists of Booleans tell which columns are logged. -/
inductive LogItem where
  | tableMap (id : Nat) (t : Table)
  | insert (id : Nat) (kinds : List ColKind) (present : List Bool) (rows : List Image)
  | delete (id : Nat) (kinds : List ColKind) (present : List Bool) (rows : List Image)
  | update (id : Nat) (kinds : List ColKind) (before after : List Bool) (rows : List (Image × Image))
  | rotate
  | other

/-- the table id, flags and extra data of a row event (version 2), before what it says -/
def rowsHead (id flags : Nat) (extra : List UInt8) : List UInt8 := le 6 id ++ le 2 flags ++ le 2 (extra.length + 2)

/-- the event says this. Row events of the versions before 2 say none of these. -/
def LogEvent.Says (e : LogEvent) : LogItem → Prop
  | .tableMap id t => e.code = 19 ∧ id < 2 ^ 48 ∧ ∃ flags < 2 ^ 16, e.payload = le 6 id ++ le 2 flags ++ t.encode
  | .insert id ks present rows => e.code = 30 ∧ id < 2 ^ 48 ∧ ∃ flags < 2 ^ 16, ∃ extra bm,
      extra.length + 2 < 2 ^ 16 ∧ Covers bm present ∧ e.payload = rowsHead id flags extra ++ rowsPayload ks extra bm rows
  | .delete id ks present rows => e.code = 32 ∧ id < 2 ^ 48 ∧ ∃ flags < 2 ^ 16, ∃ extra bm,
      extra.length + 2 < 2 ^ 16 ∧ Covers bm present ∧ e.payload = rowsHead id flags extra ++ rowsPayload ks extra bm rows
  | .update id ks before after rows => e.code = 31 ∧ id < 2 ^ 48 ∧ ∃ flags < 2 ^ 16, ∃ extra bb ab,
      extra.length + 2 < 2 ^ 16 ∧ Covers bb before ∧ Covers ab after ∧
        e.payload = rowsHead id flags extra ++ updatePayload ks extra bb ab rows
  | .rotate => e.code = 4
  | .other => e.code ∉ [4, 19, 20, 21, 22, 23, 24, 25, 30, 31, 32]

/-- The tables the ids stand for after an event: a table map announces one, and no announcement outlives the log file. -/
def LogItem.announce (known : Nat → Option Table) : LogItem → Nat → Option Table
  | .tableMap id t => fun i => if i = id then some t else known i
  | .rotate => fun _ => none
  | _ => known

end Mybin.Spec
