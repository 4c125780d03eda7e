/-
Specification of a log kept in several binlog files, and of what a master sends to a reader that asks for the events of a
file from a position on: the opening (a rotate event that names the file, and a format description), the events from there
to the end of the file, and then, file by file, a rotate event that names the next file and all its events. Heartbeats
(type 27) may come anywhere in between.
-/
import Verif.Spec.Stream

namespace Mybin.Spec

/-- a binlog file: its name and its events -/
structure BinFile where
  name : List UInt8
  events : List LogEvent

/-- bytes taken by events on disk -/
def size (crc : Bool) (es : List LogEvent) : Nat := (es.map (·.len crc)).sum

/-- events that begin at byte `start` of a file: each one says where the next one begins, in 32 bits -/
def Placed (crc : Bool) : Nat → List LogEvent → Prop
  | _, [] => True
  | start, e :: es => e.nextPos = (start + e.len crc) % 2 ^ 32 ∧ Placed crc (start + e.len crc) es

/-- a rotate event that says that a file comes next, from a position on -/
def Rotates (e : LogEvent) (pos : Nat) (file : List UInt8) : Prop :=
  e.InRange ∧ e.code = 4 ∧ pos < 2 ^ 64 ∧ e.payload = le 8 pos ++ file

/-- a log: files of different names; each begins, after the four magic bytes, with its format description; a rotate event
can only be the last one of a file, and names the next file -/
structure LogOk (crc : Bool) (log : List BinFile) : Prop where
  names : (log.map (·.name)).Nodup
  range : ∀ f ∈ log, ∀ e ∈ f.events, e.InRange
  placed : ∀ f ∈ log, Placed crc 4 f.events
  described : ∀ f ∈ log, ∃ d more, f.events = d :: more ∧ d.code = 15
  rotates : ∀ older f newer, log = older ++ f :: newer → ∀ done e todo, f.events = done ++ e :: todo → e.code = 4 →
    todo = [] ∧ ∃ g more, newer = g :: more ∧ Rotates e 4 g.name

/-- the events of the log from a position of a file on, where an event begins or the file ends -/
def Place (crc : Bool) (log : List BinFile) (name : List UInt8) (pos : Nat) (rest : List LogEvent) : Prop :=
  ∃ older f newer done todo, log = older ++ f :: newer ∧ f.name = name ∧ f.events = done ++ todo ∧
    pos = 4 + size crc done ∧ rest = todo ++ newer.flatMap (·.events)

/-- `es` is what a master with this log sends, after the opening, to a reader that asks for a file from a position on. The
format description of the opening is the one of the file, so it is not sent again if the position is the beginning. -/
def Served (crc : Bool) (log : List BinFile) (name : List UInt8) (pos : Nat) (es : List LogEvent) : Prop :=
  (∀ e ∈ es, e.InRange) ∧
  ∃ older f newer done todo, ∃ heads : BinFile → LogEvent, log = older ++ f :: newer ∧ f.name = name ∧
    f.events = done ++ todo ∧ pos = 4 + size crc done ∧ (∀ g ∈ newer, Rotates (heads g) 4 g.name) ∧
    es.filter (fun e => e.code ≠ 27) =
      (if done = [] then todo.tail else todo) ++ newer.flatMap (fun g => heads g :: g.events)

/-- the events that report something that happened at the master, of the types this library knows: all but rotate events,
format descriptions and heartbeats -/
def changes (es : List LogEvent) : List LogEvent :=
  es.filter (fun e => e.code ∈ supportedCodes ∧ e.code ∉ [4, 15, 27])

end Mybin.Spec
