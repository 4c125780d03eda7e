/-
Specification of event payloads: GTID sets, query events and their status variables, load events.
Written from the MySQL documentation; independent of the model.
-/
import Verif.Spec.Wire

namespace Mybin.Spec

/-! ### GTID sets -/

/-- the transactions of one server: its UUID as a number and closed intervals of transaction numbers -/
structure Gtids where
  sid : Nat
  intervals : List (Nat × Nat)

/-- intervals above `lo`: non-empty, increasing, and not touching (there is a gap between any two) -/
def Ordered (lo : Nat) : List (Nat × Nat) → Prop
  | [] => True
  | (a, b) :: t => lo < a ∧ a ≤ b ∧ Ordered (b + 1) t

/-- well formed: intervals start at 1 or later and are ordered; the numbers fit their fields -/
def Gtids.Ok (g : Gtids) : Prop :=
  g.sid < 2 ^ 128 ∧ Ordered 0 g.intervals ∧ ∀ i ∈ g.intervals, i.2 + 1 < 2 ^ 64

/-- on the wire the end of an interval is exclusive -/
def Gtids.encode (g : Gtids) : List UInt8 :=
  le 16 g.sid ++ le 8 g.intervals.length
    ++ (g.intervals.map fun i => le 8 i.1 ++ le 8 (i.2 + 1)).flatten

/-- a set: the number of servers, then each server's intervals -/
def gtidSet (gs : List Gtids) : List UInt8 := le 8 gs.length ++ (gs.map Gtids.encode).flatten

/-! ### status variables of query events -/

/-- one status variable. `overMaxDbs` is the marker (count 254, no names) the server writes when a
statement touched more than 16 databases. -/
inductive StatusVar where
  | flags2 (n : Nat)
  | sqlMode (n : Nat)
  | catalog (s : List UInt8)
  | autoIncrement (inc offset : Nat)
  | charset (client conn server : Nat)
  | timeZone (s : List UInt8)
  | catalogNz (s : List UInt8)
  | lcTimeNames (n : Nat)
  | charsetDatabase (n : Nat)
  | tableMapForUpdate (n : Nat)
  | masterDataWritten (n : Nat)
  | invoker (user host : List UInt8)
  | updatedDbs (names : List (List UInt8))
  | overMaxDbs
  | microseconds (n : Nat)

/-- a string with a one-byte length -/
def str8 (s : List UInt8) : List UInt8 := u8 s.length ++ s

def StatusVar.InRange : StatusVar → Prop
  | .flags2 n | .masterDataWritten n => n < 2 ^ 32
  | .sqlMode n | .tableMapForUpdate n => n < 2 ^ 64
  | .catalog s | .timeZone s | .catalogNz s => s.length < 2 ^ 8
  | .autoIncrement a b => a < 2 ^ 16 ∧ b < 2 ^ 16
  | .charset a b c => a < 2 ^ 16 ∧ b < 2 ^ 16 ∧ c < 2 ^ 16
  | .lcTimeNames n | .charsetDatabase n => n < 2 ^ 16
  | .invoker u h => u.length < 2 ^ 8 ∧ h.length < 2 ^ 8
  | .updatedDbs ns => ns.length < 254 ∧ ∀ s ∈ ns, (0 : UInt8) ∉ s
  | .overMaxDbs => True
  | .microseconds n => n < 2 ^ 24

def StatusVar.encode : StatusVar → List UInt8
  | .flags2 n => u8 0 ++ le 4 n
  | .sqlMode n => u8 1 ++ le 8 n
  | .catalog s => u8 2 ++ str8 s ++ u8 0
  | .autoIncrement a b => u8 3 ++ le 2 a ++ le 2 b
  | .charset a b c => u8 4 ++ le 2 a ++ le 2 b ++ le 2 c
  | .timeZone s => u8 5 ++ str8 s
  | .catalogNz s => u8 6 ++ str8 s
  | .lcTimeNames n => u8 7 ++ le 2 n
  | .charsetDatabase n => u8 8 ++ le 2 n
  | .tableMapForUpdate n => u8 9 ++ le 8 n
  | .masterDataWritten n => u8 10 ++ le 4 n
  | .invoker u h => u8 11 ++ str8 u ++ str8 h
  | .updatedDbs ns => u8 12 ++ u8 ns.length ++ (ns.map nulStr).flatten
  | .overMaxDbs => u8 12 ++ u8 254
  | .microseconds n => u8 13 ++ le 3 n

/-! ### LOAD DATA events -/

/-- the names in a load event -/
structure LoadTarget where
  fields : List (List UInt8)
  table : List UInt8
  schema : List UInt8
  file : List UInt8

/-- names are shorter than 256 bytes and contain no NUL; the block of names stays below 4 GB -/
def LoadTarget.Ok (l : LoadTarget) : Prop :=
  (∀ f ∈ l.fields, f.length < 2 ^ 8 ∧ (0 : UInt8) ∉ f) ∧ l.table.length < 2 ^ 8 ∧ (0 : UInt8) ∉ l.table ∧
    l.schema.length < 2 ^ 8 ∧ (0 : UInt8) ∉ l.schema ∧ (0 : UInt8) ∉ l.file ∧
    (l.fields.map fun f => f.length + 1).sum < 2 ^ 32

/-- the length of every field name -/
def LoadTarget.lengths (l : LoadTarget) : List UInt8 := l.fields.map fun f => UInt8.ofNat f.length

/-- the field names, each NUL-terminated -/
def LoadTarget.names (l : LoadTarget) : List UInt8 := (l.fields.map nulStr).flatten

def LoadTarget.encode (l : LoadTarget) : List UInt8 :=
  l.lengths ++ l.names ++ nulStr l.table ++ nulStr l.schema ++ nulStr l.file

end Mybin.Spec
