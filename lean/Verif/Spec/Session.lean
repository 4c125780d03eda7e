/-
Specification of how the settings of the session that executes a statement change what the statement means: its time
zone, and the modes NO_BACKSLASH_ESCAPES and NO_AUTO_VALUE_ON_ZERO of `sql_mode`. Written from the MySQL reference
manual (Server SQL Modes; Time Zone Support; Using AUTO_INCREMENT); independent of the code that makes the statements.

Simplifications: the time zone is a fixed offset, and the text of a TIMESTAMP is of 1970 or later. The other modes of
`sql_mode` change nothing about the literals of this specification (`ANSI_QUOTES` is about double quotes) or only which
values are refused.
-/
import Verif.Spec.Replay

namespace Mybin.Spec

structure Session where
  /-- offset of the time zone: seconds east of UTC -/
  zone : Int
  noBackslashEscapes : Bool
  noAutoValueOnZero : Bool

/-- the session that `Spec.literal` and `Spec.assign` describe -/
def Session.usual : Session := ⟨0, false, false⟩

/-- the inside of a string literal in which a backslash is an ordinary character -/
def quoteBody : List UInt8 → Option (List UInt8 × List UInt8)
  | [] => none
  | [b] => if b = 0x27 then some ([], []) else none
  | b :: c :: t =>
    if b = 0x27 then
      if c = 0x27 then (quoteBody t).map fun r => (0x27 :: r.1, r.2) else some ([], c :: t)
    else (quoteBody (c :: t)).map fun r => (b :: r.1, r.2)

/-- a literal at the start of a text -/
def Session.literal (S : Session) (t : List UInt8) : Option (Lit × List UInt8) :=
  if S.noBackslashEscapes = true ∧ t.head? = some 0x27 then (quoteBody t.tail).map fun r => (.text r.1, r.2)
  else Spec.literal t

/-- The instant a TIMESTAMP stores for a local time: the seconds since 1970 in UTC. -/
def Session.instant (S : Session) : Val → Option Val
  | .timestamp secs us => if 0 ≤ (secs : Int) - S.zone then some (.timestamp ((secs : Int) - S.zone).toNat us) else none
  | v => some v

/-- what a literal becomes in a column: the text of a TIMESTAMP is local time of the session -/
def Session.assign (S : Session) (fl : FloatRead) (unsigned : Bool) (k : ColKind) (l : Lit) : Option Val :=
  (Spec.assign fl unsigned k l).bind S.instant

/-- What an INSERT puts into an AUTO_INCREMENT column whose next number is `next`: NULL asks for the next number, and so
does 0 unless the mode says otherwise. -/
def Session.insertAuto (S : Session) (fl : FloatRead) (next : Val) (unsigned : Bool) (k : ColKind) (l : Lit) : Option Val :=
  if l = .null ∨ (l = .number 0 0 ∧ S.noAutoValueOnZero = false) then some next else S.assign fl unsigned k l

end Mybin.Spec
