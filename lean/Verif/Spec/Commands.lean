/-
Specification of the answers to commands that return no result set, from the protocol documentation.
-/
import Verif.Spec.Client

namespace Mybin.Spec

abbrev MULTI_STATEMENTS : Nat := 16

/-- the message that ends the answers to COM_FIELD_LIST, COM_DEBUG and COM_SET_OPTION: an EOF packet, or under
DEPRECATE_EOF an OK packet with header 0xfe and without row count and id -/
def IsCommandEnd (caps : Nat) (msg : List UInt8) : Prop :=
  if caps.testBit DEPRECATE_EOF then
    ∃ f : OkFields, f.affectedRows = 0 ∧ f.lastInsertId = 0 ∧ f.status < 2 ^ 15 ∧ msg = okPacket caps 0xfe f
  else ∃ w s, w < 2 ^ 16 ∧ s < 2 ^ 15 ∧ msg = eofPacket caps w s

/-- a default value as COM_FIELD_LIST sends it: a string, or the NULL marker -/
def defaultValue : Option (List UInt8) → List UInt8
  | some v => lenEncStr v
  | none => [0xfb]

/-- the answer to COM_FIELD_LIST: a definition with default value per column -/
def fieldListResponse (cols : List (ColDef × Option (List UInt8))) (theEnd : List UInt8) : List (List UInt8) :=
  cols.map (fun dc => columnDef dc.1 ++ defaultValue dc.2) ++ [theEnd]

/-- `caps` with the flag number `k` set to `b`, all others as they are -/
def FlagSet (k : Nat) (b : Bool) (caps caps' : Nat) : Prop :=
  ∀ i, caps'.testBit i = if i = k then b else caps.testBit i

/-- what the operand of COM_SET_OPTION does to the session of the server: `MYSQL_OPTION_MULTI_STATEMENTS_ON` is 0 and
`MYSQL_OPTION_MULTI_STATEMENTS_OFF` is 1; other values are an error -/
def multiStatementsAfter : Nat → Option Bool
  | 0 => some true
  | 1 => some false
  | _ => none

end Mybin.Spec
