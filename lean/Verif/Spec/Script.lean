/-
Specification of the readers of a script: one that takes each line as a statement, and the `mysql` client in batch mode,
which sends what stands between semicolons outside of quotes and comments (default delimiter, default `sql_mode`).
Written from the MySQL reference manual ("mysql Client Commands", "Comments"); independent of the code that prints.

Simplifications: comments between `/*` and `*/`, the client's own commands (`\g`, `delimiter`, …) and the hints it sends
along are left out. The statements made from row events have none of them outside of quotes.
-/
import Verif.Spec.Replay

namespace Mybin.Spec

/-- the lines of a text: what stands before each newline, and what is left after the last one unless that is empty -/
def readLines : List UInt8 → List UInt8 → List (List UInt8)
  | acc, [] => if acc = [] then [] else [acc]
  | acc, b :: t => if b = 0x0a then acc :: readLines [] t else readLines (acc ++ [b]) t

def isQuote (b : UInt8) : Bool := b == 0x27 || b == 0x22 || b == 0x60

/-- where the client stands: outside, inside a quotation, after a backslash in it, in a comment -/
inductive ScriptPlace where
  | plain
  | quoted (q : UInt8)
  | escaped (q : UInt8)
  | comment
  deriving DecidableEq

/-- `#`, or two dashes and white space, begin a comment up to the end of the line -/
def beginsComment (t : List UInt8) : Bool :=
  t.head? == some 0x23 || (strip (ascii "-- ") t).isSome || (strip (ascii "--\n") t).isSome

/-- the pieces between semicolons; comments are left out -/
def pieces : ScriptPlace → List UInt8 → List UInt8 → List (List UInt8)
  | _, acc, [] => [acc]
  | .plain, acc, b :: t =>
    if b = 0x3b then acc :: pieces .plain [] t
    else if isQuote b then pieces (.quoted b) (acc ++ [b]) t
    else if beginsComment (b :: t) then pieces .comment acc t
    else pieces .plain (acc ++ [b]) t
  | .quoted q, acc, b :: t =>
    if b = q then pieces .plain (acc ++ [b]) t
    else if b = 0x5c ∧ q ≠ 0x60 then pieces (.escaped q) (acc ++ [b]) t
    else pieces (.quoted q) (acc ++ [b]) t
  | .escaped q, acc, b :: t => pieces (.quoted q) (acc ++ [b]) t
  | .comment, acc, b :: t => if b = 0x0a then pieces .plain (acc ++ [b]) t else pieces .comment acc t

def isSpace (b : UInt8) : Bool := b == 0x20 || b == 0x09 || b == 0x0a || b == 0x0d

/-- a text without the white space around it -/
def trim (t : List UInt8) : List UInt8 := ((t.dropWhile isSpace).reverse.dropWhile isSpace).reverse

/-- the statements the client sends when it is given a script -/
def sent (script : List UInt8) : List (List UInt8) := ((pieces .plain [] script).map trim).filter (· ≠ [])

/-- no newline in the character string a literal stands for -/
def Lit.OneLine : Lit → Prop
  | .text s => 0x0a ∉ s
  | _ => True

/-- no newline in the names and the values of a statement -/
def Stmt.OneLine : Stmt → Prop
  | .insert db tbl cols vals => 0x0a ∉ db ∧ 0x0a ∉ tbl ∧ (∀ c ∈ cols, 0x0a ∉ c) ∧ ∀ v ∈ vals, v.OneLine
  | .delete db tbl cond => 0x0a ∉ db ∧ 0x0a ∉ tbl ∧ ∀ c ∈ cond, 0x0a ∉ c.1 ∧ c.2.OneLine
  | .update db tbl set cond => 0x0a ∉ db ∧ 0x0a ∉ tbl ∧ (∀ c ∈ set, 0x0a ∉ c.1 ∧ c.2.OneLine) ∧
      ∀ c ∈ cond, 0x0a ∉ c.1 ∧ c.2.OneLine

/-- the script: `SELECT 1;` in two lines, a comment, and a string with a semicolon -/
example : sent (ascii "SELECT\n1; -- done;\nSELECT ';'\n") = [ascii "SELECT\n1", ascii "SELECT ';'"] := by decide +kernel

end Mybin.Spec
