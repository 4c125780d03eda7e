/-
Specification of a small part of the syntax of Rust: string literals as in the reference of the language, and a list of
values `BinlogFile { filename: "...", size: ..., }`. Written without looking at the printer. White space between tokens
does not matter.
-/
namespace Mybin.Spec

/-- where a reader of a string literal is: in the text, after a backslash, after `\u`, or in the digits of `\u{...}`,
with their value and number -/
inductive LitState where
  | text
  | escape
  | brace
  | code (n k : Nat)

/-- the value of a hexadecimal digit -/
def hexValue (c : Char) : Option Nat :=
  if '0' ≤ c ∧ c ≤ '9' then some (c.toNat - '0'.toNat)
  else if 'a' ≤ c ∧ c ≤ 'f' then some (c.toNat - 'a'.toNat + 10)
  else if 'A' ≤ c ∧ c ≤ 'F' then some (c.toNat - 'A'.toNat + 10)
  else none

/-- a string literal from after its first quote: the characters it stands for, and what follows it -/
def rustLiteral : LitState → List Char → Option (List Char × List Char)
  | _, [] => none
  | .text, c :: r =>
    if c = '"' then some ([], r)
    else if c = '\\' then rustLiteral .escape r
    else (rustLiteral .text r).map fun x => (c :: x.1, x.2)
  | .escape, c :: r =>
    if c = 'u' then rustLiteral .brace r
    else
      match (if c = 'n' then some '\n' else if c = 'r' then some '\r' else if c = 't' then some '\t'
        else if c = '0' then some '\x00' else if c = '\\' ∨ c = '"' ∨ c = '\'' then some c else none) with
      | some d => (rustLiteral .text r).map fun x => (d :: x.1, x.2)
      | none => none
  | .brace, c :: r => if c = '{' then rustLiteral (.code 0 0) r else none
  | .code n k, c :: r =>
    if c = '}' then
      if 0 < k ∧ n.isValidChar then (rustLiteral .text r).map fun x => (Char.ofNat n :: x.1, x.2) else none
    else
      match hexValue c with
      | some d => if k < 6 then rustLiteral (.code (16 * n + d) (k + 1)) r else none
      | none => none

/-- white space -/
def blank (c : Char) : Bool := c == ' ' || c == '\n'

/-- a fixed token, after white space: what follows it -/
def token (w : String) (t : List Char) : Option (List Char) :=
  let t := t.dropWhile blank
  if w.toList.isPrefixOf t then some (t.drop w.toList.length) else none

/-- the value of decimal digits -/
def decimalValue (ds : List Char) : Nat := ds.foldl (fun n c => 10 * n + (c.toNat - '0'.toNat)) 0

/-- a decimal number, after white space -/
def number (t : List Char) : Option (Nat × List Char) :=
  let t := t.dropWhile blank
  let ds := t.takeWhile Char.isDigit
  if ds = [] then none else some (decimalValue ds, t.dropWhile Char.isDigit)

/-- `BinlogFile { filename: "...", size: ..., },` -/
def fileEntry (t : List Char) : Option ((List Char × Nat) × List Char) := do
  let t ← token "BinlogFile" t
  let t ← token "{" t
  let t ← token "filename" t
  let t ← token ":" t
  let t ← token "\"" t
  let (name, t) ← rustLiteral .text t
  let t ← token "," t
  let t ← token "size" t
  let t ← token ":" t
  let (size, t) ← number t
  let t ← token "," t
  let t ← token "}" t
  let t ← token "," t
  return ((name, size), t)

/-- entries up to the closing bracket; `fuel` bounds their number -/
def fileEntries : Nat → List Char → Option (List (List Char × Nat) × List Char)
  | 0, _ => none
  | fuel + 1, t =>
    match token "]" t with
    | some t => some ([], t)
    | none => do
      let (f, t) ← fileEntry t
      let (fs, t) ← fileEntries fuel t
      return (f :: fs, t)

/-- a whole text: a list of files, with their names and sizes -/
def fileListing (t : List Char) : Option (List (List Char × Nat)) := do
  let t' ← token "[" t
  let (fs, rest) ← fileEntries (t.length + 1) t'
  if rest.all blank then some fs else none

end Mybin.Spec
