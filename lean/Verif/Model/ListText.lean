/-
The text the `list` command of `mybinlog/src/mybinlog.rs` writes to its standard output: `{:#?}` of a `Vec<BinlogFile>`,
with the derived `Debug` of binlog.rs:252-256. The formatting itself is code of the standard library, modelled here from
its documentation. Which characters are printable (tables of Unicode in the standard library) is a parameter.
-/
import Verif.Model.Program

namespace Mybin

/-- the characters of a Rust string, of which the model has the bytes; a Rust string is always valid -/
def charsOf (bs : Bytes) : List Char :=
  match ByteArray.utf8Decode? ⟨bs.toArray⟩ with
  | some cs => cs.toList
  | none => []

/-- library: a character in the `Debug` of a string (`char::escape_debug_ext` without the single quote) -/
def debugChar (printable : Char → Bool) (c : Char) : List Char :=
  if c = '\x00' then ['\\', '0']
  else if c = '\t' then ['\\', 't']
  else if c = '\r' then ['\\', 'r']
  else if c = '\n' then ['\\', 'n']
  else if c = '"' then ['\\', '"']
  else if c = '\\' then ['\\', '\\']
  else if printable c then [c]
  else ['\\', 'u', '{'] ++ Nat.toDigits 16 c.toNat ++ ['}']

/-- library: `Debug` of a string -/
def debugStr (printable : Char → Bool) (cs : List Char) : List Char := ['"'] ++ cs.flatMap (debugChar printable) ++ ['"']

/-- binlog.rs:252-256: `{:#?}` of a file inside a list. The indentation of a nested value is put after the newlines of
the value, of which `debugStr` has none. -/
def fileText (printable : Char → Bool) (f : Cmd.BinlogFile) : List Char :=
  "    BinlogFile {\n".toList ++ "        filename: ".toList ++ debugStr printable (charsOf f.filename) ++ ",\n".toList
    ++ "        size: ".toList ++ Nat.toDigits 10 f.size ++ ",\n".toList ++ "    },\n".toList

/-- mybinlog.rs:29: `println!("{:#?}", files)`; an empty list has no lines inside -/
def listText (printable : Char → Bool) (files : List Cmd.BinlogFile) : Bytes :=
  (if files = [] then "[]\n".toList
   else "[\n".toList ++ files.flatMap (fileText printable) ++ "]\n".toList).flatMap String.utf8EncodeChar

end Mybin
