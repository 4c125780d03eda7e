/-
The text the `dml` command of `mybinlog/src/mybinlog.rs` writes to its standard output. The names are Rust strings, of
which the model has the bytes. Errors of standard output (on which `println!` panics) are left out.
-/
import Verif.Model.Dml

namespace Mybin

/-- mybinlog.rs:145, 163, 172, 192: the line without its end -/
def DmlLine.text : DmlLine → Bytes
  | .stmt s => s
  | .note db tbl nextPos =>
    asc "-- Cannot generate update SQL for table " ++ db ++ asc "." ++ tbl
      ++ asc " because no key column found. next_offset=" ++ natText nextPos

/-- mybinlog.rs:145, 163, 172, 192: `println!` ends each line by a newline -/
def dmlText (ls : List DmlLine) : Bytes := (ls.map fun l => l.text ++ [0x0a]).flatten

end Mybin
