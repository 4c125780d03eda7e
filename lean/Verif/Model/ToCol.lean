/-
Model of the conversion of Rust values to statement parameters: `ToColumnValue` (`mybin-core/src/stmt.rs` 12-104) with the
macros of `mybin-core/src/util.rs` 92-117, and `BigDecimal::to_string` (library: bigdecimal 0.2).
-/
import Verif.Model.Stmt
import Verif.Model.TextTime

namespace Mybin

/-- a value of a Rust type with an `impl ToColumnValue`; floats are bit patterns, strings their bytes -/
inductive RustArg where
  | i8 (i : Int)
  | u8 (n : Nat)
  | i16 (i : Int)
  | u16 (n : Nat)
  | i32 (i : Int)
  | u32 (n : Nat)
  | i64 (i : Int)
  | u64 (n : Nat)
  | bigDecimal (d : BigDec)
  | f32 (n : Nat)
  | f64 (n : Nat)
  /-- the date part -/
  | naiveDate (d : NaiveDateTime)
  | myTime (t : MyTime)
  | naiveDateTime (t : NaiveDateTime)
  | myYear (n : Nat)
  | myBit (bs : Bytes)
  | bool (b : Bool)
  | string (s : Bytes)
  /-- `(bool, u32, NaiveTime)`; the time part -/
  | time (negative : Bool) (days : Nat) (tm : NaiveDateTime)
  /-- `Vec<u8>` -/
  | bytes (bs : Bytes)
  | myDateTime (t : MyDateTime)

/-- `BigDecimal::to_string` (library: bigdecimal 0.2, `Display`): the digits of the absolute value, with the point put in,
zeros in front of or behind them as needed, and a minus -/
def BigDec.display (d : BigDec) : Bytes :=
  let digits := natText d.unscaled.natAbs
  let parts : Bytes × Bytes :=
    if (digits.length : Int) ≤ d.scale then ([0x30], List.replicate (d.scale.toNat - digits.length) 0x30 ++ digits)
    else if d.scale < 0 then (digits ++ List.replicate (-d.scale).toNat 0x30, [])
    else (digits.take (digits.length - d.scale.toNat), digits.drop (digits.length - d.scale.toNat))
  (if d.unscaled < 0 then [0x2d] else []) ++ parts.1 ++ (if parts.2 = [] then [] else 0x2e :: parts.2)

/-- stmt.rs:23-82 (`to_stmt_column_value`, util.rs:92-101, and the `impl`s by hand) -/
def RustArg.toCol : RustArg → StmtColumnValue
  | .i8 i => .newTinyint i
  | .u8 n => .newUnsignedTinyint n
  | .i16 i => .newSmallint i
  | .u16 n => .newUnsignedSmallint n
  | .i32 i => .newInt i
  | .u32 n => .newUnsignedInt n
  | .i64 i => .newBigint i
  | .u64 n => .newUnsignedBigint n
  | .bigDecimal d => .newDecimal d.display
  | .f32 n => .newFloat n
  | .f64 n => .newDouble n
  | .naiveDate d => .newDate d
  | .myTime t => .newMyTime t
  | .naiveDateTime t => .newDateTime t
  | .myYear n => .newMyYear n
  | .myBit bs => .newBit bs
  | .bool b => .newBool b
  | .string s => .newVarstring s
  | .time negative days tm => .newTime negative days tm
  | .bytes bs => .newBlob bs
  | .myDateTime t => .newMyDateTime t

/-- `impl ToColumnValue for Option<T>`: stmt.rs:54-61, 69-76 and 84-104 (`to_opt_stmt_column_value`, util.rs:103-117) -/
def RustArg.optToCol : Option RustArg → StmtColumnValue
  | some a => a.toCol
  | none => .newNull

end Mybin
