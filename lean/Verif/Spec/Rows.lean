/-
Specification of table maps and row events: column kinds with their metadata, and values as the server
stores them in a row image. Written from the MySQL documentation and sources (`my_time.c`, `decimal.c`,
`field.cc`, `rows_event.h`); independent of the model.
-/
import Verif.Spec.Wire
import Verif.Spec.Bits

namespace Mybin.Spec

/-! ### TIME, DATETIME -/

/-- 6 bits of seconds, 6 of minutes, the hours above -/
def packedHms (hours minute second : Nat) : Nat := hours * 4096 + minute * 64 + second

/-- the packed form of a TIME value: sign and magnitude, with 24 bits of microseconds below -/
def packedTime (neg : Bool) (hours minute second micro : Nat) : Int :=
  if neg then -((packedHms hours minute second * 2 ^ 24 + micro : Nat) : Int)
  else ((packedHms hours minute second * 2 ^ 24 + micro : Nat) : Int)

/-- `my_time_packed_to_binary`: the stored form of a packed TIME. The integer part is rounded down, the
fraction keeps the sign. -/
def time2 (frac : Nat) (nr : Int) : List UInt8 :=
  let int3 := be 3 (pattern 24 (2 ^ 23 + nr / 2 ^ 24))
  let fracPart := Int.tmod nr (2 ^ 24)
  if frac = 0 then int3
  else if frac ≤ 2 then int3 ++ u8 (pattern 8 (fracPart.tdiv 10000))
  else if frac ≤ 4 then int3 ++ be 2 (pattern 16 (fracPart.tdiv 100))
  else be 6 (pattern 48 (nr + 2 ^ 47))

/-- the stored form of a TIME before MySQL 5.6: the number `hhmmss` with the sign of the value, in three
bytes, low byte first -/
def time1 (neg : Bool) (h m s : Nat) : List UInt8 :=
  let n : Int := h * 10000 + m * 100 + s
  le 3 (pattern 24 (if neg then -n else n))

/-- the fraction bytes of DATETIME and TIMESTAMP -/
def fraction (frac micro : Nat) : List UInt8 :=
  if frac = 0 then [] else if frac ≤ 2 then u8 (micro / 10000) else if frac ≤ 4 then be 2 (micro / 100)
  else be 3 micro

/-- `my_datetime_packed_to_binary` -/
def datetime2 (frac year month day hour minute second micro : Nat) : List UInt8 :=
  be 5 (2 ^ 39 + (((year * 13 + month) * 32 + day) * 2 ^ 17 + packedHms hour minute second))
    ++ fraction frac micro

/-- a microsecond count with at most `frac` decimals -/
def MicroOk (frac micro : Nat) : Prop := frac ≤ 6 ∧ micro < 10 ^ 6 ∧ micro % 10 ^ (6 - frac) = 0

/-- TIME values: up to 838 hours, no negative zero -/
def TimeOk (frac : Nat) (neg : Bool) (hours minute second micro : Nat) : Prop :=
  hours ≤ 838 ∧ minute < 60 ∧ second < 60 ∧ MicroOk frac micro ∧
    (neg = true → packedTime neg hours minute second micro ≠ 0)

/-- DATETIME values, zero dates included -/
def DateTimeOk (frac year month day hour minute second micro : Nat) : Prop :=
  year ≤ 9999 ∧ month ≤ 12 ∧ day ≤ 31 ∧ hour < 24 ∧ minute < 60 ∧ second < 60 ∧ MicroOk frac micro

/-! ### DECIMAL -/

/-- bytes needed for `d` decimal digits (`d < 9`) -/
def digBytes (d : Nat) : Nat := [0, 1, 1, 2, 2, 3, 3, 4, 4].getD d 4

/-- the `m` lowest digits of `x` in base `10^9`, most significant first -/
def groups (m x : Nat) : List Nat := (List.range m).reverse.map fun k => x / (10 ^ 9) ^ k % 10 ^ 9

/-- flip the top bit of the first byte -/
def flipTop : List UInt8 → List UInt8
  | [] => []
  | b :: t => (b ^^^ 0x80) :: t

/-- `decimal2bin`: the magnitude `n` (a number of units of `10^-frac`) of a DECIMAL with `intg` digits
before and `frac` after the point: nine digits per four bytes, with short groups at the outer ends; all
bits are inverted for negative numbers; the top bit is inverted for all. -/
def decimal (intg frac : Nat) (neg : Bool) (n : Nat) : List UInt8 :=
  let i := n / 10 ^ frac
  let f := n % 10 ^ frac
  let bytes := be (digBytes (intg % 9)) (i / (10 ^ 9) ^ (intg / 9))
    ++ ((groups (intg / 9) i).map (be 4)).flatten
    ++ ((groups (frac / 9) (f / 10 ^ (frac % 9))).map (be 4)).flatten
    ++ be (digBytes (frac % 9)) (f % 10 ^ (frac % 9))
  flipTop (if neg then bytes.map (~~~ ·) else bytes)

/-- the number a list of base-`10^9` digits stands for -/
def baseValue (l : List Nat) : Nat := l.foldl (fun acc g => acc * 10 ^ 9 + g) 0

/-! ### column kinds -/

/-- the column kinds a 5.7 server logs -/
inductive ColKind where
  | tiny | short | int24 | long | longLong | float | double | year | date
  | timestamp2 (frac : Nat) | time2 (frac : Nat) | datetime2 (frac : Nat)
  | bit (nbits : Nat)
  | decimal (prec scale : Nat)
  | enum (packLen : Nat)
  | set (packLen : Nat)
  | blob (packLen : Nat)
  | varchar (maxLen : Nat)
  | char (maxLen : Nat)
  | json (packLen : Nat)
  | geometry (packLen : Nat)
  | oldTimestamp | oldTime | oldDateTime

/-- the type byte in a table map -/
def ColKind.typeCode : ColKind → Nat
  | .tiny => 1 | .short => 2 | .int24 => 9 | .long => 3 | .longLong => 8 | .float => 4 | .double => 5
  | .year => 13 | .date => 10 | .timestamp2 _ => 17 | .time2 _ => 19 | .datetime2 _ => 18 | .bit _ => 16
  | .decimal _ _ => 246 | .enum _ => 254 | .set _ => 254 | .blob _ => 252 | .varchar _ => 15
  | .char _ => 254 | .json _ => 245 | .geometry _ => 255
  | .oldTimestamp => 7 | .oldTime => 11 | .oldDateTime => 12

/-- the metadata bytes in a table map -/
def ColKind.metaBytes : ColKind → List UInt8
  | .float => u8 4
  | .double => u8 8
  | .timestamp2 f | .time2 f | .datetime2 f => u8 f
  | .bit n => u8 (n % 8) ++ u8 (n / 8)
  | .decimal p s => u8 p ++ u8 s
  | .enum p => u8 0xf7 ++ u8 p
  | .set p => u8 0xf8 ++ u8 p
  | .blob p | .json p | .geometry p => u8 p
  | .varchar m => le 2 m
  | .char m => u8 (0xfe ^^^ (m / 256 * 16)) ++ u8 (m % 256)
  | _ => []

/-- the limits of the kinds -/
def ColKind.Ok : ColKind → Prop
  | .timestamp2 f | .time2 f | .datetime2 f => f ≤ 6
  | .bit n => 1 ≤ n ∧ n ≤ 64
  | .decimal p s => 1 ≤ p ∧ p ≤ 65 ∧ s ≤ 30 ∧ s ≤ p
  | .enum p => p = 1 ∨ p = 2
  | .set p => 1 ≤ p ∧ p ≤ 8
  | .blob p | .json p | .geometry p => 1 ≤ p ∧ p ≤ 4
  | .varchar m => m < 2 ^ 16
  | .char m => m < 1024
  | _ => True

/-! ### values -/

/-- column values, as users think of them; `num` is an unsigned number or the bit pattern of a signed one
or of a float; `micro` are microseconds -/
inductive Val where
  | num (n : Nat)
  | year (y : Nat)
  | date (y m d : Nat)
  | timestamp (secs micro : Nat)
  | time (neg : Bool) (hours minute second micro : Nat)
  | datetime (y mo d h mi s micro : Nat)
  | decimal (neg : Bool) (units : Nat)
  | bytes (b : List UInt8)

/-- `v` is a value of a column of the kind -/
def Fits : ColKind → Val → Prop
  | .tiny, .num n => n < 2 ^ 8
  | .short, .num n => n < 2 ^ 16
  | .int24, .num n => n < 2 ^ 24
  | .long, .num n | .float, .num n => n < 2 ^ 32
  | .longLong, .num n | .double, .num n => n < 2 ^ 64
  | .year, .year y => y = 0 ∨ (1901 ≤ y ∧ y ≤ 2155)
  | .date, .date y m d => y ≤ 9999 ∧ m ≤ 12 ∧ d ≤ 31
  | .timestamp2 f, .timestamp s us => s < 2 ^ 32 ∧ MicroOk f us
  | .time2 f, .time neg h m s us => TimeOk f neg h m s us
  | .datetime2 f, .datetime y mo d h mi s us => DateTimeOk f y mo d h mi s us
  | .bit n, .bytes b => b.length = (n + 7) / 8
  | .decimal p s, .decimal neg n => n < 10 ^ p ∧ (neg = true → n ≠ 0) ∧ s ≤ p
  | .enum p, .num n => n < 256 ^ p
  | .blob p, .bytes b => b.length < 256 ^ p
  | .varchar m, .bytes b => b.length ≤ m
  | .char m, .bytes b => b.length ≤ m
  | _, _ => False

/-- the bytes of a value in a row image -/
def storeVal : ColKind → Val → List UInt8
  | .tiny, .num n => u8 n
  | .short, .num n => le 2 n
  | .int24, .num n => le 3 n
  | .long, .num n | .float, .num n => le 4 n
  | .longLong, .num n | .double, .num n => le 8 n
  | .year, .year y => u8 (y - 1900)
  | .date, .date y m d => le 3 (y * 512 + m * 32 + d)
  | .timestamp2 f, .timestamp s us => be 4 s ++ fraction f us
  | .time2 f, .time neg h m s us => time2 f (packedTime neg h m s us)
  | .datetime2 f, .datetime y mo d h mi s us => datetime2 f y mo d h mi s us
  | .bit _, .bytes b => b
  | .decimal p s, .decimal neg n => decimal (p - s) s neg n
  | .enum p, .num n => le p n
  | .blob p, .bytes b => le p b.length ++ b
  | .varchar m, .bytes b => (if m < 256 then u8 b.length else le 2 b.length) ++ b
  | .char m, .bytes b => (if m < 256 then u8 b.length else le 2 b.length) ++ b
  | _, _ => []

/-! ### table maps -/

/-- `bm` holds the given bits, with any padding -/
def Covers (bm : List UInt8) (bits : List Bool) : Prop :=
  bm.length = (bits.length + 7) / 8 ∧ ∀ i b, bits[i]? = some b → bit? bm i = some b

/-- a table map: names, columns, the bitmap of nullable columns -/
structure Table where
  schema : List UInt8
  table : List UInt8
  columns : List ColKind
  nullable : List UInt8

/-- the payload of a table map event after the table id and flags -/
def Table.encode (t : Table) : List UInt8 :=
  u8 t.schema.length ++ nulStr t.schema ++ u8 t.table.length ++ nulStr t.table
    ++ lenEncInt t.columns.length ++ t.columns.map (fun c => UInt8.ofNat c.typeCode)
    ++ lenEncInt (t.columns.map ColKind.metaBytes).flatten.length
    ++ (t.columns.map ColKind.metaBytes).flatten ++ t.nullable

/-! ### rows -/

/-- one column of a row image: not logged, NULL, or a value -/
inductive Cell where
  | absent
  | null
  | value (v : Val)

def Cell.present : Cell → Bool
  | .absent => false
  | _ => true

def Cell.isNull : Cell → Bool
  | .null => true
  | _ => false

/-- the NULL bits of the logged columns -/
def nullBits (cells : List Cell) : List Bool := (cells.filter Cell.present).map Cell.isNull

/-- the values, one after the other -/
def storeCells : List ColKind → List Cell → List UInt8
  | k :: ks, .value v :: cs => storeVal k v ++ storeCells ks cs
  | _ :: ks, _ :: cs => storeCells ks cs
  | _, _ => []

/-- every value fits its column -/
def CellsFit : List ColKind → List Cell → Prop
  | [], [] => True
  | k :: ks, .value v :: cs => Fits k v ∧ CellsFit ks cs
  | _ :: ks, _ :: cs => CellsFit ks cs
  | _, _ => False

/-- one row image: the NULL bitmap of the logged columns, then the values -/
structure Image where
  cells : List Cell
  nullBitmap : List UInt8

def Image.encode (kinds : List ColKind) (r : Image) : List UInt8 := r.nullBitmap ++ storeCells kinds r.cells

/-- an image of a table's row in which the columns marked in `present` are logged -/
def Image.Ok (kinds : List ColKind) (present : List Bool) (r : Image) : Prop :=
  CellsFit kinds r.cells ∧ r.cells.map Cell.present = present ∧ Covers r.nullBitmap (nullBits r.cells)

/-- the payload of a write or delete rows event (version 2) after the table id, flags and the length of the
extra data: extra data, column count, bitmap of logged columns, rows -/
def rowsPayload (kinds : List ColKind) (extra presentBm : List UInt8) (rows : List Image) : List UInt8 :=
  extra ++ lenEncInt kinds.length ++ presentBm ++ (rows.map (Image.encode kinds)).flatten

/-- the payload of an update rows event: each row has an image before and one after the change, with a
bitmap of logged columns for each -/
def updatePayload (kinds : List ColKind) (extra beforeBm afterBm : List UInt8) (rows : List (Image × Image)) :
    List UInt8 :=
  extra ++ lenEncInt kinds.length ++ beforeBm ++ afterBm
    ++ (rows.map fun r => r.1.encode kinds ++ r.2.encode kinds).flatten

end Mybin.Spec
