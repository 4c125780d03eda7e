/-
Floating-point numbers as text: the library functions behind `to_string()` of an `f32` and an `f64` in SQL literals
(`mybin-core/src/stmt.rs` 149-150), behind the numbers of JSON records (`serde_json`, which writes them with `ryu`; json.rs
144-145) and behind `str::parse::<f32>` and `str::parse::<f64>` (util.rs 9-27, resultset.rs 159-161). Modelled from their
documentation, not from their algorithms: the text has the least number of digits that is read as the same float, and of these
the nearest to it; a numeral is read as the nearest float, the even one of two. A float is its bit pattern.
-/
import Verif.Model.Sql
import Verif.Model.Convert

namespace Mybin

/-- a binary format of IEEE 754: the number of bits of the fraction and of the exponent -/
structure FloatFmt where
  frac : Nat
  exp : Nat

/-- `f32` -/
def f32Fmt : FloatFmt := ⟨23, 8⟩
/-- `f64` -/
def f64Fmt : FloatFmt := ⟨52, 11⟩

namespace FloatFmt

/-- the smallest positive number is two to the power of minus this -/
def scale (f : FloatFmt) : Nat := 2 ^ (f.exp - 1) - 2 + f.frac

/-- the bit pattern of infinity -/
def top (f : FloatFmt) : Nat := (2 ^ f.exp - 1) * 2 ^ f.frac

/-- the bit of the sign -/
def signBit (f : FloatFmt) : Nat := 2 ^ (f.frac + f.exp)

/-- the magnitude of a number without sign, counted in smallest positive numbers -/
def mag (f : FloatFmt) (n : Nat) : Nat :=
  if n / 2 ^ f.frac = 0 then n % 2 ^ f.frac else (2 ^ f.frac + n % 2 ^ f.frac) * 2 ^ (n / 2 ^ f.frac - 1)

/-! ### writing -/

/-- `i / 10 ^ s` is read as the float `n` -/
def inside (f : FloatFmt) (n i s : Nat) : Bool :=
  let x := i * 2 ^ (f.scale + 1)
  let lo := (f.mag (n - 1) + f.mag n) * 10 ^ s
  let hi := (f.mag n + f.mag (n + 1)) * 10 ^ s
  if n % 2 = 0 then decide (lo ≤ x ∧ x ≤ hi) else decide (lo < x ∧ x < hi)

/-- the place of the first digit of a number: `p` when it is at least `10 ^ p` and less than `10 ^ (p + 1)` -/
def place (f : FloatFmt) (n : Nat) : Int :=
  let v := f.mag n
  let one := 2 ^ f.scale
  if one ≤ v then ((natText (v / one)).length : Int) - 1 else -((natText ((one + v - 1) / v - 1)).length : Int)

/-- a decimal number `d * 10 ^ e`, written with an integer and a number of digits after the point -/
def fixed (d : Nat) (e : Int) : Nat × Nat := if 0 ≤ e then (d * 10 ^ e.toNat, 0) else (d, (-e).toNat)

/-- the two numbers of `k` digits around a float, the nearer one first -/
def around (f : FloatFmt) (n k : Nat) : List (Nat × Int) :=
  let e := f.place n + 1 - k
  let num := f.mag n * 10 ^ (-e).toNat
  let den := 2 ^ f.scale * 10 ^ e.toNat
  let d := num / den
  let up : Nat × Int := if d + 1 = 10 ^ k then (1, e + k) else (d + 1, e)
  if 2 * num ≤ (2 * d + 1) * den then [(d, e), up] else [up, (d, e)]

/-- The shortest digits that are read as the float, and their exponent: 17 digits are enough (`shortest_found`). The
default is never used. -/
def shortest (f : FloatFmt) (n : Nat) : Nat × Int :=
  ((List.range 17).findSome? fun k => (f.around n (k + 1)).find? fun x =>
    f.inside n (fixed x.1 x.2).1 (fixed x.1 x.2).2).getD (f.mag n * 5 ^ f.scale, -(f.scale : Int))

/-- an integer with a point before its last `s` digits -/
def pointText (i s : Nat) : Bytes :=
  if s = 0 then natText i
  else
    let t := padText (s + 1) i
    t.take (t.length - s) ++ asc "." ++ t.drop (t.length - s)

/-- stmt.rs:149-150 (`to_string`): no exponent, whatever the number. `z`: a negative zero has a sign, as from Rust 1.53
on. -/
def display (f : FloatFmt) (z : Bool) (n : Nat) : Bytes :=
  let neg := n / f.signBit = 1
  let m := n % f.signBit
  if f.top < m then asc "NaN"
  else if m = 0 then (if neg ∧ z then asc "-0" else asc "0")
  else (if neg then asc "-" else []) ++
    (if m = f.top then asc "inf" else let x := fixed (f.shortest m).1 (f.shortest m).2; pointText x.1 x.2)

end FloatFmt

/-- the texts of floats in SQL literals -/
def rustFloats (z : Bool) : FloatText := ⟨f32Fmt.display z, f64Fmt.display z⟩

/-- `ryu`: `format64` of its module `pretty`, for finite numbers -/
def ryuText (n : Nat) : Bytes :=
  let m := n % 2 ^ 63
  (if n / 2 ^ 63 = 1 then asc "-" else []) ++
    if m = 0 then asc "0.0"
    else
      let d := natText (f64Fmt.shortest m).1
      let k := (f64Fmt.shortest m).2
      let kk := d.length + k
      if 0 ≤ k ∧ kk ≤ 16 then d ++ List.replicate k.toNat 0x30 ++ asc ".0"
      else if 0 < kk ∧ kk ≤ 16 then d.take kk.toNat ++ asc "." ++ d.drop kk.toNat
      else if -5 < kk ∧ kk ≤ 0 then asc "0." ++ List.replicate (-kk).toNat 0x30 ++ d
      else if d.length = 1 then d ++ asc "e" ++ intText (kk - 1)
      else d.take 1 ++ asc "." ++ d.drop 1 ++ asc "e" ++ intText (kk - 1)

/-! ### reading -/

/-- the float nearest to `num / den` smallest positive numbers; infinity when it is too large -/
def FloatFmt.round (f : FloatFmt) (num den : Nat) : Nat :=
  let q := num / den
  let e := if q < 2 ^ (f.frac + 1) then 0 else Nat.log2 q - f.frac
  let n := e * 2 ^ f.frac + q / 2 ^ e
  if f.top ≤ n then f.top
  else
    let mid := (f.mag n + f.mag (n + 1)) * den
    if 2 * num < mid ∨ (2 * num = mid ∧ n % 2 = 0) then n else n + 1

/-- the digits at the front -/
def frontDigits (s : Bytes) : Bytes × Bytes := s.span fun b => decide (0x30 ≤ b) && decide (b ≤ 0x39)

/-- the exponent of a numeral, up to the end: `e` or `E`, an optional sign and digits -/
def parseExponent : Bytes → Option Int
  | [] => some 0
  | b :: t =>
    if b = 0x65 ∨ b = 0x45 then
      let ds := if t.head? = some 0x2b ∨ t.head? = some 0x2d then t.tail else t
      if ds = [] then none
      else (parseDigits 0 ds).map fun n : Nat => if t.head? = some 0x2d then -(n : Int) else n
    else none

/-- a numeral without its sign: its digits as one integer, and the exponent -/
def parseNumeral (s : Bytes) : Option (Nat × Int) :=
  let w := frontDigits s
  let fr := if w.2.head? = some 0x2e then frontDigits w.2.tail else ([], w.2)
  if w.1 = [] ∧ fr.1 = [] then none
  else (parseDigits 0 (w.1 ++ fr.1)).bind fun n => (parseExponent fr.2).map fun e => (n, e - fr.1.length)

/-- `str::parse::<f32>`, `str::parse::<f64>` (library): an optional sign, then a numeral. `names`: the names of infinity and
NaN, which differ between versions of Rust. -/
def parseFloat (f : FloatFmt) (names : Bytes → Option Nat) (s : Bytes) : Option Nat :=
  let t := if s.head? = some 0x2b ∨ s.head? = some 0x2d then s.tail else s
  (match parseNumeral t with
    | some (n, e) => some (f.round (n * 10 ^ e.toNat * 2 ^ f.scale) (10 ^ (-e).toNat))
    | none => names t).map fun n => if s.head? = some 0x2d then n + f.signBit else n

/-- util.rs:9-27 and resultset.rs:159-161 for `f32` -/
def f32FromText (names : Bytes → Option Nat) : Conv (Option Bytes) Nat := fromText (parseFloat f32Fmt names)
/-- util.rs:9-27 and resultset.rs:159-161 for `f64` -/
def f64FromText (names : Bytes → Option Nat) : Conv (Option Bytes) Nat := fromText (parseFloat f64Fmt names)

end Mybin
