/-
Model of the standard library's UTF-8 validation (`std::str::from_utf8`, `String::from_utf8`), which the
decoders call before producing a `String`. A Rust `String`/`&str` is modelled by its bytes. This is a
model of `std`, not of code in the repository; it follows Unicode Table 3-7 (well-formed byte
sequences), the definition `std` documents.
-/
import Verif.Model.Parser

namespace Mybin

/-- continuation byte `10xxxxxx` -/
def isCont (b : UInt8) : Bool := 0x80 ≤ b && b ≤ 0xbf

/-- `std::str::from_utf8(bs).is_ok()` -/
def validUtf8 : Bytes → Bool
  | [] => true
  | b :: t =>
    if b ≤ 0x7f then validUtf8 t
    else if 0xc2 ≤ b && b ≤ 0xdf then
      match t with
      | c1 :: t1 => isCont c1 && validUtf8 t1
      | _ => false
    else if 0xe0 ≤ b && b ≤ 0xef then
      match t with
      | c1 :: c2 :: t2 =>
        (if b = 0xe0 then 0xa0 ≤ c1 && c1 ≤ 0xbf
         else if b = 0xed then 0x80 ≤ c1 && c1 ≤ 0x9f else isCont c1) && isCont c2 && validUtf8 t2
      | _ => false
    else if 0xf0 ≤ b && b ≤ 0xf4 then
      match t with
      | c1 :: c2 :: c3 :: t3 =>
        (if b = 0xf0 then 0x90 ≤ c1 && c1 ≤ 0xbf
         else if b = 0xf4 then 0x80 ≤ c1 && c1 ≤ 0x8f else isCont c1)
          && isCont c2 && isCont c3 && validUtf8 t3
      | _ => false
    else false

/-- `String::from_utf8(bs)?` -/
def toUtf8 (bs : Bytes) : P Bytes := if validUtf8 bs then pure bs else P.fail .utf8

end Mybin
