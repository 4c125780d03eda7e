/-
SHA-1 and SHA-256 (FIPS 180-4), on natural numbers below 2^32. Used to evaluate examples of the server's password
checks; no theorem about hash functions is assumed.
-/
import Verif.Spec.Wire

namespace Mybin.Spec.Sha

def w32 (n : Nat) : Nat := n % 2 ^ 32
def rotl (k n : Nat) : Nat := w32 (n <<< k) ||| (n >>> (32 - k))
def rotr (k n : Nat) : Nat := rotl (32 - k) n
def notw (n : Nat) : Nat := n ^^^ 0xffffffff

/-- padding: a 1 bit, zeros, the length in bits on 8 bytes -/
def pad (m : List UInt8) : List UInt8 :=
  m ++ [0x80] ++ List.replicate ((119 - m.length % 64) % 64) 0 ++ be 8 (8 * m.length)

/-- `n` big-endian words -/
def words : Nat → List UInt8 → List Nat
  | n + 1, a :: b :: c :: d :: t =>
    (((a.toNat * 256 + b.toNat) * 256 + c.toNat) * 256 + d.toNat) :: words n t
  | _, _ => []

/-- blocks of 16 words; the first argument bounds their number -/
def blocks : Nat → List Nat → List (List Nat)
  | 0, _ => []
  | n + 1, ws => if ws.isEmpty then [] else ws.take 16 :: blocks n (ws.drop 16)

def messageBlocks (m : List UInt8) : List (List Nat) :=
  let p := pad m
  blocks p.length (words p.length p)

def toBytes (ws : List Nat) : List UInt8 := (ws.map (be 4)).flatten

/-! ### SHA-1 -/

/-- schedule, newest word first -/
def extend1 : Nat → List Nat → List Nat
  | 0, r => r
  | n + 1, r => extend1 n (rotl 1 (r.getD 2 0 ^^^ r.getD 7 0 ^^^ r.getD 13 0 ^^^ r.getD 15 0) :: r)

structure S5 where
  (a b c d e : Nat)

def round1 (t : Nat) (s : S5) (w : Nat) : S5 :=
  let (f, k) :=
    if t < 20 then ((s.b &&& s.c) ||| (notw s.b &&& s.d), 0x5a827999)
    else if t < 40 then (s.b ^^^ s.c ^^^ s.d, 0x6ed9eba1)
    else if t < 60 then ((s.b &&& s.c) ||| (s.b &&& s.d) ||| (s.c &&& s.d), 0x8f1bbcdc)
    else (s.b ^^^ s.c ^^^ s.d, 0xca62c1d6)
  ⟨w32 (rotl 5 s.a + f + s.e + k + w), s.a, rotl 30 s.b, s.c, s.d⟩

def rounds1 : Nat → S5 → List Nat → S5
  | _, s, [] => s
  | t, s, w :: ws => rounds1 (t + 1) (round1 t s w) ws

def block1 (s : S5) (b : List Nat) : S5 :=
  let r := rounds1 0 s (extend1 64 b.reverse).reverse
  ⟨w32 (s.a + r.a), w32 (s.b + r.b), w32 (s.c + r.c), w32 (s.d + r.d), w32 (s.e + r.e)⟩

def sha1 (m : List UInt8) : List UInt8 :=
  let s := (messageBlocks m).foldl block1 ⟨0x67452301, 0xefcdab89, 0x98badcfe, 0x10325476, 0xc3d2e1f0⟩
  toBytes [s.a, s.b, s.c, s.d, s.e]

theorem toBytes_length (ws : List Nat) : (toBytes ws).length = 4 * ws.length := by
  induction ws with
  | nil => rfl
  | cons w ws ih =>
    have : toBytes (w :: ws) = be 4 w ++ toBytes ws := rfl
    rw [this, List.length_append, ih, List.length_cons]
    rw [show (be 4 w).length = 4 from rfl]
    omega

theorem sha1_length (m : List UInt8) : (sha1 m).length = 20 := by
  unfold sha1
  rw [toBytes_length]
  rfl

/-! ### SHA-256 -/

def k256 : List Nat :=
  [0x428a2f98, 0x71374491, 0xb5c0fbcf, 0xe9b5dba5, 0x3956c25b, 0x59f111f1,
   0x923f82a4, 0xab1c5ed5, 0xd807aa98, 0x12835b01, 0x243185be, 0x550c7dc3,
   0x72be5d74, 0x80deb1fe, 0x9bdc06a7, 0xc19bf174, 0xe49b69c1, 0xefbe4786,
   0x0fc19dc6, 0x240ca1cc, 0x2de92c6f, 0x4a7484aa, 0x5cb0a9dc, 0x76f988da,
   0x983e5152, 0xa831c66d, 0xb00327c8, 0xbf597fc7, 0xc6e00bf3, 0xd5a79147,
   0x06ca6351, 0x14292967, 0x27b70a85, 0x2e1b2138, 0x4d2c6dfc, 0x53380d13,
   0x650a7354, 0x766a0abb, 0x81c2c92e, 0x92722c85, 0xa2bfe8a1, 0xa81a664b,
   0xc24b8b70, 0xc76c51a3, 0xd192e819, 0xd6990624, 0xf40e3585, 0x106aa070,
   0x19a4c116, 0x1e376c08, 0x2748774c, 0x34b0bcb5, 0x391c0cb3, 0x4ed8aa4a,
   0x5b9cca4f, 0x682e6ff3, 0x748f82ee, 0x78a5636f, 0x84c87814, 0x8cc70208,
   0x90befffa, 0xa4506ceb, 0xbef9a3f7, 0xc67178f2]

/-- schedule, newest word first -/
def extend2 : Nat → List Nat → List Nat
  | 0, r => r
  | n + 1, r =>
    let x := r.getD 1 0
    let y := r.getD 14 0
    extend2 n (w32 ((rotr 17 x ^^^ rotr 19 x ^^^ x >>> 10) + r.getD 6 0
      + (rotr 7 y ^^^ rotr 18 y ^^^ y >>> 3) + r.getD 15 0) :: r)

structure S8 where
  (a b c d e f g h : Nat)

def round2 (s : S8) (kw : Nat × Nat) : S8 :=
  let t1 := w32 (s.h + (rotr 6 s.e ^^^ rotr 11 s.e ^^^ rotr 25 s.e) + ((s.e &&& s.f) ^^^ (notw s.e &&& s.g))
    + kw.1 + kw.2)
  let t2 := (rotr 2 s.a ^^^ rotr 13 s.a ^^^ rotr 22 s.a) + ((s.a &&& s.b) ^^^ (s.a &&& s.c) ^^^ (s.b &&& s.c))
  ⟨w32 (t1 + t2), s.a, s.b, s.c, w32 (s.d + t1), s.e, s.f, s.g⟩

def block2 (s : S8) (b : List Nat) : S8 :=
  let r := (k256.zip (extend2 48 b.reverse).reverse).foldl round2 s
  ⟨w32 (s.a + r.a), w32 (s.b + r.b), w32 (s.c + r.c), w32 (s.d + r.d), w32 (s.e + r.e), w32 (s.f + r.f),
    w32 (s.g + r.g), w32 (s.h + r.h)⟩

def sha256 (m : List UInt8) : List UInt8 :=
  let s := (messageBlocks m).foldl block2
    ⟨0x6a09e667, 0xbb67ae85, 0x3c6ef372, 0xa54ff53a,
      0x510e527f, 0x9b05688c, 0x1f83d9ab, 0x5be0cd19⟩
  toBytes [s.a, s.b, s.c, s.d, s.e, s.f, s.g, s.h]

theorem sha256_length (m : List UInt8) : (sha256 m).length = 32 := by
  unfold sha256
  rw [toBytes_length]
  rfl

/-- test vector of FIPS 180 -/
example : sha1 [97, 98, 99] = [169, 153, 62, 54, 71, 6, 129, 106, 186, 62, 37, 113, 120, 80, 194, 108, 156, 208,
      216, 157] := by decide +kernel

/-- test vector of FIPS 180 -/
example : sha256 [97, 98, 99] = [186, 120, 22, 191, 143, 1, 207, 234, 65, 65, 64, 222, 93, 174, 34, 35, 176, 3,
      97, 163, 150, 23, 122, 156, 180, 16, 255, 97, 242, 0, 21, 173] := by decide +kernel

/-- test vector of FIPS 180 -/
example : sha1 [] = [218, 57, 163, 238, 94, 107, 75, 13, 50, 85, 191, 239, 149, 96, 24, 144, 175, 216, 7, 9] :=
      by decide +kernel

/-- test vector of FIPS 180 -/
example : sha256 [] = [227, 176, 196, 66, 152, 252, 28, 20, 154, 251, 244, 200, 153, 111, 185, 36, 39, 174, 65,
      228, 100, 155, 147, 76, 164, 149, 153, 27, 120, 82, 184, 85] := by decide +kernel

/-- test vector of FIPS 180 -/
example : sha1 [97, 98, 99, 100, 98, 99, 100, 101, 99, 100, 101, 102, 100, 101, 102, 103, 101, 102, 103, 104,
      102, 103, 104, 105, 103, 104, 105, 106, 104, 105, 106, 107, 105, 106, 107, 108, 106, 107, 108, 109, 107,
      108, 109, 110, 108, 109, 110, 111, 109, 110, 111, 112, 110, 111, 112, 113] = [132, 152, 62, 68, 28, 59,
      210, 110, 186, 174, 74, 161, 249, 81, 41, 229, 229, 70, 112, 241] := by decide +kernel

/-- test vector of FIPS 180 -/
example : sha256 [97, 98, 99, 100, 98, 99, 100, 101, 99, 100, 101, 102, 100, 101, 102, 103, 101, 102, 103, 104,
      102, 103, 104, 105, 103, 104, 105, 106, 104, 105, 106, 107, 105, 106, 107, 108, 106, 107, 108, 109, 107,
      108, 109, 110, 108, 109, 110, 111, 109, 110, 111, 112, 110, 111, 112, 113] = [36, 141, 106, 97, 210, 6,
      56, 184, 229, 192, 38, 147, 12, 62, 96, 57, 163, 60, 228, 89, 100, 255, 33, 103, 246, 236, 237, 212, 25,
      219, 6, 193] := by decide +kernel

end Mybin.Spec.Sha
