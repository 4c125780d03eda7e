/-
C04/C05 length-encoded integers; C06 length-encoded strings; C07 read_len / read_until.
-/
import Verif.Lemmas.MyEnc

namespace Mybin

/-! ### C04 -/

/-- C04, for every 64-bit number except 251: the bytes appended are the protocol's encoding of `n`,
the returned length is their number, and decoding them gives back `n` (not NULL, not ERR) with the
trailing input untouched. Missing: `n = 251`, where the claim is false (`C04_false`). -/
theorem C04_len_enc_int_round_trip_partial (n : Nat) (hn : n < 2 ^ 64) (h251 : n ≠ 251) :
    ∃ enc : Bytes, enc = Spec.lenEncInt n ∧
      (∀ out, (LenEncInt.ofU64 n).writeTo out = (out ++ enc, enc.length)) ∧
      ∀ rest, ∃ v, readLenEncInt (enc ++ rest) = .ok v rest ∧ v.toU64 = some n ∧
        v ≠ .null ∧ v ≠ .err ∧ (n < 2 ^ 32 → v.toU32 = some n) := by
  refine ⟨_, rfl, fun out => writeLei_spec out n h251, fun rest => ?_⟩
  refine ⟨canonLei n, readLenEncInt_spec n rest hn, canonLei_toU64 n, ?_, ?_, canonLei_toU32 n⟩
  · intro h; have := canonLei_toU64 n; rw [h] at this; cases this
  · intro h; have := canonLei_toU64 n; rw [h] at this; cases this

example : (300 : Nat) < 2 ^ 64 ∧ (300 : Nat) ≠ 251 := by decide
example : (LenEncInt.ofU64 300).writeTo [1] = ([1, 0xfc, 44, 1], 3) := by decide

/-- C04 is false: 251 is written as the single byte 0xfb, which decodes to the NULL marker. -/
theorem C04_false : ∃ n : Nat, n < 2 ^ 64 ∧ ∀ rest : Bytes,
    readLenEncInt (((LenEncInt.ofU64 n).writeTo []).1 ++ rest) = .ok .null rest := by
  refine ⟨251, by decide, fun rest => ?_⟩
  have : ((LenEncInt.ofU64 251).writeTo []).1 = [0xfb] := by decide
  rw [this]; rfl

/-- C04, markers -/
theorem C04_markers (out rest : Bytes) :
    LenEncInt.writeTo out .null = (out ++ [0xfb], 1) ∧
    readLenEncInt ([0xfb] ++ rest) = .ok .null rest ∧
    LenEncInt.writeTo out .err = (out ++ [0xff], 1) ∧
    readLenEncInt ([0xff] ++ rest) = .ok .err rest := ⟨rfl, rfl, rfl, rfl⟩

/-- C04, for a variant that a caller builds (`LenEncInt::Len1(255)`): written and read, it comes back exactly when the
one-byte variant holds no marker and the three-byte one holds at most three bytes. -/
theorem C04_variant (v : LenEncInt) (hv : v.InRange) (rest : Bytes) :
    readLenEncInt ((v.writeTo []).1 ++ rest) = .ok v rest ↔
      (∀ n, v = .len1 n → n ≤ 250) ∧ (∀ n, v = .len4 n → n < 2 ^ 24) := by
  cases v with
  | null => simp [LenEncInt.writeTo, readLenEncInt_fb]
  | err => simp [LenEncInt.writeTo, readLenEncInt_ff]
  | len1 n =>
    have hn : n < 256 := hv
    have hw : ((LenEncInt.len1 n).writeTo []).1 ++ rest = UInt8.ofNat n :: rest := by
      simp [LenEncInt.writeTo, leBytes, Nat.mod_eq_of_lt hn]
    have ht : (UInt8.ofNat n).toNat = n := by simp; omega
    rw [hw]
    constructor
    · intro h
      refine ⟨fun m hm => ?_, fun m hm => by cases hm⟩
      cases hm
      by_contra hc
      have : n = 251 ∨ n = 252 ∨ n = 253 ∨ n = 254 ∨ n = 255 := by omega
      rcases this with rfl | rfl | rfl | rfl | rfl
      · cases h
      · change readLenEncInt (0xfc :: rest) = _ at h
        rw [readLenEncInt_fc] at h
        cases hr : readLeU16 rest <;> rw [hr] at h <;> cases h
      · change readLenEncInt (0xfd :: rest) = _ at h
        rw [readLenEncInt_fd] at h
        cases hr : readLeU24 rest <;> rw [hr] at h <;> cases h
      · change readLenEncInt (0xfe :: rest) = _ at h
        rw [readLenEncInt_fe] at h
        cases hr : readLeU64 rest <;> rw [hr] at h <;> cases h
      · cases h
    · intro h
      rw [readLenEncInt_cons_len1 _ rest (by rw [ht]; have := h.1 n rfl; omega), ht]
  | len3 n =>
    have hn : n < 256 ^ 2 := hv
    have hw : ((LenEncInt.len3 n).writeTo []).1 ++ rest = 0xfc :: (leBytes 2 n ++ rest) := by simp [LenEncInt.writeTo]
    rw [hw, readLenEncInt_fc, show readLeU16 (leBytes 2 n ++ rest) = _ from
      (fixedRead_readFixed 2 leVal _).1 (by simp)]
    simp [leVal_leBytes, List.take_append, List.drop_append]
    omega
  | len4 n =>
    have hn : n < 2 ^ 32 := hv
    have hw : ((LenEncInt.len4 n).writeTo []).1 ++ rest = 0xfd :: (leBytes 3 n ++ rest) := by
      simp [LenEncInt.writeTo, take_leBytes 3 4 n (by omega)]
    rw [hw, readLenEncInt_fd, (fixedRead_leU24 _).1 (by simp)]
    simp [List.take_append, List.drop_append, leVal_leBytes]
  | len9 n =>
    have hn : n < 256 ^ 8 := lt_of_lt_of_eq hv (by norm_num)
    have hw : ((LenEncInt.len9 n).writeTo []).1 ++ rest = 0xfe :: (leBytes 8 n ++ rest) := by simp [LenEncInt.writeTo]
    rw [hw, readLenEncInt_fe, show readLeU64 (leBytes 8 n ++ rest) = _ from
      (fixedRead_readFixed 8 leVal _).1 (by simp)]
    simp [leVal_leBytes, List.take_append, List.drop_append]
    omega

example : (LenEncInt.len1 255).InRange ∧ (LenEncInt.len4 70000).InRange := ⟨by show 255 < 2 ^ 8; norm_num, by show 70000 < 2 ^ 32; norm_num⟩

/-! ### C05 -/

/-- how the protocol classifies the first byte of a length-encoded integer -/
inductive Spec.LeiHead where
  | literal (n : Nat)
  | null
  | err
  | following (k : Nat)
  deriving DecidableEq

/-- the protocol's table (MySQL internals, "Length-Encoded Integer") -/
def Spec.leiHead (b : UInt8) : Spec.LeiHead :=
  if b.toNat ≤ 250 then .literal b.toNat
  else if b.toNat = 251 then .null
  else if b.toNat = 252 then .following 2
  else if b.toNat = 253 then .following 3
  else if b.toNat = 254 then .following 8
  else .err

/-- C05: on every input. -/
theorem C05_len_enc_int_decoding (b : UInt8) (t : Bytes) :
    readLenEncInt [] = .err (.incomplete none) [] ∧
    match Spec.leiHead b with
    | .literal n => ∃ v, readLenEncInt (b :: t) = .ok v t ∧ v.toU64 = some n
    | .null => readLenEncInt (b :: t) = .ok .null t
    | .err => readLenEncInt (b :: t) = .ok .err t
    | .following k =>
      (k ≤ t.length → ∃ v, readLenEncInt (b :: t) = .ok v (t.drop k) ∧
        v.toU64 = some (Spec.leNat (t.take k))) ∧
      (t.length < k → readLenEncInt (b :: t) = .err (.incomplete (some (k - t.length))) t) := by
  refine ⟨rfl, ?_⟩
  have hb := b.toNat_lt
  have hof : ∀ k : Nat, b.toNat = k → b = UInt8.ofNat k := fun k h => by rw [← h]; simp
  unfold Spec.leiHead
  split_ifs with h1 h2 h3 h4 h5
  · exact ⟨_, readLenEncInt_cons_len1 b t (by omega), rfl⟩
  · rw [hof _ h2]; rfl
  · rw [hof _ h3]
    show (_ → ∃ v, readLenEncInt (0xfc :: t) = _ ∧ _) ∧ (_ → readLenEncInt (0xfc :: t) = _)
    rw [readLenEncInt_fc]
    constructor
    · intro hk
      exact ⟨_, by rw [show readLeU16 t = _ from (fixedRead_readFixed 2 leVal t).1 hk]; rfl,
        by simp [leVal_eq_spec]⟩
    · intro hk; rw [show readLeU16 t = _ from (fixedRead_readFixed 2 leVal t).2 hk]; rfl
  · rw [hof _ h4]
    show (_ → ∃ v, readLenEncInt (0xfd :: t) = _ ∧ _) ∧ (_ → readLenEncInt (0xfd :: t) = _)
    rw [readLenEncInt_fd]
    constructor
    · intro hk
      exact ⟨_, by rw [(fixedRead_leU24 t).1 hk]; rfl, by simp [leVal_eq_spec]⟩
    · intro hk; rw [(fixedRead_leU24 t).2 hk]; rfl
  · rw [hof _ h5]
    show (_ → ∃ v, readLenEncInt (0xfe :: t) = _ ∧ _) ∧ (_ → readLenEncInt (0xfe :: t) = _)
    rw [readLenEncInt_fe]
    constructor
    · intro hk
      exact ⟨_, by rw [show readLeU64 t = _ from (fixedRead_readFixed 8 leVal t).1 hk]; rfl,
        by simp [leVal_eq_spec]⟩
    · intro hk; rw [show readLeU64 t = _ from (fixedRead_readFixed 8 leVal t).2 hk]; rfl
  · rw [hof 255 (by omega)]; rfl

example : readLenEncInt [0xfd, 1, 2, 3, 9] = .ok (.len4 0x030201) [9] := by decide
example : readLenEncInt [0xfd, 1] = .err (.incomplete (some 2)) [1] := by decide

/-- C05: what has been decoded, written again, is the bytes it was decoded from; and the value fits the Rust type of its
variant. -/
theorem C05_reencode (bs rest : Bytes) (v : LenEncInt) (h : readLenEncInt bs = .ok v rest) :
    v.InRange ∧ ((v.writeTo []).1 ++ rest = bs) ∧ (v.writeTo []).2 + rest.length = bs.length := by
  cases bs with
  | nil => cases h
  | cons b t =>
    have hb := b.toNat_lt
    have hof : ∀ k : Nat, b.toNat = k → b = UInt8.ofNat k := fun k h => by rw [← h]; simp
    have hlen : ∀ k, k ≤ t.length → (t.take k).length = k := fun k hk => by simp [hk]
    have hle : ∀ k, k ≤ t.length → leBytes k (leVal (t.take k)) = t.take k := fun k hk => by
      have := leBytes_leVal (t.take k)
      rwa [hlen k hk] at this
    have hlt : ∀ k, k ≤ t.length → leVal (t.take k) < 256 ^ k := fun k hk => by
      have := leVal_lt (t.take k)
      rwa [hlen k hk] at this
    by_cases h1 : b.toNat < 251
    · rw [readLenEncInt_cons_len1 b t h1] at h
      cases h
      refine ⟨by show b.toNat < 2 ^ 8; omega, ?_, ?_⟩
      · show [] ++ leBytes 1 b.toNat ++ rest = b :: rest
        rw [show leBytes 1 b.toNat = [b] by simp [leBytes]]; rfl
      · simp [LenEncInt.writeTo]; omega
    · have : b.toNat = 251 ∨ b.toNat = 252 ∨ b.toNat = 253 ∨ b.toNat = 254 ∨ b.toNat = 255 := by omega
      rcases this with hk | hk | hk | hk | hk <;> have hbk := hof _ hk <;> subst hbk
      · cases h
        exact ⟨trivial, rfl, by simp [LenEncInt.writeTo]; omega⟩
      · change readLenEncInt (0xfc :: t) = _ at h
        rw [readLenEncInt_fc] at h
        by_cases hk : 2 ≤ t.length
        · rw [show readLeU16 t = _ from (fixedRead_readFixed 2 leVal t).1 hk] at h
          cases h
          refine ⟨hlt 2 hk, ?_, ?_⟩
          · show [] ++ [0xfc] ++ leBytes 2 (leVal (t.take 2)) ++ t.drop 2 = _
            rw [hle 2 hk]; simp
          · simp [LenEncInt.writeTo]; omega
        · rw [show readLeU16 t = _ from (fixedRead_readFixed 2 leVal t).2 (by omega)] at h
          cases h
      · change readLenEncInt (0xfd :: t) = _ at h
        rw [readLenEncInt_fd] at h
        by_cases hk : 3 ≤ t.length
        · rw [(fixedRead_leU24 t).1 hk] at h
          cases h
          refine ⟨lt_trans (hlt 3 hk) (by norm_num), ?_, ?_⟩
          · show [] ++ [0xfd] ++ (leBytes 4 (leVal (t.take 3))).take 3 ++ t.drop 3 = _
            rw [take_leBytes 3 4 _ (by omega), hle 3 hk]; simp
          · simp [LenEncInt.writeTo]; omega
        · rw [(fixedRead_leU24 t).2 (by omega)] at h
          cases h
      · change readLenEncInt (0xfe :: t) = _ at h
        rw [readLenEncInt_fe] at h
        by_cases hk : 8 ≤ t.length
        · rw [show readLeU64 t = _ from (fixedRead_readFixed 8 leVal t).1 hk] at h
          cases h
          refine ⟨lt_of_lt_of_eq (hlt 8 hk) (by norm_num), ?_, ?_⟩
          · show [] ++ [0xfe] ++ leBytes 8 (leVal (t.take 8)) ++ t.drop 8 = _
            rw [hle 8 hk]; simp
          · simp [LenEncInt.writeTo]; omega
        · rw [show readLeU64 t = _ from (fixedRead_readFixed 8 leVal t).2 (by omega)] at h
          cases h
      · cases h
        exact ⟨trivial, rfl, by simp [LenEncInt.writeTo]; omega⟩

example : readLenEncInt [0xfe, 1, 0, 0, 0, 0, 0, 0, 0x80, 7] = .ok (.len9 0x8000000000000001) [7] := by decide

/-! ### C06 -/

/-- C06, for every byte string whose length is not exactly 251 (the false case, `C06_false`):
the protocol's encoding is appended, the returned length is the number of bytes appended, and reading
returns the same string and the trailing input. -/
theorem C06_len_enc_str_round_trip_partial (s : Bytes) (hs : s.length < 2 ^ 64)
    (h251 : s.length ≠ 251) :
    ∃ enc : Bytes, enc = Spec.lenEncStr s ∧
      (∀ out, LenEncStr.writeTo out (.bytes s) = (out ++ enc, enc.length)) ∧
      ∀ rest, readLenEncStr (enc ++ rest) = .ok (.bytes s) rest := by
  refine ⟨_, rfl, fun out => ?_, fun rest => readLenEncStr_spec s rest hs⟩
  simp [LenEncStr.writeTo, writeLei_spec out s.length h251, Spec.lenEncStr]

example : readLenEncStr ((LenEncStr.writeTo [] (.bytes [1, 2, 3])).1 ++ [9])
    = .ok (.bytes [1, 2, 3]) [9] := by decide

/-- C06, NULL and ERR markers round-trip. -/
theorem C06_markers (out rest : Bytes) :
    LenEncStr.writeTo out .null = (out ++ [0xfb], 1) ∧
    readLenEncStr ([0xfb] ++ rest) = .ok .null rest ∧
    LenEncStr.writeTo out .err = (out ++ [0xff], 1) ∧
    readLenEncStr ([0xff] ++ rest) = .ok .err rest := ⟨rfl, rfl, rfl, rfl⟩

/-- C06 is false for every string of length 251: it reads back as NULL, with the string itself left
in the input. -/
theorem C06_false (s rest : Bytes) (hs : s.length = 251) :
    readLenEncStr ((LenEncStr.writeTo [] (.bytes s)).1 ++ rest) = .ok .null (s ++ rest) := by
  have : (LenEncStr.writeTo [] (.bytes s)).1 = 0xfb :: s := by
    have h : (LenEncInt.ofU64 251).writeTo [] = ([0xfb], 1) := by decide
    simp [LenEncStr.writeTo, hs, h]
  rw [this]; rfl

example : (List.replicate 251 (7 : UInt8)).length = 251 := List.length_replicate

/-! ### C07 -/

/-- C07, `read_len`. -/
theorem C07_read_len (n : Nat) (bs : Bytes) :
    (n ≤ bs.length → ∃ x rest, readLen n bs = .ok x rest ∧ bs = x ++ rest ∧ x.length = n) ∧
    (bs.length < n → readLen n bs = .err (.incomplete (some (n - bs.length))) bs) := by
  constructor
  · intro h
    exact ⟨bs.take n, bs.drop n, by simp [readLen, Nat.not_lt.mpr h], by simp, by simp [h]⟩
  · intro h; simp [readLen, h]

/-- C07, `read_until`: the input splits at the *first* occurrence of `b`. -/
theorem C07_read_until (b : UInt8) (bs : Bytes) :
    (b ∈ bs → ∃ x rest, bs = x ++ [b] ++ rest ∧ b ∉ x ∧
      readUntil b false bs = .ok x rest ∧ readUntil b true bs = .ok (x ++ [b]) rest) ∧
    (b ∉ bs → ∀ incl, readUntil b incl bs = .err (.incomplete none) bs) := by
  constructor
  · intro h
    obtain ⟨x, rest, hx, e⟩ := List.eq_append_cons_of_mem h
    subst hx
    exact ⟨x, rest, by simp, e, readUntil_append b x rest e, readUntil_append_incl b x rest e⟩
  · intro h incl; exact readUntil_none b incl bs h

example : readUntil 0 false [5, 6, 0, 7, 0] = .ok [5, 6] [7, 0] := by decide
example : readUntil 0 true [5, 6, 0, 7, 0] = .ok [5, 6, 0] [7, 0] := by decide

end Mybin
