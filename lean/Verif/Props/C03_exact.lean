/-
C03, C04, C06, C17, C48 and C66, exactly: for which inputs the claims hold.
-/
import Verif.Props.C01_C03
import Verif.Props.C04_C07
import Verif.Props.C17_C18
import Verif.Props.C33_C47_C48
import Verif.Props.C66_C69

namespace Mybin

/-- C02, exactly: reading a DOUBLE panics if and only if five, six or seven bytes are left. -/
theorem C02_f64_panic_iff (bs : Bytes) : readLeF64 bs = .panic ↔ 4 < bs.length ∧ bs.length < 8 := by
  refine ⟨fun h => ?_, fun h => C02_f64_short_panics_false bs h.1 h.2⟩
  obtain ⟨h1, h2⟩ := C02_f64_partial bs
  constructor
  · by_contra hc
    rw [h2 (by omega)] at h; cases h
  · by_contra hc
    rw [h1 (by omega)] at h; cases h

example : readLeF64 [1, 2, 3, 4, 5] = .panic := by rw [C02_f64_panic_iff]; decide

theorem ends_eq (a b c : Nat) (ha : a < 256) (hb : b < 256) (hc : c < 256)
    (h : (a + 256 * (b + 256 * (c + 256 * 0))) % 2 ^ 24 = (((0 * 256 + a) * 256 + b) * 256 + c) % 2 ^ 24) :
    a = c := by
  rw [Nat.mod_eq_of_lt (by omega), Nat.mod_eq_of_lt (by omega)] at h
  omega

/-- C03, exactly: `read_be_i24` returns the big-endian value if and only if the first byte is the third;
`read_be_i40` does if and only if the value is not negative. -/
theorem C03_be_iff (a b c d e : UInt8) (rest : Bytes) :
    (readBeI24 (a :: b :: c :: rest) = .ok (Spec.twos 24 (Spec.beNat [a, b, c])) rest ↔ a = c) ∧
    (readBeI40 (a :: b :: c :: d :: e :: rest) = .ok (Spec.twos 40 (Spec.beNat [a, b, c, d, e])) rest ↔
      0 ≤ Spec.twos 40 (Spec.beNat [a, b, c, d, e])) := by
  have ha := a.toNat_lt
  have hb := b.toNat_lt
  have hc := c.toNat_lt
  have hd := d.toNat_lt
  have he := e.toNat_lt
  constructor
  · rw [(C03_be_i24_actual (a :: b :: c :: rest)).1 (by simp)]
    simp only [List.take_succ_cons, List.take_zero, List.drop_succ_cons, List.drop_zero, R.ok.injEq, and_true]
    constructor
    · intro h
      apply UInt8.toNat_inj.1
      simp only [Spec.twos] at h
      have h2 := congrArg (· % ((2 ^ 24 : Nat) : Int)) h
      simp only [Int.bmod_emod] at h2
      have h3 : Spec.leNat [a, b, c] % 2 ^ 24 = Spec.beNat [a, b, c] % 2 ^ 24 := by exact_mod_cast h2
      simp only [Spec.beNat, Spec.leNat, List.foldr_cons, List.foldr_nil, List.foldl_cons,
        List.foldl_nil] at h3
      exact ends_eq _ _ _ (by omega) (by omega) (by omega) h3
    · intro h
      subst h
      have : Spec.leNat [a, b, a] = Spec.beNat [a, b, a] := by
        simp only [Spec.beNat, Spec.leNat, List.foldr_cons, List.foldr_nil, List.foldl_cons, List.foldl_nil]
        omega
      rw [this]
  · rw [(C03_be_i40_partial (a :: b :: c :: d :: e :: rest)).1 (by simp)]
    simp only [List.take_succ_cons, List.take_zero, List.drop_succ_cons, List.drop_zero, R.ok.injEq, and_true]
    simp only [Spec.twos, Spec.beNat, List.foldl_cons, List.foldl_nil, Int.bmod, Nat.reducePow]
    omega

example : readBeI24 [7, 1, 7] = .ok (7 * 65536 + 256 + 7) [] := by decide

/-- C04, exactly: a 64-bit number comes back from its encoding if and only if it is not 251. -/
theorem C04_iff (n : Nat) (hn : n < 2 ^ 64) (rest : Bytes) :
    (∃ v, readLenEncInt (((LenEncInt.ofU64 n).writeTo []).1 ++ rest) = .ok v rest ∧ v.toU64 = some n) ↔
      n ≠ 251 := by
  constructor
  · rintro ⟨v, h1, h2⟩ rfl
    have : ((LenEncInt.ofU64 251).writeTo []).1 = [0xfb] := by decide
    rw [this] at h1
    have h3 : readLenEncInt ([0xfb] ++ rest) = .ok .null rest := rfl
    rw [h3] at h1
    cases h1
    cases h2
  · intro h
    obtain ⟨enc, -, h1, h2⟩ := C04_len_enc_int_round_trip_partial n hn h
    obtain ⟨v, h3, h4, -⟩ := h2 rest
    exact ⟨v, by rw [h1]; exact h3, h4⟩

/-- C06, exactly: a string comes back from its encoding if and only if it does not have 251 bytes. -/
theorem C06_iff (s rest : Bytes) (hs : s.length < 2 ^ 64) :
    readLenEncStr ((LenEncStr.writeTo [] (.bytes s)).1 ++ rest) = .ok (.bytes s) rest ↔ s.length ≠ 251 := by
  constructor
  · intro h h251
    rw [C06_false s rest h251] at h
    cases h
  · intro h
    obtain ⟨enc, -, h1, h2⟩ := C06_len_enc_str_round_trip_partial s hs h
    rw [h1]
    exact h2 rest

example : ¬ readLenEncStr ((LenEncStr.writeTo [] (.bytes (List.replicate 251 97))).1 ++ [])
    = .ok (.bytes (List.replicate 251 97)) [] := by
  rw [C06_iff _ _ (by rw [List.length_replicate]; decide), List.length_replicate]
  decide

/-- C17, exactly: decoding the handshake of a server panics if and only if the server sets
SECURE_CONNECTION and announces less than eight bytes of authentication data. -/
theorem C17_panic_iff (f : Spec.HandshakeFields) (hf : f.InRange) :
    InitialHandshake.readFrom (Spec.handshakeV10 f) = .panic ↔
      f.caps.testBit Spec.SECURE_CONNECTION = true ∧ f.authLen < 8 := by
  refine ⟨fun h => ?_, fun h => C17_short_auth_length_false f hf h.1 h.2⟩
  by_contra hn
  rw [C17_initial_handshake_partial f hf (fun hs => by
    by_contra h8; exact hn ⟨hs, by omega⟩)] at h
  cases h

/-- C48: no file block at all is returned as it is in the event (APPEND_BLOCK and CREATE_FILE): a block
without NUL is an error, any other is cut. -/
theorem C48_file_block_never_false (id : Nat) (h : id < 2 ^ 32) (block rest : Bytes) :
    AppendBlockData.readFrom (Spec.le 4 id ++ block) ≠ .ok ⟨id, block⟩ rest ∧
    CreateFileData.readFrom (Spec.le 4 id ++ block) ≠ .ok ⟨id, block⟩ rest := by
  by_cases h0 : (0 : UInt8) ∈ block
  · obtain ⟨a, b, rfl, ha⟩ := List.eq_append_cons_of_mem h0
    obtain ⟨-, h1, -, h2⟩ := C48_file_block_false id h a b ha
    rw [h1, h2]
    constructor <;>
    · intro e
      rw [R.ok.injEq] at e
      have := congrArg (fun d => d.blockData.length) e.1
      simp at this
  · obtain ⟨h1, -, h2, -⟩ := C48_file_block_false id h block [] h0
    rw [h1, h2]
    exact ⟨fun e => (by cases e), fun e => (by cases e)⟩

/-- C66, exactly: text is read as a truth value if and only if it stands for a number below 256, and then
it is true if and only if the number is 1; everything else is an error. -/
theorem C66_bool_iff (t : Bytes) (b : Bool) :
    (boolFromText (some t) = .ok (some b) ↔ ∃ n, Spec.readUnsigned t = some n ∧ n < 256 ∧ (b = true ↔ n = 1)) ∧
    ((¬ ∃ n, Spec.readUnsigned t = some n ∧ n < 256) → ∃ e, boolFromText (some t) = .err e) := by
  unfold boolFromText fromText
  dsimp only
  rw [parseUInt_eq]
  cases h : Spec.readUnsigned t with
  | none =>
    refine ⟨⟨fun hh => ?_, fun hh => ?_⟩, fun _ => ?_⟩
    · rw [Option.bind_none] at hh; split at hh <;> cases hh
    · obtain ⟨n, hn, -⟩ := hh; cases hn
    · rw [Option.bind_none]; split <;> exact ⟨_, rfl⟩
  | some m =>
    have hu := validUtf8_ascii t (readUnsigned_ascii h)
    simp only [hu, Bool.not_true, Bool.false_eq_true, if_false, Option.bind_some]
    by_cases hm : m < 2 ^ 8
    · simp only [if_pos hm, Option.map_some]
      refine ⟨⟨fun hh => ⟨m, rfl, by omega, ?_⟩, ?_⟩, fun hn => absurd ⟨m, rfl, by omega⟩ hn⟩
      · cases hh; simp
      · rintro ⟨n, hn, -, hb⟩
        cases hn
        have : (m == 1) = b := by
          rw [Bool.eq_iff_iff, hb]; simp
        rw [this]
    · simp only [if_neg hm]
      refine ⟨⟨fun hh => (by cases hh), ?_⟩, fun _ => ⟨_, rfl⟩⟩
      rintro ⟨n, hn, hlt, -⟩
      cases hn
      omega

example : boolFromText (some (Spec.ascii "2")) = .ok (some false) := by
  rw [(C66_bool_iff _ _).1]; exact ⟨2, by decide +kernel, by decide, by decide⟩

end Mybin
