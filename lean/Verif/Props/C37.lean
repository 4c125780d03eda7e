/-
C37: column values in row images, for every column kind.
-/
import Verif.Props.C38
import Verif.Props.C39

namespace Mybin

open Spec (ColKind Val Fits storeVal)

/-- the metadata entry that stands for a column kind; `none` for the kinds the library does not support -/
def metaOf : ColKind → Option ColumnMeta
  | .tiny => some .tiny | .short => some .short | .int24 => some .int24 | .long => some .long
  | .longLong => some .longLong | .float => some (.float 4) | .double => some (.double 8)
  | .year => some .year | .date => some .date
  | .timestamp2 f => some (.timestamp f) | .time2 f => some (.time2 f) | .datetime2 f => some (.dateTime f)
  | .bit n => some (.bit (n % 8) (n / 8))
  | .decimal p s => some (.newDecimal p s)
  | .enum p => some (.enum p)
  | .blob p => some (.blob p)
  | .varchar m => some (.varString m)
  | .char m => some (.string m)
  | .set _ | .json _ | .geometry _ | .oldTimestamp | .oldTime | .oldDateTime => none

/-- the decoded value `c` is the value `v` of a column of kind `k` -/
def Denotes : ColKind → Val → BinlogColumnValue → Prop
  | .tiny, .num n, c => c = .tiny n
  | .short, .num n, c => c = .short n
  | .int24, .num n, c => c = .int24 n
  | .long, .num n, c => c = .long n
  | .longLong, .num n, c => c = .longLong n
  | .float, .num n, c => c = .float n
  | .double, .num n, c => c = .double n
  | .year, .year y, c => c = .year y
  | .date, .date y m d, c => c = .date y m d
  | .timestamp2 _, .timestamp s us, c => us = 0 ∧ c = .timestamp s
  | .time2 _, .time neg h m s us, c => c = .time ⟨neg, h / 24, h % 24, m, s, us⟩
  | .datetime2 _, .datetime y mo d h mi s us, c => c = .dateTime ⟨y, mo, d, h, mi, s, us⟩
  | .bit _, .bytes b, c => c = .bit b
  | .decimal p s, .decimal neg n, c =>
    ∃ ip fp, c = .newDecimal ⟨p - s, s, neg, ip ++ fp⟩ ∧ ip.length = (p - s + 8) / 9 ∧
      fp.length = (s + 8) / 9 ∧ (∀ g ∈ ip ++ fp, g < 10 ^ 9) ∧ Spec.baseValue ip = n / 10 ^ s ∧
      Spec.baseValue fp * 10 ^ s = n % 10 ^ s * 10 ^ (9 * ((s + 8) / 9))
  | .enum p, .num n, c => c = .enum (if p = 1 then .pack1 n else .pack2 n)
  | .blob _, .bytes b, c => c = .blob b
  | .varchar _, .bytes b, c => c = .varString b
  | .char _, .bytes b, c => c = .string b
  | _, _, _ => False

/-- the values that are decoded correctly: all but TIMESTAMPs with fractions, negative TIMEs with a
fraction of 1 to 4 decimals, and DECIMALs whose number of integer digits is a multiple of nine -/
def Sound : ColKind → Val → Prop
  | .timestamp2 f, _ => f = 0
  | .time2 f, .time neg _ _ _ us => neg = true → f = 0 ∨ 5 ≤ f ∨ us = 0
  | .decimal p s, _ => (p - s) % 9 ≠ 0
  | _, _ => True

/-- the values that are decoded at their width: all but TIMESTAMPs with fractions and DECIMALs without
integer digits -/
def WidthSound : ColKind → Val → Prop
  | .timestamp2 f, _ => f = 0
  | .decimal p s, _ => s < p
  | _, _ => True

theorem readLeU24_lt (n : Nat) (rest : Bytes) (h : n < 2 ^ 24) :
    readLeU24 (Spec.le 3 n ++ rest) = .ok n rest := readLeU24_le n rest h

theorem read_date (y m d : Nat) (h : y ≤ 9999 ∧ m ≤ 12 ∧ d ≤ 31) (rest : Bytes) :
    BinlogColumnValue.readFrom .date (Spec.le 3 (y * 512 + m * 32 + d) ++ rest) = .ok (.date y m d) rest := by
  obtain ⟨hy, hm, hd⟩ := h
  rw [BinlogColumnValue.readFrom]
  step (readLeU24_le (y * 512 + m * 32 + d) rest (by omega))
  have e5 : ∀ x : Nat, x &&& 31 = x % 2 ^ 5 := fun x => Nat.and_two_pow_sub_one_eq_mod x 5
  have e4 : ∀ x : Nat, x &&& 15 = x % 2 ^ 4 := fun x => Nat.and_two_pow_sub_one_eq_mod x 4
  rw [P.pure_apply, e5, e4, Nat.shiftRight_eq_div_pow, Nat.shiftRight_eq_div_pow]
  rw [show (y * 512 + m * 32 + d) / 2 ^ 9 % 2 ^ 16 = y by omega,
    show (y * 512 + m * 32 + d) / 2 ^ 5 % 2 ^ 4 = m by omega,
    show (y * 512 + m * 32 + d) % 2 ^ 5 = d by omega]

theorem read_year (y : Nat) (h : y = 0 ∨ (1901 ≤ y ∧ y ≤ 2155)) (rest : Bytes) :
    BinlogColumnValue.readFrom .year (Spec.u8 (y - 1900) ++ rest) = .ok (.year y) rest := by
  rw [BinlogColumnValue.readFrom]
  step (readU8_u8 (y - 1900) rest (by omega))
  rw [P.pure_apply]
  rcases h with rfl | h
  · rfl
  · rw [if_neg (by omega), show y - 1900 + 1900 = y by omega]

theorem read_string (m : Nat) (b rest : Bytes) (hm : m < 1024) (h : b.length ≤ m) :
    BinlogColumnValue.readFrom (.string m)
      ((if m < 256 then Spec.u8 b.length else Spec.le 2 b.length) ++ b ++ rest) = .ok (.string b) rest := by
  rw [BinlogColumnValue.readFrom, List.append_assoc]
  by_cases h256 : m < 256
  · rw [if_pos h256, if_neg (by omega)]
    step (readU8_u8 b.length _ (by omega))
    step (readLen_append b rest)
    rfl
  · rw [if_neg h256, if_pos (by omega)]
    step (readLeU16_le b.length _ (by omega))
    step (readLen_append b rest)
    rfl

theorem read_varchar (m : Nat) (b rest : Bytes) (hm : m < 2 ^ 16) (h : b.length ≤ m) :
    BinlogColumnValue.readFrom (.varString m)
      ((if m < 256 then Spec.u8 b.length else Spec.le 2 b.length) ++ b ++ rest) = .ok (.varString b) rest := by
  rw [BinlogColumnValue.readFrom, List.append_assoc]
  by_cases h256 : m < 256
  · rw [if_pos h256, if_pos h256]
    step (readU8_u8 b.length _ (by omega))
    rw [if_pos h]
    step (readLen_append b rest)
    rfl
  · rw [if_neg h256, if_neg h256]
    step (readLeU16_le b.length _ (by omega))
    rw [if_pos h]
    step (readLen_append b rest)
    rfl

theorem readBlobLen_spec (p n : Nat) (hp : 1 ≤ p ∧ p ≤ 4) (h : n < 256 ^ p) (rest : Bytes) :
    readBlobLen p (Spec.le p n ++ rest) = .ok n rest := by
  have : p = 1 ∨ p = 2 ∨ p = 3 ∨ p = 4 := by omega
  rcases this with rfl | rfl | rfl | rfl
  · have : Spec.le 1 n = Spec.u8 n := by
      simp [Spec.le, Spec.u8, Nat.mod_eq_of_lt (show n < 256 by omega)]
    rw [this]
    exact readU8_u8 n rest (by omega)
  · exact readLeU16_le n rest (by omega)
  · exact readLeU24_le n rest (by omega)
  · exact readLeU32_le n rest (by omega)

theorem read_enum (p n : Nat) (hp : p = 1 ∨ p = 2) (h : n < 256 ^ p) (rest : Bytes) :
    readEnum p (Spec.le p n ++ rest) = .ok (.enum (if p = 1 then .pack1 n else .pack2 n)) rest := by
  rcases hp with rfl | rfl
  · have : Spec.le 1 n = Spec.u8 n := by
      simp [Spec.le, Spec.u8, Nat.mod_eq_of_lt (show n < 256 by omega)]
    rw [this, readEnum]
    step (readU8_u8 n rest (by omega))
    rfl
  · rw [readEnum]
    step (readLeU16_le n rest (by omega))
    rfl

/-- C37: every value of every supported column kind is read back, and exactly its bytes are consumed.
(Full claim: every kind and value. Not so for the values excluded by `Sound` — see
`C37_timestamp_fraction_false`, `C38_nine_digits_false`, `C39_negative_fraction_false` — nor for the kinds
that have no metadata entry, see `C34_unsupported_false`.) -/
theorem C37_decode_partial (k : ColKind) (m : ColumnMeta) (v : Val) (hk : k.Ok) (hm : metaOf k = some m)
    (hv : Fits k v) (hs : Sound k v) (rest : Bytes) :
    ∃ c, BinlogColumnValue.readFrom m (storeVal k v ++ rest) = .ok c rest ∧ Denotes k v c := by
  cases k <;> simp only [metaOf, Option.some.injEq, reduceCtorEq] at hm <;> subst hm <;>
    cases v <;> simp only [Fits] at hv <;> simp only [storeVal, Denotes]
  case tiny.num n => 
    refine ⟨_, ?_, rfl⟩
    rw [BinlogColumnValue.readFrom]; step (readU8_u8 n rest hv); rfl
  case short.num n =>
    refine ⟨_, ?_, rfl⟩
    rw [BinlogColumnValue.readFrom]; step (readLeU16_le n rest hv); rfl
  case int24.num n =>
    refine ⟨_, ?_, rfl⟩
    rw [BinlogColumnValue.readFrom]; step (readLeU24_le n rest hv); rfl
  case long.num n =>
    refine ⟨_, ?_, rfl⟩
    rw [BinlogColumnValue.readFrom]; step (readLeU32_le n rest hv); rfl
  case longLong.num n =>
    refine ⟨_, ?_, rfl⟩
    rw [BinlogColumnValue.readFrom]; step (readLeU64_le n rest hv); rfl
  case float.num n =>
    refine ⟨_, ?_, rfl⟩
    rw [BinlogColumnValue.readFrom]; step (readLeF32_le n rest hv); rfl
  case double.num n =>
    refine ⟨_, ?_, rfl⟩
    rw [BinlogColumnValue.readFrom]; step (readLeF64_le n rest hv); rfl
  case year.year y => exact ⟨_, read_year y hv rest, rfl⟩
  case date.date y m d => exact ⟨_, read_date y m d hv rest, rfl⟩
  case timestamp2.timestamp f s us =>
    simp only [Sound] at hs
    subst hs
    obtain ⟨h1, h2, h3, h4⟩ := hv
    have : us = 0 := by omega
    subst this
    refine ⟨_, ?_, rfl, rfl⟩
    rw [show Spec.fraction 0 0 = [] from rfl, List.append_nil, BinlogColumnValue.readFrom]
    step (readBeU32_be s rest h1); rfl
  case time2.time f neg h m s us =>
    refine ⟨_, ?_, rfl⟩
    rw [BinlogColumnValue.readFrom]; step (C39_time_partial f neg h m s us hv hs rest); rfl
  case datetime2.datetime f y mo d h mi s us =>
    refine ⟨_, ?_, rfl⟩
    rw [BinlogColumnValue.readFrom]; step (C39_datetime f y mo d h mi s us hv rest); rfl
  case bit.bytes n b =>
    refine ⟨_, ?_, rfl⟩
    obtain ⟨h1, h2⟩ := hk
    rw [BinlogColumnValue.readFrom]
    have : n / 8 + (if n % 8 > 0 then 1 else 0) = b.length := by split <;> omega
    rw [this, if_pos (by omega)]
    step (readLen_append b rest); rfl
  case decimal.decimal p s neg n =>
    obtain ⟨h1, _, h2⟩ := hv
    obtain ⟨ip, fp, h3, h4⟩ := C38_decode_partial (p - s) s neg n hs (by rwa [Nat.sub_add_cancel h2]) rest
    refine ⟨_, ?_, ip, fp, rfl, h4⟩
    rw [BinlogColumnValue.readFrom, if_pos h2]
    step h3; rfl
  case enum.num p n => exact ⟨_, read_enum p n hk hv rest, rfl⟩
  case blob.bytes p b =>
    refine ⟨_, ?_, rfl⟩
    rw [BinlogColumnValue.readFrom, List.append_assoc]
    step (readBlobLen_spec p b.length hk hv (b ++ rest))
    step (readLen_append b rest); rfl
  case varchar.bytes m b => exact ⟨_, read_varchar m b rest hk hv, rfl⟩
  case char.bytes m b => exact ⟨_, read_string m b rest hk hv, rfl⟩

/-! ### widths -/

theorem small_ne (a b : Nat) (ha : a < 2 ^ 56) (hb : b < 2 ^ 56) : a + b ≠ 2 ^ 63 := by omega

theorem time_width (f : Nat) (neg : Bool) (h m s us : Nat) (ok : Spec.TimeOk f neg h m s us) (rest : Bytes) :
    ∃ t, MyTime.fromBinlog f (Spec.time2 f (Spec.packedTime neg h m s us) ++ rest) = .ok t rest := by
  by_cases hx : neg = true → f = 0 ∨ 5 ≤ f ∨ us = 0
  · exact ⟨_, C39_time_partial f neg h m s us ok hx rest⟩
  · have hf : f ≠ 0 ∧ f ≤ 4 := by
      by_cases h5 : f ≠ 0 ∧ f ≤ 4
      · exact h5
      · exact absurd (fun _ => by omega) hx
    have fin : ∀ v t p, v < 2 ^ 24 → packedTimeParts v f (t ++ rest) = .ok p rest → p ≠ 2 ^ 63 →
        ∃ r, MyTime.fromBinlog f (Spec.be 3 v ++ (t ++ rest)) = .ok r rest := by
      intro v t p hv ht hp
      unfold MyTime.fromBinlog packedFromTimeBinary
      rw [P.bind_apply, P.bind_apply, readBeU24_be _ _ hv, R.bind_ok]
      dsimp only
      rw [P.bind_apply, ht, R.bind_ok]
      cases (v &&& 0x800000 != 0x800000)
      · exact ⟨_, rfl⟩
      · rw [P.bind_apply]
        simp only [if_true]
        rw [negI64_spec p hp rest]
        exact ⟨_, rfl⟩
    have hpat : ∀ i, Spec.pattern 24 i < 2 ^ 24 := fun i => by unfold Spec.pattern; omega
    have hip : ∀ v, ((v + 2 ^ 32 - 0x800000) % 2 ^ 32) <<< 24 < 2 ^ 56 := fun v => by
      rw [Nat.shiftLeft_eq]
      have := Nat.mod_lt (v + 2 ^ 32 - 0x800000) (show 0 < 2 ^ 32 by norm_num)
      omega
    unfold Spec.time2
    simp only []
    rw [if_neg hf.1]
    generalize Spec.packedTime neg h m s us = nr
    by_cases f2 : f ≤ 2
    · rw [if_pos f2, List.append_assoc]
      generalize hw : Spec.pattern 8 _ = w
      have hwl : w < 256 := by rw [← hw]; unfold Spec.pattern; omega
      refine fin _ _ _ (hpat _) (by
        unfold packedTimeParts
        rw [if_neg hf.1, if_pos (by omega)]
        step (readU8_u8 w rest hwl)
        exact P.pure_apply _ _) ?_
      exact small_ne _ _ (hip _) (by omega)
    · rw [if_neg f2, if_pos hf.2, List.append_assoc]
      generalize hw : Spec.pattern 16 _ = w
      have hwl : w < 2 ^ 16 := by rw [← hw]; unfold Spec.pattern; omega
      refine fin _ _ _ (hpat _) (by
        unfold packedTimeParts
        rw [if_neg hf.1, if_neg (by omega), if_pos (by omega)]
        step (readBeU16_be w rest hwl)
        exact P.pure_apply _ _) ?_
      exact small_ne _ _ (hip _) (by omega)

/-- DECIMALs with 9, 18, … integer digits: the value is wrong, the width is right -/
theorem decimal_width (intg frac : Nat) (neg : Bool) (n : Nat) (h9 : intg % 9 = 0) (h0 : 0 < intg)
    (rest : Bytes) :
    ∃ d, MyDecimal.readFrom intg frac (Spec.decimal intg frac neg n ++ rest) = .ok d rest := by
  obtain ⟨j, hj⟩ : ∃ j, intg / 9 = j + 1 := ⟨intg / 9 - 1, by omega⟩
  have hg : ∀ g, g < 10 ^ 9 → g < 128 * 256 ^ (4 - 1) := fun g h => by norm_num; omega
  have hsplit : Spec.decimal intg frac neg n =
      Spec.flipTop (inv neg (Spec.be 4 (n / 10 ^ frac / (10 ^ 9) ^ j % 10 ^ 9)))
      ++ (((Spec.groups j (n / 10 ^ frac)).map fun g => inv neg (Spec.be 4 g)).flatten
      ++ (((Spec.groups (frac / 9) (n % 10 ^ frac / 10 ^ (frac % 9))).map fun g => inv neg (Spec.be 4 g)).flatten
      ++ inv neg (Spec.be (Spec.digBytes (frac % 9)) (n % 10 ^ frac % 10 ^ (frac % 9))))) := by
    unfold Spec.decimal
    have e : ∀ x : Bytes, (if neg then x.map (~~~ ·) else x) = inv neg x := fun _ => rfl
    have e0 : ∀ x, Spec.be (Spec.digBytes 0) x = [] := fun x => by
      apply List.eq_nil_of_length_eq_zero; rw [be_length]; rfl
    simp only [h9, e0, hj, groups_succ, List.map_cons, List.flatten_cons, List.nil_append, e, inv_append,
      List.append_assoc, inv_flatten, List.map_map]
    rw [flipTop_append]
    · rfl
    · intro hc
      have := congrArg List.length hc
      rw [inv_length, be_length] at this
      simp at this
  have hlt : n / 10 ^ frac / (10 ^ 9) ^ j % 10 ^ 9 < 10 ^ 9 := Nat.mod_lt _ (by norm_num)
  obtain ⟨x, t, hx, hxl⟩ := be_head_small 4 _ (by omega) (hg _ hlt)
  obtain ⟨b, t', hb, hs⟩ := sign_byte neg x t hxl
  have digits : ∃ d, MyDecimal.readDigits intg frac neg (Spec.decimal intg frac neg n ++ rest) = .ok d rest := by
    rw [hsplit, List.append_assoc, List.append_assoc, List.append_assoc]
    unfold MyDecimal.readDigits
    rw [show intg - intg / 9 * 9 = 0 by omega, show frac - frac / 9 * 9 = frac % 9 by omega, hj]
    rw [if_neg (by omega), digBytes_eq _ (Nat.mod_lt _ (by omega))]
    rw [P.bind_apply, P.pure_apply, R.bind_ok, P.bind_apply, P.times]
    have hfl : (Spec.flipTop (inv neg (Spec.be 4 (n / 10 ^ frac / (10 ^ 9) ^ j % 10 ^ 9)))).length = 4 := by
      rw [hx]; have h4 : (x :: t).length = 4 := by rw [← hx, be_length]
      cases neg <;> simpa [inv, Spec.flipTop] using h4
    generalize Spec.flipTop (inv neg (Spec.be 4 (n / 10 ^ frac / (10 ^ 9) ^ j % 10 ^ 9))) = fl at hfl
    have hfrag : ∀ r, ∃ v, readFragment neg (fl ++ r) = .ok v r := by
      intro r
      unfold readFragment
      rw [P.bind_apply, readBeU32, (fixedRead_readFixed 4 beVal).append _ _ hfl, R.bind_ok]
      exact ⟨_, rfl⟩
    obtain ⟨v, hv⟩ := hfrag (((Spec.groups j (n / 10 ^ frac)).map fun g => inv neg (Spec.be 4 g)).flatten
      ++ (((Spec.groups (frac / 9) (n % 10 ^ frac / 10 ^ (frac % 9))).map fun g => inv neg (Spec.be 4 g)).flatten
      ++ (inv neg (Spec.be (Spec.digBytes (frac % 9)) (n % 10 ^ frac % 10 ^ (frac % 9))) ++ rest)))
    rw [P.bind_apply, hv, R.bind_ok, P.bind_apply, readFragments neg j, R.bind_ok, P.pure_apply, R.bind_ok]
    step (readFragments neg _ _ _)
    by_cases hf : 0 < frac % 9
    · have hfd := digBytes_small (frac % 9) hf (Nat.mod_lt _ (by omega))
      have hm : n % 10 ^ frac % 10 ^ (frac % 9) < 10 ^ (frac % 9) := Nat.mod_lt _ (Nat.pow_pos (by omega))
      rw [if_pos hf]
      rw [P.bind_apply, P.bind_apply, readExtra_false _ _ _ hfd.1 hfd.2.1 (by omega), R.bind_ok, P.bind_apply]
      have hlt : n % 10 ^ frac % 10 ^ (frac % 9) * 10 ^ (9 - frac % 9) < 2 ^ 32 := by
        calc _ < 10 ^ (frac % 9) * 10 ^ (9 - frac % 9) :=
              Nat.mul_lt_mul_of_pos_right hm (Nat.pow_pos (by omega))
          _ = 10 ^ 9 := by rw [← Nat.pow_add]; congr 1; omega
          _ < _ := by norm_num
      rw [mulU32, if_pos hlt]
      exact ⟨_, rfl⟩
    · rw [if_neg hf]
      have : frac % 9 = 0 := by omega
      rw [this]
      have : inv neg (Spec.be (Spec.digBytes 0) (n % 10 ^ frac % 10 ^ 0)) = [] := by
        apply List.eq_nil_of_length_eq_zero
        rw [inv_length, be_length]; rfl
      rw [this]
      exact ⟨_, rfl⟩
  rw [hsplit] at digits ⊢
  rw [hx, hb, List.cons_append, List.cons_append] at digits ⊢
  unfold MyDecimal.readFrom
  dsimp only
  rw [hs]
  exact digits

/-- C37: exactly the bytes of the value are consumed, so the following columns stay aligned, also for the
values that are decoded wrongly. (Full claim: every kind and value; see `C37_timestamp_fraction_false`.) -/
theorem C37_width_partial (k : ColKind) (m : ColumnMeta) (v : Val) (hk : k.Ok) (hm : metaOf k = some m)
    (hv : Fits k v) (hs : WidthSound k v) (rest : Bytes) :
    ∃ c, BinlogColumnValue.readFrom m (storeVal k v ++ rest) = .ok c rest := by
  by_cases hsnd : Sound k v
  · obtain ⟨c, h, _⟩ := C37_decode_partial k m v hk hm hv hsnd rest
    exact ⟨c, h⟩
  · cases k <;> simp only [metaOf, Option.some.injEq, reduceCtorEq] at hm <;> subst hm <;>
      cases v <;> simp only [Fits] at hv <;> simp only [Sound, not_true] at hsnd
    case timestamp2.timestamp f s us => exact absurd hs hsnd
    case time2.time f neg h m s us =>
      obtain ⟨t, ht⟩ := time_width f neg h m s us hv rest
      refine ⟨.time t, ?_⟩
      rw [BinlogColumnValue.readFrom, storeVal]; step ht; rfl
    case decimal.decimal p s neg n =>
      simp only [WidthSound] at hs
      obtain ⟨d, hd⟩ := decimal_width (p - s) s neg n (by omega) (by omega) rest
      refine ⟨.newDecimal d, ?_⟩
      rw [BinlogColumnValue.readFrom, storeVal, if_pos (by omega)]; step hd; rfl

/-- C37: a TIMESTAMP(3) leaves its fraction bytes to the next column. -/
theorem C37_timestamp_fraction_false :
    Fits (.timestamp2 3) (.timestamp 1 500000) ∧
    BinlogColumnValue.readFrom (.timestamp 3) (storeVal (.timestamp2 3) (.timestamp 1 500000))
      = .ok (.timestamp 1) (Spec.be 2 5000) := by
  refine ⟨⟨by norm_num, by omega, by omega, by norm_num⟩, ?_⟩
  decide +kernel

/-- the hypotheses are met by the largest values and metadata -/
example : (ColKind.decimal 65 30).Ok ∧ Fits (.decimal 65 30) (.decimal true (10 ^ 65 - 1)) ∧
    Sound (.decimal 65 30) (.decimal true (10 ^ 65 - 1)) ∧
    (ColKind.bit 64).Ok ∧ Fits (.bit 64) (.bytes (List.replicate 8 255)) ∧
    (ColKind.blob 4).Ok ∧ Fits (.blob 4) (.bytes [1, 2, 3]) ∧
    (ColKind.varchar 65535).Ok ∧ Fits (.varchar 65535) (.bytes (List.replicate 7 65)) := by
  refine ⟨⟨by omega, by omega, by omega, by omega⟩, ⟨Nat.sub_lt (Nat.pow_pos (by omega)) (by omega), fun _ => Nat.sub_ne_zero_of_lt (Nat.one_lt_pow (by omega) (by omega)), by omega⟩, by norm_num [Sound],
    ⟨by omega, by omega⟩, by rw [Fits]; simp, ⟨by omega, by omega⟩, by rw [Fits]; simp, by norm_num [Spec.ColKind.Ok],
    by rw [Fits]; simp⟩

end Mybin
