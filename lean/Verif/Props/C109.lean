/-
C109: the library compiled with and without overflow checks.
-/
import Verif.Model.Release
import Verif.Lemmas.Conn
import Verif.Lemmas.Invert
import Verif.Props.C11_C13
import Verif.Props.C28_C32
import Verif.Props.C105

namespace Mybin

/-! ### What the property says of a reader -/

/-- a reader of the build without the checks returns whatever the reader of the build with them returns: the same
value, the same error, the same unread bytes. Nothing is said of inputs on which the latter panics. -/
def Spec.SameUnlessPanic {α : Type} (checked unchecked : P α) : Prop :=
  ∀ bs, checked bs ≠ .panic → unchecked bs = checked bs

namespace C109

open Spec

theorem refl {α : Type} (p : P α) : SameUnlessPanic p p := fun _ _ => rfl

theorem bind' {α β : Type} {x x' : P α} {f f' : α → P β} (hx : SameUnlessPanic x x')
    (hf : ∀ a bs r, x bs = .ok a r → SameUnlessPanic (f a) (f' a)) : SameUnlessPanic (x >>= f) (x' >>= f') := by
  intro bs h
  rw [P.bind_apply] at h ⊢
  rw [P.bind_apply]
  cases e : x bs with
  | ok a r =>
    rw [e] at h
    rw [hx bs (by rw [e]; simp), e]
    exact hf a bs r e r h
  | err er r => rw [hx bs (by rw [e]; simp), e]; rfl
  | panic => rw [e] at h; exact absurd rfl h
  | hang => rw [hx bs (by rw [e]; simp), e]; rfl

theorem bind {α β : Type} {x x' : P α} {f f' : α → P β} (hx : SameUnlessPanic x x')
    (hf : ∀ a, SameUnlessPanic (f a) (f' a)) : SameUnlessPanic (x >>= f) (x' >>= f') :=
  bind' hx fun a _ _ _ => hf a

theorem then_ {α β : Type} (x : P α) {f f' : α → P β}
    (hf : ∀ a, SameUnlessPanic (f a) (f' a)) : SameUnlessPanic (x >>= f) (x >>= f') := bind (refl x) hf

theorem ite {α : Type} {c : Prop} [Decidable c] {x x' y y' : P α} (hx : c → SameUnlessPanic x x')
    (hy : ¬ c → SameUnlessPanic y y') : SameUnlessPanic (if c then x else y) (if c then x' else y') := by
  by_cases h : c
  · rw [if_pos h, if_pos h]; exact hx h
  · rw [if_neg h, if_neg h]; exact hy h

theorem onSub {α : Type} (sub : Bytes) {p p' : P α} (h : SameUnlessPanic p p') :
    SameUnlessPanic (P.onSub sub p) (P.onSub sub p') := by
  intro bs hb
  unfold P.onSub at hb ⊢
  cases e : p sub with
  | panic => rw [e] at hb; exact absurd rfl hb
  | ok a r => rw [h sub (by rw [e]; simp), e]
  | err a r => rw [h sub (by rw [e]; simp), e]
  | hang => rw [h sub (by rw [e]; simp), e]

theorem whileRemaining {α : Type} {p p' : P α} (h : SameUnlessPanic p p') :
    SameUnlessPanic (P.whileRemaining p) (P.whileRemaining p') := by
  intro bs
  induction hl : bs.length using Nat.strong_induction_on generalizing bs with
  | _ n ih =>
    intro hb
    rw [P.whileRemaining.eq_def p] at hb
    rw [P.whileRemaining.eq_def p', P.whileRemaining.eq_def p]
    by_cases h0 : bs = []
    · rw [if_pos h0, if_pos h0]
    · rw [if_neg h0] at hb
      rw [if_neg h0, if_neg h0]
      cases e : p bs with
      | panic => rw [e] at hb; exact absurd rfl hb
      | err a r => rw [h bs (by rw [e]; simp), e]
      | hang => rw [h bs (by rw [e]; simp), e]
      | ok a r =>
        rw [e] at hb
        rw [h bs (by rw [e]; simp), e]
        dsimp only at hb ⊢
        by_cases hr : r.length < bs.length
        · rw [dif_pos hr] at hb
          rw [dif_pos hr, dif_pos hr]
          rw [ih r.length (hl ▸ hr) r rfl (by
            intro hp; rw [hp] at hb; exact hb rfl)]
        · rw [dif_neg hr, dif_neg hr]

/-! ### The readers, one by one -/

theorem f64 : SameUnlessPanic readLeF64 Release.readLeF64 := by
  intro bs h
  unfold readLeF64 at h ⊢
  unfold Release.readLeF64
  by_cases h8 : bs.length < 8
  · rw [if_pos h8] at h
    rw [if_pos h8, if_pos h8]
    by_cases h4 : 4 < bs.length
    · rw [if_pos h4] at h; exact absurd rfl h
    · rw [if_neg h4]
      congr 3
      omega
  · rw [if_neg h8, if_neg h8]

theorem dataLen (h : EventHeader) (hl : h.eventLen < 2 ^ 32) : SameUnlessPanic h.dataLen (Release.dataLen h) := by
  unfold EventHeader.dataLen Release.dataLen
  by_cases h19 : h.eventLen < 19
  · rw [if_pos h19]; intro bs hb; exact absurd rfl hb
  · rw [if_neg h19]
    have : (2 ^ 32 + h.eventLen - 19) % 2 ^ 32 = h.eventLen - 19 := by omega
    rw [this]; exact refl _

theorem header_lt {bs r : Bytes} {hd : EventHeader} (h : EventHeader.readFrom bs = .ok hd r) :
    hd.eventLen < 2 ^ 32 := by
  obtain ⟨hd', h', hl⟩ := header_ok bs (header_inv bs r hd h)
  rw [h'] at h
  cases h
  rw [hl]
  unfold Spec.announced
  rw [← leVal_eq_spec]
  have := leVal_lt ((bs.drop 9).take 4)
  have h4 : ((bs.drop 9).take 4).length ≤ 4 := List.length_take_le _ _
  calc leVal ((bs.drop 9).take 4) < 256 ^ ((bs.drop 9).take 4).length := this
    _ ≤ 256 ^ 4 := Nat.pow_le_pow_right (by norm_num) h4
    _ = 2 ^ 32 := by norm_num

theorem readLen_length {n : Nat} {bs a r : Bytes} (h : readLen n bs = .ok a r) : a.length = n := by
  unfold readLen at h
  split at h
  · cases h
  · cases h; rw [List.length_take]; omega

theorem fde : SameUnlessPanic FormatDescriptionData.readFrom Release.FormatDescriptionData.readFrom := by
  unfold FormatDescriptionData.readFrom Release.FormatDescriptionData.readFrom
  refine then_ _ fun s => then_ _ fun hl => bind ?_ fun n => refl _
  intro bs h
  unfold fdeCount at h ⊢
  unfold Release.fdeCount
  cases e : bs[LogEventType.formatDescription.toByte - 1]? with
  | none => rfl
  | some b =>
    rw [e] at h
    dsimp only at h ⊢
    by_cases hb : b.toNat < 57
    · rw [if_pos hb] at h; exact absurd rfl h
    · rw [if_neg hb]
      have := b.toNat_lt
      have : (256 + b.toNat - 57) % 256 = b.toNat - 57 := by omega
      rw [this]

theorem fdeBytes : SameUnlessPanic ParserV4.fromFdeBytes Release.fromFdeBytes := by
  unfold ParserV4.fromFdeBytes Release.fromFdeBytes
  refine bind' (refl _) fun h bs r hh => bind (dataLen h (header_lt hh)) fun n => then_ _ fun raw =>
    bind (onSub raw (bind fde fun _ => refl _)) fun _ => refl _

theorem file : SameUnlessPanic ParserV4.fromBinlogFile Release.fromBinlogFile := by
  unfold ParserV4.fromBinlogFile Release.fromBinlogFile
  exact then_ _ fun v => ite (fun _ => refl _) fun _ => bind fdeBytes fun _ => refl _

theorem parse (p : ParserV4) (validate : Bool) :
    SameUnlessPanic (p.parseEvent validate) (Release.parseEvent p validate) := by
  unfold ParserV4.parseEvent Release.parseEvent
  refine then_ _ fun _ => bind' (refl _) fun h bs r hh => bind' (dataLen h (header_lt hh)) fun n b1 r1 hn =>
    bind' (refl _) fun data b2 r2 hd => bind (ite (fun _ => ?_) fun _ => refl _) fun _ => refl _
  by_cases h4 : data.length < 4
  · rw [if_pos h4]; intro _ hp; exact absurd rfl hp
  · rw [if_neg h4]
    have hlt : data.length < 2 ^ 32 := by
      have hd' := readLen_length hd
      have hh' := header_lt hh
      unfold EventHeader.dataLen at hn
      split at hn
      · cases hn
      · cases hn; omega
    have : (2 ^ 64 + data.length - 4) % 2 ^ 64 = data.length - 4 := by omega
    rw [this]; exact refl _

theorem skip (p : ParserV4) : SameUnlessPanic p.skipEvent (Release.skipEvent p) := by
  unfold ParserV4.skipEvent Release.skipEvent
  exact bind' (refl _) fun h bs r hh => bind (dataLen h (header_lt hh)) fun n => refl _

theorem names (n t s : Nat) : SameUnlessPanic (LoadNames.readFrom n t s) (Release.LoadNames.readFrom n t s) := by
  unfold LoadNames.readFrom Release.LoadNames.readFrom
  refine then_ _ fun lens => bind ?_ fun _ => refl _
  unfold fieldNameTotal Release.fieldNameTotal
  dsimp only
  by_cases h : (lens.map (·.toNat)).sum + n < 2 ^ 32
  · rw [if_pos h, Nat.mod_eq_of_lt h]; exact refl _
  · rw [if_neg h]; intro _ hp; exact absurd rfl hp

theorem load : SameUnlessPanic LoadData.readFrom Release.LoadData.readFrom := by
  unfold LoadData.readFrom Release.LoadData.readFrom
  exact then_ _ fun _ => then_ _ fun _ => then_ _ fun _ => then_ _ fun _ => then_ _ fun _ => then_ _ fun _ =>
    then_ _ fun _ => then_ _ fun _ => then_ _ fun _ => then_ _ fun _ => then_ _ fun _ => then_ _ fun _ =>
    then_ _ fun _ => bind (names _ _ _) fun _ => refl _

theorem newLoad : SameUnlessPanic NewLoadData.readFrom Release.NewLoadData.readFrom := by
  unfold NewLoadData.readFrom Release.NewLoadData.readFrom
  exact then_ _ fun _ => then_ _ fun _ => then_ _ fun _ => then_ _ fun _ => then_ _ fun _ => then_ _ fun _ =>
    then_ _ fun _ => then_ _ fun _ => then_ _ fun _ => then_ _ fun _ => then_ _ fun _ => then_ _ fun _ =>
    bind (names _ _ _) fun _ => refl _

theorem greeting : SameUnlessPanic InitialHandshake.readFrom Release.InitialHandshake.readFrom := by
  unfold InitialHandshake.readFrom Release.InitialHandshake.readFrom
  refine then_ _ fun _ => then_ _ fun _ => then_ _ fun _ => then_ _ fun _ => then_ _ fun _ => then_ _ fun _ =>
    then_ _ fun _ => then_ _ fun _ => then_ _ fun _ => bind' (refl _) fun n bs r hn => then_ _ fun _ =>
    bind (ite (fun _ => ?_) fun _ => refl _) fun _ => refl _
  by_cases h8 : n < 8
  · rw [if_pos h8]; intro _ hp; exact absurd rfl hp
  · rw [if_neg h8]
    have : n < 256 := by
      unfold readU8 at hn
      split at hn
      · cases hn
      · cases hn; exact UInt8.toNat_lt _
    have : (256 + n - 8) % 256 = n - 8 := by omega
    rw [this]; exact refl _

theorem digits (i f : Nat) (neg : Bool) :
    SameUnlessPanic (MyDecimal.readDigits i f neg) (Release.MyDecimal.readDigits i f neg) := by
  unfold MyDecimal.readDigits Release.MyDecimal.readDigits
  refine then_ _ fun _ => then_ _ fun _ => then_ _ fun _ => bind (ite (fun _ => then_ _ fun x => ?_) fun _ => refl _)
    fun _ => refl _
  intro bs h
  rw [P.bind_apply] at h ⊢
  unfold mulU32 at h ⊢
  split at h
  · rename_i hlt
    rw [if_pos hlt, Nat.mod_eq_of_lt hlt]; rfl
  · exact absurd rfl h

theorem decimal (i f : Nat) : SameUnlessPanic (MyDecimal.readFrom i f) (Release.MyDecimal.readFrom i f) := by
  intro bs
  cases bs with
  | nil => exact fun _ => rfl
  | cons b t => exact digits i f _ (b :: t)

theorem binary (ct : ColumnType) :
    SameUnlessPanic (BinaryColumnValue.readFrom ct) (Release.BinaryColumnValue.readFrom ct) := by
  unfold Release.BinaryColumnValue.readFrom
  by_cases h : ct = .double
  · subst h; rw [if_pos rfl]
    exact bind f64 fun _ => refl _
  · rw [if_neg h]; exact refl _

theorem binaryCols (bm : Bytes) (cts : List ColumnType) (i : Nat) :
    SameUnlessPanic (BinaryRow.readCols bm cts i) (Release.BinaryRow.readCols bm cts i) := by
  induction cts generalizing i with
  | nil => exact refl _
  | cons ct cts ih =>
    unfold BinaryRow.readCols Release.BinaryRow.readCols
    rcases Bitmap.next bm i with _ | ⟨_ | null, i'⟩
    · exact refl _
    · exact refl _
    · exact bind (ite (fun _ => refl _) fun _ => binary ct) fun _ => bind (ih i') fun _ => refl _

theorem value (m : ColumnMeta) (hm : ∀ p f, m = .newDecimal p f → p < 256) :
    SameUnlessPanic (BinlogColumnValue.readFrom m) (Release.BinlogColumnValue.readFrom m) := by
  cases m with
  | double _ => exact bind f64 fun _ => refl _
  | bit bits bytes =>
    unfold BinlogColumnValue.readFrom Release.BinlogColumnValue.readFrom
    dsimp only
    generalize bytes + (if bits > 0 then 1 else 0) = len
    by_cases h : len < 256
    · rw [if_pos h, Nat.mod_eq_of_lt h]; exact refl _
    · rw [if_neg h]; intro _ hp; exact absurd rfl hp
  | newDecimal p f =>
    unfold BinlogColumnValue.readFrom Release.BinlogColumnValue.readFrom
    dsimp only
    have := hm p f rfl
    by_cases h : p ≥ f
    · rw [if_pos h]
      have e : (256 + p - f) % 256 = p - f := by omega
      rw [e]; exact bind (decimal _ _) fun _ => refl _
    · rw [if_neg h]; intro _ hp; exact absurd rfl hp
  | varString n =>
    unfold BinlogColumnValue.readFrom Release.BinlogColumnValue.readFrom
    dsimp only
    refine then_ _ fun len => ?_
    by_cases h : len ≤ n
    · rw [if_pos h]; exact refl _
    · rw [if_neg h]; intro _ hp; exact absurd rfl hp
  | _ => exact refl _

theorem cols (bm : Bytes) (n i : Nat) (metas : List ColumnMeta)
    (hm : ∀ p f, ColumnMeta.newDecimal p f ∈ metas → p < 256) :
    SameUnlessPanic (LogRow.readCols bm n i metas) (Release.LogRow.readCols bm n i metas) := by
  induction n generalizing i metas with
  | zero => exact refl _
  | succ n ih =>
    unfold LogRow.readCols Release.LogRow.readCols
    rcases Bitmap.index bm i with _ | _ | _
    · exact refl _
    · exact bind (ih _ _ fun p f h => hm p f (List.mem_of_mem_tail h)) fun _ => refl _
    · cases metas with
      | nil => exact refl _
      | cons m ms =>
        exact bind (value m fun p f h => hm p f (by rw [h]; simp)) fun _ =>
          bind (ih _ _ fun p f h => hm p f (by simp [h])) fun _ => refl _

theorem image (nCols present : Nat) (bm : Bytes) (metas : List ColumnMeta)
    (hm : ∀ p f, ColumnMeta.newDecimal p f ∈ metas → p < 256) :
    SameUnlessPanic (readImage nCols present bm metas) (Release.readImage nCols present bm metas) := by
  unfold readImage Release.readImage
  refine then_ _ fun nb => ?_
  cases markNulls nb present 0 0 bm with
  | none => exact refl _
  | some cb => exact then_ _ fun _ => cols _ _ _ _ hm

theorem rowsHeader (n : Nat) (hn : n < 2 ^ 64) {β : Type} {f : Bytes × Nat → P β} {f' : Bytes × Nat × Nat → P β}
    (hf : ∀ x c, SameUnlessPanic (f (x, c)) (f' (x, c, (c + 7) >>> 3))) :
    SameUnlessPanic (readRowsHeader n >>= f) (Release.readRowsHeader n >>= f') := by
  unfold readRowsHeader Release.readRowsHeader
  by_cases h2 : n < 2
  · rw [if_pos h2]; intro bs hp; exact absurd rfl hp
  · rw [if_neg h2]
    have : (2 ^ 64 + n - 2) % 2 ^ 64 = n - 2 := by omega
    rw [this]
    intro bs
    simp only [P.bind_apply]
    cases readLen (n - 2) bs with
    | panic => exact fun h => absurd rfl h
    | hang => exact fun _ => rfl
    | err e r => exact fun _ => rfl
    | ok x r =>
      simp only [R.bind_ok, P.bind_apply]
      cases readLenEncInt r with
      | panic => exact fun h => absurd rfl h
      | hang => exact fun _ => rfl
      | err e r => exact fun _ => rfl
      | ok l r =>
        simp only [R.bind_ok, P.bind_apply]
        cases (P.orErr l.toU32 .constraint : P Nat) r with
        | panic => exact fun h => absurd rfl h
        | hang => exact fun _ => rfl
        | err e r => exact fun _ => rfl
        | ok c r =>
          simp only [R.bind_ok]
          by_cases hc : c + 7 < 2 ^ 32
          · rw [if_pos hc, Nat.mod_eq_of_lt hc]
            exact hf x c r
          · rw [if_neg hc]; exact fun h => absurd rfl h

theorem rows (n : Nat) (hn : n < 2 ^ 64) (metas : List ColumnMeta)
    (hm : ∀ p f, ColumnMeta.newDecimal p f ∈ metas → p < 256) :
    SameUnlessPanic (RowsV2.readFrom n metas) (Release.RowsV2.readFrom n metas) := by
  unfold RowsV2.readFrom Release.RowsV2.readFrom
  exact rowsHeader n hn fun x c => then_ _ fun bm => bind (whileRemaining (image _ _ _ _ hm)) fun _ => refl _

theorem updateRows (n : Nat) (hn : n < 2 ^ 64) (metas : List ColumnMeta)
    (hm : ∀ p f, ColumnMeta.newDecimal p f ∈ metas → p < 256) :
    SameUnlessPanic (UpdateRowsV2.readFrom n metas) (Release.UpdateRowsV2.readFrom n metas) := by
  unfold UpdateRowsV2.readFrom Release.UpdateRowsV2.readFrom
  refine rowsHeader n hn fun x c => then_ _ fun bb => then_ _ fun ba => bind (whileRemaining ?_) fun _ => refl _
  unfold readUpdateRow Release.readUpdateRow
  exact bind (image _ _ _ _ hm) fun _ => bind (image _ _ _ _ hm) fun _ => refl _

/-! ### Text -/

theorem bits (bs : Bytes) : ∀ (i n : Nat), bitSum i bs = some n →
    (∃ q, n = 2 ^ (8 * i) * q ∧ q < 2 ^ (8 * bs.length)) ∧ (bs = [] ∨ i + bs.length ≤ 8) ∧ Release.bitSum i bs = n := by
  induction bs with
  | nil =>
    intro i n h
    simp only [bitSum, Option.some.injEq] at h
    subst h
    exact ⟨⟨0, by simp⟩, Or.inl rfl, rfl⟩
  | cons b t ih =>
    intro i n h
    unfold bitSum at h
    split at h
    · cases h
    · rename_i h8
      obtain ⟨m, hm, rfl⟩ := Option.map_eq_some_iff.1 h
      obtain ⟨⟨q, rfl, k1⟩, k2, k3⟩ := ih (i + 1) m hm
      have hlen : i + (b :: t).length ≤ 8 := by
        rcases k2 with k2 | k2
        · subst k2; simp; omega
        · simp; omega
      have hb := b.toNat_lt
      have hq : b.toNat + 256 * q < 2 ^ (8 * (b :: t).length) := by
        have : (2 : Nat) ^ (8 * (b :: t).length) = 256 * 2 ^ (8 * t.length) := by
          rw [List.length_cons, Nat.mul_add, Nat.pow_add]; norm_num; exact Nat.mul_comm _ _
        rw [this]; omega
      have he : b.toNat * 2 ^ (i * 8) + 2 ^ (8 * (i + 1)) * q = 2 ^ (8 * i) * (b.toNat + 256 * q) := by
        rw [Nat.mul_comm i 8, Nat.mul_add 8 i 1, Nat.pow_add]; ring
      have hlt : 2 ^ (8 * i) * (b.toNat + 256 * q) < 2 ^ 64 := by
        calc 2 ^ (8 * i) * (b.toNat + 256 * q) < 2 ^ (8 * i) * 2 ^ (8 * (b :: t).length) :=
              Nat.mul_lt_mul_of_pos_left hq (Nat.two_pow_pos _)
          _ = 2 ^ (8 * (i + (b :: t).length)) := by rw [← Nat.pow_add, Nat.mul_add]
          _ ≤ 2 ^ 64 := Nat.pow_le_pow_right (by norm_num) (by omega)
      refine ⟨⟨_, he, hq⟩, Or.inr hlen, ?_⟩
      unfold Release.bitSum
      rw [k3, Nat.mod_eq_of_lt (show i * 8 < 64 by omega),
        Nat.mod_eq_of_lt (show b.toNat * 2 ^ (i * 8) < 2 ^ 64 by omega), Nat.mod_eq_of_lt (by omega)]

theorem time (t : MyTime) (s : Bytes) (h : timeText t = some s) : Release.timeText t = s := by
  unfold timeText at h
  dsimp only at h
  split at h
  · cases h
  · rename_i hr
    simp only [not_or, not_lt, not_le] at hr
    cases h
    unfold Release.timeText
    rw [asSigned_asUnsigned (by norm_num) (by unfold Spec.SignedRange; constructor <;> norm_num at hr ⊢ <;> omega)]

theorem jtime (t : MyTime) (s : Bytes) (h : jsonTime t = some s) : Release.jsonTime t = s := by
  unfold jsonTime at h
  dsimp only at h
  split at h
  · cases h
  · rename_i hr
    cases h
    unfold Release.jsonTime
    rw [Nat.mod_eq_of_lt (by omega)]
    rfl

theorem literal (ft : FloatText) (p : StmtColumnValue) (r : Bytes × Bool) (h : p.toSqlLiteral ft = some r) :
    Release.toSqlLiteral ft p = some r := by
  unfold Release.toSqlLiteral
  split
  · rename_i t e
    unfold StmtColumnValue.toSqlLiteral at h
    rw [e] at h
    obtain ⟨s, hs, rfl⟩ := Option.map_eq_some_iff.1 h
    rw [time t s hs]
  · rename_i bs e
    unfold StmtColumnValue.toSqlLiteral at h
    rw [e] at h
    obtain ⟨s, hs, rfl⟩ := Option.map_eq_some_iff.1 h
    rw [(bits bs 0 s hs).2.2]
  · exact h

theorem json (lib : JsonLib) (p : StmtColumnValue) (r : Json × Bool) (h : toJsonValue lib p = some r) :
    Release.toJsonValue lib p = some r := by
  unfold Release.toJsonValue
  split
  · rename_i t e
    unfold toJsonValue at h
    rw [e] at h
    dsimp only at h
    obtain ⟨s, hs, rfl⟩ := Option.map_eq_some_iff.1 h
    rw [jtime t s hs]
  · rename_i bs e
    unfold toJsonValue at h
    rw [e] at h
    dsimp only at h
    cases hs : bitSum 0 bs with
    | none => rw [hs] at h; cases h
    | some n => rw [hs] at h; cases h; rw [(bits bs 0 n hs).2.2]
  · exact h

theorem ofText (v : Option Bytes) (h : timeFromText v ≠ .panic) : Release.timeFromText v = timeFromText v := by
  cases v with
  | none => rfl
  | some bs =>
    unfold timeFromText at h ⊢
    unfold Release.timeFromText
    revert h
    dsimp only
    split
    · exact fun _ => rfl
    · generalize splitOn 0x3a (trimStart bs) = l
      rcases l with _ | ⟨hh, _ | ⟨mm, _ | ⟨ss, _ | ⟨x, l⟩⟩⟩⟩
      · exact fun _ => rfl
      · exact fun _ => rfl
      · exact fun _ => rfl
      · dsimp only
        cases Res.parse (parseSInt 64 hh) with
        | ok x =>
          intro h
          have h' : (if x = -(2 ^ 63) then Res.panic else _) ≠ Res.panic := h
          show _ = (if x = -(2 ^ 63) then _ else _)
          by_cases hx : x = -(2 ^ 63)
          · rw [if_pos hx] at h'; exact absurd rfl h'
          · rw [if_neg hx]; rfl
        | err e => exact fun _ => rfl
        | panic => exact fun _ => rfl
      · exact fun _ => rfl

/-! ### Sending -/

theorem sendPacket_wraps (c : Conn) (payload : Bytes) (hp : payload.length < 2 ^ 24) :
    Release.sendPacket payload c = .ok () { c with
      out := c.out ++ (Spec.Packet.mk c.pktNr payload).wire, pktNr := (c.pktNr + 1) % 256 } := by
  have h3 : [UInt8.ofNat (payload.length &&& 0xff), UInt8.ofNat ((payload.length >>> 8) &&& 0xff),
      UInt8.ofNat ((payload.length >>> 16) &&& 0xff)] = Spec.le 3 payload.length := by
    have a : ∀ n, n &&& 0xff = n % 256 := fun n => Nat.and_two_pow_sub_one_eq_mod n 8
    rw [← leBytes_eq_spec]
    simp only [a, Nat.shiftRight_eq_div_pow, leBytes, Nat.div_div_eq_div_mul]
  simp only [Release.sendPacket, h3]
  simp [Spec.Packet.wire, Spec.u8]

theorem sendLoop_wraps (bs : Bytes) (c : Conn) (hc : c.pktNr < 256) :
    ∃ ps, Spec.IsMessage ps ∧ (∀ i p, ps[i]? = some p → p.seq = (c.pktNr + i) % 256) ∧ Spec.payload ps = bs ∧
      Release.sendLoop bs c = .ok () { c with out := c.out ++ Spec.wire ps, pktNr := (c.pktNr + ps.length) % 256 } := by
  induction hl : bs.length using Nat.strong_induction_on generalizing bs c with
  | _ n ih =>
    rw [Release.sendLoop]
    have hmp : maxPacket = 0xffffff := rfl
    by_cases hge : bs.length ≥ maxPacket
    · rw [dif_pos hge, M.bind_apply]
      have hm : (bs.take maxPacket).length = maxPacket := by simpa using hge
      rw [sendPacket_wraps c _ (by rw [hm, hmp]; norm_num), MR.bind_ok]
      obtain ⟨ps, ⟨init, last, rfl, hi, hla, hs⟩, h2, h3, h5⟩ :=
        ih (bs.drop maxPacket).length (by rw [List.length_drop, hmp]; omega) (bs.drop maxPacket)
          { c with out := c.out ++ (Spec.Packet.mk c.pktNr (bs.take maxPacket)).wire,
                   pktNr := (c.pktNr + 1) % 256 } (Nat.mod_lt _ (by norm_num)) rfl
      refine ⟨⟨c.pktNr, bs.take maxPacket⟩ :: (init ++ [last]),
        ⟨⟨c.pktNr, bs.take maxPacket⟩ :: init, last, rfl, ?_, hla, ?_⟩, ?_, ?_, ?_⟩
      · intro p hp
        rcases List.mem_cons.1 hp with rfl | hp
        · exact hm
        · exact hi p hp
      · intro p hp
        rcases List.mem_cons.1 hp with rfl | hp
        · exact hc
        · exact hs p hp
      · intro i p hp
        cases i with
        | zero => simp at hp; subst hp; simp; omega
        | succ i =>
          have := h2 i p (by simpa using hp)
          simp only at this; omega
      · simp only [Spec.payload, List.map_cons, List.flatten_cons] at h3 ⊢
        rw [h3]; simp
      · rw [h5]
        simp [Spec.wire]
        omega
    · rw [dif_neg hge, sendPacket_wraps c bs (by omega)]
      refine ⟨[⟨c.pktNr, bs⟩], ⟨[], _, rfl, by simp, ?_, ?_⟩, ?_, ?_, ?_⟩
      · simp only; omega
      · simp; omega
      · intro i p hp
        cases i with
        | zero => simp at hp; subst hp; simp; omega
        | succ i => simp at hp
      · simp [Spec.payload]
      · simp [Spec.wire]

theorem sendLoop_same (bs : Bytes) (c : Conn) (h : sendLoop bs c ≠ .panic) : Release.sendLoop bs c = sendLoop bs c := by
  induction hl : bs.length using Nat.strong_induction_on generalizing bs c with
  | _ n ih =>
    have one : ∀ (x : Bytes) (c : Conn), c.pktNr + 1 < 256 → Release.sendPacket x c = sendPacket x c := by
      intro x c hc
      unfold Release.sendPacket sendPacket
      dsimp only
      rw [if_pos hc, Nat.mod_eq_of_lt hc]
    have bad : ∀ (x : Bytes) (c : Conn), ¬ c.pktNr + 1 < 256 → sendPacket x c = .panic := by
      intro x c hc
      unfold sendPacket
      dsimp only
      rw [if_neg hc]
    rw [sendLoop.eq_def] at h
    rw [Release.sendLoop, sendLoop.eq_def]
    have hmp : maxPacket = 0xffffff := rfl
    by_cases hc : c.pktNr + 1 < 256
    · by_cases hge : bs.length ≥ maxPacket
      · rw [dif_pos hge, M.bind_apply] at h
        rw [dif_pos hge, dif_pos hge, M.bind_apply, M.bind_apply, one _ c hc]
        cases e : sendPacket (bs.take maxPacket) c with
        | ok u c1 =>
          rw [e] at h
          exact ih (bs.drop maxPacket).length (by rw [List.length_drop, hmp]; omega) _ c1 h rfl
        | err er c1 => rfl
        | panic => rfl
        | hang => rfl
      · rw [dif_neg hge, dif_neg hge, one _ c hc]
    · exfalso
      apply h
      by_cases hge : bs.length ≥ maxPacket
      · rw [dif_pos hge, M.bind_apply, bad _ c hc]; rfl
      · rw [dif_neg hge, bad _ c hc]

end C109

/-! ### C109: the same results -/

/-- C109 for log files and events: opening a file, and parsing, skipping and verifying an event -/
theorem C109_events_partial :
    Spec.SameUnlessPanic ParserV4.fromBinlogFile Release.fromBinlogFile ∧
    Spec.SameUnlessPanic ParserV4.fromFdeBytes Release.fromFdeBytes ∧
    (∀ (p : ParserV4) (validate : Bool), Spec.SameUnlessPanic (p.parseEvent validate) (Release.parseEvent p validate)) ∧
    (∀ p : ParserV4, Spec.SameUnlessPanic p.skipEvent (Release.skipEvent p)) ∧
    (∀ k : RawKind, Spec.SameUnlessPanic k.read (Release.readKind k)) :=
  ⟨C109.file, C109.fdeBytes, C109.parse, C109.skip, fun k => by
    cases k with
    | formatDescription => exact C109.fde
    | load => exact C109.load
    | newLoad => exact C109.newLoad
    | _ => exact C109.refl _⟩

/-- C109 for rows: those of the log, given metadata whose precisions are bytes (as they are when they were read from
a table map), those of a prepared statement, and the greeting of the server -/
theorem C109_rows_partial (extraDataLen : Nat) (hn : extraDataLen < 2 ^ 64) (metas : List ColumnMeta)
    (hm : ∀ p f, ColumnMeta.newDecimal p f ∈ metas → p < 256) :
    Spec.SameUnlessPanic (RowsV2.readFrom extraDataLen metas) (Release.RowsV2.readFrom extraDataLen metas) ∧
    Spec.SameUnlessPanic (UpdateRowsV2.readFrom extraDataLen metas) (Release.UpdateRowsV2.readFrom extraDataLen metas) ∧
    (∀ colTypes, Spec.SameUnlessPanic (BinaryRow.readFrom colTypes) (Release.BinaryRow.readFrom colTypes)) ∧
    Spec.SameUnlessPanic InitialHandshake.readFrom Release.InitialHandshake.readFrom :=
  ⟨C109.rows _ hn _ hm, C109.updateRows _ hn _ hm,
    fun _ => C109.then_ _ fun _ => C109.then_ _ fun bm => C109.binaryCols bm _ _, C109.greeting⟩

/-- values that the build with the checks reads, in rows, so that the other reads them too -/
example : RowsV2.readFrom 2 [.newDecimal 2 1, .varString 10] [2, 3, 0, 0x81, 4, 2, 65, 66] ≠ .panic ∧
    Release.RowsV2.readFrom 2 [.newDecimal 2 1, .varString 10] [2, 3, 0, 0x81, 4, 2, 65, 66] =
      .ok ⟨[], 2, [3], [[.newDecimal ⟨1, 1, false, [1, 400000000]⟩, .varString [65, 66]]]⟩ [] := by decide +kernel

/-- C109 for values as text: TIME values read from text, SQL literals and JSON values -/
theorem C109_text_partial :
    (∀ v, timeFromText v ≠ .panic → Release.timeFromText v = timeFromText v) ∧
    (∀ ft (p : StmtColumnValue) r, p.toSqlLiteral ft = some r → Release.toSqlLiteral ft p = some r) ∧
    (∀ lib (p : StmtColumnValue) r, toJsonValue lib p = some r → Release.toJsonValue lib p = some r) :=
  ⟨C109.ofText, C109.literal, C109.json⟩

/-- C109 for messages. Whatever the build with the checks sends, the other sends too; and the other sends messages of
every size, from every packet number, as packets numbered upwards modulo 256, and they arrive. (So the limit of C12,
255 packets in a message and a panic after it, is one of the build with the checks only.) -/
theorem C109_send (payload : Bytes) (reset : Bool) (c : Conn) (hc : c.pktNr < 256) :
    (sendMsg payload reset c ≠ .panic → Release.sendMsg payload reset c = sendMsg payload reset c) ∧
    ∃ ps, Spec.IsMessage ps ∧ Spec.payload ps = payload ∧
      (∀ i p, ps[i]? = some p → p.seq = ((if reset then 0 else c.pktNr) + i) % 256) ∧
      Release.sendMsg payload reset c = .ok () { c with
        out := c.out ++ Spec.wire ps, pktNr := ((if reset then 0 else c.pktNr) + ps.length) % 256 } ∧
      ∀ (peer : Conn) (rest : Bytes), peer.inp = Spec.wire ps ++ rest →
        ∃ nr, recvMsg peer = .ok payload { peer with inp := rest, pktNr := nr } := by
  cases reset
  · refine ⟨fun h => C109.sendLoop_same _ _ h, ?_⟩
    obtain ⟨ps, h1, h2, h3, h4⟩ := C109.sendLoop_wraps payload c hc
    refine ⟨ps, h1, h3, h2, h4, fun peer rest hp => ?_⟩
    obtain ⟨nr, e, _⟩ := C11_recv_message ps h1 rest peer hp
    exact ⟨nr, by rw [e, h3]⟩
  · refine ⟨fun h => C109.sendLoop_same _ _ h, ?_⟩
    obtain ⟨ps, h1, h2, h3, h4⟩ := C109.sendLoop_wraps payload { c with pktNr := 0 } (by norm_num)
    refine ⟨ps, h1, h3, h2, h4, fun peer rest hp => ?_⟩
    obtain ⟨nr, e, _⟩ := C11_recv_message ps h1 rest peer hp
    exact ⟨nr, by rw [e, h3]⟩

/-- the message C12 cannot send -/
example : ∃ c : Conn, c.pktNr = 255 ∧ sendMsg [1, 2, 3] false c = .panic ∧
    ∃ c', Release.sendMsg [1, 2, 3] false c = .ok () c' ∧ c'.out = [3, 0, 0, 255, 1, 2, 3] ∧ c'.pktNr = 0 := by
  have hm : ¬ ([1, 2, 3] : Bytes).length ≥ maxPacket := by decide
  refine ⟨{ inp := [], pktNr := 255 }, rfl, ?_, ⟨_, by
    unfold Release.sendMsg; dsimp only; rw [Release.sendLoop, dif_neg hm]; rfl, by decide, by decide⟩⟩
  unfold sendMsg; dsimp only; rw [sendLoop, dif_neg hm]; rfl

/-! ### C109: where the build with the checks panics -/

/-- an event whose header announces fewer bytes than a header has is an error in the build without the checks (unless
four gigabytes follow it), a panic in the other -/
theorem C109_short_event (p : ParserV4) (bs : Bytes) (h : Spec.HasHeader bs) (hs : Spec.announced bs < 19)
    (hlen : bs.length < 2 ^ 32) :
    p.skipEvent bs = .panic ∧ p.parseEvent false bs = .panic ∧
    (∃ need, Release.skipEvent p bs = .err (.incomplete need) (bs.drop 19)) ∧
    (∃ need, Release.parseEvent p false bs = .err (.incomplete need) (bs.drop 19)) := by
  obtain ⟨hd, e, hl⟩ := header_ok bs h
  have hp : hd.dataLen (bs.drop 19) = .panic := by unfold EventHeader.dataLen; rw [if_pos (by omega)]; rfl
  have hr : ∃ need, ((Release.dataLen hd (bs.drop 19)).bind fun n => readLen n)
      = .err (.incomplete need) (bs.drop 19) := by
    refine ⟨some ((2 ^ 32 + hd.eventLen - 19) % 2 ^ 32 - (bs.drop 19).length), ?_⟩
    show readLen _ (bs.drop 19) = _
    unfold readLen
    rw [if_pos (by rw [List.length_drop]; have := h.1; omega)]
  obtain ⟨need, hr⟩ := hr
  have hr' : readLen ((2 ^ 32 + hd.eventLen - 19) % 2 ^ 32) (bs.drop 19) = .err (.incomplete need) (bs.drop 19) := hr
  have hd0 : Release.dataLen hd (bs.drop 19) = .ok ((2 ^ 32 + hd.eventLen - 19) % 2 ^ 32) (bs.drop 19) := rfl
  refine ⟨?_, ?_, ⟨need, ?_⟩, ⟨need, ?_⟩⟩
  · unfold ParserV4.skipEvent
    rw [P.bind_apply, e, R.bind_ok, P.bind_apply, hp]; rfl
  · unfold ParserV4.parseEvent
    rw [Bool.and_false]
    show ((EventHeader.readFrom bs).bind _) = _
    rw [e, R.bind_ok, P.bind_apply, hp]; rfl
  · unfold Release.skipEvent
    rw [P.bind_apply, e, R.bind_ok, P.bind_apply, hd0, R.bind_ok, P.bind_apply, hr']; rfl
  · unfold Release.parseEvent
    rw [Bool.and_false]
    show ((EventHeader.readFrom bs).bind _) = _
    rw [e, R.bind_ok, P.bind_apply, hd0, R.bind_ok, P.bind_apply, hr']; rfl

/-- C109 fails for events too short for a checksum: where the build with the checks panics, the other hands out the
event, with the bytes that should have been a checksum as its data -/
theorem C109_event_false (p : ParserV4) (hp : p.checksum = true) (e : Spec.LogEvent) (he : e.InRange)
    (h4 : e.payload.length < 4) :
    p.parseEvent false (e.encode false) = .panic ∧
    ∃ k : LogEventType, k.toByte = e.code ∧ Release.parseEvent p false (e.encode false) = .ok (if k.supported then
      some ⟨k, ⟨e.timestamp, k, e.serverId, e.len false, e.nextPos, e.flags⟩, e.payload⟩ else none) [] := by
  refine ⟨(parse_cut p hp e he).1 h4, ?_⟩
  obtain ⟨k, hkc, hk⟩ := header_encoded false e he []
  rw [List.append_nil, List.append_nil] at hk
  have henc : e.encode false = e.body false := by simp [Spec.LogEvent.encode]
  refine ⟨k, hkc, ?_⟩
  have hd0 : ∀ t, Release.dataLen ⟨e.timestamp, k, e.serverId, e.len false, e.nextPos, e.flags⟩ t
      = .ok e.payload.length t := by
    intro t
    have : (2 ^ 32 + e.len false - 19) % 2 ^ 32 = e.payload.length := by
      unfold Spec.LogEvent.len
      simp only [Bool.false_eq_true, if_false]
      omega
    show R.ok ((2 ^ 32 + e.len false - 19) % 2 ^ 32) t = _
    rw [this]
  have hrd : readLen e.payload.length e.payload = .ok e.payload [] := by
    have := readLen_append' e.payload.length e.payload [] rfl
    rwa [List.append_nil] at this
  have ht : e.payload.take ((2 ^ 64 + e.payload.length - 4) % 2 ^ 64) = e.payload :=
    List.take_of_length_le (by omega)
  unfold Release.parseEvent
  rw [hp, Bool.and_false, P.bind_apply]
  show R.bind (.ok () (e.encode false)) _ = _
  rw [R.bind_ok, P.bind_apply, henc, hk, R.bind_ok, P.bind_apply, hd0, R.bind_ok, P.bind_apply, hrd, R.bind_ok,
    P.bind_apply]
  simp only [if_true]
  rw [ht]
  cases k.supported <;> rfl

/-- a heartbeat event with three bytes -/
example : Spec.LogEvent.InRange ⟨0, 27, 1, 0, 0, [1, 2, 3]⟩ := by
  refine ⟨by decide, by decide, by decide, by decide, by decide, by decide⟩

/-- C109 fails for values. Each of these panics in the build with the checks. In the other, a positive TIME becomes a
negative literal, a TIME of 178956971 days is eight hours in JSON, a BIT value of nine bytes is counted modulo 64 bits, a
DECIMAL with a fraction that is not one gets some other digits, a string longer than its column is accepted, and a BIT
column that announces 256 bytes is read as one of none, so that its bytes are taken for the next column. -/
theorem C109_values_false :
    (timeText ⟨false, 89478486, 0, 0, 0, 0⟩ = none ∧
      Release.timeText ⟨false, 89478486, 0, 0, 0, 0⟩ = asc "-2147483632:00:00") ∧
    (jsonTime ⟨false, 178956971, 0, 0, 0, 0⟩ = none ∧
      Release.jsonTime ⟨false, 178956971, 0, 0, 0, 0⟩ = asc "08:00:00") ∧
    (bitSum 0 [0, 0, 0, 0, 0, 0, 0, 0, 5] = none ∧ Release.bitSum 0 [0, 0, 0, 0, 0, 0, 0, 0, 5] = 5) ∧
    (BinlogColumnValue.readFrom (.newDecimal 2 1) [0x81, 43] = .panic ∧
      Release.BinlogColumnValue.readFrom (.newDecimal 2 1) [0x81, 43] =
        .ok (.newDecimal ⟨1, 1, false, [1, 5032704]⟩) []) ∧
    (BinlogColumnValue.readFrom (.varString 2) [3, 65, 66, 67] = .panic ∧
      Release.BinlogColumnValue.readFrom (.varString 2) [3, 65, 66, 67] = .ok (.varString [65, 66, 67]) []) ∧
    (∀ bs, BinlogColumnValue.readFrom (.bit 1 255) bs = .panic ∧
      Release.BinlogColumnValue.readFrom (.bit 1 255) bs = .ok (.bit []) bs) := by
  refine ⟨⟨by decide +kernel, by decide +kernel⟩, ⟨by decide +kernel, by decide +kernel⟩,
    ⟨by decide +kernel, by decide +kernel⟩, ⟨by decide +kernel, by decide +kernel⟩,
    ⟨by decide +kernel, by decide +kernel⟩, fun bs => ⟨rfl, ?_⟩⟩
  unfold Release.BinlogColumnValue.readFrom
  simp [P.bind_apply, readLen, R.bind_ok, P.pure_apply]

/-- C109 fails for the format description: a table of post-header lengths that says the event's own is below 57 is
taken for one with up to 256 entries -/
theorem C109_format_false (b : UInt8) (hb : b.toNat < 57) (lens rest : Bytes) (h14 : lens.length = 14) :
    fdeCount (lens ++ b :: rest) = .panic ∧
    Release.fdeCount (lens ++ b :: rest) = .ok (199 + b.toNat) (lens ++ b :: rest) := by
  have hg : (lens ++ b :: rest)[LogEventType.formatDescription.toByte - 1]? = some b := by
    show (lens ++ b :: rest)[14]? = some b
    rw [List.getElem?_append_right (by omega), h14]; rfl
  refine ⟨?_, ?_⟩
  · unfold fdeCount; rw [hg]; dsimp only; rw [if_pos hb]
  · unfold Release.fdeCount; rw [hg]; dsimp only
    congr 1; omega

end Mybin
