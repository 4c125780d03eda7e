/-
C36: decoding a row event ends, without a panic.
-/
import Verif.Props.C35

namespace Mybin

/-- reading cannot panic or loop on any input -/
def NeverPanics {α : Type} (p : P α) : Prop := ∀ bs, p bs ≠ .panic ∧ p bs ≠ .hang

theorem Well.neverPanics {α : Type} {p : P α} (h : Well p) : NeverPanics p := by
  intro bs
  have := h bs
  constructor <;> intro e <;> rw [e] at this <;> exact this

theorem Well.bind_post {α β : Type} {x : P α} {f : α → P β} (post : α → Prop) (hx : Well x)
    (hp : ∀ bs a r, x bs = .ok a r → post a) (hf : ∀ a, post a → Well (f a)) : Well (x >>= f) := by
  intro bs
  have h := hx bs
  rw [P.bind_apply]
  cases e : x bs with
  | ok a r =>
    rw [e] at h
    have h2 := hf a (hp bs a r e) r
    simp only [R.bind_ok]
    cases e2 : f a r with
    | ok b r2 => rw [e2] at h2; exact List.IsSuffix.trans h2 h
    | err e' r2 => rw [e2] at h2; exact List.IsSuffix.trans h2 h
    | panic => rw [e2] at h2; exact h2
    | hang => rw [e2] at h2; exact h2
  | err e' r => rw [e] at h; exact h
  | panic => rw [e] at h; exact h
  | hang => rw [e] at h; exact h

theorem FixedRead.inv {α : Type} {k : Nat} {val : Bytes → α} {p : P α} (h : FixedRead k val p) {bs r : Bytes}
    {a : α} (e : p bs = .ok a r) : ∃ x, x.length = k ∧ bs = x ++ r ∧ a = val x := by
  by_cases hb : k ≤ bs.length
  · rw [(h bs).1 hb] at e
    obtain ⟨rfl, rfl⟩ := R.ok.inj e
    exact ⟨bs.take k, by simp; omega, by simp, rfl⟩
  · rw [(h bs).2 (by omega)] at e; cases e

/-! ### column values -/

/-- the column metadata for which no input makes the value decoder panic -/
def TotalMeta : ColumnMeta → Prop
  | .decimal | .geometry _ | .dateTime _ | .double _ => False
  | .bit bits bytes => bytes + (if bits > 0 then 1 else 0) < 256
  | .newDecimal prec frac => frac ≤ prec ∧ (frac % 9 = 0 ∨ frac % 9 = 2)
  | .blob p => 1 ≤ p ∧ p ≤ 4
  | .varString m => m = 255 ∨ 65535 ≤ m
  | _ => True

/-- the fragment reader is a read of `L` bytes and a computation -/
theorem readExtra_shape (rev : Bool) (L : Nat) (neg : Bool) (h1 : 1 ≤ L) (h4 : L ≤ 4) :
    ∃ (val : Bytes → Nat) (r : P Nat) (f : Nat → Nat), FixedRead L val r ∧ Well r ∧
      readExtraFragment rev L neg = (r >>= fun n => pure (f n)) := by
  have hL : L = 1 ∨ L = 2 ∨ L = 3 ∨ L = 4 := by omega
  rcases hL with rfl | rfl | rfl | rfl
  · exact ⟨_, readU8, fun n => (if neg then (if rev then n ^^^ 0x80 else n) ^^^ 0xff else (if rev then n ^^^ 0x80 else n)),
      fixedRead_u8, by well, rfl⟩
  · exact ⟨_, readBeU16, fun n => (if neg then (if rev then n ^^^ 0x8000 else n) ^^^ 0xffff else (if rev then n ^^^ 0x8000 else n)),
      fixedRead_readFixed 2 beVal, by well, rfl⟩
  · exact ⟨_, readBeU24, fun n => ((if neg then (if rev then n ^^^ 0x800000 else n) ^^^ 0xffffff else (if rev then n ^^^ 0x800000 else n)) &&& 0x00ffffff),
      fixedRead_beU24, by well, rfl⟩
  · exact ⟨_, readBeU32, fun n => (if neg then (if rev then n ^^^ 0x80000000 else n) ^^^ 0xffffffff else (if rev then n ^^^ 0x80000000 else n)),
      fixedRead_readFixed 4 beVal, by well, rfl⟩

theorem readExtra_well (rev : Bool) (L : Nat) (neg : Bool) (h1 : 1 ≤ L) (h4 : L ≤ 4) :
    Well (readExtraFragment rev L neg) := by
  obtain ⟨_, r, f, _, hw, e⟩ := readExtra_shape rev L neg h1 h4
  rw [e]
  exact Well.bind hw fun _ => Well.pure _

theorem readExtra_lt (L : Nat) (neg : Bool) (h1 : 1 ≤ L) (h4 : L ≤ 4) {bs r : Bytes} {v : Nat}
    (h : readExtraFragment false L neg bs = .ok v r) : v < 256 ^ L := by
  have hp : 2 ^ (8 * L) = 256 ^ L := by rw [Nat.pow_mul]
  by_cases hb : L ≤ bs.length
  · obtain ⟨x, t, rfl, hx, _⟩ := split_at L bs hb
    rw [readExtra_val _ _ _ _ _ h1 h4 hx] at h
    obtain ⟨rfl, -⟩ := R.ok.inj h
    have := beVal_lt x
    rw [hx, ← hp] at this
    rw [← hp]
    cases neg
    · simpa using this
    · simp only [if_true, Bool.false_eq_true, if_false]
      exact Nat.xor_lt_two_pow this (by have := Nat.two_pow_pos (8 * L); omega)
  · exfalso
    obtain ⟨_, rd, f, hr, _, e⟩ := readExtra_shape false L neg h1 h4
    rw [e, P.bind_eq_ok] at h
    obtain ⟨a, r1, h1, _⟩ := h
    obtain ⟨x, hx, rfl, _⟩ := hr.inv h1
    simp at hb; omega

theorem decimal_well (intg frac : Nat) (hf : frac % 9 = 0 ∨ frac % 9 = 2) : Well (MyDecimal.readFrom intg frac) := by
  have digits : ∀ neg, Well (MyDecimal.readDigits intg frac neg) := by
    intro neg
    have frag : Well (readFragment neg) := by unfold readFragment; well
    unfold MyDecimal.readDigits
    dsimp only
    rw [show intg - intg / 9 * 9 = intg % 9 by omega, show frac - frac / 9 * 9 = frac % 9 by omega]
    refine Well.bind (Well.ite (fun h => ?_) fun _ => Well.pure _) fun _ => ?_
    · have hd := digBytes_small (intg % 9) h (Nat.mod_lt _ (by omega))
      rw [digBytes_eq _ (Nat.mod_lt _ (by omega))]
      exact Well.bind (readExtra_well _ _ _ hd.1 hd.2.1) fun _ => Well.pure _
    · refine Well.bind (Well.times frag _) fun _ => Well.bind (Well.times frag _) fun _ => ?_
      refine Well.bind (Well.ite (fun h => ?_) fun _ => Well.pure _) fun _ => Well.pure _
      have h2 : frac % 9 = 2 := by omega
      rw [h2]
      refine Well.bind_post (fun v => v < 256) (readExtra_well _ _ _ (by decide) (by decide))
        (fun bs a r h => readExtra_lt 1 neg (by omega) (by omega) h) fun v hv => ?_
      refine Well.bind ?_ fun _ => Well.pure _
      rw [mulU32, if_pos (by norm_num; omega)]
      exact Well.pure _
  intro bs
  cases bs with
  | nil => exact List.suffix_refl _
  | cons b t => exact digits _ (b :: t)

theorem time6_ne (hms f : Nat) (hh : hms < 2 ^ 24) (hf : f < 2 ^ 24) :
    (hms * 2 ^ 24 + f + 2 ^ 64 - 0x800000000000) % 2 ^ 64 ≠ 2 ^ 63 := by
  omega

theorem time_well (frac : Nat) : Well (MyTime.fromBinlog frac) := by
  have neg : ∀ n, n ≠ 2 ^ 63 → Well (negI64 n) := by
    intro n hn bs
    rw [negI64_spec n hn bs]
  have key : ∀ hms, hms < 2 ^ 24 → ∀ bs a r, packedTimeParts hms frac bs = .ok a r → a ≠ 2 ^ 63 := by
    intro hms hh bs a r h
    have hip : ((hms + 2 ^ 32 - 0x800000) % 2 ^ 32) <<< 24 < 2 ^ 56 := by
      rw [Nat.shiftLeft_eq]
      have := Nat.mod_lt (hms + 2 ^ 32 - 0x800000) (show 0 < 2 ^ 32 by norm_num)
      omega
    unfold packedTimeParts at h
    by_cases f0 : frac = 0
    · rw [if_pos f0, P.pure_eq_ok] at h
      rw [← h.1]
      have := small_ne _ 0 hip (by norm_num)
      rw [Nat.add_zero] at this
      exact this
    · rw [if_neg f0] at h
      by_cases f2 : frac = 1 ∨ frac = 2
      · rw [if_pos f2, P.bind_eq_ok] at h
        obtain ⟨v, r1, h1, h2⟩ := h
        rw [P.pure_eq_ok] at h2
        obtain ⟨x, hx, _, rfl⟩ := fixedRead_u8.inv h1
        have := leVal_lt x
        rw [hx] at this
        rw [← h2.1]
        exact small_ne _ _ hip (by omega)
      · rw [if_neg f2] at h
        by_cases f4 : frac = 3 ∨ frac = 4
        · rw [if_pos f4, P.bind_eq_ok] at h
          obtain ⟨v, r1, h1, h2⟩ := h
          rw [P.pure_eq_ok] at h2
          obtain ⟨x, hx, _, rfl⟩ := (fixedRead_readFixed 2 beVal).inv h1
          have := beVal_lt x
          rw [hx] at this
          rw [← h2.1]
          exact small_ne _ _ hip (by omega)
        · rw [if_neg f4] at h
          by_cases f6 : frac = 5 ∨ frac = 6
          · rw [if_pos f6, P.bind_eq_ok] at h
            obtain ⟨v, r1, h1, h2⟩ := h
            rw [P.pure_eq_ok] at h2
            obtain ⟨x, hx, _, rfl⟩ := fixedRead_beU24.inv h1
            have := beVal_lt x
            rw [hx] at this
            have := time6_ne hms (beVal x) hh (by omega)
            rw [← Nat.shiftLeft_eq, h2.1] at this
            exact this
          · rw [if_neg f6] at h
            cases h
  unfold MyTime.fromBinlog packedFromTimeBinary
  refine Well.bind ?_ fun _ => Well.pure _
  refine Well.bind_post (fun n => n < 2 ^ 24) Well.beU24 (fun bs a r h => ?_) fun hms hh => ?_
  · obtain ⟨x, hx, _, rfl⟩ := fixedRead_beU24.inv h
    have := beVal_lt x
    rw [hx] at this
    omega
  · refine Well.bind_post (fun n => n ≠ 2 ^ 63) ?_ (key hms hh) fun p hp => ?_
    · unfold packedTimeParts; well
    · refine Well.bind (Well.ite (fun _ => neg p hp) fun _ => Well.pure _) fun _ => Well.pure _

theorem value_well (m : ColumnMeta) (h : TotalMeta m) : Well (BinlogColumnValue.readFrom m) := by
  cases m
  case timestamp f => unfold BinlogColumnValue.readFrom; dsimp only; well
  case time2 f => exact Well.bind (time_well f) fun _ => Well.pure _
  case dateTime f => exact h.elim
  case decimal => exact h.elim
  case geometry => exact h.elim
  case double => exact h.elim
  case bit b n =>
    unfold BinlogColumnValue.readFrom
    dsimp only
    simp only [TotalMeta] at h
    rw [if_pos h]
    well
  case newDecimal p f =>
    unfold BinlogColumnValue.readFrom
    dsimp only
    rw [if_pos h.1]
    exact Well.bind (decimal_well _ _ h.2) fun _ => Well.pure _
  case enum p =>
    unfold BinlogColumnValue.readFrom readEnum
    dsimp only
    well
  case blob p =>
    unfold BinlogColumnValue.readFrom
    dsimp only
    refine Well.bind ?_ fun _ => by well
    simp only [TotalMeta] at h
    have : p = 1 ∨ p = 2 ∨ p = 3 ∨ p = 4 := by omega
    rcases this with rfl | rfl | rfl | rfl
    · exact Well.u8
    · exact Well.leU16
    · exact Well.leU24
    · exact Well.leU32
  case varString n =>
    unfold BinlogColumnValue.readFrom
    dsimp only
    simp only [TotalMeta] at h
    refine Well.bind_post (fun l => l ≤ n) (by well) (fun bs a r e => ?_) fun l hl => ?_
    · rcases h with rfl | h
      · rw [if_pos (by omega)] at e
        obtain ⟨x, hx, _, rfl⟩ := fixedRead_u8.inv e
        have := leVal_lt x
        rw [hx] at this
        omega
      · rw [if_neg (by omega)] at e
        obtain ⟨x, hx, _, rfl⟩ := (fixedRead_readFixed 2 leVal).inv e
        have := leVal_lt x
        rw [hx] at this
        omega
    · rw [if_pos hl]; well
  all_goals (unfold BinlogColumnValue.readFrom; dsimp only; well)

/-- an all-ones input overflows a short fraction group -/
theorem decimal_panics (intg frac : Nat) (h : frac % 9 ≠ 0 ∧ frac % 9 ≠ 2) :
    ∃ bs, MyDecimal.readFrom intg frac bs = .panic := by
  let ones (k : Nat) : Bytes := List.replicate k 255
  let grp (m : Nat) : Bytes := ((List.replicate m ()).map fun _ => ones 4).flatten
  let bs : Bytes := ones (Spec.digBytes (intg % 9)) ++ (grp (intg / 9) ++ (grp (frac / 9) ++ (ones (Spec.digBytes (frac % 9)) ++ [])))
  have hgrp : ∀ m t, P.times (readFragment false) m (grp m ++ t)
      = .ok ((List.replicate m ()).map fun _ => beVal (ones 4)) t := by
    intro m t
    have := P.times_spec (readFragment false) (fun _ : Unit => ones 4) (fun _ => beVal (ones 4)) (List.replicate m ())
      (fun a _ t => by
        unfold readFragment
        rw [P.bind_apply, readBeU32, (fixedRead_readFixed 4 beVal).append _ _ (by simp [ones]), R.bind_ok]
        rfl) t
    rwa [List.length_replicate] at this
  have hfd := digBytes_small (frac % 9) (by omega) (Nat.mod_lt _ (by omega))
  have hall : ∀ b ∈ bs, b = 255 := by
    intro b hb
    simp only [bs, grp, ones, List.mem_append, List.mem_flatten, List.mem_map, List.mem_replicate,
      List.not_mem_nil, or_false] at hb
    rcases hb with hb | ⟨l, ⟨_, _, rfl⟩, hb⟩ | ⟨l, ⟨_, _, rfl⟩, hb⟩ | hb
    · exact hb.2
    · exact List.eq_of_mem_replicate hb
    · exact List.eq_of_mem_replicate hb
    · exact hb.2
  have digits : MyDecimal.readDigits intg frac false bs = .panic := by
    unfold MyDecimal.readDigits
    rw [show intg - intg / 9 * 9 = intg % 9 by omega, show frac - frac / 9 * 9 = frac % 9 by omega]
    rw [digBytes_eq _ (Nat.mod_lt _ (by omega)), digBytes_eq _ (Nat.mod_lt _ (by omega))]
    have first : ∃ l, (if intg % 9 > 0 then do
          let f ← readExtraFragment true (Spec.digBytes (intg % 9)) false
          return [f]
        else pure [] : P (List Nat)) bs = .ok l (grp (intg / 9) ++ (grp (frac / 9) ++ (ones (Spec.digBytes (frac % 9)) ++ []))) := by
      by_cases hi : intg % 9 > 0
      · have hd := digBytes_small (intg % 9) hi (Nat.mod_lt _ (by omega))
        rw [if_pos hi, P.bind_apply, readExtra_val _ _ _ _ _ hd.1 hd.2.1 (by simp [ones]), R.bind_ok]
        exact ⟨_, rfl⟩
      · rw [if_neg hi]
        have : intg % 9 = 0 := by omega
        refine ⟨[], ?_⟩
        simp only [bs, this]
        rfl
    obtain ⟨l, hl⟩ := first
    rw [P.bind_apply, hl, R.bind_ok]
    step (hgrp _ _)
    step (hgrp _ _)
    rw [if_pos (by omega), P.bind_apply, P.bind_apply, readExtra_val _ _ _ _ _ hfd.1 hfd.2.1 (by simp [ones]),
      R.bind_ok, P.bind_apply]
    have hov : ∀ r, r < 9 → r ≠ 0 → r ≠ 2 →
        ¬ (beVal (List.replicate (Spec.digBytes r) 255) * 10 ^ (9 - r) < 2 ^ 32) := by decide +kernel
    rw [mulU32]
    simp only [Bool.false_eq_true, if_false, ones]
    rw [if_neg (hov _ (Nat.mod_lt _ (by omega)) h.1 h.2)]
    rfl
  have hne : bs ≠ [] := by
    intro h
    have := congrArg List.length h
    simp [bs, ones] at this
    omega
  refine ⟨bs, ?_⟩
  clear_value bs
  match bs, hne, hall, digits with
  | b :: t, _, hall, digits =>
    have hb : b = 255 := hall b (by simp)
    subst hb
    exact digits

/-- C36: exactly the columns whose decoding can panic on some bytes: those of the unsupported kinds,
DATETIME columns (zero bytes), DOUBLE columns (cut short), VARCHARs of any length but 255 and 65535, DECIMALs whose number of decimals
is not 0 or 2 modulo 9, and impossible BIT, DECIMAL and BLOB metadata. -/
theorem C36_value (m : ColumnMeta) (hd : ∀ f, m = .dateTime f → f ≤ 6) :
    NeverPanics (BinlogColumnValue.readFrom m) ↔ TotalMeta m := by
  constructor
  · intro h
    cases m <;> simp only [TotalMeta]
    case decimal => exact (h []).1 rfl
    case geometry p => exact (h []).1 rfl
    case double p => exact (h [0, 0, 0, 0, 0]).1 rfl
    case dateTime f =>
      have hf := hd f rfl
      have : f = 0 ∨ f = 1 ∨ f = 2 ∨ f = 3 ∨ f = 4 ∨ f = 5 ∨ f = 6 := by omega
      refine (h (List.replicate 8 0)).1 ?_
      rcases this with rfl | rfl | rfl | rfl | rfl | rfl | rfl <;> decide +kernel
    case bit b n =>
      by_contra hc
      refine (h []).1 ?_
      rw [BinlogColumnValue.readFrom]
      show (if _ then _ else _ : P _) [] = _
      rw [if_neg hc]
      rfl
    case newDecimal p f =>
      by_cases hpf : f ≤ p
      · refine ⟨hpf, ?_⟩
        by_contra hc
        obtain ⟨bs, hb⟩ := decimal_panics (p - f) f (by omega)
        refine (h bs).1 ?_
        rw [BinlogColumnValue.readFrom]
        rw [if_pos hpf, P.bind_apply, hb]
        rfl
      · exfalso
        refine (h []).1 ?_
        rw [BinlogColumnValue.readFrom]
        rw [if_neg (by omega)]
        rfl
    case blob p =>
      by_contra hc
      refine (h []).1 ?_
      rw [BinlogColumnValue.readFrom, P.bind_apply]
      unfold readBlobLen
      split <;> first | omega | rfl
    case varString n =>
      by_contra hc
      by_cases hn : n < 256
      · refine (h [255]).1 ?_
        rw [BinlogColumnValue.readFrom]
        rw [if_pos hn]
        step (show readU8 [255] = .ok 255 [] from rfl)
        rw [if_neg (by omega)]
        rfl
      · refine (h [255, 255]).1 ?_
        rw [BinlogColumnValue.readFrom]
        rw [if_neg hn]
        step (show readLeU16 [255, 255] = .ok 65535 [] from rfl)
        rw [if_neg (by omega)]
        rfl
  · intro h
    exact (value_well m h).neverPanics

/-! ### rows -/

theorem markNulls_total (nb : Bytes) (bits : List Bool) : ∀ (i j : Nat) (bm : Bytes),
    (∀ x b, bits[x]? = some b → Spec.bit? bm (j + x) = some b) → i + bits.count true ≤ 8 * nb.length →
    ∃ bm', markNulls nb (bits.count true) i j bm = some bm' ∧ bm'.length = bm.length := by
  induction bits with
  | nil => intro i j bm _ _; exact ⟨bm, rfl, rfl⟩
  | cons b bits ih =>
    intro i j bm hp hn
    have h0 := hp 0 b rfl
    rw [Nat.add_zero] at h0
    have hp' : ∀ x b, bits[x]? = some b → Spec.bit? bm (j + 1 + x) = some b := by
      intro x b' h
      have := hp (x + 1) b' (by simpa using h)
      rwa [show j + (x + 1) = j + 1 + x by omega] at this
    cases b with
    | false =>
      rw [List.count_cons, markNulls_skip _ _ _ _ _ h0]
      rw [List.count_cons] at hn
      exact ih i (j + 1) bm hp' hn
    | true =>
      rw [List.count_cons, beq_self_eq_true, if_pos rfl] at hn ⊢
      have hlt : j < 8 * bm.length := by rw [← Bitmap.bit?_isSome, h0]; rfl
      have hs : (Spec.bit? nb i).isSome := (Bitmap.bit?_isSome nb i).2 (by omega)
      obtain ⟨v, hv⟩ := Option.isSome_iff_exists.1 hs
      obtain ⟨bm2, hm, hl, hb⟩ := Bitmap.mark_some bm j (!v) hlt
      obtain ⟨bm', e1, e2⟩ := ih (i + 1) (j + 1) bm2 (by
        intro x b h
        rw [hb, if_neg (by omega)]
        exact hp' x b h) (by omega)
      refine ⟨bm', ?_, by omega⟩
      simp only [markNulls, nextSet_true bm j h0, Bitmap.index_eq, hv, hm]
      exact e1

theorem readCols_well (bm : Bytes) (n : Nat) : ∀ (i : Nat) (ms : List ColumnMeta), n ≤ ms.length →
    (∀ m ∈ ms, TotalMeta m) → i + n ≤ 8 * bm.length → Well (LogRow.readCols bm n i ms) := by
  induction n with
  | zero => intro i ms _ _ _; exact Well.pure _
  | succ n ih =>
    intro i ms hl ht hb
    cases ms with
    | nil => simp at hl
    | cons m ms =>
      have hs : (Spec.bit? bm i).isSome := (Bitmap.bit?_isSome bm i).2 (by omega)
      obtain ⟨v, hv⟩ := Option.isSome_iff_exists.1 hs
      have hr := ih (i + 1) ms (by simpa using hl) (fun m hm => ht m (by simp [hm])) (by omega)
      unfold LogRow.readCols
      rw [Bitmap.index_eq, hv]
      cases v
      · exact Well.bind hr fun _ => Well.pure _
      · exact Well.bind (value_well m (ht m (by simp))) fun _ => Well.bind hr fun _ => Well.pure _

theorem bits_of (bm : Bytes) (n : Nat) (h : n ≤ 8 * bm.length) :
    ∃ bits : List Bool, bits.length = n ∧ (∀ x b, bits[x]? = some b → Spec.bit? bm x = some b) ∧
      countPresent bm n = bits.count true := by
  obtain ⟨l, h1, h2, h3⟩ := Bitmap.toIter_eq bm 0 (by omega)
  refine ⟨l.take n, by simp; omega, fun x b hx => ?_, ?_⟩
  · rw [List.getElem?_take] at hx
    split at hx
    · have hxl : x < l.length := by
        by_contra hc
        rw [List.getElem?_eq_none (by omega)] at hx
        cases hx
      rw [h3 x hxl, Nat.zero_add] at hx
      exact hx
    · cases hx
  · unfold countPresent
    rw [h1]
    rfl

theorem readImage_well (n : Nat) (bm : Bytes) (ms : List ColumnMeta) (hn : n ≤ ms.length)
    (h32 : n + 7 < 2 ^ 32) (ht : ∀ m ∈ ms, TotalMeta m) (hb : bm.length = (n + 7) / 8) :
    Well (readImage n (countPresent bm n) bm ms) := by
  obtain ⟨bits, hbl, hbits, hc⟩ := bits_of bm n (by omega)
  rw [hc]
  unfold readImage
  refine Well.bind_post (fun nb => nb.length = (bits.count true + 7) >>> 3) (Well.len _) (fun bs a r h => ?_)
    fun nb hnb => ?_
  · rw [readLen_eq_ok] at h
    exact h.1
  · rw [Bitmap.shr3] at hnb
    obtain ⟨bm', e1, e2⟩ := markNulls_total nb bits 0 0 bm
      (fun x b h => by rw [Nat.zero_add]; exact hbits x b h) (by omega)
    rw [e1]
    dsimp only
    unfold LogRow.readFrom
    refine Well.bind (fun bs => ?_) fun _ => readCols_well bm' n 0 ms hn ht (by omega)
    rw [withCapacity_ok _ _ (by omega)]

theorem readImage_consumes (n : Nat) (bm : Bytes) (ms : List ColumnMeta) (hn : n ≤ ms.length)
    (h32 : n + 7 < 2 ^ 32) (ht : ∀ m ∈ ms, TotalMeta m) (hb : bm.length = (n + 7) / 8)
    (hpos : 0 < countPresent bm n) (bs r : Bytes) (vs : List BinlogColumnValue)
    (h : readImage n (countPresent bm n) bm ms bs = .ok vs r) : r.length < bs.length := by
  have hw := readImage_well n bm ms hn h32 ht hb
  unfold readImage at h
  rw [P.bind_eq_ok] at h
  obtain ⟨nb, r1, h1, h2⟩ := h
  rw [readLen_eq_ok] at h1
  obtain ⟨hl, rfl⟩ := h1
  rw [Bitmap.shr3] at hl
  obtain ⟨bits, hbl, hbits, hc⟩ := bits_of bm n (by omega)
  obtain ⟨bm', e1, e2⟩ := markNulls_total nb bits 0 0 bm
    (fun x b h => by rw [Nat.zero_add]; exact hbits x b h) (by omega)
  rw [hc, e1] at h2
  have hlw : Well (LogRow.readFrom n bm' ms) := by
    unfold LogRow.readFrom
    refine Well.bind (fun bs => ?_) fun _ => readCols_well bm' n 0 ms hn ht (by omega)
    rw [withCapacity_ok _ _ (by omega)]
  have := hlw r1
  dsimp only at h2
  rw [h2] at this
  have hle := this.length_le
  rw [List.length_append]
  omega

/-- the column count and bitmap of logged columns at the start of a payload are those of a table with at
most `max` columns, with a logged column; payloads that end before them satisfy this too -/
def GoodHeader (extraLen max : Nat) (bitmaps : Nat) (payload : Bytes) : Prop :=
  ∀ l t n, readLenEncInt (payload.drop (extraLen - 2)) = .ok l t → l.toU32 = some n →
    n ≤ max ∧ (bitmaps * ((n + 7) / 8) ≤ t.length →
      ∃ i < n, ∃ k < bitmaps, Spec.bit? ((t.drop (k * ((n + 7) / 8))).take ((n + 7) / 8)) i = some true)

theorem countPresent_pos (bm : Bytes) (n : Nat) (i : Nat) (hi : i < n) (h : n ≤ 8 * bm.length)
    (hb : Spec.bit? bm i = some true) : 0 < countPresent bm n := by
  obtain ⟨bits, hbl, hbits, hc⟩ := bits_of bm n h
  rw [hc]
  apply List.count_pos_iff.2
  have hil : i < bits.length := by omega
  have := hbits i _ (List.getElem?_eq_getElem hil)
  rw [hb] at this
  cases this' : bits[i]
  · rw [this'] at this; cases this
  · rw [← this']; exact List.getElem_mem hil

theorem rows_header_inv (extraLen max bitmaps : Nat) (payload : Bytes) (hx : 2 ≤ extraLen)
    (hmax : max + 7 < 2 ^ 32) (hg : GoodHeader extraLen max bitmaps payload) :
    (∃ e r, readRowsHeader extraLen payload = .err e r) ∨
    ∃ extra n t, readRowsHeader extraLen payload = .ok (extra, n) t ∧ n ≤ max ∧
      (bitmaps * ((n + 7) / 8) ≤ t.length →
        ∃ i < n, ∃ k < bitmaps, Spec.bit? ((t.drop (k * ((n + 7) / 8))).take ((n + 7) / 8)) i = some true) := by
  unfold readRowsHeader
  rw [if_neg (by omega), P.bind_apply]
  by_cases hl : payload.length < extraLen - 2
  · left
    rw [show readLen (extraLen - 2) payload = .err (.incomplete (some (extraLen - 2 - payload.length))) payload by
      simp [readLen, hl]]
    exact ⟨_, _, rfl⟩
  · rw [show readLen (extraLen - 2) payload = .ok (payload.take (extraLen - 2)) (payload.drop (extraLen - 2)) by
      simp [readLen, hl], R.bind_ok, P.bind_apply]
    have hw := Well.lenEncInt (payload.drop (extraLen - 2))
    cases e : readLenEncInt (payload.drop (extraLen - 2)) with
    | panic => rw [e] at hw; exact hw.elim
    | hang => rw [e] at hw; exact hw.elim
    | err e' r => left; exact ⟨_, _, rfl⟩
    | ok l t =>
      rw [R.bind_ok]
      cases e2 : l.toU32 with
      | none => left; exact ⟨_, _, rfl⟩
      | some n =>
        right
        obtain ⟨h1, h2⟩ := hg l t n e e2
        refine ⟨payload.take (extraLen - 2), n, t, ?_, h1, h2⟩
        step (show P.orErr (some n) .constraint t = .ok n t from rfl)
        rw [if_pos (by omega)]
        rfl

/-- C36: decoding the payload of a write or delete event ends with rows or an error, for any bytes (cut
short, or with any contents after the header), when the event has extra data of at least two bytes (its
length field counts itself), as many columns as metadata entries or fewer, at least one logged column, and
columns for which values cannot panic. (Full claim: any payload. Each condition is needed:
`C36_no_columns_false`, `C36_header_false`, `C36_value`.) -/
theorem C36_rows_partial (extraLen : Nat) (ms : List ColumnMeta) (payload : Bytes) (hx : 2 ≤ extraLen)
    (hmax : ms.length + 7 < 2 ^ 32) (ht : ∀ m ∈ ms, TotalMeta m) (hg : GoodHeader extraLen ms.length 1 payload) :
    RowsV2.readFrom extraLen ms payload ≠ .panic ∧ RowsV2.readFrom extraLen ms payload ≠ .hang := by
  unfold RowsV2.readFrom
  rw [P.bind_apply]
  rcases rows_header_inv extraLen ms.length 1 payload hx hmax hg with ⟨e, r, h⟩ | ⟨extra, n, t, h, hn, hp⟩
  · rw [h]; exact ⟨by simp [R.bind], by simp [R.bind]⟩
  · rw [h, R.bind_ok]
    dsimp only
    rw [P.bind_apply, Bitmap.shr3]
    by_cases hl : t.length < (n + 7) / 8
    · rw [show readLen ((n + 7) / 8) t = .err (.incomplete (some ((n + 7) / 8 - t.length))) t by
        simp only [readLen]; rw [if_pos hl]]
      exact ⟨by simp [R.bind], by simp [R.bind]⟩
    · obtain ⟨bm, t', rfl, hbl, _⟩ := split_at ((n + 7) / 8) t (by omega)
      rw [readLen_append' _ bm t' hbl, R.bind_ok]
      obtain ⟨i, hi, k, hk, hb⟩ := hp (by rw [List.length_append]; omega)
      have hk0 : k = 0 := by omega
      subst hk0
      rw [Nat.zero_mul, List.drop_zero, List.take_left' (by omega)] at hb
      have hw := Well.whileRemaining (readImage_well n bm ms hn (by omega) ht (by omega))
        (fun bs a r _ h => readImage_consumes n bm ms hn (by omega) ht (by omega)
          (countPresent_pos bm n i hi (by omega) hb) bs r a h) t'
      show R.bind (P.whileRemaining _ _) _ ≠ _ ∧ R.bind (P.whileRemaining _ _) _ ≠ _
      cases e : P.whileRemaining (readImage n (countPresent bm n) bm ms) t' with
      | panic => rw [e] at hw; exact hw.elim
      | hang => rw [e] at hw; exact hw.elim
      | err e' r => exact ⟨by simp [R.bind], by simp [R.bind]⟩
      | ok a r => exact ⟨by simp [R.bind], by simp [R.bind]⟩

/-- C36: the same for update events; a column may be logged before or after the change. -/
theorem C36_update_rows_partial (extraLen : Nat) (ms : List ColumnMeta) (payload : Bytes) (hx : 2 ≤ extraLen)
    (hmax : ms.length + 7 < 2 ^ 32) (ht : ∀ m ∈ ms, TotalMeta m) (hg : GoodHeader extraLen ms.length 2 payload) :
    UpdateRowsV2.readFrom extraLen ms payload ≠ .panic ∧ UpdateRowsV2.readFrom extraLen ms payload ≠ .hang := by
  unfold UpdateRowsV2.readFrom
  rw [P.bind_apply]
  rcases rows_header_inv extraLen ms.length 2 payload hx hmax hg with ⟨e, r, h⟩ | ⟨extra, n, t, h, hn, hp⟩
  · rw [h]; exact ⟨by simp [R.bind], by simp [R.bind]⟩
  · rw [h, R.bind_ok]
    dsimp only
    rw [P.bind_apply, Bitmap.shr3]
    by_cases hl : t.length < (n + 7) / 8
    · rw [show readLen ((n + 7) / 8) t = .err (.incomplete (some ((n + 7) / 8 - t.length))) t by
        simp only [readLen]; rw [if_pos hl]]
      exact ⟨by simp [R.bind], by simp [R.bind]⟩
    · obtain ⟨b1, t', rfl, hbl, _⟩ := split_at ((n + 7) / 8) t (by omega)
      rw [readLen_append' _ b1 t' hbl, R.bind_ok, P.bind_apply]
      by_cases hl : t'.length < (n + 7) / 8
      · rw [show readLen ((n + 7) / 8) t' = .err (.incomplete (some ((n + 7) / 8 - t'.length))) t' by
          simp only [readLen]; rw [if_pos hl]]
        exact ⟨by simp [R.bind], by simp [R.bind]⟩
      · obtain ⟨b2, t2, rfl, hbl2, _⟩ := split_at ((n + 7) / 8) t' (by omega)
        rw [readLen_append' _ b2 t2 hbl2, R.bind_ok]
        obtain ⟨i, hi, k, hk, hb⟩ := hp (by rw [List.length_append, List.length_append]; omega)
        have w1 := readImage_well n b1 ms hn (by omega) ht (by omega)
        have w2 := readImage_well n b2 ms hn (by omega) ht (by omega)
        have hpos : 0 < countPresent b1 n ∨ 0 < countPresent b2 n := by
          have : k = 0 ∨ k = 1 := by omega
          rcases this with rfl | rfl
          · rw [Nat.zero_mul, List.drop_zero, List.take_left' (by omega)] at hb
            exact .inl (countPresent_pos b1 n i hi (by omega) hb)
          · rw [Nat.one_mul, List.drop_left' (by omega), List.take_left' (by omega)] at hb
            exact .inr (countPresent_pos b2 n i hi (by omega) hb)
        have wr : Well (readUpdateRow n b1 b2 ms) := by
          unfold readUpdateRow
          exact Well.bind w1 fun _ => Well.bind w2 fun _ => Well.pure _
        have hw := Well.whileRemaining wr (fun bs a r _ h => by
          unfold readUpdateRow at h
          rw [P.bind_eq_ok] at h
          obtain ⟨x, r1, h1, h2⟩ := h
          rw [P.bind_eq_ok] at h2
          obtain ⟨y, r2, h3, h4⟩ := h2
          rw [P.pure_eq_ok] at h4
          obtain ⟨_, rfl⟩ := h4
          have s1 := w1 bs
          rw [h1] at s1
          have s2 := w2 r1
          rw [h3] at s2
          have l1 := List.IsSuffix.length_le s1
          have l2 := List.IsSuffix.length_le s2
          rcases hpos with hpos | hpos
          · have := readImage_consumes n b1 ms hn (by omega) ht (by omega) hpos _ _ _ h1
            omega
          · have := readImage_consumes n b2 ms hn (by omega) ht (by omega) hpos _ _ _ h3
            omega) t2
        show R.bind (P.whileRemaining _ _) _ ≠ _ ∧ R.bind (P.whileRemaining _ _) _ ≠ _
        cases e : P.whileRemaining (readUpdateRow n b1 b2 ms) t2 with
        | panic => rw [e] at hw; exact hw.elim
        | hang => rw [e] at hw; exact hw.elim
        | err e' r => exact ⟨by simp [R.bind], by simp [R.bind]⟩
        | ok a r => exact ⟨by simp [R.bind], by simp [R.bind]⟩

/-- C36: an event in which no column is logged, followed by anything (such as a row), is never finished. -/
theorem C36_no_columns_false : RowsV2.readFrom 2 [.long] [1, 0, 7] = .hang := by
  unfold RowsV2.readFrom
  have h1 : readRowsHeader 2 [1, 0, 7] = .ok ([], 1) [0, 7] := by decide +kernel
  rw [P.bind_apply, h1, R.bind_ok]
  dsimp only
  step (show readLen ((1 + 7) >>> 3) [0, 7] = .ok [0] [7] by decide +kernel)
  show R.bind (P.whileRemaining _ _) _ = _
  rw [P.whileRemaining]
  have h2 : readImage 1 (countPresent [0] 1) [0] [.long] [7] = .ok [.null] [7] := by
    have hc : countPresent [0] 1 = 0 := by decide +kernel
    rw [hc]
    unfold readImage
    step (show readLen ((0 + 7) >>> 3) [7] = .ok [] [7] from rfl)
    rw [markNulls]
    decide +kernel
  rw [if_neg (by simp), h2]
  rfl

/-- C36: an extra-data length below 2 and a column count beyond the metadata are panics. -/
theorem C36_header_false :
    RowsV2.readFrom 0 [.long] [1, 1, 0, 7, 0, 0, 0] = .panic ∧
    RowsV2.readFrom 2 [] [0xfd, 0xff, 0xff, 0xff] ≠ .panic ∧
    RowsV2.readFrom 2 [] [0xfe, 0xff, 0xff, 0xff, 0xff, 0, 0, 0, 0] = .panic := by
  refine ⟨rfl, ?_, ?_⟩
  · decide +kernel
  · decide +kernel

/-- an event for a table with an INT and a VARCHAR(255), then arbitrary bytes -/
example : (∀ m ∈ [ColumnMeta.long, .varString 255], TotalMeta m) ∧
    GoodHeader 2 2 1 [2, 3, 0xfc, 1, 2, 3, 4, 1, 65] := by
  refine ⟨?_, ?_⟩
  · intro m hm
    simp only [List.mem_cons, List.not_mem_nil, or_false] at hm
    rcases hm with rfl | rfl <;> simp [TotalMeta]
  · intro l t n h1 h2
    have : readLenEncInt (List.drop (2 - 2) [2, 3, 0xfc, 1, 2, 3, 4, 1, 65])
        = .ok (.len1 2) [3, 0xfc, 1, 2, 3, 4, 1, 65] := by decide +kernel
    rw [this] at h1
    obtain ⟨rfl, rfl⟩ := R.ok.inj h1
    cases h2
    exact ⟨by omega, fun _ => ⟨0, by omega, 0, by omega, by decide⟩⟩

end Mybin
