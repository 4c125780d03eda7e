/-
C90: texts that begin with a separator are not numbers.
-/
import Verif.Props.C89_C90

namespace Mybin

theorem bigInt_underscore (t : Bytes) : bigInt (0x5f :: t) = none := by
  have hs : skipPlus (0x5f :: t) = 0x5f :: t := by unfold skipPlus; rw [if_neg (by simp)]
  unfold bigInt bigUint
  rw [if_neg (by simp), hs, if_pos (by simp)]
  rfl

theorem bigInt_minus_underscore (t : Bytes) : bigInt (0x2d :: 0x5f :: t) = none := by
  have hs : skipPlus (0x5f :: t) = 0x5f :: t := by unfold skipPlus; rw [if_neg (by simp)]
  have hu : bigUint (0x5f :: t) = none := by unfold bigUint; rw [hs, if_pos (by simp)]
  unfold bigInt
  rw [if_pos (by simp), List.tail_cons, if_neg (by simp), hu]
  rfl

/-- the digits begin as the text does, if it begins with bytes that are neither a point nor an exponent sign -/
theorem bigDecimal_front (pre : Bytes) (hpre : pre ≠ [])
    (hp : ∀ b ∈ pre, (b == 0x65 || b == 0x45) = false ∧ (b == 0x2e) = false)
    (hbad : ∀ t, bigInt (pre ++ t) = none) (t : Bytes) (d : BigDec) : bigDecimal (pre ++ t) ≠ .ok (some d) := by
  have cut : ∀ (p : UInt8 → Bool) (pre : Bytes), (∀ b ∈ pre, p b = false) → ∀ t,
      cutAt p (pre ++ t) = (cutAt p t).map fun r => (pre ++ r.1, r.2) := by
    intro p pre h t
    induction pre with
    | nil => simp
    | cons b pre ih =>
      rw [List.cons_append, cutAt, if_neg (by simp [h b]), ih fun x hx => h x (List.mem_cons_of_mem _ hx)]
      cases cutAt p t <;> simp
  have tail : ∀ (t : Bytes) (e : Int), (if pre ++ t = [] then (.ok none : Res (Option BigDec))
        else
          let digits := match cutAt (· == 0x2e) (pre ++ t) with
            | none => (pre ++ t, 0)
            | some (lead, trail) => (lead ++ trail, trail.length)
          let scale : Int := digits.2 - e
          if scale < 2 ^ 63 then .ok ((bigInt digits.1).map fun u => ⟨u, scale⟩) else .panic) ≠ .ok (some d) := by
    intro t e h
    rw [if_neg (by simp [hpre]), cut _ pre fun b hb => (hp b hb).2] at h
    dsimp only at h
    cases hc : cutAt (· == 0x2e) t with
    | none =>
      rw [hc] at h
      simp only [Option.map_none, hbad] at h
      split at h <;> cases h
    | some r =>
      rw [hc] at h
      simp only [Option.map_some, List.append_assoc, hbad, Option.map_none] at h
      split at h <;> cases h
  intro h
  unfold bigDecimal at h
  rw [cut _ pre fun b hb => (hp b hb).1] at h
  cases hc : cutAt (fun b => b == 0x65 || b == 0x45) t with
  | none =>
    rw [hc] at h
    exact tail t 0 h
  | some r =>
    rw [hc] at h
    simp only [Option.map_some] at h
    cases hx : parseSInt 64 (if r.2.head? = some 0x2b then r.2.tail else r.2) with
    | none => rw [hx] at h; cases h
    | some e => rw [hx] at h; exact tail r.1 e h

/-- C90: a text that begins with an underscore, with or without a minus sign before it, is not read as a number, although
underscores between digits are passed over. -/
theorem C90_underscore (t : Bytes) (r : Option BigDec) :
    decimalFromText (some (0x5f :: t)) ≠ .ok r ∧ decimalFromBinary (.newDecimal (0x5f :: t)) ≠ .ok r ∧
    decimalFromText (some (0x2d :: 0x5f :: t)) ≠ .ok r ∧ decimalFromBinary (.newDecimal (0x2d :: 0x5f :: t)) ≠ .ok r := by
  have key : ∀ bs, (∀ d, bigDecimal bs ≠ .ok (some d)) → parseDecimal bs ≠ .ok r := by
    intro bs hbs h
    unfold parseDecimal at h
    split at h
    · cases h
    · cases hd : bigDecimal bs with
      | ok o =>
        rw [hd] at h
        cases o with
        | none => cases h
        | some d => exact hbs d hd
      | err e => rw [hd] at h; cases h
      | panic => rw [hd] at h; cases h
  have a := key (0x5f :: t) fun d => bigDecimal_front [0x5f] (by simp) (by decide) bigInt_underscore t d
  have b := key (0x2d :: 0x5f :: t) fun d => bigDecimal_front [0x2d, 0x5f] (by simp) (by decide) bigInt_minus_underscore t d
  exact ⟨a, a, b, b⟩

/-- while one between digits is passed over -/
example : decimalFromText (some (Spec.ascii "1_2")) = .ok (some ⟨12, 0⟩) := by decide +kernel

end Mybin
