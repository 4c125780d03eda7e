/- Running a decoder on an encoded input by simplification. -/
import Verif.Lemmas.Step
import Verif.Lemmas.Grammar
import Verif.Lemmas.Write
import Verif.Model.Column
import Mathlib.Data.List.Forall2

namespace Mybin

/-- execute the readers at the head of the input; range side conditions by `omega` -/
macro "run" : tactic => `(tactic|
  simp (disch := omega) only [List.append_assoc, P.bind_apply, P.pure_apply, P.ite_apply, R.bind_ok,
    readU8_u8,
    readLeU16_le, readLeU24_le, readLeU32_le, readLeU48_le, readLeU64_le, readLeU128_le,
    readLeF32_le, readLeF64_le, readLenEncStr_spec, if_true, if_false, reduceIte, Nat.reduceEqDiff,
    Bool.false_eq_true, reduceCtorEq])

/-- execute the specification's grammar on an encoded input -/
macro "drun" : tactic => `(tactic|
  simp (disch := omega) only [List.append_assoc, Spec.D.obind, Spec.D.andThen_some, Spec.D.pure_apply,
    Spec.D.pure_apply', Spec.D.ite_apply, Spec.D.u8_spec, Spec.D.le_spec, Spec.D.lenEncStr_spec,
    if_true, if_false, reduceIte, Nat.reduceEqDiff, Bool.false_eq_true, reduceCtorEq])

/-- a writer that appends `e` and reports its length -/
def Appends (w : Bytes → Bytes × Nat) (e : Bytes) : Prop := ∀ out, w out = (out ++ e, e.length)

theorem Appends.seq {ws : List (Bytes → Bytes × Nat)} {es : List Bytes}
    (h : List.Forall₂ Appends ws es) : Appends (writeSeq · ws) es.flatten := by
  intro out
  have gen : ∀ (ws : List (Bytes → Bytes × Nat)) (es : List Bytes), List.Forall₂ Appends ws es →
      ∀ o n, ws.foldl (fun acc w => let r := w acc.1; (r.1, acc.2 + r.2)) (o, n)
        = (o ++ es.flatten, n + es.flatten.length) := by
    intro ws es h
    induction h with
    | nil => intro o n; simp
    | cons h1 _ ih =>
      intro o n
      simp only [List.foldl_cons, h1 o, ih, List.flatten_cons, List.append_assoc, List.length_append,
        Nat.add_assoc]
  have := gen ws es h out 0
  simpa [writeSeq] using this

theorem appends_u8 (n : Nat) : Appends (writeU8 · n) (Spec.u8 n) := fun out => writeU8_spec out n
theorem appends_u16 (n : Nat) : Appends (writeLeU16 · n) (Spec.le 2 n) := fun out => by
  show writeLeU16 out n = _; rw [writeLeU16_spec, Spec.length_le]
theorem appends_u32 (n : Nat) : Appends (writeLeU32 · n) (Spec.le 4 n) := fun out => by
  show writeLeU32 out n = _; rw [writeLeU32_spec, Spec.length_le]
theorem appends_u64 (n : Nat) : Appends (writeLeU64 · n) (Spec.le 8 n) := fun out => by
  show writeLeU64 out n = _; rw [writeLeU64_spec, Spec.length_le]
theorem appends_f32 (n : Nat) : Appends (writeLeF32 · n) (Spec.le 4 n) := fun out => by
  show writeLeF32 out n = _; rw [writeLeF32_spec, Spec.length_le]
theorem appends_f64 (n : Nat) : Appends (writeLeF64 · n) (Spec.le 8 n) := fun out => by
  show writeLeF64 out n = _; rw [writeLeF64_spec, Spec.length_le]
theorem appends_bytes (s : Bytes) : Appends (writeBytes · s) s := fun out => writeBytes_spec out s
theorem appends_str (s : Bytes) (h : s.length ≠ 251) :
    Appends (fun out => (LenEncStr.bytes s).writeTo out) (Spec.lenEncStr s) :=
  fun out => writeLenEncStr_spec out s h

end Mybin
