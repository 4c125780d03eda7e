/-
C127: the log tells how many files there are.
-/
import Verif.Props.C127

namespace Mybin

/-- a message about a file -/
def Spec.isFile : MsgLine → Bool
  | .file _ => true
  | .event _ => false

theorem msgLoop_no_file (s : BinlogStream) (c : Conn) : (msgLoop s c).1.countP Spec.isFile = 0 := by
  induction hn : c.inp.length using Nat.strong_induction_on generalizing c s with
  | _ n ih =>
    rw [msgLoop.eq_def]
    cases s.nextEvent c with
    | ok v c1 =>
      obtain ⟨_ | ev, s'⟩ := v
      · rfl
      · dsimp only
        split
        · rw [List.countP_cons_of_neg (by intro h; cases h)]
          exact ih _ (by omega) s' c1 rfl
        · rfl
    | err => rfl
    | panic => rfl
    | hang => rfl

theorem files_counted (files : List Cmd.BinlogFile) : (files.map MsgLine.file).countP Spec.isFile = files.length := by
  induction files with
  | nil => rfl
  | cons f fs ih =>
    rw [List.map_cons, List.countP_cons_of_pos rfl, ih, List.length_cons]

/-- C127: the log is empty, and the program tells of nothing, or its first message is the number of the files, in decimal, that the
messages after it tell of. -/
theorem C127_count (marker : LogEventType → List Char) (printable : Char → Bool) (w : World) (conf : MsgConnect) :
    mybinmsgLog marker printable w conf = [] ∧ (mybinmsg w conf).lines = [] ∨
    (mybinmsgLog marker printable w conf).head?
      = some ("list of binlog files: " ++ toString ((mybinmsg w conf).lines.countP Spec.isFile)).toList := by
  have digits : ∀ n : Nat, "list of binlog files: ".toList ++ Nat.toDigits 10 n = ("list of binlog files: " ++ toString n).toList := by
    intro n
    rw [String.toList_append]
    show _ = _ ++ (Nat.repr n).toList
    rw [Nat.repr]
    exact congrArg _ (String.toList_ofList).symm
  unfold mybinmsgLog mybinmsg
  cases conf with
  | unixSocket => exact .inl ⟨rfl, rfl⟩
  | tcp host port username password =>
    dsimp only
    cases connect w 0 host port username password with
    | err e c => exact .inl ⟨rfl, rfl⟩
    | panic => exact .inl ⟨rfl, rfl⟩
    | hang => exact .inl ⟨rfl, rfl⟩
    | ok u conn =>
      dsimp only
      cases Cmd.binlogFiles conn with
      | err e c => exact .inl ⟨rfl, rfl⟩
      | panic => exact .inl ⟨rfl, rfl⟩
      | hang => exact .inl ⟨rfl, rfl⟩
      | ok files c =>
        right
        dsimp only
        rw [digits]
        simp only [List.cons_append, List.nil_append, List.head?_cons]
        cases defaultRequest.requestStream w.uuid w.random c with
        | ok s c2 =>
          dsimp only
          rw [List.countP_append, msgLoop_no_file, files_counted, Nat.add_zero]
        | err e c2 => dsimp only; rw [files_counted]
        | panic => dsimp only; rw [files_counted]
        | hang => dsimp only; rw [files_counted]

/-- the server of `example_mybinmsg` has one file, so there is something to count -/
example (ft : FloatText) : ∃ inp, 0 < (mybinmsg (exampleWorld ft inp [])
    (.tcp (Spec.ascii "db") (Spec.ascii "3306") (Spec.ascii "root") (Spec.ascii "pw"))).lines.countP Spec.isFile := by
  obtain ⟨inp, lines, h, -⟩ := example_mybinmsg ft
  refine ⟨inp, ?_⟩
  rw [h, List.countP_cons_of_pos rfl]
  omega

end Mybin
