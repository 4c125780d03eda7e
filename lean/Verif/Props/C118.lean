/-
C118: a connection that is lost is reported: an answer cut short at any byte is an error, never a result.
-/
import Verif.Props.C93

namespace Mybin

/-- the connection is lost after `n` more bytes -/
def Spec.lost (c : Conn) (n : Nat) : Conn := { c with inp := c.inp.take n }

/-- the streams of a program are lost: after `n i a` bytes that of the `i`-th connection, to address `a` -/
def Spec.lostStreams (w : World) (n : Nat → Bytes → Nat) : World :=
  { w with stream := fun i a => (w.stream i a).map (·.take (n i a)) }

/-- C118: whatever an application does with the operations of the API (logging in, commands, rows of results, prepared
statements, streams, and errors it handles), if it ends, with a result or an error, and has read `used` bytes by then, and
the connection is lost before, the end of the stream is reported. It does not end with a result, not with another error
and not in a panic, and what it sent is a beginning of what it would have sent. -/
theorem C118_lost {α : Type} (run : M α) (h : Spec.Application run) (c c' : Conn) (hr : Ends (run c) c') (used n : Nat)
    (hu : c.inp.length = used + c'.inp.length) (hn : n < used) :
    ∃ d, run (Spec.lost c n) = .err .io d ∧ d.out <+: c'.out := by
  have hc : Spec.arrived (Spec.lost c n) (c.inp.drop n) = c := by
    unfold Spec.arrived Spec.lost
    simp
  have hb : (c.inp.drop n).length = c.inp.length - n := List.length_drop
  have ha := (Inc.application h).2 (c.inp.drop n) (Spec.lost c n)
  rw [hc] at ha
  have hlen : ∀ d : Conn, c' = Spec.arrived d (c.inp.drop n) → False := by
    intro d e
    have : c'.inp.length = d.inp.length + (c.inp.drop n).length := by rw [e]; simp [Spec.arrived]
    omega
  unfold Ends at hr
  cases hl : run (Spec.lost c n) with
  | ok v d =>
    rw [hl] at ha
    have ha : run c = .ok v (Spec.arrived d (c.inp.drop n)) := ha
    rcases hr with ⟨a, e⟩ | ⟨x, e⟩
    · rw [ha] at e
      injection e with _ e
      exact (hlen d e.symm).elim
    · rw [ha] at e; cases e
  | err x d =>
    rw [hl] at ha
    rcases (ha : run c = .err x (Spec.arrived d (c.inp.drop n)) ∨ (x = .io ∧ ∀ d', Ends (run c) d' → d.out <+: d'.out))
      with ha | ⟨rfl, ha⟩
    · rcases hr with ⟨a, e⟩ | ⟨y, e⟩
      · rw [ha] at e; cases e
      · rw [ha] at e
        injection e with _ e
        exact (hlen d e.symm).elim
    · exact ⟨d, rfl, ha c' hr⟩
  | panic =>
    rw [hl] at ha
    have ha : run c = .panic := ha
    rcases hr with ⟨a, e⟩ | ⟨y, e⟩ <;> (rw [ha] at e; cases e)
  | hang =>
    rw [hl] at ha
    have ha : run c = .hang := ha
    rcases hr with ⟨a, e⟩ | ⟨y, e⟩ <;> (rw [ha] at e; cases e)

theorem later_lost (w : World) (n : Nat → Bytes → Nat) :
    Spec.later (Spec.lostStreams w n) (fun i a => ((w.stream i a).getD []).drop (n i a)) = w := by
  unfold Spec.later Spec.lostStreams
  have : (fun i a => (((w.stream i a).map (·.take (n i a))).map (· ++ ((w.stream i a).getD []).drop (n i a)))) = w.stream := by
    funext i a
    cases w.stream i a with
    | none => rfl
    | some s => simp
  exact congrArg (fun s => { w with stream := s }) this

/-- C118: `mybinlog` with connections that are lost, each after any number of bytes: what it prints is a beginning of
what it prints otherwise, and either it ends with the error of a lost stream, or nothing was missing: the run is the same. -/
theorem C118_mybinlog (w : World) (n : Nat → Bytes → Nat) (o : ProgOpts) :
    (mybinlog (Spec.lostStreams w n) o).lines <+: (mybinlog w o).lines ∧
    ((mybinlog (Spec.lostStreams w n) o).theEnd = .err .io ∨ mybinlog (Spec.lostStreams w n) o = mybinlog w o) := by
  have h := C93_mybinlog (Spec.lostStreams w n) (fun i a => ((w.stream i a).getD []).drop (n i a)) o
  rw [later_lost] at h
  refine ⟨h.1, ?_⟩
  by_cases e : (mybinlog (Spec.lostStreams w n) o).theEnd = .err .io
  · exact .inl e
  · exact .inr (h.2 e).symm

/-- C118: the same for `mybinmsg` and what it logs -/
theorem C118_mybinmsg (w : World) (n : Nat → Bytes → Nat) (conf : MsgConnect) :
    (mybinmsg (Spec.lostStreams w n) conf).lines <+: (mybinmsg w conf).lines ∧
    ((mybinmsg (Spec.lostStreams w n) conf).theEnd = .err .io ∨ mybinmsg (Spec.lostStreams w n) conf = mybinmsg w conf) := by
  have h := C93_mybinmsg (Spec.lostStreams w n) (fun i a => ((w.stream i a).getD []).drop (n i a)) conf
  rw [later_lost] at h
  refine ⟨h.1, ?_⟩
  by_cases e : (mybinmsg (Spec.lostStreams w n) conf).theEnd = .err .io
  · exact .inl e
  · exact .inr (h.2 e).symm

/-- the answer to `statistics` (see C93), lost after any number of its six bytes -/
example (n : Nat) (hn : n < 6) : ∃ d, Cmd.statistics (Spec.lost { inp := [2, 0, 0, 1, 0x55, 0x70] } n) = .err .io d ∧
    d.out <+: [1, 0, 0, 0, 9] :=
  C118_lost _ .statistics _ _ (.inl ⟨_, example_statistics []⟩) 6 n rfl hn

end Mybin
