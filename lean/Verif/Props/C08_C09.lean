/-
C08 async integer reads do not depend on chunking; C09 async integer writes.
-/
import Verif.Model.AsyncInt
import Verif.Lemmas.Prim

namespace Mybin
open AsyncInt

/-- outcome of one poll and of the whole run, for every schedule: nothing is lost
(`acc ++ stream` is constant), the result is the one promised. -/
theorem pollRead_inv {α : Type} (len : Nat) (f : Bytes → α) (sched : List Ans) :
    ∀ (acc stream : Bytes), acc.length < len →
    let (p, st) := pollRead len f acc stream sched
    st.acc ++ st.stream = acc ++ stream ∧ st.sched.length ≤ sched.length ∧
    (sched ≠ [] → st.sched.length < sched.length) ∧
    (∀ a ∈ st.sched, a ∈ sched) ∧
    match p with
    | .pending => st.acc.length < len
    | .ready (.ok v) => len ≤ (acc ++ stream).length ∧ v = f ((acc ++ stream).take len) ∧
        st.stream = (acc ++ stream).drop len
    | .ready (.error e) =>
        (e = .io ∧ Ans.error ∈ sched) ∨
        ((acc ++ stream).length < len ∧ e = .incomplete (some (len - (acc ++ stream).length)) ∧
          st.stream = []) := by
  induction sched with
  | nil => intro acc stream h; simp [pollRead, h]
  | cons a s ih =>
    intro acc stream h
    cases a with
    | pending => simp [pollRead, h]; intro a ha; exact Or.inr ha
    | interrupted =>
      have := ih acc stream h
      simp only [pollRead]
      revert this
      generalize pollRead len f acc stream s = q
      obtain ⟨p, st⟩ := q
      rintro ⟨h1, h2, h3, h4, h5⟩
      refine ⟨h1, by simp; omega, fun _ => by simp; omega, fun a ha => by simp [h4 a ha], ?_⟩
      cases p with
      | pending => exact h5
      | ready r =>
        cases r with
        | ok v => exact h5
        | error e => rcases h5 with ⟨e1, e2⟩ | e; exacts [Or.inl ⟨e1, by simp [e2]⟩, Or.inr e]
    | zero =>
      have := ih acc stream h
      simp only [pollRead]
      revert this
      generalize pollRead len f acc stream s = q
      obtain ⟨p, st⟩ := q
      rintro ⟨h1, h2, h3, h4, h5⟩
      refine ⟨h1, by simp; omega, fun _ => by simp; omega, fun a ha => by simp [h4 a ha], ?_⟩
      cases p with
      | pending => exact h5
      | ready r =>
        cases r with
        | ok v => exact h5
        | error e => rcases h5 with ⟨e1, e2⟩ | e; exacts [Or.inl ⟨e1, by simp [e2]⟩, Or.inr e]
    | error => simp [pollRead]; intro a ha; exact Or.inr ha
    | data n =>
      simp only [pollRead]
      by_cases hs : stream = []
      · subst hs
        simp only [if_true]
        refine ⟨trivial, by simp, fun _ => by simp, fun a ha => by simp [ha], Or.inr ?_⟩
        simp [h]
      · rw [if_neg hs]
        have hpos : 0 < stream.length := List.length_pos_iff.mpr hs
        generalize hk : min (n + 1) (len - acc.length) = k
        have hk1 : 0 < k := by omega
        have hk2 : k ≤ len - acc.length := by omega
        have eacc : (acc ++ stream.take k) ++ stream.drop k = acc ++ stream := by simp
        by_cases hd : (acc ++ stream.take k).length = len
        · rw [if_pos hd]
          refine ⟨eacc, by simp, fun _ => by simp, fun a ha => by simp [ha], ?_, ?_, ?_⟩
          · rw [← eacc, List.length_append]; omega
          · have e0 : (acc ++ stream.take k).take len = acc ++ stream.take k :=
              List.take_of_length_le (by omega)
            rw [← eacc, List.take_append_of_le_length (by omega), e0]
          · have e0 : (acc ++ stream.take k).drop len = [] := List.drop_of_length_le (by omega)
            rw [← eacc, List.drop_append_of_le_length (by omega), e0]; rfl
        · rw [if_neg hd]
          have hlt : (acc ++ stream.take k).length < len := by
            simp only [List.length_append, List.length_take] at hd ⊢; omega
          have := ih (acc ++ stream.take k) (stream.drop k) hlt
          revert this
          generalize pollRead len f (acc ++ stream.take k) (stream.drop k) s = q
          obtain ⟨p, st⟩ := q
          rw [eacc]
          rintro ⟨h1, h2, h3, h4, h5⟩
          refine ⟨h1, by simp; omega, fun _ => by simp; omega, fun a ha => by simp [h4 a ha], ?_⟩
          cases p with
          | pending => exact h5
          | ready r =>
            cases r with
            | ok v => exact h5
            | error e => rcases h5 with ⟨e1, e2⟩ | e; exacts [Or.inl ⟨e1, by simp [e2]⟩, Or.inr e]

/-- the same for a whole run of the executor -/
theorem driveRead_inv {α : Type} (len : Nat) (f : Bytes → α) (fuel : Nat) :
    ∀ (acc stream : Bytes) (sched : List Ans), acc.length < len → sched.length < fuel →
    let (p, st) := driveRead len f fuel ⟨acc, stream, sched⟩
    st.acc ++ st.stream = acc ++ stream ∧
    match p with
    | .pending => st.acc.length < len ∧ st.sched = []
    | .ready (.ok v) => len ≤ (acc ++ stream).length ∧ v = f ((acc ++ stream).take len) ∧
        st.stream = (acc ++ stream).drop len
    | .ready (.error e) =>
        (e = .io ∧ Ans.error ∈ sched) ∨
        ((acc ++ stream).length < len ∧ e = .incomplete (some (len - (acc ++ stream).length)) ∧
          st.stream = []) := by
  induction fuel with
  | zero => intro acc stream sched _ h; omega
  | succ fuel ih =>
    intro acc stream sched hacc hf
    have key := pollRead_inv len f sched acc stream hacc
    simp only [driveRead]
    revert key
    generalize pollRead len f acc stream sched = q
    obtain ⟨p, st⟩ := q
    rintro ⟨h1, h2, h3, h4, h5⟩
    cases p with
    | ready r => cases r <;> exact ⟨h1, h5⟩
    | pending =>
      by_cases hs : st.sched = []
      · simp only [hs, if_true]; exact ⟨h1, h5, trivial⟩
      · simp only [hs, if_false]
        have hlt : st.sched.length < fuel := by
          have : sched ≠ [] := by
            rintro rfl
            simp at h2
            exact hs h2
          have := h3 this
          omega
        have := ih st.acc st.stream st.sched h5 hlt
        obtain ⟨a', s', c'⟩ := st
        revert this
        generalize driveRead len f fuel ⟨a', s', c'⟩ = q
        obtain ⟨p, st'⟩ := q
        simp only at h1 h4 ⊢
        rw [h1]
        rintro ⟨g1, g2⟩
        refine ⟨g1, ?_⟩
        cases p with
        | pending => exact g2
        | ready r =>
          cases r with
          | ok v => exact g2
          | error e => rcases g2 with ⟨e1, e2⟩ | e; exacts [Or.inl ⟨e1, h4 _ e2⟩, Or.inr e]

/-- C08, safety: for every stream and every schedule of partial reads, `Pending`s, interruptions and
errors, running the read future of a `len`-byte integer
 * if it completes with a value, that value is the conversion of the next `len` bytes of the stream
   and exactly those bytes were consumed;
 * if it fails, either the transport reported an error, or the stream ended before `len` bytes and the
   error names the exact shortage;
 * if it is still pending, the schedule is used up and no byte is lost (what was taken from the stream
   is in the future's buffer). -/
theorem C08_async_read_any_chunking {α : Type} (len : Nat) (hlen : 0 < len) (conv : Bytes → α)
    (stream : Bytes) (sched : List Ans) :
    let (p, st) := driveRead len conv (sched.length + 1) ⟨[], stream, sched⟩
    match p with
    | .ready (.ok v) => len ≤ stream.length ∧ v = conv (stream.take len) ∧
        st.stream = stream.drop len
    | .ready (.error e) => (e = .io ∧ Ans.error ∈ sched) ∨
        (stream.length < len ∧ e = .incomplete (some (len - stream.length)))
    | .pending => st.sched = [] ∧ st.acc ++ st.stream = stream := by
  have := driveRead_inv len conv (sched.length + 1) [] stream sched (by simpa using hlen) (by omega)
  revert this
  generalize driveRead len conv (sched.length + 1) ⟨[], stream, sched⟩ = q
  obtain ⟨p, st⟩ := q
  simp only [List.nil_append]
  rintro ⟨h1, h2⟩
  cases p with
  | pending => exact ⟨h2.2, h1⟩
  | ready r =>
    cases r with
    | ok v => exact h2
    | error e => rcases h2 with e1 | e1; exacts [Or.inl e1, Or.inr ⟨e1.1, e1.2.1⟩]

/-- number of schedule entries that transfer data -/
def dataCount (s : List Ans) : Nat := s.countP fun a => match a with | .data _ => true | _ => false

theorem pollRead_progress {α : Type} (len : Nat) (f : Bytes → α) (sched : List Ans) :
    ∀ (acc stream : Bytes), acc.length < len →
    let (p, st) := pollRead len f acc stream sched
    match p with
    | .pending => acc.length + dataCount sched ≤ st.acc.length + dataCount st.sched
    | .ready _ => True := by
  induction sched with
  | nil => intro acc stream h; simp [pollRead]
  | cons a s ih =>
    intro acc stream h
    cases a with
    | pending => simp [pollRead, dataCount]
    | interrupted =>
      have := ih acc stream h
      simpa [pollRead, dataCount] using this
    | zero =>
      have := ih acc stream h
      simpa [pollRead, dataCount] using this
    | error => simp [pollRead]
    | data n =>
      simp only [pollRead]
      by_cases hs : stream = []
      · simp [hs]
      · rw [if_neg hs]
        have hpos : 0 < stream.length := List.length_pos_iff.mpr hs
        generalize hk : min (n + 1) (len - acc.length) = k
        have hk1 : 0 < k := by omega
        by_cases hd : (acc ++ stream.take k).length = len
        · simp [hd]
        · rw [if_neg hd]
          have hlt : (acc ++ stream.take k).length < len := by
            simp only [List.length_append, List.length_take] at hd ⊢; omega
          have := ih (acc ++ stream.take k) (stream.drop k) hlt
          revert this
          generalize pollRead len f (acc ++ stream.take k) (stream.drop k) s = q
          obtain ⟨p, st⟩ := q
          cases p with
          | ready r => simp
          | pending =>
            simp only [dataCount, List.countP_cons, List.length_append, List.length_take]
            intro h; simp; omega

theorem driveRead_progress {α : Type} (len : Nat) (f : Bytes → α) (fuel : Nat) :
    ∀ (acc stream : Bytes) (sched : List Ans), acc.length < len → sched.length < fuel →
    let (p, st) := driveRead len f fuel ⟨acc, stream, sched⟩
    match p with
    | .pending => acc.length + dataCount sched ≤ st.acc.length
    | .ready _ => True := by
  induction fuel with
  | zero => intro acc stream sched _ h; omega
  | succ fuel ih =>
    intro acc stream sched hacc hf
    have key := pollRead_inv len f sched acc stream hacc
    have prog := pollRead_progress len f sched acc stream hacc
    simp only [driveRead]
    revert key prog
    generalize pollRead len f acc stream sched = q
    obtain ⟨p, st⟩ := q
    rintro ⟨h1, h2, h3, h4, h5⟩ prog
    cases p with
    | ready r => trivial
    | pending =>
      by_cases hs : st.sched = []
      · simp only [hs, if_true]; simpa [hs, dataCount] using prog
      · simp only [hs, if_false]
        have hlt : st.sched.length < fuel := by
          have : sched ≠ [] := by
            rintro rfl
            simp at h2
            exact hs h2
          have := h3 this
          omega
        have := ih st.acc st.stream st.sched h5 hlt
        obtain ⟨a', s', c'⟩ := st
        revert this
        generalize driveRead len f fuel ⟨a', s', c'⟩ = q
        obtain ⟨p, st'⟩ := q
        cases p with
        | ready r => intros; trivial
        | pending => simp only at prog ⊢; omega

/-- C08, progress: if the stream has the bytes, the transport reports no error and transfers at least
one byte on `len` of its calls, the read completes with the value (it never needs more than `len`
productive calls, whatever `Pending`s and interruptions are in between). -/
theorem C08_async_read_completes {α : Type} (len : Nat) (hlen : 0 < len) (conv : Bytes → α)
    (stream : Bytes) (sched : List Ans) (hs : len ≤ stream.length) (hok : Ans.error ∉ sched)
    (hdata : len ≤ dataCount sched) :
    ∃ st, driveRead len conv (sched.length + 1) ⟨[], stream, sched⟩
      = (.ready (.ok (conv (stream.take len))), st) ∧ st.stream = stream.drop len := by
  have h1 := C08_async_read_any_chunking len hlen conv stream sched
  have h3 := driveRead_inv len conv (sched.length + 1) [] stream sched
    (by simpa using hlen) (by omega)
  have h2 := driveRead_progress len conv (sched.length + 1) [] stream sched
    (by simpa using hlen) (by omega)
  revert h1 h2 h3
  generalize driveRead len conv (sched.length + 1) ⟨[], stream, sched⟩ = q
  obtain ⟨p, st⟩ := q
  cases p with
  | pending =>
    intro h1 h2 h3
    have h4 := h2.2.1
    simp at h3
    omega
  | ready r =>
    cases r with
    | ok v => rintro ⟨_, rfl, e⟩ _ _; exact ⟨st, rfl, e⟩
    | error e =>
      rintro (⟨_, h⟩ | ⟨h, _⟩)
      · exact absurd h hok
      · omega

-- non-vacuity: a 3-byte read through a schedule of one-byte reads, pendings and an interruption
example : let s := [Ans.pending, .data 0, .interrupted, .data 0, .pending, .data 5]
    (3 ≤ ([1, 2, 3, 4] : Bytes).length ∧ Ans.error ∉ s ∧ 3 ≤ dataCount s) := by decide

/-! ### C09 -/

/-- C09 is false: over a transport that accepts one byte at a time, writing the two bytes `a b`
completes successfully although the transport received `a a`. -/
theorem C09_false : ∃ (ns : Bytes) (sched : List Ans) (s : List Ans),
    driveWrite ns (sched.length + 1) [] sched = (.ready (.ok ()), [1, 1], s) ∧ ns = [1, 2] :=
  ⟨[1, 2], [.data 0, .data 0], [], rfl, rfl⟩

/-- C09 is false across polls too: after `Pending` the progress counter is forgotten and everything
accepted before is sent again. -/
theorem C09_false_pending : ∃ (ns : Bytes) (sched : List Ans) (s : List Ans),
    driveWrite ns (sched.length + 1) [] sched = (.ready (.ok ()), [1, 1, 2], s) ∧ ns = [1, 2] :=
  ⟨[1, 2], [.data 0, .pending, .data 1], [], rfl, rfl⟩

/-- C09, what does hold (missing: transports that split the write): as long as the transport
accepts whole buffers — every call that accepts data accepts at least `ns.length` bytes — the future
completes with exactly the encoding on the wire, once, whatever `Pending`s and interruptions precede;
and it reports success only then. -/
theorem C09_async_write_partial (ns : Bytes) (sched : List Ans)
    (hwhole : ∀ n, Ans.data n ∈ sched → ns.length ≤ n + 1) (fuel : Nat) (hf : sched.length < fuel)
    (wire : Bytes) :
    let (p, w, s) := driveWrite ns fuel wire sched
    match p with
    | .ready (.ok ()) => w = wire ++ ns
    | .ready (.error e) => w = wire ∧ e = .io ∧ (Ans.error ∈ sched ∨ Ans.zero ∈ sched)
    | .pending => w = wire ∧ s = [] ∧ dataCount sched = 0 := by
  have poll : ∀ sched : List Ans, (∀ n, Ans.data n ∈ sched → ns.length ≤ n + 1) →
      let (p, w, s) := pollWrite ns wire 0 sched
      s.length ≤ sched.length ∧ (sched ≠ [] → s.length < sched.length) ∧ (∀ a ∈ s, a ∈ sched) ∧
      match p with
      | .ready (.ok ()) => w = wire ++ ns
      | .ready (.error e) => w = wire ∧ e = .io ∧ (Ans.error ∈ sched ∨ Ans.zero ∈ sched)
      | .pending => w = wire ∧ dataCount sched = dataCount s := by
    intro sched
    induction sched with
    | nil => intro _; simp [pollWrite]
    | cons a s ih =>
      intro hw
      cases a with
      | pending => simp [pollWrite, dataCount]; intro a ha; exact Or.inr ha
      | error => simp [pollWrite]; intro a ha; exact Or.inr ha
      | zero => simp [pollWrite]; intro a ha; exact Or.inr ha
      | interrupted =>
        have := ih fun n hn => hw n (by simp [hn])
        simp only [pollWrite]
        revert this
        generalize pollWrite ns wire 0 s = q
        obtain ⟨p, w, s'⟩ := q
        rintro ⟨h1, h2, h3, h4⟩
        refine ⟨by simp; omega, fun _ => by simp; omega, fun a ha => by simp [h3 a ha], ?_⟩
        cases p with
        | pending => simpa [dataCount] using h4
        | ready r =>
          cases r with
          | ok v => exact h4
          | error e => exact ⟨h4.1, h4.2.1, by simpa using h4.2.2⟩
      | data n =>
        have := hw n (by simp)
        have hk : min (n + 1) ns.length = ns.length := by omega
        simp only [pollWrite, hk, Nat.zero_add, if_true, List.take_length]
        exact ⟨by simp, fun _ => by simp, fun a ha => by simp [ha], trivial⟩
  induction fuel generalizing sched with
  | zero => omega
  | succ fuel ih =>
    have key := poll sched hwhole
    simp only [driveWrite]
    revert key
    generalize pollWrite ns wire 0 sched = q
    obtain ⟨p, w, s⟩ := q
    rintro ⟨h1, h2, h3, h4⟩
    cases p with
    | ready r => cases r <;> exact h4
    | pending =>
      obtain ⟨rfl, hc⟩ := h4
      by_cases hs : s = []
      · simp only [hs, if_true]; subst hs; exact ⟨trivial, trivial, by simpa [dataCount] using hc⟩
      · simp only [hs, if_false]
        have hlt : s.length < fuel := by
          have : sched ≠ [] := by
            rintro rfl
            simp at h1
            exact hs h1
          have := h2 this
          omega
        have := ih s (fun n hn => hwhole n (h3 _ hn)) hlt
        revert this
        generalize driveWrite ns fuel w s = q
        obtain ⟨p, w', s'⟩ := q
        intro g
        cases p with
        | pending => exact ⟨g.1, g.2.1, by rw [hc]; exact g.2.2⟩
        | ready r =>
          cases r with
          | ok v => exact g
          | error e =>
            refine ⟨g.1, g.2.1, ?_⟩
            rcases g.2.2 with g | g
            · exact Or.inl (h3 _ g)
            · exact Or.inr (h3 _ g)

example : (∀ n, Ans.data n ∈ [Ans.pending, .interrupted, .data 7] → ([1, 2] : Bytes).length ≤ n + 1)
    := by simp

end Mybin
