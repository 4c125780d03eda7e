/-
C98: streams that go on, blocking ones among them.
-/
import Verif.Props.C98

namespace Mybin
open BinlogStream

theorem fileReads_nil (p : ParserV4) (v : Bool) (xs : List Event) (e : Spec.LogEnd) :
    FileReads p v [] xs e ↔ xs = [] ∧ e = .finished := by
  constructor
  · intro hf
    cases hf with
    | finished => exact ⟨rfl, rfl⟩
    | event h0 _ _ => exact absurd rfl h0
    | skipped h0 _ _ => exact absurd rfl h0
    | failed h0 _ => exact absurd rfl h0
    | panicked h0 _ => exact absurd rfl h0
  · rintro ⟨rfl, rfl⟩
    exact .finished

/-- C98 for every stream, blocking or not, and every moment: the server has sent a part of a log, whole events with right
lengths that are otherwise anything, and then sends whatever it sends. Reading the stream gives what reading that part
from a file gives; if this is an error or a panic, that is the end, and otherwise the stream is read on from there. -/
theorem C98_goes_on (s : BinlogStream) (hs : s.completed = false) (bs : List Bytes) (hw : ∀ b ∈ bs, Spec.Whole b)
    (ms : List Bytes) (rest : Bytes) (c : Conn) (hd : Spec.Delivers c.inp (bs.map (0 :: ·) ++ ms) rest) :
    ∃ c', Moved c c' ∧ Spec.Delivers c'.inp ms rest ∧ ∀ (xs : List Event) (e : Spec.LogEnd), StreamReads s c xs e ↔
      (∃ ys zs, xs = ys ++ zs ∧ FileReads s.pv4 s.validateChecksum bs.flatten ys .finished ∧ StreamReads s c' zs e) ∨
      (e ≠ .finished ∧ FileReads s.pv4 s.validateChecksum bs.flatten xs e) := by
  induction bs generalizing c with
  | nil =>
    refine ⟨c, Moved.refl c, hd, fun xs e => ?_⟩
    simp only [List.flatten_nil, fileReads_nil]
    constructor
    · exact fun h => Or.inl ⟨[], xs, rfl, ⟨rfl, trivial⟩, h⟩
    · rintro (⟨ys, zs, rfl, ⟨rfl, -⟩, h⟩ | ⟨h, -, rfl⟩)
      · exact h
      · exact absurd rfl h
  | cons b bs ih =>
    have hwb := hw b (by simp)
    obtain ⟨c1, h2, h3, h4⟩ := next_whole s hs b _ rest c hd
    have has := AsIf.parseEvent s.pv4 s.validateChecksum hwb
    obtain ⟨c', m1, m2, m3⟩ := ih (fun x hx => hw x (by simp [hx])) c1 h3
    refine ⟨c', h2.trans m1, m2, fun xs e => ?_⟩
    simp only [List.flatten_cons, fileReads_iff _ _ _ (whole_ne hwb _), has.1]
    cases hp : s.pv4.parseEvent s.validateChecksum b with
    | ok o r =>
      have hr := has.2 o r hp
      rw [List.drop_length] at hr
      subst hr
      rw [hp] at h4
      cases o with
      | some x =>
        rw [streamReads_iff, h4]
        dsimp only [R.plus]
        rw [List.nil_append]
        constructor
        · rintro ⟨ys, rfl, h⟩
          rcases (m3 ys e).1 h with ⟨y1, z1, rfl, k1, k2⟩ | ⟨k1, k2⟩
          · exact Or.inl ⟨x :: y1, z1, rfl, ⟨y1, rfl, k1⟩, k2⟩
          · exact Or.inr ⟨k1, ys, rfl, k2⟩
        · rintro (⟨ys, zs, rfl, ⟨y1, rfl, k1⟩, k2⟩ | ⟨k1, ys, rfl, k2⟩)
          · exact ⟨y1 ++ zs, rfl, (m3 _ e).2 (Or.inl ⟨y1, zs, rfl, k1, k2⟩)⟩
          · exact ⟨ys, rfl, (m3 _ e).2 (Or.inr ⟨k1, k2⟩)⟩
      | none =>
        rw [streamReads_iff, h4, ← streamReads_iff]
        dsimp only [R.plus]
        rw [List.nil_append]
        exact m3 xs e
    | err e' r =>
      rw [hp] at h4
      rw [streamReads_iff, h4]
      dsimp only [R.plus]
      constructor
      · rintro ⟨rfl, rfl⟩
        exact Or.inr ⟨by simp, rfl, rfl⟩
      · rintro (⟨_, _, _, ⟨-, k⟩, -⟩ | ⟨-, k⟩)
        · cases k
        · exact k
    | panic =>
      rw [hp] at h4
      rw [streamReads_iff, h4]
      dsimp only [R.plus]
      constructor
      · rintro ⟨rfl, rfl⟩
        exact Or.inr ⟨by simp, rfl, rfl⟩
      · rintro (⟨_, _, _, ⟨-, k⟩, -⟩ | ⟨-, k⟩)
        · cases k
        · exact k
    | hang =>
      rw [hp] at h4
      rw [streamReads_iff, h4]
      dsimp only [R.plus]
      constructor
      · exact False.elim
      · rintro (⟨_, _, _, k, -⟩ | ⟨-, k⟩)
        · exact k
        · exact k

/-- on a connection that was closed -/
theorem next_closed (s : BinlogStream) (hs : s.completed = false) (c : Conn) (hc : c.inp = []) :
    ∃ c', s.nextEvent c = .err .io c' := by
  unfold BinlogStream.nextEvent
  rw [if_neg (by simp [hs]), nextLoop.eq_def]
  unfold recvAndParse
  have hr : ∃ c', recvMsg c = .err .io c' := by
    unfold recvMsg
    rw [hc]
    have e : ∃ nr, recvLoop [] [] c.pktNr = .error nr := ⟨c.pktNr, by rw [recvLoop]; simp⟩
    obtain ⟨nr, e⟩ := e
    rw [e]
    exact ⟨_, rfl⟩
  obtain ⟨c', hr⟩ := hr
  rw [hr]
  exact ⟨c', rfl⟩

/-- C98, a blocking stream of a master that stops (or any stream whose connection is closed between two events): the
events are those of the file up to there. If the file has no error up to there, the stream ends with an error of the
transport, where the file ends. -/
theorem C98_closed (s : BinlogStream) (hs : s.completed = false) (bs : List Bytes) (hw : ∀ b ∈ bs, Spec.Whole b)
    (c : Conn) (hd : Spec.Delivers c.inp (bs.map (0 :: ·)) []) (xs : List Event) (e : Spec.LogEnd) :
    StreamReads s c xs e ↔
      (e = .failed .io ∧ FileReads s.pv4 s.validateChecksum bs.flatten xs .finished) ∨
      (e ≠ .finished ∧ FileReads s.pv4 s.validateChecksum bs.flatten xs e) := by
  obtain ⟨c', -, h1, h2⟩ := C98_goes_on s hs bs hw [] [] c (by rwa [List.append_nil])
  obtain ⟨c2, h3⟩ := next_closed s hs c' (Delivers.nil h1)
  rw [h2]
  have h4 : ∀ zs, StreamReads s c' zs e ↔ zs = [] ∧ e = .failed .io := by
    intro zs
    rw [streamReads_iff, h3]
  simp only [h4]
  constructor
  · rintro (⟨ys, zs, rfl, k1, rfl, rfl⟩ | k)
    · rw [List.append_nil]
      exact Or.inl ⟨rfl, k1⟩
    · exact Or.inr k
  · rintro (⟨rfl, k⟩ | k)
    · exact Or.inl ⟨xs, [], (List.append_nil _).symm, k, rfl, rfl⟩
    · exact Or.inr k

/-- a blocking stream: a part of a log, and a master that closes the connection then -/
example : ∃ c : Conn, (∀ b ∈ wholeLog, Spec.Whole b) ∧ Spec.Delivers c.inp (wholeLog.map (0 :: ·)) [] ∧
    StreamReads ⟨⟨[], true⟩, false, false, false⟩ c
      [⟨.xid, ⟨1, .xid, 3, 31, 4, 0⟩, [7, 0, 0, 0, 0, 0, 0, 0]⟩,
       ⟨.xid, ⟨1, .xid, 3, 31, 4, 0⟩, [8, 0, 0, 0, 0, 0, 0, 0]⟩] (.failed .io) := by
  obtain ⟨inp, h⟩ := delivers_small (wholeLog.map (0 :: ·)) [] (by decide +kernel)
  refine ⟨{ inp := inp }, wholeLog_whole, h, ?_⟩
  refine (C98_closed ⟨⟨[], true⟩, false, false, false⟩ rfl wholeLog wholeLog_whole _ h _ _).2 (Or.inl ⟨rfl, ?_⟩)
  refine .event (by decide +kernel) (rest := wholeLog.flatten.drop 31) ?_
    (.skipped (by decide +kernel) (rest := wholeLog.flatten.drop 55) ?_
    (.event (by decide +kernel) (rest := []) ?_ .finished))
  all_goals decide +kernel

end Mybin
