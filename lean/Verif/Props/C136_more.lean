/-
C136, continued: the text of the log.
-/
import Verif.Props.C136
import Verif.Props.C134_more

namespace Mybin

open Spec (SameOutcome)

/-- C136: the text of the log of `mybinmsg`, character by character -/
theorem C136_log (marker : LogEventType → List Char) (printable : Char → Bool) (w : World) (hH : w.hashes.Sized)
    (uuid' : Bytes) (random' : Nat) (hw : w.uuid.length < 2 ^ 23) (hw' : uuid'.length < 2 ^ 23)
    (host port user user' p p' : Bytes) (hu : user.length < 2 ^ 23) (hu' : user'.length < 2 ^ 23) (hp : p ≠ []) (hp' : p' ≠ []) :
    mybinmsgLog marker printable w (.tcp host port user p) =
      mybinmsgLog marker printable { w with uuid := uuid', random := random' } (.tcp host port user' p') := by
  unfold mybinmsgLog
  dsimp only
  have h0 := connect_users w hH uuid' random' 0 host port user user' p p' hu hu' hp hp'
  generalize connect w 0 host port user p = r0 at h0
  generalize connect { w with uuid := uuid', random := random' } 0 host port user' p' = r0' at h0
  cases h0 with
  | ok _ conn o0 =>
    dsimp only
    have hb := Deaf.binlogFiles conn o0
    generalize Cmd.binlogFiles conn = b at hb
    generalize Cmd.binlogFiles { conn with out := o0 } = b' at hb
    cases hb with
    | ok files c o =>
      dsimp only
      have hq := requestStream_requests defaultRequest defaultRequest rfl rfl (by decide +kernel) (by decide +kernel)
        w.uuid uuid' hw hw' w.random random' c o
      generalize defaultRequest.requestStream w.uuid w.random c = q at hq
      generalize defaultRequest.requestStream uuid' random' { c with out := o } = q' at hq
      cases hq with
      | ok s c o =>
        dsimp only
        rw [(msgLoop_alike s c o).1]
      | err e c o => rfl
      | panic => rfl
      | hang => rfl
    | err e c o => rfl
    | panic => rfl
    | hang => rfl
  | err e c o => rfl
  | panic => rfl
  | hang => rfl

end Mybin
