/-
C134, continued: the text of the log of `mybinmsg`; and why the claim is about passwords that are not empty.
-/
import Verif.Props.C135
import Verif.Model.MsgText

namespace Mybin

open Spec (SameOutcome)

/-- why both passwords have to be given: a server that asks for the full exchange lets a client without a password in,
and one with a password gives up -/
theorem C134_empty_false (H : Hashes) (hH : H.Sized) (user db p : Bytes) (hpw : p ≠ []) (f : Spec.HandshakeFields) (hf : f.InRange)
    (hsec : f.caps.testBit Spec.SECURE_CONNECTION = true) (hpl : f.caps.testBit Spec.PLUGIN_AUTH = true)
    (h8 : 8 ≤ f.authLen) (hname : f.pluginName = (Spec.ascii "caching_sha2_password"))
    (hu : (0 : UInt8) ∉ user) (hdb : (0 : UInt8) ∉ db) (hsz : user.length + db.length < 2 ^ 30) (ok : Spec.OkFields)
    (hok : ok.InRange) (c : Conn) (hc : c.caps = 0) (mid rest : Bytes) (hfl : (Spec.handshakeV10 f).length < 0xffffff)
    (hin : c.inp = Spec.wire [⟨0, Spec.handshakeV10 f⟩] ++ mid)
    (hd : Spec.Delivers mid [Spec.authMoreData [4], Spec.okPacket (Spec.clientCaps db) 0 ok] rest) :
    (∃ c', handshake H ⟨user, [], db⟩ c = .ok () c') ∧ ∃ c', handshake H ⟨user, p, db⟩ c = .err .custom c' := by
  simp only [← cachingName_ascii] at *
  constructor
  · obtain ⟨c1, ps, b1, b2, -⟩ := handshake_sent H ⟨user, [], db⟩ f hf hsec hpl h8
      (.cachingSha2 [] [] .sendScramble false) (.cachingSha2 [] [] .sendScramble false) []
      (by rw [hname]; decide) (by simp [genInitAuthResp, AuthPlugin.setCredential, AuthPlugin.next])
      (by simp) hu hdb hsz c hc mid hfl hin
    rw [← b2] at hd
    obtain ⟨c2, g1, g2, g3, g4⟩ := Delivers.recv hd
    have hloop : handshakeLoop H (Spec.clientCaps db) (.cachingSha2 [] [] .sendScramble false) c1
        = handshakeLoop H (Spec.clientCaps db) (.cachingSha2 [] [] .sendScramble false) c2 := by
      have hnx : (AuthPlugin.cachingSha2 [] [] .sendScramble false).next H [4]
          = .ok ([], .cachingSha2 [] [] .sendScramble false) := by
        simp [AuthPlugin.next]
      rw [handshakeLoop.eq_def, g1]
      simp only [M.parse_ok (handshakeMessage_more _ _), hnx, List.isEmpty_nil, if_true, M.pure_apply]
      rw [if_pos g4]
    obtain ⟨c', d1, -⟩ := handshakeLoop_ok H (Spec.clientCaps db) (.cachingSha2 [] [] .sendScramble false) ok hok c2 [] rest g3
    exact ⟨c', by rw [b1, hloop]; exact d1⟩
  · obtain ⟨c1, ps, b1, b2, -⟩ := handshake_sent H ⟨user, p, db⟩ f hf hsec hpl h8
      (.cachingSha2 [] [] .sendScramble false) (.cachingSha2 p [] .readResult false) (scrambleCachingSha2 H p [])
      (by rw [hname]; decide) (by simp [genInitAuthResp, AuthPlugin.setCredential, AuthPlugin.next, hpw])
      (by rw [scrambleCachingSha2_length H hH]; norm_num) hu hdb hsz c hc mid hfl hin
    rw [← b2] at hd
    obtain ⟨c2, g1, g2, g3, g4⟩ := Delivers.recv hd
    refine ⟨c2, ?_⟩
    have hnx : (AuthPlugin.cachingSha2 p [] .readResult false).next H [4] = .error .custom := by
      simp [AuthPlugin.next, hpw, AuthPlugin.fullAuth]
    rw [b1, handshakeLoop.eq_def, g1]
    simp only [M.parse_ok (handshakeMessage_more _ _), hnx]

/-- C134: the text of the log of `mybinmsg` does not depend on the password -/
theorem C134_log (marker : LogEventType → List Char) (printable : Char → Bool) (w : World) (hH : w.hashes.Sized)
    (host port user p p' : Bytes) (hp : p ≠ []) (hp' : p' ≠ []) :
    mybinmsgLog marker printable w (.tcp host port user p) = mybinmsgLog marker printable w (.tcp host port user p') := by
  unfold mybinmsgLog
  dsimp only
  have h0 := connect_alike w hH 0 host port user p p' hp hp'
  generalize connect w 0 host port user p = r0 at h0
  generalize connect w 0 host port user p' = r0' at h0
  cases h0 with
  | ok _ conn o0 =>
    dsimp only
    have hb := Deaf.binlogFiles conn o0
    generalize Cmd.binlogFiles conn = b at hb
    generalize Cmd.binlogFiles { conn with out := o0 } = b' at hb
    cases hb with
    | ok files c o =>
      dsimp only
      have hq := Deaf.requestStream defaultRequest w.uuid w.random c o
      generalize defaultRequest.requestStream w.uuid w.random c = q at hq
      generalize defaultRequest.requestStream w.uuid w.random { c with out := o } = q' at hq
      cases hq with
      | ok s c o =>
        dsimp only
        rw [(msgLoop_alike s c o).1]
      | err e c o => rfl
      | panic => rfl
      | hang => rfl
    | err e c o => rfl
    | panic => rfl
    | hang => rfl
  | err e c o => rfl
  | panic => rfl
  | hang => rfl

/-- C135: nor on the random values -/
theorem C135_log (marker : LogEventType → List Char) (printable : Char → Bool) (w : World) (u' : Bytes)
    (hu : w.uuid.length = u'.length) (n' : Nat) (conf : MsgConnect) :
    mybinmsgLog marker printable { w with uuid := u', random := n' } conf = mybinmsgLog marker printable w conf := by
  unfold mybinmsgLog
  cases conf with
  | unixSocket => rfl
  | tcp host port user password =>
    dsimp only
    have hc : connect { w with uuid := u', random := n' } 0 host port user password = connect w 0 host port user password := rfl
    rw [hc]
    cases connect w 0 host port user password with
    | ok _ conn =>
      dsimp only
      cases Cmd.binlogFiles conn with
      | ok files c =>
        dsimp only
        have hi := requestStream_alike defaultRequest w.uuid u' hu w.random n' c c.out
        change SameOutcome _ (defaultRequest.requestStream u' n' c) at hi
        generalize defaultRequest.requestStream w.uuid w.random c = q at hi
        generalize defaultRequest.requestStream u' n' c = q' at hi
        cases hi with
        | ok s c o =>
          dsimp only
          rw [(msgLoop_alike s c o).1]
        | err e c o => rfl
        | panic => rfl
        | hang => rfl
      | err e c => rfl
      | panic => rfl
      | hang => rfl
    | err e c => rfl
    | panic => rfl
    | hang => rfl

/-- a greeting with the other method -/
def exampleGreetingSha2 : Spec.HandshakeFields := { exampleGreeting with pluginName := cachingSha2Name }

theorem exampleGreetingSha2_inRange : exampleGreetingSha2.InRange :=
  ⟨by decide +kernel, by decide +kernel, by decide +kernel, by decide +kernel, by decide +kernel, by decide +kernel, by decide +kernel, by decide +kernel, by decide +kernel, by decide +kernel,
    by decide +kernel, by decide +kernel, by decide +kernel⟩

/-- the hypotheses of `C134_empty_false` can be met -/
example : ∃ mid : Bytes, exampleGreetingSha2.InRange ∧ exampleGreetingSha2.caps.testBit Spec.SECURE_CONNECTION = true ∧
    exampleGreetingSha2.caps.testBit Spec.PLUGIN_AUTH = true ∧ 8 ≤ exampleGreetingSha2.authLen ∧
    exampleGreetingSha2.pluginName = Spec.ascii "caching_sha2_password" ∧
    (Spec.handshakeV10 exampleGreetingSha2).length < 0xffffff ∧
    Spec.Delivers mid [Spec.authMoreData [4], Spec.okPacket (Spec.clientCaps []) 0 ⟨0, 0, 2, 0, [], []⟩] [] := by
  obtain ⟨mid, hd⟩ := delivers_small [Spec.authMoreData [4], Spec.okPacket (Spec.clientCaps []) 0 ⟨0, 0, 2, 0, [], []⟩] []
    (by intro m hm; simp only [List.mem_cons, List.not_mem_nil, or_false] at hm
        rcases hm with h | h
        · subst h; decide +kernel
        · subst h; decide +kernel)
  exact ⟨mid, exampleGreetingSha2_inRange, by decide +kernel, by decide +kernel, by decide +kernel, cachingName_ascii,
    by decide +kernel, hd⟩

end Mybin
