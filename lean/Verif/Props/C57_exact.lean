/-
C57, exactly: the flags announced do not depend on the flags the server offers.
-/
import Verif.Props.C56_C58

namespace Mybin

/-- C57, exactly when: a client that answers the greeting announces the same flags to every server; they are all offered
if and only if the server offers each of them. -/
theorem C57_iff (H : Hashes) (opts : ConnOpts) (f : Spec.HandshakeFields) (hf : f.InRange)
    (hsec : f.caps.testBit Spec.SECURE_CONNECTION = true) (hpl : f.caps.testBit Spec.PLUGIN_AUTH = true)
    (h8 : 8 ≤ f.authLen) (plugin plugin' : AuthPlugin) (resp : Bytes) (hnew : newAuthPlugin f.pluginName = .ok plugin)
    (hgen : genInitAuthResp H plugin opts.password (f.data1 ++ f.data2) = .ok (resp, plugin'))
    (hrl : resp.length < 251) (hu : (0 : UInt8) ∉ opts.username) (hdb : (0 : UInt8) ∉ opts.database)
    (hsz : opts.username.length + opts.database.length < 2 ^ 30)
    (c : Conn) (hc : c.caps = 0) (mid : Bytes) (hfl : (Spec.handshakeV10 f).length < 0xffffff)
    (hin : c.inp = Spec.wire [⟨0, Spec.handshakeV10 f⟩] ++ mid) :
    ∃ c' ps r, handshake H opts c = handshakeLoop H r.caps plugin' c' ∧
      c'.out = c.out ++ Spec.wire ps ∧ Spec.D.all Spec.D.handshakeResponse41 (Spec.payload ps) = some r ∧
      ((∀ k, r.caps.testBit k = true → f.caps.testBit k = true) ↔
        (∀ k ∈ [0, 9, 13, 15, 17, 19, 21, 24], f.caps.testBit k = true) ∧
        (opts.database ≠ [] → f.caps.testBit 3 = true)) := by
  obtain ⟨c1, ps, b1, b2, b3, b4, b5, b6, b7⟩ := handshake_sent H opts f hf hsec hpl h8 plugin plugin' resp hnew hgen hrl
    hu hdb hsz c hc mid hfl hin
  refine ⟨c1, ps, _, b1, b3, b7, ?_⟩
  dsimp only
  have lt : ∀ n k, n < 2 ^ 25 → n.testBit k = true → k < 25 := by
    intro n k hn hk
    by_contra hge
    rw [Nat.testBit_lt_two_pow (lt_of_lt_of_le hn (Nat.pow_le_pow_right (by norm_num) (by omega)))] at hk
    cases hk
  by_cases h : opts.database = []
  · simp only [Spec.clientCaps, h, if_true, Nat.add_zero]
    constructor
    · intro ha
      refine ⟨?_, fun hn => absurd rfl hn⟩
      intro k hk
      exact ha k (by revert k; decide)
    · rintro ⟨ha, -⟩ k hk
      have hlt := lt _ k (by norm_num) hk
      refine ha k ?_
      interval_cases k <;> revert hk <;> decide
  · simp only [Spec.clientCaps, if_neg h]
    constructor
    · intro ha
      refine ⟨?_, fun _ => ha 3 (by decide)⟩
      intro k hk
      exact ha k (by revert k; decide)
    · rintro ⟨ha, hd⟩ k hk
      have hlt := lt _ k (by norm_num) hk
      by_cases h3 : k = 3
      · subst h3; exact hd h
      · refine ha k ?_
        interval_cases k <;> revert hk h3 <;> decide

/-- a server that does not offer PLUGIN_AUTH gets no answer: connecting ends with an error -/
theorem C57_no_plugin (H : Hashes) (opts : ConnOpts) (f : Spec.HandshakeFields) (hf : f.InRange)
    (hpl : f.caps.testBit Spec.PLUGIN_AUTH = false)
    (h8 : f.caps.testBit Spec.SECURE_CONNECTION = true → 8 ≤ f.authLen)
    (c : Conn) (mid : Bytes) (hfl : (Spec.handshakeV10 f).length < 0xffffff)
    (hin : c.inp = Spec.wire [⟨0, Spec.handshakeV10 f⟩] ++ mid) :
    ∃ e c', handshake H opts c = .err e c' ∧ c'.out = c.out := by
  obtain ⟨nr, r1, r2⟩ := C11_recv_message [⟨0, Spec.handshakeV10 f⟩]
    ⟨[], _, rfl, by simp, hfl, by simp⟩ mid c hin
  have r1 : recvMsg c = .ok (Spec.handshakeV10 f) { c with inp := mid, pktNr := nr } := by simpa [Spec.payload] using r1
  have hp := C17_initial_handshake_partial f hf h8
  rw [hpl] at hp
  unfold handshake
  simp only [bind, MR.bind, r1, M.parse_ok hp]
  exact ⟨_, _, rfl, rfl⟩

/-- greetings of both kinds: one lacks only DEPRECATE_EOF, one lacks PLUGIN_AUTH -/
example : ({ exampleGreeting with caps := 0xffffff } : Spec.HandshakeFields).caps.testBit 19 = true ∧
    ({ exampleGreeting with caps := 0xffffff } : Spec.HandshakeFields).caps.testBit 24 = false ∧
    ({ exampleGreeting with caps := 0xf7ffff } : Spec.HandshakeFields).caps.testBit Spec.PLUGIN_AUTH = false := by
  decide

end Mybin
