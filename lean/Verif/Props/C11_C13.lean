/-
C11 framing round-trips; C12 packets are well formed and numbered; C13 a stream of messages.
-/
import Verif.Lemmas.Conn

namespace Mybin

/-! ### C11 -/

/-- C11, receiving: whatever run of packets makes up one message, `recv_msg` returns its payload,
leaves what follows, and sets the packet number to one more than the last one received (mod 256). -/
theorem C11_recv_message (ps : List Spec.Packet) (h : Spec.IsMessage ps) (rest : Bytes) (c : Conn)
    (hc : c.inp = Spec.wire ps ++ rest) :
    ∃ nr, recvMsg c = .ok (Spec.payload ps) { c with inp := rest, pktNr := nr } ∧
      ∀ last, ps.getLast? = some last → nr = (last.seq + 1) % 256 := by
  obtain ⟨init, last, rfl, hi, hl, hs⟩ := h
  refine ⟨nextNr last.seq, ?_, ?_⟩
  · simp only [recvMsg, hc]
    rw [recvLoop_message init last rest hi hl (fun p hp => hs p (by simp [hp])) (hs last (by simp))]
    simp
  · intro l hl'; simp at hl'; subst hl'; rfl

/-- C11, soundness: whenever `recv_msg` returns a message, the bytes it consumed were exactly one
well-formed message with that payload. -/
theorem C11_recv_sound (c c' : Conn) (msg : Bytes) (h : recvMsg c = .ok msg c') :
    ∃ ps, Spec.IsMessage ps ∧ c.inp = Spec.wire ps ++ c'.inp ∧ Spec.payload ps = msg := by
  simp only [recvMsg] at h
  split at h
  · rename_i m r nr hr
    cases h
    obtain ⟨ps, h1, h2, h3⟩ := recvLoop_sound [] c.inp c.pktNr _ _ _ hr
    exact ⟨ps, h1, h2, by simpa using h3.symm⟩
  · cases h

/-- C11, round trip: what one side sends with `send_msg` (any length, including exact multiples of
0xffffff; up to the 255-packet limit of C12), the other side receives with `recv_msg`, leaving the
following stream bytes unread. -/
theorem C11_round_trip (payload : Bytes) (reset : Bool) (a b : Conn) (rest : Bytes)
    (hn : (if reset then 0 else a.pktNr) + payload.length / 0xffffff < 255) :
    ∃ sent a', sendMsg payload reset a = .ok () a' ∧ a'.out = a.out ++ sent ∧
      (b.inp = sent ++ rest → ∃ nr, recvMsg b = .ok payload { b with inp := rest, pktNr := nr }) := by
  have key : ∀ a1 : Conn, a1.pktNr + payload.length / 0xffffff < 255 → a1.out = a.out →
      ∃ sent a', sendLoop payload a1 = .ok () a' ∧ a'.out = a.out ++ sent ∧
      (b.inp = sent ++ rest → ∃ nr, recvMsg b = .ok payload { b with inp := rest, pktNr := nr }) := by
    intro a1 h1 h2
    obtain ⟨ps, g1, g2, g3, g4, g5⟩ := sendLoop_spec payload a1 h1
    refine ⟨Spec.wire ps, _, g5, by simp [h2], fun hb => ?_⟩
    obtain ⟨nr, e, _⟩ := C11_recv_message ps g1 rest b hb
    exact ⟨nr, by rw [e, g3]⟩
  cases reset
  · exact key a (by simpa using hn) rfl
  · exact key { a with pktNr := 0 } (by simpa using hn) rfl

-- non-vacuity: a payload of exactly 0xffffff bytes satisfies the hypothesis (and needs two packets)
example : (if true then 0 else 7) + (List.replicate 0xffffff (0 : UInt8)).length / 0xffffff < 255 := by
  rw [List.length_replicate]; decide
example : recvMsg { inp := [3, 0, 0, 7, 1, 2, 3, 9] } = .ok [1, 2, 3] { inp := [9], pktNr := 8 } := by
  simp [recvMsg, recvLoop, maxPacket]

/-! ### C12 -/

/-- C12, for messages whose packet numbers stay below 255 (missing: beyond that the counter
overflows, see `C12_false`): the bytes sent are a well-formed message carrying exactly the payload, its
packets are numbered consecutively from the current packet number (from 0 after a reset), and the
counter ends one past the last. -/
theorem C12_sent_packets_partial (payload : Bytes) (reset : Bool) (c : Conn)
    (hn : (if reset then 0 else c.pktNr) + payload.length / 0xffffff < 255) :
    ∃ ps, Spec.IsMessage ps ∧ Spec.Numbered (if reset then 0 else c.pktNr) ps ∧
      Spec.payload ps = payload ∧
      sendMsg payload reset c = .ok () { c with
        out := c.out ++ Spec.wire ps,
        pktNr := (if reset then 0 else c.pktNr) + ps.length } := by
  cases reset
  · obtain ⟨ps, g1, g2, g3, _, g5⟩ := sendLoop_spec payload c (by simpa [maxPacket] using hn)
    exact ⟨ps, g1, by simpa using g2, g3, by simpa [sendMsg] using g5⟩
  · obtain ⟨ps, g1, g2, g3, _, g5⟩ := sendLoop_spec payload { c with pktNr := 0 }
      (by simpa [maxPacket] using hn)
    exact ⟨ps, g1, by simpa using g2, g3, by simpa [sendMsg] using g5⟩

/-- C12 in a build with overflow checks: sending with packet number 255 (reached after receiving a
packet numbered 254) panics after the bytes are written. -/
theorem C12_false : ∃ c : Conn, c.pktNr = 255 ∧ ∀ payload : Bytes, payload.length < 0xffffff →
    sendMsg payload false c = .panic := by
  refine ⟨{ inp := [], pktNr := 255 }, rfl, fun payload h => ?_⟩
  simp only [sendMsg]
  rw [sendLoop, dif_neg (by unfold maxPacket; omega)]
  exact sendPacket_panic _ _ (by simp)

/-- C12, the number after a receive is one more than the last received, modulo 256 (so replies are
numbered in sequence). -/
theorem C12_after_recv (ps : List Spec.Packet) (h : Spec.IsMessage ps) (last : Spec.Packet)
    (hl : ps.getLast? = some last) (rest : Bytes) (c : Conn) (hc : c.inp = Spec.wire ps ++ rest) :
    ∃ c', recvMsg c = .ok (Spec.payload ps) c' ∧ c'.pktNr = (last.seq + 1) % 256 := by
  obtain ⟨nr, e, hnr⟩ := C11_recv_message ps h rest c hc
  exact ⟨_, e, hnr last hl⟩

example : Spec.IsMessage [⟨255, [1, 2]⟩] :=
  ⟨[], _, rfl, by simp, by decide, by simp⟩

/-! ### C13 -/

/-- call `recv_msg` `n` times, collecting the messages -/
def recvN : Nat → M (List Bytes)
  | 0 => pure []
  | n + 1 => do
    let m ← recvMsg
    let ms ← recvN n
    return m :: ms

/-- C13: from a stream that is the concatenation of any sequence of messages, successive `recv_msg`
calls return precisely those messages in order, and the next call reports end of stream. -/
theorem C13_stream_of_messages (msgs : List (List Spec.Packet)) (h : ∀ m ∈ msgs, Spec.IsMessage m)
    (c : Conn) (hc : c.inp = (msgs.map Spec.wire).flatten) :
    ∃ c', recvN msgs.length c = .ok (msgs.map Spec.payload) c' ∧ c'.inp = [] ∧
      c'.out = c.out ∧ ∃ c'', recvMsg c' = .err .io c'' := by
  induction msgs generalizing c with
  | nil =>
    refine ⟨c, rfl, by simpa using hc, rfl, { c with inp := [] }, ?_⟩
    simp only [recvMsg]
    rw [show c.inp = [] by simpa using hc]
    simp [recvLoop]
  | cons m ms ih =>
    obtain ⟨nr, e, _⟩ := C11_recv_message m (h m (by simp)) (ms.map Spec.wire).flatten c
      (by simpa using hc)
    obtain ⟨c', e1, e2, e3, e4⟩ := ih (fun x hx => h x (by simp [hx]))
      { c with inp := (ms.map Spec.wire).flatten, pktNr := nr } rfl
    refine ⟨c', ?_, e2, by simpa using e3, e4⟩
    simp [recvN, e, e1]

/-- C13, truncation: a stream that ends inside a message yields an error, never a shortened message. -/
theorem C13_truncated (ps : List Spec.Packet) (h : Spec.IsMessage ps) (c : Conn)
    (k : Nat) (hk : k < (Spec.wire ps).length) (hc : c.inp = (Spec.wire ps).take k) :
    ∃ c', recvMsg c = .err .io c' := by
  simp only [recvMsg]
  cases hr : recvLoop [] c.inp c.pktNr with
  | error nr => exact ⟨_, rfl⟩
  | ok v =>
    exfalso
    obtain ⟨msg, rest, nr'⟩ := v
    obtain ⟨ps', ⟨i', l', rfl, hi', hl', hs'⟩, e1, e2⟩ := recvLoop_sound _ _ _ _ _ _ hr
    obtain ⟨i, l, rfl, hi, hl, hs⟩ := h
    -- run both parses on the full message: the shorter one would have to be the same message
    have f1 := recvLoop_message i l [] hi hl (fun p hp => hs p (by simp [hp])) (hs l (by simp)) [] 0
    have hsplit : Spec.wire (i ++ [l]) ++ [] =
        Spec.wire (i' ++ [l']) ++ (rest ++ (Spec.wire (i ++ [l])).drop k) := by
      rw [← List.append_assoc, ← e1, hc]; simp
    rw [hsplit, recvLoop_message i' l' _ hi' hl' (fun p hp => hs' p (by simp [hp]))
      (hs' l' (by simp)) [] 0] at f1
    simp only [Except.ok.injEq, Prod.mk.injEq] at f1
    have hz := f1.2.1
    have : ((Spec.wire (i ++ [l])).drop k).length = 0 := by
      have := congrArg List.length hz
      simp only [List.length_append, List.length_nil] at this
      omega
    rw [List.length_drop] at this
    omega

example : ∃ c', recvMsg { inp := [3, 0, 0, 7, 1, 2] } = .err .io c' := by
  simp [recvMsg, recvLoop]

end Mybin
