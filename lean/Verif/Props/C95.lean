/-
C95: what was sent is with the server when the client waits for the answer, also over a transport with a write buffer.
-/
import Verif.Model.Buffered
import Verif.Props.C75_C77

namespace Mybin
open Buffered

/-- the bytes of the writes of a message are the bytes the model of `send_msg` puts out -/
theorem messageWrites_wireOf (bs : Bytes) (nr : Nat) : (messageWrites bs nr).flatten = wireOf bs nr := by
  induction hl : bs.length using Nat.strong_induction_on generalizing bs nr with
  | _ n ih =>
    rw [messageWrites, wireOf]
    have hp : ∀ (p : Bytes) (nr : Nat), p.length < 2 ^ 24 → (packetWrites p nr).flatten = (Spec.Packet.mk nr p).wire := by
      intro p nr h
      rw [← header_wire _ _ h]
      simp [packetWrites, AsyncConn.packetHeader]
    by_cases hge : bs.length ≥ maxPacket
    · rw [dif_pos hge, dif_pos hge, List.flatten_append, hp _ _ (by rw [List.length_take, maxPacket]; omega), ih (bs.drop maxPacket).length (by
        simp only [List.length_drop, maxPacket] at *; omega) _ _ rfl]
    · rw [dif_neg hge, dif_neg hge, hp _ _ (by rw [maxPacket] at hge; omega)]

theorem writeAll_eq (t : Transport) (data : Bytes) (hd : data ≠ []) :
    t.writeAll data = if t.cap ≤ data.length then ⟨t.cap, [], t.passed ++ t.held ++ data⟩
      else if t.held.length + data.length > t.cap then ⟨t.cap, data, t.passed ++ t.held⟩
      else ⟨t.cap, t.held ++ data, t.passed⟩ := by
  have h0 : 0 < data.length := List.length_pos_iff.2 hd
  unfold Transport.writeAll
  rw [if_neg hd]
  by_cases h1 : t.held.length + data.length > t.cap
  · simp only [if_pos h1, ge_iff_le, List.nil_append]
  · by_cases h2 : t.cap ≤ data.length
    · have h3 : t.held = [] := by rw [← List.length_eq_zero_iff]; omega
      simp only [if_neg h1, if_pos h2, ge_iff_le]
      rw [h3, List.append_nil]
    · simp only [if_neg h1, if_neg h2, ge_iff_le]

theorem writeAll_order (t : Transport) (data : Bytes) :
    (t.writeAll data).passed ++ (t.writeAll data).held = t.passed ++ t.held ++ data ∧ (t.writeAll data).cap = t.cap := by
  by_cases hd : data = []
  · subst hd; simp [Transport.writeAll]
  · rw [writeAll_eq t data hd]
    split_ifs <;> simp

theorem writeAll_held (t : Transport) (data : Bytes) (hd : data ≠ []) :
    (t.writeAll data).held = [] ↔ t.cap ≤ data.length := by
  rw [writeAll_eq t data hd]
  split_ifs with h <;> simp [h, hd]

theorem writes_order (ws : List Bytes) (t : Transport) :
    (ws.foldl Transport.writeAll t).passed ++ (ws.foldl Transport.writeAll t).held = t.passed ++ t.held ++ ws.flatten ∧
    (ws.foldl Transport.writeAll t).cap = t.cap := by
  induction ws generalizing t with
  | nil => simp
  | cons w ws ih =>
    obtain ⟨h1, h2⟩ := ih (t.writeAll w)
    obtain ⟨h3, h4⟩ := writeAll_order t w
    rw [List.foldl_cons, h1, h2, h3, h4]
    simp

theorem messageWrites_last (bs : Bytes) (nr : Nat) :
    ∃ pre nr' tail, messageWrites bs nr = pre ++ [[nr'], tail] ∧ tail.length = bs.length % 0xffffff := by
  induction hl : bs.length using Nat.strong_induction_on generalizing bs nr with
  | _ n ih =>
    have hmp : maxPacket = 0xffffff := rfl
    rw [messageWrites]
    by_cases hge : bs.length ≥ maxPacket
    · obtain ⟨pre, nr', tail, h1, h2⟩ := ih (bs.drop maxPacket).length (by
        simp only [List.length_drop, maxPacket] at *; omega) (bs.drop maxPacket) (nr + 1) rfl
      rw [dif_pos hge, h1]
      refine ⟨_, nr', tail, (List.append_assoc _ _ _).symm, ?_⟩
      rw [h2, List.length_drop, hl, hmp]
      omega
    · rw [dif_neg hge]
      exact ⟨[_], _, bs, rfl, by omega⟩

/-- C95: on a transport with a write buffer of `cap` bytes, whatever is in it, sending a message keeps every byte in
order, and all has arrived when `send_msg` returns exactly if the last packet of the message is at least as long as the
buffer (one byte counts for an empty one: its number). -/
theorem C95_arrives_iff (t : Transport) (msg : Bytes) (hn : msg.length / 0xffffff < 255) :
    ∃ wire, (∀ c : Conn, ∃ c', Mybin.sendMsg msg true c = .ok () c' ∧ c'.out = c.out ++ wire) ∧
      (t.sendMsg msg).passed ++ (t.sendMsg msg).held = t.passed ++ t.held ++ wire ∧
      ((t.sendMsg msg).passed = t.passed ++ t.held ++ wire ↔ t.cap ≤ max 1 (msg.length % 0xffffff)) := by
  refine ⟨wireOf msg 0, fun c => ?_, ?_⟩
  · unfold Mybin.sendMsg
    exact ⟨_, sendLoop_wireOf msg _ (by simpa [maxPacket] using hn), rfl⟩
  have ho := writes_order (messageWrites msg 0) t
  rw [messageWrites_wireOf] at ho
  refine ⟨ho.1, ?_⟩
  have : (t.sendMsg msg).passed = t.passed ++ t.held ++ wireOf msg 0 ↔ (t.sendMsg msg).held = [] := by
    have h := ho.1
    change (t.sendMsg msg).passed ++ (t.sendMsg msg).held = _ at h
    rw [← h]
    constructor
    · intro e
      have := congrArg List.length e
      rw [List.length_append] at this
      rw [← List.length_eq_zero_iff]; omega
    · intro e; rw [e, List.append_nil]
  rw [this]
  obtain ⟨pre, nr', tail, h1, h2⟩ := messageWrites_last msg 0
  unfold Transport.sendMsg
  rw [h1, List.foldl_append, List.foldl_cons, List.foldl_cons, List.foldl_nil]
  have hc : (List.foldl Transport.writeAll t pre).cap = t.cap := (writes_order pre t).2
  rcases tail with _ | ⟨b, tail⟩
  · have : ∀ u : Transport, u.writeAll [] = u := fun u => by unfold Transport.writeAll; rw [if_pos rfl]
    rw [this, writeAll_held _ _ (by simp), hc, ← h2]
    simp
  · rw [writeAll_held _ _ (by simp), (writeAll_order _ _).2, hc, h2]
    have : 0 < msg.length % 0xffffff := by rw [← h2]; simp
    constructor <;> intro h <;> omega

/-- C95 without a write buffer, as for the sockets of the two programs: after any messages the server has got every byte
of them. (Full claim: for every transport. Missing: transports with a buffer, for which it is false, `C95_silent_false`;
exactly when: `C95_arrives_iff`.) -/
theorem C95_unbuffered_partial (msgs : List Bytes) (h : ∀ m ∈ msgs, m.length / 0xffffff < 255) (c : Conn) :
    ∃ c', (msgs.foldl (fun r m => r >>= fun _ => Mybin.sendMsg m true) (pure ())) c = .ok () c' ∧
      c'.out = c.out ++ (msgs.foldl Transport.sendMsg { cap := 0 }).passed := by
  have key : ∀ (msgs : List Bytes), (∀ m ∈ msgs, m.length / 0xffffff < 255) → ∀ (r : M Unit) (t : Transport) (c0 c : Conn),
      r c0 = .ok () c → t.cap = 0 → t.held = [] → c.out = c0.out ++ t.passed →
      ∃ c', (msgs.foldl (fun r m => r >>= fun _ => Mybin.sendMsg m true) r) c0 = .ok () c' ∧
        c'.out = c0.out ++ (msgs.foldl Transport.sendMsg t).passed := by
    intro msgs
    induction msgs with
    | nil => intro _ r t c0 c hr _ _ ho; exact ⟨c, hr, ho⟩
    | cons m ms ih =>
      intro h r t c0 c hr hcap hheld ho
      obtain ⟨wire, h1, h2, h3⟩ := C95_arrives_iff t m (h m (by simp))
      obtain ⟨c1, g1, g2⟩ := h1 c
      have h4 := h3.2 (by omega)
      rw [hheld, List.append_nil] at h4 h2
      refine ih (fun m hm => h m (by simp [hm])) _ (t.sendMsg m) c0 c1 ?_ ?_ ?_ ?_
      · show (r >>= fun _ => Mybin.sendMsg m true) c0 = _
        rw [M.bind_apply, hr]; exact g1
      · exact (writes_order _ t).2.trans hcap
      · rw [h4] at h2; simpa using h2
      · rw [g2, ho, h4]; simp
  exact key msgs h (pure ()) { cap := 0 } c c rfl rfl rfl (by simp)

/-- C95 is false with a write buffer: of a command that fits into the buffer with its header the server gets not a byte;
it has nothing to answer, and the client waits for its answer through any number of polls. (The bytes are in the buffer:
`C95_arrives_iff`.) -/
theorem C95_silent_false (cap : Nat) (msg : Bytes) (h : msg.length + 4 ≤ cap) (hm : msg.length < 0xffffff) (polls : Nat) :
    (Transport.sendMsg { cap } msg).passed = [] ∧
    (receive 0 [] (List.replicate polls .pending)).1 = .pending := by
  constructor
  · unfold Transport.sendMsg
    rw [messageWrites, dif_neg (by simp only [maxPacket]; omega)]
    have step : ∀ (t : Transport) (d : Bytes), t.passed = [] → t.held.length + d.length ≤ t.cap → d.length < t.cap →
        (t.writeAll d).passed = [] ∧ (t.writeAll d).held.length = t.held.length + d.length ∧ (t.writeAll d).cap = t.cap := by
      intro t d h1 h2 h3
      unfold Transport.writeAll
      by_cases hd : d = []
      · rw [if_pos hd]; simp [h1, hd]
      · simp only [if_neg hd, if_neg (show ¬ t.held.length + d.length > t.cap by omega), if_neg (show ¬ d.length ≥ t.cap by omega)]
        simp [h1]
    simp only [packetWrites, List.foldl_cons, List.foldl_nil]
    obtain ⟨a1, a2, a3⟩ := step { cap } [UInt8.ofNat (msg.length &&& 0xff), UInt8.ofNat ((msg.length >>> 8) &&& 0xff),
      UInt8.ofNat ((msg.length >>> 16) &&& 0xff)] rfl (by simp; omega) (by simp; omega)
    obtain ⟨b1, b2, b3⟩ := step _ [UInt8.ofNat 0] a1 (by rw [a2, a3]; simp; omega) (by rw [a3]; simp; omega)
    exact (step _ msg b1 (by rw [b2, b3, a2, a3]; simp; omega) (by rw [b3, a3]; simp; omega)).1
  · have key : ∀ (polls fuel : Nat) (r : AsyncConn.Recv),
        (AsyncConn.driveRecv fuel r [] (List.replicate polls .pending)).1 = .pending := by
      intro polls
      induction polls with
      | zero => intro fuel r; cases fuel <;> rfl
      | succ n ih =>
        intro fuel r
        cases fuel with
        | zero => rfl
        | succ fuel =>
          rw [List.replicate_succ, AsyncConn.driveRecv]
          simp only [AsyncConn.pollRecv]
          split
          · rfl
          · exact ih fuel r
    exact key polls _ _

/-- COM_PING, in a buffer of the usual 8 KiB -/
example : (Transport.sendMsg { cap := 8192 } [0x0e]).passed = [] ∧
    (Transport.sendMsg { cap := 8192 } [0x0e]).held = [1, 0, 0, 0, 0x0e] := by
  unfold Transport.sendMsg
  rw [messageWrites, dif_neg (by simp [maxPacket])]
  decide

end Mybin
