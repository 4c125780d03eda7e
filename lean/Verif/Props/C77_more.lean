/-
C77: abandoned operations, wherever they are dropped.
-/
import Verif.Props.C75_C77

namespace Mybin
open AsyncConn (Poll Recv Send pollRecv driveRecv pollSend driveSend packetHeader packetLen)

/-- C77, what does hold for sending (missing: futures of which the transport accepted something): a `send_msg` future that
is dropped before the transport accepted a byte leaves the transport and the number of the next packet as they were, so
that the next message is sent as if the first send had never been. -/
theorem C77_drop_send_partial (pktNr : Nat) (a wire : Bytes) (first : List AsyncConn.Ans)
    (h : ∀ x ∈ first, x = AsyncConn.Ans.pending) :
    (transmit pktNr a wire first).1 = .pending ∧ (transmit pktNr a wire first).2.2.1 = wire ∧
      (transmit pktNr a wire first).2.1.pktNr = pktNr := by
  have key : ∀ (f : Send) (fuel : Nat) (first : List AsyncConn.Ans), (∀ x ∈ first, x = AsyncConn.Ans.pending) →
      first.length < fuel → driveSend fuel f wire first = (.pending, f, wire, []) := by
    intro f fuel
    induction fuel with
    | zero => intro first _ hf; omega
    | succ fuel ih =>
      intro first h hf
      cases first with
      | nil => rfl
      | cons x s =>
        rw [h x (by simp)]
        simp only [driveSend, pollSend]
        by_cases hs : s = []
        · rw [if_pos hs]
        · rw [if_neg hs]
          exact ih s (fun a ha => h a (by simp [ha])) (by simpa using hf)
  have hn : (Send.start a pktNr).pktNr = pktNr := by
    unfold Send.start
    split <;> rfl
  unfold transmit
  rw [key _ _ first h (by omega)]
  exact ⟨rfl, rfl, hn⟩

example : (transmit 0 [3, 0x41] [9] [.pending, .pending]).1 = .pending ∧
    (transmit 0 [3, 0x42] (transmit 0 [3, 0x41] [9] [.pending, .pending]).2.2.1 (List.replicate 6 (.moved 0))).2.2.1
      = [9] ++ Spec.wire [⟨0, [3, 0x42]⟩] := ⟨by decide +kernel, by decide +kernel⟩

/-- C77 fails wherever a receive is dropped: a message of `n` zero bytes, numbered 0. However the transport hands over
its bytes, when the receive is dropped after at least one and at most `n` of them, in the header or behind it, the next
receive returns an empty message, which nobody sent. -/
theorem C77_drop_anywhere_false (n : Nat) (hn : 0 < n ∧ n < 256) (rest : Bytes) (pktNr : Nat)
    (first second : List AsyncConn.Ans)
    (hp : (receive pktNr (Spec.wire [⟨0, List.replicate n 0⟩] ++ rest) first).1 = .pending) (taken left : Bytes)
    (hs : Spec.wire [⟨0, List.replicate n 0⟩] ++ rest = taken ++ left)
    (hl : (receive pktNr (Spec.wire [⟨0, List.replicate n 0⟩] ++ rest) first).2.2.1 = left)
    (hk : 0 < taken.length ∧ taken.length ≤ n) (hok : AsyncConn.Ans.fail ∉ second) (hm : 4 ≤ movedCount second) :
    Spec.IsMessage [⟨0, List.replicate n 0⟩] ∧
      receiveAfterDrop pktNr (Spec.wire [⟨0, List.replicate n 0⟩] ++ rest) first second = .ready [] := by
  refine ⟨⟨[], _, rfl, by simp, by simp; omega, by simp⟩, ?_⟩
  have hw : Spec.wire [⟨0, List.replicate n 0⟩] = UInt8.ofNat n :: List.replicate (n + 3) 0 := by
    have e1 : n % 256 = n := by omega
    have e2 : n / 256 = 0 := by omega
    have e3 : n / 65536 = 0 := by omega
    simp [Spec.wire, Spec.Packet.wire, Spec.le, Spec.u8, List.range_succ, e1, e2, e3, List.replicate_succ]
  have hleft : left = Spec.wire [⟨0, []⟩] ++ (List.replicate (n - taken.length) 0 ++ rest) := by
    have h1 : left = (Spec.wire [⟨0, List.replicate n 0⟩] ++ rest).drop taken.length := by rw [hs, List.drop_left]
    have h2 : Spec.wire [⟨0, []⟩] = List.replicate 4 (0 : UInt8) := by decide
    obtain ⟨k, hk'⟩ : ∃ k, taken.length = k + 1 := ⟨taken.length - 1, by omega⟩
    rw [h1, hw, hk', List.cons_append, List.drop_succ_cons, List.drop_append_of_le_length (by simp; omega),
      List.drop_replicate, h2, ← List.append_assoc, ← List.replicate_add]
    congr 2
    omega
  unfold receiveAfterDrop
  dsimp only
  rw [hl, hleft]
  have hq : Spec.IsMessage [⟨0, []⟩] := ⟨[], _, rfl, by simp, by decide, by simp⟩
  obtain ⟨r, l, e⟩ := C75_receive_completes [⟨0, []⟩] hq (List.replicate (n - taken.length) 0 ++ rest) _ second hok
    (by rw [show (Spec.wire [⟨0, []⟩]).length = 4 from by decide]; exact hm)
  exact congrArg Prod.fst e

/-- dropped after one byte of the header, and after twelve bytes in three parts -/
example : ∀ first ∈ [[AsyncConn.Ans.moved 0], [.moved 1, .pending, .moved 0, .moved 0, .moved 7]],
    (receive 0 (Spec.wire [⟨0, List.replicate 20 0⟩] ++ [5]) first).1 = .pending ∧
    ∃ taken, Spec.wire [⟨0, List.replicate 20 0⟩] ++ [5]
      = taken ++ (receive 0 (Spec.wire [⟨0, List.replicate 20 0⟩] ++ [5]) first).2.2.1 ∧
      0 < taken.length ∧ taken.length ≤ 20 := by
  intro first hf
  simp only [List.mem_cons, List.not_mem_nil, or_false] at hf
  rcases hf with rfl | rfl
  · exact ⟨by decide +kernel, [20], by decide +kernel, by decide, by decide⟩
  · exact ⟨by decide +kernel, [20, 0, 0, 0, 0, 0, 0, 0, 0, 0, 0, 0], by decide +kernel, by decide, by decide⟩

end Mybin
