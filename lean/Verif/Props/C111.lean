/-
C111: whether lost, repeated and reordered packets are noticed.
-/
import Verif.Props.C11_C13
import Verif.Props.C61_C65

namespace Mybin

/-- the packets of a message other than the last can be left out, repeated and exchanged, and it is still a message -/
theorem message_of (init kept : List Spec.Packet) (last : Spec.Packet) (h : Spec.IsMessage (init ++ [last]))
    (hk : ∀ p ∈ kept, p ∈ init) : Spec.IsMessage (kept ++ [last]) := by
  obtain ⟨i, l, e, hi, hl, hs⟩ := h
  obtain ⟨rfl, e'⟩ := List.append_inj' e rfl
  injection e' with e'
  subst e'
  refine ⟨kept, last, rfl, fun p hp => hi p (hk p hp), hl, fun p hp => hs p ?_⟩
  rcases List.mem_append.1 hp with hp | hp
  · exact List.mem_append_left _ (hk p hp)
  · exact List.mem_append_right _ hp

/-- C111: the numbers of the packets do not matter for what is received: with any other numbers the same message is
received, and the same is left -/
theorem C111_numbers_ignored (ps qs : List Spec.Packet) (h : Spec.IsMessage ps) (hq : ∀ q ∈ qs, q.seq < 256)
    (hb : qs.map Spec.Packet.body = ps.map Spec.Packet.body) (rest : Bytes) (c c' : Conn)
    (hc : c.inp = Spec.wire ps ++ rest) (hc' : c'.inp = Spec.wire qs ++ rest) :
    (∃ nr, recvMsg c = .ok (Spec.payload ps) { c with inp := rest, pktNr := nr }) ∧
    ∃ nr, recvMsg c' = .ok (Spec.payload ps) { c' with inp := rest, pktNr := nr } := by
  obtain ⟨nr, e, -⟩ := C11_recv_message ps h rest c hc
  refine ⟨⟨nr, e⟩, ?_⟩
  have hq' : Spec.IsMessage qs := by
    obtain ⟨init, last, rfl, hi, hl, hs⟩ := h
    rw [List.map_append, List.map_singleton] at hb
    obtain ⟨a, b, rfl, ha, hb⟩ := List.map_eq_append_iff.1 hb
    obtain ⟨x, rfl, hx⟩ := List.map_eq_singleton_iff.1 hb
    refine ⟨a, x, rfl, fun p hp => ?_, by rw [hx]; exact hl, hq⟩
    have : p.body ∈ init.map Spec.Packet.body := by rw [← ha]; exact List.mem_map_of_mem hp
    obtain ⟨p', hp', e⟩ := List.mem_map.1 this
    rw [← e]
    exact hi p' hp'
  obtain ⟨nr', e', -⟩ := C11_recv_message qs hq' rest c' hc'
  have hp : Spec.payload qs = Spec.payload ps := by rw [Spec.payload, Spec.payload, hb]
  exact ⟨nr', by rw [e', hp]⟩

/-- C111 fails: of a message in several packets, any but the last can be missing, can come twice, or can come in another
order; what is left is received as a message, without an error. -/
theorem C111_packets_false (init kept : List Spec.Packet) (last : Spec.Packet) (h : Spec.IsMessage (init ++ [last]))
    (hk : ∀ p ∈ kept, p ∈ init) (rest : Bytes) (c : Conn) (hc : c.inp = Spec.wire (kept ++ [last]) ++ rest) :
    (∃ nr, recvMsg c = .ok (Spec.payload (kept ++ [last])) { c with inp := rest, pktNr := nr }) ∧
    (kept.length ≠ init.length → Spec.payload (kept ++ [last]) ≠ Spec.payload (init ++ [last])) := by
  obtain ⟨nr, e, -⟩ := C11_recv_message _ (message_of init kept last h hk) rest c hc
  refine ⟨⟨nr, e⟩, fun hn he => hn ?_⟩
  obtain ⟨i, l, ei, hi, -, -⟩ := h
  obtain ⟨rfl, -⟩ := List.append_inj' ei rfl
  have len : ∀ ps : List Spec.Packet, (∀ p ∈ ps, p.body.length = 0xffffff) →
      (Spec.payload ps).length = ps.length * 0xffffff := by
    intro ps hp
    induction ps with
    | nil => rfl
    | cons p ps ih =>
      have e : Spec.payload (p :: ps) = p.body ++ Spec.payload ps := rfl
      rw [e, List.length_append, ih (fun q hq => hp q (List.mem_cons_of_mem _ hq)), hp p List.mem_cons_self, List.length_cons]
      omega
  have app : ∀ ps : List Spec.Packet, Spec.payload (ps ++ [last]) = Spec.payload ps ++ last.body := by
    intro ps; simp [Spec.payload]
  have := congrArg List.length he
  rw [app, app, List.length_append, List.length_append, len kept (fun p hp => hi p (hk p hp)), len init hi] at this
  omega

/-- hypotheses of `C111_packets_false`: a message of three packets, from which the first is lost -/
example : Spec.IsMessage ([⟨0, List.replicate 0xffffff 1⟩, ⟨1, List.replicate 0xffffff 2⟩] ++ [⟨2, [3]⟩]) ∧
    ∀ p ∈ [(⟨1, List.replicate 0xffffff 2⟩ : Spec.Packet)], p ∈ [(⟨0, List.replicate 0xffffff 1⟩ : Spec.Packet), ⟨1, List.replicate 0xffffff 2⟩] := by
  refine ⟨⟨_, _, rfl, fun p hp => ?_, by decide, fun p hp => ?_⟩, fun p hp => ?_⟩
  · simp only [List.mem_cons, List.not_mem_nil, or_false] at hp
    rcases hp with rfl | rfl <;> exact List.length_replicate
  · simp only [List.mem_append, List.mem_cons, List.not_mem_nil, or_false] at hp
    rcases hp with (rfl | rfl) | rfl <;> simp
  · simp only [List.mem_cons, List.not_mem_nil, or_false] at hp ⊢
    exact Or.inr hp

/-- C111 fails, between messages: the answer to a command is taken whatever its number, so an answer that was meant for an
earlier command is taken for the answer to this one. -/
theorem C111_stale_answer_false (f : Spec.OkFields) (hf : f.InRange) (seq : Nat) (hs : seq < 256) (rest : Bytes) (c : Conn)
    (hl : (Spec.okPacket c.caps 0 f).length < 0xffffff)
    (hc : c.inp = Spec.wire [⟨seq, Spec.okPacket c.caps 0 f⟩] ++ rest) :
    ∃ c', Cmd.ping c = .ok () c' ∧ c'.inp = rest ∧ SentOne c.caps c.out c'.out .ping := by
  refine C62_ping_partial f hf rest c ⟨[[⟨seq, Spec.okPacket c.caps 0 f⟩]], ?_, ?_, ?_⟩
  · intro r hr
    rw [List.mem_singleton] at hr
    subst hr
    refine ⟨[], ⟨seq, Spec.okPacket c.caps 0 f⟩, rfl, by simp, hl, fun p hp => ?_⟩
    rw [List.mem_singleton] at hp
    subst hp
    exact hs
  · simp [Spec.payload]
  · simpa using hc

end Mybin
