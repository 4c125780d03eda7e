/-
C75 messages are received whole however the transport splits them; C76 messages are sent whole however the transport
accepts them; C77 abandoned operations.
-/
import Verif.Model.AsyncConn
import Verif.Props.C11_C13

namespace Mybin
open AsyncConn

/-- the number of answers that move bytes -/
def movedCount (s : List AsyncConn.Ans) : Nat := s.countP fun a => match a with | .moved _ => true | _ => false

/-! ### receiving -/

/-- states of the future in which it waits for bytes -/
def Waiting (r : Recv) : Prop := r.cur.length < 4 ∨ r.cur.length < 4 + packetLen r.cur

theorem packetLen_append (a b : Bytes) (h : 3 ≤ a.length) : packetLen (a ++ b) = packetLen a := by
  rcases a with _ | ⟨x, _ | ⟨y, _ | ⟨z, a⟩⟩⟩
  · simp at h
  · simp at h
  · simp at h
  · rfl

theorem packetLen_short (a : Bytes) (h : a.length < 3) : packetLen a = 0 := by
  rcases a with _ | ⟨x, _ | ⟨y, _ | ⟨z, a⟩⟩⟩
  · rfl
  · rfl
  · rfl
  · simp at h; omega

theorem recvLoop_number (bs cur s : Bytes) (nr : Nat) :
    recvLoop bs (cur ++ s) nr = recvLoop bs (cur ++ s) (Recv.number cur nr) := by
  rcases cur with _ | ⟨x, _ | ⟨y, _ | ⟨z, _ | ⟨w, a⟩⟩⟩⟩
  · rfl
  · rfl
  · rfl
  · rfl
  · simp only [List.cons_append]
    rw [recvLoop, recvLoop]

theorem recvLoop_packet (bs cur s : Bytes) (nr : Nat) (h4 : 4 ≤ cur.length) (hl : cur.length = 4 + packetLen cur) :
    recvLoop bs (cur ++ s) nr =
      if packetLen cur < maxPacket then .ok (bs ++ cur.drop 4, s, Recv.number cur nr)
      else recvLoop (bs ++ cur.drop 4) s (Recv.number cur nr) := by
  rcases cur with _ | ⟨x, _ | ⟨y, _ | ⟨z, _ | ⟨w, a⟩⟩⟩⟩
  · simp at h4
  · simp at h4
  · simp at h4
  · simp at h4
  · simp only [List.cons_append]
    have ha : a.length = packetLen (x :: y :: z :: w :: a) := by simp at hl; omega
    have hp : packetLen (x :: y :: z :: w :: a) = x.toNat + (y.toNat <<< 8) + (z.toNat <<< 16) := rfl
    rw [recvLoop, ← hp]
    rw [if_neg (by rw [List.length_append]; omega), ← ha, List.take_left, List.drop_left]
    rfl

theorem recvLoop_consumes (bs inp msg rest : Bytes) (nr nr' : Nat) (h : recvLoop bs inp nr = .ok (msg, rest, nr')) :
    rest.length + 4 + packetLen inp ≤ inp.length := by
  induction hn : inp.length using Nat.strong_induction_on generalizing bs inp nr with
  | _ n ih =>
    rw [recvLoop.eq_def] at h
    split at h
    · rename_i l0 l1 l2 seq t
      have hp : packetLen (l0 :: l1 :: l2 :: seq :: t) = l0.toNat + (l1.toNat <<< 8) + (l2.toNat <<< 16) := rfl
      simp only [nr_eq, ← hp] at h
      generalize packetLen (l0 :: l1 :: l2 :: seq :: t) = len at h ⊢
      simp only [List.length_cons] at hn
      split_ifs at h with c1 c2
      · simp only [Except.ok.injEq, Prod.mk.injEq] at h
        obtain ⟨-, rfl, -⟩ := h
        rw [List.length_drop]
        omega
      · have := ih (t.drop len).length (by rw [← hn]; simp; omega) _ _ _ h rfl
        rw [List.length_drop] at this
        omega
    · cases h

theorem waiting_fails (r : Recv) (h : Waiting r) : ∃ nr, recvLoop r.bs r.cur r.pktNr = .error nr := by
  cases hr : recvLoop r.bs r.cur r.pktNr with
  | error nr => exact ⟨nr, rfl⟩
  | ok v =>
    obtain ⟨msg, rest, nr⟩ := v
    have := recvLoop_consumes _ _ _ _ _ _ hr
    rcases h with h | h <;> omega

theorem waiting_consumes (r : Recv) (h : Waiting r) (stream msg rest : Bytes) (nr : Nat)
    (hr : recvLoop r.bs (r.cur ++ stream) r.pktNr = .ok (msg, rest, nr)) : rest.length < stream.length := by
  have := recvLoop_consumes _ _ _ _ _ _ hr
  rw [List.length_append] at this
  rcases h with h | h
  · omega
  · by_cases h3 : r.cur.length < 3
    · rw [packetLen_short _ h3] at h; omega
    · rw [packetLen_append _ _ (by omega)] at this
      omega

theorem advance_spec (r : Recv) (h : Waiting r) (x : Bytes) (hx : x ≠ []) (hn : x.length ≤ r.need) (s : Bytes) :
    match r.advance x with
    | .inl r' => Waiting r' ∧ recvLoop r.bs (r.cur ++ (x ++ s)) r.pktNr = recvLoop r'.bs (r'.cur ++ s) r'.pktNr
    | .inr (msg, nr) => recvLoop r.bs (r.cur ++ (x ++ s)) r.pktNr = .ok (msg, s, nr) := by
  have hpos : 0 < x.length := List.length_pos_iff.2 hx
  rw [← List.append_assoc]
  unfold Recv.advance
  dsimp only
  by_cases hd : 4 ≤ (r.cur ++ x).length ∧ (r.cur ++ x).length = 4 + packetLen (r.cur ++ x)
  · rw [if_pos hd]
    have key := recvLoop_packet r.bs (r.cur ++ x) s r.pktNr hd.1 hd.2
    by_cases hm : packetLen (r.cur ++ x) < maxPacket
    · rw [if_pos hm] at key ⊢
      exact key
    · rw [if_neg hm] at key ⊢
      exact ⟨Or.inl (by simp), key⟩
  · rw [if_neg hd]
    refine ⟨?_, recvLoop_number _ _ _ _⟩
    unfold Waiting
    dsimp only
    by_cases h4 : (r.cur ++ x).length < 4
    · exact Or.inl h4
    · right
      unfold Recv.need at hn
      rw [List.length_append] at hd h4 ⊢
      by_cases h3 : r.cur.length < 3
      · rw [if_pos h3] at hn; omega
      · rw [if_neg h3] at hn
        by_cases h3' : r.cur.length = 3
        · rw [if_pos h3'] at hn
          by_contra hc
          exact hd ⟨by omega, by omega⟩
        · rw [if_neg h3'] at hn
          rw [packetLen_append _ _ (by omega)] at hd ⊢
          rcases h with h | h
          · omega
          · by_contra hc
            exact hd ⟨by omega, by omega⟩

theorem need_pos (r : Recv) (h : Waiting r) : 0 < r.need := by
  unfold Recv.need
  split
  · omega
  · split
    · omega
    · rcases h with h | h <;> omega

/-- what one poll does: the bytes still to come stand for the same message -/
def RecvStep (r : Recv) (stream : Bytes) (sched : List AsyncConn.Ans)
    (out : Poll Bytes × Recv × Bytes × List AsyncConn.Ans) : Prop :=
  (∃ used, stream = used ++ out.2.2.1) ∧
  (∀ a ∈ out.2.2.2, a ∈ sched) ∧
  match out with
  | (.pending, r', stream', s') => Waiting r' ∧ (sched ≠ [] → s'.length < sched.length) ∧
      (sched = [] → s' = []) ∧
      recvLoop r.bs (r.cur ++ stream) r.pktNr = recvLoop r'.bs (r'.cur ++ stream') r'.pktNr ∧
      stream'.length + movedCount sched ≤ stream.length + movedCount s'
  | (.ready msg, r', stream', _) => recvLoop r.bs (r.cur ++ stream) r.pktNr = .ok (msg, stream', r'.pktNr)
  | (.failed e, _, _, _) => e = .io ∧ (AsyncConn.Ans.fail ∈ sched ∨
      ∃ nr, recvLoop r.bs (r.cur ++ stream) r.pktNr = .error nr)
  | (.panicked, _, _, _) => False

theorem pollRecv_spec (sched : List AsyncConn.Ans) : ∀ (r : Recv) (stream : Bytes), Waiting r →
    RecvStep r stream sched (pollRecv r stream sched) := by
  induction sched with
  | nil => intro r stream h; exact ⟨⟨[], rfl⟩, by simp [pollRecv], h, by simp, by simp, rfl, Nat.le_refl _⟩
  | cons a s ih =>
    intro r stream h
    have lift : ∀ (r1 : Recv) (stream1 used : Bytes), stream = used ++ stream1 → Waiting r1 →
        recvLoop r.bs (r.cur ++ stream) r.pktNr = recvLoop r1.bs (r1.cur ++ stream1) r1.pktNr →
        stream1.length + movedCount (a :: s) ≤ stream.length + movedCount s →
        RecvStep r stream (a :: s) (pollRecv r1 stream1 s) := by
      intro r1 stream1 used hu h1 he hc
      have := ih r1 stream1 h1
      revert this
      generalize pollRecv r1 stream1 s = out
      obtain ⟨p, r', stream', s'⟩ := out
      rintro ⟨⟨used', u1⟩, u2, u3⟩
      refine ⟨⟨used ++ used', by rw [hu, u1, List.append_assoc]⟩, fun a' ha' => by simp [u2 a' ha'], ?_⟩
      cases p with
      | pending =>
        obtain ⟨w1, w2, w3, w4, w5⟩ := u3
        refine ⟨w1, fun _ => ?_, by simp, he.trans w4, by omega⟩
        by_cases hs : s = []
        · subst hs; rw [w3 rfl]; simp
        · have := w2 hs; simp; omega
      | ready m => exact he.trans u3
      | failed e =>
        refine ⟨u3.1, ?_⟩
        rcases u3.2 with w | ⟨nr, w⟩
        · exact Or.inl (by simp [w])
        · exact Or.inr ⟨nr, he.trans w⟩
      | panicked => exact u3
    cases a with
    | pending =>
      exact ⟨⟨[], rfl⟩, fun a ha => by simpa [pollRecv] using Or.inr ha, h, by simp, by simp, rfl,
        by simp [movedCount]⟩
    | fail => exact ⟨⟨[], rfl⟩, fun a ha => by simpa [pollRecv] using Or.inr ha, rfl, Or.inl (by simp)⟩
    | zero => exact lift r stream [] rfl h rfl (by simp [movedCount])
    | moved n =>
      rw [pollRecv]
      by_cases hs : stream = []
      · rw [if_pos hs]
        subst hs
        obtain ⟨nr, e⟩ := waiting_fails r h
        exact ⟨⟨[], rfl⟩, fun a ha => by simpa using Or.inr ha, rfl, Or.inr ⟨nr, by simpa using e⟩⟩
      · rw [if_neg hs]
        dsimp only
        have hpos : 0 < stream.length := List.length_pos_iff.2 hs
        have hneed := need_pos r h
        generalize hk : min (n + 1) r.need = k
        have hk0 : 0 < k := by omega
        have adv := advance_spec r h (stream.take k)
          (by intro e; have := congrArg List.length e; rw [List.length_take, List.length_nil] at this; omega)
          (by rw [List.length_take]; omega) (stream.drop k)
        rw [List.take_append_drop] at adv
        revert adv
        cases r.advance (stream.take k) with
        | inl r' =>
          rintro ⟨w1, w2⟩
          refine lift r' (stream.drop k) (stream.take k) (List.take_append_drop _ _).symm w1 w2 ?_
          rw [List.length_drop]
          simp only [movedCount, List.countP_cons, if_true]
          omega
        | inr v =>
          intro w
          exact ⟨⟨stream.take k, (List.take_append_drop _ _).symm⟩, fun a ha => by simpa using Or.inr ha, w⟩

/-- the same for a whole run; at its end no answer is left -/
theorem driveRecv_spec (fuel : Nat) : ∀ (r : Recv) (stream : Bytes) (sched : List AsyncConn.Ans), Waiting r →
    sched.length < fuel →
    RecvStep r stream sched (driveRecv fuel r stream sched) ∧
    ((driveRecv fuel r stream sched).1 = .pending → (driveRecv fuel r stream sched).2.2.2 = []) := by
  induction fuel with
  | zero => intro r stream sched _ h; omega
  | succ fuel ih =>
    intro r stream sched h hf
    have key := pollRecv_spec sched r stream h
    rw [driveRecv]
    revert key
    generalize pollRecv r stream sched = out
    obtain ⟨p, r', stream', s'⟩ := out
    intro key
    cases p with
    | ready m => exact ⟨key, fun e => by cases e⟩
    | failed e => exact ⟨key, fun e => by cases e⟩
    | panicked => exact ⟨key, fun e => by cases e⟩
    | pending =>
      dsimp only
      obtain ⟨⟨used, u1⟩, u2, w1, w2, w3, w4, w5⟩ := key
      have u1 : stream = used ++ stream' := u1
      have u2 : ∀ a ∈ s', a ∈ sched := u2
      by_cases hs : s' = []
      · subst hs
        rw [if_pos rfl]
        exact ⟨⟨⟨used, u1⟩, u2, w1, w2, fun _ => rfl, w4, w5⟩, fun _ => rfl⟩
      · rw [if_neg hs]
        have hne : sched ≠ [] := fun e => hs (w3 e)
        obtain ⟨k1, k2⟩ := ih r' stream' s' w1 (by have := w2 hne; omega)
        refine ⟨?_, k2⟩
        revert k1
        generalize driveRecv fuel r' stream' s' = out
        obtain ⟨p, r2, stream2, s2⟩ := out
        rintro ⟨⟨used2, v1⟩, v2, v3⟩
        have v1 : stream' = used2 ++ stream2 := v1
        refine ⟨⟨used ++ used2, by rw [u1, v1, List.append_assoc]⟩, fun a ha => u2 a (v2 a ha), ?_⟩
        cases p with
        | pending =>
          obtain ⟨x1, x2, x3, x4, x5⟩ := v3
          exact ⟨x1, fun _ => by have := w2 hne; have := x2 hs; omega, fun e => (hne e).elim, w4.trans x4, by omega⟩
        | ready m => exact w4.trans v3
        | failed e =>
          refine ⟨v3.1, ?_⟩
          rcases v3.2 with w | ⟨nr, w⟩
          · exact Or.inl (u2 _ w)
          · exact Or.inr ⟨nr, w4.trans w⟩
        | panicked => exact v3

/-- a `recv_msg` future run on a stream by a transport that gives the answers `sched` -/
def receive (pktNr : Nat) (stream : Bytes) (sched : List AsyncConn.Ans) : Poll Bytes × Recv × Bytes × List AsyncConn.Ans :=
  driveRecv (sched.length + 1) ⟨[], [], pktNr⟩ stream sched

/-- C75: for every message, every bytes after it and every behaviour of the transport: when `recv_msg` returns, it returns
the message and leaves the bytes after it unread, with the packet number after the last packet's; it fails only when the
transport does; and as long as it waits, the message is not yet complete. -/
theorem C75_receive (ps : List Spec.Packet) (h : Spec.IsMessage ps) (rest : Bytes) (pktNr : Nat)
    (sched : List AsyncConn.Ans) :
    match receive pktNr (Spec.wire ps ++ rest) sched with
    | (.ready msg, r, stream, _) => msg = Spec.payload ps ∧ stream = rest ∧
        ∀ last, ps.getLast? = some last → r.pktNr = (last.seq + 1) % 256
    | (.failed e, _, _, _) => e = .io ∧ AsyncConn.Ans.fail ∈ sched
    | (.pending, _, stream, left) => left = [] ∧ rest.length < stream.length ∧
        ∃ used, Spec.wire ps ++ rest = used ++ stream
    | (.panicked, _, _, _) => False := by
  obtain ⟨nr, hrecv, hnr⟩ := C11_recv_message ps h rest ⟨Spec.wire ps ++ rest, [], pktNr, 0, 0⟩ rfl
  have hloop : recvLoop [] (Spec.wire ps ++ rest) pktNr = .ok (Spec.payload ps, rest, nr) := by
    unfold recvMsg at hrecv
    dsimp only at hrecv
    cases hl : recvLoop [] (Spec.wire ps ++ rest) pktNr with
    | error n => rw [hl] at hrecv; cases hrecv
    | ok v =>
      rw [hl] at hrecv
      obtain ⟨m, r, n⟩ := v
      injection hrecv with h1 h2
      injection h2 with h2 _ h3
      subst h1 h2 h3
      rfl
  have key := driveRecv_spec (sched.length + 1) ⟨[], [], pktNr⟩ (Spec.wire ps ++ rest) sched (Or.inl (by simp)) (by omega)
  unfold receive
  revert key
  generalize driveRecv (sched.length + 1) ⟨[], [], pktNr⟩ (Spec.wire ps ++ rest) sched = out
  obtain ⟨p, r', stream', s'⟩ := out
  rintro ⟨⟨u0, u2, u3⟩, u4⟩
  cases p with
  | pending =>
    obtain ⟨w1, -, -, w4, -⟩ := u3
    exact ⟨u4 rfl, waiting_consumes r' w1 stream' _ _ _ (w4.symm.trans hloop), u0⟩
  | ready msg =>
    have e : recvLoop [] (Spec.wire ps ++ rest) pktNr = .ok (msg, stream', r'.pktNr) := u3
    rw [hloop] at e
    injection e with e
    injection e with e1 e
    injection e with e2 e3
    exact ⟨e1.symm, e2.symm, fun last hl => by rw [← e3]; exact hnr last hl⟩
  | failed e =>
    obtain ⟨e1, e2⟩ := u3
    refine ⟨e1, ?_⟩
    rcases e2 with e2 | ⟨n, e2⟩
    · exact e2
    · have e2 : recvLoop [] (Spec.wire ps ++ rest) pktNr = .error n := e2
      rw [hloop] at e2
      cases e2
  | panicked => exact u3

/-- C75: the message is returned after as many productive answers as it has bytes, whatever else happens in between. -/
theorem C75_receive_completes (ps : List Spec.Packet) (h : Spec.IsMessage ps) (rest : Bytes) (pktNr : Nat)
    (sched : List AsyncConn.Ans) (hok : AsyncConn.Ans.fail ∉ sched) (hn : (Spec.wire ps).length ≤ movedCount sched) :
    ∃ r left, receive pktNr (Spec.wire ps ++ rest) sched = (.ready (Spec.payload ps), r, rest, left) := by
  have h1 := C75_receive ps h rest pktNr sched
  have h2 := (driveRecv_spec (sched.length + 1) ⟨[], [], pktNr⟩ (Spec.wire ps ++ rest) sched (Or.inl (by simp))
    (by omega)).1
  unfold receive at h1 ⊢
  revert h1 h2
  generalize driveRecv (sched.length + 1) ⟨[], [], pktNr⟩ (Spec.wire ps ++ rest) sched = out
  obtain ⟨p, r', stream', s'⟩ := out
  cases p with
  | ready msg => rintro ⟨rfl, rfl, _⟩ _; exact ⟨_, _, rfl⟩
  | failed e => rintro ⟨_, e⟩; exact (hok e).elim
  | panicked => exact False.elim
  | pending =>
    rintro ⟨rfl, h1, -⟩ ⟨-, -, -, -, -, -, h2⟩
    have h2 : stream'.length + movedCount sched ≤ (Spec.wire ps ++ rest).length + movedCount [] := h2
    rw [List.length_append] at h2
    have : movedCount [] = 0 := rfl
    omega

/-- C75: a message cut short is never returned, whatever the transport does. -/
theorem C75_truncated (ps : List Spec.Packet) (h : Spec.IsMessage ps) (k : Nat) (hk : k < (Spec.wire ps).length)
    (pktNr : Nat) (sched : List AsyncConn.Ans) :
    (∃ e, (receive pktNr ((Spec.wire ps).take k) sched).1 = .failed e) ∨
    (receive pktNr ((Spec.wire ps).take k) sched).1 = .pending := by
  obtain ⟨c', hc⟩ := C13_truncated ps h ⟨(Spec.wire ps).take k, [], pktNr, 0, 0⟩ k hk rfl
  have key := (driveRecv_spec (sched.length + 1) ⟨[], [], pktNr⟩ ((Spec.wire ps).take k) sched (Or.inl (by simp))
    (by omega)).1
  unfold receive
  revert key
  generalize driveRecv (sched.length + 1) ⟨[], [], pktNr⟩ ((Spec.wire ps).take k) sched = out
  obtain ⟨p, r', stream', s'⟩ := out
  rintro ⟨-, -, u3⟩
  cases p with
  | pending => exact Or.inr rfl
  | failed e => exact Or.inl ⟨e, rfl⟩
  | panicked => exact u3.elim
  | ready msg =>
    have e : recvLoop [] ((Spec.wire ps).take k) pktNr = .ok (msg, stream', r'.pktNr) := u3
    unfold recvMsg at hc
    dsimp only at hc
    rw [e] at hc
    cases hc

example : ∃ sched : List AsyncConn.Ans, Spec.IsMessage [⟨0, [7, 8, 9]⟩] ∧ AsyncConn.Ans.fail ∉ sched ∧
    (Spec.wire [⟨0, [7, 8, 9]⟩]).length ≤ movedCount sched ∧
    (receive 5 (Spec.wire [⟨0, [7, 8, 9]⟩] ++ [1, 2]) sched).1 = .ready [7, 8, 9] :=
  ⟨.moved 0 :: .pending :: .moved 0 :: List.replicate 6 (.moved 9), ⟨[], _, rfl, by simp, by decide, by simp⟩,
    by decide, by decide, by decide +kernel⟩

/-! ### sending -/

theorem header_wire (payload : Bytes) (nr : Nat) (h : payload.length < 2 ^ 24) :
    packetHeader payload.length nr ++ payload = (Spec.Packet.mk nr payload).wire := by
  have h3 : [UInt8.ofNat (payload.length &&& 0xff), UInt8.ofNat ((payload.length >>> 8) &&& 0xff),
      UInt8.ofNat ((payload.length >>> 16) &&& 0xff)] = Spec.le 3 payload.length := by
    have a : ∀ n, n &&& 0xff = n % 256 := fun n => Nat.and_two_pow_sub_one_eq_mod n 8
    rw [← leBytes_eq_spec]
    simp only [a, Nat.shiftRight_eq_div_pow, leBytes, Nat.div_div_eq_div_mul]
  unfold Spec.Packet.wire packetHeader
  rw [← h3]
  simp [Spec.u8]

/-- the bytes of a message whose first packet has number `nr` -/
def wireOf (bs : Bytes) (nr : Nat) : Bytes :=
  if _h : bs.length ≥ maxPacket then
    (Spec.Packet.mk nr (bs.take maxPacket)).wire ++ wireOf (bs.drop maxPacket) (nr + 1)
  else (Spec.Packet.mk nr bs).wire
termination_by bs.length
decreasing_by simp only [List.length_drop, maxPacket] at *; omega

theorem div_drop (bs : Bytes) (h : bs.length ≥ maxPacket) :
    bs.length / maxPacket = (bs.drop maxPacket).length / maxPacket + 1 := by
  rw [List.length_drop, Nat.div_eq_sub_div (by unfold maxPacket; norm_num) h]

theorem sendLoop_wireOf (bs : Bytes) (c : Conn) (hn : c.pktNr + bs.length / maxPacket < 255) :
    sendLoop bs c = .ok () { c with out := c.out ++ wireOf bs c.pktNr, pktNr := c.pktNr + bs.length / maxPacket + 1 } := by
  induction hl : bs.length using Nat.strong_induction_on generalizing bs c with
  | _ n ih =>
    rw [sendLoop, wireOf]
    have hmp : maxPacket = 0xffffff := rfl
    by_cases hge : bs.length ≥ maxPacket
    · rw [dif_pos hge, dif_pos hge, M.bind_apply]
      have hm : (bs.take maxPacket).length = maxPacket := by simpa using hge
      have hdiv := div_drop bs hge
      have hz := Nat.zero_le ((bs.drop maxPacket).length / maxPacket)
      rw [sendPacket_ok c _ (by rw [hm, hmp]; norm_num) (by omega), MR.bind_ok,
        ih (bs.drop maxPacket).length (by rw [List.length_drop]; omega) (bs.drop maxPacket) _ (by dsimp only; omega) rfl]
      dsimp only
      rw [List.append_assoc, ← hl, hdiv, show c.pktNr + 1 + (bs.drop maxPacket).length / maxPacket + 1
        = c.pktNr + ((bs.drop maxPacket).length / maxPacket + 1) + 1 by omega]
    · have h0 := Nat.div_eq_of_lt (by omega : bs.length < maxPacket)
      rw [h0] at hn
      rw [dif_neg hge, dif_neg hge, sendPacket_ok c bs (by omega) (by omega), ← hl, h0]

/-- `W` is what the future still has to send, `nr` the packet number afterwards -/
def Remains (f : Send) (W : Bytes) (nr : Nat) : Prop :=
  f.todo ≠ [] ∧ f.pktNr < 255 ∧
  match f.rest with
  | none => W = f.todo ∧ nr = f.pktNr + 1
  | some bs => f.pktNr + 1 + bs.length / maxPacket < 255 ∧ W = f.todo ++ wireOf bs (f.pktNr + 1) ∧
      nr = f.pktNr + 1 + bs.length / maxPacket + 1

theorem start_remains (bs : Bytes) (n : Nat) (h : n + bs.length / maxPacket < 255) :
    Remains (Send.start bs n) (wireOf bs n) (n + bs.length / maxPacket + 1) := by
  have hmp : maxPacket = 0xffffff := rfl
  unfold Send.start
  rw [wireOf]
  by_cases hge : bs.length ≥ maxPacket
  · rw [if_pos hge, dif_pos hge]
    have hm : (bs.take maxPacket).length = maxPacket := by simpa using hge
    have hdiv := div_drop bs hge
    have hz := Nat.zero_le ((bs.drop maxPacket).length / maxPacket)
    refine ⟨by simp [packetHeader], by dsimp only; omega, by dsimp only; omega, ?_, by dsimp only; omega⟩
    dsimp only
    rw [header_wire _ _ (by rw [hm, hmp]; norm_num)]
  · rw [if_neg hge, dif_neg hge]
    have := Nat.div_eq_of_lt (by omega : bs.length < maxPacket)
    refine ⟨by simp [packetHeader], by dsimp only; omega, ?_, by dsimp only; omega⟩
    dsimp only
    rw [header_wire _ _ (by omega)]

/-- what one poll does: what was accepted and what remains are the message -/
def SendStep (W : Bytes) (nr : Nat) (wire : Bytes) (sched : List AsyncConn.Ans)
    (out : Poll Unit × Send × Bytes × List AsyncConn.Ans) : Prop :=
  (∀ a ∈ out.2.2.2, a ∈ sched) ∧
  match out with
  | (.pending, f', wire', s') => (sched ≠ [] → s'.length < sched.length) ∧ (sched = [] → s' = []) ∧
      ∃ W', Remains f' W' nr ∧ wire' ++ W' = wire ++ W ∧ W'.length + movedCount sched ≤ W.length + movedCount s'
  | (.ready _, f', wire', _) => wire' = wire ++ W ∧ f'.pktNr = nr
  | (.failed e, _, wire', _) => e = .io ∧ (AsyncConn.Ans.fail ∈ sched ∨ AsyncConn.Ans.zero ∈ sched) ∧
      ∃ W', W' ≠ [] ∧ wire' ++ W' = wire ++ W
  | (.panicked, _, _, _) => False

theorem Remains.ne_nil {f : Send} {W : Bytes} {nr : Nat} (h : Remains f W nr) : W ≠ [] := by
  obtain ⟨h1, -, h3⟩ := h
  cases hr : f.rest with
  | none => rw [hr] at h3; rw [h3.1]; exact h1
  | some bs => rw [hr] at h3; rw [h3.2.1]; simp [h1]

theorem pollSend_spec (sched : List AsyncConn.Ans) : ∀ (f : Send) (W : Bytes) (nr : Nat) (wire : Bytes), Remains f W nr →
    SendStep W nr wire sched (pollSend f wire sched) := by
  induction sched with
  | nil => intro f W nr wire h; exact ⟨by simp only [pollSend]; simp, by simp, fun _ => rfl, W, h, rfl, Nat.le_refl _⟩
  | cons a s ih =>
    intro f W nr wire h
    have lift : ∀ (f1 : Send) (W1 wire1 : Bytes), Remains f1 W1 nr → wire1 ++ W1 = wire ++ W →
        W1.length + movedCount (a :: s) ≤ W.length + movedCount s →
        SendStep W nr wire (a :: s) (pollSend f1 wire1 s) := by
      intro f1 W1 wire1 h1 he hc
      have := ih f1 W1 nr wire1 h1
      revert this
      generalize pollSend f1 wire1 s = out
      obtain ⟨p, f', wire', s'⟩ := out
      rintro ⟨u2, u3⟩
      refine ⟨fun a' ha' => by simp [u2 a' ha'], ?_⟩
      cases p with
      | pending =>
        obtain ⟨w2, w3, W', w4, w5, w6⟩ := u3
        refine ⟨fun _ => ?_, by simp, W', w4, w5.trans he, by omega⟩
        by_cases hs : s = []
        · subst hs; rw [w3 rfl]; simp
        · have := w2 hs; simp; omega
      | ready m => exact ⟨u3.1.trans he, u3.2⟩
      | failed e =>
        obtain ⟨w1, w2, W', w3, w4⟩ := u3
        refine ⟨w1, ?_, W', w3, w4.trans he⟩
        rcases w2 with w2 | w2
        · exact Or.inl (by simp [w2])
        · exact Or.inr (by simp [w2])
      | panicked => exact u3
    cases a with
    | pending => exact ⟨fun a ha => List.mem_cons_of_mem _ ha, fun _ => by simp [pollSend], by simp, W, h, rfl,
        by simp [movedCount]⟩
    | fail => exact ⟨fun a ha => List.mem_cons_of_mem _ ha, rfl, Or.inl (by simp), W, h.ne_nil, rfl⟩
    | zero => exact ⟨fun a ha => List.mem_cons_of_mem _ ha, rfl, Or.inr (by simp), W, h.ne_nil, rfl⟩
    | moved n =>
      rw [pollSend]
      obtain ⟨h1, h2, h3⟩ := h
      have hpos : 0 < f.todo.length := List.length_pos_iff.2 h1
      generalize hk : min (n + 1) f.todo.length = k
      have hk0 : 0 < k := by omega
      have hsplit : wire ++ f.todo.take k ++ f.todo.drop k = wire ++ f.todo := by simp
      have hmc : movedCount (AsyncConn.Ans.moved n :: s) = movedCount s + 1 := by simp [movedCount]
      by_cases ht : f.todo.drop k ≠ []
      · rw [if_pos ht]
        cases hr : f.rest with
        | none =>
          rw [hr] at h3
          refine lift _ (f.todo.drop k) _ ⟨ht, h2, rfl, h3.2⟩ (by rw [hsplit, h3.1]) ?_
          rw [hmc, h3.1, List.length_drop]
          omega
        | some bs =>
          rw [hr] at h3
          refine lift _ (f.todo.drop k ++ wireOf bs (f.pktNr + 1)) _ ⟨ht, h2, h3.1, rfl, h3.2.2⟩
            (by rw [← List.append_assoc, hsplit, h3.2.1, List.append_assoc]) ?_
          rw [hmc, h3.2.1, List.length_append, List.length_append, List.length_drop]
          omega
      · rw [if_neg ht, if_neg (by omega)]
        have ht : f.todo.drop k = [] := by simpa using ht
        have htake : f.todo.take k = f.todo := by
          have := List.take_append_drop k f.todo
          rwa [ht, List.append_nil] at this
        cases hr : f.rest with
        | none =>
          rw [hr] at h3
          exact ⟨fun a ha => List.mem_cons_of_mem _ ha, by rw [htake, h3.1], h3.2.symm⟩
        | some bs =>
          rw [hr] at h3
          have := start_remains bs (f.pktNr + 1) h3.1
          rw [← h3.2.2] at this
          refine lift _ _ _ this (by rw [htake, h3.2.1, List.append_assoc]) ?_
          rw [hmc, h3.2.1, List.length_append]
          omega

theorem driveSend_spec (fuel : Nat) : ∀ (f : Send) (W : Bytes) (nr : Nat) (wire : Bytes) (sched : List AsyncConn.Ans),
    Remains f W nr → sched.length < fuel →
    SendStep W nr wire sched (driveSend fuel f wire sched) ∧
    ((driveSend fuel f wire sched).1 = .pending → (driveSend fuel f wire sched).2.2.2 = []) := by
  induction fuel with
  | zero => intro f W nr wire sched _ h; omega
  | succ fuel ih =>
    intro f W nr wire sched h hf
    have key := pollSend_spec sched f W nr wire h
    rw [driveSend]
    revert key
    generalize pollSend f wire sched = out
    obtain ⟨p, f', wire', s'⟩ := out
    intro key
    cases p with
    | ready m => exact ⟨key, fun e => by cases e⟩
    | failed e => exact ⟨key, fun e => by cases e⟩
    | panicked => exact ⟨key, fun e => by cases e⟩
    | pending =>
      dsimp only
      obtain ⟨u2, w2, w3, W', w4, w5, w6⟩ := key
      have u2 : ∀ a ∈ s', a ∈ sched := u2
      by_cases hs : s' = []
      · subst hs
        rw [if_pos rfl]
        exact ⟨⟨u2, w2, fun _ => rfl, W', w4, w5, w6⟩, fun _ => rfl⟩
      · rw [if_neg hs]
        have hne : sched ≠ [] := fun e => hs (w3 e)
        obtain ⟨k1, k2⟩ := ih f' W' nr wire' s' w4 (by have := w2 hne; omega)
        refine ⟨?_, k2⟩
        revert k1
        generalize driveSend fuel f' wire' s' = out
        obtain ⟨p, f2, wire2, s2⟩ := out
        rintro ⟨v2, v3⟩
        refine ⟨fun a ha => u2 a (v2 a ha), ?_⟩
        cases p with
        | pending =>
          obtain ⟨x2, x3, W2, x4, x5, x6⟩ := v3
          exact ⟨fun _ => by have := w2 hne; have := x2 hs; omega, fun e => (hne e).elim, W2, x4, x5.trans w5, by omega⟩
        | ready m => exact ⟨v3.1.trans w5, v3.2⟩
        | failed e =>
          obtain ⟨x1, x2, W2, x3, x4⟩ := v3
          refine ⟨x1, ?_, W2, x3, x4.trans w5⟩
          rcases x2 with x2 | x2
          · exact Or.inl (u2 _ x2)
          · exact Or.inr (u2 _ x2)
        | panicked => exact v3

/-- a `send_msg` future run by a transport that gives the answers `sched` and has accepted `wire` before -/
def transmit (pktNr : Nat) (msg wire : Bytes) (sched : List AsyncConn.Ans) : Poll Unit × Send × Bytes × List AsyncConn.Ans :=
  driveSend (sched.length + 1) (Send.start msg pktNr) wire sched

/-- C76: for every message (within the limit of C12) and every behaviour of the transport: when `send_msg` succeeds, the
transport has accepted exactly the packets of the message, numbered from the connection's number, which is then the
next one; it fails only when the transport does, and until it succeeds a proper beginning of the packets was accepted.
The message is the payload of the packets. -/
theorem C76_send (msg : Bytes) (pktNr : Nat) (h : pktNr + msg.length / 0xffffff < 255) :
    ∃ ps, Spec.IsMessage ps ∧ Spec.Numbered pktNr ps ∧ Spec.payload ps = msg ∧
      (∀ (wire : Bytes) (sched : List AsyncConn.Ans),
        match transmit pktNr msg wire sched with
        | (.ready _, f, wire', _) => wire' = wire ++ Spec.wire ps ∧ f.pktNr = pktNr + ps.length
        | (.failed e, _, wire', _) => e = .io ∧ (AsyncConn.Ans.fail ∈ sched ∨ AsyncConn.Ans.zero ∈ sched) ∧
            ∃ more, more ≠ [] ∧ wire' ++ more = wire ++ Spec.wire ps
        | (.pending, _, wire', left) => left = [] ∧ ∃ more, more ≠ [] ∧ wire' ++ more = wire ++ Spec.wire ps
        | (.panicked, _, _, _) => False) ∧
      ∀ (wire : Bytes) (sched : List AsyncConn.Ans), AsyncConn.Ans.fail ∉ sched → AsyncConn.Ans.zero ∉ sched →
        (Spec.wire ps).length ≤ movedCount sched →
        (transmit pktNr msg wire sched).1 = .ready () := by
  have h : pktNr + msg.length / maxPacket < 255 := h
  obtain ⟨ps, g1, g2, g3, g4, g5⟩ := sendLoop_spec msg ⟨[], [], pktNr, 0, 0⟩ h
  have hw : Spec.wire ps = wireOf msg pktNr := by
    rw [sendLoop_wireOf msg _ h] at g5
    injection g5 with _ g5
    injection g5 with _ g5 _ _
    simpa using g5.symm
  have hnr : pktNr + ps.length = pktNr + msg.length / maxPacket + 1 := by rw [g4]; omega
  have key := fun wire (sched : List AsyncConn.Ans) => driveSend_spec (sched.length + 1) (Send.start msg pktNr) _ _ wire
    sched (start_remains msg pktNr h) (by omega)
  refine ⟨ps, g1, g2, g3, ?_, ?_⟩
  · intro wire sched
    unfold transmit
    have := key wire sched
    revert this
    generalize driveSend (sched.length + 1) (Send.start msg pktNr) wire sched = out
    obtain ⟨p, f', wire', s'⟩ := out
    rintro ⟨⟨-, u3⟩, u4⟩
    rw [hw, hnr]
    cases p with
    | pending =>
      obtain ⟨-, -, W', w4, w5, -⟩ := u3
      exact ⟨u4 rfl, W', w4.ne_nil, w5⟩
    | ready m => exact u3
    | failed e => exact u3
    | panicked => exact u3
  · intro wire sched hf hz hn
    unfold transmit
    have := key wire sched
    revert this
    generalize driveSend (sched.length + 1) (Send.start msg pktNr) wire sched = out
    obtain ⟨p, f', wire', s'⟩ := out
    rintro ⟨⟨-, u3⟩, u4⟩
    cases p with
    | ready m => rfl
    | failed e =>
      rcases u3.2.1 with e | e
      · exact (hf e).elim
      · exact (hz e).elim
    | panicked => exact u3.elim
    | pending =>
      obtain ⟨-, -, W', w4, -, w6⟩ := u3
      have u4 : s' = [] := u4 rfl
      subst u4
      have : movedCount [] = 0 := rfl
      have := List.length_pos_iff.2 w4.ne_nil
      rw [hw] at hn
      omega

example : (0 : Nat) + [3, 0x41].length / 0xffffff < 255 ∧
    (transmit 0 [3, 0x41] [9] [.moved 1, .pending, .moved 0, .moved 7, .moved 0, .moved 0]).2.2.1
      = [9] ++ Spec.wire [⟨0, [3, 0x41]⟩] := ⟨by decide, by decide +kernel⟩

/-! ### abandoned operations -/

/-- what the next `recv_msg` on the connection returns after a `recv_msg` future was dropped -/
def receiveAfterDrop (pktNr : Nat) (stream : Bytes) (first second : List AsyncConn.Ans) : Poll Bytes :=
  let dropped := receive pktNr stream first
  (receive dropped.2.1.pktNr dropped.2.2.1 second).1

/-- C77, what does hold (missing: futures that have read something): a `recv_msg` future that is dropped before the
transport handed over a byte loses nothing, and the connection is as before. -/
theorem C77_drop_partial (pktNr : Nat) (stream : Bytes) (first second : List AsyncConn.Ans)
    (h : ∀ a ∈ first, a = AsyncConn.Ans.pending) :
    receive pktNr stream first = (.pending, ⟨[], [], pktNr⟩, stream, []) ∧
    receiveAfterDrop pktNr stream first second = (receive pktNr stream second).1 := by
  have key : ∀ (fuel : Nat) (first : List AsyncConn.Ans), (∀ a ∈ first, a = AsyncConn.Ans.pending) → first.length < fuel →
      driveRecv fuel ⟨[], [], pktNr⟩ stream first = (.pending, ⟨[], [], pktNr⟩, stream, []) := by
    intro fuel
    induction fuel with
    | zero => intro first _ hf; omega
    | succ fuel ih =>
      intro first h hf
      cases first with
      | nil => rfl
      | cons a s =>
        rw [h a (by simp)]
        simp only [driveRecv, pollRecv]
        by_cases hs : s = []
        · rw [if_pos hs]
        · rw [if_neg hs]
          exact ih s (fun a ha => h a (by simp [ha])) (by simpa using hf)
  have e : receive pktNr stream first = (.pending, ⟨[], [], pktNr⟩, stream, []) := key _ first h (by omega)
  refine ⟨e, ?_⟩
  unfold receiveAfterDrop
  rw [e]

example : ∃ first second : List AsyncConn.Ans, first ≠ [] ∧ (∀ a ∈ first, a = AsyncConn.Ans.pending) ∧
    receiveAfterDrop 0 (Spec.wire [⟨0, [7, 8, 9]⟩]) first second = .ready [7, 8, 9] :=
  ⟨[.pending, .pending], List.replicate 7 (.moved 0), by decide, by decide, by decide +kernel⟩

/-- C77 fails for a future dropped after it has read a packet header (a time limit around a query, say): the next
`recv_msg` takes the payload for packets. Whoever chooses the payload of a message chooses what the client receives
then: here the payload is any message `qs` on the wire. -/
theorem C77_drop_recv_false (qs : List Spec.Packet) (hq : Spec.IsMessage qs) (hl : (Spec.wire qs).length < 0xffffff)
    (seq : Nat) (hs : seq < 256) (rest : Bytes) (pktNr : Nat) (second : List AsyncConn.Ans)
    (hok : AsyncConn.Ans.fail ∉ second) (hn : (Spec.wire qs).length ≤ movedCount second) :
    Spec.IsMessage [⟨seq, Spec.wire qs⟩] ∧
    (receive pktNr (Spec.wire [⟨seq, Spec.wire qs⟩] ++ rest) [.moved 2, .moved 0, .pending]).1 = .pending ∧
    receiveAfterDrop pktNr (Spec.wire [⟨seq, Spec.wire qs⟩] ++ rest) [.moved 2, .moved 0, .pending] second
      = .ready (Spec.payload qs) := by
  refine ⟨⟨[], _, rfl, by simp, hl, by simpa using hs⟩, ?_⟩
  obtain ⟨l0, l1, l2, hle, hval⟩ := le3_bytes (Spec.wire qs).length (by omega)
  have hpos : 0 < (Spec.wire qs).length := by
    obtain ⟨init, last, rfl, -⟩ := hq
    simp [Spec.wire, Spec.Packet.wire, Spec.le]
  have hwire : Spec.wire [⟨seq, Spec.wire qs⟩] ++ rest = l0 :: l1 :: l2 :: UInt8.ofNat seq :: (Spec.wire qs ++ rest) := by
    simp [Spec.wire, Spec.Packet.wire, Spec.u8] at hle ⊢
    simp [hle]
  have hp : packetLen [l0, l1, l2, UInt8.ofNat seq] = (Spec.wire qs).length := hval
  obtain ⟨nr, hrun⟩ : ∃ nr, receive pktNr (Spec.wire [⟨seq, Spec.wire qs⟩] ++ rest) [.moved 2, .moved 0, .pending]
      = (.pending, ⟨[], [l0, l1, l2, UInt8.ofNat seq], nr⟩, Spec.wire qs ++ rest, []) := by
    refine ⟨Recv.number [l0, l1, l2, UInt8.ofNat seq] pktNr, ?_⟩
    rw [hwire]
    have hne : packetLen [l0, l1, l2, UInt8.ofNat seq] ≠ 0 := by omega
    simp [receive, driveRecv, pollRecv, Recv.need, Recv.advance, hne]
    rfl
  refine ⟨by rw [hrun], ?_⟩
  unfold receiveAfterDrop
  rw [hrun]
  obtain ⟨r, left, e⟩ := C75_receive_completes qs hq rest nr second hok hn
  exact congrArg Prod.fst e

example : ∃ (qs : List Spec.Packet) (second : List AsyncConn.Ans), Spec.IsMessage qs ∧ (Spec.wire qs).length < 0xffffff ∧
    AsyncConn.Ans.fail ∉ second ∧ (Spec.wire qs).length ≤ movedCount second ∧ Spec.payload qs ≠ [] :=
  ⟨[⟨1, [0, 0, 0, 2, 0, 0, 0]⟩], List.replicate 11 (.moved 0), ⟨[], _, rfl, by simp, by decide, by simp⟩, by decide,
    by decide, by decide, by decide⟩

/-- C77 fails for sending as well: when `send_msg` for `a` is dropped after the transport accepted the header, and
`send_msg` for `b` is then completed (a new command, numbered from zero), the server reads a message made of the packet
headers and bytes of `b`. -/
theorem C77_drop_send_false (a b wire : Bytes) (second : List AsyncConn.Ans)
    (ha : 0 < a.length ∧ a.length < 0xffffff) (hb : a.length ≤ b.length + 4) (hl : b.length < 0xffffff)
    (hok : AsyncConn.Ans.fail ∉ second ∧ AsyncConn.Ans.zero ∉ second) (hn : b.length + 4 ≤ movedCount second) :
    (transmit 0 a wire [.moved 3, .pending]).1 = .pending ∧
    (transmit 0 b (transmit 0 a wire [.moved 3, .pending]).2.2.1 second).1 = .ready () ∧
    ∃ more, (transmit 0 b (transmit 0 a wire [.moved 3, .pending]).2.2.1 second).2.2.1
      = wire ++ (Spec.wire [⟨0, (Spec.wire [⟨0, b⟩]).take a.length⟩] ++ more) := by
  have hm : maxPacket = 0xffffff := rfl
  have hfirst : transmit 0 a wire [.moved 3, .pending]
      = (.pending, ⟨a, none, 0⟩, wire ++ packetHeader a.length 0, []) := by
    have hne : a ≠ [] := List.length_pos_iff.1 ha.1
    have h4 : (packetHeader a.length 0).length = 4 := rfl
    have hmin : min (3 + 1) (packetHeader a.length 0 ++ a).length = 4 := by rw [List.length_append, h4]; omega
    unfold transmit Send.start
    rw [if_neg (by omega)]
    rw [driveSend, pollSend]
    dsimp only
    rw [hmin, ← h4, List.take_left, List.drop_left, if_pos hne, pollSend]
    rfl
  rw [hfirst]
  refine ⟨rfl, ?_⟩
  have hw : wireOf b 0 = Spec.wire [⟨0, b⟩] := by
    rw [wireOf, dif_neg (by omega)]
    simp [Spec.wire]
  have hwl : (Spec.wire [⟨0, b⟩]).length = b.length + 4 := by
    simp [Spec.wire, Spec.Packet.wire, Spec.le, Spec.u8]
    omega
  have h0 : 0 + b.length / maxPacket < 255 := by rw [Nat.div_eq_of_lt (by omega)]; norm_num
  have key := driveSend_spec (second.length + 1) (Send.start b 0) _ _ (wire ++ packetHeader a.length 0) second
    (start_remains b 0 h0) (by omega)
  unfold transmit
  dsimp only
  revert key
  generalize driveSend (second.length + 1) (Send.start b 0) (wire ++ packetHeader a.length 0) second = out
  obtain ⟨p, f', wire', s'⟩ := out
  rintro ⟨⟨-, u3⟩, u4⟩
  cases p with
  | ready m =>
    refine ⟨rfl, (Spec.wire [⟨0, b⟩]).drop a.length, ?_⟩
    have u3 : wire' = wire ++ packetHeader a.length 0 ++ wireOf b 0 := u3.1
    have hcl : ((Spec.wire [⟨0, b⟩]).take a.length).length = a.length := by
      rw [List.length_take, hwl]; omega
    have hh := header_wire ((Spec.wire [⟨0, b⟩]).take a.length) 0 (by rw [hcl]; omega)
    rw [hcl] at hh
    have hone : Spec.wire [⟨0, (Spec.wire [⟨0, b⟩]).take a.length⟩]
        = (Spec.Packet.mk 0 ((Spec.wire [⟨0, b⟩]).take a.length)).wire := by
      generalize (Spec.wire [⟨0, b⟩]).take a.length = x
      simp [Spec.wire]
    dsimp only
    rw [u3, hw, hone, ← hh, List.append_assoc, List.append_assoc, List.take_append_drop]
  | failed e =>
    rcases u3.2.1 with e | e
    · exact (hok.1 e).elim
    · exact (hok.2 e).elim
  | panicked => exact u3.elim
  | pending =>
    obtain ⟨-, -, W', w4, -, w6⟩ := u3
    have u4 : s' = [] := u4 rfl
    subst u4
    have : movedCount [] = 0 := rfl
    have := List.length_pos_iff.2 w4.ne_nil
    rw [hw, hwl] at w6
    omega

example : ∃ (a b : Bytes) (second : List AsyncConn.Ans), (0 < a.length ∧ a.length < 0xffffff) ∧ a.length ≤ b.length + 4 ∧
    b.length < 0xffffff ∧ (AsyncConn.Ans.fail ∉ second ∧ AsyncConn.Ans.zero ∉ second) ∧ b.length + 4 ≤ movedCount second :=
  ⟨[3, 0x41, 0x42], [14], List.replicate 5 (.moved 0), by decide, by decide, by decide, by decide, by decide⟩

end Mybin
