/- Lemmas about the connection monad and the packet layer. -/
import Verif.Model.Conn
import Verif.Spec.Framing
import Verif.Lemmas.Prim

namespace Mybin

@[simp] theorem MR.bind_ok {α β} (a : α) (c : Conn) (f : α → M β) : (MR.ok a c).bind f = f a c := rfl
@[simp] theorem MR.bind_err {α β} (e : Err) (c : Conn) (f : α → M β) :
    (MR.err e c).bind f = .err e c := rfl
@[simp] theorem MR.bind_panic {α β} (f : α → M β) : (MR.panic).bind f = .panic := rfl
@[simp] theorem MR.bind_hang {α β} (f : α → M β) : (MR.hang).bind f = .hang := rfl
@[simp] theorem M.bind_apply {α β} (x : M α) (f : α → M β) (c : Conn) :
    (x >>= f) c = (x c).bind f := rfl
@[simp] theorem M.pure_apply {α} (a : α) (c : Conn) : (pure a : M α) c = .ok a c := rfl
@[simp] theorem M.fail_apply {α} (e : Err) (c : Conn) : (M.fail e : M α) c = .err e c := rfl
@[simp] theorem M.panic_apply {α} (c : Conn) : (M.panic : M α) c = .panic := rfl
@[simp] theorem M.ite_apply {α} (c : Prop) [Decidable c] (p q : M α) (s : Conn) :
    (if c then p else q) s = if c then p s else q s := by split <;> rfl
@[simp] theorem M.map_apply {α β} (f : α → β) (x : M α) (c : Conn) :
    (f <$> x) c = (x c).bind (fun a => pure (f a)) := rfl

theorem M.ext {α} {p q : M α} (h : ∀ c, p c = q c) : p = q := funext h

instance : LawfulMonad M := LawfulMonad.mk'
  (id_map := fun x => M.ext fun c => by
    show (x c).bind _ = x c
    cases x c <;> rfl)
  (pure_bind := fun a f => rfl)
  (bind_assoc := fun x f g => M.ext fun c => by
    show MR.bind (MR.bind (x c) _) _ = MR.bind (x c) _
    cases x c <;> rfl)

/-! ### receiving -/

theorem le3_bytes (n : Nat) (h : n < 2 ^ 24) : ∃ a b c : UInt8, Spec.le 3 n = [a, b, c] ∧
    a.toNat + (b.toNat <<< 8) + (c.toNat <<< 16) = n := by
  refine ⟨UInt8.ofNat (n % 256), UInt8.ofNat (n / 256 % 256), UInt8.ofNat (n / 65536 % 256), ?_, ?_⟩
  · rw [← leBytes_eq_spec]; simp [leBytes, Nat.div_div_eq_div_mul]
  · simp [Nat.shiftLeft_eq]; omega

/-- the packet number after receiving sequence byte `seq` -/
def nextNr (seq : Nat) : Nat := (seq + 1) % 256

theorem nr_eq (seq : UInt8) : (if seq = 0xff then 0 else seq.toNat + 1) = nextNr seq.toNat := by
  have := seq.toNat_lt
  unfold nextNr
  split
  · rename_i h; rw [h]; decide
  · rename_i h
    have : seq.toNat ≠ 255 := fun e => h (by rw [← UInt8.toNat_inj]; exact e)
    omega

theorem recvLoop_full (bs : Bytes) (p : Spec.Packet) (rest : Bytes) (nr : Nat)
    (hb : p.body.length = 0xffffff) (hs : p.seq < 256) :
    recvLoop bs (p.wire ++ rest) nr = recvLoop (bs ++ p.body) rest (nextNr p.seq) := by
  obtain ⟨a, b, c, h1, h2⟩ := le3_bytes p.body.length (by omega)
  have hseq : (UInt8.ofNat p.seq).toNat = p.seq := by simp; omega
  have hnr := nr_eq (UInt8.ofNat p.seq)
  rw [hseq] at hnr
  simp only [Spec.Packet.wire, h1, Spec.u8, List.cons_append, List.nil_append]
  rw [recvLoop]
  simp only [h2, hseq, hnr]
  rw [if_neg (by simp), if_neg (by rw [hb]; decide)]
  simp

theorem recvLoop_last (bs : Bytes) (p : Spec.Packet) (rest : Bytes) (nr : Nat)
    (hb : p.body.length < 0xffffff) (hs : p.seq < 256) :
    recvLoop bs (p.wire ++ rest) nr = .ok (bs ++ p.body, rest, nextNr p.seq) := by
  obtain ⟨a, b, c, h1, h2⟩ := le3_bytes p.body.length (by omega)
  have hseq : (UInt8.ofNat p.seq).toNat = p.seq := by simp; omega
  have hnr := nr_eq (UInt8.ofNat p.seq)
  rw [hseq] at hnr
  simp only [Spec.Packet.wire, h1, Spec.u8, List.cons_append, List.nil_append]
  rw [recvLoop]
  simp only [h2, hseq, hnr]
  rw [if_neg (by simp), if_pos (by unfold maxPacket; exact hb)]
  simp

theorem recvLoop_message (init : List Spec.Packet) (last : Spec.Packet) (rest : Bytes)
    (hi : ∀ p ∈ init, p.body.length = 0xffffff) (hl : last.body.length < 0xffffff)
    (hs : ∀ p ∈ init, p.seq < 256) (hls : last.seq < 256) (bs : Bytes) (nr : Nat) :
    recvLoop bs (Spec.wire (init ++ [last]) ++ rest) nr
      = .ok (bs ++ Spec.payload (init ++ [last]), rest, nextNr last.seq) := by
  induction init generalizing bs nr with
  | nil => simp [Spec.wire, Spec.payload, recvLoop_last bs last rest nr hl hls]
  | cons p init ih =>
    have := ih (fun q hq => hi q (by simp [hq])) (fun q hq => hs q (by simp [hq]))
      (bs ++ p.body) (nextNr p.seq)
    have e : Spec.wire (p :: init ++ [last]) ++ rest
        = p.wire ++ (Spec.wire (init ++ [last]) ++ rest) := by simp [Spec.wire]
    rw [e, recvLoop_full bs p _ nr (hi p (by simp)) (hs p (by simp)), this]
    simp [Spec.payload]

theorem le3_val (l0 l1 l2 : UInt8) (len : Nat)
    (hlen : l0.toNat + (l1.toNat <<< 8) + (l2.toNat <<< 16) = len) :
    Spec.le 3 len = [l0, l1, l2] := by
  have h := leBytes_leVal [l0, l1, l2]
  have e : leVal [l0, l1, l2] = len := by
    rw [← hlen]; simp [leVal, Nat.shiftLeft_eq]; omega
  rw [e] at h
  rw [← leBytes_eq_spec]; exact h

theorem packet_of_bytes (l0 l1 l2 seq : UInt8) (t : Bytes) (len : Nat)
    (hlen : l0.toNat + (l1.toNat <<< 8) + (l2.toNat <<< 16) = len) (hle : len ≤ t.length) :
    l0 :: l1 :: l2 :: seq :: t
      = (Spec.Packet.mk seq.toNat (t.take len)).wire ++ t.drop len := by
  have h1 : (t.take len).length = len := by simpa using hle
  simp [Spec.Packet.wire, h1, le3_val l0 l1 l2 len hlen, Spec.u8]

/-- everything `recvLoop` accepts is a well-formed message -/
theorem recvLoop_sound (bs inp : Bytes) (nr : Nat) (msg rest : Bytes) (nr' : Nat)
    (h : recvLoop bs inp nr = .ok (msg, rest, nr')) :
    ∃ ps, Spec.IsMessage ps ∧ inp = Spec.wire ps ++ rest ∧ msg = bs ++ Spec.payload ps := by
  induction hn : inp.length using Nat.strong_induction_on generalizing bs inp nr with
  | _ n ih =>
    rw [recvLoop.eq_def] at h
    split at h
    · rename_i l0 l1 l2 seq t
      simp only [nr_eq] at h
      generalize hlen : l0.toNat + (l1.toNat <<< 8) + (l2.toNat <<< 16) = len at h
      split_ifs at h with c1 c2
      all_goals
        have hle : (t.take len).length = len := by simp; omega
        have hpk := packet_of_bytes l0 l1 l2 seq t len hlen (by omega)
      · simp only [Except.ok.injEq, Prod.mk.injEq] at h
        obtain ⟨rfl, rfl, rfl⟩ := h
        refine ⟨[⟨seq.toNat, t.take len⟩], ⟨[], ⟨seq.toNat, t.take len⟩, rfl, by simp, ?_, ?_⟩, ?_, ?_⟩
        · simp only [hle]; exact c2
        · simp [seq.toNat_lt]
        · rw [hpk]; simp [Spec.wire]
        · simp [Spec.payload]
      · obtain ⟨ps, ⟨init, last, rfl, hi, hl, hs⟩, e1, e2⟩ :=
          ih (t.drop len).length (by rw [← hn]; simp; omega) _ _ _ h rfl
        have hfull : len = 0xffffff := by
          have := l0.toNat_lt
          have := l1.toNat_lt
          have := l2.toNat_lt
          simp only [Nat.shiftLeft_eq] at hlen
          unfold maxPacket at c2
          omega
        refine ⟨⟨seq.toNat, t.take len⟩ :: (init ++ [last]),
          ⟨⟨seq.toNat, t.take len⟩ :: init, last, rfl, ?_, hl, ?_⟩, ?_, ?_⟩
        · intro p hp
          rcases List.mem_cons.1 hp with rfl | hp
          · simp only [hle]; exact hfull
          · exact hi p hp
        · intro p hp
          rcases List.mem_cons.1 hp with rfl | hp
          · exact seq.toNat_lt
          · exact hs p hp
        · rw [hpk, e1]; simp [Spec.wire]
        · rw [e2]; simp [Spec.payload]
    · cases h

/-! ### sending -/

theorem sendPacket_ok (c : Conn) (payload : Bytes) (hp : payload.length < 2 ^ 24)
    (hn : c.pktNr < 255) :
    sendPacket payload c = .ok () { c with
      out := c.out ++ (Spec.Packet.mk c.pktNr payload).wire, pktNr := c.pktNr + 1 } := by
  have h3 : [UInt8.ofNat (payload.length &&& 0xff), UInt8.ofNat ((payload.length >>> 8) &&& 0xff),
      UInt8.ofNat ((payload.length >>> 16) &&& 0xff)] = Spec.le 3 payload.length := by
    have a : ∀ n, n &&& 0xff = n % 256 := fun n => Nat.and_two_pow_sub_one_eq_mod n 8
    rw [← leBytes_eq_spec]
    simp only [a, Nat.shiftRight_eq_div_pow, leBytes, Nat.div_div_eq_div_mul]
  simp only [sendPacket, h3]
  rw [if_pos (by omega)]
  simp [Spec.Packet.wire, Spec.u8]

theorem sendPacket_panic (c : Conn) (payload : Bytes) (hn : 255 ≤ c.pktNr) :
    sendPacket payload c = .panic := by
  simp only [sendPacket]; rw [if_neg (by omega)]

theorem sendLoop_spec (bs : Bytes) (c : Conn) (hn : c.pktNr + bs.length / maxPacket < 255) :
    ∃ ps, Spec.IsMessage ps ∧ Spec.Numbered c.pktNr ps ∧ Spec.payload ps = bs ∧
      ps.length = bs.length / maxPacket + 1 ∧
      sendLoop bs c = .ok () { c with out := c.out ++ Spec.wire ps, pktNr := c.pktNr + ps.length } := by
  induction hl : bs.length using Nat.strong_induction_on generalizing bs c with
  | _ n ih =>
    rw [sendLoop]
    by_cases hge : bs.length ≥ maxPacket
    · rw [dif_pos hge, M.bind_apply]
      have hm : (bs.take maxPacket).length = maxPacket := by simpa using hge
      have hmp : maxPacket = 0xffffff := rfl
      have hdiv : bs.length / maxPacket = (bs.drop maxPacket).length / maxPacket + 1 := by
        rw [List.length_drop]
        rw [Nat.div_eq_sub_div (by rw [hmp]; norm_num) hge]
      have hz := Nat.zero_le ((bs.drop maxPacket).length / maxPacket)
      rw [sendPacket_ok c _ (by rw [hm, hmp]; norm_num) (by omega), MR.bind_ok]
      obtain ⟨ps, ⟨init, last, rfl, hi, hla, hs⟩, h2, h3, h4, h5⟩ :=
        ih (bs.drop maxPacket).length (by rw [List.length_drop, hmp]; omega) (bs.drop maxPacket)
          { c with out := c.out ++ (Spec.Packet.mk c.pktNr (bs.take maxPacket)).wire,
                   pktNr := c.pktNr + 1 } (by simp only; omega) rfl
      refine ⟨⟨c.pktNr, bs.take maxPacket⟩ :: (init ++ [last]),
        ⟨⟨c.pktNr, bs.take maxPacket⟩ :: init, last, rfl, ?_, hla, ?_⟩, ?_, ?_, ?_, ?_⟩
      · intro p hp
        rcases List.mem_cons.1 hp with rfl | hp
        · exact hm
        · exact hi p hp
      · intro p hp
        rcases List.mem_cons.1 hp with rfl | hp
        · simp only; omega
        · exact hs p hp
      · intro i p hp
        cases i with
        | zero => simp at hp; subst hp; rfl
        | succ i =>
          have := h2 i p (by simpa using hp)
          simp only at this; omega
      · simp only [Spec.payload, List.map_cons, List.flatten_cons] at h3 ⊢
        rw [h3]; simp
      · rw [List.length_cons, h4, ← hl, hdiv]
      · rw [h5]
        simp [Spec.wire]
        omega
    · have hmp : maxPacket = 0xffffff := rfl
      have hz : bs.length / maxPacket = 0 := Nat.div_eq_of_lt (by omega)
      rw [dif_neg hge, sendPacket_ok c bs (by omega) (by omega)]
      refine ⟨[⟨c.pktNr, bs⟩], ⟨[], _, rfl, by simp, ?_, ?_⟩, ?_, ?_, ?_, ?_⟩
      · simp only; omega
      · simp; omega
      · intro i p hp
        cases i with
        | zero => simp at hp; subst hp; rfl
        | succ i => simp at hp
      · simp [Spec.payload]
      · simp [← hl, hz]
      · simp [Spec.wire]

end Mybin
