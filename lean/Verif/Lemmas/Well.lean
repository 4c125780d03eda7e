/-
`Well p`: the reader `p` never panics or hangs, on any input, and what it leaves is a suffix of what it
was given (it never re-reads, reorders or invents input). Compositional.
-/
import Verif.Lemmas.MyEnc
import Verif.Model.Utf8
import Verif.Model.Packet

namespace Mybin

/-- no panic, no infinite loop, and the leftover input is a suffix of the input -/
def Well {α : Type} (p : P α) : Prop :=
  ∀ bs, match p bs with
    | .ok _ r => r <:+ bs
    | .err _ r => r <:+ bs
    | .panic => False
    | .hang => False

namespace Well
variable {α β : Type}

theorem pure (a : α) : Well (pure a : P α) := fun bs => List.suffix_refl bs
theorem fail (e : Err) : Well (P.fail e : P α) := fun bs => List.suffix_refl bs

theorem bind {x : P α} {f : α → P β} (hx : Well x) (hf : ∀ a, Well (f a)) : Well (x >>= f) := by
  intro bs
  have h := hx bs
  rw [P.bind_apply]
  cases e : x bs with
  | ok a r =>
    rw [e] at h
    have h2 := hf a r
    simp only [R.bind_ok]
    cases e2 : f a r with
    | ok b r2 => rw [e2] at h2; exact List.IsSuffix.trans h2 h
    | err e' r2 => rw [e2] at h2; exact List.IsSuffix.trans h2 h
    | panic => rw [e2] at h2; exact h2
    | hang => rw [e2] at h2; exact h2
  | err e' r => rw [e] at h; exact h
  | panic => rw [e] at h; exact h
  | hang => rw [e] at h; exact h

theorem ite {c : Prop} [Decidable c] {p q : P α} (hp : c → Well p) (hq : ¬c → Well q) :
    Well (if c then p else q) := by
  split
  · exact hp ‹_›
  · exact hq ‹_›

theorem orErr (o : Option α) (e : Err) : Well (P.orErr o e) := by
  cases o
  · exact fail e
  · exact pure _

theorem ofFixed {k : Nat} {val : Bytes → α} {r : P α} (h : FixedRead k val r) : Well r := by
  intro bs
  by_cases hb : k ≤ bs.length
  · rw [(h bs).1 hb]; exact List.drop_suffix _ _
  · rw [(h bs).2 (by omega)]; exact List.suffix_refl _

theorem u8 : Well readU8 := ofFixed fixedRead_u8
theorem leU16 : Well readLeU16 := ofFixed (fixedRead_readFixed 2 leVal)
theorem leU24 : Well readLeU24 := ofFixed fixedRead_leU24
theorem leU32 : Well readLeU32 := ofFixed (fixedRead_readFixed 4 leVal)
theorem beU16 : Well readBeU16 := ofFixed (fixedRead_readFixed 2 beVal)
theorem beU24 : Well readBeU24 := ofFixed fixedRead_beU24
theorem beU32 : Well readBeU32 := ofFixed (fixedRead_readFixed 4 beVal)
theorem beU40 : Well readBeU40 := ofFixed fixedRead_beU40
theorem leU48 : Well readLeU48 := ofFixed fixedRead_leU48
theorem leU64 : Well readLeU64 := ofFixed (fixedRead_readFixed 8 leVal)
theorem leU128 : Well readLeU128 := ofFixed (fixedRead_readFixed 16 leVal)
theorem leF32 : Well readLeF32 := ofFixed (fixedRead_readFixed 4 leVal)
theorem i8 : Well readI8 := bind u8 fun _ => pure _
theorem leI16 : Well readLeI16 := bind leU16 fun _ => pure _
theorem leI24 : Well readLeI24 := bind leU24 fun _ => pure _
theorem leI32 : Well readLeI32 := bind leU32 fun _ => pure _
theorem leI64 : Well readLeI64 := bind leU64 fun _ => pure _
theorem beI16 : Well readBeI16 := bind beU16 fun _ => pure _
theorem beI24 : Well readBeI24 := bind leU24 fun _ => pure _
theorem beI32 : Well readBeI32 := bind beU32 fun _ => pure _
theorem beI40 : Well readBeI40 := bind beU40 fun _ => pure _

theorem len (n : Nat) : Well (readLen n) := by
  intro bs
  by_cases h : bs.length < n
  · rw [show readLen n bs = .err (.incomplete (some (n - bs.length))) bs by simp [readLen, h]]
    exact List.suffix_refl _
  · rw [show readLen n bs = .ok (bs.take n) (bs.drop n) by simp [readLen, h]]
    exact List.drop_suffix _ _

theorem until_ (b : UInt8) (i : Bool) : Well (readUntil b i) := by
  intro bs
  by_cases h : b ∈ bs
  · obtain ⟨x, rest, hx, e⟩ := List.eq_append_cons_of_mem h
    subst hx
    have hs : rest <:+ x ++ b :: rest := ⟨x ++ [b], by simp⟩
    cases i
    · rw [readUntil_append b x rest e]; exact hs
    · rw [readUntil_append_incl b x rest e]; exact hs
  · rw [readUntil_none b i bs h]; exact List.suffix_refl _

theorem rest : Well readRest := fun _ => List.nil_suffix
theorem hasRemaining : Well hasRemaining := fun bs => List.suffix_refl bs
theorem remaining : Well remaining := fun bs => List.suffix_refl bs
theorem utf8 (bs : Bytes) : Well (toUtf8 bs) := ite (fun _ => pure _) (fun _ => fail _)

theorem onSub (sub : Bytes) {p : P α} (h : Well p) : Well (P.onSub sub p) := by
  intro bs
  have := h sub
  unfold P.onSub
  cases e : p sub <;> rw [e] at this <;> simp_all

theorem lenEncInt : Well readLenEncInt := by
  intro bs
  cases bs with
  | nil => exact List.suffix_refl _
  | cons b t =>
    have : readLenEncInt (b :: t) = (do
      let len ← readU8
      if len = 0xfb then return .null
      else if len = 0xfc then let n ← readLeU16; return .len3 n
      else if len = 0xfd then let n ← readLeU24; return .len4 n
      else if len = 0xfe then let n ← readLeU64; return .len9 n
      else if len = 0xff then return .err
      else return .len1 len : P LenEncInt) (b :: t) := by
      unfold readLenEncInt; rw [if_neg (by simp)]
    rw [this]
    refine Well.bind u8 (fun n => ?_) (b :: t)
    refine ite (fun _ => pure _) fun _ => ite (fun _ => bind leU16 fun _ => pure _) fun _ =>
      ite (fun _ => bind leU24 fun _ => pure _) fun _ => ite (fun _ => bind leU64 fun _ => pure _)
      fun _ => ite (fun _ => pure _) fun _ => pure _

theorem lenEncStr : Well readLenEncStr := by
  refine bind lenEncInt fun l => ?_
  cases l with
  | null => exact pure _
  | err => exact pure _
  | _ => exact bind (len _) fun _ => pure _

end Well

/-- discharge `Well` goals by structure -/
macro "well" : tactic => `(tactic| repeat' (first
  | with_reducible assumption
  | with_reducible exact Well.pure _ | with_reducible exact Well.fail _ | with_reducible exact Well.orErr _ _
  | with_reducible exact Well.u8 | with_reducible exact Well.leU16 | with_reducible exact Well.leU24 | with_reducible exact Well.leU32 | with_reducible exact Well.leU48
  | with_reducible exact Well.leU64 | with_reducible exact Well.leU128 | with_reducible exact Well.beU16 | with_reducible exact Well.beU24 | with_reducible exact Well.beU32
  | with_reducible exact Well.beU40 | with_reducible exact Well.leF32 | with_reducible exact Well.i8 | with_reducible exact Well.leI16 | with_reducible exact Well.leI24
  | with_reducible exact Well.leI32 | with_reducible exact Well.leI64 | with_reducible exact Well.beI16 | with_reducible exact Well.beI24 | with_reducible exact Well.beI32
  | with_reducible exact Well.beI40
  | with_reducible exact Well.len _ | with_reducible exact Well.until_ _ _ | with_reducible exact Well.rest | with_reducible exact Well.hasRemaining
  | with_reducible exact Well.remaining | with_reducible exact Well.utf8 _ | with_reducible exact Well.lenEncInt | with_reducible exact Well.lenEncStr
  | (refine Well.bind ?_ (fun _ => ?_)) | (refine Well.ite (fun _ => ?_) (fun _ => ?_))
  | apply Well.onSub
  | split))

theorem Well.okPacket (caps : Nat) : Well (OkPacket.readFrom caps) := by
  unfold OkPacket.readFrom; well
theorem Well.errPacket (caps : Nat) (sql : Bool) : Well (ErrPacket.readFrom caps sql) := by
  unfold ErrPacket.readFrom; well
theorem Well.eofPacket (caps : Nat) : Well (EofPacket.readFrom caps) := by
  unfold EofPacket.readFrom; well
theorem Well.rawPacket : Well RawPacket.readFrom := by
  unfold RawPacket.readFrom; well
theorem Well.authSwitch : Well AuthSwitchRequest.readFrom := by
  unfold AuthSwitchRequest.readFrom; well
theorem Well.authMore : Well AuthMoreData.readFrom := by
  unfold AuthMoreData.readFrom; well

theorem Well.handshakeMessage (caps : Nat) : Well (HandshakeMessage.readFrom caps) := by
  intro bs
  unfold HandshakeMessage.readFrom
  cases bs with
  | nil => exact List.suffix_refl _
  | cons b t =>
    refine Well.ite (fun _ => ?_) (fun _ => Well.ite (fun _ => ?_) (fun _ => Well.ite (fun _ => ?_)
      (fun _ => Well.ite (fun _ => ?_) (fun _ => Well.fail _)))) (b :: t)
    · exact Well.bind (Well.okPacket caps) fun _ => Well.pure _
    · exact Well.bind Well.authMore fun _ => Well.pure _
    · exact Well.bind (Well.errPacket caps false) fun _ => Well.pure _
    · exact Well.bind Well.authSwitch fun _ => Well.pure _

theorem Well.comResponse (caps : Nat) : Well (ComResponse.readFrom caps) := by
  intro bs
  unfold ComResponse.readFrom
  cases bs with
  | nil => exact List.suffix_refl _
  | cons b t =>
    refine Well.ite (fun _ => ?_) (fun _ => Well.ite (fun _ => ?_) (fun _ => Well.fail _)) (b :: t)
    · exact Well.bind (Well.okPacket caps) fun _ => Well.pure _
    · exact Well.bind (Well.errPacket caps true) fun _ => Well.pure _

end Mybin
