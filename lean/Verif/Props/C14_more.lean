import Verif.Props.C14_C16

/-! C14, OK packets that have no info string although session tracking has been agreed upon. The published layout always
has one; servers since 5.7 leave it out if it is empty and no session state has changed, and their own client library
accepts that. A connection has the flag only if it was made with `Conn::with_status`: the login does not ask for it,
although `CapabilityFlags::default()` has it. -/

namespace Mybin

/-- what an OK packet has before the info string -/
def Spec.okStart (caps header : Nat) (f : Spec.OkFields) : Bytes :=
  Spec.u8 header ++ Spec.lenEncInt f.affectedRows ++ Spec.lenEncInt f.lastInsertId
    ++ Spec.opt (Spec.hasStatus caps) (Spec.le 2 f.status)
    ++ Spec.opt (caps.testBit Spec.PROTOCOL_41) (Spec.le 2 f.warnings)

theorem okStart_reads (caps header : Nat) (hh : header < 256) (f : Spec.OkFields) (hf : f.InRange)
    (ht : caps.testBit Spec.SESSION_TRACK) (more : Bytes) (e : Err) (left : Bytes)
    (h : (readLenEncStr more).bind (fun i => P.orErr i.intoBytes .constraint) = .err e left) :
    OkPacket.readFrom caps (Spec.okStart caps header f ++ more) = .err e left := by
  obtain ⟨h1, h2, h3, h4, h5, h6⟩ := hf
  unfold OkPacket.readFrom Spec.okStart
  simp only [List.append_assoc, caps_p41, caps_trans, caps_track, status_changed]
  step (readU8_u8 header _ hh)
  step (readLenEncInt_spec _ _ h1)
  rw [canonLei_toU64, P.orErr_some]
  step (P.pure_apply _ _)
  step (readLenEncInt_spec _ _ h2)
  rw [canonLei_toU64, P.orErr_some]
  step (P.pure_apply _ _)
  have hstatus : ∀ rest : Bytes,
      ((if caps.testBit Spec.PROTOCOL_41 || caps.testBit Spec.TRANSACTIONS then do
          let s ← readLeU16
          P.orErr (statusFromBits s) .constraint
        else pure 0 : P Nat)
        (Spec.opt (Spec.hasStatus caps) (Spec.le 2 f.status) ++ rest))
      = .ok (if Spec.hasStatus caps then f.status else 0) rest := by
    intro rest
    unfold Spec.opt Spec.hasStatus
    cases hc : (caps.testBit Spec.PROTOCOL_41 || caps.testBit Spec.TRANSACTIONS)
    · rfl
    · simp only [if_true]
      step (readLeU16_le _ _ (by omega))
      rw [statusFromBits_ok _ h3]; rfl
  step (hstatus _)
  have hwarn : ∀ rest : Bytes,
      ((if caps.testBit Spec.PROTOCOL_41 then readLeU16 else pure 0 : P Nat)
        (Spec.opt (caps.testBit Spec.PROTOCOL_41) (Spec.le 2 f.warnings) ++ rest))
      = .ok (if caps.testBit Spec.PROTOCOL_41 then f.warnings else 0) rest := by
    intro rest
    unfold Spec.opt
    cases hc : caps.testBit Spec.PROTOCOL_41
    · rfl
    · simp only [if_true]; exact readLeU16_le _ _ h4
  step (hwarn _)
  rw [ht]
  simp only [if_true]
  rw [P.bind_apply, P.bind_apply, h]
  rfl

/-- C14: an OK packet that ends before the info string is an error if session tracking has been agreed upon. -/
theorem C14_without_info (caps header : Nat) (hh : header < 256) (f : Spec.OkFields) (hf : f.InRange)
    (ht : caps.testBit Spec.SESSION_TRACK) :
    OkPacket.readFrom caps (Spec.okStart caps header f) = .err (.incomplete none) [] := by
  have := okStart_reads caps header hh f hf ht [] (.incomplete none) [] rfl
  rw [List.append_nil] at this
  exact this

/-- C14: NULL, or the mark of an error, for the info string is an error too; it is not an empty string. -/
theorem C14_null_info (caps header : Nat) (hh : header < 256) (f : Spec.OkFields) (hf : f.InRange)
    (ht : caps.testBit Spec.SESSION_TRACK) (b : UInt8) (hb : b = 0xfb ∨ b = 0xff) (more : Bytes) :
    OkPacket.readFrom caps (Spec.okStart caps header f ++ b :: more) = .err .constraint more := by
  refine okStart_reads caps header hh f hf ht _ _ _ ?_
  rcases hb with rfl | rfl <;> rfl

-- `CapabilityFlags::default()`; the answer to a ping of such a server
example : (0x01be6207 : Nat).testBit Spec.SESSION_TRACK = true ∧ (Spec.OkFields.mk 0 0 2 0 [] []).InRange ∧
    Spec.okStart (2 ^ 9 + 2 ^ 23) 0 ⟨0, 0, 2, 0, [], []⟩ = [0, 0, 0, 2, 0, 0, 0] :=
  ⟨by decide, ⟨by decide, by decide, by decide, by decide, by decide, by decide⟩, by decide⟩

end Mybin
