/-
C14 OK packet decoding; C15 ERR and EOF packet decoding; C16 response dispatch.
-/
import Verif.Lemmas.Step
import Verif.Lemmas.Well
import Verif.Spec.Packets
import Verif.Model.Command

namespace Mybin

theorem caps_p41 (c : Nat) : hasFlag c Cap.PROTOCOL_41 = c.testBit Spec.PROTOCOL_41 :=
  hasFlag_eq_testBit c 9
theorem caps_trans (c : Nat) : hasFlag c Cap.TRANSACTIONS = c.testBit Spec.TRANSACTIONS :=
  hasFlag_eq_testBit c 13
theorem caps_track (c : Nat) : hasFlag c Cap.SESSION_TRACK = c.testBit Spec.SESSION_TRACK :=
  hasFlag_eq_testBit c 23
theorem caps_secure (c : Nat) : hasFlag c Cap.SECURE_CONNECTION = c.testBit Spec.SECURE_CONNECTION :=
  hasFlag_eq_testBit c 15
theorem caps_plugin (c : Nat) : hasFlag c Cap.PLUGIN_AUTH = c.testBit Spec.PLUGIN_AUTH :=
  hasFlag_eq_testBit c 19
theorem caps_db (c : Nat) : hasFlag c Cap.CONNECT_WITH_DB = c.testBit Spec.CONNECT_WITH_DB :=
  hasFlag_eq_testBit c 3
theorem caps_attrs (c : Nat) : hasFlag c Cap.CONNECT_ATTRS = c.testBit Spec.CONNECT_ATTRS :=
  hasFlag_eq_testBit c 20
theorem status_changed (s : Nat) :
    hasFlag s Status.SESSION_STATE_CHANGED = s.testBit Spec.SESSION_STATE_CHANGED :=
  hasFlag_eq_testBit s 14

/-! ### C14 -/

/-- the fields of an OK packet are in the protocol's ranges -/
structure Spec.OkFields.InRange (f : Spec.OkFields) : Prop where
  rows : f.affectedRows < 2 ^ 64
  id : f.lastInsertId < 2 ^ 64
  status : f.status < 2 ^ 15
  warnings : f.warnings < 2 ^ 16
  info : f.info.length < 2 ^ 64
  session : f.sessionState.length < 2 ^ 64

/-- C14: for every combination of capability flags and all field values, decoding the protocol's
layout gives back the fields (a field that is not on the wire reads as 0 / empty), and consumes the
packet. -/
theorem C14_ok_packet (caps header : Nat) (hh : header < 256) (f : Spec.OkFields) (hf : f.InRange) :
    OkPacket.readFrom caps (Spec.okPacket caps header f) = .ok
      { header := header
        affectedRows := f.affectedRows
        lastInsertId := f.lastInsertId
        statusFlags := if Spec.hasStatus caps then f.status else 0
        warnings := if caps.testBit Spec.PROTOCOL_41 then f.warnings else 0
        info := f.info
        sessionStateChanges :=
          if Spec.hasSessionState caps f.status then f.sessionState else [] } [] := by
  obtain ⟨h1, h2, h3, h4, h5, h6⟩ := hf
  unfold OkPacket.readFrom Spec.okPacket
  simp only [List.append_assoc, caps_p41, caps_trans, caps_track, status_changed]
  step (readU8_u8 header _ hh)
  step (readLenEncInt_spec _ _ h1)
  rw [canonLei_toU64, P.orErr_some]
  step (P.pure_apply _ _)
  step (readLenEncInt_spec _ _ h2)
  rw [canonLei_toU64, P.orErr_some]
  step (P.pure_apply _ _)
  have hstatus : ∀ rest : Bytes,
      ((if caps.testBit Spec.PROTOCOL_41 || caps.testBit Spec.TRANSACTIONS then do
          let s ← readLeU16
          P.orErr (statusFromBits s) .constraint
        else pure 0 : P Nat)
        (Spec.opt (Spec.hasStatus caps) (Spec.le 2 f.status) ++ rest))
      = .ok (if Spec.hasStatus caps then f.status else 0) rest := by
    intro rest
    unfold Spec.opt Spec.hasStatus
    cases hc : (caps.testBit Spec.PROTOCOL_41 || caps.testBit Spec.TRANSACTIONS)
    · rfl
    · simp only [if_true]
      step (readLeU16_le _ _ (by omega))
      rw [statusFromBits_ok _ h3]; rfl
  step (hstatus _)
  have hwarn : ∀ rest : Bytes,
      ((if caps.testBit Spec.PROTOCOL_41 then readLeU16 else pure 0 : P Nat)
        (Spec.opt (caps.testBit Spec.PROTOCOL_41) (Spec.le 2 f.warnings) ++ rest))
      = .ok (if caps.testBit Spec.PROTOCOL_41 then f.warnings else 0) rest := by
    intro rest
    unfold Spec.opt
    cases hc : caps.testBit Spec.PROTOCOL_41
    · rfl
    · simp only [if_true]; exact readLeU16_le _ _ h4
  step (hwarn _)
  cases ht : caps.testBit Spec.SESSION_TRACK
  · have hs : Spec.hasSessionState caps f.status = false := by simp [Spec.hasSessionState, ht]
    simp [Spec.opt, hs]
  · simp only [if_true]
    rw [P.bind_apply, P.bind_apply, readLenEncStr_spec _ _ h5, R.bind_ok]
    simp only [LenEncStr.intoBytes, P.orErr_some, P.pure_apply, R.bind_ok, Bool.true_and]
    cases hst : Spec.hasStatus caps
    · have hs : Spec.hasSessionState caps f.status = false := by simp [Spec.hasSessionState, hst]
      simp [hs, Spec.opt]
    · simp only [if_true]
      cases hbit : f.status.testBit Spec.SESSION_STATE_CHANGED
      · have hs : Spec.hasSessionState caps f.status = false := by
          simp [Spec.hasSessionState, hbit]
        simp [hs, Spec.opt]
      · have hs : Spec.hasSessionState caps f.status = true := by
          simp [Spec.hasSessionState, hbit, ht, hst]
        simp only [hs, Spec.opt, if_true]
        rw [P.bind_apply, P.bind_apply]
        have := readLenEncStr_spec f.sessionState [] h6
        rw [List.append_nil] at this
        rw [this]
        rfl

-- non-vacuity: all optional fields present
example : Spec.hasSessionState (2 ^ 9 + 2 ^ 23) (2 ^ 14 + 2) = true := by decide
example : (Spec.OkFields.mk 3 300 (2 ^ 14 + 2) 1 [65, 66] [1, 2]).InRange :=
  ⟨by decide, by decide, by decide, by decide, by decide, by decide⟩

/-- C14: the OK decoder never panics, whatever the bytes and flags. -/
theorem C14_ok_no_panic (caps : Nat) : Well (OkPacket.readFrom caps) := Well.okPacket caps

-- a status word with the undefined bit 15 set is rejected, not silently masked
example :
    ∃ r, OkPacket.readFrom (2 ^ 9) [0, 0, 0, 0, 0x80, 0, 0] = .err .constraint r := by
  exact ⟨[0, 0], by decide⟩

/-! ### C15 -/

/-- C15, ERR: decoding the protocol's layout gives back code, state and message. The state is on the
wire iff the decoder is told so (`sql`) and PROTOCOL_41 is on. -/
theorem C15_err_packet (caps : Nat) (sql : Bool) (code : Nat) (hc : code < 2 ^ 16)
    (state msg : Bytes) (hs : state.length = 5) :
    ErrPacket.readFrom caps sql
        (Spec.errPacket (sql && caps.testBit Spec.PROTOCOL_41) code state msg) = .ok
      { header := 0xff
        errorCode := code
        sqlStateMarker := if sql && caps.testBit Spec.PROTOCOL_41 then 0x23 else 0
        sqlState := if sql && caps.testBit Spec.PROTOCOL_41 then state else []
        errorMessage := msg } [] := by
  unfold ErrPacket.readFrom Spec.errPacket
  simp only [List.append_assoc, caps_p41]
  step (readU8_u8 0xff _ (by norm_num))
  step (readLeU16_le _ _ hc)
  cases h : (sql && caps.testBit Spec.PROTOCOL_41)
  · simp [Spec.opt]
  · simp only [if_true, Spec.opt, List.append_assoc]
    rw [P.bind_apply, P.bind_apply, readU8_u8 0x23 _ (by norm_num), R.bind_ok]
    rw [P.bind_apply, readLen_append' 5 state msg hs]
    rfl

example : (Spec.errPacket true 1062 [50, 51, 48, 48, 48] [68, 117, 112]).length = 12 := by decide

/-- C15, converse: whatever the ERR decoder returns, the bytes it was given are exactly header, code
in little-endian, optional marker and 5-byte state, and message — nothing is dropped or moved. -/
theorem C15_err_exact (caps : Nat) (sql : Bool) (bs rest : Bytes) (p : ErrPacket)
    (h : ErrPacket.readFrom caps sql bs = .ok p rest) :
    rest = [] ∧ bs = Spec.u8 p.header ++ Spec.le 2 p.errorCode ++
      Spec.opt (sql && caps.testBit Spec.PROTOCOL_41) (Spec.u8 p.sqlStateMarker ++ p.sqlState) ++
      p.errorMessage ∧
      ((sql && caps.testBit Spec.PROTOCOL_41) = true → p.sqlState.length = 5) := by
  unfold ErrPacket.readFrom at h
  simp only [caps_p41] at h
  match bs, h with
  | [], h => cases h
  | b :: t, h =>
    rw [P.bind_apply, readU8_cons, R.bind_ok, P.bind_apply] at h
    by_cases h2 : 2 ≤ t.length
    · rw [show readLeU16 t = _ from (fixedRead_readFixed 2 leVal t).1 h2, R.bind_ok] at h
      have hcode : Spec.le 2 (leVal (t.take 2)) = t.take 2 := by
        rw [← leBytes_eq_spec]
        have := leBytes_leVal (t.take 2)
        rwa [List.length_take, min_eq_left h2] at this
      cases hc : (sql && caps.testBit Spec.PROTOCOL_41)
      · rw [hc] at h
        simp at h
        obtain ⟨rfl, rfl⟩ := h
        refine ⟨rfl, ?_, by simp⟩
        simp only [Spec.opt, Spec.u8, hcode]
        simp
      · rw [hc] at h
        simp only [if_true] at h
        rw [P.bind_apply, P.bind_apply] at h
        cases hd : t.drop 2 with
        | nil => rw [hd] at h; cases h
        | cons m u =>
          rw [hd, readU8_cons, R.bind_ok, P.bind_apply] at h
          by_cases h5 : 5 ≤ u.length
          · rw [show readLen 5 u = .ok (u.take 5) (u.drop 5) by
              simp [readLen, Nat.not_lt.mpr h5]] at h
            simp at h
            obtain ⟨rfl, rfl⟩ := h
            refine ⟨rfl, ?_, by simp [h5]⟩
            simp only [Spec.opt, Spec.u8, hcode, if_true]
            simp
            rw [← hd, List.take_append_drop]
          · rw [show readLen 5 u = .err (.incomplete (some (5 - u.length))) u by
              simp [readLen, Nat.not_le.mp h5]] at h
            cases h
    · rw [show readLeU16 t = _ from (fixedRead_readFixed 2 leVal t).2 (by omega)] at h
      cases h

/-- C15, EOF. -/
theorem C15_eof_packet (caps warnings status : Nat) (hw : warnings < 2 ^ 16) (hs : status < 2 ^ 15) :
    EofPacket.readFrom caps (Spec.eofPacket caps warnings status) = .ok
      { header := 0xfe
        warnings := if caps.testBit Spec.PROTOCOL_41 then warnings else 0
        statusFlags := if caps.testBit Spec.PROTOCOL_41 then status else 0 } [] := by
  unfold EofPacket.readFrom Spec.eofPacket
  simp only [caps_p41]
  step (readU8_u8 0xfe _ (by norm_num))
  cases h : caps.testBit Spec.PROTOCOL_41
  · simp [Spec.opt]
  · simp only [if_true, Spec.opt]
    rw [P.bind_apply, P.bind_apply, readLeU16_le _ _ hw, R.bind_ok, P.bind_apply]
    have := readLeU16_le status [] (by omega)
    rw [List.append_nil] at this
    rw [this, R.bind_ok, statusFromBits_ok _ hs]
    rfl

/-- C15: neither decoder panics on any bytes. -/
theorem C15_no_panic (caps : Nat) (sql : Bool) :
    Well (ErrPacket.readFrom caps sql) ∧ Well (EofPacket.readFrom caps) :=
  ⟨Well.errPacket caps sql, Well.eofPacket caps⟩

/-! ### C16 -/

/-- C16, command responses: the class of the result is decided by the first byte alone; an unknown
first byte and an empty message are errors. -/
theorem C16_com_response (caps : Nat) (b : UInt8) (t : Bytes) :
    (b = 0x00 → ComResponse.readFrom caps (b :: t)
      = (OkPacket.readFrom caps (b :: t)).bind (fun p => pure (.ok p))) ∧
    (b = 0xff → ComResponse.readFrom caps (b :: t)
      = (ErrPacket.readFrom caps true (b :: t)).bind (fun p => pure (.err p))) ∧
    (b ≠ 0x00 → b ≠ 0xff → ComResponse.readFrom caps (b :: t) = .err .constraint (b :: t)) ∧
    ComResponse.readFrom caps [] = .err (.incomplete none) [] := by
  refine ⟨?_, ?_, ?_, rfl⟩
  · rintro rfl; rfl
  · rintro rfl; rfl
  · intro h1 h2; simp [ComResponse.readFrom, h1, h2]

/-- C16, handshake responses. -/
theorem C16_handshake_message (caps : Nat) (b : UInt8) (t : Bytes) :
    (b = 0x00 → HandshakeMessage.readFrom caps (b :: t)
      = (OkPacket.readFrom caps (b :: t)).bind (fun p => pure (.ok p))) ∧
    (b = 0x01 → HandshakeMessage.readFrom caps (b :: t)
      = .ok (.moreData ⟨1, t⟩) []) ∧
    (b = 0xff → HandshakeMessage.readFrom caps (b :: t)
      = (ErrPacket.readFrom caps false (b :: t)).bind (fun p => pure (.err p))) ∧
    (b = 0xfe → HandshakeMessage.readFrom caps (b :: t)
      = (AuthSwitchRequest.readFrom (b :: t)).bind (fun p => pure (.switch p))) ∧
    (b ≠ 0x00 → b ≠ 0x01 → b ≠ 0xff → b ≠ 0xfe →
      HandshakeMessage.readFrom caps (b :: t) = .err .constraint (b :: t)) ∧
    HandshakeMessage.readFrom caps [] = .err (.incomplete none) [] := by
  refine ⟨?_, ?_, ?_, ?_, ?_, rfl⟩
  · rintro rfl; rfl
  · rintro rfl; rfl
  · rintro rfl; rfl
  · rintro rfl; rfl
  · intro h1 h2 h3 h4; simp [HandshakeMessage.readFrom, h1, h2, h3, h4]

/-- C16: a well-formed packet of each kind is recognised as that kind, with its fields. -/
theorem C16_well_formed_recognised (caps : Nat) :
    (∀ f : Spec.OkFields, f.InRange → ∃ p,
      ComResponse.readFrom caps (Spec.okPacket caps 0 f) = .ok (.ok p) [] ∧
      HandshakeMessage.readFrom caps (Spec.okPacket caps 0 f) = .ok (.ok p) [] ∧
      p.affectedRows = f.affectedRows ∧ p.lastInsertId = f.lastInsertId ∧ p.info = f.info) ∧
    (∀ code state msg, code < 2 ^ 16 → state.length = 5 → ∃ p,
      ComResponse.readFrom caps
        (Spec.errPacket (caps.testBit Spec.PROTOCOL_41) code state msg) = .ok (.err p) [] ∧
      p.errorCode = code ∧ p.errorMessage = msg) ∧
    (∀ code msg, code < 2 ^ 16 → ∃ p,
      HandshakeMessage.readFrom caps (Spec.errPacket false code [] msg) = .ok (.err p) [] ∧
      p.errorCode = code ∧ p.errorMessage = msg) ∧
    (∀ plugin data, (0 : UInt8) ∉ plugin → validUtf8 plugin = true →
      HandshakeMessage.readFrom caps (Spec.authSwitch plugin data)
        = .ok (.switch ⟨0xfe, plugin, data⟩) []) ∧
    (∀ data, HandshakeMessage.readFrom caps (Spec.authMoreData data)
        = .ok (.moreData ⟨1, data⟩) []) := by
  refine ⟨?_, ?_, ?_, ?_, ?_⟩
  · intro f hf
    obtain ⟨p, h, h1, h2, h3⟩ : ∃ p : OkPacket,
        OkPacket.readFrom caps (Spec.okPacket caps 0 f) = .ok p [] ∧
        p.affectedRows = f.affectedRows ∧ p.lastInsertId = f.lastInsertId ∧ p.info = f.info :=
      ⟨_, C14_ok_packet caps 0 (by norm_num) f hf, rfl, rfl, rfl⟩
    obtain ⟨t, e⟩ : ∃ t, Spec.okPacket caps 0 f = (0x00 : UInt8) :: t := ⟨_, rfl⟩
    rw [e] at h ⊢
    refine ⟨p, ?_, ?_, h1, h2, h3⟩
    · rw [(C16_com_response caps _ t).1 rfl, h]; rfl
    · rw [(C16_handshake_message caps _ t).1 rfl, h]; rfl
  · intro code state msg hc hs
    have h := C15_err_packet caps true code hc state msg hs
    rw [Bool.true_and] at h
    generalize hp : ErrPacket.mk _ _ _ _ _ = p at h
    obtain ⟨t, e⟩ : ∃ t, Spec.errPacket (caps.testBit Spec.PROTOCOL_41) code state msg
        = (0xff : UInt8) :: t := ⟨_, rfl⟩
    rw [e] at h ⊢
    refine ⟨p, ?_, by rw [← hp], by rw [← hp]⟩
    rw [(C16_com_response caps _ t).2.1 rfl, h]; rfl
  · intro code msg hc
    have h : ErrPacket.readFrom caps false (Spec.errPacket false code [] msg)
        = .ok ⟨0xff, code, 0, [], msg⟩ [] := by
      have := C15_err_packet caps false code hc [0, 0, 0, 0, 0] msg rfl
      simpa [Spec.errPacket, Spec.opt] using this
    obtain ⟨t, e⟩ : ∃ t, Spec.errPacket false code [] msg = (0xff : UInt8) :: t := ⟨_, rfl⟩
    rw [e] at h ⊢
    refine ⟨⟨0xff, code, 0, [], msg⟩, ?_, rfl, rfl⟩
    rw [(C16_handshake_message caps _ t).2.2.1 rfl, h]; rfl
  · intro plugin data h0 hu
    have h : AuthSwitchRequest.readFrom (Spec.authSwitch plugin data)
        = .ok ⟨0xfe, plugin, data⟩ [] := by
      unfold AuthSwitchRequest.readFrom Spec.authSwitch
      rw [List.append_assoc]
      step (readU8_u8 0xfe _ (by norm_num))
      rw [if_neg (by norm_num)]
      step (readUntil_nulStr plugin data h0)
      step (readRest_apply _)
      simp [toUtf8, hu]
    obtain ⟨t, e⟩ : ∃ t, Spec.authSwitch plugin data = (0xfe : UInt8) :: t := ⟨_, rfl⟩
    rw [e] at h ⊢
    rw [(C16_handshake_message caps _ t).2.2.2.1 rfl, h]; rfl
  · intro data
    exact (C16_handshake_message caps 0x01 data).2.1 rfl

example : validUtf8 [109, 121, 115, 113, 108] = true := by decide

/-- Disagreement with the protocol: once PROTOCOL_41 is negotiated (as it is when the server answers
the handshake response) a server's ERR packet carries `#` and the SQL state; the handshake decoder is
called with `sql = false` (packet.rs:63) and returns them as part of the message. -/
theorem C16_handshake_err_state_false (caps code : Nat) (hc : code < 2 ^ 16) (state msg : Bytes) :
    HandshakeMessage.readFrom caps (Spec.errPacket true code state msg)
      = .ok (.err ⟨0xff, code, 0, [], 0x23 :: state ++ msg⟩) [] := by
  have h : ErrPacket.readFrom caps false (Spec.errPacket false code [] (0x23 :: state ++ msg))
      = .ok ⟨0xff, code, 0, [], 0x23 :: state ++ msg⟩ [] := by
    have := C15_err_packet caps false code hc [0, 0, 0, 0, 0] (0x23 :: state ++ msg) rfl
    simpa [Spec.errPacket, Spec.opt] using this
  have e0 : Spec.errPacket true code state msg
      = Spec.errPacket false code [] (0x23 :: state ++ msg) := by
    simp [Spec.errPacket, Spec.opt, Spec.u8]
  rw [e0]
  obtain ⟨t, e⟩ : ∃ t, Spec.errPacket false code [] (0x23 :: state ++ msg) = (0xff : UInt8) :: t :=
    ⟨_, rfl⟩
  rw [e] at h ⊢
  rw [(C16_handshake_message caps _ t).2.2.1 rfl, h]; rfl

/-- C16, answers to COM_CHANGE_USER: here ERR is read with its SQL state. -/
theorem C16_change_user_response (caps : Nat) (b : UInt8) (t : Bytes) :
    (b = 0x00 → ComChangeUserResponse.readFrom caps (b :: t)
      = (OkPacket.readFrom caps (b :: t)).bind (fun p => pure (.ok p))) ∧
    (b = 0x01 → ComChangeUserResponse.readFrom caps (b :: t)
      = .ok (.moreData ⟨1, t⟩) []) ∧
    (b = 0xff → ComChangeUserResponse.readFrom caps (b :: t)
      = (ErrPacket.readFrom caps true (b :: t)).bind (fun p => pure (.err p))) ∧
    (b = 0xfe → ComChangeUserResponse.readFrom caps (b :: t)
      = (AuthSwitchRequest.readFrom (b :: t)).bind (fun p => pure (.switch p))) ∧
    (b ≠ 0x00 → b ≠ 0x01 → b ≠ 0xff → b ≠ 0xfe →
      ComChangeUserResponse.readFrom caps (b :: t) = .err .constraint (b :: t)) ∧
    ComChangeUserResponse.readFrom caps [] = .err (.incomplete none) [] := by
  refine ⟨?_, ?_, ?_, ?_, ?_, rfl⟩
  · rintro rfl; rfl
  · rintro rfl; rfl
  · rintro rfl; rfl
  · rintro rfl; rfl
  · intro h1 h2 h3 h4; simp [ComChangeUserResponse.readFrom, h1, h2, h3, h4]

/-- C16, answers to COM_DEBUG and COM_SET_OPTION. -/
theorem C16_eof_response (caps : Nat) (b : UInt8) (t : Bytes) :
    (b = 0xfe → EofResponse.readFrom caps (b :: t)
      = (EofPacket.readFrom caps (b :: t)).bind (fun p => pure (.eof p))) ∧
    (b = 0xff → EofResponse.readFrom caps (b :: t)
      = (ErrPacket.readFrom caps true (b :: t)).bind (fun p => pure (.err p))) ∧
    (b ≠ 0xfe → b ≠ 0xff → EofResponse.readFrom caps (b :: t) = .err .constraint (b :: t)) ∧
    EofResponse.readFrom caps [] = .err (.incomplete none) [] := by
  refine ⟨?_, ?_, ?_, rfl⟩
  · rintro rfl; rfl
  · rintro rfl; rfl
  · intro h1 h2; simp [EofResponse.readFrom, h1, h2]

/-- C16: no dispatcher panics on any bytes. -/
theorem C16_no_panic (caps : Nat) :
    Well (ComResponse.readFrom caps) ∧ Well (HandshakeMessage.readFrom caps) ∧
    Well (ComChangeUserResponse.readFrom caps) ∧ Well (EofResponse.readFrom caps) := by
  refine ⟨Well.comResponse caps, Well.handshakeMessage caps, ?_, ?_⟩
  · intro bs
    cases bs with
    | nil => exact List.suffix_refl _
    | cons b t =>
      exact (Well.ite (fun _ => Well.bind (Well.errPacket caps true) fun _ => Well.pure _) fun _ =>
        Well.ite (fun _ => Well.bind (Well.okPacket caps) fun _ => Well.pure _) fun _ =>
        Well.ite (fun _ => Well.bind Well.authMore fun _ => Well.pure _) fun _ =>
        Well.ite (fun _ => Well.bind Well.authSwitch fun _ => Well.pure _) fun _ =>
        Well.fail _) (b :: t)
  · intro bs
    cases bs with
    | nil => exact List.suffix_refl _
    | cons b t =>
      exact (Well.ite (fun _ => Well.bind (Well.eofPacket caps) fun _ => Well.pure _) fun _ =>
        Well.ite (fun _ => Well.bind (Well.errPacket caps true) fun _ => Well.pure _) fun _ =>
        Well.fail _) (b :: t)

end Mybin
