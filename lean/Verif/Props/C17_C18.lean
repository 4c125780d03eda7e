/-
C17 initial handshake; C18 handshake response 41.
-/
import Verif.Lemmas.Step
import Verif.Lemmas.Well
import Verif.Lemmas.Write
import Verif.Spec.Packets
import Verif.Spec.Server
import Verif.Lemmas.Grammar
import Verif.Props.C14_C16
import Mathlib.Data.Nat.Bitwise

namespace Mybin

/-! ### C17 -/

/-- the fields of an initial handshake are in the protocol's ranges -/
structure Spec.HandshakeFields.InRange (f : Spec.HandshakeFields) : Prop where
  version : f.version < 256
  serverVersion : (0 : UInt8) ∉ f.serverVersion
  connectionId : f.connectionId < 2 ^ 32
  data1 : f.data1.length = 8
  filler : f.filler < 256
  caps : f.caps < 2 ^ 32
  charset : f.charset < 256
  status : f.status < 2 ^ 16
  authLen : f.authLen < 256
  reserved : f.reserved.length = 10
  data2 : f.caps.testBit Spec.SECURE_CONNECTION = true → f.data2.length = Spec.data2Len f.authLen
  plugin : (0 : UInt8) ∉ f.pluginName
  utf8 : validUtf8 f.pluginName = true

theorem join16 (n : Nat) : (n % 65536) ||| ((n / 65536) <<< 16) = n := by
  rw [Nat.or_comm, Nat.shiftLeft_eq, Nat.mul_comm, ← Nat.two_pow_add_eq_or_of_lt (i := 16)]
  · show 65536 * (n / 65536) + n % 65536 = n
    omega
  · show n % 65536 < 65536
    omega

/-- a bit the client knows about survives `from_bits_truncate` -/
theorem testBit_capAll {n k : Nat} (h : Cap.ALL.testBit k = true) :
    (n &&& Cap.ALL).testBit k = n.testBit k := by
  rw [Nat.testBit_and, h, Bool.and_true]

/-- C17, with the hypothesis the code needs (`8 ≤ authLen` when SECURE_CONNECTION is set): decoding
the protocol's layout gives back every field and consumes the packet. -/
theorem C17_initial_handshake_partial (f : Spec.HandshakeFields) (hf : f.InRange)
    (h8 : f.caps.testBit Spec.SECURE_CONNECTION = true → 8 ≤ f.authLen) :
    InitialHandshake.readFrom (Spec.handshakeV10 f) = .ok
      { protocolVersion := f.version
        serverVersion := f.serverVersion
        connectionId := f.connectionId
        authPluginData1 := f.data1
        charset := f.charset
        statusFlags := f.status
        capabilityFlags := f.caps
        authPluginDataLength := f.authLen
        authPluginData2 := if f.caps.testBit Spec.SECURE_CONNECTION then f.data2 else []
        authPluginName := if f.caps.testBit Spec.PLUGIN_AUTH then f.pluginName else [] } [] := by
  obtain ⟨g1, g2, g3, g4, g5, g6, g7, g8, g9, g10, g11, g12, g13⟩ := hf
  unfold InitialHandshake.readFrom Spec.handshakeV10
  simp only [List.append_assoc]
  step (readU8_u8 _ _ g1)
  step (readUntil_nulStr _ _ g2)
  step (readLeU32_le _ _ g3)
  step (readLen_append' 8 _ _ g4)
  step (readLen_append' 1 _ _ (Spec.length_u8 _))
  step (readLeU16_le (f.caps % 65536) _ (by omega))
  step (readU8_u8 _ _ g7)
  step (readLeU16_le _ _ g8)
  step (readLeU16_le (f.caps / 65536) _ (by omega))
  step (readU8_u8 _ _ g9)
  step (readLen_append' 10 _ _ g10)
  simp only [join16]
  rw [caps_secure, caps_plugin, testBit_capAll (by decide), testBit_capAll (by decide)]
  have hdata : ∀ rest : Bytes,
      ((if f.caps.testBit Spec.SECURE_CONNECTION then
          if f.authLen < 8 then P.panic else readLen (max 13 (f.authLen - 8))
        else pure [] : P Bytes)
        (Spec.opt (f.caps.testBit Spec.SECURE_CONNECTION) f.data2 ++ rest))
      = .ok (if f.caps.testBit Spec.SECURE_CONNECTION then f.data2 else []) rest := by
    intro rest
    cases hs : f.caps.testBit Spec.SECURE_CONNECTION
    · rfl
    · simp only [if_true, Spec.opt]
      rw [if_neg (by have := h8 hs; omega)]
      exact readLen_append' _ _ _ (g11 hs)
  step (hdata _)
  cases hp : f.caps.testBit Spec.PLUGIN_AUTH
  · rfl
  · simp only [if_true, Spec.opt]
    have := readUntil_nulStr f.pluginName [] g12
    rw [List.append_nil] at this
    rw [P.bind_apply, P.bind_apply, this]
    simp [toUtf8, g13]

-- non-vacuity: a server that announces SECURE_CONNECTION and PLUGIN_AUTH with a 20-byte nonce
example : (Spec.HandshakeFields.mk 10 [53, 46, 55] 7 [1, 2, 3, 4, 5, 6, 7, 8] 0 33 2
    (2 ^ 15 + 2 ^ 19) 21 (List.replicate 10 0) (List.replicate 13 9) [109, 110]).InRange :=
  ⟨by decide, by decide, by decide, by decide, by decide, by decide, by decide, by decide, by decide,
   by decide, by decide, by decide, by decide⟩

/-- C17 fails without `8 ≤ authLen`: for every handshake of a server that sets SECURE_CONNECTION and
announces a length below 8 (a server without PLUGIN_AUTH sends 0) the decoder panics, although the
packet is well formed. -/
theorem C17_short_auth_length_false (f : Spec.HandshakeFields) (hf : f.InRange)
    (hs : f.caps.testBit Spec.SECURE_CONNECTION = true) (h8 : f.authLen < 8) :
    InitialHandshake.readFrom (Spec.handshakeV10 f) = .panic := by
  obtain ⟨g1, g2, g3, g4, g5, g6, g7, g8, g9, g10, g11, g12, g13⟩ := hf
  unfold InitialHandshake.readFrom Spec.handshakeV10
  simp only [List.append_assoc]
  step (readU8_u8 _ _ g1)
  step (readUntil_nulStr _ _ g2)
  step (readLeU32_le _ _ g3)
  step (readLen_append' 8 _ _ g4)
  step (readLen_append' 1 _ _ (Spec.length_u8 _))
  step (readLeU16_le (f.caps % 65536) _ (by omega))
  step (readU8_u8 _ _ g7)
  step (readLeU16_le _ _ g8)
  step (readLeU16_le (f.caps / 65536) _ (by omega))
  step (readU8_u8 _ _ g9)
  step (readLen_append' 10 _ _ g10)
  simp only [join16]
  rw [caps_secure, testBit_capAll (by decide), hs]
  simp [h8]

example : (Spec.HandshakeFields.mk 10 [53, 46, 49] 7 [1, 2, 3, 4, 5, 6, 7, 8] 0 33 2
    (2 ^ 15) 0 (List.replicate 10 0) (List.replicate 13 9) []).InRange :=
  ⟨by decide, by decide, by decide, by decide, by decide, by decide, by decide, by decide, by decide,
   by decide, by decide, by decide, by decide⟩

/-! ### C18 -/

/-- the model's response with the given fields -/
def responseOf (f : Spec.ResponseFields) : HandshakeResponse41 where
  capabilityFlags := f.caps
  maxPacketSize := f.maxPacket
  charset := f.charset
  username := f.user
  authResponse := f.auth
  database := f.db
  authPluginName := f.plugin
  connectAttrs := f.attrs.map fun (k, v) => ⟨k, v⟩

/-- no length that goes through the length-encoded integer is 251 (see C04_false) -/
structure Spec.ResponseFields.No251 (f : Spec.ResponseFields) : Prop where
  auth : f.auth.length ≠ 251
  attrs : ∀ kv ∈ f.attrs, kv.1.length ≠ 251 ∧ kv.2.length ≠ 251
  total : (Spec.attrBytes f.attrs).length ≠ 251

theorem writeConnectAttrs_spec (attrs : List (Bytes × Bytes)) :
    ∀ lb : Bytes, (∀ kv ∈ attrs, kv.1.length ≠ 251 ∧ kv.2.length ≠ 251) →
    writeConnectAttrs lb (attrs.map fun (k, v) => ⟨k, v⟩) = lb ++ Spec.attrBytes attrs := by
  induction attrs with
  | nil => intro lb _; simp [writeConnectAttrs, Spec.attrBytes]
  | cons a as ih =>
    intro lb h
    obtain ⟨k, v⟩ := a
    have ha := h (k, v) (by simp)
    simp only [List.map_cons, writeConnectAttrs, writeBytes]
    rw [writeLei_spec _ _ ha.1]
    rw [writeLei_spec _ _ ha.2, ih _ (fun kv hkv => h kv (by simp [hkv]))]
    simp [Spec.attrBytes, Spec.lenEncStr]

/-- the layout the code writes, in all cases: the auth response is always length-encoded -/
theorem handshakeResponse_layout (f : Spec.ResponseFields) (h : f.No251) (out : Bytes) :
    (responseOf f).writeTo out =
      (out ++ (Spec.le 4 f.caps ++ Spec.le 4 f.maxPacket ++ Spec.u8 f.charset ++ List.replicate 23 0
        ++ Spec.nulStr f.user ++ Spec.lenEncStr f.auth
        ++ Spec.opt (f.caps.testBit Spec.CONNECT_WITH_DB) (Spec.nulStr f.db)
        ++ Spec.opt (f.caps.testBit Spec.PLUGIN_AUTH) (Spec.nulStr f.plugin)
        ++ Spec.opt (f.caps.testBit Spec.CONNECT_ATTRS) (Spec.lenEncStr (Spec.attrBytes f.attrs))),
       (Spec.le 4 f.caps ++ Spec.le 4 f.maxPacket ++ Spec.u8 f.charset ++ List.replicate 23 0
        ++ Spec.nulStr f.user ++ Spec.lenEncStr f.auth
        ++ Spec.opt (f.caps.testBit Spec.CONNECT_WITH_DB) (Spec.nulStr f.db)
        ++ Spec.opt (f.caps.testBit Spec.PLUGIN_AUTH) (Spec.nulStr f.plugin)
        ++ Spec.opt (f.caps.testBit Spec.CONNECT_ATTRS)
          (Spec.lenEncStr (Spec.attrBytes f.attrs))).length) := by
  obtain ⟨h1, h2, h3⟩ := h
  unfold HandshakeResponse41.writeTo responseOf
  simp only [caps_db, caps_plugin, caps_attrs]
  rw [writeConnectAttrs_spec _ _ h2, List.nil_append]
  simp only [writeLei_spec _ _ h1, writeLei_spec _ _ h3, writeLeU32_spec, writeU8_spec,
    writeBytes_spec, Spec.lenEncStr, Spec.nulStr]
  cases f.caps.testBit Spec.CONNECT_WITH_DB <;> cases f.caps.testBit Spec.PLUGIN_AUTH <;>
    cases f.caps.testBit Spec.CONNECT_ATTRS <;>
    simp only [Spec.opt, if_true, if_false, Bool.false_eq_true, List.append_assoc, List.append_nil,
      List.length_append, List.length_replicate, List.length_nil, Spec.length_le, Spec.length_u8,
      Prod.mk.injEq, true_and] <;> omega

/-- C18, when the peers agreed on length-encoded auth data, or on SECURE_CONNECTION and the auth data
is at most 250 bytes: the bytes appended are exactly the protocol's layout, the reported length is the
number of bytes appended. -/
theorem C18_handshake_response_partial (f : Spec.ResponseFields) (h : f.No251)
    (hauth : f.caps.testBit Spec.PLUGIN_AUTH_LENENC = true ∨
      (f.caps.testBit Spec.SECURE_CONNECTION = true ∧ f.auth.length < 251)) (out : Bytes) :
    (responseOf f).writeTo out =
      (out ++ Spec.handshakeResponse41 f, (Spec.handshakeResponse41 f).length) := by
  have hl := handshakeResponse_layout f h out
  have he : (if f.caps.testBit Spec.PLUGIN_AUTH_LENENC then Spec.lenEncStr f.auth
      else if f.caps.testBit Spec.SECURE_CONNECTION then Spec.u8 f.auth.length ++ f.auth
      else Spec.nulStr f.auth) = Spec.lenEncStr f.auth := by
    rcases hauth with h1 | ⟨h1, h2⟩
    · rw [h1]; rfl
    · rw [h1]
      have : Spec.lenEncStr f.auth = Spec.u8 f.auth.length ++ f.auth := by
        simp [Spec.lenEncStr, Spec.lenEncInt, h2]
      rw [this]; split <;> rfl
  rw [hl, ← he]; rfl

-- non-vacuity: a realistic response with two attributes
example : (Spec.ResponseFields.mk (2 ^ 9 + 2 ^ 15 + 2 ^ 3 + 2 ^ 19 + 2 ^ 20) 0xffffff 33 [114]
    (List.replicate 20 7) [116] [109] [([97], [98]), ([99], [])]).No251 :=
  ⟨by decide, by decide, by decide⟩

/-- what the protocol can carry: no NUL in NUL-terminated strings, integers in range, lengths that fit
64 bits, and at most 255 auth bytes where a one-byte length is used -/
structure Spec.ResponseFields.Encodable (f : Spec.ResponseFields) : Prop where
  caps : f.caps < 2 ^ 32
  maxPacket : f.maxPacket < 2 ^ 32
  charset : f.charset < 256
  user : (0 : UInt8) ∉ f.user
  auth : f.auth.length < 251
  db : (0 : UInt8) ∉ f.db
  plugin : (0 : UInt8) ∉ f.plugin
  attrs : ∀ kv ∈ f.attrs, kv.1.length < 2 ^ 64 ∧ kv.2.length < 2 ^ 64
  total : (Spec.attrBytes f.attrs).length < 2 ^ 64

theorem lenEncInt_ne_nil (n : Nat) : Spec.lenEncInt n ≠ [] := by
  unfold Spec.lenEncInt Spec.u8
  split_ifs <;> simp

theorem attr_read (kv : Bytes × Bytes) (h : kv.1.length < 2 ^ 64 ∧ kv.2.length < 2 ^ 64) (t : Bytes) :
    Spec.D.attr (Spec.lenEncStr kv.1 ++ Spec.lenEncStr kv.2 ++ t) = some (kv, t) := by
  unfold Spec.D.attr
  rw [List.append_assoc, Spec.D.bind_some (Spec.D.lenEncStr_spec _ _ h.1),
    Spec.D.bind_some (Spec.D.lenEncStr_spec _ _ h.2)]
  rfl

theorem attrs_read (attrs : List (Bytes × Bytes))
    (h : ∀ kv ∈ attrs, kv.1.length < 2 ^ 64 ∧ kv.2.length < 2 ^ 64)
    (ht : (Spec.attrBytes attrs).length < 2 ^ 64) (t : Bytes) :
    Spec.D.attrs (Spec.lenEncStr (Spec.attrBytes attrs) ++ t) = some (attrs, t) := by
  unfold Spec.D.attrs
  rw [Spec.D.bind_some (Spec.D.lenEncStr_spec _ _ ht)]
  have := Spec.D.many_spec Spec.D.attr (fun kv : Bytes × Bytes => Spec.lenEncStr kv.1 ++ Spec.lenEncStr kv.2)
    id attrs (fun a _ => by simp [Spec.lenEncStr, lenEncInt_ne_nil])
    (fun a ha t => attr_read a (h a ha) t)
  have e : Spec.attrBytes attrs =
      (attrs.map (fun kv : Bytes × Bytes => Spec.lenEncStr kv.1 ++ Spec.lenEncStr kv.2)).flatten := rfl
  rw [← e] at this
  rw [this, List.map_id]; rfl

/-- optional field of a grammar -/
theorem when_spec {α : Type} (c : Bool) (p : Spec.D α) (enc : Bytes) (a dflt : α)
    (h : ∀ t, p (enc ++ t) = some (a, t)) (t : Bytes) :
    Spec.D.when c p dflt (Spec.opt c enc ++ t) = some (if c then a else dflt, t) := by
  cases c
  · rfl
  · exact h t

/-- C18, as the server sees it: reading the bytes by the protocol's grammar under the flags they
announce gives back flags, packet size, charset, user, auth response, database, plugin and attributes
(the optional ones exactly when their flag is announced). -/
theorem C18_server_reads_back_partial (f : Spec.ResponseFields) (h : f.No251) (hr : f.Encodable)
    (hauth : f.caps.testBit Spec.PLUGIN_AUTH_LENENC = true ∨
      f.caps.testBit Spec.SECURE_CONNECTION = true) (out : Bytes) :
    ∃ e, (responseOf f).writeTo out = (out ++ e, e.length) ∧
      Spec.D.all Spec.D.handshakeResponse41 e = some
        { f with
          db := if f.caps.testBit Spec.CONNECT_WITH_DB then f.db else []
          plugin := if f.caps.testBit Spec.PLUGIN_AUTH then f.plugin else []
          attrs := if f.caps.testBit Spec.CONNECT_ATTRS then f.attrs else [] } := by
  obtain ⟨h1, h2, h3, h4, h5, h6, h7, h8, h9⟩ := hr
  refine ⟨_, C18_handshake_response_partial f h (hauth.imp id (⟨·, by omega⟩)) out, ?_⟩
  unfold Spec.D.all
  have key : Spec.D.handshakeResponse41 (Spec.handshakeResponse41 f ++ []) = some
      ({ f with
          db := if f.caps.testBit Spec.CONNECT_WITH_DB then f.db else []
          plugin := if f.caps.testBit Spec.PLUGIN_AUTH then f.plugin else []
          attrs := if f.caps.testBit Spec.CONNECT_ATTRS then f.attrs else [] }, []) := by
    unfold Spec.D.handshakeResponse41 Spec.handshakeResponse41
    simp only [List.append_assoc]
    rw [Spec.D.bind_some (Spec.D.le_spec 4 _ _ (by omega)),
      Spec.D.bind_some (Spec.D.le_spec 4 _ _ (by omega)),
      Spec.D.bind_some (Spec.D.u8_spec _ _ h3),
      Spec.D.bind_some (Spec.D.bytes_spec 23 _ _ List.length_replicate),
      Spec.D.bind_some (Spec.D.nulStr_spec _ _ h4)]
    have ha : ∀ t : Bytes, (if f.caps.testBit Spec.PLUGIN_AUTH_LENENC then Spec.D.lenEncStr
        else if f.caps.testBit Spec.SECURE_CONNECTION then (do
          let n ← Spec.D.u8
          Spec.D.bytes n)
        else Spec.D.nulStr : Spec.D (List UInt8))
        ((if f.caps.testBit Spec.PLUGIN_AUTH_LENENC then Spec.lenEncStr f.auth
        else if f.caps.testBit Spec.SECURE_CONNECTION then Spec.u8 f.auth.length ++ f.auth
        else Spec.nulStr f.auth) ++ t) = some (f.auth, t) := by
      intro t
      cases hl : f.caps.testBit Spec.PLUGIN_AUTH_LENENC
      · have hs : f.caps.testBit Spec.SECURE_CONNECTION = true := by
          rcases hauth with h' | h'
          · rw [hl] at h'; cases h'
          · exact h'
        rw [hs]
        simp only [if_true, Bool.false_eq_true, if_false, List.append_assoc]
        rw [Spec.D.bind_some (Spec.D.u8_spec _ _ (by omega))]
        exact Spec.D.bytes_spec _ _ _ rfl
      · simp only [if_true]
        exact Spec.D.lenEncStr_spec _ _ (by omega)
    rw [Spec.D.bind_some (ha _),
      Spec.D.bind_some (when_spec _ _ _ _ _ (fun t => Spec.D.nulStr_spec _ t h6) _),
      Spec.D.bind_some (when_spec _ _ _ _ _ (fun t => Spec.D.nulStr_spec _ t h7) _),
      Spec.D.bind_some (when_spec _ _ _ _ _ (fun t => attrs_read _ h8 h9 t) _)]
    rfl
  rw [List.append_nil] at key
  rw [key]

example : (Spec.ResponseFields.mk (2 ^ 9 + 2 ^ 15 + 2 ^ 3 + 2 ^ 19 + 2 ^ 20) 0xffffff 33 [114]
    (List.replicate 20 7) [116] [109] [([97], [98]), ([99], [])]).Encodable :=
  ⟨by decide, by decide, by decide, by decide, by decide, by decide, by decide, by decide, by decide⟩

/-- C18 fails if neither flag is set: the protocol's auth response is NUL-terminated there, the code
still writes a length prefix. -/
theorem C18_nul_terminated_auth_false :
    ∃ f : Spec.ResponseFields, f.No251 ∧
      ((responseOf f).writeTo []).1 ≠ Spec.handshakeResponse41 f :=
  ⟨⟨2 ^ 9, 0xffffff, 33, [], [1, 2], [], [], []⟩, ⟨by decide, by decide, by decide⟩, by decide⟩

/-- C18 fails for a 251-byte auth response: the length prefix is the NULL marker. -/
theorem C18_len_251_false :
    ∃ f : Spec.ResponseFields, f.caps.testBit Spec.PLUGIN_AUTH_LENENC = true ∧
      ((responseOf f).writeTo []).1 ≠ Spec.handshakeResponse41 f :=
  ⟨⟨2 ^ 9 + 2 ^ 21, 0xffffff, 33, [], List.replicate 251 1, [], [], []⟩, by decide,
    by decide +kernel⟩

end Mybin
