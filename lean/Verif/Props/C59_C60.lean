/-
C59: the password stays with the client. C60: changing the user.
-/
import Verif.Props.C56_C58

namespace Mybin

/-! ### C59 -/

/-- Two worlds that differ in the password but not in its digests. Outside the password itself the hash functions agree
where digests are hashed again (strings of 20 bytes or more for SHA-1, of 32 or more for SHA-256). -/
structure SameDigests (H H' : Hashes) (p q : Bytes) : Prop where
  left : p ≠ []
  right : q ≠ []
  sha1 : H.sha1 p = H'.sha1 q
  sha256 : H.sha256 p = H'.sha256 q
  long1 : ∀ m, 20 ≤ m.length → H.sha1 m = H'.sha1 m
  long256 : ∀ m, 32 ≤ m.length → H.sha256 m = H'.sha256 m
  sized : H.Sized

theorem scramble411_same {H H' : Hashes} {p q : Bytes} (h : SameDigests H H' p q) (seed : Bytes) :
    scramble411 H p seed = scramble411 H' q seed := by
  unfold scramble411
  dsimp only
  have hs := h.sized.sha1
  rw [← h.sha1, ← h.long1 (H.sha1 p) (by rw [hs]),
    ← h.long1 (seed ++ _) (by rw [List.length_append, hs]; omega)]

theorem scrambleCachingSha2_same {H H' : Hashes} {p q : Bytes} (h : SameDigests H H' p q) (seed : Bytes) :
    scrambleCachingSha2 H p seed = scrambleCachingSha2 H' q seed := by
  unfold scrambleCachingSha2
  dsimp only
  have hs := h.sized.sha256
  rw [← h.sha256, ← h.long256 (H.sha256 p) (by rw [hs]),
    ← h.long256 (_ ++ seed) (by rw [List.length_append, hs]; omega)]

/-- the same plugin in the same state, with the one or the other password; without TLS -/
inductive SamePlugin (p q : Bytes) : AuthPlugin → AuthPlugin → Prop
  | native : SamePlugin p q (.native p) (.native q)
  | cachingSha2 (seed : Bytes) (stage : CachingSha2Stage) :
    SamePlugin p q (.cachingSha2 p seed stage false) (.cachingSha2 q seed stage false)

/-- the same answer -/
inductive SameAnswer (p q : Bytes) : Except Err (Bytes × AuthPlugin) → Except Err (Bytes × AuthPlugin) → Prop
  | error (e : Err) : SameAnswer p q (.error e) (.error e)
  | ok (resp : Bytes) (a b : AuthPlugin) (h : SamePlugin p q a b) : SameAnswer p q (.ok (resp, a)) (.ok (resp, b))

theorem next_same {H H' : Hashes} {p q : Bytes} (h : SameDigests H H' p q) {a b : AuthPlugin}
    (hab : SamePlugin p q a b) (input : Bytes) : SameAnswer p q (a.next H input) (b.next H' input) := by
  have hp : p.isEmpty = false := by have := h.left; cases p <;> simp_all
  have hq : q.isEmpty = false := by have := h.right; cases q <;> simp_all
  cases hab with
  | native =>
    simp only [AuthPlugin.next, hp, hq, scramble411_same h]
    exact .ok _ _ _ .native
  | cachingSha2 seed stage =>
    cases stage with
    | sendScramble =>
      simp only [AuthPlugin.next, hp, hq, scrambleCachingSha2_same h]
      exact .ok _ _ _ (.cachingSha2 _ _)
    | readResult =>
      cases input with
      | nil =>
        simp only [AuthPlugin.next, hp, hq]
        exact .error _
      | cons b t =>
        simp only [AuthPlugin.next, hp, hq, Bool.false_eq_true, if_false]
        by_cases h3 : b = 3
        · rw [if_pos h3, if_pos h3]; exact .ok _ _ _ (.cachingSha2 _ _)
        · rw [if_neg h3, if_neg h3]
          by_cases h4 : b = 4
          · rw [if_pos h4, if_pos h4]; exact .error _
          · rw [if_neg h4, if_neg h4]; exact .error _
    | complete =>
      simp only [AuthPlugin.next, hp, hq]
      exact .error _
    | fullAuth =>
      simp only [AuthPlugin.next, hp, hq]
      exact .error _

theorem newAuthPlugin_same (p q name : Bytes) (a : AuthPlugin) (h : newAuthPlugin name = .ok a) :
    SamePlugin p q (a.setCredential p) (a.setCredential q) := by
  unfold newAuthPlugin at h
  split at h
  · cases h; exact .native
  · split at h
    · cases h; exact .cachingSha2 _ _
    · cases h

theorem handshakeLoop_same {H H' : Hashes} {p q : Bytes} (h : SameDigests H H' p q) (caps : Nat) :
    ∀ (n : Nat) (a b : AuthPlugin) (c : Conn), c.inp.length = n → SamePlugin p q a b →
      handshakeLoop H caps a c = handshakeLoop H' caps b c := by
  intro n
  induction n using Nat.strong_induction_on with
  | _ n ih =>
    intro a b c hn hab
    rw [handshakeLoop.eq_def, handshakeLoop.eq_def H']
    cases recvMsg c with
    | err e c1 => rfl
    | panic => rfl
    | hang => rfl
    | ok msg c1 =>
      dsimp only
      cases M.parse msg (HandshakeMessage.readFrom caps) c1 with
      | err e c1 => rfl
      | panic => rfl
      | hang => rfl
      | ok m c2 =>
        cases m with
        | ok p => rfl
        | err p => rfl
        | «switch» s => rfl
        | moreData m =>
          dsimp only
          have hs := next_same h hab m.pluginData
          generalize a.next H m.pluginData = x at hs
          generalize b.next H' m.pluginData = y at hs
          cases hs with
          | error e => rfl
          | ok resp a' b' hab' =>
            dsimp only
            generalize (if resp.isEmpty then pure () else sendMsg resp false : M Unit) c2 = z
            cases z with
            | err e c1 => rfl
            | panic => rfl
            | hang => rfl
            | ok _ c3 =>
              dsimp only
              split
              · exact ih _ (by omega) a' b' c3 rfl hab'
              · rfl

theorem changeUserLoop_same {H H' : Hashes} {p q : Bytes} (h : SameDigests H H' p q) :
    ∀ (n : Nat) (a b : Option AuthPlugin) (c : Conn), c.inp.length = n → Option.Rel (SamePlugin p q) a b →
      changeUserLoop H p a c = changeUserLoop H' q b c := by
  intro n
  induction n using Nat.strong_induction_on with
  | _ n ih =>
    intro a b c hn hab
    rw [changeUserLoop.eq_def, changeUserLoop.eq_def H']
    cases recvMsg c with
    | err e c1 => rfl
    | panic => rfl
    | hang => rfl
    | ok msg c1 =>
      dsimp only
      cases M.parse msg (ComChangeUserResponse.readFrom c1.caps) c1 with
      | err e c1 => rfl
      | panic => rfl
      | hang => rfl
      | ok m c2 =>
        cases m with
        | ok p => rfl
        | err p => rfl
        | «switch» s =>
          dsimp only
          cases hpl : newAuthPlugin s.pluginName with
          | error e => rfl
          | ok pl =>
            dsimp only
            have hs := next_same h (newAuthPlugin_same p q _ pl hpl) (stripNul s.authPluginData)
            unfold genInitAuthResp
            generalize (pl.setCredential p).next H (stripNul s.authPluginData) = x at hs
            generalize (pl.setCredential q).next H' (stripNul s.authPluginData) = y at hs
            cases hs with
            | error e => rfl
            | ok resp a' b' hab' =>
              dsimp only
              cases sendMsg resp false c2 with
              | err e c1 => rfl
              | panic => rfl
              | hang => rfl
              | ok _ c3 =>
                dsimp only
                split
                · exact ih _ (by omega) (some a') (some b') c3 rfl (.some hab')
                · rfl
        | moreData m =>
          cases hab with
          | none => rfl
          | @some a b hab =>
            dsimp only
            have hs := next_same h hab m.pluginData
            generalize a.next H m.pluginData = x at hs
            generalize b.next H' m.pluginData = y at hs
            cases hs with
            | error e => rfl
            | ok resp a' b' hab' =>
              dsimp only
              cases sendMsg resp false c2 with
              | err e c1 => rfl
              | panic => rfl
              | hang => rfl
              | ok _ c3 =>
                dsimp only
                split
                · exact ih _ (by omega) (some a') (some b') c3 rfl (.some hab')
                · rfl

theorem MR.bind_congr {α β : Type} (x : MR α) {f g : α → Conn → MR β} (h : ∀ a c, f a c = g a c) :
    x.bind f = x.bind g := by
  have : f = g := by funext a c; exact h a c
  rw [this]

/-- C59: whatever the server sends (the input of the connection is arbitrary), connecting with two different passwords
that have the same digests sends the same bytes and ends in the same way. So the password reaches the network only
through its digests. -/
theorem C59_handshake (H H' : Hashes) (p q username database : Bytes) (h : SameDigests H H' p q) (c : Conn) :
    handshake H ⟨username, p, database⟩ c = handshake H' ⟨username, q, database⟩ c := by
  unfold handshake
  simp only [M.bind_apply]
  refine MR.bind_congr _ fun msg c1 => ?_
  simp only [M.bind_apply]
  refine MR.bind_congr _ fun hs c2 => ?_
  simp only [M.bind_apply, insertCap_apply, removeCap_apply, MR.bind_ok]
  cases hpl : newAuthPlugin hs.authPluginName with
  | error e => rfl
  | ok pl =>
    simp only [M.bind_apply, M.ofExcept_ok, MR.bind_ok]
    have hs' := next_same h (newAuthPlugin_same p q _ pl hpl) (stripNul (hs.authPluginData1 ++ hs.authPluginData2))
    unfold genInitAuthResp
    generalize (pl.setCredential p).next H _ = x at hs'
    generalize (pl.setCredential q).next H' _ = y at hs'
    cases hs' with
    | error e => rfl
    | ok resp a' b' hab' =>
      simp only [M.bind_apply, M.ofExcept_ok, MR.bind_ok]
      refine MR.bind_congr _ fun _ c3 => ?_
      simp only [M.bind_apply, getCaps_apply, MR.bind_ok]
      refine MR.bind_congr _ fun _ c4 => ?_
      exact handshakeLoop_same h _ _ a' b' c4 rfl hab'

/-- C59, changing the user -/
theorem C59_change_user (H H' : Hashes) (p q username db : Bytes) (attrs : List ConnectAttr)
    (h : SameDigests H H' p q) (c : Conn) :
    changeUser H username p db attrs c = changeUser H' username q db attrs c := by
  unfold changeUser
  simp only [M.bind_apply, getCaps_apply, MR.bind_ok]
  refine MR.bind_congr _ fun _ c1 => ?_
  exact changeUserLoop_same h _ none none c1 rfl .none

/-- the hypotheses can be met with SHA-1 and SHA-256 and any two passwords, one of them short: change the hashes at
that one -/
theorem sameDigests_of (p q : Bytes) (hp : p ≠ []) (hq : q ≠ []) (hl : q.length < 20) :
    SameDigests realHashes
      ⟨fun m => if m = q then Spec.Sha.sha1 p else Spec.Sha.sha1 m,
        fun m => if m = q then Spec.Sha.sha256 p else Spec.Sha.sha256 m⟩ p q where
  left := hp
  right := hq
  sha1 := by simp [realHashes]
  sha256 := by simp [realHashes]
  long1 m hm := by
    show Spec.Sha.sha1 m = if m = q then _ else _
    rw [if_neg (by rintro rfl; omega)]
  long256 m hm := by
    show Spec.Sha.sha256 m = if m = q then _ else _
    rw [if_neg (by rintro rfl; omega)]
  sized := realHashes_sized

example : ([115, 101, 99, 114, 101, 116] : Bytes) ≠ [112, 119] ∧ ∃ H', SameDigests realHashes H' [115, 101, 99, 114, 101, 116] [112, 119] :=
  ⟨by decide, _, sameDigests_of _ _ (by decide) (by decide) (by decide)⟩

/-! ### C60 -/

theorem changeUserResponse_ok (caps : Nat) (ok : Spec.OkFields) (hok : ok.InRange) :
    ∃ p, ComChangeUserResponse.readFrom caps (Spec.okPacket caps 0 ok) = .ok (.ok p) [] := by
  obtain ⟨t, e⟩ : ∃ t, Spec.okPacket caps 0 ok = (0 : UInt8) :: t := ⟨_, rfl⟩
  have h := C14_ok_packet caps 0 (by norm_num) ok hok
  rw [e] at h ⊢
  exact ⟨_, by rw [(C16_change_user_response caps _ t).1 rfl, h]; rfl⟩

theorem changeUserResponse_switch (caps : Nat) (name data : Bytes) (h0 : (0 : UInt8) ∉ name)
    (hu : validUtf8 name = true) :
    ComChangeUserResponse.readFrom caps (Spec.authSwitch name data) = .ok (.switch ⟨0xfe, name, data⟩) [] := by
  have h := handshakeMessage_switch caps name data h0 hu
  obtain ⟨t, e⟩ : ∃ t, Spec.authSwitch name data = (0xfe : UInt8) :: t := ⟨_, rfl⟩
  rw [e] at h ⊢
  rw [(C16_handshake_message caps _ t).2.2.2.1 rfl] at h
  rw [(C16_change_user_response caps _ t).2.2.2.1 rfl]
  cases hr : AuthSwitchRequest.readFrom ((0xfe : UInt8) :: t) with
  | ok a r =>
    rw [hr] at h
    cases h
    rfl
  | err e r => rw [hr] at h; cases h
  | panic => rw [hr] at h; cases h
  | hang => rw [hr] at h; cases h

theorem changeUserLoop_ok (H : Hashes) (password : Bytes) (plugin : Option AuthPlugin) (ok : Spec.OkFields)
    (hok : ok.InRange) (c : Conn) (ms : List Bytes) (rest : Bytes)
    (hd : Spec.Delivers c.inp (Spec.okPacket c.caps 0 ok :: ms) rest) :
    ∃ c', changeUserLoop H password plugin c = .ok () c' ∧ Spec.Delivers c'.inp ms rest ∧ Moved c c' := by
  obtain ⟨c1, h1, h2, h3, -⟩ := Delivers.recv hd
  rw [← h2.caps] at h1
  obtain ⟨p, h4⟩ := changeUserResponse_ok c1.caps ok hok
  refine ⟨c1, ?_, h3, h2⟩
  rw [changeUserLoop.eq_def, h1]
  simp only [M.parse_ok h4]

/-- the command COM_CHANGE_USER as it is sent -/
theorem changeUser_start (H : Hashes) (user password db : Bytes) (attrs : List (Bytes × Bytes))
    (hu : (0 : UInt8) ∉ user) (hdb : (0 : UInt8) ∉ db) (hk : ∀ kv ∈ attrs, kv.1.length ≠ 251 ∧ kv.2.length ≠ 251)
    (ht : (Spec.attrBytes attrs).length ≠ 251) (hk' : ∀ kv ∈ attrs, kv.1.length < 2 ^ 64 ∧ kv.2.length < 2 ^ 64)
    (hsz : user.length + db.length + (Spec.attrBytes attrs).length < 2 ^ 31) (c : Conn) :
    ∃ c', changeUser H user password db (attrs.map fun (k, v) => ⟨k, v⟩) c = changeUserLoop H password none c' ∧
      c'.inp = c.inp ∧ c'.caps = c.caps ∧ c'.status = c.status ∧
      SentOne c.caps c.out c'.out (.changeUser user [] db 33
        (if c.caps.testBit Spec.PLUGIN_AUTH then nativeName else [])
        (if c.caps.testBit Spec.CONNECT_ATTRS then attrs else [])) := by
  have hs := C19_change_user_partial c.caps [] user [] db nativeName 33 attrs hu hdb (by decide) (by norm_num)
    (by split <;> simp) hk ht hk' (lt_trans (by omega : _ < 2 ^ 31) (by norm_num))
  have hlen : (ComChangeUser.writeTo [] c.caps ⟨user, [], db, 33, nativeName,
      attrs.map fun (k, v) => ⟨k, v⟩⟩).1.length < 255 * 0xffffff := by
    have hl : (Spec.lenEncStr (Spec.attrBytes attrs)).length ≤ 9 + (Spec.attrBytes attrs).length := by
      unfold Spec.lenEncStr Spec.lenEncInt
      rw [List.length_append]
      split_ifs <;> simp [Spec.length_le, Spec.length_u8] <;> omega
    have hn : nativeName.length = 21 := by decide
    unfold ComChangeUser.writeTo
    simp only [caps_secure, caps_plugin, caps_attrs]
    rw [writeChangeUserAttrs_spec _ _ hk, List.nil_append]
    simp only [writeLenEncStr_spec _ _ ht, writeLeU16_spec, writeU8_spec, writeBytes_spec]
    cases c.caps.testBit Spec.SECURE_CONNECTION <;> cases c.caps.testBit Spec.PLUGIN_AUTH <;>
      cases c.caps.testBit Spec.CONNECT_ATTRS <;>
      simp only [if_true, if_false, Bool.false_eq_true, List.length_append, List.length_nil, Spec.length_le,
        Spec.length_u8, List.length_cons, hn] <;> omega
  obtain ⟨c', a1, a2, a3, a4, a5⟩ := sendMsg_cmd c _ _ hs hlen
  refine ⟨c', ?_, a3, a4, a5, a2⟩
  show MR.bind (sendMsg (ComChangeUser.writeTo [] c.caps ⟨user, [], db, 33, nativeName,
    attrs.map fun (k, v) => ⟨k, v⟩⟩).1 true c) (fun _ => changeUserLoop H password none) = _
  rw [a1]
  rfl

/-- C60: for every account and nonce: if the server asks for mysql_native_password with a nonce and then says OK, the
command was one message with the user, the schema and the attributes; the answer was one message, numbered after the
server's, holding a proof the server accepts; and the responses have been read to their end. -/
theorem C60_native_partial (H : Hashes) (hH : H.Sized) (user password db : Bytes) (attrs : List (Bytes × Bytes))
    (hu : (0 : UInt8) ∉ user) (hdb : (0 : UInt8) ∉ db) (hk : ∀ kv ∈ attrs, kv.1.length ≠ 251 ∧ kv.2.length ≠ 251)
    (ht : (Spec.attrBytes attrs).length ≠ 251) (hk' : ∀ kv ∈ attrs, kv.1.length < 2 ^ 64 ∧ kv.2.length < 2 ^ 64)
    (hsz : user.length + db.length + (Spec.attrBytes attrs).length < 2 ^ 31)
    (nonce : Bytes) (hn : nonce.length < 1000) (ok : Spec.OkFields) (hok : ok.InRange) (c : Conn) (mid rest : Bytes)
    (hin : c.inp = Spec.wire [⟨1, Spec.authSwitch (Spec.ascii "mysql_native_password") (nonce ++ [0])⟩] ++ mid)
    (hd : Spec.Delivers mid [Spec.okPacket c.caps 0 ok] rest) :
    ∃ c' sent ps, changeUser H user password db (attrs.map fun (k, v) => ⟨k, v⟩) c = .ok () c' ∧ c'.inp = rest ∧
      SentOne c.caps c.out sent (.changeUser user [] db 33
        (if c.caps.testBit Spec.PLUGIN_AUTH then (Spec.ascii "mysql_native_password") else [])
        (if c.caps.testBit Spec.CONNECT_ATTRS then attrs else [])) ∧
      c'.out = sent ++ Spec.wire ps ∧ Spec.IsMessage ps ∧ Spec.Numbered 2 ps ∧
      Spec.nativeAccepts H.sha1 (Spec.stored H.sha1 password) nonce (Spec.payload ps) ∧
      c'.caps = c.caps := by
  simp only [← nativeName_ascii] at *
  obtain ⟨c0, s1, s2, s3, -, s4⟩ := changeUser_start H user password db attrs hu hdb hk ht hk' hsz c
  obtain ⟨nr, r1, r2⟩ := C11_recv_message [⟨1, Spec.authSwitch nativeName (nonce ++ [0])⟩]
    ⟨[], _, rfl, by simp, by
      have : nativeName.length = 21 := by decide
      simp [Spec.authSwitch, Spec.nulStr, Spec.length_u8, this]; omega, by simp⟩ mid c0 (by rw [s2]; exact hin)
  have hnr : nr = 2 := r2 _ rfl
  have hpay : Spec.payload [⟨1, Spec.authSwitch nativeName (nonce ++ [0])⟩] = Spec.authSwitch nativeName (nonce ++ [0]) := by
    simp [Spec.payload]
  rw [hpay] at r1
  obtain ⟨pl, resp, pl', a1, a2, a3⟩ := C44_native H hH password nonce
  rw [← nativeName_ascii] at a1
  have hrl : resp.length < 251 := by
    unfold Spec.nativeAccepts at a3
    split at a3
    · rw [a3]; simp
    · rw [a3.1]; norm_num
  obtain ⟨ps, p1, p2, p3, p4⟩ := C12_sent_packets_partial resp false { c0 with inp := mid, pktNr := nr } (by
    rw [if_neg (by simp)]
    show nr + _ < 255
    have : resp.length / 0xffffff = 0 := Nat.div_eq_of_lt (by omega)
    omega)
  have hp := changeUserResponse_switch c0.caps nativeName (nonce ++ [0]) (by decide +kernel) (by decide +kernel)
  have hloop : changeUserLoop H password none c0 = changeUserLoop H password (some pl')
      { c0 with inp := mid, out := c0.out ++ Spec.wire ps, pktNr := nr + ps.length } := by
    rw [changeUserLoop.eq_def, r1]
    simp only [M.parse_ok hp, a1, a2, p4]
    rw [if_pos (by
      rw [s2, hin, List.length_append]
      have := wire_pos (ps := [⟨1, Spec.authSwitch nativeName (nonce ++ [0])⟩]) ⟨[], _, rfl, by simp, by
        have : nativeName.length = 21 := by decide
        simp [Spec.authSwitch, Spec.nulStr, Spec.length_u8, this]; omega, by simp⟩
      omega)]
    simp
  obtain ⟨c', d1, d2, d3⟩ := changeUserLoop_ok H password (some pl') ok hok
    { c0 with inp := mid, out := c0.out ++ Spec.wire ps, pktNr := nr + ps.length } [] rest
    (by rw [← s3] at hd; exact hd)
  refine ⟨c', c0.out, ps, by rw [s1, hloop, d1], Delivers.nil d2, s4, d3.out, p1, by rw [← hnr]; simpa using p2,
    by rw [p3]; exact a3, by rw [d3.caps]; exact s3⟩

/-- C60: a server that does not ask for anything: the command is the only message sent -/
theorem C60_ok (H : Hashes) (user password db : Bytes) (attrs : List (Bytes × Bytes))
    (hu : (0 : UInt8) ∉ user) (hdb : (0 : UInt8) ∉ db) (hk : ∀ kv ∈ attrs, kv.1.length ≠ 251 ∧ kv.2.length ≠ 251)
    (ht : (Spec.attrBytes attrs).length ≠ 251) (hk' : ∀ kv ∈ attrs, kv.1.length < 2 ^ 64 ∧ kv.2.length < 2 ^ 64)
    (hsz : user.length + db.length + (Spec.attrBytes attrs).length < 2 ^ 31)
    (ok : Spec.OkFields) (hok : ok.InRange) (c : Conn) (rest : Bytes)
    (hd : Spec.Delivers c.inp [Spec.okPacket c.caps 0 ok] rest) :
    ∃ c', changeUser H user password db (attrs.map fun (k, v) => ⟨k, v⟩) c = .ok () c' ∧ c'.inp = rest ∧
      SentOne c.caps c.out c'.out (.changeUser user [] db 33
        (if c.caps.testBit Spec.PLUGIN_AUTH then (Spec.ascii "mysql_native_password") else [])
        (if c.caps.testBit Spec.CONNECT_ATTRS then attrs else [])) := by
  simp only [← nativeName_ascii] at *
  obtain ⟨c0, s1, s2, s3, -, s4⟩ := changeUser_start H user password db attrs hu hdb hk ht hk' hsz c
  obtain ⟨c', d1, d2, d3⟩ := changeUserLoop_ok H password none ok hok c0 [] rest (by rw [s2, s3]; exact hd)
  exact ⟨c', by rw [s1, d1], Delivers.nil d2, by rw [d3.out]; exact s4⟩

/-- C60: at any point of the exchange an ERR packet ends it with that error, and nothing more is sent -/
theorem C60_refused (H : Hashes) (password : Bytes) (plugin : Option AuthPlugin) (code : Nat) (hcode : code < 2 ^ 16)
    (state msg : Bytes) (hst : state.length = 5) (hsu : validUtf8 state = true) (hmu : validUtf8 msg = true)
    (c : Conn) (h41 : c.caps.testBit Spec.PROTOCOL_41 = true) (ms : List Bytes) (rest : Bytes)
    (hd : Spec.Delivers c.inp (Spec.errPacket true code state msg :: ms) rest) :
    ∃ c', changeUserLoop H password plugin c = .err (.sql code state msg) c' ∧ c'.out = c.out ∧
      Spec.Delivers c'.inp ms rest := by
  obtain ⟨c1, h1, h2, h3, -⟩ := Delivers.recv hd
  have h := C15_err_packet c1.caps true code hcode state msg hst
  rw [h2.caps, Bool.true_and, h41] at h
  have hp : ComChangeUserResponse.readFrom c1.caps (Spec.errPacket true code state msg)
      = .ok (.err ⟨0xff, code, 0x23, state, msg⟩) [] := by
    obtain ⟨t, e⟩ : ∃ t, Spec.errPacket true code state msg = (0xff : UInt8) :: t := ⟨_, rfl⟩
    rw [h2.caps]
    rw [e] at h ⊢
    rw [(C16_change_user_response c.caps _ t).2.2.1 rfl, h]
    rfl
  refine ⟨c1, ?_, h2.out, h3⟩
  rw [changeUserLoop.eq_def, h1]
  simp only [M.parse_ok hp, sqlError, hsu, hmu]
  rfl

/-- C60: a switch to a method the client does not know is an error; nothing more is sent -/
theorem C60_unknown_method (H : Hashes) (password : Bytes) (plugin : Option AuthPlugin) (name data : Bytes)
    (h0 : (0 : UInt8) ∉ name) (hu : validUtf8 name = true) (h1 : name ≠ (Spec.ascii "mysql_native_password")) (h2 : name ≠ (Spec.ascii "caching_sha2_password"))
    (c : Conn) (ms : List Bytes) (rest : Bytes) (hd : Spec.Delivers c.inp (Spec.authSwitch name data :: ms) rest) :
    ∃ c', changeUserLoop H password plugin c = .err .custom c' ∧ c'.out = c.out := by
  simp only [← nativeName_ascii, ← cachingName_ascii] at *
  obtain ⟨c1, r1, r2, r3, -⟩ := Delivers.recv hd
  have hn : newAuthPlugin name = .error .custom := by
    unfold newAuthPlugin
    rw [if_neg h1, if_neg h2]
  refine ⟨c1, ?_, r2.out⟩
  rw [changeUserLoop.eq_def, r1]
  simp only [M.parse_ok (changeUserResponse_switch c1.caps name data h0 hu), hn]

/-- C60 fails: more data before a switch request (a server that continues with the method of the connection) makes the
client panic -/
theorem C60_more_data_false (H : Hashes) (password data : Bytes) (c : Conn) (ms : List Bytes) (rest : Bytes)
    (hd : Spec.Delivers c.inp (Spec.authMoreData data :: ms) rest) :
    changeUserLoop H password none c = .panic := by
  obtain ⟨c1, r1, r2, r3, -⟩ := Delivers.recv hd
  have hp : ComChangeUserResponse.readFrom c1.caps (Spec.authMoreData data) = .ok (.moreData ⟨1, data⟩) [] :=
    (C16_change_user_response c1.caps 1 data).2.1 rfl
  rw [changeUserLoop.eq_def, r1]
  simp only [M.parse_ok hp]

/-- C60 fails: after the server's "fast authentication succeeded" (caching_sha2_password) the client sends an empty
message the server does not expect. -/
theorem C60_extra_message_false (H : Hashes) (password seed : Bytes) (hp : password ≠ [])
    (c : Conn) (mid : Bytes) (nr : Nat) (hnr : nr < 200) (hin : c.inp = Spec.wire [⟨nr, Spec.authMoreData [3]⟩] ++ mid) :
    ∃ c' ps, changeUserLoop H password (some (.cachingSha2 password seed .readResult false)) c
        = changeUserLoop H password (some (.cachingSha2 password seed .complete false)) c' ∧ c'.inp = mid ∧
      c'.out = c.out ++ Spec.wire ps ∧ Spec.IsMessage ps ∧ Spec.payload ps = [] := by
  have hm : Spec.IsMessage [⟨nr, Spec.authMoreData [3]⟩] :=
    ⟨[], _, rfl, by simp, by simp [Spec.authMoreData, Spec.u8], by simp; omega⟩
  obtain ⟨n, r1, r2⟩ := C11_recv_message _ hm mid c hin
  have hn : n = (nr + 1) % 256 := r2 _ rfl
  have hpay : Spec.payload [⟨nr, Spec.authMoreData [3]⟩] = Spec.authMoreData [3] := by simp [Spec.payload]
  rw [hpay] at r1
  have hpr : ComChangeUserResponse.readFrom c.caps (Spec.authMoreData [3]) = .ok (.moreData ⟨1, [3]⟩) [] :=
    (C16_change_user_response c.caps 1 [3]).2.1 rfl
  have hnx : (AuthPlugin.cachingSha2 password seed .readResult false).next H [3]
      = .ok ([], .cachingSha2 password seed .complete false) := by
    simp [AuthPlugin.next, hp]
  obtain ⟨ps, p1, p2, p3, p4⟩ := C12_sent_packets_partial [] false { c with inp := mid, pktNr := n } (by
    rw [if_neg (by simp)]
    show n + _ < 255
    simp
    omega)
  rw [if_neg (by simp)] at p4
  refine ⟨{ c with inp := mid, out := c.out ++ Spec.wire ps, pktNr := n + ps.length }, ps, ?_, rfl, rfl, p1, p3⟩
  · rw [changeUserLoop.eq_def, r1]
    simp only [M.parse_ok hpr, hnx, p4]
    rw [if_pos (by
      rw [hin, List.length_append]
      have := wire_pos hm
      omega)]

/-- C58, changing the user: a switch to a known method is followed, see `C60_native_partial`; the hypotheses of the
theorems of C60 can be met -/
example : ∃ (c : Conn) (mid : Bytes),
    c.inp = Spec.wire [⟨1, Spec.authSwitch nativeName ((List.range' 1 20).map UInt8.ofNat ++ [0])⟩] ++ mid ∧
    Spec.Delivers mid [Spec.okPacket c.caps 0 ⟨0, 0, 2, 0, [], []⟩] [] := by
  obtain ⟨mid, h⟩ := delivers_small [Spec.okPacket (Spec.clientCaps [116]) 0 ⟨0, 0, 2, 0, [], []⟩] []
    (by intro m hm; simp only [List.mem_singleton] at hm; subst hm; decide +kernel)
  exact ⟨⟨Spec.wire [⟨1, Spec.authSwitch nativeName ((List.range' 1 20).map UInt8.ofNat ++ [0])⟩] ++ mid, [], 0,
    Spec.clientCaps [116], 0⟩, mid, rfl, h⟩

end Mybin
