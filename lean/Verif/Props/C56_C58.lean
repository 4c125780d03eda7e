/-
C56: connecting. C57: announced capabilities. C58: switching the method while connecting.
-/
import Verif.Props.C17_C18
import Verif.Props.C44_C45
import Verif.Props.C50_C52

namespace Mybin

/-- the flags a new connection announces: LONG_PASSWORD, PROTOCOL_41, TRANSACTIONS, SECURE_CONNECTION, MULTI_RESULTS,
PLUGIN_AUTH, PLUGIN_AUTH_LENENC_CLIENT_DATA, DEPRECATE_EOF, and CONNECT_WITH_DB if a database was given -/
def Spec.clientCaps (db : Bytes) : Nat :=
  2 ^ 0 + 2 ^ 9 + 2 ^ 13 + 2 ^ 15 + 2 ^ 17 + 2 ^ 19 + 2 ^ 21 + 2 ^ 24 + (if db = [] then 0 else 2 ^ 3)

theorem insertCap_apply (f : Nat) (c : Conn) : insertCap f c = .ok () { c with caps := c.caps ||| f } := rfl
theorem removeCap_apply (f : Nat) (c : Conn) :
    removeCap f c = .ok () { c with caps := c.caps ^^^ (c.caps &&& f) } := rfl

theorem M.ofExcept_ok {α : Type} (a : α) (c : Conn) : M.ofExcept (.ok a) c = .ok a c := rfl

/-- the client's answer to the initial handshake, for a method that has produced its first response -/
theorem handshake_start (H : Hashes) (opts : ConnOpts) (f : Spec.HandshakeFields) (hf : f.InRange)
    (hsec : f.caps.testBit Spec.SECURE_CONNECTION = true) (hpl : f.caps.testBit Spec.PLUGIN_AUTH = true)
    (h8 : 8 ≤ f.authLen) (plugin plugin' : AuthPlugin) (resp : Bytes) (hnew : newAuthPlugin f.pluginName = .ok plugin)
    (hgen : genInitAuthResp H plugin opts.password (f.data1 ++ f.data2) = .ok (resp, plugin'))
    (c c1 : Conn) (hr : recvMsg c = .ok (Spec.handshakeV10 f) c1) (hc : c1.caps = 0) :
    handshake H opts c =
      ((sendMsg ((responseOf ⟨Spec.clientCaps opts.database, 0xffffff, 33, opts.username, resp, opts.database,
        f.pluginName, []⟩).writeTo []).1 false) { c1 with caps := Spec.clientCaps opts.database }).bind
        (fun _ => handshakeLoop H (Spec.clientCaps opts.database) plugin') := by
  have h17 := C17_initial_handshake_partial f hf (fun _ => h8)
  unfold handshake
  simp only [M.bind_apply, hr, MR.bind_ok, M.parse_ok h17, insertCap_apply, removeCap_apply, hsec, hpl, if_true,
    hnew, M.ofExcept_ok, hgen, hc]
  by_cases hd : opts.database = []
  · have e : opts.database.isEmpty = true := by rw [hd]; rfl
    simp only [e, if_true, M.pure_apply, MR.bind_ok, getCaps_apply, hd]
    rfl
  · have e : opts.database.isEmpty = false := by cases h : opts.database <;> simp_all
    simp only [e, Bool.false_eq_true, if_false, insertCap_apply, MR.bind_ok, getCaps_apply]
    have : Spec.clientCaps opts.database = Spec.clientCaps [1] := by
      unfold Spec.clientCaps; rw [if_neg hd, if_neg (by simp)]
    rw [this]
    rfl

theorem handshakeMessage_ok (caps : Nat) (ok : Spec.OkFields) (hok : ok.InRange) :
    ∃ p, HandshakeMessage.readFrom caps (Spec.okPacket caps 0 ok) = .ok (.ok p) [] ∧
      p.statusFlags = (if Spec.hasStatus caps then ok.status else 0) := by
  obtain ⟨t, e⟩ : ∃ t, Spec.okPacket caps 0 ok = (0 : UInt8) :: t := ⟨_, rfl⟩
  have h := C14_ok_packet caps 0 (by norm_num) ok hok
  rw [e] at h ⊢
  refine ⟨_, by rw [(C16_handshake_message caps _ t).1 rfl, h]; rfl, rfl⟩

/-- the OK packet ends the connection phase -/
theorem handshakeLoop_ok (H : Hashes) (caps : Nat) (plugin : AuthPlugin) (ok : Spec.OkFields) (hok : ok.InRange)
    (c : Conn) (ms : List Bytes) (rest : Bytes) (hd : Spec.Delivers c.inp (Spec.okPacket caps 0 ok :: ms) rest) :
    ∃ c', handshakeLoop H caps plugin c = .ok () c' ∧ Spec.Delivers c'.inp ms rest ∧ c'.out = c.out ∧
      c'.caps = c.caps ∧ c'.pktNr = 0 ∧ c'.status = (if Spec.hasStatus caps then ok.status else 0) := by
  obtain ⟨c1, h1, h2, h3, -⟩ := Delivers.recv hd
  obtain ⟨p, h4, h5⟩ := handshakeMessage_ok caps ok hok
  refine ⟨{ c1 with status := p.statusFlags, pktNr := 0 }, ?_, h3, h2.out, h2.caps, rfl, h5⟩
  rw [handshakeLoop.eq_def, h1]
  simp only [M.parse_ok h4]

theorem handshakeMessage_more (caps : Nat) (data : Bytes) :
    HandshakeMessage.readFrom caps (Spec.authMoreData data) = .ok (.moreData ⟨1, data⟩) [] :=
  (C16_handshake_message caps 1 data).2.1 rfl

/-- the first answer of the client: what a server reads -/
theorem response_read (opts : ConnOpts) (resp plugin : Bytes) (hu : (0 : UInt8) ∉ opts.username)
    (hdb : (0 : UInt8) ∉ opts.database) (hp : (0 : UInt8) ∉ plugin) (hl : resp.length < 251)
    (hsz : opts.username.length + opts.database.length + plugin.length < 2 ^ 31) :
    ∃ e, ((responseOf ⟨Spec.clientCaps opts.database, 0xffffff, 33, opts.username, resp, opts.database,
        plugin, []⟩).writeTo []).1 = e ∧ e.length < 2 ^ 31 + 1000 ∧
      Spec.D.all Spec.D.handshakeResponse41 e = some ⟨Spec.clientCaps opts.database, 0xffffff, 33, opts.username,
        resp, opts.database, plugin, []⟩ := by
  have hcl : Spec.clientCaps opts.database < 2 ^ 32 := by
    unfold Spec.clientCaps; split <;> norm_num
  have hno : (⟨Spec.clientCaps opts.database, 0xffffff, 33, opts.username, resp, opts.database, plugin, []⟩ :
      Spec.ResponseFields).No251 := ⟨by show resp.length ≠ 251; omega, by simp, by simp [Spec.attrBytes]⟩
  have hb : (Spec.clientCaps opts.database).testBit Spec.PLUGIN_AUTH_LENENC = true ∧
      (Spec.clientCaps opts.database).testBit Spec.PLUGIN_AUTH = true ∧
      (Spec.clientCaps opts.database).testBit Spec.CONNECT_ATTRS = false ∧
      (Spec.clientCaps opts.database).testBit Spec.CONNECT_WITH_DB = !(opts.database == []) := by
    by_cases h : opts.database = []
    · rw [h]; decide
    · have : Spec.clientCaps opts.database = Spec.clientCaps [1] := by
        unfold Spec.clientCaps; rw [if_neg h, if_neg (by simp)]
      rw [this]
      refine ⟨by decide, by decide, by decide, ?_⟩
      have : (opts.database == []) = false := by simp [h]
      rw [this]; decide
  obtain ⟨e, he, hd⟩ := C18_server_reads_back_partial _ hno
    ⟨hcl, by show (0xffffff : Nat) < 2 ^ 32; norm_num, by show (33 : Nat) < 256; norm_num, hu, hl, hdb, hp, by simp, by simp [Spec.attrBytes]⟩
    (Or.inl hb.1) []
  have hlay := handshakeResponse_layout _ hno []
  refine ⟨e, by rw [he]; rfl, ?_, ?_⟩
  · have hlen := congrArg (fun x => x.1.length) (he.symm.trans hlay)
    simp only [List.nil_append] at hlen
    rw [hlen]
    simp only [List.length_append, Spec.length_le, Spec.length_u8, List.length_replicate, Spec.nulStr, Spec.lenEncStr,
      List.length_nil, Spec.opt, hb]
    have h1 : (Spec.lenEncInt resp.length).length = 1 := by simp [Spec.lenEncInt, hl, Spec.u8]
    rw [h1]
    have h2 : (Spec.lenEncInt 0).length = 1 := by decide
    have h3 : Spec.attrBytes [] = [] := rfl
    split_ifs <;> simp [h2, h3] <;> omega
  · rw [hd]
    congr 1
    simp only [hb, if_true, Bool.false_eq_true, if_false]
    by_cases h : opts.database = [] <;> simp [h]

/-- the state after the client's answer to a greeting in one packet -/
theorem handshake_sent (H : Hashes) (opts : ConnOpts) (f : Spec.HandshakeFields) (hf : f.InRange)
    (hsec : f.caps.testBit Spec.SECURE_CONNECTION = true) (hpl : f.caps.testBit Spec.PLUGIN_AUTH = true)
    (h8 : 8 ≤ f.authLen) (plugin plugin' : AuthPlugin) (resp : Bytes) (hnew : newAuthPlugin f.pluginName = .ok plugin)
    (hgen : genInitAuthResp H plugin opts.password (f.data1 ++ f.data2) = .ok (resp, plugin'))
    (hrl : resp.length < 251) (hu : (0 : UInt8) ∉ opts.username) (hdb : (0 : UInt8) ∉ opts.database)
    (hsz : opts.username.length + opts.database.length < 2 ^ 30)
    (c : Conn) (hc : c.caps = 0) (mid : Bytes) (hfl : (Spec.handshakeV10 f).length < 0xffffff)
    (hin : c.inp = Spec.wire [⟨0, Spec.handshakeV10 f⟩] ++ mid) :
    ∃ c' ps, handshake H opts c = handshakeLoop H (Spec.clientCaps opts.database) plugin' c' ∧ c'.inp = mid ∧
      c'.out = c.out ++ Spec.wire ps ∧ c'.caps = Spec.clientCaps opts.database ∧
      Spec.IsMessage ps ∧ Spec.Numbered 1 ps ∧
      Spec.D.all Spec.D.handshakeResponse41 (Spec.payload ps) = some ⟨Spec.clientCaps opts.database, 0xffffff, 33,
        opts.username, resp, opts.database, f.pluginName, []⟩ := by
  obtain ⟨nr, r1, r2⟩ := C11_recv_message [⟨0, Spec.handshakeV10 f⟩]
    ⟨[], _, rfl, by simp, hfl, by simp⟩ mid c hin
  have hnr : nr = 1 := r2 _ rfl
  have hnl : f.pluginName.length < 2 ^ 30 := by
    have : f.pluginName = nativeName ∨ f.pluginName = cachingSha2Name := by
      unfold newAuthPlugin at hnew
      split at hnew
      · exact Or.inl ‹_›
      · split at hnew
        · exact Or.inr ‹_›
        · cases hnew
    rcases this with h | h <;> rw [h] <;> decide
  obtain ⟨e, e1, e2, e3⟩ := response_read opts resp f.pluginName hu hdb hf.plugin hrl (by omega)
  have hst := handshake_start H opts f hf hsec hpl h8 plugin plugin' resp hnew
    hgen c _ (by rw [r1]; congr 1; simp [Spec.payload]) (by simpa using hc)
  rw [e1] at hst
  obtain ⟨ps, s1, s2, s3, s4⟩ := C12_sent_packets_partial e false
    { c with inp := mid, pktNr := nr, caps := Spec.clientCaps opts.database } (by
      rw [if_neg (by simp)]
      show nr + _ < 255
      have : e.length / 0xffffff ≤ 200 := by
        apply Nat.le_of_lt_succ
        rw [Nat.div_lt_iff_lt_mul (by norm_num)]
        norm_num at e2 ⊢
        omega
      omega)
  rw [s4] at hst
  exact ⟨_, ps, hst, rfl, rfl, rfl, s1, by rw [← hnr]; simpa using s2, by rw [s3]; exact e3⟩

theorem clientCaps_status (db : Bytes) : Spec.hasStatus (Spec.clientCaps db) = true := by
  by_cases h : db = []
  · rw [h]; decide
  · have : Spec.clientCaps db = Spec.clientCaps [1] := by
      unfold Spec.clientCaps; rw [if_neg h, if_neg (by simp)]
    rw [this]; decide

/-! ### C56 -/

/-- C56: connecting to a server that uses mysql_native_password. For every account, nonce, server version and status,
the client answers the greeting with one message, numbered 1, in which the server reads the user, the database and a
response that it accepts for the password; after the OK packet the connection is ready: packet numbers start again,
the server status is known and nothing beyond the OK packet has been read. -/
theorem C56_native (H : Hashes) (hH : H.Sized) (opts : ConnOpts) (f : Spec.HandshakeFields) (hf : f.InRange)
    (hsec : f.caps.testBit Spec.SECURE_CONNECTION = true) (hpl : f.caps.testBit Spec.PLUGIN_AUTH = true)
    (h8 : 8 ≤ f.authLen) (hname : f.pluginName = (Spec.ascii "mysql_native_password")) (nonce : Bytes) (hn : f.data1 ++ f.data2 = nonce ++ [0])
    (hu : (0 : UInt8) ∉ opts.username) (hdb : (0 : UInt8) ∉ opts.database)
    (hsz : opts.username.length + opts.database.length < 2 ^ 30) (ok : Spec.OkFields) (hok : ok.InRange)
    (c : Conn) (hc : c.caps = 0) (mid rest : Bytes) (hfl : (Spec.handshakeV10 f).length < 0xffffff)
    (hin : c.inp = Spec.wire [⟨0, Spec.handshakeV10 f⟩] ++ mid)
    (hd : Spec.Delivers mid [Spec.okPacket (Spec.clientCaps opts.database) 0 ok] rest) :
    ∃ c' ps resp, handshake H opts c = .ok () c' ∧ c'.inp = rest ∧ c'.out = c.out ++ Spec.wire ps ∧
      Spec.IsMessage ps ∧ Spec.Numbered 1 ps ∧
      Spec.D.all Spec.D.handshakeResponse41 (Spec.payload ps) = some ⟨Spec.clientCaps opts.database, 0xffffff, 33,
        opts.username, resp, opts.database, (Spec.ascii "mysql_native_password"), []⟩ ∧
      Spec.nativeAccepts H.sha1 (Spec.stored H.sha1 opts.password) nonce resp ∧
      c'.status = ok.status ∧ c'.caps = Spec.clientCaps opts.database ∧ c'.pktNr = 0 := by
  simp only [← nativeName_ascii] at *
  obtain ⟨plugin, resp, plugin', a1, a2, a3⟩ := C44_native H hH opts.password nonce
  have hrl : resp.length < 251 := by
    unfold Spec.nativeAccepts at a3
    split at a3
    · rw [a3]; simp
    · rw [a3.1]; norm_num
  obtain ⟨c1, ps, b1, b2, b3, b4, b5, b6, b7⟩ := handshake_sent H opts f hf hsec hpl h8 plugin plugin' resp
    (by rw [hname]; exact a1) (by rw [hn]; exact a2) hrl hu hdb hsz c hc mid hfl hin
  obtain ⟨c', d1, d2, d3, d4, d5, d6⟩ := handshakeLoop_ok H (Spec.clientCaps opts.database) plugin' ok hok
    c1 [] rest (by rw [b2]; exact hd)
  rw [hname] at b7
  exact ⟨c', ps, resp, by rw [b1]; exact d1, Delivers.nil d2, by rw [d3, b3], b5, b6, b7, a3,
    by rw [d6, if_pos (clientCaps_status _)], by rw [d4, b4], d5⟩

/-- C56, caching_sha2_password: the same exchange with the server's "fast authentication succeeded" before the OK
packet. (Full claim: the response is accepted for the server's nonce; it is the one for the empty nonce, see C45.) -/
theorem C56_caching_partial (H : Hashes) (hH : H.Sized) (opts : ConnOpts) (f : Spec.HandshakeFields) (hf : f.InRange)
    (hsec : f.caps.testBit Spec.SECURE_CONNECTION = true) (hpl : f.caps.testBit Spec.PLUGIN_AUTH = true)
    (h8 : 8 ≤ f.authLen) (hname : f.pluginName = (Spec.ascii "caching_sha2_password")) (hpw : opts.password ≠ [])
    (hu : (0 : UInt8) ∉ opts.username) (hdb : (0 : UInt8) ∉ opts.database)
    (hsz : opts.username.length + opts.database.length < 2 ^ 30) (ok : Spec.OkFields) (hok : ok.InRange)
    (c : Conn) (hc : c.caps = 0) (mid rest : Bytes) (hfl : (Spec.handshakeV10 f).length < 0xffffff)
    (hin : c.inp = Spec.wire [⟨0, Spec.handshakeV10 f⟩] ++ mid)
    (hd : Spec.Delivers mid [Spec.authMoreData [3], Spec.okPacket (Spec.clientCaps opts.database) 0 ok] rest) :
    ∃ c' ps resp, handshake H opts c = .ok () c' ∧ c'.inp = rest ∧ c'.out = c.out ++ Spec.wire ps ∧
      Spec.IsMessage ps ∧ Spec.Numbered 1 ps ∧
      Spec.D.all Spec.D.handshakeResponse41 (Spec.payload ps) = some ⟨Spec.clientCaps opts.database, 0xffffff, 33,
        opts.username, resp, opts.database, (Spec.ascii "caching_sha2_password"), []⟩ ∧
      Spec.cachingAccepts H.sha256 (Spec.stored H.sha256 opts.password) [] resp ∧
      c'.status = ok.status ∧ c'.caps = Spec.clientCaps opts.database ∧ c'.pktNr = 0 := by
  simp only [← cachingName_ascii] at *
  have hsc := cachingSha2_accepted H hH opts.password [] hpw
  have hrl : (scrambleCachingSha2 H opts.password []).length < 251 := by
    unfold Spec.cachingAccepts at hsc
    split at hsc
    · rw [hsc]; simp
    · rw [hsc.1]; norm_num
  obtain ⟨c1, ps, b1, b2, b3, b4, b5, b6, b7⟩ := handshake_sent H opts f hf hsec hpl h8
    (.cachingSha2 [] [] .sendScramble false) (.cachingSha2 opts.password [] .readResult false)
    (scrambleCachingSha2 H opts.password [])
    (by rw [hname]; decide) (by simp [genInitAuthResp, AuthPlugin.setCredential, AuthPlugin.next, hpw])
    hrl hu hdb hsz c hc mid hfl hin
  rw [← b2] at hd
  obtain ⟨c2, g1, g2, g3, g4⟩ := Delivers.recv hd
  have hloop : handshakeLoop H (Spec.clientCaps opts.database) (.cachingSha2 opts.password [] .readResult false) c1
      = handshakeLoop H (Spec.clientCaps opts.database) (.cachingSha2 opts.password [] .complete false) c2 := by
    have hnx : (AuthPlugin.cachingSha2 opts.password [] .readResult false).next H [3]
        = .ok ([], .cachingSha2 opts.password [] .complete false) := by
      simp [AuthPlugin.next, hpw]
    rw [handshakeLoop.eq_def, g1]
    simp only [M.parse_ok (handshakeMessage_more _ _), hnx, List.isEmpty_nil, if_true, M.pure_apply]
    rw [if_pos g4]
  obtain ⟨c', d1, d2, d3, d4, d5, d6⟩ := handshakeLoop_ok H (Spec.clientCaps opts.database)
    (.cachingSha2 opts.password [] .complete false) ok hok c2 [] rest g3
  rw [hname] at b7
  exact ⟨c', ps, _, by rw [b1, hloop]; exact d1, Delivers.nil d2, by rw [d3, g2.out, b3], b5, b6, b7, hsc,
    by rw [d6, if_pos (clientCaps_status _)], by rw [d4, g2.caps, b4], d5⟩

/-- C56: an ERR packet ends the attempt with an error, whatever the method and the state of the exchange. -/
theorem C56_refused (H : Hashes) (caps : Nat) (plugin : AuthPlugin) (code : Nat) (hcode : code < 2 ^ 16) (state msg : Bytes)
    (withState : Bool) (ms : List Bytes) (rest : Bytes) (c : Conn)
    (hd : Spec.Delivers c.inp (Spec.errPacket withState code state msg :: ms) rest) :
    ∃ c', handshakeLoop H caps plugin c = .err .packet c' ∧ c'.out = c.out := by
  obtain ⟨c1, h1, h2, h3, -⟩ := Delivers.recv hd
  have hp : ∃ p, HandshakeMessage.readFrom caps (Spec.errPacket withState code state msg) = .ok (.err p) [] := by
    cases withState with
    | true => exact ⟨_, C16_handshake_err_state_false caps code hcode state msg⟩
    | false =>
      obtain ⟨p, h, -⟩ := (C16_well_formed_recognised caps).2.2.1 code msg hcode
      exact ⟨p, h⟩
  obtain ⟨p, hp⟩ := hp
  refine ⟨c1, ?_, h2.out⟩
  rw [handshakeLoop.eq_def, h1]
  simp only [M.parse_ok hp]

/-- C56: a method the client does not know is an error, and nothing is sent. -/
theorem C56_unknown_method (H : Hashes) (opts : ConnOpts) (f : Spec.HandshakeFields) (hf : f.InRange)
    (h8 : f.caps.testBit Spec.SECURE_CONNECTION = true → 8 ≤ f.authLen)
    (hpl : f.caps.testBit Spec.PLUGIN_AUTH = true) (h1 : f.pluginName ≠ (Spec.ascii "mysql_native_password")) (h2 : f.pluginName ≠ (Spec.ascii "caching_sha2_password"))
    (ms : List Bytes) (rest : Bytes) (c : Conn) (hd : Spec.Delivers c.inp (Spec.handshakeV10 f :: ms) rest) :
    ∃ c', handshake H opts c = .err .custom c' ∧ c'.out = c.out := by
  simp only [← nativeName_ascii, ← cachingName_ascii] at *
  obtain ⟨c1, r1, r2, r3, -⟩ := Delivers.recv hd
  have h17 := C17_initial_handshake_partial f hf h8
  have hn : newAuthPlugin f.pluginName = .error .custom := by
    unfold newAuthPlugin
    rw [if_neg h1, if_neg h2]
  have hm : ∀ (c : Conn), (M.ofExcept (.error .custom) : M AuthPlugin) c = .err .custom c := fun _ => rfl
  unfold handshake
  simp only [M.bind_apply, r1, MR.bind_ok, M.parse_ok h17, insertCap_apply, removeCap_apply, hpl, if_true, hn, hm]
  exact ⟨_, rfl, r2.out⟩

/-- a greeting of a server that uses the native method, with a 20-byte nonce and every flag set -/
def exampleGreeting : Spec.HandshakeFields where
  version := 10
  serverVersion := [56, 46, 48]
  connectionId := 8
  data1 := [1, 2, 3, 4, 5, 6, 7, 8]
  filler := 0
  charset := 33
  status := 2
  caps := 0xc1ffffff
  authLen := 21
  reserved := List.replicate 10 0
  data2 := [9, 10, 11, 12, 13, 14, 15, 16, 17, 18, 19, 20, 0]
  pluginName := nativeName

theorem exampleGreeting_inRange : exampleGreeting.InRange :=
  ⟨by decide +kernel, by decide +kernel, by decide +kernel, by decide +kernel, by decide +kernel, by decide +kernel, by decide +kernel, by decide +kernel, by decide +kernel, by decide +kernel,
    by decide +kernel, by decide +kernel, by decide +kernel⟩

/-- the hypotheses of `C56_native` can be met -/
example : ∃ (c : Conn) (mid : Bytes), c.caps = 0 ∧ exampleGreeting.InRange ∧
    exampleGreeting.caps.testBit Spec.SECURE_CONNECTION = true ∧ exampleGreeting.caps.testBit Spec.PLUGIN_AUTH = true ∧
    exampleGreeting.data1 ++ exampleGreeting.data2 = (List.range' 1 20).map UInt8.ofNat ++ [0] ∧
    (Spec.handshakeV10 exampleGreeting).length < 0xffffff ∧
    c.inp = Spec.wire [⟨0, Spec.handshakeV10 exampleGreeting⟩] ++ mid ∧
    Spec.Delivers mid [Spec.okPacket (Spec.clientCaps [116]) 0 ⟨0, 0, 2, 0, [], []⟩] [] := by
  obtain ⟨mid, h⟩ := delivers_small [Spec.okPacket (Spec.clientCaps [116]) 0 ⟨0, 0, 2, 0, [], []⟩] []
    (by intro m hm; simp only [List.mem_singleton] at hm; subst hm; decide +kernel)
  exact ⟨{ inp := Spec.wire [⟨0, Spec.handshakeV10 exampleGreeting⟩] ++ mid }, mid, rfl, exampleGreeting_inRange,
    by decide +kernel, by decide +kernel, by decide +kernel, by decide +kernel, rfl, h⟩

/-! ### C57 -/

/-- C57, the part that holds: against a server that offers all the flags this client can use, only offered flags are
announced. (Full claim: against every server; see `C57_unoffered_false`.) -/
theorem C57_offered_partial (H : Hashes) (opts : ConnOpts) (f : Spec.HandshakeFields) (hf : f.InRange)
    (hall : ∀ k, (Spec.clientCaps [1]).testBit k = true → f.caps.testBit k = true)
    (h8 : 8 ≤ f.authLen) (plugin plugin' : AuthPlugin) (resp : Bytes) (hnew : newAuthPlugin f.pluginName = .ok plugin)
    (hgen : genInitAuthResp H plugin opts.password (f.data1 ++ f.data2) = .ok (resp, plugin'))
    (hrl : resp.length < 251) (hu : (0 : UInt8) ∉ opts.username) (hdb : (0 : UInt8) ∉ opts.database)
    (hsz : opts.username.length + opts.database.length < 2 ^ 30)
    (c : Conn) (hc : c.caps = 0) (mid : Bytes) (hfl : (Spec.handshakeV10 f).length < 0xffffff)
    (hin : c.inp = Spec.wire [⟨0, Spec.handshakeV10 f⟩] ++ mid) :
    ∃ c' ps r, handshake H opts c = handshakeLoop H r.caps plugin' c' ∧
      c'.out = c.out ++ Spec.wire ps ∧ Spec.D.all Spec.D.handshakeResponse41 (Spec.payload ps) = some r ∧
      ∀ k, r.caps.testBit k = true → f.caps.testBit k = true := by
  obtain ⟨c1, ps, b1, b2, b3, b4, b5, b6, b7⟩ := handshake_sent H opts f hf (hall 15 (by decide)) (hall 19 (by decide))
    h8 plugin plugin' resp hnew hgen hrl hu hdb hsz c hc mid hfl hin
  refine ⟨c1, ps, _, b1, b3, b7, ?_⟩
  intro k hk
  apply hall
  by_cases h : opts.database = []
  · simp only [Spec.clientCaps, h, if_true, Nat.add_zero] at hk
    have hlt : k < 25 := by
      by_contra hge
      have := Nat.testBit_lt_two_pow (x := 2 ^ 0 + 2 ^ 9 + 2 ^ 13 + 2 ^ 15 + 2 ^ 17 + 2 ^ 19 + 2 ^ 21 + 2 ^ 24) (i := k)
        (lt_of_lt_of_le (by norm_num : _ < 2 ^ 25) (Nat.pow_le_pow_right (by norm_num) (by omega)))
      rw [this] at hk; cases hk
    interval_cases k <;> revert hk <;> decide
  · have e : Spec.clientCaps opts.database = Spec.clientCaps [1] := by
      unfold Spec.clientCaps; rw [if_neg h, if_neg (by simp)]
    simpa [e] using hk

/-- C57 fails: a server that does not offer DEPRECATE_EOF (bit 24) still gets it announced; from then on the client
expects no EOF packets, which that server sends. -/
theorem C57_unoffered_false :
    ∃ (f : Spec.HandshakeFields) (c : Conn) (opts : ConnOpts) (c' : Conn) (ps : List Spec.Packet)
      (r : Spec.ResponseFields) (plugin : AuthPlugin), f.InRange ∧ c.caps = 0 ∧
      c.inp = Spec.wire [⟨0, Spec.handshakeV10 f⟩] ∧ f.caps.testBit Spec.DEPRECATE_EOF = false ∧
      handshake realHashes opts c = handshakeLoop realHashes r.caps plugin c' ∧ c'.out = Spec.wire ps ∧
      Spec.D.all Spec.D.handshakeResponse41 (Spec.payload ps) = some r ∧ r.caps.testBit Spec.DEPRECATE_EOF = true := by
  let f : Spec.HandshakeFields := { exampleGreeting with caps := 0xffffff }
  have hf : f.InRange :=
    ⟨by decide +kernel, by decide +kernel, by decide +kernel, by decide +kernel, by decide +kernel, by decide +kernel, by decide +kernel, by decide +kernel, by decide +kernel, by decide +kernel,
      by decide +kernel, by decide +kernel, by decide +kernel⟩
  obtain ⟨c1, ps, b1, b2, b3, b4, b5, b6, b7⟩ := handshake_sent realHashes ⟨[114], [], []⟩ f hf (by decide) (by decide)
    (by decide) (.native []) (.native []) [] (by decide) rfl (by decide) (by decide) (by decide) (by decide)
    { inp := Spec.wire [⟨0, Spec.handshakeV10 f⟩] } rfl [] (by decide +kernel) (by rw [List.append_nil])
  exact ⟨f, _, _, c1, ps, _, _, hf, rfl, rfl, by decide, b1, by rw [b3]; rfl, b7, by decide⟩

/-! ### C58 -/

theorem handshakeMessage_switch (caps : Nat) (name data : Bytes) (h0 : (0 : UInt8) ∉ name)
    (hu : validUtf8 name = true) :
    HandshakeMessage.readFrom caps (Spec.authSwitch name data) = .ok (.switch ⟨0xfe, name, data⟩) [] :=
  (C16_well_formed_recognised caps).2.2.2.1 name data h0 hu

/-- C58 fails while connecting: the request to switch the method makes the client panic, whatever the method. -/
theorem C58_switch_panics_false (H : Hashes) (caps : Nat) (plugin : AuthPlugin) (name data : Bytes)
    (h0 : (0 : UInt8) ∉ name) (hu : validUtf8 name = true) (ms : List Bytes) (rest : Bytes) (c : Conn)
    (hd : Spec.Delivers c.inp (Spec.authSwitch name data :: ms) rest) :
    handshakeLoop H caps plugin c = .panic := by
  obtain ⟨c1, h1, h2, h3, -⟩ := Delivers.recv hd
  rw [handshakeLoop.eq_def, h1]
  simp only [M.parse_ok (handshakeMessage_switch caps name data h0 hu)]

end Mybin
