/-
C131: a login proves the password for one challenge.
-/
import Verif.Props.C88_login

namespace Mybin

/-! ### specification -/

/-- messages, one for each challenge, each accepted as a proof of the password for it -/
def Spec.ProvesAll (sha1 : Bytes → Bytes) (password : Bytes) (challenges : List Bytes) (sent : Bytes) : Prop :=
  ∃ runs : List (List Spec.Packet), sent = (runs.map Spec.wire).flatten ∧
    List.Forall₂ (fun r n => Spec.IsMessage r ∧ Spec.nativeAccepts sha1 (Spec.stored sha1 password) n (Spec.payload r)) runs
      challenges

/-- a server's further challenges, each a packet of its own with a number it likes -/
def Spec.furtherChallenges (challenges : List (Nat × Bytes)) : Bytes :=
  (challenges.map fun (q, n) => Spec.wire [⟨q, Spec.authMoreData n⟩]).flatten

/-! ### proofs -/

theorem Spec.ProvesAll.cons {sha1 : Bytes → Bytes} {password n : Bytes} {ns : List Bytes} {ps : List Spec.Packet} {sent : Bytes}
    (h1 : Spec.IsMessage ps) (h2 : Spec.nativeAccepts sha1 (Spec.stored sha1 password) n (Spec.payload ps))
    (h : Spec.ProvesAll sha1 password ns sent) : Spec.ProvesAll sha1 password (n :: ns) (Spec.wire ps ++ sent) := by
  obtain ⟨runs, e, hr⟩ := h
  exact ⟨ps :: runs, by rw [e]; simp, List.Forall₂.cons ⟨h1, h2⟩ hr⟩

/-- the client receives a further challenge and makes a proof for it -/
theorem challenge_step (H : Hashes) (hH : H.Sized) (pw : Bytes) (hp : pw ≠ []) (q : Nat) (hq : q < 200) (n : Bytes)
    (hn : n.length < 0xfffffe) (c : Conn) (mid : Bytes) (hin : c.inp = Spec.wire [⟨q, Spec.authMoreData n⟩] ++ mid) :
    ∃ c1 c2 ps, recvMsg c = .ok (Spec.authMoreData n) c1 ∧ c1.caps = c.caps ∧
      sendMsg (scramble411 H pw n) false c1 = .ok () c2 ∧ c2.inp = mid ∧ c2.caps = c.caps ∧
      c2.out = c.out ++ Spec.wire ps ∧ Spec.IsMessage ps ∧ mid.length < c.inp.length ∧
      Spec.nativeAccepts H.sha1 (Spec.stored H.sha1 pw) n (Spec.payload ps) := by
  have hm : Spec.IsMessage [⟨q, Spec.authMoreData n⟩] :=
    ⟨[], _, rfl, by simp, by simp [Spec.authMoreData, Spec.u8]; omega, by simp; omega⟩
  obtain ⟨nr, r1, r2⟩ := C11_recv_message _ hm mid c hin
  have hnr : nr = (q + 1) % 256 := r2 _ rfl
  have hpay : Spec.payload [⟨q, Spec.authMoreData n⟩] = Spec.authMoreData n := by simp [Spec.payload]
  rw [hpay] at r1
  have hacc := scramble411_accepted H hH pw n hp
  have hl : (scramble411 H pw n).length = 20 := by
    unfold Spec.nativeAccepts Spec.stored at hacc
    rw [if_neg hp, if_neg (ne_nil_of_length (n := 19) (hH.sha1 _))] at hacc
    exact hacc.1
  obtain ⟨ps, p1, p2, p3, p4⟩ := C12_sent_packets_partial (scramble411 H pw n) false { c with inp := mid, pktNr := nr } (by
    rw [if_neg (by simp), hl]
    show nr + _ < 255
    norm_num
    omega)
  refine ⟨_, _, ps, r1, rfl, p4, rfl, rfl, rfl, p1, ?_, by rw [p3]; exact hacc⟩
  rw [hin, List.length_append]
  have := wire_pos hm
  omega

theorem handshakeLoop_proves (H : Hashes) (hH : H.Sized) (caps : Nat) (pw : Bytes) (hp : pw ≠ []) (ns : List (Nat × Bytes))
    (hns : ∀ x ∈ ns, x.1 < 200 ∧ x.2.length < 0xfffffe) (c : Conn) (mid : Bytes)
    (hin : c.inp = Spec.furtherChallenges ns ++ mid) :
    ∃ c' sent, handshakeLoop H caps (.native pw) c = handshakeLoop H caps (.native pw) c' ∧ c'.inp = mid ∧
      c'.caps = c.caps ∧ c'.out = c.out ++ sent ∧ Spec.ProvesAll H.sha1 pw (ns.map (·.2)) sent := by
  induction ns generalizing c with
  | nil => exact ⟨c, [], rfl, by simpa [Spec.furtherChallenges] using hin, rfl, by simp, [], rfl, .nil⟩
  | cons x ns ih =>
    obtain ⟨q, n⟩ := x
    obtain ⟨hq, hn⟩ := hns _ List.mem_cons_self
    obtain ⟨c1, c2, ps, a1, a2, a3, a4, a5, a6, a7, a8, a9⟩ := challenge_step H hH pw hp q hq n hn c
      (Spec.furtherChallenges ns ++ mid) (by rw [hin]; simp [Spec.furtherChallenges])
    obtain ⟨c', sent, b1, b2, b3, b4, b5⟩ := ih (fun y hy => hns y (List.mem_cons_of_mem _ hy)) c2 a4
    refine ⟨c', Spec.wire ps ++ sent, ?_, b2, b3.trans a5, by rw [b4, a6, List.append_assoc], .cons a7 a9 b5⟩
    have he : pw.isEmpty = false := by cases pw <;> simp_all
    have hx : (AuthPlugin.native pw).next H n = .ok (scramble411 H pw n, .native pw) := by simp [AuthPlugin.next, he]
    have hr : (scramble411 H pw n).isEmpty = false := by
      have : (scramble411 H pw n).length = 20 := by
        unfold scramble411
        dsimp only
        rw [xorBytes_length _ _ (by rw [hH.sha1, hH.sha1]), hH.sha1]
      cases h : scramble411 H pw n <;> simp_all
    rw [← b1, handshakeLoop.eq_def, a1]
    simp only [M.parse_ok (handshakeMessage_more caps n), hx, hr, Bool.false_eq_true, if_false, a3]
    rw [if_pos (by rw [a4]; exact a8)]

theorem changeUserLoop_proves (H : Hashes) (hH : H.Sized) (pw : Bytes) (hp : pw ≠ []) (ns : List (Nat × Bytes))
    (hns : ∀ x ∈ ns, x.1 < 200 ∧ x.2.length < 0xfffffe) (c : Conn) (mid : Bytes)
    (hin : c.inp = Spec.furtherChallenges ns ++ mid) :
    ∃ c' sent, changeUserLoop H pw (some (.native pw)) c = changeUserLoop H pw (some (.native pw)) c' ∧ c'.inp = mid ∧
      c'.caps = c.caps ∧ c'.out = c.out ++ sent ∧ Spec.ProvesAll H.sha1 pw (ns.map (·.2)) sent := by
  induction ns generalizing c with
  | nil => exact ⟨c, [], rfl, by simpa [Spec.furtherChallenges] using hin, rfl, by simp, [], rfl, .nil⟩
  | cons x ns ih =>
    obtain ⟨q, n⟩ := x
    obtain ⟨hq, hn⟩ := hns _ List.mem_cons_self
    obtain ⟨c1, c2, ps, a1, a2, a3, a4, a5, a6, a7, a8, a9⟩ := challenge_step H hH pw hp q hq n hn c
      (Spec.furtherChallenges ns ++ mid) (by rw [hin]; simp [Spec.furtherChallenges])
    obtain ⟨c', sent, b1, b2, b3, b4, b5⟩ := ih (fun y hy => hns y (List.mem_cons_of_mem _ hy)) c2 a4
    refine ⟨c', Spec.wire ps ++ sent, ?_, b2, b3.trans a5, by rw [b4, a6, List.append_assoc], .cons a7 a9 b5⟩
    have he : pw.isEmpty = false := by cases pw <;> simp_all
    have hx : (AuthPlugin.native pw).next H n = .ok (scramble411 H pw n, .native pw) := by simp [AuthPlugin.next, he]
    have hpr : ComChangeUserResponse.readFrom c1.caps (Spec.authMoreData n) = .ok (.moreData ⟨1, n⟩) [] :=
      (C16_change_user_response c1.caps 1 n).2.1 rfl
    rw [← b1, changeUserLoop.eq_def, a1]
    simp only [M.parse_ok hpr, hx, a3]
    rw [if_pos (by rw [a4]; exact a8)]

/-- the claim fails with mysql_native_password: however many challenges a server sends after its greeting, of whatever
content, the client answers every one of them with a proof of the password for it; and then the login succeeds. -/
theorem C131_login_false (H : Hashes) (hH : H.Sized) (opts : ConnOpts) (hpw : opts.password ≠ []) (f : Spec.HandshakeFields)
    (hf : f.InRange) (hsec : f.caps.testBit Spec.SECURE_CONNECTION = true) (hpl : f.caps.testBit Spec.PLUGIN_AUTH = true)
    (h8 : 8 ≤ f.authLen) (hname : f.pluginName = Spec.ascii "mysql_native_password") (nonce : Bytes)
    (hn : f.data1 ++ f.data2 = nonce ++ [0])
    (hu : (0 : UInt8) ∉ opts.username) (hdb : (0 : UInt8) ∉ opts.database)
    (hsz : opts.username.length + opts.database.length < 2 ^ 30) (ok : Spec.OkFields) (hok : ok.InRange)
    (challenges : List (Nat × Bytes)) (hch : ∀ x ∈ challenges, x.1 < 200 ∧ x.2.length < 0xfffffe)
    (c : Conn) (hc : c.caps = 0) (mid rest : Bytes) (hfl : (Spec.handshakeV10 f).length < 0xffffff)
    (hin : c.inp = Spec.wire [⟨0, Spec.handshakeV10 f⟩] ++ (Spec.furtherChallenges challenges ++ mid))
    (hd : Spec.Delivers mid [Spec.okPacket (Spec.clientCaps opts.database) 0 ok] rest) :
    ∃ c' ps resp sent, handshake H opts c = .ok () c' ∧ c'.inp = rest ∧ c'.out = c.out ++ Spec.wire ps ++ sent ∧
      Spec.IsMessage ps ∧
      Spec.D.all Spec.D.handshakeResponse41 (Spec.payload ps) = some ⟨Spec.clientCaps opts.database, 0xffffff, 33,
        opts.username, resp, opts.database, Spec.ascii "mysql_native_password", []⟩ ∧
      Spec.nativeAccepts H.sha1 (Spec.stored H.sha1 opts.password) nonce resp ∧
      Spec.ProvesAll H.sha1 opts.password (challenges.map (·.2)) sent := by
  simp only [← nativeName_ascii] at *
  have he : opts.password.isEmpty = false := by cases h : opts.password <;> simp_all
  have a2 : genInitAuthResp H (.native []) opts.password (nonce ++ [0])
      = .ok (scramble411 H opts.password nonce, .native opts.password) := by
    unfold genInitAuthResp AuthPlugin.setCredential AuthPlugin.next
    rw [stripNul_append]
    simp [he]
  have a3 := scramble411_accepted H hH opts.password nonce hpw
  have hrl : (scramble411 H opts.password nonce).length < 251 := by
    have a3 := a3
    unfold Spec.nativeAccepts Spec.stored at a3
    rw [if_neg hpw, if_neg (ne_nil_of_length (n := 19) (hH.sha1 _))] at a3
    rw [a3.1]; norm_num
  obtain ⟨c1, ps, b1, b2, b3, b4, b5, b6, b7⟩ := handshake_sent H opts f hf hsec hpl h8 (.native []) (.native opts.password)
    _ (by rw [hname]; decide) (by rw [hn]; exact a2) hrl hu hdb hsz c hc _ hfl hin
  obtain ⟨c2, sent, e1, e2, e3, e4, e5⟩ := handshakeLoop_proves H hH (Spec.clientCaps opts.database) opts.password hpw challenges
    hch c1 mid b2
  obtain ⟨c', d1, d2, d3, -⟩ := handshakeLoop_ok H (Spec.clientCaps opts.database) (.native opts.password) ok hok
    c2 [] rest (by rw [e2]; exact hd)
  rw [hname] at b7
  exact ⟨c', ps, _, sent, by rw [b1, e1]; exact d1, Delivers.nil d2, by rw [d3, e4, b3], b5, b7, a3, e5⟩

/-- a change of the user up to its proof -/
theorem changeUser_passes_native (H : Hashes) (hH : H.Sized) (user password db : Bytes) (attrs : List (Bytes × Bytes))
    (hc : (Step.changeUser user password db attrs).Carried) (hpw : password ≠ []) (nonce : Bytes) (hn : nonce.length < 1000)
    (c : Conn) (mid : Bytes)
    (hin : c.inp = Spec.wire [⟨1, Spec.authSwitch (Spec.ascii "mysql_native_password") (nonce ++ [0])⟩] ++ mid) :
    ∃ c' sent, changeUser H user password db (attrs.map fun (k, v) => ⟨k, v⟩) c
        = changeUserLoop H password (some (.native password)) c' ∧
      c'.inp = mid ∧ c'.caps = c.caps ∧ c'.out = c.out ++ sent ∧
      Spec.AllVoiced H.sha1 sent [(c.caps, .says (.command (Spec.changeUserCmd c.caps user db attrs))),
        (c.caps, .proves (Spec.stored H.sha1 password) nonce)] := by
  obtain ⟨hu, hdb, hk, ht, hk', hsz⟩ := hc
  unfold Spec.changeUserCmd
  simp only [← nativeName_ascii] at *
  obtain ⟨c0, s1, s2, s3, -, s4⟩ := changeUser_start H user password db attrs hu hdb hk ht hk' hsz c
  have hmsg : Spec.IsMessage [⟨1, Spec.authSwitch nativeName (nonce ++ [0])⟩] := ⟨[], _, rfl, by simp, by
      have : nativeName.length = 21 := by decide
      simp [Spec.authSwitch, Spec.nulStr, Spec.length_u8, this]; omega, by simp⟩
  obtain ⟨nr, r1, r2⟩ := C11_recv_message [⟨1, Spec.authSwitch nativeName (nonce ++ [0])⟩] hmsg mid c0 (by rw [s2]; exact hin)
  have hnr : nr = 2 := r2 _ rfl
  have hpay : Spec.payload [⟨1, Spec.authSwitch nativeName (nonce ++ [0])⟩] = Spec.authSwitch nativeName (nonce ++ [0]) := by
    simp [Spec.payload]
  rw [hpay] at r1
  obtain ⟨pl, resp, pl', a1, a2, a3⟩ := C44_native H hH password nonce
  rw [← nativeName_ascii] at a1
  have hrl : resp.length < 251 := by
    unfold Spec.nativeAccepts at a3
    split at a3
    · rw [a3]; simp
    · rw [a3.1]; norm_num
  obtain ⟨ps, p1, p2, p3, p4⟩ := C12_sent_packets_partial resp false { c0 with inp := mid, pktNr := nr } (by
    rw [if_neg (by simp)]
    show nr + _ < 255
    have : resp.length / 0xffffff = 0 := Nat.div_eq_of_lt (by omega)
    omega)
  have hp := changeUserResponse_switch c0.caps nativeName (nonce ++ [0]) (by decide +kernel) (by decide +kernel)
  have hloop : changeUserLoop H password none c0 = changeUserLoop H password (some pl')
      { c0 with inp := mid, out := c0.out ++ Spec.wire ps, pktNr := nr + ps.length } := by
    rw [changeUserLoop.eq_def, r1]
    simp only [M.parse_ok hp, a1, a2, p4]
    rw [if_pos (by
      rw [s2, hin, List.length_append]
      have := wire_pos hmsg
      omega)]
    simp
  obtain ⟨run, q1, q2, q3, q4⟩ := s4
  have he : password.isEmpty = false := by cases h : password <;> simp_all
  have hpl' : pl' = .native password := by
    rw [show newAuthPlugin nativeName = .ok (.native []) by decide] at a1
    cases a1
    unfold genInitAuthResp AuthPlugin.setCredential AuthPlugin.next at a2
    simp only [he, Bool.false_eq_true, if_false, Except.ok.injEq, Prod.mk.injEq] at a2
    exact a2.2.symm
  rw [hpl'] at hloop
  refine ⟨_, Spec.wire run ++ Spec.wire ps, s1.trans hloop, rfl, s3, ?_, [run, ps], by simp, ?_⟩
  · dsimp only
    rw [q1, List.append_assoc]
  · refine .cons ⟨q2, q3, q4⟩ (.cons ⟨p1, by rw [← hnr]; simpa using p2, by rw [p3]; exact a3⟩ .nil)

/-- the same when the user is changed -/
theorem C131_change_user_false (H : Hashes) (hH : H.Sized) (user password db : Bytes) (attrs : List (Bytes × Bytes))
    (hcar : (Step.changeUser user password db attrs).Carried) (hpw : password ≠ []) (nonce : Bytes) (hn : nonce.length < 1000)
    (challenges : List (Nat × Bytes)) (hch : ∀ x ∈ challenges, x.1 < 200 ∧ x.2.length < 0xfffffe)
    (ok : Spec.OkFields) (hok : ok.InRange) (c : Conn) (mid rest : Bytes)
    (hin : c.inp = Spec.wire [⟨1, Spec.authSwitch (Spec.ascii "mysql_native_password") (nonce ++ [0])⟩]
      ++ (Spec.furtherChallenges challenges ++ mid)) (hd : Spec.Delivers mid [Spec.okPacket c.caps 0 ok] rest) :
    ∃ c' first sent, changeUser H user password db (attrs.map fun (k, v) => ⟨k, v⟩) c = .ok () c' ∧ c'.inp = rest ∧
      c'.out = c.out ++ first ++ sent ∧
      Spec.AllVoiced H.sha1 first [(c.caps, .says (.command (Spec.changeUserCmd c.caps user db attrs))),
        (c.caps, .proves (Spec.stored H.sha1 password) nonce)] ∧
      Spec.ProvesAll H.sha1 password (challenges.map (·.2)) sent := by
  obtain ⟨c1, first, a1, a2, a3, a4, a5⟩ := changeUser_passes_native H hH user password db attrs hcar hpw nonce hn c _ hin
  obtain ⟨c2, sent, e1, e2, e3, e4, e5⟩ := changeUserLoop_proves H hH password hpw challenges hch c1 mid a2
  obtain ⟨c', d1, d2, d3⟩ := changeUserLoop_ok H password (some (.native password)) ok hok c2 [] rest
    (by rw [e2, e3, a3]; exact hd)
  exact ⟨c', first, sent, by rw [a1, e1]; exact d1, Delivers.nil d2, by rw [d3.out, e4, a4], a5, e5⟩

/-- the rest of a login, when no proof is left to give -/
theorem handshakeLoop_silent (H : Hashes) (caps : Nat) (pw : Bytes) (pl : AuthPlugin)
    (hpl : HoldsPw pw pl ∧ (pw = [] ∨ ∃ seed stage, stage ≠ .sendScramble ∧ pl = .cachingSha2 pw seed stage false))
    (c c' : Conn) (h : Ends (handshakeLoop H caps pl c) c') : c'.out = c.out := by
  induction hn : c.inp.length using Nat.strong_induction_on generalizing c pl with
  | _ n ih =>
    rw [handshakeLoop.eq_def] at h
    cases hr : recvMsg c with
    | ok msg c1 =>
      have o1 : c1.out = c.out := Quiet.recvMsg c c1 (Or.inl ⟨_, hr⟩)
      rw [hr] at h
      dsimp only at h
      cases hm : M.parse msg (HandshakeMessage.readFrom caps) c1 with
      | ok r c2 =>
        have o2 : c2.out = c.out := by rw [parse_state (Or.inl ⟨_, hm⟩), o1]
        rw [hm] at h
        cases r with
        | ok p => rw [Ends.ok h]; exact o2
        | err p => rw [Ends.err h, o2]
        | switch p => exact (Ends.panic h).elim
        | moreData m =>
          dsimp only at h
          cases hx : pl.next H m.pluginData with
          | error e => rw [hx] at h; rw [Ends.err h, o2]
          | ok q =>
            obtain ⟨resp, pl'⟩ := q
            have key : resp = [] ∧ HoldsPw pw pl' ∧
                (pw = [] ∨ ∃ seed stage, stage ≠ .sendScramble ∧ pl' = .cachingSha2 pw seed stage false) := by
              obtain ⟨h1, h2⟩ := hpl
              by_cases hp : pw = []
              · subst hp
                cases pl with
                | native p =>
                  have h1 : p = [] := h1
                  subst h1
                  cases hx
                  exact ⟨rfl, rfl, Or.inl rfl⟩
                | cachingSha2 p seed stage ssl =>
                  obtain ⟨rfl, rfl⟩ := h1
                  cases hx
                  exact ⟨rfl, ⟨rfl, rfl⟩, Or.inl rfl⟩
              · obtain ⟨seed, stage, hst, rfl⟩ := h2.resolve_left hp
                have e : pw.isEmpty = false := by cases pw <;> simp_all
                cases stage with
                | sendScramble => exact absurd rfl hst
                | readResult =>
                  simp only [AuthPlugin.next, e, Bool.false_eq_true, if_false, AuthPlugin.fullAuth] at hx
                  generalize m.pluginData = input at hx
                  cases input with
                  | nil => cases hx
                  | cons b t =>
                    dsimp only at hx
                    split_ifs at hx with h3 h4
                    cases hx
                    exact ⟨rfl, ⟨rfl, rfl⟩, Or.inr ⟨seed, .complete, by simp, rfl⟩⟩
                | complete => simp [AuthPlugin.next, e, AuthPlugin.fullAuth] at hx
                | fullAuth => simp [AuthPlugin.next, e, AuthPlugin.fullAuth] at hx
            obtain ⟨rfl, k2⟩ := key
            rw [hx] at h
            simp only [List.isEmpty_nil, if_true, M.pure_apply] at h
            split_ifs at h with hlt
            · rw [← o2]
              exact ih _ (hn ▸ hlt) pl' k2 c2 h rfl
            · exact (Ends.hang h).elim
      | err e c2 => rw [hm] at h; rw [Ends.err h, parse_state (Or.inr ⟨_, hm⟩), o1]
      | panic => rw [hm] at h; exact (Ends.panic h).elim
      | hang => rw [hm] at h; exact (Ends.hang h).elim
    | err e c1 => rw [hr] at h; rw [Ends.err h, Quiet.recvMsg c c1 (Or.inr ⟨_, hr⟩)]
    | panic => rw [hr] at h; exact (Ends.panic h).elim
    | hang => rw [hr] at h; exact (Ends.hang h).elim

/-- C131, the part that holds: whatever the server sends, a login with caching_sha2_password, or without a password, says
one message at most: one proof at most, and none without a password. (Full claim: also with mysql_native_password; and the
proof is one for the challenge of the greeting, see C45.) -/
theorem C131_login_partial (H : Hashes) (hH : H.Sized) (opts : ConnOpts) (hu : (0 : UInt8) ∉ opts.username)
    (hdb : (0 : UInt8) ∉ opts.database) (hsz : opts.username.length + opts.database.length < 2 ^ 30) (c c' : Conn)
    (hc : c.caps = 0) (h : Ends (handshake H opts c) c') :
    c'.out = c.out ∨ ∃ (ps : List Spec.Packet) (resp method more : Bytes), Spec.IsMessage ps ∧
      c'.out = c.out ++ Spec.wire ps ++ more ∧
      Spec.D.all Spec.D.handshakeResponse41 (Spec.payload ps) = some ⟨Spec.clientCaps opts.database, 0xffffff, 33,
        opts.username, resp, opts.database, method, []⟩ ∧
      (method = Spec.ascii "mysql_native_password" ∨ method = Spec.ascii "caching_sha2_password") ∧
      Spec.Credential H.sha1 H.sha256 opts.password resp ∧
      (method = Spec.ascii "caching_sha2_password" ∨ opts.password = [] → more = []) := by
  simp only [← nativeName_ascii, ← cachingName_ascii]
  rcases login_split H hH opts hu hdb hsz c c' hc h with h | ⟨ps, resp, method, seed, p, pl', c4, h1, h2, h3, h4, h5, h6, h7⟩
  · exact Or.inl h
  right
  obtain ⟨w1, w2⟩ := newAuthPlugin_holds _ opts.password p h5
  obtain ⟨g1, g2, -⟩ := next_credential H hH opts.password _ _ _ _ w1 h6
  have hmore : ∃ more, c'.out = c4.out ++ more := by
    rcases h7 with rfl | h7
    · exact ⟨[], by simp⟩
    · obtain ⟨runs, e, -⟩ := handshakeLoop_says H hH _ _ pl' g1 c4 c' h7
      exact ⟨_, e⟩
  obtain ⟨more, hm⟩ := hmore
  refine ⟨ps, resp, method, more, h1, by rw [hm, h3], h4, w2, g2, ?_⟩
  intro hcase
  have hsil : c'.out = c4.out := by
    rcases h7 with rfl | h7
    · rfl
    · refine handshakeLoop_silent H _ opts.password pl' ⟨g1, ?_⟩ c4 c' h7
      by_cases hp : opts.password = []
      · exact Or.inl hp
      · right
        have hmt : method = cachingSha2Name := hcase.resolve_right hp
        have e : opts.password.isEmpty = false := by cases h : opts.password <;> simp_all
        rw [hmt, show newAuthPlugin cachingSha2Name = .ok (.cachingSha2 [] [] .sendScramble false) by decide] at h5
        cases h5
        unfold genInitAuthResp AuthPlugin.setCredential AuthPlugin.next at h6
        simp only [e, Bool.false_eq_true, if_false, Except.ok.injEq, Prod.mk.injEq] at h6
        exact ⟨[], .readResult, by simp, h6.2.symm⟩
  rw [hm] at hsil
  simpa using hsil

/-- the hypotheses of `C131_login_false` can be met: three challenges -/
example : ∃ (c : Conn) (mid : Bytes) (challenges : List (Nat × Bytes)), c.caps = 0 ∧ challenges.length = 3 ∧
    (∀ x ∈ challenges, x.1 < 200 ∧ x.2.length < 0xfffffe) ∧ exampleGreeting.InRange ∧
    exampleGreeting.data1 ++ exampleGreeting.data2 = (List.range' 1 20).map UInt8.ofNat ++ [0] ∧
    c.inp = Spec.wire [⟨0, Spec.handshakeV10 exampleGreeting⟩] ++ (Spec.furtherChallenges challenges ++ mid) ∧
    Spec.Delivers mid [Spec.okPacket (Spec.clientCaps [116]) 0 ⟨0, 0, 2, 0, [], []⟩] [] := by
  obtain ⟨mid, h⟩ := delivers_small [Spec.okPacket (Spec.clientCaps [116]) 0 ⟨0, 0, 2, 0, [], []⟩] []
    (by intro m hm; simp only [List.mem_singleton] at hm; subst hm; decide +kernel)
  exact ⟨{ inp := Spec.wire [⟨0, Spec.handshakeV10 exampleGreeting⟩] ++
    (Spec.furtherChallenges [(2, [1, 2, 3]), (4, []), (6, Spec.ascii "any text")] ++ mid) }, mid, _, rfl, rfl,
    by decide +kernel, exampleGreeting_inRange, by decide +kernel, rfl, h⟩

end Mybin
