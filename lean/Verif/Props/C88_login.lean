/-
C88, logging in and changing the user: what is said is the account and proofs of the password, whatever the server does.
-/
import Verif.Props.C88
import Verif.Props.C96_more

namespace Mybin

/-! ### specification -/

/-- what may be put forward for a password: nothing, or what one of the two methods accepts for it, for some challenge -/
def Spec.Credential (sha1 sha256 : Bytes → Bytes) (password given : Bytes) : Prop :=
  given = [] ∨ password ≠ [] ∧
    ((∃ nonce, Spec.nativeAccepts sha1 (Spec.stored sha1 password) nonce given) ∨
      ∃ nonce, Spec.cachingAccepts sha256 (Spec.stored sha256 password) nonce given)

/-- between `before` and `after` whole messages were sent, numbered one by one, and each is as `ok` says -/
def Spec.SendsWhole (ok : List UInt8 → Prop) (before after : List UInt8) : Prop :=
  ∃ runs : List (List Spec.Packet), after = before ++ (runs.map Spec.wire).flatten ∧
    ∀ r ∈ runs, Spec.IsMessage r ∧ (∃ n, Spec.Numbered n r) ∧ ok (Spec.payload r)

/-! ### proofs -/

theorem Spec.SendsWhole.refl (ok : List UInt8 → Prop) (o : Bytes) : Spec.SendsWhole ok o o := ⟨[], by simp, by simp⟩

theorem Spec.SendsWhole.cons {ok : List UInt8 → Prop} {a b d : Bytes} (r : List Spec.Packet) (h1 : Spec.IsMessage r)
    (h2 : ∃ n, Spec.Numbered n r) (h3 : ok (Spec.payload r)) (h4 : b = a ++ Spec.wire r) (h : Spec.SendsWhole ok b d) :
    Spec.SendsWhole ok a d := by
  obtain ⟨runs, e, hr⟩ := h
  refine ⟨r :: runs, by rw [e, h4]; simp, ?_⟩
  intro x hx
  rcases List.mem_cons.1 hx with rfl | hx
  · exact ⟨h1, h2, h3⟩
  · exact hr x hx

/-- a plugin that holds the password and no TLS connection -/
def HoldsPw (pw : Bytes) : AuthPlugin → Prop
  | .native p => p = pw
  | .cachingSha2 p _ _ ssl => p = pw ∧ ssl = false

theorem scramble411_accepted (H : Hashes) (hH : H.Sized) (password nonce : Bytes) (hp : password ≠ []) :
    Spec.nativeAccepts H.sha1 (Spec.stored H.sha1 password) nonce (scramble411 H password nonce) := by
  have hs := hH.sha1
  unfold Spec.nativeAccepts Spec.stored
  rw [if_neg hp, if_neg (ne_nil_of_length (n := 19) (hs _)), spec_xor_eq]
  unfold scramble411
  dsimp only
  refine ⟨by rw [xorBytes_length _ _ (by rw [hs, hs]), hs], ?_⟩
  rw [xorBytes_comm (H.sha1 (nonce ++ _)), xorBytes_cancel _ _ (by rw [hs, hs])]

theorem next_credential (H : Hashes) (hH : H.Sized) (pw input resp : Bytes) (pl pl' : AuthPlugin) (hpl : HoldsPw pw pl)
    (h : pl.next H input = .ok (resp, pl')) :
    HoldsPw pw pl' ∧ Spec.Credential H.sha1 H.sha256 pw resp ∧ resp.length < 251 := by
  have nat : ∀ x, pw ≠ [] → Spec.Credential H.sha1 H.sha256 pw (scramble411 H pw x) ∧ (scramble411 H pw x).length < 251 := by
    intro x hp
    have h := scramble411_accepted H hH pw x hp
    refine ⟨Or.inr ⟨hp, Or.inl ⟨x, h⟩⟩, ?_⟩
    unfold Spec.nativeAccepts Spec.stored at h
    rw [if_neg hp, if_neg (ne_nil_of_length (n := 19) (hH.sha1 _))] at h
    rw [h.1]; norm_num
  have cach : ∀ x, pw ≠ [] →
      Spec.Credential H.sha1 H.sha256 pw (scrambleCachingSha2 H pw x) ∧ (scrambleCachingSha2 H pw x).length < 251 := by
    intro x hp
    have h := cachingSha2_accepted H hH pw x hp
    refine ⟨Or.inr ⟨hp, Or.inr ⟨x, h⟩⟩, ?_⟩
    unfold Spec.cachingAccepts Spec.stored at h
    rw [if_neg hp, if_neg (ne_nil_of_length (n := 31) (hH.sha256 _))] at h
    rw [h.1]; norm_num
  cases pl with
  | native p =>
    have hpl : p = pw := hpl
    subst hpl
    by_cases hp : p = []
    · subst hp
      simp only [AuthPlugin.next, List.isEmpty_nil, if_true, Except.ok.injEq, Prod.mk.injEq] at h
      obtain ⟨rfl, rfl⟩ := h
      exact ⟨rfl, Or.inl rfl, by simp⟩
    · have e : p.isEmpty = false := by cases p <;> simp_all
      simp only [AuthPlugin.next, e, Bool.false_eq_true, if_false, Except.ok.injEq, Prod.mk.injEq] at h
      obtain ⟨rfl, rfl⟩ := h
      exact ⟨rfl, nat _ hp⟩
  | cachingSha2 p seed stage ssl =>
    obtain ⟨rfl, rfl⟩ := hpl
    by_cases hp : p = []
    · subst hp
      simp only [AuthPlugin.next, List.isEmpty_nil, if_true, Except.ok.injEq, Prod.mk.injEq] at h
      obtain ⟨rfl, rfl⟩ := h
      exact ⟨⟨rfl, rfl⟩, Or.inl rfl, by simp⟩
    · have e : p.isEmpty = false := by cases p <;> simp_all
      cases stage with
      | sendScramble =>
        simp only [AuthPlugin.next, e, Bool.false_eq_true, if_false, Except.ok.injEq, Prod.mk.injEq] at h
        obtain ⟨rfl, rfl⟩ := h
        exact ⟨⟨rfl, rfl⟩, cach _ hp⟩
      | readResult =>
        simp only [AuthPlugin.next, e, Bool.false_eq_true, if_false, AuthPlugin.fullAuth] at h
        cases input with
        | nil => cases h
        | cons b t =>
          dsimp only at h
          split_ifs at h with h3 h4
          cases h
          exact ⟨⟨rfl, rfl⟩, Or.inl rfl, by simp⟩
      | complete => simp [AuthPlugin.next, e, AuthPlugin.fullAuth] at h
      | fullAuth => simp [AuthPlugin.next, e, AuthPlugin.fullAuth] at h

theorem newAuthPlugin_holds (name pw : Bytes) (pl : AuthPlugin) (h : newAuthPlugin name = .ok pl) :
    HoldsPw pw (pl.setCredential pw) ∧ (name = nativeName ∨ name = cachingSha2Name) := by
  unfold newAuthPlugin at h
  split_ifs at h with h1 h2
  · cases h; exact ⟨rfl, Or.inl h1⟩
  · cases h; exact ⟨⟨rfl, rfl⟩, Or.inr h2⟩

theorem sendMsg_whole (bs : Bytes) (c c' : Conn) (h : Ends (sendMsg bs false c) c') :
    ∃ ps, Spec.IsMessage ps ∧ (∃ n, Spec.Numbered n ps) ∧ Spec.payload ps = bs ∧ c'.out = c.out ++ Spec.wire ps := by
  obtain ⟨ps, h1, h2, h3, h4⟩ := sendLoop_inv bs c c' (by simpa [sendMsg] using h)
  exact ⟨ps, h1, ⟨_, h2⟩, h3, h4⟩

theorem parse_state {α : Type} {msg : Bytes} {p : P α} {c c' : Conn} (h : Ends (M.parse msg p c) c') : c'.out = c.out :=
  Quiet.parse msg p c c' h

theorem handshakeLoop_says (H : Hashes) (hH : H.Sized) (pw : Bytes) (caps : Nat) (pl : AuthPlugin) (hpl : HoldsPw pw pl)
    (c c' : Conn) (h : Ends (handshakeLoop H caps pl c) c') :
    Spec.SendsWhole (fun p => p ≠ [] ∧ Spec.Credential H.sha1 H.sha256 pw p) c.out c'.out := by
  induction hn : c.inp.length using Nat.strong_induction_on generalizing c pl with
  | _ n ih =>
    rw [handshakeLoop.eq_def] at h
    cases hr : recvMsg c with
    | ok msg c1 =>
      have o1 : c1.out = c.out := Quiet.recvMsg c c1 (Or.inl ⟨_, hr⟩)
      rw [hr] at h
      dsimp only at h
      cases hm : M.parse msg (HandshakeMessage.readFrom caps) c1 with
      | ok r c2 =>
        have o2 : c2.out = c.out := by rw [parse_state (Or.inl ⟨_, hm⟩), o1]
        rw [hm] at h
        cases r with
        | ok p => rw [Ends.ok h]; simp only [o2]; exact .refl _ _
        | err p => rw [Ends.err h, o2]; exact .refl _ _
        | switch p => exact (Ends.panic h).elim
        | moreData m =>
          dsimp only at h
          cases hx : pl.next H m.pluginData with
          | error e => rw [hx] at h; rw [Ends.err h, o2]; exact .refl _ _
          | ok q =>
            obtain ⟨resp, pl'⟩ := q
            obtain ⟨g1, g2, -⟩ := next_credential H hH pw _ _ _ _ hpl hx
            rw [hx] at h
            dsimp only at h
            by_cases he : resp = []
            · subst he
              simp only [List.isEmpty_nil, if_true, M.pure_apply] at h
              split_ifs at h with hlt
              · rw [← o2]
                exact ih _ (hn ▸ hlt) pl' g1 c2 h rfl
              · exact (Ends.hang h).elim
            · have e : resp.isEmpty = false := by cases resp <;> simp_all
              simp only [e, Bool.false_eq_true, if_false] at h
              cases hs : sendMsg resp false c2 with
              | ok u c3 =>
                rw [hs] at h
                dsimp only at h
                obtain ⟨ps, p1, p2, p3, p4⟩ := sendMsg_whole resp c2 c3 (Or.inl ⟨_, hs⟩)
                split_ifs at h with hlt
                · exact .cons ps p1 p2 (by rw [p3]; exact ⟨he, g2⟩) (by rw [p4, o2]) (ih _ (hn ▸ hlt) pl' g1 c3 h rfl)
                · exact (Ends.hang h).elim
              | err e c3 =>
                rw [hs] at h
                obtain ⟨ps, p1, p2, p3, p4⟩ := sendMsg_whole resp c2 c3 (Or.inr ⟨_, hs⟩)
                rw [Ends.err h]
                exact .cons ps p1 p2 (by rw [p3]; exact ⟨he, g2⟩) (by rw [p4, o2]) (.refl _ _)
              | panic => rw [hs] at h; exact (Ends.panic h).elim
              | hang => rw [hs] at h; exact (Ends.hang h).elim
      | err e c2 => rw [hm] at h; rw [Ends.err h, parse_state (Or.inr ⟨_, hm⟩), o1]; exact .refl _ _
      | panic => rw [hm] at h; exact (Ends.panic h).elim
      | hang => rw [hm] at h; exact (Ends.hang h).elim
    | err e c1 => rw [hr] at h; rw [Ends.err h, Quiet.recvMsg c c1 (Or.inr ⟨_, hr⟩)]; exact .refl _ _
    | panic => rw [hr] at h; exact (Ends.panic h).elim
    | hang => rw [hr] at h; exact (Ends.hang h).elim

theorem changeUserLoop_says (H : Hashes) (hH : H.Sized) (pw : Bytes) (pl : Option AuthPlugin)
    (hpl : ∀ p, pl = some p → HoldsPw pw p) (c c' : Conn) (h : Ends (changeUserLoop H pw pl c) c') :
    Spec.SendsWhole (Spec.Credential H.sha1 H.sha256 pw) c.out c'.out := by
  induction hn : c.inp.length using Nat.strong_induction_on generalizing c pl with
  | _ n ih =>
    rw [changeUserLoop.eq_def] at h
    have answer : ∀ (resp : Bytes) (pl' : AuthPlugin) (c2 : Conn), c2.out = c.out → HoldsPw pw pl' →
        Spec.Credential H.sha1 H.sha256 pw resp →
        Ends (match sendMsg resp false c2 with
          | .ok _ c3 => if c3.inp.length < c.inp.length then changeUserLoop H pw (some pl') c3 else .hang
          | .err e c3 => .err e c3
          | .panic => .panic
          | .hang => .hang) c' → Spec.SendsWhole (Spec.Credential H.sha1 H.sha256 pw) c.out c'.out := by
      intro resp pl' c2 o2 g1 g2 h
      cases hs : sendMsg resp false c2 with
      | ok u c3 =>
        rw [hs] at h
        dsimp only at h
        obtain ⟨ps, p1, p2, p3, p4⟩ := sendMsg_whole resp c2 c3 (Or.inl ⟨_, hs⟩)
        split_ifs at h with hlt
        · exact .cons ps p1 p2 (by rw [p3]; exact g2) (by rw [p4, o2])
            (ih _ (hn ▸ hlt) (some pl') (by rintro p ⟨⟩; exact g1) c3 h rfl)
        · exact (Ends.hang h).elim
      | err e c3 =>
        rw [hs] at h
        obtain ⟨ps, p1, p2, p3, p4⟩ := sendMsg_whole resp c2 c3 (Or.inr ⟨_, hs⟩)
        rw [Ends.err h]
        exact .cons ps p1 p2 (by rw [p3]; exact g2) (by rw [p4, o2]) (.refl _ _)
      | panic => rw [hs] at h; exact (Ends.panic h).elim
      | hang => rw [hs] at h; exact (Ends.hang h).elim
    cases hr : recvMsg c with
    | ok msg c1 =>
      have o1 : c1.out = c.out := Quiet.recvMsg c c1 (Or.inl ⟨_, hr⟩)
      rw [hr] at h
      dsimp only at h
      cases hm : M.parse msg (ComChangeUserResponse.readFrom c1.caps) c1 with
      | ok r c2 =>
        have o2 : c2.out = c.out := by rw [parse_state (Or.inl ⟨_, hm⟩), o1]
        rw [hm] at h
        cases r with
        | ok p => rw [Ends.ok h, o2]; exact .refl _ _
        | err p => rw [Ends.err h, o2]; exact .refl _ _
        | switch s =>
          dsimp only at h
          cases ha : newAuthPlugin s.pluginName with
          | error e => rw [ha] at h; rw [Ends.err h, o2]; exact .refl _ _
          | ok p =>
            rw [ha] at h
            dsimp only at h
            cases hx : genInitAuthResp H p pw s.authPluginData with
            | error e => rw [hx] at h; rw [Ends.err h, o2]; exact .refl _ _
            | ok q =>
              obtain ⟨resp, pl'⟩ := q
              rw [hx] at h
              obtain ⟨g1, g2, -⟩ := next_credential H hH pw _ _ _ _ (newAuthPlugin_holds _ pw p ha).1 hx
              exact answer resp pl' c2 o2 g1 g2 h
        | moreData m =>
          cases pl with
          | none => exact (Ends.panic h).elim
          | some p =>
            dsimp only at h
            cases hx : p.next H m.pluginData with
            | error e => rw [hx] at h; rw [Ends.err h, o2]; exact .refl _ _
            | ok q =>
              obtain ⟨resp, pl'⟩ := q
              rw [hx] at h
              obtain ⟨g1, g2, -⟩ := next_credential H hH pw _ _ _ _ (hpl p rfl) hx
              exact answer resp pl' c2 o2 g1 g2 h
      | err e c2 => rw [hm] at h; rw [Ends.err h, parse_state (Or.inr ⟨_, hm⟩), o1]; exact .refl _ _
      | panic => rw [hm] at h; exact (Ends.panic h).elim
      | hang => rw [hm] at h; exact (Ends.hang h).elim
    | err e c1 => rw [hr] at h; rw [Ends.err h, Quiet.recvMsg c c1 (Or.inr ⟨_, hr⟩)]; exact .refl _ _
    | panic => rw [hr] at h; exact (Ends.panic h).elim
    | hang => rw [hr] at h; exact (Ends.hang h).elim

/-- a login up to its first message, and the rest -/
theorem login_split (H : Hashes) (hH : H.Sized) (opts : ConnOpts) (hu : (0 : UInt8) ∉ opts.username)
    (hdb : (0 : UInt8) ∉ opts.database) (hsz : opts.username.length + opts.database.length < 2 ^ 30) (c c' : Conn)
    (hc : c.caps = 0) (h : Ends (handshake H opts c) c') :
    c'.out = c.out ∨ ∃ (ps : List Spec.Packet) (resp method seed : Bytes) (p pl' : AuthPlugin) (c4 : Conn),
      Spec.IsMessage ps ∧ (∃ n, Spec.Numbered n ps) ∧ c4.out = c.out ++ Spec.wire ps ∧
      Spec.D.all Spec.D.handshakeResponse41 (Spec.payload ps) = some ⟨Spec.clientCaps opts.database, 0xffffff, 33,
        opts.username, resp, opts.database, method, []⟩ ∧
      newAuthPlugin method = .ok p ∧ genInitAuthResp H p opts.password seed = .ok (resp, pl') ∧
      (c' = c4 ∨ Ends (handshakeLoop H (Spec.clientCaps opts.database) pl' c4) c') := by
  unfold handshake at h
  rw [M.bind_apply] at h
  cases hr : recvMsg c with
  | ok msg c1 =>
    have o1 : c1.out = c.out := Quiet.recvMsg c c1 (Or.inl ⟨_, hr⟩)
    have k1 : c1.caps = 0 := by
      unfold recvMsg at hr
      split at hr
      · cases hr; exact hc
      · cases hr
    rw [hr, MR.bind_ok, M.bind_apply] at h
    cases hm : M.parse msg InitialHandshake.readFrom c1 with
    | ok hs c2 =>
      have e2 : c2 = c1 := by
        unfold M.parse at hm
        split at hm <;> cases hm
        rfl
      subst e2
      rw [hm, MR.bind_ok] at h
      simp only [M.bind_apply, MR.bind_ok, insertCap_apply, removeCap_apply, k1] at h
      cases ha : newAuthPlugin hs.authPluginName with
      | error e => rw [ha] at h; exact Or.inl (by rw [Ends.err h]; exact o1)
      | ok p =>
        simp only [ha, M.ofExcept_ok, MR.bind_ok] at h
        obtain ⟨w1, w2⟩ := newAuthPlugin_holds _ opts.password p ha
        cases hx : genInitAuthResp H p opts.password (hs.authPluginData1 ++ hs.authPluginData2) with
        | error e => rw [hx] at h; exact Or.inl (by rw [Ends.err h]; exact o1)
        | ok q =>
          obtain ⟨resp, pl'⟩ := q
          obtain ⟨g1, g2, g3⟩ := next_credential H hH opts.password _ _ _ _ w1 hx
          simp only [hx, M.bind_apply, M.ofExcept_ok, MR.bind_ok] at h
          have hnz : (0 : UInt8) ∉ hs.authPluginName ∧ hs.authPluginName.length < 2 ^ 30 := by
            rcases w2 with e | e <;> rw [e] <;> exact ⟨by decide +kernel, by decide +kernel⟩
          obtain ⟨e, e1, e2, e3⟩ := response_read opts resp hs.authPluginName hu hdb hnz.1 g3 (by omega)
          have key : ∃ c3 : Conn, c3.out = c.out ∧ Ends (((sendMsg e false) c3).bind
              (fun _ => handshakeLoop H (Spec.clientCaps opts.database) pl')) c' := by
            refine ⟨{ c2 with caps := Spec.clientCaps opts.database }, o1, ?_⟩
            rw [← e1]
            by_cases hd : opts.database = []
            · have ee : opts.database.isEmpty = true := by rw [hd]; rfl
              simp only [ee, if_true, M.pure_apply, MR.bind_ok, getCaps_apply, hd] at h ⊢
              exact h
            · have ee : opts.database.isEmpty = false := by cases h : opts.database <;> simp_all
              simp only [ee, Bool.false_eq_true, if_false, insertCap_apply, MR.bind_ok, getCaps_apply] at h
              have : Spec.clientCaps opts.database = Spec.clientCaps [1] := by
                unfold Spec.clientCaps; rw [if_neg hd, if_neg (by simp)]
              rw [this]
              exact h
          obtain ⟨c3, o3, h⟩ := key
          right
          cases hs' : sendMsg e false c3 with
          | ok u c4 =>
            obtain ⟨ps, p1, p2, p3, p4⟩ := sendMsg_whole e c3 c4 (Or.inl ⟨_, hs'⟩)
            rw [hs'] at h
            have h : Ends (handshakeLoop H (Spec.clientCaps opts.database) pl' c4) c' := h
            exact ⟨ps, resp, hs.authPluginName, _, p, pl', c4, p1, p2, by rw [p4, o3], by rw [p3]; exact e3, ha, hx, Or.inr h⟩
          | err x c4 =>
            obtain ⟨ps, p1, p2, p3, p4⟩ := sendMsg_whole e c3 c4 (Or.inr ⟨_, hs'⟩)
            rw [hs'] at h
            exact ⟨ps, resp, hs.authPluginName, _, p, pl', c4, p1, p2, by rw [p4, o3], by rw [p3]; exact e3, ha, hx,
              Or.inl (Ends.err h)⟩
          | panic => rw [hs'] at h; exact (Ends.panic h).elim
          | hang => rw [hs'] at h; exact (Ends.hang h).elim
    | err e c2 =>
      rw [hm] at h
      exact Or.inl (by rw [Ends.err h, parse_state (Or.inr ⟨_, hm⟩), o1])
    | panic => rw [hm] at h; exact (Ends.panic h).elim
    | hang => rw [hm] at h; exact (Ends.hang h).elim
  | err e c1 =>
    rw [hr] at h
    exact Or.inl (by rw [Ends.err h, Quiet.recvMsg c c1 (Or.inr ⟨_, hr⟩)])
  | panic => rw [hr] at h; exact (Ends.panic h).elim
  | hang => rw [hr] at h; exact (Ends.hang h).elim

/-- C88, logging in: whatever bytes the server sends, a login that returns has said nothing, or it has said one whole
message, in which a server reads this user, this database, one of the two methods, and nothing of the password but an empty
answer or a proof; and after it nothing but whole messages that are such proofs. -/
theorem C88_login (H : Hashes) (hH : H.Sized) (opts : ConnOpts) (hu : (0 : UInt8) ∉ opts.username)
    (hdb : (0 : UInt8) ∉ opts.database) (hsz : opts.username.length + opts.database.length < 2 ^ 30) (c c' : Conn)
    (hc : c.caps = 0) (h : Ends (handshake H opts c) c') :
    c'.out = c.out ∨ ∃ (ps : List Spec.Packet) (resp method mid : Bytes), Spec.IsMessage ps ∧ (∃ n, Spec.Numbered n ps) ∧
      mid = c.out ++ Spec.wire ps ∧
      Spec.D.all Spec.D.handshakeResponse41 (Spec.payload ps) = some ⟨Spec.clientCaps opts.database, 0xffffff, 33,
        opts.username, resp, opts.database, method, []⟩ ∧
      (method = Spec.ascii "mysql_native_password" ∨ method = Spec.ascii "caching_sha2_password") ∧
      Spec.Credential H.sha1 H.sha256 opts.password resp ∧
      Spec.SendsWhole (fun p => p ≠ [] ∧ Spec.Credential H.sha1 H.sha256 opts.password p) mid c'.out := by
  simp only [← nativeName_ascii, ← cachingName_ascii]
  rcases login_split H hH opts hu hdb hsz c c' hc h with h | ⟨ps, resp, method, seed, p, pl', c4, h1, h2, h3, h4, h5, h6, h7⟩
  · exact Or.inl h
  · obtain ⟨w1, w2⟩ := newAuthPlugin_holds _ opts.password p h5
    obtain ⟨g1, g2, -⟩ := next_credential H hH opts.password _ _ _ _ w1 h6
    refine Or.inr ⟨ps, resp, method, c4.out, h1, h2, h3, h4, w2, g2, ?_⟩
    rcases h7 with rfl | h7
    · exact .refl _ _
    · exact handshakeLoop_says H hH _ _ pl' g1 c4 c' h7

/-- C88, changing the user: whatever bytes the server sends, a call that returns has said the command, once and whole, and
after it nothing but whole messages that are empty or proofs of the password. -/
theorem C88_change_user (H : Hashes) (hH : H.Sized) (user password db : Bytes) (attrs : List (Bytes × Bytes))
    (hcar : (Step.changeUser user password db attrs).Carried) (c c' : Conn)
    (h : Ends (changeUser H user password db (attrs.map fun (k, v) => ⟨k, v⟩) c) c') :
    ∃ mid, Spec.Heard c.caps c.out mid [.command (Spec.changeUserCmd c.caps user db attrs)] ∧
      Spec.SendsWhole (Spec.Credential H.sha1 H.sha256 password) mid c'.out := by
  obtain ⟨hu, hdb, hk, ht, hk', hsz⟩ := hcar
  obtain ⟨c0, s1, s2, s3, -, s4⟩ := changeUser_start H user password db attrs hu hdb hk ht hk' hsz c
  rw [s1] at h
  refine ⟨c0.out, ?_, changeUserLoop_says H hH password none (by simp) c0 c' h⟩
  obtain ⟨run, q1, q2, q3, q4⟩ := s4
  unfold Spec.changeUserCmd
  rw [← nativeName_ascii]
  exact ⟨[run], by simpa using ⟨q2, q3⟩, by rw [q1]; simp, by simpa [Spec.Hears] using q4⟩

/-- the hypotheses of `C88_login` can be met by a login that says something -/
example : ∃ c c' : Conn, c.caps = 0 ∧ c'.out ≠ c.out ∧
    Ends (handshake realHashes ⟨Spec.ascii "root", Spec.ascii "pw", []⟩ c) c' := by
  obtain ⟨mid, hd⟩ := delivers_small [Spec.okPacket (Spec.clientCaps []) 0 ⟨0, 0, 2, 0, [], []⟩] []
    (by intro m hm; simp only [List.mem_singleton] at hm; subst hm; decide +kernel)
  obtain ⟨c', ps, resp, h1, -, h2, h3, -⟩ := C56_native realHashes realHashes_sized
    ⟨Spec.ascii "root", Spec.ascii "pw", []⟩ exampleGreeting exampleGreeting_inRange
    (by decide +kernel) (by decide +kernel) (by decide +kernel) (by decide +kernel) ((List.range' 1 20).map UInt8.ofNat)
    (by decide +kernel) (by decide +kernel) (by decide +kernel) (by decide +kernel) ⟨0, 0, 2, 0, [], []⟩
    (by constructor <;> norm_num) { inp := Spec.wire [⟨0, Spec.handshakeV10 exampleGreeting⟩] ++ mid } rfl mid []
    (by decide +kernel) rfl hd
  refine ⟨_, c', rfl, ?_, Or.inl ⟨_, h1⟩⟩
  rw [h2]
  intro e
  have := congrArg List.length e
  rw [List.length_append] at this
  have := wire_pos h3
  omega

/-- and those of `C88_change_user`, with a server that breaks off at once -/
example : ∃ c c' : Conn, (Step.changeUser (Spec.ascii "u") (Spec.ascii "pw") (Spec.ascii "db") []).Carried ∧
    Ends (changeUser realHashes (Spec.ascii "u") (Spec.ascii "pw") (Spec.ascii "db") [] c) c' := by
  refine ⟨⟨[], [], 0, 0, 0⟩, ?_⟩
  have hcar : (Step.changeUser (Spec.ascii "u") (Spec.ascii "pw") (Spec.ascii "db") []).Carried :=
    ⟨by decide +kernel, by decide +kernel, by simp, by decide +kernel, by simp, by decide +kernel⟩
  have ⟨hu, hdb, hk, ht, hk', hsz⟩ := hcar
  obtain ⟨c0, s1, s2, -⟩ := changeUser_start realHashes (Spec.ascii "u") (Spec.ascii "pw") (Spec.ascii "db") [] hu hdb hk ht hk' hsz
    ⟨[], [], 0, 0, 0⟩
  have : recvMsg c0 = .err .io { c0 with inp := [] } := by
    unfold recvMsg
    rw [s2]
    dsimp only
    rw [show recvLoop [] [] c0.pktNr = .error c0.pktNr by rw [recvLoop]; simp]
  exact ⟨_, hcar, Or.inr ⟨.io, by rw [show ([] : List ConnectAttr) = ([] : List (Bytes × Bytes)).map (fun (k, v) => ⟨k, v⟩) from rfl, s1, changeUserLoop.eq_def, this]⟩⟩

end Mybin
