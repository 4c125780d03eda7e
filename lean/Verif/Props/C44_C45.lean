/-
C44: mysql_native_password. C45: caching_sha2_password.
-/
import Verif.Model.Auth
import Verif.Spec.Auth
import Verif.Spec.Sha
import Verif.Spec.Sql
import Mathlib.Data.List.Basic

namespace Mybin

theorem spec_xor_eq (a b : Bytes) : Spec.xor a b = xorBytes a b := by
  induction a generalizing b with
  | nil => rfl
  | cons x a ih =>
    cases b with
    | nil => rfl
    | cons y b => simp [Spec.xor, xorBytes, ih]

theorem xorBytes_length (a b : Bytes) (h : a.length = b.length) : (xorBytes a b).length = a.length := by
  simp [xorBytes, h]

theorem u8_xor_cancel (x y : UInt8) : (x ^^^ y) ^^^ y = x := by
  rw [UInt8.xor_assoc, UInt8.xor_self, UInt8.xor_zero]

theorem xorBytes_comm (a b : Bytes) : xorBytes a b = xorBytes b a := by
  induction a generalizing b with
  | nil => cases b <;> rfl
  | cons x a ih =>
    cases b with
    | nil => rfl
    | cons y b =>
      have := ih b
      simp only [xorBytes, List.zipWith_cons_cons] at this ⊢
      rw [this, UInt8.xor_comm]

theorem xorBytes_cancel (a b : Bytes) (h : a.length = b.length) : xorBytes (xorBytes a b) b = a := by
  induction a generalizing b with
  | nil => rfl
  | cons x a ih =>
    cases b with
    | nil => cases h
    | cons y b =>
      have := ih b (by simpa using h)
      simp only [xorBytes, List.zipWith_cons_cons] at this ⊢
      rw [this, u8_xor_cancel]

theorem xorBytes_left_inj (a b c : Bytes) (h1 : a.length = b.length) (h2 : a.length = c.length)
    (h : xorBytes a b = xorBytes a c) : b = c := by
  have e1 := xorBytes_cancel b a h1.symm
  have e2 := xorBytes_cancel c a h2.symm
  rw [← e1, ← e2, xorBytes_comm b a, xorBytes_comm c a, h]

theorem stripNul_append (nonce : Bytes) : stripNul (nonce ++ [0]) = nonce := by
  unfold stripNul
  simp

/-- the digests have their standard sizes -/
structure Hashes.Sized (H : Hashes) : Prop where
  sha1 : ∀ m, (H.sha1 m).length = 20
  sha256 : ∀ m, (H.sha256 m).length = 32

/-- SHA-1 and SHA-256 -/
def realHashes : Hashes := ⟨Spec.Sha.sha1, Spec.Sha.sha256⟩

theorem realHashes_sized : realHashes.Sized := ⟨Spec.Sha.sha1_length, Spec.Sha.sha256_length⟩

theorem ne_nil_of_length {n : Nat} {l : Bytes} (h : l.length = n + 1) : l ≠ [] := by
  rintro rfl; cases h

theorem nativeName_ascii : nativeName = Spec.ascii "mysql_native_password" := by decide +kernel
theorem cachingName_ascii : cachingSha2Name = Spec.ascii "caching_sha2_password" := by decide +kernel

/-! ### C44 -/

/-- C44: for every password and nonce (sent by the server with a NUL byte at the end), the response of the native
plugin is accepted by the server, which knows only the hash of the hash of the password. The plugin is the one the
client creates for this method. -/
theorem C44_native (H : Hashes) (hH : H.Sized) (password nonce : Bytes) :
    ∃ plugin resp plugin', newAuthPlugin (Spec.ascii "mysql_native_password") = .ok plugin ∧
      genInitAuthResp H plugin password (nonce ++ [0]) = .ok (resp, plugin') ∧
      Spec.nativeAccepts H.sha1 (Spec.stored H.sha1 password) nonce resp := by
  simp only [← nativeName_ascii] at *
  refine ⟨.native [], ?_⟩
  unfold genInitAuthResp AuthPlugin.setCredential AuthPlugin.next
  rw [stripNul_append]
  by_cases hp : password = []
  · subst hp
    exact ⟨[], _, by decide, rfl, rfl⟩
  · have he : password.isEmpty = false := by cases password <;> simp_all
    refine ⟨scramble411 H password nonce, .native password, by decide, by simp [he], ?_⟩
    have hs := hH.sha1
    unfold Spec.nativeAccepts Spec.stored
    rw [if_neg hp, if_neg (ne_nil_of_length (n := 19) (hs _)), spec_xor_eq]
    have hl : (scramble411 H password nonce).length = 20 := by
      unfold scramble411
      dsimp only
      rw [xorBytes_length _ _ (by rw [hs, hs]), hs]
    refine ⟨hl, ?_⟩
    unfold scramble411
    dsimp only
    rw [xorBytes_comm (H.sha1 (nonce ++ _)), xorBytes_cancel _ _ (by rw [hs, hs])]

/-- C44: a nonce sent without the NUL byte is used as it is (if its last byte is not NUL). -/
theorem C44_native_bare (H : Hashes) (hH : H.Sized) (password nonce : Bytes) (hn : nonce.getLast? ≠ some 0) :
    ∃ plugin resp plugin', newAuthPlugin (Spec.ascii "mysql_native_password") = .ok plugin ∧
      genInitAuthResp H plugin password nonce = .ok (resp, plugin') ∧
      Spec.nativeAccepts H.sha1 (Spec.stored H.sha1 password) nonce resp := by
  simp only [← nativeName_ascii] at *
  obtain ⟨pl, resp, pl', h1, h2, h3⟩ := C44_native H hH password nonce
  refine ⟨pl, resp, pl', h1, ?_, h3⟩
  unfold genInitAuthResp at h2 ⊢
  rw [stripNul_append] at h2
  rw [← h2]
  unfold stripNul
  rw [if_neg hn]

/-- C44: the response uses a password only through its hash: two passwords with the same SHA-1 give the same response,
for every nonce. -/
theorem C44_hash_only (H : Hashes) (p q seed : Bytes) (hp : p ≠ []) (hq : q ≠ []) (h : H.sha1 p = H.sha1 q) :
    ((AuthPlugin.native p).next H seed).map (·.1) = ((AuthPlugin.native q).next H seed).map (·.1) := by
  have e1 : p.isEmpty = false := by cases p <;> simp_all
  have e2 : q.isEmpty = false := by cases q <;> simp_all
  simp [AuthPlugin.next, e1, e2, Except.map, scramble411, h]

/-- with SHA-1 itself: the response for `secret` and a 20-byte nonce is accepted for `secret` and rejected for `Secret` -/
example : realHashes.Sized ∧
    Spec.nativeAccepts Spec.Sha.sha1 (Spec.stored Spec.Sha.sha1 [115, 101, 99, 114, 101, 116])
      (List.range' 1 20 |>.map UInt8.ofNat)
      (scramble411 realHashes [115, 101, 99, 114, 101, 116] (List.range' 1 20 |>.map UInt8.ofNat)) ∧
    ¬ Spec.nativeAccepts Spec.Sha.sha1 (Spec.stored Spec.Sha.sha1 [83, 101, 99, 114, 101, 116])
      (List.range' 1 20 |>.map UInt8.ofNat)
      (scramble411 realHashes [115, 101, 99, 114, 101, 116] (List.range' 1 20 |>.map UInt8.ofNat)) :=
  ⟨realHashes_sized, by decide +kernel, by decide +kernel⟩

/-! ### C45 -/

theorem cachingSha2_accepted (H : Hashes) (hH : H.Sized) (password nonce : Bytes) (hp : password ≠ []) :
    Spec.cachingAccepts H.sha256 (Spec.stored H.sha256 password) nonce
      (scrambleCachingSha2 H password nonce) := by
  have hs := hH.sha256
  unfold Spec.cachingAccepts Spec.stored
  rw [if_neg hp, if_neg (ne_nil_of_length (n := 31) (hs _)), spec_xor_eq]
  unfold scrambleCachingSha2
  dsimp only
  refine ⟨by rw [xorBytes_length _ _ (by rw [hs, hs]), hs], ?_⟩
  rw [xorBytes_cancel _ _ (by rw [hs, hs])]

/-- C45, the scramble: if the plugin holds the server's nonce, its first response is accepted. (Full claim: the plugin
holds the nonce the server sent. It never does, see `C45_nonce_ignored_false`.) -/
theorem C45_scramble_partial (H : Hashes) (hH : H.Sized) (password nonce input : Bytes) (ssl : Bool) :
    ∃ resp plugin', (AuthPlugin.cachingSha2 password nonce .sendScramble ssl).next H input = .ok (resp, plugin') ∧
      Spec.cachingAccepts H.sha256 (Spec.stored H.sha256 password) nonce resp := by
  by_cases hp : password = []
  · subst hp
    exact ⟨[], _, rfl, rfl⟩
  · exact ⟨_, .cachingSha2 password nonce .readResult ssl, by simp [AuthPlugin.next, hp], cachingSha2_accepted H hH password nonce hp⟩

/-- C45, the client: the response to every server nonce is the one for the empty nonce; with an empty password it is
empty, as it should be. -/
theorem C45_response_partial (H : Hashes) (hH : H.Sized) (password seed : Bytes) :
    ∃ plugin resp plugin', newAuthPlugin (Spec.ascii "caching_sha2_password") = .ok plugin ∧
      genInitAuthResp H plugin password seed = .ok (resp, plugin') ∧
      Spec.cachingAccepts H.sha256 (Spec.stored H.sha256 password) [] resp ∧ (password = [] → resp = []) := by
  simp only [← cachingName_ascii] at *
  obtain ⟨resp, pl', h1, h2⟩ := C45_scramble_partial H hH password [] (stripNul seed) false
  refine ⟨.cachingSha2 [] [] .sendScramble false, resp, pl', by decide, h1, h2, ?_⟩
  rintro rfl
  have e : (AuthPlugin.cachingSha2 [] [] .sendScramble false).next H (stripNul seed)
      = .ok ([], .cachingSha2 [] [] .sendScramble false) := rfl
  rw [e] at h1
  cases h1
  rfl

/-- C45 fails: the response does not depend on the nonce at all, so an eavesdropper can replay it. -/
theorem C45_nonce_ignored_false (H : Hashes) (plugin : AuthPlugin) (password seed seed' : Bytes)
    (h : newAuthPlugin (Spec.ascii "caching_sha2_password") = .ok plugin) :
    genInitAuthResp H plugin password seed = genInitAuthResp H plugin password seed' := by
  simp only [← cachingName_ascii] at *
  have : newAuthPlugin cachingSha2Name = .ok (.cachingSha2 [] [] .sendScramble false) := by decide
  rw [this] at h
  injection h with h
  subst h
  rfl

/-- C45 fails: a server that accepts the response to a nonce has found a second preimage of the stored hash or a
collision between the stored hash with and without the nonce. -/
theorem C45_rejected_false (H : Hashes) (hH : H.Sized) (plugin plugin' : AuthPlugin) (password nonce resp : Bytes)
    (hp : password ≠ []) (h1 : newAuthPlugin (Spec.ascii "caching_sha2_password") = .ok plugin)
    (h2 : genInitAuthResp H plugin password (nonce ++ [0]) = .ok (resp, plugin'))
    (h3 : Spec.cachingAccepts H.sha256 (Spec.stored H.sha256 password) nonce resp) :
    (∃ x, x ≠ H.sha256 password ∧ H.sha256 x = Spec.stored H.sha256 password) ∨
    H.sha256 (Spec.stored H.sha256 password ++ nonce) = H.sha256 (Spec.stored H.sha256 password) := by
  simp only [← cachingName_ascii] at *
  have hs := hH.sha256
  have hpl : newAuthPlugin cachingSha2Name = .ok (.cachingSha2 [] [] .sendScramble false) := by decide
  rw [hpl] at h1
  injection h1 with h1
  subst h1
  have h4 : genInitAuthResp H (.cachingSha2 [] [] .sendScramble false) password (nonce ++ [0])
      = .ok (scrambleCachingSha2 H password [], .cachingSha2 password [] .readResult false) := by
    simp [genInitAuthResp, AuthPlugin.setCredential, AuthPlugin.next, hp]
  rw [h4] at h2
  injection h2 with h2
  injection h2 with h2 _
  subst h2
  unfold Spec.cachingAccepts at h3
  have hst : Spec.stored H.sha256 password = H.sha256 (H.sha256 password) := by rw [Spec.stored, if_neg hp]
  rw [hst] at h3 ⊢
  rw [if_neg (ne_nil_of_length (n := 31) (hs _)), spec_xor_eq] at h3
  by_cases hx : xorBytes (scrambleCachingSha2 H password [])
      (H.sha256 (H.sha256 (H.sha256 password) ++ nonce)) = H.sha256 password
  · right
    have hc := congrArg (fun x => xorBytes x (H.sha256 (H.sha256 (H.sha256 password) ++ nonce))) hx
    rw [xorBytes_cancel _ _ (by rw [h3.1, hs])] at hc
    unfold scrambleCachingSha2 at hc
    dsimp only at hc
    rw [List.append_nil] at hc
    exact (xorBytes_left_inj _ _ _ (by rw [hs, hs]) (by rw [hs, hs]) hc).symm
  · exact Or.inl ⟨_, hx, h3.2⟩

/-- C45 fails with SHA-256 itself: the response for `secret` is rejected for the nonce 1, 2, ..., 20. -/
theorem C45_false :
    ∃ plugin resp plugin', newAuthPlugin (Spec.ascii "caching_sha2_password") = .ok plugin ∧
      genInitAuthResp realHashes plugin [115, 101, 99, 114, 101, 116]
        ((List.range' 1 20 |>.map UInt8.ofNat) ++ [0]) = .ok (resp, plugin') ∧
      ¬ Spec.cachingAccepts Spec.Sha.sha256 (Spec.stored Spec.Sha.sha256 [115, 101, 99, 114, 101, 116])
        (List.range' 1 20 |>.map UInt8.ofNat) resp :=
  ⟨.cachingSha2 [] [] .sendScramble false, scrambleCachingSha2 realHashes [115, 101, 99, 114, 101, 116] [],
    .cachingSha2 [115, 101, 99, 114, 101, 116] [] .readResult false, by decide, rfl, by decide +kernel⟩

/-- the server's answers to the scramble: 3 ends the exchange with nothing to send; 4 (full authentication) is refused
without encryption; the password itself is sent only over TLS, which the client never sets up. -/
theorem C45_answers (H : Hashes) (password seed : Bytes) (hp : password ≠ []) (ssl : Bool) (more : Bytes) :
    ((AuthPlugin.cachingSha2 password seed .readResult ssl).next H (3 :: more)).map (·.1) = .ok [] ∧
    ((AuthPlugin.cachingSha2 password seed .readResult false).next H (4 :: more)).map (·.1) = .error .custom ∧
    ((AuthPlugin.cachingSha2 password seed .readResult true).next H (4 :: more)).map (·.1)
      = .ok (password ++ [0]) := by
  have e1 : password.isEmpty = false := by cases password <;> simp_all
  refine ⟨?_, ?_, ?_⟩ <;> simp [AuthPlugin.next, e1, Except.map, AuthPlugin.fullAuth]

end Mybin
