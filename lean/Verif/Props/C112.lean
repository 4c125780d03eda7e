/-
C112: whether every text can be exchanged in the character set that the client announces.
-/
import Verif.Props.C56_C58
import Verif.Props.C59_C60
import Verif.Props.C92

namespace Mybin

/-- The characters that the character set with the given number can represent; the numbers are those of the collations
(`information_schema.collations`): 33 is `utf8mb3_general_ci`, which has the characters of the basic multilingual plane,
45 and 255 are collations of `utf8mb4`, which has all. Other numbers are not described. -/
def Spec.charsetHas (id : Nat) (c : Char) : Prop := (id = 33 ∧ c.val.toNat < 0x10000) ∨ id = 45 ∨ id = 255

/-- every character of the text can be represented -/
def Spec.Representable (id : Nat) (s : String) : Prop := ∀ c ∈ s.toList, Spec.charsetHas id c

theorem utf8Char_high (c : Char) : (∀ b ∈ String.utf8EncodeChar c, b < 0xf0) ↔ c.val.toNat < 0x10000 := by
  have hc := char_ranges c
  unfold String.utf8EncodeChar
  dsimp only
  generalize c.val.toNat = v at hc ⊢
  have tn : ∀ n : Nat, n < 256 → ((UInt8.ofNat n) < 0xf0 ↔ n < 0xf0) := by
    intro n h
    rw [UInt8.lt_iff_toNat_lt, UInt8.toNat_ofNat_of_lt' h]
    rfl
  split
  · simp only [List.mem_singleton, forall_eq]
    rw [tn _ (by omega)]
    omega
  · split
    · simp only [List.mem_cons, List.not_mem_nil, or_false, forall_eq_or_imp, forall_eq]
      rw [tn _ (by omega), tn _ (by omega)]
      omega
    · split
      · simp only [List.mem_cons, List.not_mem_nil, or_false, forall_eq_or_imp, forall_eq]
        rw [tn _ (by omega), tn _ (by omega), tn _ (by omega)]
        omega
      · simp only [List.mem_cons, List.not_mem_nil, or_false, forall_eq_or_imp, forall_eq]
        rw [tn _ (by omega), tn _ (by omega), tn _ (by omega), tn _ (by omega)]
        omega

/-- C112: the character set that is announced (33) represents exactly the texts without characters of four bytes -/
theorem C112_texts (s : String) : Spec.Representable 33 s ↔ ∀ b ∈ Spec.bytesOf s, b < 0xf0 := by
  have e : Spec.bytesOf s = Spec.utf8 s.toList := by rw [← bytesOf_ofList, String.ofList_toList]
  rw [e, Spec.Representable, Spec.utf8]
  simp only [List.mem_flatMap, forall_exists_index, and_imp]
  constructor
  · intro h b c hc hb
    have := h c hc
    simp only [Spec.charsetHas] at this
    exact (utf8Char_high c).2 (by omega) b hb
  · intro h c hc
    exact Or.inl ⟨rfl, (utf8Char_high c).1 fun b hb => h b c hc hb⟩

/-- C112 fails: whatever character set the server names in its greeting, `utf8mb4` for example, the client announces the one
with the number 33; so there are texts, such as one smiling face, that the server could exchange and this session cannot. -/
theorem C112_login_false (H : Hashes) (hH : H.Sized) (opts : ConnOpts) (f : Spec.HandshakeFields) (hf : f.InRange)
    (hsec : f.caps.testBit Spec.SECURE_CONNECTION = true) (hpl : f.caps.testBit Spec.PLUGIN_AUTH = true)
    (h8 : 8 ≤ f.authLen) (hname : f.pluginName = (Spec.ascii "mysql_native_password")) (nonce : Bytes)
    (hn : f.data1 ++ f.data2 = nonce ++ [0]) (hu : (0 : UInt8) ∉ opts.username) (hdb : (0 : UInt8) ∉ opts.database)
    (hsz : opts.username.length + opts.database.length < 2 ^ 30) (ok : Spec.OkFields) (hok : ok.InRange)
    (c : Conn) (hc : c.caps = 0) (mid rest : Bytes) (hfl : (Spec.handshakeV10 f).length < 0xffffff)
    (hin : c.inp = Spec.wire [⟨0, Spec.handshakeV10 f⟩] ++ mid)
    (hd : Spec.Delivers mid [Spec.okPacket (Spec.clientCaps opts.database) 0 ok] rest) (hcs : f.charset = 255) :
    ∃ c' ps r, handshake H opts c = .ok () c' ∧ c'.out = c.out ++ Spec.wire ps ∧
      Spec.D.all Spec.D.handshakeResponse41 (Spec.payload ps) = some r ∧ r.charset ≠ f.charset ∧
      Spec.Representable f.charset "😀" ∧ ¬ Spec.Representable r.charset "😀" := by
  obtain ⟨c', ps, resp, h1, -, h3, -, -, h6, -⟩ := C56_native H hH opts f hf hsec hpl h8 hname nonce hn hu hdb hsz ok hok c hc
    mid rest hfl hin hd
  refine ⟨c', ps, _, h1, h3, h6, ?_, ?_, ?_⟩
  · rw [hcs]; exact (by decide : 33 ≠ 255)
  · intro ch _
    exact Or.inr (Or.inr hcs)
  · intro h
    have := h '😀' (by simp)
    rcases this with ⟨_, h⟩ | h | h
    · revert h; decide
    · exact absurd h (by decide : ¬ 33 = 45)
    · exact absurd h (by decide : ¬ 33 = 255)

/-- texts on both sides of `C112_texts` -/
example : Spec.Representable 33 "日本" ∧ ¬ Spec.Representable 33 "a😀" := by
  constructor
  · intro c hc
    have : c = '日' ∨ c = '本' := by simpa using hc
    rcases this with rfl | rfl <;> exact Or.inl ⟨rfl, by decide⟩
  · intro h
    have := h '😀' (by simp)
    rcases this with ⟨_, h⟩ | h | h <;> revert h <;> decide

/-- a greeting as in `C112_login_false` -/
example : ({ exampleGreeting with charset := 255 } : Spec.HandshakeFields).InRange := by
  exact ⟨by decide +kernel, by decide +kernel, by decide +kernel, by decide +kernel, by decide +kernel, by decide +kernel,
    by decide +kernel, by decide +kernel, by decide +kernel, by decide +kernel, by decide +kernel, by decide +kernel, by decide +kernel⟩

end Mybin
