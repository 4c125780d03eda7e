/-
C19, exactly: which COM_FIELD_LIST, COM_TABLE_DUMP, COM_REGISTER_SLAVE and COM_CHANGE_USER packets the
server reads as the command that was meant.
-/
import Verif.Props.C19_C21

namespace Mybin

theorem dbind_inv {α β : Type} {x : Spec.D α} {f : α → Spec.D β} {bs t : Bytes} {b : β}
    (h : (x >>= f) bs = some (b, t)) : ∃ a s, x bs = some (a, s) ∧ f a s = some (b, t) := by
  change Spec.D.bind x f bs = _ at h
  unfold Spec.D.bind at h
  cases hx : x bs with
  | none => rw [hx] at h; cases h
  | some p => obtain ⟨a, s⟩ := p; rw [hx] at h; exact ⟨a, s, rfl, h⟩

theorem dpure_inv {α : Type} {a b : α} {s t : Bytes} (h : (pure a : Spec.D α) s = some (b, t)) :
    a = b ∧ s = t := by
  change some (a, s) = some (b, t) at h
  simpa using h

theorem shortStr_short {bs s t : Bytes} (h : Spec.D.shortStr bs = some (s, t)) : s.length < 256 := by
  unfold Spec.D.shortStr at h
  obtain ⟨n, u, h1, h2⟩ := dbind_inv h
  have hn : n < 256 := by
    cases bs with
    | nil => cases h1
    | cons b bs =>
      unfold Spec.D.u8 at h1
      simp only [Option.some.injEq, Prod.mk.injEq] at h1
      have := b.toNat_lt
      omega
  unfold Spec.D.bytes at h2
  by_cases hl : n ≤ u.length
  · rw [if_pos hl] at h2
    simp only [Option.some.injEq, Prod.mk.injEq] at h2
    rw [← h2.1, List.length_take]
    omega
  · rw [if_neg hl] at h2; cases h2

theorem dnulStr_no_nul {bs s t : Bytes} (h : Spec.D.nulStr bs = some (s, t)) : (0 : UInt8) ∉ s := by
  unfold Spec.D.nulStr at h
  by_cases h0 : (0 : UInt8) ∈ bs
  · rw [if_pos h0] at h
    simp only [Option.some.injEq, Prod.mk.injEq] at h
    rw [← h.1]
    intro hm
    have := List.all_takeWhile (p := fun b : UInt8 => b != 0) (l := bs)
    rw [List.all_eq_true] at this
    have := this 0 hm
    simp at this
  · rw [if_neg h0] at h; cases h

theorem sentAs_inv {caps : Nat} {out : Bytes} {w : Bytes × Nat} {c : Spec.ServerCmd} {code : Nat} {t : Bytes}
    (hw : w.1 = out ++ (Spec.u8 code ++ t)) (h : SentAs caps out w c) :
    Spec.D.command caps (Spec.u8 code ++ t) = some (c, []) := by
  obtain ⟨e, h1, h2⟩ := h
  rw [h1] at hw
  have he : e = Spec.u8 code ++ t := List.append_cancel_left hw
  subst he
  unfold Spec.D.all at h2
  split at h2
  · rename_i a h3
    rw [h3]; simpa using h2
  · cases h2

/-- C19, COM_FIELD_LIST, exactly: the server reads the table and the wildcard that were meant if and only
if the table name has no NUL. -/
theorem C19_field_list_iff (caps : Nat) (out table wildcard : Bytes) :
    SentAs caps out (ComFieldList.writeTo out table wildcard) (.fieldList table wildcard)
      ↔ (0 : UInt8) ∉ table := by
  refine ⟨fun h => ?_, C19_field_list caps out table wildcard⟩
  have h1 := sentAs_inv (code := 0x04) (t := Spec.nulStr table ++ wildcard) (by
    simp [ComFieldList.writeTo, writeU8_spec, writeBytes_spec, Command.toByte, Spec.nulStr, Spec.u8]) h
  revert h1
  cmdcode
  intro h1
  obtain ⟨a, s, h2, h3⟩ := dbind_inv h1
  obtain ⟨b, u, _, h5⟩ := dbind_inv h3
  have := (dpure_inv h5).1
  simp only [Spec.ServerCmd.fieldList.injEq] at this
  rw [← this.1]
  exact dnulStr_no_nul h2

example : ¬ SentAs 0 [] (ComFieldList.writeTo [] [116, 0, 49] []) (.fieldList [116, 0, 49] []) := by
  rw [C19_field_list_iff]; decide

/-- C19, COM_TABLE_DUMP, exactly: the server reads the names that were meant if and only if both have at
most 255 bytes. -/
theorem C19_table_dump_iff (caps : Nat) (out db table : Bytes) :
    SentAs caps out (ComTableDump.writeTo out db table) (.tableDump db table)
      ↔ db.length < 256 ∧ table.length < 256 := by
  refine ⟨fun h => ?_, fun h => C19_table_dump_partial caps out db table h.1 h.2⟩
  have h1 := sentAs_inv (code := 0x13) (t := Spec.u8 (db.length % 256) ++ (db ++
    (Spec.u8 (table.length % 256) ++ table))) (by
    simp [ComTableDump.writeTo, writeU8_spec, writeBytes_spec, Command.toByte]) h
  revert h1
  cmdcode
  intro h1
  obtain ⟨a, s, h2, h3⟩ := dbind_inv h1
  obtain ⟨b, u, h4, h5⟩ := dbind_inv h3
  have := (dpure_inv h5).1
  simp only [Spec.ServerCmd.tableDump.injEq] at this
  rw [← this.1, ← this.2]
  exact ⟨shortStr_short h2, shortStr_short h4⟩

example : SentAs 0 [] (ComTableDump.writeTo [] (List.replicate 255 97) [98])
    (.tableDump (List.replicate 255 97) [98]) ∧
    ¬ SentAs 0 [] (ComTableDump.writeTo [] [98] (List.replicate 256 97))
      (.tableDump [98] (List.replicate 256 97)) := by
  rw [C19_table_dump_iff, C19_table_dump_iff]
  simp only [List.length_replicate]
  decide

/-- C19, COM_REGISTER_SLAVE, exactly: the server reads the registration that was meant if and only if host
name, user and password have at most 255 bytes each. -/
theorem C19_register_slave_iff (caps : Nat) (out : Bytes) (c : ComRegisterSlave)
    (h0 : c.serverId < 2 ^ 32) (h4 : c.slavePort < 2 ^ 16) (h5 : c.replicationRank < 2 ^ 32)
    (h6 : c.masterId < 2 ^ 32) :
    SentAs caps out (c.writeTo out) (.registerSlave c.serverId c.slaveHostname c.slaveUser
        c.slavePassword c.slavePort c.replicationRank c.masterId)
      ↔ c.slaveHostname.length < 256 ∧ c.slaveUser.length < 256 ∧ c.slavePassword.length < 256 := by
  refine ⟨fun h => ?_, fun h =>
    C19_register_slave_partial caps out c h0 h.1 h.2.1 h.2.2 h4 h5 h6⟩
  have hex : ∃ t, (c.writeTo out).1 = out ++ (Spec.u8 0x15 ++ t) := by
    simp only [ComRegisterSlave.writeTo, writeU8_spec, writeBytes_spec, writeLeU32_spec, writeLeU16_spec,
      Command.toByte, List.append_assoc]
    exact ⟨_, rfl⟩
  obtain ⟨t, ht⟩ := hex
  have h1 := sentAs_inv ht h
  revert h1
  cmdcode
  intro h1
  obtain ⟨_, _, _, h2⟩ := dbind_inv h1
  obtain ⟨a, _, ha, h2⟩ := dbind_inv h2
  obtain ⟨b, _, hb, h2⟩ := dbind_inv h2
  obtain ⟨d, _, hd, h2⟩ := dbind_inv h2
  obtain ⟨_, _, _, h2⟩ := dbind_inv h2
  obtain ⟨_, _, _, h2⟩ := dbind_inv h2
  obtain ⟨_, _, _, h2⟩ := dbind_inv h2
  have := (dpure_inv h2).1
  simp only [Spec.ServerCmd.registerSlave.injEq] at this
  obtain ⟨-, e1, e2, e3, -⟩ := this
  rw [← e1, ← e2, ← e3]
  exact ⟨shortStr_short ha, shortStr_short hb, shortStr_short hd⟩

example : ¬ SentAs 0 [] (ComRegisterSlave.writeTo [] ⟨1, [], [], List.replicate 300 97, 0, 0, 0⟩)
    (.registerSlave 1 [] [] (List.replicate 300 97) 0 0 0) := by
  intro h
  have := (C19_register_slave_iff 0 [] ⟨1, [], [], List.replicate 300 97, 0, 0, 0⟩ (by decide) (by decide)
    (by decide) (by decide)).1 h
  simp only [List.length_replicate] at this
  omega

/-- C19, COM_CHANGE_USER without connection attributes, exactly: the server reads user, auth response,
schema, character set and plugin name that were meant if and only if user, schema and (when it is sent)
plugin name have no NUL, and the auth response has at most 255 bytes under SECURE_CONNECTION and no NUL
otherwise. -/
theorem C19_change_user_iff (caps : Nat) (out user auth schema plugin : Bytes) (charset : Nat)
    (hc : charset < 2 ^ 16) :
    SentAs caps out
      (ComChangeUser.writeTo out caps ⟨user, auth, schema, charset, plugin, []⟩)
      (.changeUser user auth schema charset
        (if caps.testBit Spec.PLUGIN_AUTH then plugin else []) [])
    ↔ (0 : UInt8) ∉ user ∧ (0 : UInt8) ∉ schema ∧
      (caps.testBit Spec.PLUGIN_AUTH = true → (0 : UInt8) ∉ plugin) ∧
      (if caps.testBit Spec.SECURE_CONNECTION then auth.length < 256 else (0 : UInt8) ∉ auth) := by
  constructor
  · intro h
    have hex : ∃ t, (ComChangeUser.writeTo out caps ⟨user, auth, schema, charset, plugin, []⟩).1
        = out ++ (Spec.u8 0x11 ++ t) := by
      simp only [ComChangeUser.writeTo, writeU8_spec, writeBytes_spec, writeLeU16_spec,
        Command.toByte]
      have hl' := fun o : Bytes => writeLenEncStr_spec o [] (by simp)
      simp only [writeChangeUserAttrs]
      split <;> split <;> split <;> simp only [hl', List.append_assoc] <;> exact ⟨_, rfl⟩
    obtain ⟨t, ht⟩ := hex
    have h1 := sentAs_inv ht h
    revert h1
    cmdcode
    intro h1
    obtain ⟨a, _, ha, h2⟩ := dbind_inv h1
    obtain ⟨b, _, hb, h2⟩ := dbind_inv h2
    obtain ⟨d, _, hd, h2⟩ := dbind_inv h2
    obtain ⟨_, _, _, h2⟩ := dbind_inv h2
    obtain ⟨p, _, hp, h2⟩ := dbind_inv h2
    obtain ⟨_, _, _, h2⟩ := dbind_inv h2
    have := (dpure_inv h2).1
    simp only [Spec.ServerCmd.changeUser.injEq] at this
    obtain ⟨e1, e2, e3, -, e4, -⟩ := this
    subst e1 e2 e3 e4
    refine ⟨dnulStr_no_nul ha, dnulStr_no_nul hd, ?_, ?_⟩
    · intro hpl
      rw [hpl] at hp
      exact dnulStr_no_nul hp
    · cases hsec : caps.testBit Spec.SECURE_CONNECTION
      · rw [hsec] at hb; exact dnulStr_no_nul hb
      · rw [hsec] at hb; exact shortStr_short hb
  · rintro ⟨hu, hs, hp, ha⟩
    cases hpl : caps.testBit Spec.PLUGIN_AUTH
    · have hw : ComChangeUser.writeTo out caps ⟨user, auth, schema, charset, plugin, []⟩
          = ComChangeUser.writeTo out caps ⟨user, auth, schema, charset, [], []⟩ := by
        simp only [ComChangeUser.writeTo, caps_plugin, hpl]
        rfl
      have := C19_change_user_partial caps out user auth schema [] charset [] hu hs (by simp) hc ha
        (by simp) (by simp [Spec.attrBytes]) (by simp) (by simp [Spec.attrBytes])
      rw [hw]
      simpa [hpl] using this
    · have := C19_change_user_partial caps out user auth schema plugin charset [] hu hs (hp hpl) hc ha
        (by simp) (by simp [Spec.attrBytes]) (by simp) (by simp [Spec.attrBytes])
      simpa [hpl] using this

example : ¬ SentAs (2 ^ 15) [] (ComChangeUser.writeTo [] (2 ^ 15) ⟨[114], List.replicate 256 97, [], 33, [], []⟩)
    (.changeUser [114] (List.replicate 256 97) [] 33 [] []) := by
  intro h
  have := (C19_change_user_iff (2 ^ 15) [] [114] (List.replicate 256 97) [] [] 33 (by decide)).1
    (by rw [if_neg (by decide)]; exact h)
  have h2 := this.2.2.2
  rw [if_pos (by decide), List.length_replicate] at h2
  omega

end Mybin
