/-
C138: requests for different things are different. Names with a NUL byte are sent as they are, and are then read as something else.
-/
import Verif.Props.C17_C18
import Verif.Props.C61_C65
import Verif.Props.C74

namespace Mybin

theorem nul_split (a b x y : Bytes) (ha : (0 : UInt8) ∉ a) (hb : (0 : UInt8) ∉ b) (h : a ++ 0 :: x = b ++ 0 :: y) :
    a = b ∧ x = y := by
  induction a generalizing b with
  | nil =>
    cases b with
    | nil => simpa using h
    | cons z b =>
      rw [List.nil_append, List.cons_append, List.cons.injEq] at h
      exact absurd (h.1 ▸ List.mem_cons_self) hb
  | cons z a ih =>
    cases b with
    | nil =>
      rw [List.nil_append, List.cons_append, List.cons.injEq] at h
      exact absurd (h.1 ▸ List.mem_cons_self) ha
    | cons w b =>
      rw [List.cons_append, List.cons_append, List.cons.injEq] at h
      obtain ⟨i1, i2⟩ := ih b (fun hm => ha (List.mem_cons_of_mem _ hm)) (fun hm => hb (List.mem_cons_of_mem _ hm)) h.2
      exact ⟨by rw [h.1, i1], i2⟩

/-- C138, listing fields: different tables and patterns are different requests, if the names of the tables have no NUL -/
theorem C138_field_list_partial (out t t' w w' : Bytes) (ht : (0 : UInt8) ∉ t) (ht' : (0 : UInt8) ∉ t')
    (h : (ComFieldList.writeTo out t w).1 = (ComFieldList.writeTo out t' w').1) : t = t' ∧ w = w' := by
  have e : ∀ t w, (ComFieldList.writeTo out t w).1 = (out ++ [4]) ++ (t ++ 0 :: w) := by
    intro t w
    simp [ComFieldList.writeTo, writeU8, writeBytes, Command.toByte]
    rfl
  rw [e, e] at h
  exact nul_split t t' w w' ht ht' (List.append_cancel_left h)

/-- C138 fails for a table name with a NUL: the call is the same as one for another table with another pattern, whatever the
connection -/
theorem C138_field_list_false (a b w : Bytes) :
    Cmd.fieldList (a ++ 0 :: b) w = Cmd.fieldList a (b ++ 0 :: w) := by
  unfold Cmd.fieldList
  have e : (ComFieldList.writeTo [] (a ++ 0 :: b) w).1 = (ComFieldList.writeTo [] a (b ++ 0 :: w)).1 := by
    simp [ComFieldList.writeTo, writeU8, writeBytes]
    rfl
  rw [e]

/-- C138, logins: two responses with the same bytes are for the same user, with the same answer to the challenge, and for the
same database, if the names have no NUL -/
theorem C138_login_partial (f g : Spec.ResponseFields) (hf : f.No251) (hg : g.No251) (ef : f.Encodable) (eg : g.Encodable)
    (af : f.caps.testBit Spec.PLUGIN_AUTH_LENENC = true ∨ f.caps.testBit Spec.SECURE_CONNECTION = true)
    (ag : g.caps.testBit Spec.PLUGIN_AUTH_LENENC = true ∨ g.caps.testBit Spec.SECURE_CONNECTION = true)
    (h : ((responseOf f).writeTo []).1 = ((responseOf g).writeTo []).1) :
    f.caps = g.caps ∧ f.user = g.user ∧ f.auth = g.auth ∧ (f.caps.testBit Spec.CONNECT_WITH_DB = true → f.db = g.db) := by
  obtain ⟨x, x1, x2⟩ := C18_server_reads_back_partial f hf ef af []
  obtain ⟨y, y1, y2⟩ := C18_server_reads_back_partial g hg eg ag []
  rw [x1, y1] at h
  have : x = y := by simpa using h
  rw [this, y2, Option.some.injEq, Spec.ResponseFields.mk.injEq] at x2
  obtain ⟨h1, h2, h3, h4, h5, h6, -⟩ := x2
  refine ⟨h1.symm, h4.symm, h5.symm, fun hd => ?_⟩
  rw [h1, hd] at h6
  exact h6.symm

/-- C138 fails for a user name with a NUL: the login is, byte for byte, that of the user named before the NUL, with an answer to the
challenge that begins as the rest of the name says -/
theorem C138_login_false (f : Spec.ResponseFields) (hf : f.No251) (hl : f.caps.testBit Spec.PLUGIN_AUTH_LENENC = true) (a x : Bytes)
    (hx : x.length + f.auth.length + 2 < 251) :
    ((responseOf { f with user := a ++ 0 :: UInt8.ofNat (x.length + f.auth.length + 2) :: x }).writeTo []).1 =
      ((responseOf { f with user := a, auth := x ++ 0 :: UInt8.ofNat f.auth.length :: f.auth }).writeTo []).1 := by
  have hz : (Spec.u8 0 : Bytes) = [0] := rfl
  have hu : ∀ n : Nat, n < 251 → Spec.lenEncInt n = [UInt8.ofNat n] := by
    intro n hn
    unfold Spec.lenEncInt
    rw [if_pos hn]
    rfl
  have n1 : ({ f with user := a ++ 0 :: UInt8.ofNat (x.length + f.auth.length + 2) :: x } : Spec.ResponseFields).No251 :=
    ⟨hf.1, hf.2, hf.3⟩
  have len : (x ++ 0 :: UInt8.ofNat f.auth.length :: f.auth).length = x.length + f.auth.length + 2 := by
    simp only [List.length_append, List.length_cons]; omega
  have n2 : ({ f with user := a, auth := x ++ 0 :: UInt8.ofNat f.auth.length :: f.auth } : Spec.ResponseFields).No251 :=
    ⟨by dsimp only; rw [len]; omega, hf.2, hf.3⟩
  rw [C18_handshake_response_partial _ n1 (.inl hl), C18_handshake_response_partial _ n2 (.inl hl)]
  unfold Spec.handshakeResponse41
  dsimp only
  rw [hl, if_pos rfl, if_pos rfl]
  unfold Spec.lenEncStr Spec.nulStr
  rw [len, hu _ hx, hu _ (by omega), hz]
  simp only [List.append_assoc, List.cons_append, List.nil_append]

/-- C138, asking for events without GTIDs: different files and positions are different requests, if the positions fit 32 bits -/
theorem C138_dump_partial (r r' : BinlogRequest) (i i' : Nat) (mode : Bytes) (hm : mode ≠ Spec.ascii "ON")
    (hp : r.binlogPos < 2 ^ 32) (hp' : r'.binlogPos < 2 ^ 32) (h : r.dumpBytes i mode = r'.dumpBytes i' mode) :
    r.binlogPos = r'.binlogPos ∧ r.binlogFilename = r'.binlogFilename := by
  have hm' : mode ≠ Cmd.str "ON" := hm
  have e : ∀ (r : BinlogRequest) (i : Nat), r.binlogPos < 2 ^ 32 → ∃ x : Bytes, x.length = 6 ∧
      r.dumpBytes i mode = [0x12] ++ (Spec.le 4 r.binlogPos ++ (x ++ r.binlogFilename)) := by
    intro r i hr
    refine ⟨Spec.le 2 (if r.nonBlock then 1 else 0) ++ Spec.le 4 i, by simp [Spec.length_le], ?_⟩
    unfold BinlogRequest.dumpBytes
    rw [if_neg hm', Nat.mod_eq_of_lt hr]
    simp [ComBinlogDump.writeTo, ComBinlogDump.nonBlock, writeU8_spec, writeBytes_spec, writeLeU32_spec, writeLeU16_spec,
      Command.toByte]
    rfl
  obtain ⟨x, x1, x2⟩ := e r i hp
  obtain ⟨y, y1, y2⟩ := e r' i' hp'
  rw [x2, y2] at h
  have h1 := List.append_cancel_left h
  obtain ⟨h2, h3⟩ := List.append_inj h1 (by rw [Spec.length_le, Spec.length_le])
  obtain ⟨-, h4⟩ := List.append_inj h3 (by rw [x1, y1])
  refine ⟨?_, h4⟩
  have a1 := Spec.D.le_spec 4 r.binlogPos [] (by omega)
  have a2 := Spec.D.le_spec 4 r'.binlogPos [] (by omega)
  rw [h2, a2] at a1
  simpa using a1.symm

/-- C138, asking for events with GTIDs: different files, positions and sets of transactions are different requests -/
theorem C138_gtid_dump (r r' : BinlogRequest) (ok : r.Ok) (ok' : r'.Ok) (i i' : Nat) (hi : i < 2 ^ 32) (hi' : i' < 2 ^ 32)
    (h : r.dumpBytes i (Spec.ascii "ON") = r'.dumpBytes i' (Spec.ascii "ON")) :
    r.binlogFilename = r'.binlogFilename ∧ r.binlogPos = r'.binlogPos ∧ r.sids = r'.sids ∧ i = i' := by
  obtain ⟨w, w1, w2⟩ := dump_sent r i (Spec.ascii "ON") hi (lt_trans ok.file_len (by norm_num)) ok.file_utf8 ok.pos_lt
    ok.sids_ok (lt_trans ok.sids_len (by norm_num)) (fun h => absurd rfl h)
  obtain ⟨w', w1', w2'⟩ := dump_sent r' i' (Spec.ascii "ON") hi' (lt_trans ok'.file_len (by norm_num)) ok'.file_utf8 ok'.pos_lt
    ok'.sids_ok (lt_trans ok'.sids_len (by norm_num)) (fun h => absurd rfl h)
  obtain ⟨e, e1, e2⟩ := w2 0
  obtain ⟨e', e1', e2'⟩ := w2' 0
  have he : e = e' := by
    rw [e1] at w1
    rw [e1'] at w1'
    rw [← w1, ← w1'] at h
    simpa using h
  rw [he, e2', Option.some.injEq] at e2
  unfold Spec.dumpSaid at e2
  rw [if_pos rfl, if_pos rfl, Spec.ServerCmd.binlogDumpGtid.injEq] at e2
  obtain ⟨-, h2, h3, h4, h5⟩ := e2
  refine ⟨h3.symm, h4.symm, ?_, h2.symm⟩
  have a := SidData.readFrom_spec r.sids ok.sids_ok (lt_trans ok.sids_len (by norm_num)) []
  have b := SidData.readFrom_spec r'.sids ok'.sids_ok (lt_trans ok'.sids_len (by norm_num)) []
  rw [← h5, b, R.ok.injEq] at a
  exact a.1.symm

/-- C138 fails for positions of more than 32 bits and for transactions to be left out, if the master does not use GTIDs: the request
is the same as one for another position and without transactions -/
theorem C138_dump_false (r : BinlogRequest) (sids : List SidRange) (i : Nat) (mode : Bytes) (hm : mode ≠ Spec.ascii "ON") :
    ({ r with binlogPos := r.binlogPos + 2 ^ 32, sids := sids } : BinlogRequest).dumpBytes i mode = r.dumpBytes i mode := by
  have hm' : mode ≠ Cmd.str "ON" := hm
  unfold BinlogRequest.dumpBytes
  rw [if_neg hm', if_neg hm']
  dsimp only
  rw [Nat.add_mod_right]

/-- the hypotheses can be met: a usual login; and the name `root`, a NUL, and the beginning of an answer -/
example : ∃ f : Spec.ResponseFields, f.No251 ∧ f.Encodable ∧ f.caps.testBit Spec.PLUGIN_AUTH_LENENC = true ∧
    (List.replicate 20 (1 : UInt8)).length + f.auth.length + 2 < 251 :=
  ⟨⟨2 ^ 9 + 2 ^ 15 + 2 ^ 19 + 2 ^ 21, 0xffffff, 33, Spec.ascii "root", List.replicate 20 7, [], Spec.ascii "mysql_native_password", []⟩,
    ⟨by decide +kernel, by decide +kernel, by decide +kernel⟩,
    ⟨by decide +kernel, by decide +kernel, by decide +kernel, by decide +kernel, by decide +kernel, by decide +kernel, by decide +kernel,
      by decide +kernel, by decide +kernel⟩, by decide +kernel, by decide +kernel⟩

/-- a master without GTIDs, and two positions -/
example : Spec.ascii "OFF" ≠ Spec.ascii "ON" ∧ (4 : Nat) < 2 ^ 32 ∧ (107 : Nat) < 2 ^ 32 ∧ (0 : UInt8) ∉ Spec.ascii "orders" :=
  ⟨by decide +kernel, by decide +kernel, by decide +kernel, by decide +kernel⟩

end Mybin
