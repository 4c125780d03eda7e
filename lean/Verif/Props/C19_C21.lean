/-
C19 command packets; C20 command codes; C21 binlog dump requests.
-/
import Verif.Lemmas.Times
import Verif.Lemmas.Write
import Verif.Lemmas.Grammar
import Verif.Spec.Server
import Verif.Props.C17_C18
import Mathlib.Tactic.IntervalCases

namespace Mybin

/-- `w` is what a writer returned: it appended bytes that the server reads as the command `c` under the
negotiated flags, whole packet, and reported the number of bytes appended. -/
def SentAs (caps : Nat) (out : Bytes) (w : Bytes × Nat) (c : Spec.ServerCmd) : Prop :=
  ∃ e, w = (out ++ e, e.length) ∧ Spec.D.all (Spec.D.command caps) e = some c

theorem sentAs_of {caps : Nat} {out : Bytes} {w : Bytes × Nat} {c : Spec.ServerCmd} (e : Bytes)
    (h1 : w = (out ++ e, e.length)) (h2 : Spec.D.command caps e = some (c, [])) :
    SentAs caps out w c := ⟨e, h1, by unfold Spec.D.all; rw [h2]⟩

/-- the server's dispatch on a literal command code -/
macro "cmdcode" : tactic => `(tactic|
  (unfold Spec.D.command
   rw [Spec.D.bind_some (Spec.D.u8_spec _ _ (by norm_num))]
   simp only [Nat.reduceEqDiff, reduceIte, reduceCtorEq, Nat.reduceMul]))

theorem shortStr_spec (s t : Bytes) (h : s.length < 256) :
    Spec.D.shortStr (Spec.u8 s.length ++ s ++ t) = some (s, t) := by
  unfold Spec.D.shortStr
  rw [List.append_assoc, Spec.D.bind_some (Spec.D.u8_spec _ _ h)]
  exact Spec.D.bytes_spec _ _ _ rfl

/-- C19, commands without arguments. -/
theorem C19_simple_commands (caps : Nat) (out : Bytes) :
    SentAs caps out (writeSingleByteCmd out .quit) .quit ∧
    SentAs caps out (writeSingleByteCmd out .statistics) .statistics ∧
    SentAs caps out (writeSingleByteCmd out .processInfo) .processInfo ∧
    SentAs caps out (writeSingleByteCmd out .debug) .debug ∧
    SentAs caps out (writeSingleByteCmd out .ping) .ping ∧
    SentAs caps out (writeSingleByteCmd out .resetConnection) .resetConnection := by
  have key : ∀ c : Command, writeSingleByteCmd out c
      = (out ++ Spec.u8 c.toByte, (Spec.u8 c.toByte).length) := by
    intro c; unfold writeSingleByteCmd; rw [writeU8_spec]; rfl
  refine ⟨?_, ?_, ?_, ?_, ?_, ?_⟩ <;> exact sentAs_of _ (key _) rfl

/-- C19, commands carrying one string: whatever the bytes, the server gets them whole. -/
theorem C19_string_commands (caps : Nat) (out s : Bytes) :
    SentAs caps out (ComQuery.writeTo out s) (.query s) ∧
    SentAs caps out (ComInitDB.writeTo out s) (.initDb s) ∧
    SentAs caps out (ComCreateDB.writeTo out s) (.createDb s) ∧
    SentAs caps out (ComDropDB.writeTo out s) (.dropDb s) ∧
    SentAs caps out (ComStmtPrepare.writeTo out s) (.stmtPrepare s) := by
  have key : ∀ c : Command, writeStrCmd out c s
      = (out ++ (Spec.u8 c.toByte ++ s), (Spec.u8 c.toByte ++ s).length) := by
    intro c; unfold writeStrCmd; rw [writeU8_spec]; simp [writeBytes_spec]
  refine ⟨?_, ?_, ?_, ?_, ?_⟩ <;> exact sentAs_of _ (key _) rfl

/-- C19, commands carrying integers. (For COM_SET_OPTION this is only the operand the code sends; that the operand is
the wrong one is C65.) -/
theorem C19_integer_commands (caps : Nat) (out : Bytes) (id rows flags : Nat) (multi : Bool)
    (hid : id < 2 ^ 32) (hr : rows < 2 ^ 32) (hf : flags < 256) :
    SentAs caps out (ComProcessKill.writeTo out id) (.processKill id) ∧
    SentAs caps out (ComStmtClose.writeTo out id) (.stmtClose id) ∧
    SentAs caps out (ComStmtReset.writeTo out id) (.stmtReset id) ∧
    SentAs caps out (ComStmtFetch.writeTo out id rows) (.stmtFetch id rows) ∧
    SentAs caps out (ComRefresh.writeTo out flags) (.refresh flags) ∧
    SentAs caps out (ComSetOption.writeTo out multi) (.setOption (if multi then 1 else 0)) := by
  have l4 : ∀ n, n < 2 ^ 32 → Spec.D.le 4 (Spec.le 4 n) = some (n, []) := fun n hn => by
    have := Spec.D.le_spec 4 n [] (by omega); rwa [List.append_nil] at this
  have l2 : ∀ n, n < 2 ^ 16 → Spec.D.le 2 (Spec.le 2 n) = some (n, []) := fun n hn => by
    have := Spec.D.le_spec 2 n [] (by omega); rwa [List.append_nil] at this
  refine ⟨?_, ?_, ?_, ?_, ?_, ?_⟩
  · refine sentAs_of (Spec.u8 0x0c ++ Spec.le 4 id) ?_ ?_
    · simp [ComProcessKill.writeTo, writeU8_spec, writeLeU32_spec, Command.toByte]
    · cmdcode
      rw [Spec.D.bind_some (l4 id hid)]; rfl
  · refine sentAs_of (Spec.u8 0x19 ++ Spec.le 4 id) ?_ ?_
    · simp [ComStmtClose.writeTo, writeU8_spec, writeLeU32_spec, Command.toByte]
    · cmdcode
      rw [Spec.D.bind_some (l4 id hid)]; rfl
  · refine sentAs_of (Spec.u8 0x1a ++ Spec.le 4 id) ?_ ?_
    · simp [ComStmtReset.writeTo, writeU8_spec, writeLeU32_spec, Command.toByte]
    · cmdcode
      rw [Spec.D.bind_some (l4 id hid)]; rfl
  · refine sentAs_of (Spec.u8 0x1c ++ (Spec.le 4 id ++ Spec.le 4 rows)) ?_ ?_
    · simp [ComStmtFetch.writeTo, writeU8_spec, writeLeU32_spec, Command.toByte]
    · cmdcode
      rw [Spec.D.bind_some (Spec.D.le_spec 4 id _ (by omega)), Spec.D.bind_some (l4 rows hr)]; rfl
  · refine sentAs_of (Spec.u8 0x07 ++ Spec.u8 flags) ?_ ?_
    · simp [ComRefresh.writeTo, writeU8_spec, Command.toByte]
    · cmdcode
      have := Spec.D.u8_spec flags [] hf
      rw [List.append_nil] at this
      rw [Spec.D.bind_some this]; rfl
  · refine sentAs_of (Spec.u8 0x1b ++ Spec.le 2 (if multi then 1 else 0)) ?_ ?_
    · simp [ComSetOption.writeTo, writeU8_spec, writeLeU16_spec, Command.toByte]
    · cmdcode
      rw [Spec.D.bind_some (l2 _ (by split <;> omega))]; rfl

example : (0x12345678 : Nat) < 2 ^ 32 ∧ (0xff : Nat) < 256 := by decide

/-- C19, COM_FIELD_LIST: a table name without NUL and any wildcard. -/
theorem C19_field_list (caps : Nat) (out table wildcard : Bytes) (h : (0 : UInt8) ∉ table) :
    SentAs caps out (ComFieldList.writeTo out table wildcard) (.fieldList table wildcard) := by
  refine sentAs_of (Spec.u8 0x04 ++ (Spec.nulStr table ++ wildcard)) ?_ ?_
  · simp [ComFieldList.writeTo, writeU8_spec, writeBytes_spec, Command.toByte, Spec.nulStr, Spec.u8]
    omega
  · cmdcode
    rw [Spec.D.bind_some (Spec.D.nulStr_spec _ _ h)]; rfl

example : (0 : UInt8) ∉ ([116, 49] : Bytes) := by decide

/-- C19, COM_TABLE_DUMP, names of at most 255 bytes. -/
theorem C19_table_dump_partial (caps : Nat) (out db table : Bytes) (h1 : db.length < 256)
    (h2 : table.length < 256) :
    SentAs caps out (ComTableDump.writeTo out db table) (.tableDump db table) := by
  refine sentAs_of (Spec.u8 0x13 ++ (Spec.u8 db.length ++ db ++ (Spec.u8 table.length ++ table))) ?_ ?_
  · simp [ComTableDump.writeTo, writeU8_spec, writeBytes_spec, Command.toByte, Nat.mod_eq_of_lt h1,
      Nat.mod_eq_of_lt h2]
    omega
  · cmdcode
    rw [Spec.D.bind_some (shortStr_spec _ _ h1)]
    have := shortStr_spec table [] h2
    rw [List.append_nil] at this
    rw [Spec.D.bind_some this]; rfl

example : ([100, 98] : Bytes).length < 256 := by decide

/-- C19 fails for COM_TABLE_DUMP with a longer name: the length byte wraps, the name is written whole,
and the server reads something else. -/
theorem C19_table_dump_false :
    ∃ db table : Bytes, ¬ SentAs 0 [] (ComTableDump.writeTo [] db table) (.tableDump db table) := by
  refine ⟨List.replicate 256 97, [], ?_⟩
  rintro ⟨e, h1, h2⟩
  have he : e = (ComTableDump.writeTo [] (List.replicate 256 97) []).1 := by rw [h1]; simp
  subst he
  revert h2
  have : Spec.D.all (Spec.D.command 0) (ComTableDump.writeTo [] (List.replicate 256 97) []).1 = none := by
    have : (match Spec.D.all (Spec.D.command 0)
        (ComTableDump.writeTo [] (List.replicate 256 97) []).1 with
        | none => true | some _ => false) = true := by decide +kernel
    revert this
    cases Spec.D.all (Spec.D.command 0) (ComTableDump.writeTo [] (List.replicate 256 97) []).1
    · intro _; rfl
    · intro h; cases h
  rw [this]; intro h; cases h

/-- C19, COM_REGISTER_SLAVE: strings of at most 255 bytes arrive whole. -/
theorem C19_register_slave_partial (caps : Nat) (out : Bytes) (c : ComRegisterSlave)
    (h0 : c.serverId < 2 ^ 32) (h1 : c.slaveHostname.length < 256) (h2 : c.slaveUser.length < 256)
    (h3 : c.slavePassword.length < 256) (h4 : c.slavePort < 2 ^ 16) (h5 : c.replicationRank < 2 ^ 32)
    (h6 : c.masterId < 2 ^ 32) :
    SentAs caps out (c.writeTo out) (.registerSlave c.serverId c.slaveHostname c.slaveUser
      c.slavePassword c.slavePort c.replicationRank c.masterId) := by
  refine sentAs_of (Spec.u8 0x15 ++ (Spec.le 4 c.serverId ++
    (Spec.u8 c.slaveHostname.length ++ c.slaveHostname ++
    (Spec.u8 c.slaveUser.length ++ c.slaveUser ++
    (Spec.u8 c.slavePassword.length ++ c.slavePassword ++ (Spec.le 2 c.slavePort ++
      (Spec.le 4 c.replicationRank ++ Spec.le 4 c.masterId))))))) ?_ ?_
  · simp [ComRegisterSlave.writeTo, writeU8_spec, writeBytes_spec, writeLeU32_spec, writeLeU16_spec,
      Command.toByte, Nat.mod_eq_of_lt h1, Nat.mod_eq_of_lt h2, Nat.mod_eq_of_lt h3]
    omega
  · cmdcode
    rw [Spec.D.bind_some (Spec.D.le_spec 4 _ _ (by omega)), Spec.D.bind_some (shortStr_spec _ _ h1),
      Spec.D.bind_some (shortStr_spec _ _ h2), Spec.D.bind_some (shortStr_spec _ _ h3),
      Spec.D.bind_some (Spec.D.le_spec 2 _ _ (by omega)),
      Spec.D.bind_some (Spec.D.le_spec 4 _ _ (by omega))]
    have := Spec.D.le_spec 4 c.masterId [] (by omega)
    rw [List.append_nil] at this
    rw [Spec.D.bind_some this]; rfl

/-- C19 fails for COM_REGISTER_SLAVE with a string of 256 bytes or more: it is silently cut. -/
theorem C19_register_slave_false :
    ∃ c : ComRegisterSlave, c.slaveHostname.length = 256 ∧
      SentAs 0 [] (c.writeTo []) (.registerSlave 1 [] [] [] 0 0 0) := by
  refine ⟨⟨1, List.replicate 256 97, [], [], 0, 0, 0⟩, by rw [List.length_replicate], ?_⟩
  have hw : ComRegisterSlave.writeTo [] ⟨1, List.replicate 256 97, [], [], 0, 0, 0⟩
      = ComRegisterSlave.writeTo [] ⟨1, [], [], [], 0, 0, 0⟩ := by
    simp only [ComRegisterSlave.writeTo, List.length_replicate]
    norm_num
  rw [hw]
  exact C19_register_slave_partial 0 [] ⟨1, [], [], [], 0, 0, 0⟩ (by decide) (by decide) (by decide)
    (by decide) (by decide) (by decide) (by decide)

theorem writeChangeUserAttrs_spec (attrs : List (Bytes × Bytes)) :
    ∀ lb : Bytes, (∀ kv ∈ attrs, kv.1.length ≠ 251 ∧ kv.2.length ≠ 251) →
    writeChangeUserAttrs lb (attrs.map fun (k, v) => ⟨k, v⟩) = lb ++ Spec.attrBytes attrs := by
  induction attrs with
  | nil => intro lb _; simp [writeChangeUserAttrs, Spec.attrBytes]
  | cons a as ih =>
    intro lb h
    obtain ⟨k, v⟩ := a
    have ha := h (k, v) (by simp)
    simp only [List.map_cons, writeChangeUserAttrs]
    rw [writeLenEncStr_spec _ _ ha.1, writeLenEncStr_spec _ _ ha.2, ih _ (fun kv hkv => h kv (by simp [hkv]))]
    simp [Spec.attrBytes]

/-- C19, COM_CHANGE_USER, under every capability set: user, auth response, schema, charset, plugin
name and attributes arrive, for an auth response of at most 255 bytes (no NUL in it when
SECURE_CONNECTION is off) and no attribute length of 251. -/
theorem C19_change_user_partial (caps : Nat) (out user auth schema plugin : Bytes) (charset : Nat)
    (attrs : List (Bytes × Bytes)) (hu : (0 : UInt8) ∉ user) (hs : (0 : UInt8) ∉ schema)
    (hp : (0 : UInt8) ∉ plugin) (hc : charset < 2 ^ 16)
    (ha : if caps.testBit Spec.SECURE_CONNECTION then auth.length < 256 else (0 : UInt8) ∉ auth)
    (hk : ∀ kv ∈ attrs, kv.1.length ≠ 251 ∧ kv.2.length ≠ 251)
    (ht : (Spec.attrBytes attrs).length ≠ 251)
    (hk' : ∀ kv ∈ attrs, kv.1.length < 2 ^ 64 ∧ kv.2.length < 2 ^ 64)
    (ht' : (Spec.attrBytes attrs).length < 2 ^ 64) :
    SentAs caps out
      (ComChangeUser.writeTo out caps ⟨user, auth, schema, charset, plugin,
        attrs.map fun (k, v) => ⟨k, v⟩⟩)
      (.changeUser user auth schema charset
        (if caps.testBit Spec.PLUGIN_AUTH then plugin else [])
        (if caps.testBit Spec.CONNECT_ATTRS then attrs else [])) := by
  refine sentAs_of (Spec.u8 0x11 ++ (Spec.nulStr user ++
    ((if caps.testBit Spec.SECURE_CONNECTION then Spec.u8 auth.length ++ auth else Spec.nulStr auth) ++
    (Spec.nulStr schema ++ (Spec.le 2 charset ++
    (Spec.opt (caps.testBit Spec.PLUGIN_AUTH) (Spec.nulStr plugin) ++
    Spec.opt (caps.testBit Spec.CONNECT_ATTRS) (Spec.lenEncStr (Spec.attrBytes attrs)))))))) ?_ ?_
  · unfold ComChangeUser.writeTo
    simp only [caps_secure, caps_plugin, caps_attrs]
    rw [writeChangeUserAttrs_spec _ _ hk, List.nil_append]
    simp only [writeLenEncStr_spec _ _ ht, writeLeU16_spec, writeU8_spec,
      writeBytes_spec, Spec.nulStr, Command.toByte]
    cases hsec : caps.testBit Spec.SECURE_CONNECTION
    · rw [hsec] at ha
      cases caps.testBit Spec.PLUGIN_AUTH <;> cases caps.testBit Spec.CONNECT_ATTRS <;>
        simp only [Spec.opt, if_true, if_false, Bool.false_eq_true, List.append_assoc, List.append_nil, List.nil_append,
          List.length_append, List.length_nil, Spec.length_le, Spec.length_u8,
          Prod.mk.injEq, true_and] <;> omega
    · rw [hsec] at ha
      have hm : auth.length % 256 = auth.length := Nat.mod_eq_of_lt ha
      cases caps.testBit Spec.PLUGIN_AUTH <;> cases caps.testBit Spec.CONNECT_ATTRS <;>
        simp only [hm, Spec.opt, if_true, if_false, Bool.false_eq_true, List.append_assoc,
          List.append_nil, List.nil_append, List.length_append, List.length_nil, Spec.length_le,
          Spec.length_u8, Prod.mk.injEq, true_and] <;> omega
  · cmdcode
    rw [Spec.D.bind_some (Spec.D.nulStr_spec _ _ hu)]
    have hauth : ∀ t : Bytes, (if caps.testBit Spec.SECURE_CONNECTION then Spec.D.shortStr
        else Spec.D.nulStr : Spec.D (List UInt8))
        ((if caps.testBit Spec.SECURE_CONNECTION then Spec.u8 auth.length ++ auth
          else Spec.nulStr auth) ++ t) = some (auth, t) := by
      intro t
      cases hsec : caps.testBit Spec.SECURE_CONNECTION
      · rw [hsec] at ha; exact Spec.D.nulStr_spec _ _ ha
      · rw [hsec] at ha; exact shortStr_spec _ _ ha
    rw [Spec.D.bind_some (hauth _), Spec.D.bind_some (Spec.D.nulStr_spec _ _ hs),
      Spec.D.bind_some (Spec.D.le_spec 2 _ _ (by omega)),
      Spec.D.bind_some (when_spec _ _ _ _ _ (fun t => Spec.D.nulStr_spec _ t hp) _)]
    have := when_spec (caps.testBit Spec.CONNECT_ATTRS) _ _ _ [] (fun t => attrs_read attrs hk' ht' t) []
    rw [List.append_nil] at this
    rw [Spec.D.bind_some this]; rfl

/-- C19 fails for COM_CHANGE_USER when the auth response has 256 bytes or more: the length byte wraps
while the bytes are written whole, and the server takes the auth response for the schema. -/
theorem C19_change_user_false :
    ∃ c : ComChangeUser, c.schemaName = [] ∧ c.authResponse = List.replicate 256 97 ∧
      Spec.D.command (2 ^ 15) ((c.writeTo [] (2 ^ 15)).1)
        = some (.changeUser [] [] (List.replicate 256 97) 33 [] [], []) := by
  refine ⟨⟨[], List.replicate 256 97, [], 33, [], []⟩, rfl, rfl, ?_⟩
  have e : (ComChangeUser.writeTo [] (2 ^ 15) ⟨[], List.replicate 256 97, [], 33, [], []⟩).1
      = Spec.u8 0x11 ++ (Spec.nulStr [] ++ (Spec.u8 0 ++
        (Spec.nulStr (List.replicate 256 97) ++ Spec.le 2 33))) := by
    decide +kernel
  rw [e]
  cmdcode
  rw [Spec.D.bind_some (Spec.D.nulStr_spec _ _ (by simp))]
  simp only [show (2 ^ 15 : Nat).testBit Spec.SECURE_CONNECTION = true by decide, if_true]
  have h2 : Spec.D.shortStr (Spec.u8 0 ++ (Spec.nulStr (List.replicate 256 97) ++ Spec.le 2 33))
      = some ([], Spec.nulStr (List.replicate 256 97) ++ Spec.le 2 33) :=
    shortStr_spec [] (Spec.nulStr (List.replicate 256 97) ++ Spec.le 2 33) (by simp)
  rw [Spec.D.bind_some h2, Spec.D.bind_some (Spec.D.nulStr_spec _ _ (by
    intro h; have := List.eq_of_mem_replicate h; revert this; decide))]
  have h3 : Spec.D.le 2 (Spec.le 2 33) = some (33, []) := by
    have := Spec.D.le_spec 2 33 [] (by norm_num)
    rwa [List.append_nil] at this
  rw [Spec.D.bind_some h3]
  rfl

/-! ### C20 (commands) -/

/-- C20: command codes are one-to-one, the 32 codes are exactly 0x00..0x1f, everything else is
rejected. -/
theorem C20_command_codes :
    (∀ c : Command, Command.tryFrom c.toByte = some c) ∧
    (∀ c d : Command, c.toByte = d.toByte → c = d) ∧
    (∀ n c, Command.tryFrom n = some c → c.toByte = n) ∧
    (∀ n, Command.tryFrom n = none ↔ 0x20 ≤ n) := by
  have h1 : ∀ c : Command, Command.tryFrom c.toByte = some c := by
    intro c; cases c <;> rfl
  refine ⟨h1, ?_, ?_, ?_⟩
  · intro c d h
    have := h1 c
    rw [h, h1 d] at this
    exact (Option.some.inj this).symm
  · intro n c h
    unfold Command.tryFrom at h
    split at h <;> first | (cases h; rfl) | cases h
  · intro n
    constructor
    · intro h
      by_contra hlt
      have : n < 32 := by omega
      interval_cases n <;> cases h
    · intro h
      unfold Command.tryFrom
      split <;> first | omega | rfl

/-! ### C21 -/

/-- C21, COM_BINLOG_DUMP: write then read gives back the request, and the server reads it. -/
theorem C21_binlog_dump (out : Bytes) (c : ComBinlogDump) (hp : c.binlogPos < 2 ^ 32)
    (hf : c.flags < 2 ^ 16) (hs : c.serverId < 2 ^ 32) (hu : validUtf8 c.binlogFilename = true) :
    (∃ e, c.writeTo out = (out ++ e, e.length) ∧ ComBinlogDump.readFrom e = .ok c []) ∧
    ∀ caps, c.cmd = .binlogDump → SentAs caps out (c.writeTo out)
      (.binlogDump c.binlogPos c.flags c.serverId c.binlogFilename) := by
  have hw : c.writeTo out = (out ++ (Spec.u8 c.cmd.toByte ++ (Spec.le 4 c.binlogPos ++ (Spec.le 2 c.flags
      ++ (Spec.le 4 c.serverId ++ c.binlogFilename)))),
      (Spec.u8 c.cmd.toByte ++ (Spec.le 4 c.binlogPos ++ (Spec.le 2 c.flags
      ++ (Spec.le 4 c.serverId ++ c.binlogFilename)))).length) := by
    simp [ComBinlogDump.writeTo, writeU8_spec, writeBytes_spec, writeLeU32_spec, writeLeU16_spec]
    omega
  have hb : c.cmd.toByte < 256 := by cases c.cmd <;> decide
  refine ⟨⟨_, hw, ?_⟩, ?_⟩
  · unfold ComBinlogDump.readFrom
    step (readU8_u8 _ _ hb)
    rw [C20_command_codes.1, P.orErr_some]
    step (P.pure_apply _ _)
    step (readLeU32_le _ _ hp)
    step (readLeU16_le _ _ hf)
    step (readLeU32_le _ _ hs)
    step (readRest_apply _)
    simp [toUtf8, hu]
  · intro caps hc
    refine sentAs_of _ hw ?_
    rw [hc, Command.toByte]
    cmdcode
    rw [Spec.D.bind_some (Spec.D.le_spec 4 _ _ (by omega)),
      Spec.D.bind_some (Spec.D.le_spec 2 _ _ (by omega)),
      Spec.D.bind_some (Spec.D.le_spec 4 _ _ (by omega))]
    rfl

example : (({ binlogFilename := [109, 121] } : ComBinlogDump).binlogPos < 2 ^ 32) ∧
    validUtf8 [109, 121] = true := by decide

/-- layout of one interval -/
def Spec.interval (i : Int × Int) : Bytes :=
  Spec.le 8 (Spec.pattern 64 i.1) ++ Spec.le 8 (Spec.pattern 64 i.2)
/-- layout of one source id and its intervals -/
def Spec.sidRange (s : SidRange) : Bytes :=
  Spec.le 16 s.sid ++ Spec.le 8 s.intervals.length ++ (s.intervals.map Spec.interval).flatten
/-- layout of a gtid set -/
def Spec.sidData (d : List SidRange) : Bytes :=
  Spec.le 8 d.length ++ (d.map Spec.sidRange).flatten

theorem writeIntervals_spec (l : List (Int × Int)) : ∀ (out : Bytes) (len : Nat),
    writeIntervals out len l = (out ++ (l.map Spec.interval).flatten, len + 16 * l.length) := by
  induction l with
  | nil => intro out len; simp [writeIntervals]
  | cons a t ih =>
    intro out len
    obtain ⟨s, e⟩ := a
    simp only [writeIntervals, writeLeI64_spec]
    rw [ih]
    simp [Spec.interval]
    omega

theorem length_intervals (l : List (Int × Int)) :
    ((l.map Spec.interval).flatten).length = 16 * l.length := by
  induction l with
  | nil => rfl
  | cons a t ih =>
    simp only [List.map_cons, List.flatten_cons, List.length_append, ih, Spec.interval, Spec.length_le,
      List.length_cons]
    omega

theorem SidRange.writeTo_spec (s : SidRange) (out : Bytes) :
    s.writeTo out = (out ++ Spec.sidRange s, s.bytesLen) := by
  simp only [SidRange.writeTo, writeLeU128_spec, writeLeU64_spec, writeIntervals_spec]
  simp [Spec.sidRange, SidRange.bytesLen]

theorem length_sidRange (s : SidRange) : (Spec.sidRange s).length = s.bytesLen := by
  simp only [Spec.sidRange, List.length_append, Spec.length_le, length_intervals, SidRange.bytesLen]

theorem writeSids_spec (l : List SidRange) : ∀ (out : Bytes) (len : Nat),
    writeSids out len l = (out ++ (l.map Spec.sidRange).flatten, len + (l.map SidRange.bytesLen).sum) := by
  induction l with
  | nil => intro out len; simp [writeSids]
  | cons a t ih =>
    intro out len
    simp only [writeSids, SidRange.writeTo_spec]
    rw [ih]
    simp
    omega

theorem length_sidData (d : List SidRange) : (Spec.sidData d).length = SidData.bytesLen d := by
  simp only [Spec.sidData, List.length_append, Spec.length_le, SidData.bytesLen, List.length_flatten,
    List.map_map]
  rw [show (List.length ∘ Spec.sidRange) = SidRange.bytesLen from funext length_sidRange]
  omega

/-- the values of a gtid set are in the range of their wire fields -/
def SidsInRange (d : List SidRange) : Prop :=
  ∀ s ∈ d, s.sid < 2 ^ 128 ∧ ∀ i ∈ s.intervals, Spec.SignedRange 64 i.1 ∧ Spec.SignedRange 64 i.2

theorem SidRange.readFrom_spec (s : SidRange) (h1 : s.sid < 2 ^ 128)
    (h2 : ∀ i ∈ s.intervals, Spec.SignedRange 64 i.1 ∧ Spec.SignedRange 64 i.2)
    (h3 : s.intervals.length < 2 ^ 32) (t : Bytes) :
    SidRange.readFrom (Spec.sidRange s ++ t) = .ok s t := by
  unfold SidRange.readFrom Spec.sidRange
  simp only [List.append_assoc]
  step (readLeU128_le _ _ h1)
  step (readLeU64_le _ _ (by omega))
  step (withCapacity_ok _ _ (by omega) _)
  have := P.times_spec readInterval Spec.interval id s.intervals (by
    intro i hi t
    unfold readInterval Spec.interval
    rw [List.append_assoc]
    step (readLeI64_pattern _ (h2 i hi).1 _)
    step (readLeI64_pattern _ (h2 i hi).2 _)
    rfl) t
  step this
  simp

theorem sum_ge_length (d : List SidRange) : 24 * d.length ≤ (d.map SidRange.bytesLen).sum := by
  induction d with
  | nil => simp
  | cons a t ih =>
    simp only [List.map_cons, List.sum_cons, List.length_cons, SidRange.bytesLen]
    omega

theorem intervals_le_sum {d : List SidRange} {s : SidRange} (h : s ∈ d) :
    s.bytesLen ≤ (d.map SidRange.bytesLen).sum := by
  induction d with
  | nil => cases h
  | cons a t ih =>
    simp only [List.map_cons, List.sum_cons]
    rcases List.mem_cons.mp h with rfl | h
    · omega
    · have := ih h; omega

theorem SidData.readFrom_spec (d : List SidRange) (h : SidsInRange d) (hl : SidData.bytesLen d < 2 ^ 32)
    (t : Bytes) : SidData.readFrom (Spec.sidData d ++ t) = .ok d t := by
  unfold SidData.readFrom Spec.sidData
  have h24 := sum_ge_length d
  unfold SidData.bytesLen at hl
  rw [List.append_assoc]
  step (readLeU64_le _ _ (by omega))
  step (withCapacity_ok _ _ (by omega) _)
  have := P.times_spec SidRange.readFrom Spec.sidRange id d (by
    intro s hs t
    have hb := intervals_le_sum hs
    unfold SidRange.bytesLen at hb
    exact SidRange.readFrom_spec s (h s hs).1 (h s hs).2 (by
      have : s.bytesLen = 24 + 16 * s.intervals.length := rfl
      have := intervals_le_sum hs
      omega) t) t
  rw [this, List.map_id]

/-- C21, COM_BINLOG_DUMP_GTID: write then read gives back flags, server id, file name, position and
the whole list of sid ranges, and the server reads the same, with the gtid set in its documented
layout. Sizes are limited by the 32-bit length fields. -/
theorem C21_binlog_dump_gtid (out rest : Bytes) (c : ComBinlogDumpGtid) (hf : c.flags < 8)
    (hs : c.serverId < 2 ^ 32) (hn : c.binlogFilename.length < 2 ^ 32)
    (hu : validUtf8 c.binlogFilename = true) (hp : c.binlogPos < 2 ^ 64) (hd : SidsInRange c.sidData)
    (hl : SidData.bytesLen c.sidData < 2 ^ 32) :
    (∃ e, c.writeTo out = (out ++ e, e.length) ∧
      ComBinlogDumpGtid.readFrom (e ++ rest) = .ok c rest) ∧
    ∀ caps, c.cmd = .binlogDumpGtid → SentAs caps out (c.writeTo out)
      (.binlogDumpGtid c.flags c.serverId c.binlogFilename c.binlogPos (Spec.sidData c.sidData)) := by
  have hw : c.writeTo out = (out ++ (Spec.u8 c.cmd.toByte ++ (Spec.le 2 c.flags ++ (Spec.le 4 c.serverId
      ++ (Spec.le 4 c.binlogFilename.length ++ (c.binlogFilename ++ (Spec.le 8 c.binlogPos ++
      (Spec.le 4 (Spec.sidData c.sidData).length ++ Spec.sidData c.sidData))))))),
      (Spec.u8 c.cmd.toByte ++ (Spec.le 2 c.flags ++ (Spec.le 4 c.serverId
      ++ (Spec.le 4 c.binlogFilename.length ++ (c.binlogFilename ++ (Spec.le 8 c.binlogPos ++
      (Spec.le 4 (Spec.sidData c.sidData).length ++ Spec.sidData c.sidData))))))).length) := by
    simp only [ComBinlogDumpGtid.writeTo, SidData.writeTo, writeU8_spec, writeBytes_spec, writeLeU32_spec,
      writeLeU16_spec, writeLeU64_spec, writeSids_spec, Nat.mod_eq_of_lt hn, Nat.mod_eq_of_lt hl,
      length_sidData, List.length_append, Spec.length_le, Spec.length_u8]
    simp only [Spec.sidData, List.append_assoc, Prod.mk.injEq, true_and, SidData.bytesLen]
    omega
  have hb : c.cmd.toByte < 256 := by cases c.cmd <;> decide
  have hflag : gtidFlagsFromBits c.flags = some c.flags := by
    unfold gtidFlagsFromBits
    have : c.flags &&& 7 = c.flags % 2 ^ 3 := Nat.and_two_pow_sub_one_eq_mod c.flags 3
    rw [this, Nat.mod_eq_of_lt (show c.flags < 2 ^ 3 from hf), if_pos rfl]
  have hlen : (Spec.sidData c.sidData).length < 2 ^ 32 := by rw [length_sidData]; exact hl
  refine ⟨⟨_, hw, ?_⟩, ?_⟩
  · unfold ComBinlogDumpGtid.readFrom
    simp only [List.append_assoc]
    step (readU8_u8 _ _ hb)
    rw [C20_command_codes.1, P.orErr_some]
    step (P.pure_apply _ _)
    step (readLeU16_le _ _ (by omega))
    rw [hflag, P.orErr_some]
    step (P.pure_apply _ _)
    step (readLeU32_le _ _ hs)
    step (readLeU32_le _ _ hn)
    step (readLen_append _ _)
    simp only [toUtf8, hu, if_true]
    step (P.pure_apply _ _)
    step (readLeU64_le _ _ hp)
    step (readLeU32_le _ _ hlen)
    step (readLen_append _ _)
    have := SidData.readFrom_spec c.sidData hd hl []
    rw [List.append_nil] at this
    rw [P.bind_apply]
    simp only [P.onSub, this, R.bind_ok, P.pure_apply]
  · intro caps hc
    refine sentAs_of _ hw ?_
    rw [hc, Command.toByte]
    cmdcode
    rw [Spec.D.bind_some (Spec.D.le_spec 2 _ _ (by omega)),
      Spec.D.bind_some (Spec.D.le_spec 4 _ _ (by omega)),
      Spec.D.bind_some (Spec.D.le_spec 4 _ _ (by omega)),
      Spec.D.bind_some (Spec.D.bytes_spec _ _ _ rfl),
      Spec.D.bind_some (Spec.D.le_spec 8 _ _ (by omega)),
      Spec.D.bind_some (Spec.D.le_spec 4 _ _ (by omega))]
    have := Spec.D.bytes_spec _ (Spec.sidData c.sidData) [] rfl
    rw [List.append_nil] at this
    rw [Spec.D.bind_some this]
    rfl

-- non-vacuity: two source ids, one with two intervals including a negative bound
example : SidsInRange [⟨456, [(1, 5), (-7, 9)]⟩, ⟨0, []⟩] ∧
    SidData.bytesLen [⟨456, [(1, 5), (-7, 9)]⟩, ⟨0, []⟩] < 2 ^ 32 := by
  refine ⟨?_, by decide⟩
  intro s hs
  simp at hs
  rcases hs with rfl | rfl
  · refine ⟨by decide, ?_⟩
    intro i hi
    simp at hi
    rcases hi with rfl | rfl <;> exact ⟨⟨by decide, by decide⟩, ⟨by decide, by decide⟩⟩
  · exact ⟨by decide, by simp⟩

/-- C21: the builder's flags stay within the three known bits, so the hypothesis of the theorem above
is met by every request built from the default. -/
theorem C21_builder_flags (c : ComBinlogDumpGtid) (h : c.flags < 8) (b : Bool) :
    (c.useGtid b).flags < 8 ∧ (c.nonBlock b).flags < 8 ∧
    ((c.useGtid b).flags.testBit 2 = b) ∧ ((c.useGtid b).flags.testBit 1 = !b) ∧
    ((c.nonBlock b).flags.testBit 0 = b) := by
  obtain ⟨cmd, flags, sid, fn, pos, sd⟩ := c
  simp only at h
  unfold ComBinlogDumpGtid.useGtid ComBinlogDumpGtid.nonBlock
  interval_cases flags <;> cases b <;> simp <;> decide

/-- Disagreement with the error text of the readers ("expected=0x12"): they accept every known command
code, not only their own. -/
theorem C21_code_not_checked_false (c : Command) :
    ∃ r, ComBinlogDump.readFrom ((ComBinlogDump.writeTo [] { cmd := c }).1) = .ok r [] ∧ r.cmd = c := by
  obtain ⟨⟨e, h1, h2⟩, _⟩ := C21_binlog_dump [] { cmd := c } (by simp) (by simp) (by simp) rfl
  rw [h1, List.nil_append]
  exact ⟨_, h2, rfl⟩

theorem SidRange.well (n : Nat) : Well (P.times readInterval n) := by
  refine Well.times ?_ n
  unfold readInterval readLeI64
  exact Well.bind (Well.bind Well.leU64 fun _ => Well.pure _) fun _ =>
    Well.bind (Well.bind Well.leU64 fun _ => Well.pure _) fun _ => Well.pure _

/-- C21: on any input that starts with the fields of a GTID range, reading it panics exactly when the
announced number of intervals needs 2^63 bytes or more; otherwise it returns a range or an error. -/
theorem C21_interval_count_false (sid n : Nat) (hs : sid < 2 ^ 128) (hn : n < 2 ^ 64) (rest : Bytes) :
    (SidRange.readFrom (Spec.le 16 sid ++ (Spec.le 8 n ++ rest)) = .panic ↔ 2 ^ 59 ≤ n) ∧
    SidRange.readFrom (Spec.le 16 sid ++ (Spec.le 8 n ++ rest)) ≠ .hang := by
  unfold SidRange.readFrom
  step (readLeU128_le _ _ hs)
  step (readLeU64_le _ _ hn)
  by_cases h : n * 16 < 2 ^ 63
  · step (withCapacity_ok _ _ h _)
    have hw : Well (P.times readInterval n >>= fun intervals =>
        (pure (⟨sid, intervals⟩ : SidRange) : P SidRange)) :=
      Well.bind (SidRange.well n) fun _ => Well.pure _
    have := hw rest
    constructor
    · constructor
      · intro hp; rw [hp] at this; exact this.elim
      · intro hp; omega
    · intro hp; rw [hp] at this; exact this
  · rw [P.bind_apply]
    unfold withCapacity
    rw [if_neg h]
    exact ⟨⟨fun _ => by omega, fun _ => rfl⟩, by intro hp; cases hp⟩

/-- C21: likewise for the number of ranges of a GTID set, each of which takes 48 bytes in memory. -/
theorem C21_range_count_false (n : Nat) (hn : n < 2 ^ 64) (h : 2 ^ 63 ≤ n * 48) (rest : Bytes) :
    SidData.readFrom (Spec.le 8 n ++ rest) = .panic := by
  unfold SidData.readFrom
  step (readLeU64_le _ _ hn)
  rw [P.bind_apply]
  unfold withCapacity
  rw [if_neg (by omega)]
  rfl

/-- the limits are met: a count of all ones is beyond both -/
example : (2 : Nat) ^ 59 ≤ 2 ^ 64 - 1 ∧ (2 : Nat) ^ 63 ≤ (2 ^ 64 - 1) * 48 := by norm_num

end Mybin
