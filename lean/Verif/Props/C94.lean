import Verif.Model.TypedEvent
import Verif.Spec.Says
import Verif.Props.C28_C32
import Verif.Props.C33_C47_C48
import Verif.Props.C34
import Verif.Props.C35

/-!
C94: from the bytes of a log to what its events say. An event is read, converted to the type it has and decoded; the
result is what the server wrote. A conversion to any other type is refused.
-/

namespace Mybin

/-- the type an event is to be converted to -/
def Spec.Says.kind : Spec.Says → RawKind
  | .start .. => .start | .description .. => .formatDescription | .query .. => .query | .rotate .. => .rotate
  | .intvar .. => .intvar | .load .. => .load | .createFile .. => .createFile | .appendBlock .. => .appendBlock
  | .execLoad .. => .execLoad | .deleteFile .. => .deleteFile | .newLoad .. => .newLoad
  | .beginLoadQuery .. => .beginLoadQuery | .executeLoadQuery .. => .executeLoadQuery | .rand .. => .rand
  | .xid .. => .xid | .userVar .. => .userVar | .userVarNull .. => .userVar | .incident .. => .incident
  | .tableMap .. => .tableMap | .writeRowsV1 .. => .writeRowsV1 | .updateRowsV1 .. => .updateRowsV1
  | .deleteRowsV1 .. => .deleteRowsV1 | .writeRowsV2 .. => .writeRowsV2 | .updateRowsV2 .. => .updateRowsV2
  | .deleteRowsV2 .. => .deleteRowsV2 | .gtid .. => .gtid | .anonymousGtid .. => .anonymousGtid
  | .previousGtids .. => .previousGtids

/-- the decoded data `v` is what the event says. Status variables, the value of a user variable and the GTID set of
previous logs are decoded from the data in a second step, as the library does. -/
def Spec.Says.Are : (s : Spec.Says) → s.kind.Data → Prop
  | .start version server _ created, (v : StartData) => v = ⟨version, server, created⟩
  | .description f alg _, (v : FormatDescriptionData) => v = ⟨f.version, f.server, f.timestamp, f.headerLen, f.lens, alg⟩
  | .query proxy exec err vars schema text, (v : QueryData) =>
    v.slaveProxyId = proxy ∧ v.execTime = exec ∧ v.errorCode = err ∧ v.schema = schema ∧ v.query = text ∧
      QueryStatusVars.readFrom v.statusVars = .ok (vars.map (·.expected)) []
  | .rotate pos file, (v : RotateData) => v = ⟨pos, file⟩
  | .intvar kind value, (v : IntvarData) => v = ⟨kind, value⟩
  | .load proxy exec skip ft eb lt ls esc opt empty t, (v : LoadData) =>
    v = ⟨proxy, exec, skip, t.table.length, t.schema.length, t.fields.length, ft, eb, lt, ls, esc, opt, empty,
      ⟨t.lengths, t.names, t.table, t.schema, t.file⟩⟩
  | .createFile file block, (v : FileBlockData) => v = ⟨file, block⟩
  | .appendBlock file block, (v : FileBlockData) => v = ⟨file, block⟩
  | .execLoad file, (v : Nat) => v = file
  | .deleteFile file, (v : Nat) => v = file
  | .newLoad proxy exec skip opt ft eb lt ls esc t, (v : NewLoadData) =>
    v = ⟨proxy, exec, skip, t.table.length, t.schema.length, t.fields.length, ft, eb, lt, ls, esc, opt,
      ⟨t.lengths, t.names, t.table, t.schema, t.file⟩⟩
  | .beginLoadQuery file block, (v : FileBlockData) => v = ⟨file, block⟩
  | .executeLoadQuery proxy exec sl err vl file from_ stop dup payload, (v : ExecuteLoadQueryData) =>
    v = ⟨proxy, exec, sl, err, vl, file, from_, stop, dup, payload⟩
  | .rand a b, (v : RandData) => v = ⟨a, b⟩
  | .xid n, (v : Nat) => v = n
  | .userVar name type charset flags value, (v : UserVarData) =>
    v.name = name ∧ v.isNull = 0 ∧ UserVarValue.readFrom v.value = .ok ⟨type, charset, value, flags⟩ []
  | .userVarNull name, (v : UserVarData) => v.name = name ∧ v.isNull = 1
  | .incident kind msg, (v : IncidentData) => v = ⟨kind, msg.length, msg⟩
  | .tableMap id flags payload, (v : TableMapData) => v = ⟨id, flags, payload⟩
  | .writeRowsV1 id flags payload, (v : TableMapData) => v = ⟨id, flags, payload⟩
  | .updateRowsV1 id flags payload, (v : TableMapData) => v = ⟨id, flags, payload⟩
  | .deleteRowsV1 id flags payload, (v : TableMapData) => v = ⟨id, flags, payload⟩
  | .writeRowsV2 id flags extraLen payload, (v : RowsDataV2) => v = ⟨id, flags, extraLen, payload⟩
  | .updateRowsV2 id flags extraLen payload, (v : RowsDataV2) => v = ⟨id, flags, extraLen, payload⟩
  | .deleteRowsV2 id flags extraLen payload, (v : RowsDataV2) => v = ⟨id, flags, extraLen, payload⟩
  | .gtid flags sid gno tsType last seq, (v : GtidLogData) => v = ⟨flags, sid, gno, tsType, last, seq⟩
  | .anonymousGtid flags sid gno tsType last seq, (v : GtidLogData) => v = ⟨flags, sid, gno, tsType, last, seq⟩
  | .previousGtids gs, (v : Bytes) => GtidSet.readFrom v = .ok (gs.map fun g => ⟨g.sid, g.intervals⟩) []

/-- the events that are read as meant: not blocks of a file (`C94_block_false`), not the marker for too many databases
(`C47_over_max_dbs_false`), and the version of the server is text -/
def Spec.Says.Clear : Spec.Says → Prop
  | .start _ server _ _ => validUtf8 server = true
  | .description f _ _ => validUtf8 f.server = true
  | .query _ _ _ vars _ _ => ∀ v ∈ vars, v ≠ .overMaxDbs
  | .createFile .. => False
  | .appendBlock .. => False
  | _ => True

theorem variant_code (s : Spec.Says) : s.kind.variant.toByte = s.code := by cases s <;> rfl

theorem variant_inj (k l : RawKind) (h : k.variant = l.variant) : k = l := by
  revert h; cases k <;> cases l <;> decide

theorem toByte_inj (a b : LogEventType) (h : a.toByte = b.toByte) : a = b := by
  have ha := (C20_event_types.1 a)
  have hb := (C20_event_types.1 b)
  rw [h] at ha
  rw [ha] at hb
  exact Option.some.inj hb

theorem start_reads (version : Nat) (server junk : Bytes) (created : Nat) (h1 : version < 2 ^ 16)
    (h2 : (0 : UInt8) ∉ server) (h3 : server.length + 1 + junk.length = 50) (h4 : created < 2 ^ 32)
    (hu : validUtf8 server = true) :
    StartData.readFrom (Spec.le 2 version ++ (server ++ [0] ++ junk) ++ Spec.le 4 created)
      = .ok ⟨version, server, created⟩ [] := by
  have := start_spec ⟨version, server, junk, created, 0, List.replicate 14 0 ++ [72]⟩
    ⟨h1, h2, h3, h4, show 0 < 2 ^ 8 by decide, 72, rfl, rfl⟩ hu []
  simpa using this

/-- the payload of an event, decoded as its type says -/
theorem says_reads (s : Spec.Says) (h : s.Ok) (hc : s.Clear) :
    ∃ v r, s.kind.read s.encode = .ok v r ∧ s.Are v := by
  cases s with
  | start version server junk created => exact ⟨_, _, start_reads _ _ _ _ h.1 h.2.1 h.2.2.1 h.2.2.2 hc, rfl⟩
  | description f alg tail => exact ⟨_, _, (C32_decode f h.1 hc).1 alg tail h.2, rfl⟩
  | query proxy exec err vars schema query =>
    obtain ⟨h1, h2, h3, h4, h5, h6⟩ := h
    exact ⟨_, _, C47_query proxy exec err _ schema query h1 h2 h3 h5 h6, rfl, rfl, rfl, rfl, rfl,
      C47_status_vars_partial vars h4 hc⟩
  | rotate pos file => exact ⟨_, _, C48_rotate pos h file, rfl⟩
  | intvar kind value => exact ⟨_, _, by have := C48_intvar kind value h.1 h.2 []; rw [List.append_nil] at this; exact this, rfl⟩
  | load proxy exec skip ft eb lt ls esc opt empty t =>
    obtain ⟨h1, h2, h3, h4, h5, h6, h7, h8, h9, h10, h11⟩ := h
    exact ⟨_, _, C48_load t h11 proxy exec skip ft eb lt ls esc opt empty h1 h2 h3 h4 h5 h6 h7 h8 h9 h10, rfl⟩
  | createFile => exact hc.elim
  | appendBlock => exact hc.elim
  | execLoad file => exact ⟨_, _, by have := (C48_file_id file h []).1; rw [List.append_nil] at this; exact this, rfl⟩
  | deleteFile file => exact ⟨_, _, by have := (C48_file_id file h []).2; rw [List.append_nil] at this; exact this, rfl⟩
  | newLoad proxy exec skip opt ft eb lt ls esc t =>
    obtain ⟨h1, h2, h3, h4, h5, h6, h7, h8, h9, h10⟩ := h
    exact ⟨_, _, C48_new_load t h10 proxy exec skip opt ft eb lt ls esc h1 h2 h3 h5 h6 h7 h8 h9 h4, rfl⟩
  | beginLoadQuery file block => exact ⟨_, _, C48_begin_load_query file h block, rfl⟩
  | executeLoadQuery proxy exec sl err vl file start stop dup payload =>
    obtain ⟨h1, h2, h3, h4, h5, h6, h7, h8, h9⟩ := h
    exact ⟨_, _, C48_execute_load_query proxy exec sl err vl file start stop dup payload h1 h2 h3 h4 h5 h6 h7 h8 h9, rfl⟩
  | rand a b => exact ⟨_, _, by have := C48_rand a b h.1 h.2 []; rw [List.append_nil] at this; exact this, rfl⟩
  | xid n => exact ⟨_, _, by have := C48_xid n h []; rw [List.append_nil] at this; exact this, rfl⟩
  | userVar name type charset flags value =>
    obtain ⟨h1, h2, h3, h4, h5⟩ := h
    exact ⟨_, _, C48_user_var name _ 0 h1 (by decide), rfl, rfl,
      by have := (C48_user_var_value type charset flags value [] h2 h3 h5 h4).1; rw [List.append_nil] at this; exact this⟩
  | userVarNull name => exact ⟨_, _, by have := C48_user_var name [] 1 h (by decide); rw [List.append_nil] at this; exact this, rfl, rfl⟩
  | incident kind msg => exact ⟨_, _, by have := C48_incident kind msg [] h.1 h.2; rw [List.append_nil] at this; exact this, rfl⟩
  | tableMap id flags payload => exact ⟨_, _, C34_data id flags payload h.1 h.2, rfl⟩
  | writeRowsV1 id flags payload => exact ⟨_, _, C34_data id flags payload h.1 h.2, rfl⟩
  | updateRowsV1 id flags payload => exact ⟨_, _, C34_data id flags payload h.1 h.2, rfl⟩
  | deleteRowsV1 id flags payload => exact ⟨_, _, C34_data id flags payload h.1 h.2, rfl⟩
  | writeRowsV2 id flags extraLen payload => exact ⟨_, _, C35_data id flags extraLen payload h.1 h.2.1 h.2.2, rfl⟩
  | updateRowsV2 id flags extraLen payload => exact ⟨_, _, C35_data id flags extraLen payload h.1 h.2.1 h.2.2, rfl⟩
  | deleteRowsV2 id flags extraLen payload => exact ⟨_, _, C35_data id flags extraLen payload h.1 h.2.1 h.2.2, rfl⟩
  | gtid flags sid gno ty last seq =>
    obtain ⟨h1, h2, h3, h4, h5, h6⟩ := h
    exact ⟨_, _, by have := (C48_gtid flags sid gno ty last seq [] h1 h2 h3 h4 h5 h6).1; rw [List.append_nil] at this; exact this, rfl⟩
  | anonymousGtid flags sid gno ty last seq =>
    obtain ⟨h1, h2, h3, h4, h5, h6⟩ := h
    exact ⟨_, _, by have := (C48_gtid flags sid gno ty last seq [] h1 h2 h3 h4 h5 h6).1; rw [List.append_nil] at this; exact this, rfl⟩
  | previousGtids gs => exact ⟨_, _, rfl, by have := C33_decode_set gs h.1 h.2.1 h.2.2 []; rw [List.append_nil] at this; exact this⟩

/-- what a caller gets of one event of a log: it is there, its header is what was written, the conversion to its type
gives the data, which are what the event says, and every other conversion is an error -/
def Spec.Told.Got (crc : Bool) (t : Spec.Told) (o : Option Event) : Prop :=
  ∃ ev raw v r, o = some ev ∧ RawEvent.tryFrom t.what.kind ev = .ok raw ∧
    (raw.header.timestamp, raw.header.typeCode.toByte, raw.header.serverId, raw.header.eventLen, raw.header.nextPos,
      raw.header.flags) = (t.timestamp, t.what.code, t.serverId, t.event.len crc, t.nextPos, t.flags) ∧
    raw.intoData = .ok v r ∧ t.what.Are v ∧
    ∀ k, k ≠ t.what.kind → RawEvent.tryFrom k ev = .error .binlogEvent

theorem says_supported (s : Spec.Says) : s.code ∈ Spec.supportedCodes := by cases s <;> simp [Spec.Says.code, Spec.supportedCodes]

theorem got_of_seen (crc : Bool) (t : Spec.Told) (ht : t.Ok) (hc : t.what.Clear) (o : Option Event)
    (h : Spec.Seen crc t.event o) : t.Got crc o := by
  unfold Spec.Seen at h
  rw [if_pos (show t.event.code ∈ _ from says_supported t.what)] at h
  obtain ⟨k, hk, rfl⟩ := h
  have hk' : k = t.what.kind.variant := toByte_inj _ _ (hk.trans (variant_code t.what).symm)
  obtain ⟨v, r, hr, hv⟩ := says_reads t.what ht.2 hc
  refine ⟨_, ⟨⟨t.timestamp, k, t.serverId, t.event.len crc, t.nextPos, t.flags⟩, t.what.encode⟩, v, r, rfl, ?_, ?_, hr, hv, ?_⟩
  · unfold RawEvent.tryFrom; rw [if_pos (show k = _ from hk')]; rfl
  · show (_, k.toByte, _, _, _, _) = _
    rw [hk', variant_code]
  · intro l hl
    unfold RawEvent.tryFrom
    rw [if_neg]
    intro e
    exact hl (variant_inj _ _ (e.symm.trans hk'))

/-- C94: every event of a log is read as what the server wrote, with its header, and can be converted to no other type
than its own. (Full claim: for every event. Missing: blocks of files, which is false, `C94_block_false`; query events
with the marker for too many databases, which is false, `C47_over_max_dbs_false`; servers whose version is not UTF-8,
which there are none of.) -/
theorem C94_log_partial (p : ParserV4) (validate : Bool) (ts : List Spec.Told) (h : ∀ t ∈ ts, t.Ok)
    (hc : ∀ t ∈ ts, t.what.Clear) (rest : Bytes) :
    ∃ os, P.times (p.parseEvent validate) ts.length ((ts.map (·.event.encode p.checksum)).flatten ++ rest) = .ok os rest ∧
      List.Forall₂ (Spec.Told.Got p.checksum) ts os := by
  obtain ⟨os, h1, h2⟩ := C29_walk p validate (ts.map (·.event))
    (by intro e he; obtain ⟨t, ht, rfl⟩ := List.mem_map.1 he; exact (h t ht).1) rest
  rw [List.length_map, List.map_map] at h1
  refine ⟨os, h1, ?_⟩
  rw [List.forall₂_map_left_iff] at h2
  have : ∀ (ts : List Spec.Told) (os : List (Option Event)), (∀ t ∈ ts, t.Ok) → (∀ t ∈ ts, t.what.Clear) →
      List.Forall₂ (fun t o => Spec.Seen p.checksum t.event o) ts os → List.Forall₂ (Spec.Told.Got p.checksum) ts os := by
    intro ts os h hc h2
    induction h2 with
    | nil => exact .nil
    | cons hd _ ih =>
      exact .cons (got_of_seen _ _ (h _ (by simp)) (hc _ (by simp)) _ hd)
        (ih (fun t ht => h t (by simp [ht])) (fun t ht => hc t (by simp [ht])))
  exact this ts os h hc h2

/-- a transaction: its GTID, `BEGIN`, a table, a row, the end; and the sets of previous logs -/
example : ∀ t ∈ [(⟨1, 2, 3, 0, .previousGtids [⟨5, [(1, 9)]⟩]⟩ : Spec.Told), ⟨1, 2, 3, 0, .gtid 1 5 10 2 0 1⟩,
      ⟨1, 2, 3, 8, .query 7 0 0 [.flags2 0, .timeZone [83, 89, 83]] [100] [66, 69, 71, 73, 78]⟩,
      ⟨1, 2, 3, 0, .tableMap 77 1 [1, 2]⟩, ⟨1, 2, 3, 0, .writeRowsV2 77 1 2 [1]⟩, ⟨1, 2, 3, 0, .xid 99⟩,
      ⟨1, 2, 3, 0, .userVar [118] 2 63 1 [1, 0, 0, 0, 0, 0, 0, 0]⟩],
    t.Ok ∧ t.what.Clear := by
  intro t ht
  simp only [List.mem_cons, List.not_mem_nil, or_false] at ht
  rcases ht with rfl | rfl | rfl | rfl | rfl | rfl | rfl <;>
    simp [Spec.Told.Ok, Spec.LogEvent.InRange, Spec.Told.event, Spec.Says.code, Spec.Says.Ok, Spec.Says.Clear, Spec.Says.encode,
      Spec.gtidSet, Spec.Gtids.encode, Spec.Gtids.Ok, Spec.Ordered, Spec.le, Spec.u8, Spec.nulStr, 
      Spec.StatusVar.InRange, Spec.StatusVar.encode, Spec.str8]

/-- C94 is false for blocks of a file: a block is cut at its first NUL, and is an error without one. -/
theorem C94_block_false (file : Nat) (h : file < 2 ^ 32) (a b : Bytes) (ha : (0 : UInt8) ∉ a) :
    (Spec.Says.appendBlock file a).Ok ∧
    RawKind.read .appendBlock (Spec.Says.appendBlock file a).encode = .err (.incomplete none) [] ∧
    RawKind.read .appendBlock (Spec.Says.appendBlock file (a ++ 0 :: b)).encode = .ok ⟨file, a⟩ [] ∧
    RawKind.read .createFile (Spec.Says.createFile file a).encode = .err (.incomplete none) [] ∧
    RawKind.read .createFile (Spec.Says.createFile file (a ++ 0 :: b)).encode = .ok ⟨file, a⟩ [] :=
  ⟨h, C48_file_block_false file h a b ha⟩

/-- C94: the conversion of any event whatever (read from a log or made by hand) to a type succeeds exactly when the event
has that type, keeps header and data, and otherwise is an error; no event has two types. -/
theorem C94_convert (e : Event) :
    (∀ k raw, RawEvent.tryFrom k e = .ok raw ↔ e.kind = k.variant ∧ raw = ⟨e.header, e.data⟩) ∧
    (∀ k, e.kind ≠ k.variant → RawEvent.tryFrom k e = .error .binlogEvent) ∧
    (∀ k l a b, RawEvent.tryFrom k e = .ok a → RawEvent.tryFrom l e = .ok b → k = l) := by
  have h1 : ∀ k raw, RawEvent.tryFrom k e = .ok raw ↔ e.kind = k.variant ∧ raw = ⟨e.header, e.data⟩ := by
    intro k raw
    unfold RawEvent.tryFrom
    split
    · rename_i h
      constructor
      · intro e; cases e; exact ⟨h, rfl⟩
      · rintro ⟨-, rfl⟩; rfl
    · rename_i h
      constructor
      · intro e; cases e
      · intro e; exact (h e.1).elim
  refine ⟨h1, ?_, ?_⟩
  · intro k h; unfold RawEvent.tryFrom; rw [if_neg h]
  · intro k l a b ha hb
    exact variant_inj _ _ (((h1 k a).1 ha).1.symm.trans ((h1 l b).1 hb).1)

end Mybin
