/-
Specification: what an event of a binary log says, by type, and its payload. Written from the MySQL documentation
(binary log events); independent of the model.
-/
import Verif.Spec.Binlog
import Verif.Spec.Events

namespace Mybin.Spec

/-- what an event says. The description of the format may carry a checksum of its own (`tail`) also in a log without
checksums. -/
inductive Says where
  | start (version : Nat) (server junk : List UInt8) (created : Nat)
  | description (f : Fde) (alg : Nat) (tail : List UInt8)
  | query (proxy exec err : Nat) (vars : List StatusVar) (schema query : List UInt8)
  | rotate (pos : Nat) (file : List UInt8)
  | intvar (kind value : Nat)
  | load (proxy exec skip fieldTerm enclosedBy lineTerm lineStart escapedBy opt empty : Nat) (target : LoadTarget)
  | createFile (file : Nat) (block : List UInt8)
  | appendBlock (file : Nat) (block : List UInt8)
  | execLoad (file : Nat)
  | deleteFile (file : Nat)
  | newLoad (proxy exec skip opt : Nat) (fieldTerm enclosedBy lineTerm lineStart escapedBy : List UInt8)
      (target : LoadTarget)
  | beginLoadQuery (file : Nat) (block : List UInt8)
  | executeLoadQuery (proxy exec schemaLen err varsLen file start stop dup : Nat) (payload : List UInt8)
  | rand (seed1 seed2 : Nat)
  | xid (n : Nat)
  | userVar (name : List UInt8) (type charset flags : Nat) (value : List UInt8)
  | userVarNull (name : List UInt8)
  | incident (kind : Nat) (msg : List UInt8)
  | tableMap (id flags : Nat) (payload : List UInt8)
  | writeRowsV1 (id flags : Nat) (payload : List UInt8)
  | updateRowsV1 (id flags : Nat) (payload : List UInt8)
  | deleteRowsV1 (id flags : Nat) (payload : List UInt8)
  | writeRowsV2 (id flags extraLen : Nat) (payload : List UInt8)
  | updateRowsV2 (id flags extraLen : Nat) (payload : List UInt8)
  | deleteRowsV2 (id flags extraLen : Nat) (payload : List UInt8)
  | gtid (flags sid gno tsType last seq : Nat)
  | anonymousGtid (flags sid gno tsType last seq : Nat)
  | previousGtids (gs : List Gtids)

/-- the event type code -/
def Says.code : Says → Nat
  | .start .. => 1 | .query .. => 2 | .rotate .. => 4 | .intvar .. => 5 | .load .. => 6 | .createFile .. => 8
  | .appendBlock .. => 9 | .execLoad .. => 10 | .deleteFile .. => 11 | .newLoad .. => 12 | .rand .. => 13
  | .userVar .. => 14 | .userVarNull .. => 14 | .description .. => 15 | .xid .. => 16 | .beginLoadQuery .. => 17
  | .executeLoadQuery .. => 18 | .tableMap .. => 19 | .writeRowsV1 .. => 23 | .updateRowsV1 .. => 24
  | .deleteRowsV1 .. => 25 | .incident .. => 26 | .writeRowsV2 .. => 30 | .updateRowsV2 .. => 31
  | .deleteRowsV2 .. => 32 | .gtid .. => 33 | .anonymousGtid .. => 34 | .previousGtids .. => 35

/-- the payload -/
def Says.encode : Says → List UInt8
  | .start version server junk created => le 2 version ++ (server ++ [0] ++ junk) ++ le 4 created
  | .description f alg tail => f.encode ++ u8 alg ++ tail
  | .query proxy exec err vars schema text =>
    le 4 proxy ++ le 4 exec ++ u8 schema.length ++ le 2 err ++ le 2 (vars.map StatusVar.encode).flatten.length
      ++ (vars.map StatusVar.encode).flatten ++ nulStr schema ++ text
  | .rotate pos file => le 8 pos ++ file
  | .intvar kind value => u8 kind ++ le 8 value
  | .load proxy exec skip ft eb lt ls esc opt empty t =>
    le 4 proxy ++ le 4 exec ++ le 4 skip ++ u8 t.table.length ++ u8 t.schema.length ++ le 4 t.fields.length
      ++ u8 ft ++ u8 eb ++ u8 lt ++ u8 ls ++ u8 esc ++ u8 opt ++ u8 empty ++ t.encode
  | .createFile file block | .appendBlock file block | .beginLoadQuery file block => le 4 file ++ block
  | .execLoad file | .deleteFile file => le 4 file
  | .newLoad proxy exec skip opt ft eb lt ls esc t =>
    le 4 proxy ++ le 4 exec ++ le 4 skip ++ u8 t.table.length ++ u8 t.schema.length ++ le 4 t.fields.length
      ++ str8 ft ++ str8 eb ++ str8 lt ++ str8 ls ++ str8 esc ++ u8 opt ++ t.encode
  | .executeLoadQuery proxy exec sl err vl file from_ stop dup payload =>
    le 4 proxy ++ le 4 exec ++ u8 sl ++ le 2 err ++ le 2 vl ++ le 4 file ++ le 4 from_ ++ le 4 stop ++ u8 dup
      ++ payload
  | .rand a b => le 8 a ++ le 8 b
  | .xid n => le 8 n
  | .userVar name type charset flags value =>
    le 4 name.length ++ name ++ u8 0 ++ (u8 type ++ le 4 charset ++ le 4 value.length ++ value ++ u8 flags)
  | .userVarNull name => le 4 name.length ++ name ++ u8 1
  | .incident kind msg => le 2 kind ++ str8 msg
  | .tableMap id flags payload | .writeRowsV1 id flags payload | .updateRowsV1 id flags payload
  | .deleteRowsV1 id flags payload => le 6 id ++ (le 2 flags ++ payload)
  | .writeRowsV2 id flags extraLen payload | .updateRowsV2 id flags extraLen payload
  | .deleteRowsV2 id flags extraLen payload => le 6 id ++ (le 2 flags ++ (le 2 extraLen ++ payload))
  | .gtid flags sid gno tsType last seq | .anonymousGtid flags sid gno tsType last seq =>
    u8 flags ++ le 16 sid ++ le 8 gno ++ u8 tsType ++ le 8 last ++ le 8 seq
  | .previousGtids gs => gtidSet gs

/-- the values fit their fields -/
def Says.Ok : Says → Prop
  | .start version server junk created =>
    version < 2 ^ 16 ∧ (0 : UInt8) ∉ server ∧ server.length + 1 + junk.length = 50 ∧ created < 2 ^ 32
  | .description f alg _ => f.Ok ∧ alg < 2 ^ 8
  | .query proxy exec err vars schema _ =>
    proxy < 2 ^ 32 ∧ exec < 2 ^ 32 ∧ err < 2 ^ 16 ∧ (∀ v ∈ vars, v.InRange) ∧
      (vars.map StatusVar.encode).flatten.length < 2 ^ 16 ∧ schema.length < 2 ^ 8
  | .rotate pos _ => pos < 2 ^ 64
  | .intvar kind value => (kind = 1 ∨ kind = 2) ∧ value < 2 ^ 64
  | .load proxy exec skip ft eb lt ls esc opt empty t =>
    proxy < 2 ^ 32 ∧ exec < 2 ^ 32 ∧ skip < 2 ^ 32 ∧ ft < 2 ^ 8 ∧ eb < 2 ^ 8 ∧ lt < 2 ^ 8 ∧ ls < 2 ^ 8 ∧ esc < 2 ^ 8 ∧
      opt < 2 ^ 8 ∧ empty < 2 ^ 8 ∧ t.Ok
  | .createFile file _ | .appendBlock file _ | .beginLoadQuery file _ | .execLoad file | .deleteFile file =>
    file < 2 ^ 32
  | .newLoad proxy exec skip opt ft eb lt ls esc t =>
    proxy < 2 ^ 32 ∧ exec < 2 ^ 32 ∧ skip < 2 ^ 32 ∧ opt < 2 ^ 8 ∧ ft.length < 2 ^ 8 ∧ eb.length < 2 ^ 8 ∧
      lt.length < 2 ^ 8 ∧ ls.length < 2 ^ 8 ∧ esc.length < 2 ^ 8 ∧ t.Ok
  | .executeLoadQuery proxy exec sl err vl file from_ stop dup _ =>
    proxy < 2 ^ 32 ∧ exec < 2 ^ 32 ∧ sl < 2 ^ 8 ∧ err < 2 ^ 16 ∧ vl < 2 ^ 16 ∧ file < 2 ^ 32 ∧ from_ < 2 ^ 32 ∧
      stop < 2 ^ 32 ∧ dup < 2 ^ 8
  | .rand a b => a < 2 ^ 64 ∧ b < 2 ^ 64
  | .xid n => n < 2 ^ 64
  | .userVar name type charset flags value =>
    name.length < 2 ^ 32 ∧ type < 2 ^ 8 ∧ charset < 2 ^ 32 ∧ flags ≤ 1 ∧ value.length < 2 ^ 32
  | .userVarNull name => name.length < 2 ^ 32
  | .incident kind msg => kind < 2 ^ 16 ∧ msg.length < 2 ^ 8
  | .tableMap id flags _ | .writeRowsV1 id flags _ | .updateRowsV1 id flags _ | .deleteRowsV1 id flags _ =>
    id < 2 ^ 48 ∧ flags < 2 ^ 16
  | .writeRowsV2 id flags extraLen _ | .updateRowsV2 id flags extraLen _ | .deleteRowsV2 id flags extraLen _ =>
    id < 2 ^ 48 ∧ flags < 2 ^ 16 ∧ extraLen < 2 ^ 16
  | .gtid flags sid gno tsType last seq | .anonymousGtid flags sid gno tsType last seq =>
    flags < 2 ^ 8 ∧ sid < 2 ^ 128 ∧ gno < 2 ^ 64 ∧ tsType < 2 ^ 8 ∧ last < 2 ^ 64 ∧ seq < 2 ^ 64
  | .previousGtids gs =>
    (∀ g ∈ gs, g.Ok ∧ g.intervals.length < 2 ^ 58) ∧ (gs.map (·.sid)).Nodup ∧ gs.length < 2 ^ 57

/-- an event of a log: what it says, and the rest of its header -/
structure Told where
  timestamp : Nat
  serverId : Nat
  nextPos : Nat
  flags : Nat
  what : Says

/-- the event on disk -/
def Told.event (t : Told) : LogEvent := ⟨t.timestamp, t.what.code, t.serverId, t.nextPos, t.flags, t.what.encode⟩

/-- header and payload fit their fields -/
def Told.Ok (t : Told) : Prop := t.event.InRange ∧ t.what.Ok

end Mybin.Spec
