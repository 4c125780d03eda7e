/-
Specification: responses of the server to commands, from the protocol documentation (column definitions,
text and binary result sets, prepare response). A response is a list of message payloads; each payload
travels as a run of packets.
-/
import Verif.Spec.Framing
import Verif.Spec.Packets
import Verif.Spec.Server

namespace Mybin.Spec

/-- The stream `inp` starts with the messages `msgs`, one after the other, each cut into packets in any way
the framing rules allow and with any sequence bytes; `rest` follows. -/
def Delivers (inp : List UInt8) (msgs : List (List UInt8)) (rest : List UInt8) : Prop :=
  ∃ runs : List (List Packet), (∀ r ∈ runs, IsMessage r) ∧ runs.map payload = msgs ∧
    inp = (runs.map wire).flatten ++ rest

/-- what a column definition says -/
structure ColDef where
  catalog : List UInt8
  schema : List UInt8
  table : List UInt8
  orgTable : List UInt8
  name : List UInt8
  orgName : List UInt8
  charset : Nat
  colLen : Nat
  typeCode : Nat
  flags : Nat
  decimals : Nat

/-- Protocol::ColumnDefinition41: six length-encoded strings, the length (0x0c) of the fixed fields, the
fixed fields, two filler bytes -/
def columnDef (d : ColDef) : List UInt8 :=
  lenEncStr d.catalog ++ lenEncStr d.schema ++ lenEncStr d.table ++ lenEncStr d.orgTable
    ++ lenEncStr d.name ++ lenEncStr d.orgName ++ lenEncInt 0x0c ++ le 2 d.charset ++ le 4 d.colLen
    ++ u8 d.typeCode ++ le 2 d.flags ++ u8 d.decimals ++ [0, 0]

/-- in COM_FIELD_LIST responses the default value follows -/
def columnDefWithDefault (d : ColDef) (dflt : List UInt8) : List UInt8 := columnDef d ++ lenEncStr dflt

/-- the end of a group of definitions: an EOF packet, left out under DEPRECATE_EOF -/
def defsEnd (caps warnings status : Nat) : List (List UInt8) :=
  if caps.testBit DEPRECATE_EOF then [] else [eofPacket caps warnings status]

/-- the last message of a result set: an EOF packet, or an OK packet with header 0xfe under
DEPRECATE_EOF -/
def IsTerminator (caps : Nat) (msg : List UInt8) : Prop :=
  if caps.testBit DEPRECATE_EOF then
    ∃ f : OkFields, (f.affectedRows < 2 ^ 64 ∧ f.lastInsertId < 2 ^ 64 ∧ f.status < 2 ^ 15 ∧
      f.warnings < 2 ^ 16 ∧ f.info.length < 2 ^ 64 ∧ f.sessionState.length < 2 ^ 64) ∧ msg = okPacket caps 0xfe f ∧ msg.length ≤ 0xffffff
  else ∃ w s, w < 2 ^ 16 ∧ s < 2 ^ 15 ∧ msg = eofPacket caps w s

/-- the messages before the rows of a result set -/
def resultSetHead (caps : Nat) (defs : List ColDef) (warnings status : Nat) : List (List UInt8) :=
  [lenEncInt defs.length] ++ defs.map columnDef ++ defsEnd caps warnings status

/-- what a successful prepare says -/
structure PrepareOk where
  stmtId : Nat
  warnings : Nat

/-- COM_STMT_PREPARE_OK, parameter definitions, column definitions, each group ended if not empty -/
def prepareResponse (caps : Nat) (p : PrepareOk) (params cols : List ColDef) (w1 s1 w2 s2 : Nat) :
    List (List UInt8) :=
  [u8 0 ++ le 4 p.stmtId ++ le 2 cols.length ++ le 2 params.length ++ u8 0 ++ le 2 p.warnings]
    ++ params.map columnDef ++ (if params = [] then [] else defsEnd caps w1 s1)
    ++ cols.map columnDef ++ (if cols = [] then [] else defsEnd caps w2 s2)

end Mybin.Spec
