/-
C49: column definitions.
-/
import Verif.Model.Client
import Verif.Spec.Client
import Verif.Props.C22_C25

namespace Mybin

/-- the fields fit their places and the names are valid UTF-8 -/
structure Spec.ColDef.Ok (d : Spec.ColDef) : Prop where
  catalog : validUtf8 d.catalog = true ∧ d.catalog.length < 2 ^ 64
  schema : validUtf8 d.schema = true ∧ d.schema.length < 2 ^ 64
  table : validUtf8 d.table = true ∧ d.table.length < 2 ^ 64
  orgTable : validUtf8 d.orgTable = true ∧ d.orgTable.length < 2 ^ 64
  name : validUtf8 d.name = true ∧ d.name.length < 2 ^ 64
  orgName : validUtf8 d.orgName = true ∧ d.orgName.length < 2 ^ 64
  charset : d.charset < 2 ^ 16
  colLen : d.colLen < 2 ^ 32
  typeCode : d.typeCode < 2 ^ 8
  flags : d.flags < 2 ^ 16
  decimals : d.decimals < 2 ^ 8

/-- the definition the client should report -/
def clientDef (d : Spec.ColDef) (ct : ColumnType) (dflt : Bytes) : ColumnDefinition :=
  { catalog := d.catalog, schema := d.schema, table := d.table, orgTable := d.orgTable, name := d.name,
    orgName := d.orgName, charset := d.charset, colLen := d.colLen, colType := ct, flags := d.flags,
    decimals := d.decimals, defaultValues := dflt }

theorem readString_spec {s : Bytes} (h : validUtf8 s = true ∧ s.length < 2 ^ 64) (rest : Bytes) :
    readLenEncStr (Spec.lenEncStr s ++ rest) = .ok (.bytes s) rest ∧
    LenEncStr.intoString (.bytes s) = (pure s : P Bytes) := by
  refine ⟨readLenEncStr_spec _ _ h.2, ?_⟩
  unfold LenEncStr.intoString toUtf8
  exact if_pos h.1

theorem tryFrom_of_code {ct : ColumnType} {n : Nat} (h : (ct, n) ∈ Spec.columnTypeCodes) :
    ColumnType.tryFrom n = some ct := ((C20_column_types ct n).2.1).2 h

theorem colDef_read (fieldList : Bool) (d : Spec.ColDef) (dflt rest : Bytes) (hd : d.Ok)
    (hf : validUtf8 dflt = true ∧ dflt.length < 2 ^ 64) :
    ColumnDefinition.readFrom fieldList
        (Spec.columnDef d ++ (if fieldList then Spec.lenEncStr dflt else []) ++ rest)
      = match ColumnType.tryFrom d.typeCode with
        | some ct => .ok (clientDef d ct (if fieldList then dflt else [])) rest
        | none => .err .constraint (Spec.le 2 d.flags ++ Spec.u8 d.decimals ++ [0, 0]
            ++ (if fieldList then Spec.lenEncStr dflt else []) ++ rest) := by
  unfold ColumnDefinition.readFrom Spec.columnDef
  simp only [List.append_assoc]
  step (readString_spec hd.catalog _).1
  rw [(readString_spec hd.catalog []).2]
  step (P.pure_apply _ _)
  step (readString_spec hd.schema _).1
  rw [(readString_spec hd.schema []).2]
  step (P.pure_apply _ _)
  step (readString_spec hd.table _).1
  rw [(readString_spec hd.table []).2]
  step (P.pure_apply _ _)
  step (readString_spec hd.orgTable _).1
  rw [(readString_spec hd.orgTable []).2]
  step (P.pure_apply _ _)
  step (readString_spec hd.name _).1
  rw [(readString_spec hd.name []).2]
  step (P.pure_apply _ _)
  step (readString_spec hd.orgName _).1
  rw [(readString_spec hd.orgName []).2]
  step (P.pure_apply _ _)
  step (readLenEncInt_spec 0x0c _ (by norm_num))
  step (readLeU16_le _ _ hd.charset)
  step (readLeU32_le _ _ hd.colLen)
  step (readU8_u8 _ _ hd.typeCode)
  cases ColumnType.tryFrom d.typeCode with
  | none => rfl
  | some ct =>
    rw [P.orErr_some]
    step (P.pure_apply _ _)
    step (readLeU16_le _ _ hd.flags)
    step (readU8_u8 _ _ hd.decimals)
    step (readLen_append' 2 [0, 0] _ rfl)
    cases fieldList
    · rfl
    · simp only [if_true]
      rw [P.bind_apply, P.bind_apply, (readString_spec hf _).1, R.bind_ok, (readString_spec hf []).2]
      rfl

/-- C49: a definition of a column of any supported type decodes to its fields, and what follows is left.
(Full claim: any column type. Definitions of columns of other types are errors: `C49_unsupported_false`.) -/
theorem C49_column_def_partial (d : Spec.ColDef) (ct : ColumnType) (rest : Bytes) (hd : d.Ok)
    (hct : (ct, d.typeCode) ∈ Spec.columnTypeCodes) :
    ColumnDefinition.readFrom false (Spec.columnDef d ++ rest) = .ok (clientDef d ct []) rest := by
  have := colDef_read false d [] rest hd ⟨rfl, by norm_num⟩
  rw [tryFrom_of_code hct] at this
  simpa using this

/-- C49, with the default value that COM_FIELD_LIST adds. -/
theorem C49_column_def_default_partial (d : Spec.ColDef) (ct : ColumnType) (dflt rest : Bytes) (hd : d.Ok)
    (hf : validUtf8 dflt = true ∧ dflt.length < 2 ^ 64) (hct : (ct, d.typeCode) ∈ Spec.columnTypeCodes) :
    ColumnDefinition.readFrom true (Spec.columnDefWithDefault d dflt ++ rest) = .ok (clientDef d ct dflt) rest := by
  have := colDef_read true d dflt rest hd hf
  rw [tryFrom_of_code hct] at this
  exact this

/-- C49, the definitions of the columns or parameters of a prepared statement, one after the other. -/
theorem C49_definitions_partial (ds : List (Spec.ColDef × ColumnType)) (rest : Bytes)
    (hd : ∀ d ∈ ds, d.1.Ok ∧ (d.2, d.1.typeCode) ∈ Spec.columnTypeCodes) :
    StmtPrepareDefs.readFrom ds.length ((ds.map fun d => Spec.columnDef d.1).flatten ++ rest)
      = .ok (ds.map fun d => clientDef d.1 d.2 []) rest := by
  unfold StmtPrepareDefs.readFrom
  exact P.times_spec (ColumnDefinition.readFrom false) (fun d : Spec.ColDef × ColumnType => Spec.columnDef d.1)
    (fun d => clientDef d.1 d.2 []) ds (fun d h t => C49_column_def_partial d.1 d.2 t (hd d h).1 (hd d h).2) rest

/-- C49: the definition of any column of another type, such as JSON (0xf5), is an error, so a result set
with such a column cannot be read. -/
theorem C49_unsupported_false (d : Spec.ColDef) (hd : d.Ok) (h : ∀ ct, (ct, d.typeCode) ∉ Spec.columnTypeCodes) :
    ∃ rest, ColumnDefinition.readFrom false (Spec.columnDef d) = .err .constraint rest := by
  have := colDef_read false d [] [] hd ⟨rfl, by norm_num⟩
  rw [((C20_column_types .null d.typeCode).2.2).2 h] at this
  simp only [Bool.false_eq_true, if_false, List.append_nil] at this
  exact ⟨_, this⟩

/-- C49: decoding never panics, whatever the bytes, and only consumes from the front. -/
theorem C49_no_panic (fieldList : Bool) : Well (ColumnDefinition.readFrom fieldList) := by
  have hs : ∀ s : LenEncStr, Well s.intoString := by
    intro s
    cases s <;> unfold LenEncStr.intoString <;> well
  unfold ColumnDefinition.readFrom
  iterate 6 refine Well.bind Well.lenEncStr fun _ => Well.bind (hs _) fun _ => ?_
  refine Well.bind ?_ fun _ => Well.bind ?_ fun _ => Well.bind ?_ fun _ => Well.bind ?_ fun _ =>
    Well.bind ?_ fun _ => Well.bind ?_ fun _ => Well.bind ?_ fun _ => Well.bind ?_ fun _ =>
    Well.bind ?_ fun _ => ?_
  case refine_9 => exact Well.ite (fun _ => Well.bind Well.lenEncStr fun _ => hs _) (fun _ => Well.pure _)
  all_goals well

/-- the flag word says whether the column is unsigned -/
theorem C49_unsigned (c : ColumnDefinition) : c.unsigned = c.flags.testBit 5 := hasFlag_eq_testBit c.flags 5

/-- the definition of `t.a`, a BIGINT UNSIGNED column, and of a JSON column -/
def exampleDef (code : Nat) : Spec.ColDef :=
  ⟨[100, 101, 102], [100], [116], [116], [97], [97], 63, 20, code, 0x20, 0⟩

example : (exampleDef 8).Ok ∧ (ColumnType.longLong, (exampleDef 8).typeCode) ∈ Spec.columnTypeCodes := by
  refine ⟨?_, by decide⟩
  constructor <;> first | (exact ⟨by decide, by decide⟩) | (exact (by decide))

example : (exampleDef 0xf5).Ok ∧ ∀ ct, (ct, (exampleDef 0xf5).typeCode) ∉ Spec.columnTypeCodes := by
  refine ⟨?_, by intro ct; cases ct <;> decide⟩
  constructor <;> first | (exact ⟨by decide, by decide⟩) | (exact (by decide))

end Mybin
