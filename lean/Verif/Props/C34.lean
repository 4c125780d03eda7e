/-
C34: table map events.
-/
import Verif.Props.C37
import Verif.Model.Rows

namespace Mybin

open Spec (ColKind)

/-- the part of the type byte of a CHAR column that holds the top bits of its length -/
theorem char_meta (q : Nat) (h : q < 4) :
    (0xfe ^^^ (q * 16)) < 256 ∧ (0xfe ^^^ (q * 16)) ||| 0xf0 = 0xfe ∧
      ((((0xfe ^^^ (q * 16)) >>> 4) &&& 3) ^^^ 3) = q := by
  have : ∀ q, q < 4 → (0xfe ^^^ (q * 16)) < 256 ∧ (0xfe ^^^ (q * 16)) ||| 0xf0 = 0xfe ∧
      ((((0xfe ^^^ (q * 16)) >>> 4) &&& 3) ^^^ 3) = q := by decide
  exact this q h

/-- the metadata entry of one column -/
theorem readMeta_spec (k : ColKind) (m : ColumnMeta) (hk : k.Ok) (hm : metaOf k = some m) :
    ∃ ct, ColumnType.tryFrom k.typeCode = some ct ∧
      ∀ t, ColumnMeta.readFrom ct (k.metaBytes ++ t) = .ok m t := by
  cases k <;> simp only [metaOf, Option.some.injEq, reduceCtorEq] at hm <;> subst hm <;>
    refine ⟨_, rfl, fun t => ?_⟩ <;>
    simp only [ColKind.metaBytes, ColumnMeta.readFrom, List.nil_append, P.pure_apply, List.append_assoc] <;>
    simp only [ColKind.Ok] at hk
  case float => step (readU8_u8 4 t (by omega)); rfl
  case double => step (readU8_u8 8 t (by omega)); rfl
  case timestamp2 f => step (readU8_u8 f t (by omega)); rfl
  case time2 f => step (readU8_u8 f t (by omega)); rfl
  case datetime2 f => step (readU8_u8 f t (by omega)); rfl
  case bit n =>
    step (readU8_u8 (n % 8) _ (by omega))
    step (readU8_u8 (n / 8) t (by omega)); rfl
  case decimal p s =>
    step (readU8_u8 p _ (by omega))
    step (readU8_u8 s t (by omega)); rfl
  case enum p =>
    rw [readStringMeta]
    step (readU8_u8 0xf7 _ (by omega))
    step (readU8_u8 p t (by omega)); rfl
  case blob p => step (readU8_u8 p t (by omega)); rfl
  case varchar n => step (readLeU16_le n t (by omega)); rfl
  case char n =>
    obtain ⟨h1, h2, h3⟩ := char_meta (n / 256) (by omega)
    rw [readStringMeta]
    step (readU8_u8 (0xfe ^^^ (n / 256 * 16)) _ h1)
    step (readU8_u8 (n % 256) t (by omega))
    rw [if_neg (by rw [h2]; omega), if_pos h2, P.pure_apply, h3, Nat.shiftLeft_eq]
    rw [show n / 256 * 2 ^ 8 + n % 256 = n by omega]

theorem typeCode_lt (k : ColKind) : k.typeCode < 256 := by cases k <;> simp [ColKind.typeCode]

/-- the metadata entries of all columns, in column order -/
theorem readMetas_spec (ks : List ColKind) (ms : List ColumnMeta) (hk : ∀ k ∈ ks, k.Ok)
    (hm : ks.map metaOf = ms.map some) (t : Bytes) :
    readMetas (ks.map fun c => UInt8.ofNat c.typeCode) ((ks.map ColKind.metaBytes).flatten ++ t)
      = .ok ms t := by
  induction ks generalizing ms with
  | nil =>
    cases ms with
    | nil => rfl
    | cons _ _ => simp at hm
  | cons k ks ih =>
    cases ms with
    | nil => simp at hm
    | cons m ms =>
      simp only [List.map_cons, List.cons.injEq] at hm
      obtain ⟨ct, h1, h2⟩ := readMeta_spec k m (hk k (by simp)) hm.1
      have hb : (UInt8.ofNat k.typeCode).toNat = k.typeCode := by
        have := typeCode_lt k
        simp; omega
      simp only [List.map_cons, List.flatten_cons, List.append_assoc, readMetas, hb, h1]
      step (show P.orErr (some ct) .constraint _ = .ok ct _ from rfl)
      step (h2 _)
      step (ih ms (fun k hk' => hk k (by simp [hk'])) hm.2)
      rfl

theorem metaBytes_length (k : ColKind) : k.metaBytes.length ≤ 2 := by
  cases k <;> simp [ColKind.metaBytes, Spec.u8]

theorem metas_length (ks : List ColKind) : (ks.map ColKind.metaBytes).flatten.length ≤ 2 * ks.length := by
  induction ks with
  | nil => simp
  | cons k ks ih =>
    have := metaBytes_length k
    simp only [List.map_cons, List.flatten_cons, List.length_append, List.length_cons]
    omega

/-- C34: a table map laid out by the protocol decodes to its names, null bitmap and one metadata entry per
column, in column order, whatever follows it. (Full claim: all column kinds. The metadata of columns of
the pre-5.6 date kinds and of SET columns is a panic, that of JSON columns an error:
`C34_unsupported_false`.) -/
theorem C34_table_map_partial (t : Spec.Table) (ms : List ColumnMeta)
    (hs : t.schema.length < 256 ∧ validUtf8 t.schema) (ht : t.table.length < 256 ∧ validUtf8 t.table)
    (hn : t.columns.length < 2 ^ 61) (hnull : t.nullable.length = (t.columns.length + 7) / 8)
    (hk : ∀ k ∈ t.columns, k.Ok) (hm : t.columns.map metaOf = ms.map some) (tail : Bytes) :
    TableMapData.tableMap (t.encode ++ tail) = .ok ⟨t.schema, t.table, ms, t.nullable⟩ tail := by
  have hml := metas_length t.columns
  unfold TableMapData.tableMap Spec.Table.encode Spec.nulStr
  simp only [List.append_assoc]
  rw [P.bind_apply]
  have raw : ∀ p : P RawTableMap, p = RawTableMap.readFrom →
      p (Spec.u8 t.schema.length ++ (t.schema ++ (Spec.u8 0 ++ (Spec.u8 t.table.length ++ (t.table ++ (Spec.u8 0 ++
        (Spec.lenEncInt t.columns.length ++ (t.columns.map (fun c => UInt8.ofNat c.typeCode) ++
        (Spec.lenEncInt (t.columns.map ColKind.metaBytes).flatten.length ++
        ((t.columns.map ColKind.metaBytes).flatten ++ (t.nullable ++ tail)))))))))))
      = .ok ⟨t.schema, t.table, t.columns.length, t.columns.map (fun c => UInt8.ofNat c.typeCode),
          (t.columns.map ColKind.metaBytes).flatten, t.nullable⟩ tail := by
    rintro p rfl
    unfold RawTableMap.readFrom
    step (readU8_u8 _ _ hs.1)
    step (readLen_append t.schema _)
    step (readLen_append' 1 (Spec.u8 0) _ rfl)
    step (readU8_u8 _ _ ht.1)
    step (readLen_append t.table _)
    step (readLen_append' 1 (Spec.u8 0) _ rfl)
    step (readLenEncInt_spec t.columns.length _ (by omega))
    rw [canonLei_toU64]
    step (show P.orErr (some t.columns.length) .constraint _ = .ok _ _ from rfl)
    step (readLen_append' t.columns.length _ _ (by simp))
    step (readLenEncInt_spec (t.columns.map ColKind.metaBytes).flatten.length _ (by omega))
    rw [canonLei_toU64]
    step (show P.orErr (some (t.columns.map ColKind.metaBytes).flatten.length) .constraint _ = .ok _ _ from rfl)
    step (readLen_append (t.columns.map ColKind.metaBytes).flatten _)
    step (readLen_append' ((t.columns.length + 7) / 8) t.nullable tail hnull)
    rfl
  rw [raw _ rfl, R.bind_ok]
  unfold TableMap.ofRaw
  have u : ∀ x : Bytes, validUtf8 x = true → ∀ b, toUtf8 x b = .ok x b := by
    intro x hx b; unfold toUtf8; rw [if_pos hx]; rfl
  step (u _ hs.2 _)
  step (u _ ht.2 _)
  have sub : P.onSub (t.columns.map ColKind.metaBytes).flatten
      (ColumnMetas.readFrom t.columns.length (t.columns.map (fun c => UInt8.ofNat c.typeCode))) tail
      = .ok ms tail := by
    unfold P.onSub ColumnMetas.readFrom
    rw [P.bind_apply, withCapacity_ok _ _ (by omega), R.bind_ok, if_pos (by simp),
      List.take_of_length_le (by simp)]
    have := readMetas_spec t.columns ms hk hm []
    rw [List.append_nil] at this
    rw [this]
  step sub
  rfl

/-- a table with an INT, a VARCHAR(300), a DECIMAL(10,2), a TIMESTAMP(3), an ENUM and a long CHAR meets the
conditions -/
example : ([.long, .varchar 300, .decimal 10 2, .timestamp2 3, .enum 1, .char 1020] : List ColKind).map metaOf
      = [ColumnMeta.long, .varString 300, .newDecimal 10 2, .timestamp 3, .enum 1, .string 1020].map some ∧
    ∀ k ∈ ([.long, .varchar 300, .decimal 10 2, .timestamp2 3, .enum 1, .char 1020] : List ColKind), k.Ok := by
  refine ⟨rfl, ?_⟩
  intro k hk
  simp only [List.mem_cons, List.not_mem_nil, or_false] at hk
  rcases hk with rfl | rfl | rfl | rfl | rfl | rfl <;> simp [ColKind.Ok]

/-- C34: tables with a column of the pre-5.6 TIMESTAMP, TIME and DATETIME kinds or a SET column panic, and
those with a JSON column are refused. -/
theorem C34_unsupported_false :
    (∀ k ∈ [ColKind.oldTimestamp, .oldTime, .oldDateTime, .set 1],
      TableMapData.tableMap (Spec.Table.encode ⟨[100], [116], [k], [0]⟩) = .panic) ∧
    TableMapData.tableMap (Spec.Table.encode ⟨[100], [116], [.json 4], [0]⟩) = .err .constraint [] := by
  decide +kernel

/-- C34: the event data around the table map: the table id and flags. -/
theorem C34_data (id flags : Nat) (payload : Bytes) (h1 : id < 2 ^ 48) (h2 : flags < 2 ^ 16) :
    TableMapData.readFrom (Spec.le 6 id ++ (Spec.le 2 flags ++ payload)) = .ok ⟨id, flags, payload⟩ [] := by
  unfold TableMapData.readFrom
  step (readLeU48_le id _ h1)
  step (readLeU16_le flags _ h2)
  rfl

example : (0xffffffffffff : Nat) < 2 ^ 48 ∧ (0xffff : Nat) < 2 ^ 16 := by omega

end Mybin
