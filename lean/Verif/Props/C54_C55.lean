/-
C54: JSON records made from row events. C55: signed and unsigned integers in SQL and JSON.
-/
import Verif.Props.C40_C42
import Verif.Model.Json
import Verif.Lemmas.Conn

namespace Mybin

open Spec (Covers Front logged)

/-! ### C55 -/

/-- a binlog integer: the value as decoded, its width, its bit pattern -/
inductive BinlogInt : BinlogColumnValue → Nat → Nat → Prop
  | tiny (n) : n < 2 ^ 8 → BinlogInt (.tiny n) 8 n
  | short (n) : n < 2 ^ 16 → BinlogInt (.short n) 16 n
  | int24 (n) : n < 2 ^ 24 → BinlogInt (.int24 n) 24 n
  | long (n) : n < 2 ^ 32 → BinlogInt (.long n) 32 n
  | longLong (n) : n < 2 ^ 64 → BinlogInt (.longLong n) 64 n

/-- a statement parameter or binary result value that is an integer: type, width, bit pattern -/
inductive StmtInt : BinaryColumnValue → Nat → Nat → Prop
  | tiny (n) : n < 2 ^ 8 → StmtInt (.tiny n) 8 n
  | short (n) : n < 2 ^ 16 → StmtInt (.short n) 16 n
  | long (n) : n < 2 ^ 32 → StmtInt (.long n) 32 n
  | longLong (n) : n < 2 ^ 64 → StmtInt (.longLong n) 64 n

theorem sql_int_text (w n : Nat) (u : Bool) (hw : 0 < w) (hn : n < 2 ^ w) :
    Spec.Numeral (if u then natText n else intText (asSigned w n)) (Spec.intValue w u n) := by
  cases u with
  | true => exact numeral_natText n
  | false =>
    rw [if_neg (by decide), asSigned_eq_twos hw hn]
    exact numeral_intText _

theorem json_int (w n : Nat) (u : Bool) (hw : 0 < w) (hn : n < 2 ^ w) :
    (if u then (n : Int) else asSigned w n) = Spec.intValue w u n := by
  rw [asSigned_eq_twos hw hn, Spec.intValue]

theorem stmtInt_sql (ft : FloatText) (ct : ColumnType) (u : Bool) (v : BinaryColumnValue) (w n : Nat)
    (h : StmtInt v w n) : ∃ text, StmtColumnValue.toSqlLiteral ft ⟨ct, u, v⟩ = some (text, false) ∧
      Spec.Numeral text (Spec.intValue w u n) := by
  cases h with
  | tiny _ hn => exact ⟨_, rfl, sql_int_text 8 n u (by decide) hn⟩
  | short _ hn => exact ⟨_, rfl, sql_int_text 16 n u (by decide) hn⟩
  | long _ hn => exact ⟨_, rfl, sql_int_text 32 n u (by decide) hn⟩
  | longLong _ hn => exact ⟨_, rfl, sql_int_text 64 n u (by decide) hn⟩

theorem stmtInt_json (lib : JsonLib) (ct : ColumnType) (u : Bool) (v : BinaryColumnValue) (w n : Nat)
    (h : StmtInt v w n) : toJsonValue lib ⟨ct, u, v⟩ = some (.int (Spec.intValue w u n), false) := by
  cases h with
  | tiny _ hn => exact congrArg (fun i => some (Json.int i, false)) (json_int 8 n u (by decide) hn)
  | short _ hn => exact congrArg (fun i => some (Json.int i, false)) (json_int 16 n u (by decide) hn)
  | long _ hn => exact congrArg (fun i => some (Json.int i, false)) (json_int 32 n u (by decide) hn)
  | longLong _ hn => exact congrArg (fun i => some (Json.int i, false)) (json_int 64 n u (by decide) hn)

/-- C55: the SQL text of an integer parameter is the decimal numeral of its value -/
theorem C55_param_sql (ft : FloatText) (ct : ColumnType) (u : Bool) (v : BinaryColumnValue) (w n : Nat)
    (h : StmtInt v w n) : ∃ text, StmtColumnValue.toSqlLiteral ft ⟨ct, u, v⟩ = some (text, false) ∧
      Spec.Numeral text (Spec.intValue w u n) := stmtInt_sql ft ct u v w n h

/-- C55: the JSON form of an integer parameter is its value -/
theorem C55_param_json (lib : JsonLib) (ct : ColumnType) (u : Bool) (v : BinaryColumnValue) (w n : Nat)
    (h : StmtInt v w n) : toJsonValue lib ⟨ct, u, v⟩ = some (.int (Spec.intValue w u n), false) :=
  stmtInt_json lib ct u v w n h

/-- a negative BIGINT and a large unsigned one -/
example : StmtInt (.longLong 0xffffffffffffff85) 64 0xffffffffffffff85 ∧
    Spec.intValue 64 false 0xffffffffffffff85 = -123 ∧ Spec.intValue 64 true 0xffffffffffffff85 = 18446744073709551493 :=
  ⟨.longLong _ (by norm_num), by decide, by decide⟩

theorem asUnsigned_asSigned (w n : Nat) (hw : 0 < w) (hn : n < 2 ^ w) : asUnsigned w (asSigned w n) = n := by
  unfold asUnsigned asSigned
  have hz : ((2 : Int) ^ w) = ((2 ^ w : Nat) : Int) := by push_cast; rfl
  split
  · rw [hz, Int.emod_eq_of_lt (by omega) (by exact_mod_cast hn)]; simp
  · rw [hz, Int.sub_emod_right, Int.emod_eq_of_lt (by omega) (by exact_mod_cast hn)]; simp

theorem bit23 (n : Nat) : n &&& 0x800000 = 0x800000 ↔ n &&& 2 ^ 23 ≠ 0 := by
  rw [show (0x800000 : Nat) = 2 ^ 23 by norm_num, Nat.and_two_pow]
  cases n.testBit 23 <;> simp

theorem twos24_range (n : Nat) (hn : n < 2 ^ 24) : Spec.SignedRange 32 (Spec.twos 24 n) := by
  rw [← asSigned_eq_twos (by decide) hn, asSigned, Spec.SignedRange]
  split <;> constructor <;> norm_num at * <;> omega

theorem ofBinlog_int24 (n : Nat) (hn : n < 2 ^ 24) :
    StmtColumnValue.ofBinlog (.int24 n) false = some (StmtColumnValue.newInt (Spec.twos 24 n)) := by
  have h := sign_extend 23 32 n (by decide) hn
  rw [StmtColumnValue.ofBinlog]
  simp only [Bool.false_eq_true, if_false]
  congr 1
  rw [← h]
  by_cases c : n &&& 0x800000 = 0x800000
  · rw [if_pos c, if_pos ((bit23 n).1 c), show (2 ^ 32 - 2 ^ (23 + 1) : Nat) = 0xff000000 by norm_num]
  · rw [if_neg c, if_neg (fun e => c ((bit23 n).2 e))]

theorem ofBinlog_int (v : BinlogColumnValue) (w n : Nat) (u : Bool) (h : BinlogInt v w n) :
    ∃ ct x w' n', StmtColumnValue.ofBinlog v u = some ⟨ct, u, x⟩ ∧ StmtInt x w' n' ∧
      Spec.intValue w' u n' = Spec.intValue w u n := by
  cases h with
  | tiny n hn =>
    cases u
    · exact ⟨.tiny, _, 8, _, rfl, .tiny _ (asUnsigned_lt 8 _), by rw [asUnsigned_asSigned 8 n (by decide) hn]⟩
    · exact ⟨.tiny, _, 8, n, rfl, .tiny n hn, rfl⟩
  | short n hn =>
    cases u
    · exact ⟨.short, _, 16, _, rfl, .short _ (asUnsigned_lt 16 _), by rw [asUnsigned_asSigned 16 n (by decide) hn]⟩
    · exact ⟨.short, _, 16, n, rfl, .short n hn, rfl⟩
  | long n hn =>
    cases u
    · exact ⟨.long, _, 32, _, rfl, .long _ (asUnsigned_lt 32 _), by rw [asUnsigned_asSigned 32 n (by decide) hn]⟩
    · exact ⟨.long, _, 32, n, rfl, .long n hn, rfl⟩
  | longLong n hn =>
    cases u
    · exact ⟨.longLong, _, 64, _, rfl, .longLong _ (asUnsigned_lt 64 _),
        by rw [asUnsigned_asSigned 64 n (by decide) hn]⟩
    · exact ⟨.longLong, _, 64, n, rfl, .longLong n hn, rfl⟩
  | int24 n hn =>
    cases u
    · have e := twos_pattern (w := 32) (by decide) (twos24_range n hn)
      rw [← asUnsigned_eq_pattern] at e
      generalize hi : Spec.twos 24 n = i at e
      refine ⟨.long, _, 32, asUnsigned 32 i, ?_, .long _ (asUnsigned_lt 32 i), ?_⟩
      · rw [ofBinlog_int24 n hn, hi]; rfl
      · rw [Spec.intValue, Spec.intValue, if_neg (by decide), if_neg (by decide), e, hi]
    · have h32 : n < 2 ^ 32 := Nat.lt_of_lt_of_le hn (Nat.pow_le_pow_right (by decide) (by decide))
      exact ⟨.long, _, 32, n, rfl, .long n h32, by rw [Spec.intValue, Spec.intValue, if_pos rfl, if_pos rfl]⟩

/-- C55: the SQL text of an integer column of a row event is the decimal numeral of its value, read as unsigned
exactly when the column is -/
theorem C55_binlog_sql (ft : FloatText) (v : BinlogColumnValue) (w n : Nat) (u : Bool) (h : BinlogInt v w n) :
    ∃ p text, StmtColumnValue.ofBinlog v u = some p ∧ p.toSqlLiteral ft = some (text, false) ∧
      Spec.Numeral text (Spec.intValue w u n) := by
  obtain ⟨ct, x, w', n', h1, h2, h3⟩ := ofBinlog_int v w n u h
  obtain ⟨text, h4, h5⟩ := stmtInt_sql ft ct u x w' n' h2
  exact ⟨_, text, h1, h4, h3 ▸ h5⟩

/-- C55: the same for JSON -/
theorem C55_binlog_json (lib : JsonLib) (v : BinlogColumnValue) (w n : Nat) (u : Bool) (h : BinlogInt v w n) :
    ∃ p, StmtColumnValue.ofBinlog v u = some p ∧
      toJsonValue lib p = some (.int (Spec.intValue w u n), false) := by
  obtain ⟨ct, x, w', n', h1, h2, h3⟩ := ofBinlog_int v w n u h
  exact ⟨_, h1, h3 ▸ stmtInt_json lib ct u x w' n' h2⟩

/-- C55: a column is taken as unsigned exactly when its definition has the UNSIGNED flag (bit 5 of the flags) -/
theorem C55_column (ft : FloatText) (lib : JsonLib) (d : ColumnDefinition) (v : BinlogColumnValue) (w n : Nat)
    (h : BinlogInt v w n) : ∃ p text, StmtColumnValue.ofBinlog v (ColDef.of d).unsigned = some p ∧
      p.toSqlLiteral ft = some (text, false) ∧ Spec.Numeral text (Spec.intValue w (d.flags.testBit 5) n) ∧
      toJsonValue lib p = some (.int (Spec.intValue w (d.flags.testBit 5) n), false) := by
  rw [colDef_unsigned]
  obtain ⟨p, text, h1, h2, h3⟩ := C55_binlog_sql ft v w n (d.flags.testBit 5) h
  obtain ⟨p', h4, h5⟩ := C55_binlog_json lib v w n (d.flags.testBit 5) h
  rw [h1] at h4
  cases h4
  exact ⟨p, text, h1, h2, h3, h5⟩

/-- -2 in a MEDIUMINT column -/
example : BinlogInt (.int24 0xfffffe) 24 0xfffffe ∧ Spec.intValue 24 false 0xfffffe = -2 :=
  ⟨.int24 _ (by norm_num), by decide⟩

/-- C55: enumerations are written as their index -/
theorem C55_enum (ft : FloatText) (e : MyEnum) (u : Bool) :
    ∃ p text, StmtColumnValue.ofBinlog (.enum e) u = some p ∧ p.toSqlLiteral ft = some (text, false) ∧
      Spec.Numeral text e.toU64 := ⟨_, _, rfl, rfl, numeral_natText _⟩

/-- C55 for a MEDIUMINT result column (which arrives sign-extended to 32 bits) used as a parameter -/
theorem C55_int24_param (ft : FloatText) (lib : JsonLib) (ct : ColumnType) (i : Int) (h : Spec.SignedRange 24 i) :
    (∃ text, StmtColumnValue.toSqlLiteral ft ⟨ct, false, .int24 (Spec.pattern 32 i)⟩ = some (text, false) ∧
      Spec.Numeral text i) ∧
    toJsonValue lib ⟨ct, false, .int24 (Spec.pattern 32 i)⟩ = some (.int i, false) := by
  have hr : Spec.SignedRange 32 i := by
    unfold Spec.SignedRange at h ⊢
    norm_num at h ⊢; omega
  constructor
  · refine ⟨_, rfl, ?_⟩
    unfold Spec.SignedRange at h
    norm_num at h
    by_cases hi : 0 ≤ i
    · obtain ⟨n, rfl⟩ := Int.eq_ofNat_of_zero_le hi
      have hn : n < 2 ^ 23 := by norm_num; omega
      have hp : Spec.pattern 32 n = n := by
        unfold Spec.pattern
        rw [← Int.natCast_mod, Int.toNat_natCast, Nat.mod_eq_of_lt (Nat.lt_trans hn (by norm_num))]
      rw [hp, if_pos (Or.inr _)]
      · exact numeral_natText n
      · rw [show (0x800000 : Nat) = 2 ^ 23 by norm_num, Nat.and_two_pow, Nat.testBit_lt_two_pow hn]; rfl
    · obtain ⟨r, hr1, hr2⟩ : ∃ r : Nat, r < 2 ^ 23 ∧ i = (r : Int) - 2 ^ 23 :=
        ⟨(i + 2 ^ 23).toNat, by norm_num; omega, by norm_num; omega⟩
      have hp : Spec.pattern 32 i = 2 ^ 23 * 511 + r := by
        have h1 : i % ((2 ^ 32 : Nat) : Int) = ((2 ^ 23 * 511 + r : Nat) : Int) := by
          rw [show i = ((2 ^ 23 * 511 + r : Nat) : Int) - ((2 ^ 32 : Nat) : Int) by push_cast; omega,
            Int.sub_emod_right, Int.emod_eq_of_lt (by omega) (by push_cast; omega)]
        unfold Spec.pattern
        rw [h1, Int.toNat_natCast]
      have hor : 2 ^ 23 * 511 + r ||| 0xff800000 = 2 ^ 23 * 511 + r := by
        rw [Nat.two_pow_add_eq_or_of_lt hr1, show (0xff800000 : Nat) = 2 ^ 23 * 511 by norm_num,
          Nat.or_comm, ← Nat.or_assoc, Nat.or_self]
      have hbit : ¬ ((false = true) ∨ Spec.pattern 32 i &&& 0x800000 = 0) := by
        rw [hp, show (0x800000 : Nat) = 2 ^ 23 by norm_num, Nat.and_two_pow]
        have : (2 ^ 23 * 511 + r).testBit 23 = true := by
          rw [Nat.testBit_eq_decide_div_mod_eq, Nat.mul_add_div (by norm_num), Nat.div_eq_of_lt hr1]
          decide
        rw [this]; simp
      rw [if_neg hbit, hp, hor, ← hp, asSigned_eq_twos (by decide) (pattern_lt 32 i), twos_pattern (by decide) hr]
      exact numeral_intText i
  · have e : asSigned 32 (Spec.pattern 32 i) = i := by
      rw [asSigned_eq_twos (by decide) (pattern_lt 32 i), twos_pattern (by decide) hr]
    exact congrArg (fun i => some (Json.int i, false)) e

/-! ### C54 -/

/-- `r` is the JSON form of the value `v` of the column `d`, and whether it is in base64 -/
def JsonOf (lib : JsonLib) (x : ColumnDefinition × BinlogColumnValue) (r : Json × Bool) : Prop :=
  ∃ p, StmtColumnValue.ofBinlog x.2 (x.1.flags.testBit 5) = some p ∧ toJsonValue lib p = some r

/-- the names of the columns whose value is in base64 -/
def base64Names (xs : List (ColumnDefinition × BinlogColumnValue)) (js : List (Json × Bool)) : List Bytes :=
  ((xs.zip js).filter (·.2.2)).map (·.1.1.name)

/-- names and JSON values -/
def jsonFields (xs : List (ColumnDefinition × BinlogColumnValue)) (js : List (Json × Bool)) : List (Bytes × Json) :=
  (xs.zip js).map fun x => (x.1.1.name, x.2.1)

theorem jsonInsert_new (m : List (Bytes × Json)) (k : Bytes) (v : Json) (h : k ∉ m.map (·.1)) :
    jsonInsert m k v = m ++ [(k, v)] := by
  unfold jsonInsert
  rw [if_neg]
  simp only [List.any_eq_true, beq_iff_eq, not_exists, not_and]
  intro x hx e
  exact h (List.mem_map.2 ⟨x, hx, e⟩)

/-- the names of the columns in base64, leaving out those already listed -/
def moreNames (dedup : Bool) (enc names : List Bytes) : List Bytes :=
  if dedup then names.filter fun n => !enc.contains n else names

theorem jsonImage_spec (lib : JsonLib) (dedup : Bool) (xs : List (ColumnDefinition × BinlogColumnValue)) :
    ∀ (m : List (Bytes × Json)) (enc : List Bytes) (r : List (Bytes × Json) × List Bytes),
    (xs.map (·.1.name)).Nodup → (∀ x ∈ xs, x.1.name ∉ m.map (·.1)) →
    jsonImage lib dedup (xs.map fun x => (ColDef.of x.1, x.2)) (m, enc) = some r →
    ∃ js, List.Forall₂ (JsonOf lib) xs js ∧
      r = (m ++ jsonFields xs js, enc ++ moreNames dedup enc (base64Names xs js)) := by
  induction xs with
  | nil =>
    intro m enc r _ _ h
    simp only [List.map_nil, jsonImage, Option.some.injEq] at h
    refine ⟨[], .nil, ?_⟩
    rw [← h]
    cases dedup <;> simp [jsonFields, base64Names, moreNames]
  | cons x xs ih =>
    intro m enc r hn hm h
    rw [List.map_cons, jsonImage, colDef_unsigned] at h
    cases h1 : StmtColumnValue.ofBinlog x.2 (x.1.flags.testBit 5) with
    | none => rw [h1] at h; cases h
    | some sv =>
      rw [h1] at h
      dsimp only at h
      cases h2 : toJsonValue lib sv with
      | none => rw [h2] at h; cases h
      | some je =>
        obtain ⟨jv, e⟩ := je
        rw [h2] at h
        dsimp only at h
        have hname : (ColDef.of x.1).name = x.1.name := rfl
        rw [hname, jsonInsert_new m _ _ (hm x List.mem_cons_self)] at h
        rw [List.map_cons, List.nodup_cons] at hn
        obtain ⟨js, h3, h4⟩ := ih _ _ r hn.2 (by
          intro y hy hc
          rw [List.map_append, List.mem_append] at hc
          rcases hc with hc | hc
          · exact hm y (List.mem_cons_of_mem _ hy) hc
          · simp only [List.map_cons, List.map_nil, List.mem_singleton] at hc
            exact hn.1 (hc ▸ List.mem_map.2 ⟨y, hy, rfl⟩)) h
        refine ⟨(jv, e) :: js, .cons ⟨sv, h1, h2⟩ h3, ?_⟩
        rw [h4]
        have hfresh : ∀ n ∈ base64Names xs js, n ≠ x.1.name := by
          intro n hmem he
          unfold base64Names at hmem
          rw [List.mem_map] at hmem
          obtain ⟨z, hz, hz2⟩ := hmem
          exact hn.1 (List.mem_map.2 ⟨z.1, (List.of_mem_zip (List.mem_of_mem_filter hz)).1, hz2.trans he⟩)
        refine Prod.ext ?_ ?_
        · simp [jsonFields]
        · cases e with
          | false => simp [base64Names]
          | true =>
            have hb : base64Names (x :: xs) ((jv, true) :: js) = x.1.name :: base64Names xs js := by
              simp [base64Names]
            rw [hb]
            cases dedup with
            | false => simp [moreNames]
            | true =>
              simp only [moreNames, if_true, Bool.true_and]
              cases hc : enc.contains x.1.name with
              | true =>
                rw [List.filter_cons_of_neg (by rw [hc]; decide), if_neg (by decide)]
              | false =>
                rw [List.filter_cons_of_pos (by rw [hc]; decide), if_pos (by decide), List.append_assoc]
                congr 1
                rw [List.singleton_append]
                congr 1
                apply List.filter_congr
                intro n hmem
                have := hfresh n hmem
                simp [this]

theorem zip_filterColDefs_all (bm : Bytes) (present : List Bool) (defs : List ColumnDefinition)
    (row : List BinlogColumnValue) (h : Covers bm present) (hl : present.length = defs.length)
    (hf : Front present) (hr : row.length = defs.length) :
    (filterColDefs bm defs).zip row = (logged present defs row).map fun x => (ColDef.of x.1, x.2) := by
  have := zip_filterColDefs (fun _ => true) bm present defs row h hl hf hr
  rwa [List.filter_eq_self.2 (fun _ _ => rfl), List.filter_eq_self.2 (fun _ _ => rfl)] at this

theorem logged_nodup (present : List Bool) (defs : List ColumnDefinition) (row : List BinlogColumnValue)
    (hl : present.length = defs.length) (hr : row.length = defs.length) (hn : (defs.map (·.name)).Nodup) :
    ((logged present defs row).map (·.1.name)).Nodup := by
  rw [show (fun x : ColumnDefinition × BinlogColumnValue => x.1.name) = (·.name) ∘ (·.1) from rfl, ← List.map_map,
    logged_map_fst present defs row hl hr]
  refine List.Sublist.nodup ?_ hn
  apply List.Sublist.map
  have h1 : ((present.zip defs).filter (·.1)).Sublist (present.zip defs) := List.filter_sublist
  have h2 := h1.map (·.2)
  rwa [zip_map_snd present defs (by omega)] at h2

/-- What C54 asks of the records of rows that were inserted or deleted: `make names fields` is the record with the
given base64 names and the given fields. -/
def RecordsOwnValues (lib : JsonLib) (defs : List ColumnDefinition) (present : List Bool)
    (make : List Bytes → List (Bytes × Json) → JsonRow)
    (rows : List (List BinlogColumnValue)) (recs : List JsonRow) : Prop :=
  List.Forall₂ (fun row rec => ∃ js, List.Forall₂ (JsonOf lib) (logged present defs row) js ∧
    rec = make (base64Names (logged present defs row) js) (jsonFields (logged present defs row) js)) rows recs

theorem json_rows (lib : JsonLib) (bm : Bytes) (present : List Bool) (defs : List ColumnDefinition)
    (make : List Bytes → List (Bytes × Json) → JsonRow) (rows : List (List BinlogColumnValue)) (recs : List JsonRow)
    (hc : Covers bm present) (hl : present.length = defs.length) (hf : Front present)
    (hn : (defs.map (·.name)).Nodup) (hr : ∀ row ∈ rows, row.length = defs.length)
    (h : allSome (rows.map fun row => (jsonImage lib false ((filterColDefs bm defs).zip row) ([], [])).map
      fun (m, enc) => make enc m) = some recs) : RecordsOwnValues lib defs present make rows recs := by
  replace h := allSome_forall₂ _ _ _ h
  unfold RecordsOwnValues
  induction h with
  | nil => exact .nil
  | @cons row rec rows recs h1 _ ih =>
    refine .cons ?_ (ih fun r hm => hr r (List.mem_cons_of_mem _ hm))
    have hlen := hr row List.mem_cons_self
    rw [zip_filterColDefs_all bm present defs row hc hl hf hlen, Option.map_eq_some_iff] at h1
    obtain ⟨⟨m, enc⟩, h1, rfl⟩ := h1
    obtain ⟨js, h2, h3⟩ := jsonImage_spec lib false _ _ _ _ (logged_nodup present defs row hl hlen hn)
      (by simp) h1
    injection h3 with h3 h4
    exact ⟨js, h2, by rw [h3, h4]; rfl⟩

/-- C54 for inserted rows, when the logged columns come first. Missing: events in which a column that is not logged
comes before one that is (`C54_insert_false`). -/
theorem C54_insert_partial (lib : JsonLib) (db tbl extra bm : Bytes) (n : Nat) (present : List Bool)
    (defs : List ColumnDefinition) (rows : List (List BinlogColumnValue)) (recs : List JsonRow)
    (hc : Covers bm present) (hl : present.length = defs.length) (hf : Front present)
    (hn : (defs.map (·.name)).Nodup) (hr : ∀ row ∈ rows, row.length = defs.length)
    (h : JsonRows.fromInsert lib db tbl ⟨extra, n, bm, rows⟩ defs = some recs) :
    RecordsOwnValues lib defs present (fun names fields => ⟨Spec.ascii "insert", names, db, tbl, none, some fields⟩)
      rows recs := json_rows lib bm present defs _ rows recs hc hl hf hn hr h

/-- C54 for deleted rows -/
theorem C54_delete_partial (lib : JsonLib) (db tbl extra bm : Bytes) (n : Nat) (present : List Bool)
    (defs : List ColumnDefinition) (rows : List (List BinlogColumnValue)) (recs : List JsonRow)
    (hc : Covers bm present) (hl : present.length = defs.length) (hf : Front present)
    (hn : (defs.map (·.name)).Nodup) (hr : ∀ row ∈ rows, row.length = defs.length)
    (h : JsonRows.fromDelete lib db tbl ⟨extra, n, bm, rows⟩ defs = some recs) :
    RecordsOwnValues lib defs present (fun names fields => ⟨Spec.ascii "delete", names, db, tbl, some fields, none⟩)
      rows recs := json_rows lib bm present defs _ rows recs hc hl hf hn hr h

/-- C54 for updated rows: both images, and the names of the columns in base64 in either, each once -/
theorem C54_update_partial (lib : JsonLib) (db tbl extra bb ab : Bytes) (n : Nat) (before after : List Bool)
    (defs : List ColumnDefinition) (rows : List (List BinlogColumnValue × List BinlogColumnValue))
    (recs : List JsonRow)
    (hb : Covers bb before) (hbl : before.length = defs.length) (hbf : Front before)
    (ha : Covers ab after) (hal : after.length = defs.length) (haf : Front after)
    (hn : (defs.map (·.name)).Nodup)
    (hr : ∀ row ∈ rows, row.1.length = defs.length ∧ row.2.length = defs.length)
    (h : JsonRows.fromUpdate lib db tbl ⟨extra, n, bb, ab, rows⟩ defs = some recs) :
    List.Forall₂ (fun row rec => ∃ bjs ajs,
      List.Forall₂ (JsonOf lib) (logged before defs row.1) bjs ∧
      List.Forall₂ (JsonOf lib) (logged after defs row.2) ajs ∧
      rec = { ty := Spec.ascii "update"
              base64Encoded := base64Names (logged before defs row.1) bjs
                ++ (base64Names (logged after defs row.2) ajs).filter
                  (fun n => !(base64Names (logged before defs row.1) bjs).contains n)
              db := db
              tbl := tbl
              before := some (jsonFields (logged before defs row.1) bjs)
              after := some (jsonFields (logged after defs row.2) ajs) }) rows recs := by
  replace h := allSome_forall₂ _ _ _ h
  dsimp only at h
  induction h with
  | nil => exact .nil
  | @cons row rec rows recs h1 _ ih =>
    refine .cons ?_ (ih fun r hm => hr r (List.mem_cons_of_mem _ hm))
    obtain ⟨hlen1, hlen2⟩ := hr row List.mem_cons_self
    unfold jsonUpdateRow at h1
    rw [zip_filterColDefs_all bb before defs row.1 hb hbl hbf hlen1,
      zip_filterColDefs_all ab after defs row.2 ha hal haf hlen2] at h1
    cases h2 : jsonImage lib false ((logged before defs row.1).map fun x => (ColDef.of x.1, x.2)) ([], []) with
    | none => rw [h2] at h1; cases h1
    | some r =>
      obtain ⟨m, enc⟩ := r
      rw [h2] at h1
      simp only [Option.map_eq_some_iff] at h1
      obtain ⟨⟨m2, enc2⟩, h3, rfl⟩ := h1
      obtain ⟨bjs, h4, h5⟩ := jsonImage_spec lib false _ _ _ _ (logged_nodup before defs row.1 hbl hlen1 hn)
        (by simp) h2
      obtain ⟨ajs, h6, h7⟩ := jsonImage_spec lib true _ _ _ _ (logged_nodup after defs row.2 hal hlen2 hn)
        (by simp) h3
      injection h5 with h5 h8
      injection h7 with h7 h9
      refine ⟨bjs, ajs, h4, h6, ?_⟩
      rw [h5, h7, h9, h8]
      rfl

/-- one INT and one BLOB column, all logged: the hypotheses hold -/
example (lib : JsonLib) :
    let defs := [exampleCol "id" 2, exampleCol "b" 0]
    Covers [3] [true, true] ∧ (defs.map (·.name)).Nodup ∧
    JsonRows.fromInsert lib (asc "d") (asc "t") ⟨[], 2, [3], [[.long 5, .blob [1]]]⟩ defs
      = some [⟨asc "insert", [asc "b"], asc "d", asc "t", none,
          some [(asc "id", .int 5), (asc "b", .str (lib.base64 [1]))]⟩] := by
  refine ⟨covers_of _ _ rfl (by decide), by decide, ?_⟩
  have : filterColDefs [3] [exampleCol "id" 2, exampleCol "b" 0]
      = [ColDef.of (exampleCol "id" 2), ColDef.of (exampleCol "b" 0)] := by decide +kernel
  unfold JsonRows.fromInsert
  dsimp only
  rw [this]
  rfl

/-- The forms: base64 marks blobs and nothing else, and a blob's value is its base64 text; text is kept as it is
(and has to be UTF-8); NULL is null; a year is its number. Integers are C55. -/
theorem C54_forms (lib : JsonLib) (d : ColumnDefinition) (v : BinlogColumnValue) (j : Json) (e : Bool)
    (h : JsonOf lib (d, v) (j, e)) :
    (e = true ↔ ∃ bs, v = .blob bs) ∧ (∀ bs, v = .blob bs → j = .str (lib.base64 bs)) ∧
    (∀ bs, v = .string bs ∨ v = .varString bs → j = .str bs ∧ validUtf8 bs = true) ∧
    (j = .null ↔ v = .null) ∧ (∀ n, v = .year n → j = .int n) := by
  obtain ⟨p, h1, h2⟩ := h
  dsimp only at h1
  have utf : ∀ bs : Bytes, (Option.map (fun s => (Json.str s, false)) (utf8Unwrap bs)) = some (j, e) →
      j = .str bs ∧ e = false ∧ validUtf8 bs = true := by
    intro bs hh
    unfold utf8Unwrap at hh
    by_cases hv : validUtf8 bs = true
    · rw [if_pos hv] at hh; cases hh; exact ⟨rfl, rfl, hv⟩
    · rw [if_neg hv] at hh; cases hh
  have flt : ∀ n : Nat, (Option.map (fun s => (s, false)) (jsonFloat n)) = some (j, e) →
      j = .float (n % 2 ^ 64) ∧ e = false := by
    intro n hh
    unfold jsonFloat at hh
    split at hh
    · cases hh
    · cases hh; exact ⟨rfl, rfl⟩
  have key : ∀ i : Int, j = .int i → e = false → (∀ bs, v ≠ .blob bs) → (∀ bs, v ≠ .string bs ∧ v ≠ .varString bs) →
      v ≠ .null → (∀ n, v ≠ .year n) →
      (e = true ↔ ∃ bs, v = .blob bs) ∧ (∀ bs, v = .blob bs → j = .str (lib.base64 bs)) ∧
      (∀ bs, v = .string bs ∨ v = .varString bs → j = .str bs ∧ validUtf8 bs = true) ∧
      (j = .null ↔ v = .null) ∧ (∀ n, v = .year n → j = .int n) := by
    rintro i rfl rfl a b c d
    refine ⟨⟨by simp, fun ⟨bs, hb⟩ => absurd hb (a bs)⟩, fun bs hb => absurd hb (a bs),
      fun bs hb => absurd hb (by simp [b bs]), ⟨by simp, fun hb => absurd hb c⟩, fun n hb => absurd hb (d n)⟩
  cases v <;> simp only [StmtColumnValue.ofBinlog, Option.some.injEq, Option.map_eq_some_iff, reduceCtorEq] at h1
  case null => subst h1; cases h2; simp
  case float n =>
    subst h1; obtain ⟨rfl, rfl⟩ := flt _ h2; simp
  case double n =>
    subst h1; obtain ⟨rfl, rfl⟩ := flt _ h2; simp
  case blob bs =>
    subst h1; cases h2; simp
  case string bs =>
    subst h1; obtain ⟨rfl, rfl, hv⟩ := utf _ h2; simp [hv]
  case varString bs =>
    subst h1; obtain ⟨rfl, rfl, hv⟩ := utf _ h2; simp [hv]
  case newDecimal dd =>
    obtain ⟨a, _, rfl⟩ := h1; obtain ⟨rfl, rfl, hv⟩ := utf _ h2; simp
  case timestamp n => subst h1; cases h2; simp
  case date y m dd => obtain ⟨a, _, rfl⟩ := h1; cases h2; simp
  case dateTime t => obtain ⟨a, _, rfl⟩ := h1; cases h2; simp
  case time t =>
    subst h1
    simp only [toJsonValue, StmtColumnValue.newMyTime, Option.map_eq_some_iff] at h2
    obtain ⟨a, _, h2⟩ := h2; cases h2; simp
  case bit bs =>
    subst h1
    simp only [toJsonValue, StmtColumnValue.newBit, Option.map_eq_some_iff] at h2
    obtain ⟨a, _, h2⟩ := h2; cases h2; simp
  case year n => subst h1; cases h2; simp [StmtColumnValue.newYear]
  all_goals
    subst h1
    revert h2
    repeat' split
    all_goals (intro h2; cases h2; exact key _ rfl rfl (by simp) (by simp) (by simp) (by simp))

/-- C54 fails when a column that is not logged comes before one that is: the record gives the second column the
(absent) value of the first -/
theorem C54_insert_false (lib : JsonLib) :
    ∃ r, RowsV2.readFrom 2 [.long, .long] [0x02, 0x02, 0x00, 0x07, 0x00, 0x00, 0x00] = .ok r [] ∧
      Covers r.presentBitmap [false, true] ∧
      JsonRows.fromInsert lib (asc "d") (asc "t") r exampleCols
        = some [⟨asc "insert", [], asc "d", asc "t", none, some [(asc "a", .null)]⟩] ∧
      ¬ RecordsOwnValues lib exampleCols [false, true]
        (fun names fields => ⟨Spec.ascii "insert", names, asc "d", asc "t", none, some fields⟩) r.rows
        [⟨asc "insert", [], asc "d", asc "t", none, some [(asc "a", .null)]⟩] := by
  refine ⟨⟨[], 2, [0x02], [[.null, .long 7]]⟩, by decide +kernel, covers_of _ _ rfl (by decide), ?_, ?_⟩
  · have : filterColDefs [2] exampleCols = [ColDef.of (exampleCol "a" 0)] := by decide +kernel
    unfold JsonRows.fromInsert
    dsimp only
    rw [this]
    rfl
  · rintro (_ | ⟨⟨ls, h, e⟩, _⟩)
    have h : List.Forall₂ (JsonOf lib) [(exampleCol "a" 0, .long 7)] ls := h
    cases h with
    | cons h1 h2 =>
      cases h2
      obtain ⟨p, e1, e2⟩ := h1
      injection (show some (StmtColumnValue.newInt 7) = some p from e1) with e1
      subst e1
      injection (show some (Json.int 7, false) = some _ from e2) with e2
      subst e2
      revert e
      decide

end Mybin
