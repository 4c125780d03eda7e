/-
C40-C42: SQL made from row events.
-/
import Verif.Lemmas.Sql
import Verif.Lemmas.Step

namespace Mybin

open Spec (Covers Front logged)

/-! ### C41: placeholders -/

theorem quotedLiteral_eq (ft : FloatText) (p : StmtColumnValue) (t : Bytes) (q : Bool)
    (h : p.toSqlLiteral ft = some (t, q)) : quotedLiteral ft p = some (Spec.quotedIf q t) := by
  unfold quotedLiteral
  rw [h]
  cases q <;> simp [Spec.quotedIf, asc_eq]

theorem render_template (t : List (Option Bytes)) (ht : some (asc "?") ∉ t) : ∀ lits,
    render (t.map (·.getD (asc "?"))) lits = Spec.fill t lits := by
  induction t with
  | nil => intro lits; simp [render_nil, Spec.fill]
  | cons x t ih =>
    intro lits
    have ih := ih (fun h => ht (List.mem_cons_of_mem _ h))
    cases x with
    | some f =>
      rw [List.map_cons, Option.getD_some, render_text_cons, Spec.fill, ih]
      rintro rfl
      exact ht List.mem_cons_self
    | none =>
      rw [List.map_cons, Option.getD_none]
      cases lits with
      | nil => rw [render.eq_def]; dsimp only; rw [if_pos rfl, Spec.fill, ih]
      | cons l lits => rw [render_mark_cons, Spec.fill, ih]

/-- C41: one statement per parameter row; each is the text with the `i`-th placeholder replaced by the `i`-th
parameter's literal (in quotes when the literal asks for them). The fragments are those of any text with
placeholders: a fragment is a placeholder when it is `?`. -/
theorem C41_sql_list (ft : FloatText) (db : Bytes) (t : List (Option Bytes)) (ht : some (Spec.ascii "?") ∉ t)
    (rows : List (List StmtColumnValue)) (lits : List (List (Bytes × Bool)))
    (hl : List.Forall₂ (List.Forall₂ fun p l => StmtColumnValue.toSqlLiteral ft p = some l) rows lits) :
    PreparedSql.sqlList ft ⟨db, t.map (·.getD (Spec.ascii "?")), rows⟩
      = some (lits.map fun ls => Spec.fill t (ls.map fun l => Spec.quotedIf l.2 l.1)) := by
  unfold PreparedSql.sqlList
  rw [allSome_eq]
  induction hl with
  | nil => rfl
  | @cons ps ls rows lits h _ ih =>
    rw [List.map_cons, List.map_cons, List.map_cons, ih, List.cons.injEq]
    refine ⟨?_, rfl⟩
    rw [fillFragments_render ft _ ps (ls.map fun l => Spec.quotedIf l.2 l.1), ← asc_eq, render_template t ht]
    rw [allSome_eq]
    induction h with
    | nil => rfl
    | @cons p l ps ls h _ ih => rw [List.map_cons, ih, quotedLiteral_eq ft p l.1 l.2 h]; rfl

/-- the hypotheses hold of `insert into t values (?)` with a row of one string -/
example (ft : FloatText) :
    (some (Spec.ascii "?") : Option Bytes) ∉ [some (Spec.ascii "insert into t values ("), none, some (Spec.ascii ")")] ∧
    List.Forall₂ (List.Forall₂ fun p l => StmtColumnValue.toSqlLiteral ft p = some l)
      [[StmtColumnValue.newVarstring (Spec.ascii "it's")]] [[(Spec.ascii "it''s", true)]] := by
  refine ⟨by decide, List.Forall₂.cons (List.Forall₂.cons rfl List.Forall₂.nil) List.Forall₂.nil⟩

/-- C41: the number of statements is the number of parameter rows -/
theorem C41_one_per_row (ft : FloatText) (p : PreparedSql) (stmts : List Bytes) (h : p.sqlList ft = some stmts) :
    stmts.length = p.params.length := by
  rw [allSome_length h, List.length_map]

example (ft : FloatText) : ∃ stmts, PreparedSql.sqlList ft ⟨[], [asc "x = ", asc "?"], [[.newInt 3], [.newNull]]⟩
    = some stmts ∧ stmts = [asc "x = 3", asc "x = null"] := ⟨_, rfl, rfl⟩

/-- C41: a plain statement is listed as it is -/
theorem C41_plain (db sql : Bytes) (ddl : Bool) : (PlainSql.mk db sql ddl).sqlList = [sql] := rfl

/-! ### C42: string literals -/

theorem stringBody_plain (b : UInt8) (h1 : b ≠ 0x27) (h2 : b ≠ 0x5c) (t : Bytes) (ht : t ≠ []) :
    Spec.stringBody (b :: t) = (Spec.stringBody t).map fun r => (b :: r.1, r.2) := by
  cases t with
  | nil => exact absurd rfl ht
  | cons c t => rw [Spec.stringBody, if_neg h1, if_neg h2]

theorem stringBody_quotes (t : Bytes) :
    Spec.stringBody (0x27 :: 0x27 :: t) = (Spec.stringBody t).map fun r => (0x27 :: r.1, r.2) := by
  rw [Spec.stringBody, if_pos rfl, if_pos rfl]

theorem stringBody_end (t : Bytes) (h : t.head? ≠ some 0x27) : Spec.stringBody (0x27 :: t) = some ([], t) := by
  cases t with
  | nil => rw [Spec.stringBody, if_pos rfl]
  | cons c t =>
    rw [Spec.stringBody, if_pos rfl, if_neg]
    rintro rfl
    exact h rfl

theorem stringBody_verbatim (s rest : Bytes) (h1 : 0x27 ∉ s) (h2 : 0x5c ∉ s) (h : rest.head? ≠ some 0x27) :
    Spec.stringBody (s ++ 0x27 :: rest) = some (s, rest) := by
  induction s with
  | nil => exact stringBody_end rest h
  | cons b s ih =>
    rw [List.cons_append, stringBody_plain b (fun e => h1 (e ▸ List.mem_cons_self))
      (fun e => h2 (e ▸ List.mem_cons_self)) _ (by simp),
      ih (fun e => h1 (List.mem_cons_of_mem _ e)) (fun e => h2 (List.mem_cons_of_mem _ e))]
    rfl

theorem stringBody_quoteText (s rest : Bytes) (h1 : ∀ b ∈ s, b < 0x80) (h2 : 0x5c ∉ s)
    (h : rest.head? ≠ some 0x27) : Spec.stringBody (quoteText s ++ 0x27 :: rest) = some (s, rest) := by
  induction s with
  | nil => exact stringBody_end rest h
  | cons b s ih =>
    have ih := ih (fun b hb => h1 b (List.mem_cons_of_mem _ hb)) (fun e => h2 (List.mem_cons_of_mem _ e))
    have hcons : quoteText (b :: s) ++ 0x27 :: rest
        = (if b = 0x27 then [0x27, 0x27] else latin1Char b) ++ (quoteText s ++ 0x27 :: rest) := by
      unfold quoteText
      rw [List.map_cons, List.flatten_cons, List.append_assoc]
    rw [hcons]
    by_cases hb : b = 0x27
    · rw [if_pos hb, hb]
      show Spec.stringBody (0x27 :: 0x27 :: (quoteText s ++ 0x27 :: rest)) = _
      rw [stringBody_quotes, ih]; rfl
    · rw [if_neg hb, latin1Char, if_pos (h1 b List.mem_cons_self)]
      show Spec.stringBody (b :: (quoteText s ++ 0x27 :: rest)) = _
      rw [stringBody_plain b hb (fun e => h2 (e ▸ List.mem_cons_self)) _ (by simp), ih]; rfl

/-- C42, for text without backslashes that has no quote in it or is ASCII: the quoted literal, read by MySQL's
rules, denotes the original string and ends where the literal ends (whatever follows, except another quote). Missing: backslashes and quotes together with other characters
(`C42_backslash_false`, `C42_quote_false`); for bytes that are not text, see `C42_not_text_false`. -/
theorem C42_string_partial (ft : FloatText) (ct : ColumnType) (u : Bool) (v : BinaryColumnValue) (s rest : Bytes)
    (hv : v = .varString s ∨ v = .string s) (hu : validUtf8 s = true) (hb : 0x5c ∉ s)
    (hq : 0x27 ∉ s ∨ ∀ b ∈ s, b < 0x80) (hr : rest.head? ≠ some 0x27) :
    ∃ text, StmtColumnValue.toSqlLiteral ft ⟨ct, u, v⟩ = some (text, true) ∧
      Spec.stringLiteral (Spec.quotedIf true text ++ rest) = some (s, rest) := by
  by_cases hs : s.contains 0x27 = true
  · refine ⟨quoteText s, ?_, ?_⟩
    · rcases hv with rfl | rfl <;> simp only [StmtColumnValue.toSqlLiteral, hs, not_true_eq_false, if_false]
    · have hq : ∀ b ∈ s, b < 0x80 := hq.resolve_left (by simpa using hs)
      show Spec.stringLiteral (0x27 :: (quoteText s ++ Spec.ascii "'") ++ rest) = _
      rw [List.cons_append, Spec.stringLiteral, if_pos rfl, List.append_assoc]
      exact stringBody_quoteText s rest hq hb hr
  · refine ⟨s, ?_, ?_⟩
    · rcases hv with rfl | rfl <;> simp only [StmtColumnValue.toSqlLiteral, hs, not_false_eq_true, if_true,
        utf8Unwrap, hu, Option.map_some, Bool.false_eq_true]
    · show Spec.stringLiteral (0x27 :: (s ++ Spec.ascii "'") ++ rest) = _
      rw [List.cons_append, Spec.stringLiteral, if_pos rfl, List.append_assoc]
      exact stringBody_verbatim s rest (by simpa using hs) hb hr

example : validUtf8 (Spec.ascii "it's") = true ∧ 0x5c ∉ Spec.ascii "it's" ∧ (∀ b ∈ Spec.ascii "it's", b < 0x80) ∧
    (Spec.ascii ", 2)").head? ≠ some 0x27 := by decide

/-- C42 fails: a backslash at the end of a string swallows the closing quote, so that the literal takes in the text
after it. -/
theorem C42_backslash_false (ft : FloatText) :
    ∃ text, StmtColumnValue.toSqlLiteral ft (.newVarstring (Spec.ascii "a\\")) = some (text, true) ∧
      Spec.stringLiteral (Spec.quotedIf true text ++ Spec.ascii ",'b')") = some (Spec.ascii "a',", Spec.ascii "b')") :=
  ⟨Spec.ascii "a\\", rfl, by decide⟩

/-- C42 fails: in a string with a quote, every other byte outside ASCII is turned into two bytes (`é'` becomes
`Ã©'`). -/
theorem C42_quote_false (ft : FloatText) :
    validUtf8 [0xc3, 0xa9, 0x27] = true ∧
    ∃ text, StmtColumnValue.toSqlLiteral ft (.newVarstring [0xc3, 0xa9, 0x27]) = some (text, true) ∧
      Spec.stringLiteral (Spec.quotedIf true text) = some ([0xc3, 0x83, 0xc2, 0xa9, 0x27], []) :=
  ⟨by decide, [0xc3, 0x83, 0xc2, 0xa9, 0x27, 0x27], rfl, by decide⟩

/-- C42 fails: a string that is not UTF-8 (a `VARCHAR` in another character set, a `VARBINARY`) makes the
conversion panic. -/
theorem C42_not_text_false (ft : FloatText) :
    StmtColumnValue.toSqlLiteral ft (.newVarstring [0xff]) = none := rfl

/-- C42: exactly the strings without a quote that are not UTF-8 panic -/
theorem C42_panic_iff (ft : FloatText) (s : Bytes) :
    StmtColumnValue.toSqlLiteral ft (.newVarstring s) = none ↔ 0x27 ∉ s ∧ validUtf8 s = false := by
  simp only [StmtColumnValue.toSqlLiteral, StmtColumnValue.newVarstring]
  by_cases hs : s.contains 0x27 = true
  · rw [if_neg (by simpa using hs)]
    simp at hs
    simp [hs]
  · rw [if_pos hs]
    simp at hs
    simp [hs, utf8Unwrap]

theorem hexDigit_spec : ∀ n, n < 16 →
    Spec.hexDigit? (hexDigit n) = some n ∧ hexDigit n ≠ 0x27 := by decide +kernel

theorem hexBody_hexText (bs rest : Bytes) : Spec.hexBody (hexText bs ++ 0x27 :: rest) = some (bs, rest) := by
  induction bs with
  | nil =>
    cases rest with
    | nil => rfl
    | cons c t =>
      show Spec.hexBody (0x27 :: c :: t) = _
      rw [Spec.hexBody, if_pos rfl]
  | cons b bs ih =>
    have hb := b.toNat_lt
    obtain ⟨h1, h2⟩ := hexDigit_spec (b.toNat / 16) (by omega)
    obtain ⟨h3, _⟩ := hexDigit_spec (b.toNat % 16) (by omega)
    show Spec.hexBody (hexDigit _ :: hexDigit _ :: (hexText bs ++ 0x27 :: rest)) = _
    rw [Spec.hexBody, if_neg h2, h1, h3]
    dsimp only
    rw [ih]
    simp only [Option.map_some]
    rw [show b.toNat / 16 * 16 + b.toNat % 16 = b.toNat by omega, UInt8.ofNat_toNat]

/-- C42, for binary values: the literal of a blob is a hexadecimal literal that denotes its bytes and ends where
the literal ends -/
theorem C42_blob (ft : FloatText) (ct : ColumnType) (u : Bool) (v : BinaryColumnValue) (bs rest : Bytes)
    (hv : v = .blob bs ∨ v = .geometry bs) :
    ∃ text, StmtColumnValue.toSqlLiteral ft ⟨ct, u, v⟩ = some (text, false) ∧
      Spec.hexLiteral (text ++ rest) = some (bs, rest) := by
  refine ⟨asc "x'" ++ hexText bs ++ asc "'", by rcases hv with rfl | rfl <;> rfl, ?_⟩
  rw [List.append_assoc, List.append_assoc]
  show Spec.hexLiteral (0x78 :: 0x27 :: (hexText bs ++ 0x27 :: rest)) = _
  rw [Spec.hexLiteral, if_pos ⟨Or.inl rfl, rfl⟩]
  exact hexBody_hexText bs rest

example (ft : FloatText) : StmtColumnValue.toSqlLiteral ft (.newBlob [0x00, 0xab]) = some (Spec.ascii "x'00ab'", false) :=
  rfl

/-! ### C40: each column has its own value -/

/-- the column's flags -/
def IsKey (d : ColumnDefinition) : Bool := d.flags.testBit 1 || d.flags.testBit 2

/-- `l` is the text of the value `v` of the column `d` in a statement -/
def TextOf (ft : FloatText) (x : ColumnDefinition × BinlogColumnValue) (l : Bytes) : Prop :=
  ∃ p text quote, StmtColumnValue.ofBinlog x.2 (x.1.flags.testBit 5) = some p ∧
    p.toSqlLiteral ft = some (text, quote) ∧ l = Spec.quotedIf quote text

/-- the pairs of column name and text -/
def named (xs : List (ColumnDefinition × BinlogColumnValue)) (ls : List Bytes) : List (Bytes × Bytes) :=
  (xs.map (·.1.name)).zip ls

theorem colDef_unsigned (d : ColumnDefinition) : (ColDef.of d).unsigned = d.flags.testBit 5 := by
  show hasFlag d.flags 0x20 = _
  exact hasFlag_eq_testBit d.flags 5

theorem colDef_key (d : ColumnDefinition) : (ColDef.of d).key = IsKey d := by
  show (hasFlag d.flags 0x02 || hasFlag d.flags 0x04) = _
  rw [show (0x02 : Nat) = 2 ^ 1 from rfl, show (0x04 : Nat) = 2 ^ 2 from rfl, hasFlag_eq_testBit,
    hasFlag_eq_testBit]; rfl

theorem allSome_forall₂ {α β : Type} (f : α → Option β) (l : List α) (r : List β)
    (h : allSome (l.map f) = some r) : List.Forall₂ (fun a b => f a = some b) l r := by
  rw [allSome_eq] at h
  induction l generalizing r with
  | nil => cases r with
    | nil => exact .nil
    | cons _ _ => simp at h
  | cons a l ih =>
    cases r with
    | nil => simp at h
    | cons b r =>
      simp only [List.map_cons, List.cons.injEq] at h
      exact .cons h.1 (ih r h.2)

theorem forall₂_allSome {α β : Type} (f : α → Option β) (l : List α) (r : List β)
    (h : List.Forall₂ (fun a b => f a = some b) l r) : allSome (l.map f) = some r := by
  rw [allSome_eq]
  induction h with
  | nil => rfl
  | cons h _ ih => rw [List.map_cons, List.map_cons, ih, h]

/-- under a bitmap whose logged columns come first, the columns and values used are those of the logged columns -/
theorem zip_filterColDefs (use : ColDef → Bool) (bm : Bytes) (present : List Bool) (defs : List ColumnDefinition)
    (row : List BinlogColumnValue) (h : Covers bm present) (hl : present.length = defs.length)
    (hf : Front present) (hr : row.length = defs.length) :
    ((filterColDefs bm defs).zip row).filter (fun x => use x.1)
      = ((logged present defs row).filter fun x => use (ColDef.of x.1)).map fun x => (ColDef.of x.1, x.2) := by
  rw [filterColDefs_eq bm present defs h hl, ← zip_front present defs row hf hl hr]
  rw [show (fun x : Bool × ColumnDefinition => ColDef.of x.2) = ColDef.of ∘ (·.2) from rfl, ← List.map_map,
    List.zip_map_left, List.filter_map]
  rfl

theorem rowParams_logged (use : ColDef → Bool) (bm : Bytes) (present : List Bool) (defs : List ColumnDefinition)
    (row : List BinlogColumnValue) (h : Covers bm present) (hl : present.length = defs.length)
    (hf : Front present) (hr : row.length = defs.length) :
    rowParams use (filterColDefs bm defs) row
      = allSome (((logged present defs row).filter fun x => use (ColDef.of x.1)).map fun x =>
          StmtColumnValue.ofBinlog x.2 (x.1.flags.testBit 5)) := by
  unfold rowParams
  rw [zip_filterColDefs use bm present defs row h hl hf hr, List.map_map]
  congr 1
  apply List.map_congr_left
  intro x _
  simp [colDef_unsigned]

theorem filterColDefs_names (use : ColDef → Bool) (bm : Bytes) (present : List Bool)
    (defs : List ColumnDefinition) (row : List BinlogColumnValue) (h : Covers bm present)
    (hl : present.length = defs.length) (hr : row.length = defs.length) :
    ((filterColDefs bm defs).filter use).map (·.name)
      = ((logged present defs row).filter fun x => use (ColDef.of x.1)).map (·.1.name) := by
  rw [filterColDefs_eq bm present defs h hl]
  rw [show (fun x : Bool × ColumnDefinition => ColDef.of x.2) = ColDef.of ∘ (·.2) from rfl, ← List.map_map,
    ← logged_map_fst present defs row hl hr, List.map_map, List.filter_map, List.map_map]
  rfl

/-- the texts of the values, from the parameters -/
theorem textOf_of_params (ft : FloatText) (xs : List (ColumnDefinition × BinlogColumnValue))
    (ps : List StmtColumnValue) (ls : List Bytes)
    (h1 : allSome (xs.map fun x => StmtColumnValue.ofBinlog x.2 (x.1.flags.testBit 5)) = some ps)
    (h2 : allSome (ps.map (quotedLiteral ft)) = some ls) : List.Forall₂ (TextOf ft) xs ls := by
  replace h1 := allSome_forall₂ _ _ _ h1
  induction h1 generalizing ls with
  | nil =>
    cases ls with
    | nil => exact .nil
    | cons _ _ => simp [allSome] at h2
  | @cons x p xs ps hp _ ih =>
    rw [List.map_cons] at h2
    cases hq : p.toSqlLiteral ft with
    | none => rw [quotedLiteral, hq] at h2; simp [allSome] at h2
    | some tq =>
      rw [quotedLiteral_eq ft p tq.1 tq.2 hq] at h2
      simp only [allSome, Option.map_eq_some_iff] at h2
      obtain ⟨ls', h3, rfl⟩ := h2
      exact .cons ⟨p, tq.1, tq.2, hp, hq, rfl⟩ (ih ls' h3)

theorem fill_panics (ft : FloatText) (fs : List Bytes) : ∀ (ps : List StmtColumnValue) (s : Bytes),
    ps.length = marks fs → fillFragments ft fs ps = some s →
    ∃ ls, allSome (ps.map (quotedLiteral ft)) = some ls ∧ s = render fs ls := by
  induction fs with
  | nil =>
    intro ps s hl h
    have : ps = [] := by simpa [marks] using hl
    subst this
    rw [fillFragments] at h
    exact ⟨[], rfl, by rw [render_nil]; exact (Option.some.inj h).symm⟩
  | cons f fs ih =>
    intro ps s hl h
    unfold marks at hl
    rw [List.count_cons] at hl
    rw [fillFragments.eq_def] at h
    dsimp only at h
    by_cases hf : f = asc "?"
    · subst hf
      rw [if_pos rfl] at h
      rw [if_pos (by simp)] at hl
      cases ps with
      | nil => simp at hl
      | cons p ps =>
        dsimp only at h
        cases hq : quotedLiteral ft p with
        | none => rw [hq] at h; cases h
        | some l =>
          rw [hq] at h
          simp only [Option.map_eq_some_iff] at h
          obtain ⟨s', h1, rfl⟩ := h
          obtain ⟨ls, h2, rfl⟩ := ih ps s' (by simpa [marks] using hl) h1
          exact ⟨l :: ls, by simp [allSome, hq, h2], by rw [render_mark_cons]⟩
    · rw [if_neg hf] at h
      rw [if_neg (by simpa using hf)] at hl
      simp only [Option.map_eq_some_iff] at h
      obtain ⟨s', h1, rfl⟩ := h
      obtain ⟨ls, h2, rfl⟩ := ih ps s' (by simpa [marks] using hl) h1
      exact ⟨ls, h2, by rw [render_text_cons _ _ _ hf]⟩

/-- What C40 asks of the statements for inserted rows: one statement per row, naming the logged columns, with the
text of each column's own value in that row. -/
def InsertsOwnValues (ft : FloatText) (db tbl : Bytes) (defs : List ColumnDefinition) (present : List Bool)
    (rows : List (List BinlogColumnValue)) (stmts : List Bytes) : Prop :=
  List.Forall₂ (fun row stmt => ∃ ls, List.Forall₂ (TextOf ft) (logged present defs row) ls ∧
    stmt = Spec.insertText db tbl (named (logged present defs row) ls)) rows stmts

/-- the same for deleted rows: the condition is on the key columns -/
def DeletesByOwnKey (ft : FloatText) (db tbl : Bytes) (defs : List ColumnDefinition) (present : List Bool)
    (rows : List (List BinlogColumnValue)) (stmts : List Bytes) : Prop :=
  List.Forall₂ (fun row stmt =>
    let keys := (logged present defs row).filter fun x => IsKey x.1
    ∃ ls, List.Forall₂ (TextOf ft) keys ls ∧ stmt = Spec.deleteText db tbl (named keys ls)) rows stmts

/-- the same for updated rows: the new values of the columns logged after the change, for the row with the
values of the key columns logged before the change -/
def UpdatesOwnValues (ft : FloatText) (db tbl : Bytes) (defs : List ColumnDefinition)
    (before after : List Bool) (rows : List (List BinlogColumnValue × List BinlogColumnValue))
    (stmts : List Bytes) : Prop :=
  List.Forall₂ (fun row stmt =>
    let sets := logged after defs row.2
    let keys := (logged before defs row.1).filter fun x => IsKey x.1
    ∃ ls ks, List.Forall₂ (TextOf ft) sets ls ∧ List.Forall₂ (TextOf ft) keys ks ∧
      stmt = Spec.updateText db tbl (named sets ls) (named keys ks)) rows stmts

theorem forall₂_map_both {α β γ : Type} {f : α → Option β} {g : β → Option γ} {R : α → γ → Prop} (l : List α)
    (bs : List β) (cs : List γ) (h1 : allSome (l.map f) = some bs) (h2 : allSome (bs.map g) = some cs)
    (h : ∀ a ∈ l, ∀ b c, f a = some b → g b = some c → R a c) : List.Forall₂ R l cs := by
  have h1 := allSome_forall₂ _ _ _ h1
  have h2 := allSome_forall₂ _ _ _ h2
  clear * - h1 h2 h
  induction h1 generalizing cs with
  | nil => cases h2; exact .nil
  | cons ha _ ih =>
    cases h2 with
    | cons hb h2 =>
      exact .cons (h _ List.mem_cons_self _ _ ha hb) (ih _ (fun a ha => h a (List.mem_cons_of_mem _ ha)) h2)

/-- C40 for INSERT, when the logged columns come first (in particular when all are logged). Missing: events in
which a column that is not logged comes before one that is (`C40_insert_false`). -/
theorem C40_insert_partial (ft : FloatText) (db tbl extra bm : Bytes) (n : Nat) (present : List Bool)
    (defs : List ColumnDefinition) (rows : List (List BinlogColumnValue)) (p : PreparedSql) (stmts : List Bytes)
    (hc : Covers bm present) (hl : present.length = defs.length) (hf : Front present)
    (hr : ∀ row ∈ rows, row.length = defs.length)
    (hp : PreparedSql.fromInsert db tbl ⟨extra, n, bm, rows⟩ defs = some p) (hs : p.sqlList ft = some stmts) :
    InsertsOwnValues ft db tbl defs present rows stmts := by
  simp only [PreparedSql.fromInsert, Option.map_eq_some_iff] at hp
  obtain ⟨params, hp, rfl⟩ := hp
  refine forall₂_map_both rows params stmts hp hs ?_
  intro row hrow ps stmt h1 h2
  have hlen := hr row hrow
  have e := filterColDefs_names (fun _ => true) bm present defs row hc hl hlen
  rw [List.filter_eq_self.2 (fun _ _ => rfl), List.filter_eq_self.2 (fun _ _ => rfl)] at e
  rw [rowParams_logged _ bm present defs row hc hl hf hlen, List.filter_eq_self.2 (fun _ _ => rfl)] at h1
  have hlen2 : ps.length = (filterColDefs bm defs).length := by
    rw [allSome_length h1, List.length_map, ← List.length_map (f := fun x : ColumnDefinition × _ => x.1.name), ← e,
      List.length_map]
  obtain ⟨ls, h3, h4⟩ := fill_panics ft _ ps stmt (by rw [marks_insertFragments, hlen2]) h2
  refine ⟨ls, textOf_of_params ft _ ps ls h1 h3, ?_⟩
  rw [h4, render_insertFragments _ _ _ _ (by rw [allSome_length h3, List.length_map, hlen2]), e]
  rfl

/-- C40 for DELETE, when the logged columns come first -/
theorem C40_delete_partial (ft : FloatText) (db tbl extra bm : Bytes) (n : Nat) (present : List Bool)
    (defs : List ColumnDefinition) (rows : List (List BinlogColumnValue)) (p : PreparedSql) (stmts : List Bytes)
    (hc : Covers bm present) (hl : present.length = defs.length) (hf : Front present)
    (hr : ∀ row ∈ rows, row.length = defs.length)
    (hp : PreparedSql.fromDelete db tbl ⟨extra, n, bm, rows⟩ defs = some p) (hs : p.sqlList ft = some stmts) :
    DeletesByOwnKey ft db tbl defs present rows stmts := by
  simp only [PreparedSql.fromDelete, deleteFragments_eq, Option.map_eq_some_iff] at hp
  obtain ⟨params, hp, rfl⟩ := hp
  refine forall₂_map_both rows params stmts hp hs ?_
  intro row hrow ps stmt h1 h2
  have hlen := hr row hrow
  have e := filterColDefs_names (·.key) bm present defs row hc hl hlen
  rw [rowParams_logged _ bm present defs row hc hl hf hlen] at h1
  have hlen2 : ps.length = ((filterColDefs bm defs).filter (·.key)).length := by
    rw [allSome_length h1, List.length_map, ← List.length_map (f := fun x : ColumnDefinition × _ => x.1.name), ← e,
      List.length_map]
  obtain ⟨ls, h3, h4⟩ := fill_panics ft _ ps stmt
    (by rw [marks_firstAssign _ _ (delete_head_long db tbl), hlen2]) h2
  simp only [colDef_key] at e h1
  refine ⟨ls, textOf_of_params ft _ ps ls h1 h3, ?_⟩
  rw [h4, render_delete _ _ _ _ (by rw [allSome_length h3, List.length_map, hlen2]), e]
  rfl

theorem allSome_append {α : Type} (a b : List (Option α)) (x y : List α) (h1 : allSome a = some x)
    (h2 : allSome b = some y) : allSome (a ++ b) = some (x ++ y) := by
  rw [allSome_eq] at *
  rw [h1, h2, List.map_append]

theorem allSome_append_inv {α β : Type} (f : α → Option β) (a b : List α) (ls : List β)
    (h : allSome ((a ++ b).map f) = some ls) :
    ∃ l1 l2, ls = l1 ++ l2 ∧ allSome (a.map f) = some l1 ∧ allSome (b.map f) = some l2 := by
  rw [allSome_eq, List.map_append] at h
  obtain ⟨l1, l2, e, h1, h2⟩ := List.append_eq_map_iff.1 h
  exact ⟨l1, l2, e, (allSome_eq _ _).2 h1.symm, (allSome_eq _ _).2 h2.symm⟩

/-- C40 for UPDATE, when the logged columns come first in both images -/
theorem C40_update_partial (ft : FloatText) (db tbl extra bb ab : Bytes) (n : Nat) (before after : List Bool)
    (defs : List ColumnDefinition) (rows : List (List BinlogColumnValue × List BinlogColumnValue))
    (p : PreparedSql) (stmts : List Bytes)
    (hb : Covers bb before) (hbl : before.length = defs.length) (hbf : Front before)
    (ha : Covers ab after) (hal : after.length = defs.length) (haf : Front after)
    (hr : ∀ row ∈ rows, row.1.length = defs.length ∧ row.2.length = defs.length)
    (hp : PreparedSql.fromUpdate db tbl ⟨extra, n, bb, ab, rows⟩ defs = some p) (hs : p.sqlList ft = some stmts) :
    UpdatesOwnValues ft db tbl defs before after rows stmts := by
  simp only [PreparedSql.fromUpdate, updateFragments_eq, Option.map_eq_some_iff] at hp
  obtain ⟨params, hp, rfl⟩ := hp
  refine forall₂_map_both rows params stmts hp hs ?_
  intro row hrow ps stmt h1 h2
  obtain ⟨hlen1, hlen2⟩ := hr row hrow
  have e1 := filterColDefs_names (fun _ => true) ab after defs row.2 ha hal hlen2
  rw [List.filter_eq_self.2 (fun _ _ => rfl), List.filter_eq_self.2 (fun _ _ => rfl)] at e1
  have e2 := filterColDefs_names (·.key) bb before defs row.1 hb hbl hlen1
  unfold updateParams at h1
  rw [rowParams_logged _ ab after defs row.2 ha hal haf hlen2, List.filter_eq_self.2 (fun _ _ => rfl),
    rowParams_logged _ bb before defs row.1 hb hbl hbf hlen1] at h1
  generalize hq1 : allSome ((logged after defs row.2).map _) = q1 at h1
  cases q1 with
  | none => cases h1
  | some p1 =>
    simp only [Option.map_eq_some_iff] at h1
    obtain ⟨p2, hq2, rfl⟩ := h1
    have l1 : p1.length = (filterColDefs ab defs).length := by
      rw [allSome_length hq1, List.length_map, ← List.length_map (f := fun x : ColumnDefinition × _ => x.1.name),
        ← e1, List.length_map]
    have l2 : p2.length = ((filterColDefs bb defs).filter (·.key)).length := by
      rw [allSome_length hq2, List.length_map, ← List.length_map (f := fun x : ColumnDefinition × _ => x.1.name),
        ← e2, List.length_map]
    obtain ⟨ls, h3, h4⟩ := fill_panics ft _ (p1 ++ p2) stmt (by
      rw [marks_append, marks_firstAssign _ _ (update_head_long db tbl), marks_firstAssign _ _ (by decide),
        List.length_append, l1, l2]) h2
    obtain ⟨s1, s2, rfl, h5, h6⟩ := allSome_append_inv _ _ _ _ h3
    simp only [colDef_key] at e2 hq2
    refine ⟨s1, s2, textOf_of_params ft _ p1 s1 hq1 h5, textOf_of_params ft _ p2 s2 hq2 h6, ?_⟩
    rw [h4, render_update _ _ _ _ _ _ (by rw [allSome_length h5, List.length_map, l1])
      (by rw [allSome_length h6, List.length_map, l2]), e1, e2]
    rfl

theorem rowParams_length (use : ColDef → Bool) (cs : List ColDef) (row : List BinlogColumnValue)
    (ps : List StmtColumnValue) (h : cs.length ≤ row.length) (hp : rowParams use cs row = some ps) :
    ps.length = (cs.filter use).length := by
  unfold rowParams at hp
  rw [allSome_length hp, List.length_map]
  clear hp
  induction cs generalizing row with
  | nil => rfl
  | cons c cs ih =>
    cases row with
    | nil => simp at h
    | cons v row =>
      have := ih row (by simpa using h)
      cases hu : use c <;> simp [hu, this]

theorem filterColDefs_length (bm : Bytes) (defs : List ColumnDefinition) :
    (filterColDefs bm defs).length ≤ defs.length := by
  unfold filterColDefs
  rw [List.length_map]
  exact le_trans (List.length_filter_le _ _) (by simp)

/-- C40: the prepared INSERT names the logged columns, in order, and has one placeholder for each; every row of
parameters has one parameter per placeholder. This needs no condition on which columns are logged. -/
theorem C40_insert_placeholders (db tbl extra bm : Bytes) (n : Nat) (present : List Bool)
    (defs : List ColumnDefinition) (rows : List (List BinlogColumnValue)) (p : PreparedSql)
    (hc : Covers bm present) (hl : present.length = defs.length) (hr : ∀ row ∈ rows, row.length = defs.length)
    (hp : PreparedSql.fromInsert db tbl ⟨extra, n, bm, rows⟩ defs = some p) :
    let cols := ((present.zip defs).filter (·.1)).map (·.2)
    p.sqlStmt = Spec.insertText db tbl (cols.map fun d => (d.name, Spec.ascii "?")) ∧
      p.params.length = rows.length ∧ ∀ ps ∈ p.params, ps.length = cols.length := by
  simp only [PreparedSql.fromInsert, Option.map_eq_some_iff] at hp
  obtain ⟨params, hp, rfl⟩ := hp
  have hcs := filterColDefs_eq bm present defs hc hl
  have hlen : (filterColDefs bm defs).length = (((present.zip defs).filter (·.1)).map (·.2)).length := by
    rw [hcs, List.length_map, List.length_map]
  refine ⟨?_, by rw [allSome_length hp, List.length_map], ?_⟩
  · show (insertFragments db tbl (filterColDefs bm defs)).flatten = _
    rw [← render_marks_only _ (filterColDefs bm defs).length (by rw [marks_insertFragments]),
      render_insertFragments _ _ _ _ (by simp)]
    congr 1
    rw [hcs, List.map_map, List.map_map]
    generalize (present.zip defs).filter (·.1) = l
    induction l with
    | nil => rfl
    | cons x l ih =>
      simp only [List.map_cons, List.length_cons, List.replicate_succ, List.zip_cons_cons, List.cons.injEq] at ih ⊢
      exact ⟨rfl, ih⟩
  · intro ps hps
    obtain ⟨i, hi, rfl⟩ := List.getElem_of_mem hps
    have h2 := allSome_getElem? hp i
    rw [List.getElem?_eq_getElem hi, List.getElem?_map] at h2
    simp only [Option.map_some, Option.map_eq_some_iff] at h2
    obtain ⟨row, h3, h4⟩ := h2
    rw [rowParams_length _ _ row _ (by rw [hr row (List.mem_of_getElem? h3)]; exact filterColDefs_length bm defs) h4,
      List.filter_eq_self.2 (fun _ _ => rfl), hlen]

/-- a column `name` of type INT with the given flags -/
def exampleCol (name : String) (flags : Nat) : ColumnDefinition :=
  ⟨[], [], [], [], Spec.ascii name, [], 63, 11, .long, flags, 0, []⟩

/-- `id` is the primary key -/
def exampleCols : List ColumnDefinition := [exampleCol "id" 2, exampleCol "a" 0]

theorem covers_of (bm : Bytes) (present : List Bool) (h1 : bm.length = (present.length + 7) / 8)
    (h2 : ∀ i, i < present.length → Spec.bit? bm i = present[i]?) : Covers bm present :=
  ⟨h1, fun i b h => by
    rw [h2 i (by by_contra hc; rw [List.getElem?_eq_none (by omega)] at h; cases h), h]⟩

/-- both columns logged: the hypotheses hold, and the statement is the expected one -/
example (ft : FloatText) :
    Covers [3] [true, true] ∧ Front [true, true] ∧
    ∃ p, PreparedSql.fromInsert (asc "d") (asc "t") ⟨[], 2, [3], [[.long 1, .long 0xffffffff]]⟩ exampleCols = some p ∧
      p.sqlList ft = some [Spec.ascii "INSERT INTO `d`.`t` (`id`,`a`) VALUES (1,-1)"] := by
  refine ⟨covers_of _ _ rfl (by decide), ?_,
    ⟨asc "d", insertFragments (asc "d") (asc "t") (exampleCols.map ColDef.of), [[.newInt 1, .newInt (-1)]]⟩,
    by decide +kernel, rfl⟩
  intro i j hij hj
  match i, j with
  | 0, _ => rfl
  | 1, _ => rfl
  | i + 2, j + 3 => simp at hj

example (ft : FloatText) :
    ∃ p, PreparedSql.fromDelete (asc "d") (asc "t") ⟨[], 2, [3], [[.long 1, .long 2]]⟩ exampleCols = some p ∧
      p.sqlList ft = some [Spec.ascii "DELETE FROM `d`.`t` WHERE `id` = 1"] :=
  ⟨⟨asc "d", [asc "DELETE FROM `d`.`t` WHERE `id` = ", asc "?"], [[.newInt 1]]⟩, by decide +kernel, rfl⟩

example (ft : FloatText) :
    ∃ p, PreparedSql.fromUpdate (asc "d") (asc "t") ⟨[], 2, [3], [3], [([.long 1, .long 2], [.long 1, .null])]⟩
        exampleCols = some p ∧
      p.sqlList ft = some [Spec.ascii "UPDATE `d`.`t` SET `id` = 1, `a` = null WHERE `id` = 1"] :=
  ⟨⟨asc "d", [asc "UPDATE `d`.`t` SET `id` = ", asc "?", asc ", `a` = ", asc "?", asc " WHERE `id` = ", asc "?"],
    [[.newInt 1, .newNull, .newInt 1]]⟩, by decide +kernel, rfl⟩

/-- C40 fails when a column that is not logged comes before one that is: the statement gives the second column the
(absent) value of the first. The event is one the decoder produces: only the second of two columns is logged, with
the value 7. -/
theorem C40_insert_false (ft : FloatText) :
    ∃ r p, RowsV2.readFrom 2 [.long, .long] [0x02, 0x02, 0x00, 0x07, 0x00, 0x00, 0x00] = .ok r [] ∧
      Covers r.presentBitmap [false, true] ∧
      PreparedSql.fromInsert (asc "d") (asc "t") r exampleCols = some p ∧
      p.sqlList ft = some [Spec.ascii "INSERT INTO `d`.`t` (`a`) VALUES (null)"] ∧
      ¬ InsertsOwnValues ft (asc "d") (asc "t") exampleCols [false, true] r.rows
        [Spec.ascii "INSERT INTO `d`.`t` (`a`) VALUES (null)"] := by
  refine ⟨⟨[], 2, [0x02], [[.null, .long 7]]⟩,
    ⟨asc "d", [asc "INSERT INTO `d`.`t` (`a`) VALUES (", asc "?", asc ")"], [[.newNull]]⟩,
    by decide +kernel, covers_of _ _ rfl (by decide), by decide +kernel, rfl, ?_⟩
  · rintro (_ | ⟨⟨ls, h, e⟩, _⟩)
    have h : List.Forall₂ (TextOf ft) [(exampleCol "a" 0, .long 7)] ls := h
    cases h with
    | cons h1 h2 =>
      cases h2
      obtain ⟨p, t, q, e1, e2, rfl⟩ := h1
      injection (show some (StmtColumnValue.newInt 7) = some p from e1) with e1
      subst e1
      injection (show some (Spec.ascii "7", false) = some (t, q) from e2) with e2
      injection e2 with e2 e3
      subst e2 e3
      revert e
      decide

end Mybin
