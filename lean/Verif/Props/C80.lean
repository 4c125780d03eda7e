/-
C80: the statements made from row events are read back as what they were made from.
-/
import Verif.Props.C43
import Verif.Props.C79

namespace Mybin

open Spec (Covers Front logged ColKind Val Fits Lit Ends FloatRead Stmt strip)

/-! ### identifiers -/

theorem identBody_plain (b : UInt8) (h : b ≠ 0x60) (t : Bytes) (ht : t ≠ []) :
    Spec.identBody (b :: t) = (Spec.identBody t).map fun r => (b :: r.1, r.2) := by
  cases t with
  | nil => exact absurd rfl ht
  | cons c t => rw [Spec.identBody, if_neg h]

theorem identBody_end (t : Bytes) (h : t.head? ≠ some 0x60) : Spec.identBody (0x60 :: t) = some ([], t) := by
  cases t with
  | nil => rw [Spec.identBody, if_pos rfl]
  | cons c t =>
    rw [Spec.identBody, if_pos rfl, if_neg]
    rintro rfl
    exact h rfl

theorem identBody_name (s rest : Bytes) (h1 : 0x60 ∉ s) (h : rest.head? ≠ some 0x60) :
    Spec.identBody (s ++ 0x60 :: rest) = some (s, rest) := by
  induction s with
  | nil => exact identBody_end rest h
  | cons b s ih =>
    rw [List.cons_append, identBody_plain b (fun e => h1 (e ▸ List.mem_cons_self)) _ (by simp),
      ih (fun e => h1 (List.mem_cons_of_mem _ e))]
    rfl

theorem ident_tick (s rest : Bytes) (h1 : 0x60 ∉ s) (h : rest.head? ≠ some 0x60) :
    Spec.ident (Spec.tick s ++ rest) = some (s, rest) := by
  have e : Spec.tick s ++ rest = 0x60 :: (s ++ 0x60 :: rest) := by
    simp only [Spec.tick, List.append_assoc]; rfl
  rw [e, Spec.ident, if_pos rfl]
  exact identBody_name s rest h1 h

theorem tableName_text (db tbl rest : Bytes) (h1 : 0x60 ∉ db) (h2 : 0x60 ∉ tbl) (h : rest.head? ≠ some 0x60) :
    Spec.tableName (Spec.tick db ++ (Spec.ascii "." ++ (Spec.tick tbl ++ rest))) = some ((db, tbl), rest) := by
  unfold Spec.tableName
  rw [ident_tick db _ h1 (by show some (0x2e : UInt8) ≠ _; decide), Option.bind_some, strip_append, Option.bind_some,
    ident_tick tbl rest h2 h]
  rfl

/-! ### lists -/

theorem sepBy_joined {α : Type} (item : Bytes → Option (α × Bytes)) (sep : String) (good : Bytes → Prop) (tail : Bytes)
    (hs : ∀ x, good (Spec.ascii sep ++ x)) (ht : good tail) (hn : strip (Spec.ascii sep) tail = none) :
    ∀ (ts : List Bytes) (as : List α),
      List.Forall₂ (fun t a => ∀ r, good r → item (t ++ r) = some (a, r)) ts as → ts ≠ [] →
      ∀ n, ts.length ≤ n → Spec.sepBy item sep n (Spec.joined sep ts ++ tail) = some (as, tail) := by
  intro ts as h
  induction h with
  | nil => intro hne; exact absurd rfl hne
  | @cons t a ts as h1 h2 ih =>
    intro _ n hl
    obtain ⟨n, rfl⟩ : ∃ m, n = m + 1 := ⟨n - 1, by simp at hl; omega⟩
    cases h2 with
    | nil =>
      rw [Spec.joined, Spec.sepBy, h1 tail ht, Option.bind_some]
      dsimp only
      rw [hn]
    | @cons u b us bs h3 h4 =>
      have e : Spec.joined sep (t :: u :: us) ++ tail = t ++ (Spec.ascii sep ++ (Spec.joined sep (u :: us) ++ tail)) := by
        rw [Spec.joined]
        simp only [List.append_assoc]
        simp
      rw [e, Spec.sepBy, h1 _ (hs _), Option.bind_some]
      dsimp only
      rw [strip_append]
      dsimp only
      rw [ih (by simp) n (by simp at hl ⊢; omega)]
      rfl

theorem joined_length (sep : String) (ts : List Bytes) (h : ∀ t ∈ ts, t ≠ []) : ts.length ≤ (Spec.joined sep ts).length := by
  cases ts with
  | nil => simp
  | cons t ts =>
    have key : ∀ ts : List Bytes, (∀ t ∈ ts, t ≠ []) → ts.length ≤ ((ts.map (Spec.ascii sep ++ ·)).flatten).length := by
      intro ts
      induction ts with
      | nil => intro _; simp
      | cons u us ih =>
        intro h
        have h1 := List.length_pos_iff.2 (h u List.mem_cons_self)
        have h2 := ih (fun t ht => h t (List.mem_cons_of_mem _ ht))
        simp only [List.map_cons, List.flatten_cons, List.length_append, List.length_cons] at h2 ⊢
        omega
    rw [joined_cons, List.length_append, List.length_cons]
    have h1 := List.length_pos_iff.2 (h t List.mem_cons_self)
    have h2 := key ts (fun t ht => h t (List.mem_cons_of_mem _ ht))
    omega

/-- the text stands for the literal -/
def ReadsAs (t : Bytes) (l : Lit) : Prop := ∀ tail, Ends tail → Spec.literal (t ++ tail) = some (l, tail)

theorem reads_ne_nil (t : Bytes) (l : Lit) (h : ReadsAs t l) : t ≠ [] := by
  rintro rfl
  have := h [] (Or.inl rfl)
  cases this

theorem equality_text (x : Bytes × Bytes) (l : Lit) (hx : 0x60 ∉ x.1) (h : ReadsAs x.2 l) (r : Bytes) (hr : Ends r) :
    Spec.equality (Spec.equation x ++ r) = some ((x.1, l), r) := by
  have e : Spec.equation x ++ r = Spec.tick x.1 ++ (Spec.ascii " = " ++ (x.2 ++ r)) := by
    simp only [Spec.equation, List.append_assoc]
  unfold Spec.equality
  rw [e, ident_tick x.1 _ hx (by show some (0x20 : UInt8) ≠ _; decide), Option.bind_some, strip_append, Option.bind_some,
    h r hr]
  rfl

/-- names without a backtick, and texts that stand for the literals -/
def Equations (xs : List (Bytes × Bytes)) (ls : List Lit) : Prop :=
  List.Forall₂ (fun x l => 0x60 ∉ x.1 ∧ ReadsAs x.2 l) xs ls

theorem equations_parse (sep : String) (tail : Bytes) (xs : List (Bytes × Bytes)) (ls : List Lit) (h : Equations xs ls)
    (hne : xs ≠ []) (hs : ∀ x, Ends (Spec.ascii sep ++ x)) (ht : Ends tail) (hn : strip (Spec.ascii sep) tail = none) :
    Spec.sepBy Spec.equality sep (Spec.joined sep (xs.map Spec.equation) ++ tail).length
      (Spec.joined sep (xs.map Spec.equation) ++ tail) = some ((xs.map (·.1)).zip ls, tail) := by
  have hall : List.Forall₂ (fun t a => ∀ r, Ends r → Spec.equality (t ++ r) = some (a, r)) (xs.map Spec.equation)
      ((xs.map (·.1)).zip ls) := by
    clear hne
    induction h with
    | nil => exact .nil
    | cons h1 _ ih => exact .cons (fun r hr => equality_text _ _ h1.1 h1.2 r hr) ih
  refine sepBy_joined Spec.equality sep Ends tail hs ht hn _ _ hall (by simpa using hne) _ ?_
  have := joined_length sep (xs.map Spec.equation) (by
    intro t ht
    obtain ⟨x, _, rfl⟩ := List.mem_map.1 ht
    simp [Spec.equation, Spec.tick, Spec.ascii])
  rw [List.length_append]; omega

theorem ends_comma (x : Bytes) : Ends (Spec.ascii "," ++ x) := Or.inr ⟨0x2c, x, rfl, Or.inl rfl⟩
theorem ends_commaSpace (x : Bytes) : Ends (Spec.ascii ", " ++ x) := Or.inr ⟨0x2c, 0x20 :: x, rfl, Or.inl rfl⟩
theorem ends_and (x : Bytes) : Ends (Spec.ascii " AND " ++ x) := Or.inr ⟨0x20, _, rfl, Or.inr (Or.inr rfl)⟩
theorem ends_where (x : Bytes) : Ends (Spec.ascii " WHERE " ++ x) := Or.inr ⟨0x20, _, rfl, Or.inr (Or.inr rfl)⟩

theorem parse_insert (db tbl : Bytes) (xs : List (Bytes × Bytes)) (ls : List Lit) (h1 : 0x60 ∉ db) (h2 : 0x60 ∉ tbl)
    (h : Equations xs ls) (hne : xs ≠ []) :
    Spec.parse (Spec.insertText db tbl xs) = some (.insert db tbl (xs.map (·.1)) ls) := by
  have hlen : ls.length = xs.length := (List.Forall₂.length_eq h).symm
  have e : Spec.insertText db tbl xs = Spec.ascii "INSERT INTO " ++ (Spec.tick db ++ (Spec.ascii "." ++ (Spec.tick tbl ++
      (Spec.ascii " (" ++ (Spec.joined "," (xs.map (Spec.tick ·.1)) ++ (Spec.ascii ") VALUES (" ++
        (Spec.joined "," (xs.map (·.2)) ++ Spec.ascii ")"))))))) := by
    simp only [Spec.insertText, List.append_assoc]
  have n1 : List.Forall₂ (fun t a => ∀ r : Bytes, r.head? ≠ some 0x60 → Spec.ident (t ++ r) = some (a, r))
      (xs.map (Spec.tick ·.1)) (xs.map (·.1)) := by
    clear hne hlen e
    induction h with
    | nil => exact .nil
    | cons ha _ ih => exact .cons (fun r hr => ident_tick _ _ ha.1 hr) ih
  have n2 : List.Forall₂ (fun t a => ∀ r, Ends r → Spec.literal (t ++ r) = some (a, r)) (xs.map (·.2)) ls := by
    clear hne hlen e n1
    induction h with
    | nil => exact .nil
    | cons ha _ ih => exact .cons (fun r hr => ha.2 r hr) ih
  have p1 := sepBy_joined Spec.ident "," (fun r => r.head? ≠ some 0x60) (Spec.ascii ") VALUES (" ++
    (Spec.joined "," (xs.map (·.2)) ++ Spec.ascii ")")) (fun x => by show some (0x2c : UInt8) ≠ _; decide)
    (by show some (0x29 : UInt8) ≠ _; decide) rfl _ _ n1 (by simpa using hne)
    (Spec.joined "," (xs.map (Spec.tick ·.1)) ++ (Spec.ascii ") VALUES (" ++
        (Spec.joined "," (xs.map (·.2)) ++ Spec.ascii ")"))).length (by
      have := joined_length "," (xs.map (Spec.tick ·.1)) (by
        intro t ht
        obtain ⟨x, _, rfl⟩ := List.mem_map.1 ht
        simp [Spec.tick, Spec.ascii])
      rw [List.length_append]; omega)
  have p2 := sepBy_joined Spec.literal "," Ends (Spec.ascii ")") ends_comma (Or.inr ⟨0x29, [], rfl, Or.inr (Or.inl rfl)⟩) rfl _ _ n2
    (by simpa using hne) (Spec.joined "," (xs.map (·.2)) ++ Spec.ascii ")").length (by
      have := joined_length "," (xs.map (·.2)) (by
        intro t ht
        obtain ⟨x, hx, rfl⟩ := List.mem_map.1 ht
        obtain ⟨i, hi, hxi⟩ := List.getElem_of_mem hx
        have := (List.forall₂_iff_get.1 h).2 i hi (by omega)
        simp only [List.get_eq_getElem, hxi] at this
        exact reads_ne_nil _ _ this.2)
      rw [List.length_append]; omega)
  have hp : Spec.parseInsert (Spec.insertText db tbl xs) = some (.insert db tbl (xs.map (·.1)) ls) := by
    unfold Spec.parseInsert
    rw [e, strip_append, Option.bind_some, tableName_text db tbl _ h1 h2 (by show some (0x20 : UInt8) ≠ _; decide),
      Option.bind_some, strip_append, Option.bind_some, p1, Option.bind_some, strip_append, Option.bind_some, p2,
      Option.bind_some]
    dsimp only
    rw [if_pos ⟨rfl, by rw [hlen, List.length_map]⟩]
  rw [Spec.parse, hp]; rfl

theorem parse_delete (db tbl : Bytes) (xs : List (Bytes × Bytes)) (ls : List Lit) (h1 : 0x60 ∉ db) (h2 : 0x60 ∉ tbl)
    (h : Equations xs ls) (hne : xs ≠ []) :
    Spec.parse (Spec.deleteText db tbl xs) = some (.delete db tbl ((xs.map (·.1)).zip ls)) := by
  have e : Spec.deleteText db tbl xs = Spec.ascii "DELETE FROM " ++ (Spec.tick db ++ (Spec.ascii "." ++ (Spec.tick tbl ++
      (Spec.ascii " WHERE " ++ Spec.joined " AND " (xs.map Spec.equation))))) := by
    simp only [Spec.deleteText, List.append_assoc]
  have p1 := equations_parse " AND " [] xs ls h hne ends_and (Or.inl rfl) rfl
  rw [List.append_nil] at p1
  have hi : Spec.parseInsert (Spec.deleteText db tbl xs) = none := by rw [e]; rfl
  have hp : Spec.parseDelete (Spec.deleteText db tbl xs) = some (.delete db tbl ((xs.map (·.1)).zip ls)) := by
    unfold Spec.parseDelete
    rw [e, strip_append, Option.bind_some, tableName_text db tbl _ h1 h2 (by show some (0x20 : UInt8) ≠ _; decide),
      Option.bind_some, strip_append, Option.bind_some, p1, Option.bind_some]
    dsimp only
    rw [if_pos rfl]
  rw [Spec.parse, hi, hp]; rfl

theorem parse_update (db tbl : Bytes) (xs ks : List (Bytes × Bytes)) (ls ms : List Lit) (h1 : 0x60 ∉ db) (h2 : 0x60 ∉ tbl)
    (h : Equations xs ls) (hne : xs ≠ []) (hk : Equations ks ms) (hkne : ks ≠ []) :
    Spec.parse (Spec.updateText db tbl xs ks)
      = some (.update db tbl ((xs.map (·.1)).zip ls) ((ks.map (·.1)).zip ms)) := by
  have e : Spec.updateText db tbl xs ks = Spec.ascii "UPDATE " ++ (Spec.tick db ++ (Spec.ascii "." ++ (Spec.tick tbl ++
      (Spec.ascii " SET " ++ (Spec.joined ", " (xs.map Spec.equation) ++ (Spec.ascii " WHERE " ++
        Spec.joined " AND " (ks.map Spec.equation))))))) := by
    simp only [Spec.updateText, List.append_assoc]
  have p1 := equations_parse ", " (Spec.ascii " WHERE " ++ Spec.joined " AND " (ks.map Spec.equation)) xs ls h hne
    ends_commaSpace (ends_where _) rfl
  have p2 := equations_parse " AND " [] ks ms hk hkne ends_and (Or.inl rfl) rfl
  rw [List.append_nil] at p2
  have hi : Spec.parseInsert (Spec.updateText db tbl xs ks) = none := by rw [e]; rfl
  have hdel : Spec.parseDelete (Spec.updateText db tbl xs ks) = none := by rw [e]; rfl
  have hp : Spec.parseUpdate (Spec.updateText db tbl xs ks)
      = some (.update db tbl ((xs.map (·.1)).zip ls) ((ks.map (·.1)).zip ms)) := by
    unfold Spec.parseUpdate
    rw [e, strip_append, Option.bind_some, tableName_text db tbl _ h1 h2 (by show some (0x20 : UInt8) ≠ _; decide),
      Option.bind_some, strip_append, Option.bind_some, p1, Option.bind_some, strip_append, Option.bind_some, p2,
      Option.bind_some]
    dsimp only
    rw [if_pos rfl]
  rw [Spec.parse, hi, hdel, hp]; rfl

/-! ### the API -/

/-- the names of the logged columns that are to be used -/
def loggedNames (use : ColumnDefinition → Bool) (present : List Bool) (defs : List ColumnDefinition) : List Bytes :=
  ((present.zip defs).filter fun x => x.1 && use x.2).map (·.2.name)

/-- the values of the columns are written as the literals -/
def Written (ft : FloatText) (xs : List (ColumnDefinition × BinlogColumnValue)) (ls : List Lit) : Prop :=
  List.Forall₂ (fun x l => WrittenAs ft (x.1.flags.testBit 5) x.2 l) xs ls

theorem logged_names (use : ColumnDefinition → Bool) (present : List Bool) : ∀ (defs : List ColumnDefinition)
    (row : List BinlogColumnValue), present.length = defs.length → row.length = defs.length →
    ((logged present defs row).filter fun x => use x.1).map (·.1.name) = loggedNames use present defs := by
  induction present with
  | nil => intro defs row _ _; rfl
  | cons b present ih =>
    intro defs row h1 h2
    cases defs with
    | nil => cases h1
    | cons d defs =>
      cases row with
      | nil => cases h2
      | cons v row =>
        have := ih defs row (by simpa using h1) (by simpa using h2)
        unfold logged loggedNames at *
        cases b <;> cases hu : use d <;> simp_all [List.filter_cons]

theorem written_text (ft : FloatText) (xs : List (ColumnDefinition × BinlogColumnValue)) (ls : List Lit)
    (h : Written ft xs ls) : ∀ x ∈ xs, ∃ t, TextOf ft x t := by
  induction h with
  | nil => intro x hx; cases hx
  | cons h1 _ ih =>
    intro x hx
    rcases List.mem_cons.1 hx with rfl | hx
    · obtain ⟨p, t, q, e1, e2, -⟩ := h1
      exact ⟨_, p, t, q, e1, e2, rfl⟩
    · exact ih x hx

theorem written_equations (ft : FloatText) (xs : List (ColumnDefinition × BinlogColumnValue)) (ls : List Lit)
    (h : Written ft xs ls) (hn : ∀ x ∈ xs, 0x60 ∉ x.1.name) : ∀ ts, List.Forall₂ (TextOf ft) xs ts →
    Equations (named xs ts) ls := by
  induction h with
  | nil => intro ts ht; cases ht; exact List.Forall₂.nil
  | @cons x l xs ls h1 _ ih =>
    intro ts ht
    cases ht with
    | @cons _ t _ ts h2 h3 =>
      refine .cons ⟨hn x List.mem_cons_self, ?_⟩ (ih (fun y hy => hn y (List.mem_cons_of_mem _ hy)) ts h3)
      obtain ⟨p, t1, q, e1, e2, e3⟩ := h1
      obtain ⟨p', t2, q', f1, f2, rfl⟩ := h2
      rw [e1] at f1
      injection f1 with f1
      subst f1
      rw [e2] at f2
      injection f2 with f2
      injection f2 with f2 f3
      subst f2 f3
      exact e3

theorem named_names (ft : FloatText) (xs : List (ColumnDefinition × BinlogColumnValue)) (ts : List Bytes)
    (h : List.Forall₂ (TextOf ft) xs ts) : (named xs ts).map (·.1) = xs.map (·.1.name) := by
  unfold named
  rw [List.map_fst_zip]
  rw [List.length_map, h.length_eq]

theorem named_ne_nil (ft : FloatText) (xs : List (ColumnDefinition × BinlogColumnValue)) (ts : List Bytes)
    (h : List.Forall₂ (TextOf ft) xs ts) (hx : xs.map (·.1.name) ≠ []) : named xs ts ≠ [] := by
  intro e
  rw [← named_names ft xs ts h, e] at hx
  exact hx rfl

theorem logged_fst_mem {α β : Type} (present : List Bool) (cols : List α) (row : List β) (x : α × β)
    (h : x ∈ logged present cols row) : x.1 ∈ cols := by
  unfold logged at h
  obtain ⟨y, hy, rfl⟩ := List.mem_map.1 h
  exact (List.of_mem_zip (List.of_mem_zip (List.mem_filter.1 hy).1).2).1

theorem map_of_forall₂ {α β γ : Type} {R : α → β → Prop} {S : α → γ → Prop} {δ : Type} (f : β → δ) (g : γ → δ)
    (l : List α) (bs : List β) (cs : List γ) (h1 : List.Forall₂ R l bs) (h2 : List.Forall₂ S l cs)
    (h : ∀ a ∈ l, ∀ b c, R a b → S a c → f b = g c) : bs.map f = cs.map g := by
  induction h1 generalizing cs with
  | nil => cases h2; rfl
  | cons ha _ ih =>
    cases h2 with
    | cons hb h2 =>
      rw [List.map_cons, List.map_cons, h _ List.mem_cons_self _ _ ha hb,
        ih _ h2 (fun a ha => h a (List.mem_cons_of_mem _ ha))]

theorem forall₂_mem_left {α β : Type} {R : α → β → Prop} {l : List α} {m : List β} (h : List.Forall₂ R l m) :
    ∀ a ∈ l, ∃ b, R a b := by
  induction h with
  | nil => intro a ha; cases ha
  | cons h1 _ ih =>
    intro a ha
    rcases List.mem_cons.1 ha with rfl | ha
    · exact ⟨_, h1⟩
    · exact ih a ha

/-- C80 for inserted rows: a server reads the statements as inserting into the table of the event, into the logged
columns, the literals each row's own values are written as, one statement per row, in order. The names have no
backticks, and the logged columns come first. -/
theorem C80_insert_partial (ft : FloatText) (db tbl extra bm : Bytes) (n : Nat) (present : List Bool)
    (defs : List ColumnDefinition) (rows : List (List BinlogColumnValue)) (lits : List (List Lit))
    (hc : Covers bm present) (hl : present.length = defs.length) (hf : Front present) (hone : true ∈ present)
    (hr : ∀ row ∈ rows, row.length = defs.length)
    (hdb : 0x60 ∉ db) (htbl : 0x60 ∉ tbl) (hnames : ∀ d ∈ defs, 0x60 ∉ d.name)
    (hw : List.Forall₂ (fun row ls => Written ft (logged present defs row) ls) rows lits) :
    ∃ p stmts, PreparedSql.fromInsert db tbl ⟨extra, n, bm, rows⟩ defs = some p ∧ p.sqlList ft = some stmts ∧
      stmts.map Spec.parse = lits.map fun ls => some (.insert db tbl (loggedNames (fun _ => true) present defs) ls) := by
  obtain ⟨p, stmts, h1, h2⟩ := C40_insert_total ft db tbl extra bm n present defs rows hc hl hf hr (by
    intro row hrow x hx
    obtain ⟨ls, hls⟩ := forall₂_mem_left hw row hrow
    exact written_text ft _ ls hls x hx)
  refine ⟨p, stmts, h1, h2, ?_⟩
  have h3 := C40_insert_partial ft db tbl extra bm n present defs rows p stmts hc hl hf hr h1 h2
  refine map_of_forall₂ _ _ rows _ _ h3 hw ?_
  rintro row hrow stmt ls ⟨ts, ht, rfl⟩ hls
  have hn := logged_names (fun _ => true) present defs row hl (hr row hrow)
  rw [List.filter_eq_self.2 (fun _ _ => rfl)] at hn
  have hne : loggedNames (fun _ => true) present defs ≠ [] := by
    obtain ⟨i, hi, hb⟩ := List.getElem_of_mem hone
    have hm : (true, defs[i]'(by omega)) ∈ (present.zip defs).filter fun x => x.1 && (fun _ => true) x.2 := by
      rw [List.mem_filter]
      refine ⟨?_, rfl⟩
      rw [← hb]
      exact List.mem_iff_getElem.2 ⟨i, by simp; omega, by simp⟩
    intro hc
    have := List.map_eq_nil_iff.1 hc
    rw [this] at hm
    cases hm
  rw [parse_insert db tbl _ ls hdb htbl (written_equations ft _ ls hls (fun x hx => hnames _ (logged_fst_mem _ _ _ x hx)) ts ht)
    (named_ne_nil ft _ ts ht (by rw [hn]; exact hne)), named_names ft _ ts ht, hn]

/-- C80 for deleted rows: a server reads the statements as deleting from the table of the event the rows whose logged
key columns have the row's own values. At least one key column is logged. -/
theorem C80_delete_partial (ft : FloatText) (db tbl extra bm : Bytes) (n : Nat) (present : List Bool)
    (defs : List ColumnDefinition) (rows : List (List BinlogColumnValue)) (lits : List (List Lit))
    (hc : Covers bm present) (hl : present.length = defs.length) (hf : Front present)
    (hkey : loggedNames IsKey present defs ≠ [])
    (hr : ∀ row ∈ rows, row.length = defs.length)
    (hdb : 0x60 ∉ db) (htbl : 0x60 ∉ tbl) (hnames : ∀ d ∈ defs, 0x60 ∉ d.name)
    (hw : List.Forall₂ (fun row ls => Written ft ((logged present defs row).filter fun x => IsKey x.1) ls) rows lits) :
    ∃ p stmts, PreparedSql.fromDelete db tbl ⟨extra, n, bm, rows⟩ defs = some p ∧ p.sqlList ft = some stmts ∧
      stmts.map Spec.parse = lits.map fun ls => some (.delete db tbl ((loggedNames IsKey present defs).zip ls)) := by
  obtain ⟨p, stmts, h1, h2⟩ := C40_delete_total ft db tbl extra bm n present defs rows hc hl hf hr (by
    intro row hrow x hx hk
    obtain ⟨ls, hls⟩ := forall₂_mem_left hw row hrow
    exact written_text ft _ ls hls x (List.mem_filter.2 ⟨hx, hk⟩))
  refine ⟨p, stmts, h1, h2, ?_⟩
  have h3 := C40_delete_partial ft db tbl extra bm n present defs rows p stmts hc hl hf hr h1 h2
  refine map_of_forall₂ _ _ rows _ _ h3 hw ?_
  rintro row hrow stmt ls ⟨ts, ht, rfl⟩ hls
  have hn := logged_names IsKey present defs row hl (hr row hrow)
  rw [parse_delete db tbl _ ls hdb htbl (written_equations ft _ ls hls
    (fun x hx => hnames _ (logged_fst_mem _ _ _ x (List.mem_filter.1 hx).1)) ts ht)
    (named_ne_nil ft _ ts ht (by rw [hn]; exact hkey)), named_names ft _ ts ht, hn]

/-- C80 for updated rows: a server reads the statements as setting the columns logged after the change to the row's
own values after the change, where the key columns logged before the change have the row's own values before it. -/
theorem C80_update_partial (ft : FloatText) (db tbl extra bb ab : Bytes) (n : Nat) (before after : List Bool)
    (defs : List ColumnDefinition) (rows : List (List BinlogColumnValue × List BinlogColumnValue))
    (lits : List (List Lit × List Lit))
    (hb : Covers bb before) (hbl : before.length = defs.length) (hbf : Front before)
    (ha : Covers ab after) (hal : after.length = defs.length) (haf : Front after)
    (hkey : loggedNames IsKey before defs ≠ []) (hset : loggedNames (fun _ => true) after defs ≠ [])
    (hr : ∀ row ∈ rows, row.1.length = defs.length ∧ row.2.length = defs.length)
    (hdb : 0x60 ∉ db) (htbl : 0x60 ∉ tbl) (hnames : ∀ d ∈ defs, 0x60 ∉ d.name)
    (hw : List.Forall₂ (fun row ls => Written ft ((logged before defs row.1).filter fun x => IsKey x.1) ls.1 ∧
      Written ft (logged after defs row.2) ls.2) rows lits) :
    ∃ p stmts, PreparedSql.fromUpdate db tbl ⟨extra, n, bb, ab, rows⟩ defs = some p ∧ p.sqlList ft = some stmts ∧
      stmts.map Spec.parse = lits.map fun ls => some (.update db tbl
        ((loggedNames (fun _ => true) after defs).zip ls.2) ((loggedNames IsKey before defs).zip ls.1)) := by
  obtain ⟨p, stmts, h1, h2⟩ := C40_update_total ft db tbl extra bb ab n before after defs rows hb hbl hbf ha hal haf hr (by
    intro row hrow
    obtain ⟨ls, hls1, hls2⟩ := forall₂_mem_left hw row hrow
    exact ⟨fun x hx hk => written_text ft _ _ hls1 x (List.mem_filter.2 ⟨hx, hk⟩),
      fun x hx => written_text ft _ _ hls2 x hx⟩)
  refine ⟨p, stmts, h1, h2, ?_⟩
  have h3 := C40_update_partial ft db tbl extra bb ab n before after defs rows p stmts hb hbl hbf ha hal haf hr h1 h2
  refine map_of_forall₂ _ _ rows _ _ h3 hw ?_
  rintro row hrow stmt ls ⟨ts, us, ht, hu, rfl⟩ ⟨hls1, hls2⟩
  have hn1 := logged_names IsKey before defs row.1 hbl (hr row hrow).1
  have hn2 := logged_names (fun _ => true) after defs row.2 hal (hr row hrow).2
  rw [List.filter_eq_self.2 (fun _ _ => rfl)] at hn2
  rw [parse_update db tbl _ _ ls.2 ls.1 hdb htbl
    (written_equations ft _ _ hls2 (fun x hx => hnames _ (logged_fst_mem _ _ _ x hx)) ts ht)
    (named_ne_nil ft _ ts ht (by rw [hn2]; exact hset))
    (written_equations ft _ _ hls1 (fun x hx => hnames _ (logged_fst_mem _ _ _ x (List.mem_filter.1 hx).1)) us hu)
    (named_ne_nil ft _ us hu (by rw [hn1]; exact hkey)), named_names ft _ ts ht, named_names ft _ us hu, hn1, hn2]

/-! ### cases -/

/-- the hypotheses hold of a row with an INT key 7 and the INT -1, read as such -/
example (ft : FloatText) :
    List.Forall₂ (fun row ls => Written ft (logged [true, true] exampleCols row) ls) [[.long 7, .long 0xffffffff]]
      [[.number 7 0, .number (-1) 0]] ∧ loggedNames IsKey [true, true] exampleCols = [Spec.ascii "id"] ∧
    (∀ d ∈ exampleCols, (0x60 : UInt8) ∉ d.name) ∧
    Spec.parse (Spec.ascii "INSERT INTO `d`.`t` (`id`,`a`) VALUES (7,-1)") =
      some (.insert (Spec.ascii "d") (Spec.ascii "t") [Spec.ascii "id", Spec.ascii "a"] [.number 7 0, .number (-1) 0]) ∧
    Spec.parse (Spec.ascii "UPDATE `d`.`t` SET `id` = 7, `a` = null WHERE `id` = 7") =
      some (.update (Spec.ascii "d") (Spec.ascii "t") [(Spec.ascii "id", .number 7 0), (Spec.ascii "a", .null)]
        [(Spec.ascii "id", .number 7 0)]) := by
  refine ⟨.cons (.cons ?_ (.cons ?_ .nil)) .nil, by decide +kernel, by decide +kernel, by decide +kernel, by decide +kernel⟩
  · exact ⟨.newInt 7, Spec.ascii "7", false, rfl, rfl,
      fun tail ht => literal_natText 7 tail (apart_of_ends tail ht)⟩
  · exact ⟨.newInt (-1), Spec.ascii "-1", false, rfl, rfl,
      fun tail ht => by
        rw [show Spec.quotedIf false (Spec.ascii "-1") = intText (-1) by decide +kernel]
        exact literal_intText (-1) tail (apart_of_ends tail ht)⟩

/-- C80 fails for names with a backtick: it is not doubled in the statement, which is then a syntax error. -/
theorem C80_name_false (ft : FloatText) :
    ∃ p s, PreparedSql.fromInsert (asc "d") (asc "t") ⟨[], 1, [1], [[.long 7]]⟩ [exampleCol "a`b" 2] = some p ∧
      p.sqlList ft = some [s] ∧ s = Spec.ascii "INSERT INTO `d`.`t` (`a`b`) VALUES (7)" ∧ Spec.parse s = none :=
  ⟨⟨asc "d", [asc "INSERT INTO `d`.`t` (`a`b`) VALUES (", asc "?", asc ")"], [[.newInt 7]]⟩, _,
    by decide +kernel, rfl, rfl, by decide +kernel⟩

/-- C80 fails worse for other such names: the statement is read as one about other columns. -/
theorem C80_column_name_false (ft : FloatText) :
    ∃ p s, PreparedSql.fromDelete (asc "d") (asc "t") ⟨[], 1, [1], [[.long 7]]⟩ [exampleCol "a` = 1 AND `b" 2] = some p ∧
      p.sqlList ft = some [s] ∧ Spec.parse s = some (.delete (Spec.ascii "d") (Spec.ascii "t")
        [(Spec.ascii "a", .number 1 0), (Spec.ascii "b", .number 7 0)]) :=
  ⟨⟨asc "d", [asc "DELETE FROM `d`.`t` WHERE `a` = 1 AND `b` = ", asc "?"], [[.newInt 7]]⟩,
    asc "DELETE FROM `d`.`t` WHERE `a` = 1 AND `b` = 7", by decide +kernel, rfl, by decide +kernel⟩

/-- C80 fails for a deleted row of a table without a key: the condition is empty, a syntax error. -/
theorem C80_no_key_false (ft : FloatText) :
    ∃ p s, PreparedSql.fromDelete (asc "d") (asc "t") ⟨[], 1, [1], [[.long 7]]⟩ [exampleCol "a" 0] = some p ∧
      p.sqlList ft = some [s] ∧ s = Spec.ascii "DELETE FROM `d`.`t` WHERE " ∧ Spec.parse s = none :=
  ⟨⟨asc "d", [asc "DELETE FROM `d`.`t` WHERE "], [[]]⟩, _, by decide +kernel, rfl, rfl, by decide +kernel⟩

end Mybin
