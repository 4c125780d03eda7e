/-
C116: what is printed is what was committed: the changes of the committed transactions, one transaction after the other.
-/
import Verif.Props.C108

namespace Mybin

open Mybin.Spec (LogEvent LogItem Image ColKind logged)

/-! ### specification: transactions in a binary log -/

/-- an event with the text of a statement (type 2): the session, the seconds it took, the length of the name of the
database, the error code, the status variables, the database and the text -/
def Spec.LogEvent.Runs (e : LogEvent) (text : List UInt8) : Prop :=
  e.code = 2 ∧ ∃ session seconds err, session < 2 ^ 32 ∧ seconds < 2 ^ 32 ∧ err < 2 ^ 16 ∧
    ∃ vars database : List UInt8, vars.length < 2 ^ 16 ∧ database.length < 2 ^ 8 ∧
      e.payload = Spec.le 4 session ++ Spec.le 4 seconds ++ Spec.u8 database.length ++ Spec.le 2 err
        ++ Spec.le 2 vars.length ++ vars ++ Spec.nulStr database ++ text

/-- a transaction as a server writes it: its id (33, or 34 if it is anonymous), the statement that begins it, what it
changes, and its end -/
structure Spec.Trx where
  gtid : LogEvent
  start : LogEvent
  changes : List (LogEvent × LogItem)
  last : LogEvent

/-- the transaction ends with a commit: in the storage engine (type 16) or as a statement -/
def Spec.Trx.Committed (t : Spec.Trx) : Prop := t.last.code = 16 ∨ t.last.Runs (Spec.ascii "COMMIT")

/-- the transaction is undone -/
def Spec.Trx.RolledBack (t : Spec.Trx) : Prop := t.last.Runs (Spec.ascii "ROLLBACK")

/-- the tables of changed rows are announced before, in the same transaction -/
def Spec.SelfContained : List Nat → List LogItem → Prop
  | _, [] => True
  | ids, .tableMap id _ :: items => Spec.SelfContained (id :: ids) items
  | ids, .insert id _ _ _ :: items => id ∈ ids ∧ Spec.SelfContained ids items
  | ids, .delete id _ _ _ :: items => id ∈ ids ∧ Spec.SelfContained ids items
  | ids, .update id _ _ _ _ :: items => id ∈ ids ∧ Spec.SelfContained ids items
  | _, .rotate :: _ => False
  | ids, .other :: items => Spec.SelfContained ids items

/-- the transaction is well formed: the events are what they are said to be, and it does not span log files -/
def Spec.Trx.Valid (t : Spec.Trx) : Prop :=
  t.gtid.code ∈ [33, 34] ∧ t.start.Runs (Spec.ascii "BEGIN") ∧ (t.Committed ∨ t.RolledBack) ∧
    (t.gtid.InRange ∧ t.start.InRange ∧ t.last.InRange) ∧ (∀ x ∈ t.changes, x.1.InRange ∧ x.1.Says x.2) ∧
    Spec.SelfContained [] (t.changes.map (·.2))

/-- the events of the transaction, with what they say about rows -/
def Spec.Trx.log (t : Spec.Trx) : List (LogEvent × LogItem) :=
  (t.gtid, .other) :: (t.start, .other) :: (t.changes ++ [(t.last, .other)])

/-! ### the lines of a transaction -/

theorem printsAll_append (ft : FloatText) (wanted : Spec.Table → Bool) (cat : Catalogue) :
    ∀ (a b : List (LogEvent × LogItem)) (known : Nat → Option Spec.Table) (out : List DmlLine),
      Spec.PrintsAll ft wanted cat known (a ++ b) out →
      ∃ x y, out = x ++ y ∧ Spec.PrintsAll ft wanted cat known a x ∧
        Spec.PrintsAll ft wanted cat (a.foldl (fun k i => i.2.announce k) known) b y
  | [], b, known, out, h => ⟨[], out, rfl, rfl, h⟩
  | (e, item) :: a, b, known, out, h => by
    obtain ⟨ls, rest, rfl, h1, h2⟩ := h
    obtain ⟨x, y, rfl, h3, h4⟩ := printsAll_append ft wanted cat a b _ _ h2
    exact ⟨ls ++ x, y, by simp, ⟨ls, x, rfl, h1, h3⟩, h4⟩

/-- what is printed for changes that announce their tables does not depend on what was announced before -/
theorem printsAll_self (ft : FloatText) (wanted : Spec.Table → Bool) (cat : Catalogue) :
    ∀ (log : List (LogEvent × LogItem)) (ids : List Nat) (known known' : Nat → Option Spec.Table) (out : List DmlLine),
      Spec.SelfContained ids (log.map (·.2)) → (∀ i ∈ ids, known i = known' i) →
      Spec.PrintsAll ft wanted cat known log out → Spec.PrintsAll ft wanted cat known' log out
  | [], _, _, _, _, _, _, h => h
  | (e, item) :: log, ids, known, known', out, hs, hk, h => by
    obtain ⟨ls, rest, rfl, h1, h2⟩ := h
    have row : ∀ id, id ∈ ids → ∀ lines, Spec.RowLines wanted known id lines ls → Spec.RowLines wanted known' id lines ls := by
      intro id hid lines hl
      unfold Spec.RowLines at hl ⊢
      rw [← hk id hid]; exact hl
    cases item with
    | tableMap id t =>
      refine ⟨ls, rest, rfl, h1, printsAll_self ft wanted cat log (id :: ids) _ _ _ hs ?_ h2⟩
      intro i hi
      show (if i = id then some t else known i) = (if i = id then some t else known' i)
      by_cases e : i = id
      · rw [if_pos e, if_pos e]
      · rw [if_neg e, if_neg e]
        rcases List.mem_cons.1 hi with hi | hi
        · exact absurd hi e
        · exact hk i hi
    | insert id ks p rows =>
      exact ⟨ls, rest, rfl, (by unfold Spec.Prints at h1 ⊢; exact row id hs.1 _ h1), printsAll_self ft wanted cat log ids _ _ _ hs.2 hk h2⟩
    | delete id ks p rows =>
      exact ⟨ls, rest, rfl, (by unfold Spec.Prints at h1 ⊢; exact row id hs.1 _ h1), printsAll_self ft wanted cat log ids _ _ _ hs.2 hk h2⟩
    | update id ks b a rows =>
      exact ⟨ls, rest, rfl, (by unfold Spec.Prints at h1 ⊢; exact row id hs.1 _ h1), printsAll_self ft wanted cat log ids _ _ _ hs.2 hk h2⟩
    | rotate => exact hs.elim
    | other => exact ⟨ls, rest, rfl, h1, printsAll_self ft wanted cat log ids _ _ _ hs hk h2⟩

theorem transaction_lines (ft : FloatText) (wanted : Spec.Table → Bool) (cat : Catalogue) (t : Spec.Trx)
    (ht : t.Valid) (known : Nat → Option Spec.Table) (out : List DmlLine) (h : Spec.PrintsAll ft wanted cat known t.log out) :
    Spec.PrintsAll ft wanted cat (fun _ => none) t.changes out := by
  obtain ⟨l1, r1, rfl, p1, l2, r2, rfl, p2, h⟩ := h
  have p1 : l1 = [] := p1
  have p2 : l2 = [] := p2
  subst p1 p2
  obtain ⟨x, y, rfl, h1, l3, r3, rfl, p3, p4⟩ := printsAll_append ft wanted cat _ _ _ _ h
  have p3 : l3 = [] := p3
  have p4 : r3 = [] := p4
  subst p3 p4
  have := printsAll_self ft wanted cat t.changes [] _ (fun _ => none) x ht.2.2.2.2.2 (by simp) h1
  simpa using this

theorem transactions_lines (ft : FloatText) (wanted : Spec.Table → Bool) (cat : Catalogue) :
    ∀ (ts : List Spec.Trx), (∀ t ∈ ts, t.Valid) → ∀ (known : Nat → Option Spec.Table) (out : List DmlLine),
      Spec.PrintsAll ft wanted cat known (ts.map Spec.Trx.log).flatten out →
      ∃ outs, out = outs.flatten ∧ List.Forall₂ (fun t ls => Spec.PrintsAll ft wanted cat (fun _ => none) t.changes ls) ts outs
  | [], _, _, out, h => ⟨[], h, .nil⟩
  | t :: ts, hv, known, out, h => by
    rw [List.map_cons, List.flatten_cons] at h
    obtain ⟨x, y, rfl, h1, h2⟩ := printsAll_append ft wanted cat _ _ _ _ h
    obtain ⟨outs, rfl, h3⟩ := transactions_lines ft wanted cat ts (fun t ht => hv t (by simp [ht])) _ _ h2
    exact ⟨x :: outs, by simp, .cons (transaction_lines ft wanted cat t (hv t (by simp)) known x h1) h3⟩

theorem runs_other {e : LogEvent} {text : List UInt8} (h : e.Runs text) : e.Says .other := by
  show e.code ∉ _
  rw [h.1]; decide

theorem Spec.Trx.Valid.says {t : Spec.Trx} (h : t.Valid) :
    ∀ x ∈ t.log, (x.1.InRange ∧ x.1.Says x.2) ∧ x.2 ≠ .rotate := by
  obtain ⟨h1, h2, h3, h4, h5, h6⟩ := h
  have hself : ∀ (items : List LogItem) ids, Spec.SelfContained ids items → ∀ i ∈ items, i ≠ .rotate := by
    intro items
    induction items with
    | nil => intro _ _ i hi; cases hi
    | cons a items ih =>
      intro ids hs i hi
      cases a <;> first
        | exact hs.elim
        | (rcases List.mem_cons.1 hi with rfl | hi
           · intro c; cases c
           · first
              | exact ih _ hs i hi
              | exact ih _ hs.2 i hi)
  intro x hx
  simp only [Spec.Trx.log, List.mem_cons, List.mem_append, List.not_mem_nil, or_false] at hx
  rcases hx with rfl | rfl | hx | rfl
  · refine ⟨⟨h4.1, ?_⟩, by simp⟩
    show t.gtid.code ∉ _
    simp only [List.mem_cons, List.not_mem_nil, or_false] at h1
    rcases h1 with e | e <;> rw [e] <;> decide
  · exact ⟨⟨h4.2.1, runs_other h2⟩, by simp⟩
  · exact ⟨h5 x hx, hself _ _ h6 _ (List.mem_map.2 ⟨x, hx, rfl⟩)⟩
  · refine ⟨⟨h4.2.2, ?_⟩, by simp⟩
    rcases h3 with (e | h) | h
    · show t.last.code ∉ _
      rw [e]; decide
    · exact runs_other h
    · exact runs_other h

/-! ### what is printed for transactions -/

/-- C116: for a log of transactions the program prints the lines of the first, then those of the second, and so on; the
lines of a transaction depend on nothing but its own changes (and the catalogue). Since these are all transactions, they
are the committed ones if all are committed. Missing from the full claim: that those rolled back are left out
(`C116_rolled_back_false`), that a limit does not cut a transaction (`C116_limit_false`), and that changes logged as
statements are printed (`C116_statements_false`). -/
theorem C116_transactions_partial (ft : FloatText) (o : DmlOpts) (hb : o.nonBlock = true)
    (hf : o.filename.length < 10 ^ 9 ∧ validUtf8 o.filename = true) (uuid : Bytes) (hu : uuid.length = 36) (random : Nat)
    (hr : random < 2 ^ 32) (conn helper : Conn) (crc : Bool) (opening : List Bytes)
    (hopen : Spec.OpensStream conn.caps crc opening) (cat : Catalogue) (ts : List Spec.Trx)
    (hv : ∀ t ∈ ts, t.Valid)
    (hok : LogOk ft o.wanted cat (fun _ => none) ((ts.map Spec.Trx.log).flatten.map (·.2))) (eof rest : Bytes)
    (hd : Spec.Delivers conn.inp
      (opening ++ ((ts.map Spec.Trx.log).flatten.map (fun x => Spec.streamMessage crc x.1) ++ [0xfe :: eof])) rest)
    (answers : List Bytes) (hrest : Bytes)
    (ha : Spec.ListsTables helper.caps cat
      (Spec.questions o.wanted (fun _ => none) ((ts.map Spec.Trx.log).flatten.map (·.2))) answers)
    (hh : Spec.Delivers helper.inp answers hrest) :
    ∃ outs : List (List DmlLine),
      List.Forall₂ (fun t ls => Spec.PrintsAll ft o.wanted cat (fun _ => none) t.changes ls) ts outs ∧
      printDmls ft o uuid random conn helper
        = (if o.limit = 0 then outs.flatten else upTo o.limit outs.flatten, .done) := by
  have hx : ∀ x ∈ (ts.map Spec.Trx.log).flatten, (x.1.InRange ∧ x.1.Says x.2) ∧ x.2 ≠ .rotate := by
    intro x hx
    obtain ⟨l, hl, hx⟩ := List.mem_flatten.1 hx
    obtain ⟨t, ht, rfl⟩ := List.mem_map.1 hl
    exact (hv t ht).says x hx
  obtain ⟨out, h1, h2⟩ := C43_prints_partial ft o hb hf uuid hu random hr conn helper crc opening hopen cat _
    (fun x h => (hx x h).1) (fun x h c => absurd c (hx x h).2) hok eof rest hd answers hrest ha hh
  obtain ⟨outs, rfl, h3⟩ := transactions_lines ft o.wanted cat ts hv _ _ h1
  exact ⟨outs, h3, h2⟩

/-- C116, how it fails for transactions rolled back: however each transaction ends, the same is printed. (A server writes
such transactions when they changed tables that cannot be rolled back too; the changes of the others are undone and are
printed all the same.) -/
theorem C116_endings (ft : FloatText) (o : DmlOpts) (hb : o.nonBlock = true)
    (hf : o.filename.length < 10 ^ 9 ∧ validUtf8 o.filename = true) (uuid : Bytes) (hu : uuid.length = 36) (random : Nat)
    (hr : random < 2 ^ 32) (conn conn' helper : Conn) (crc : Bool) (opening : List Bytes)
    (hopen : Spec.OpensStream conn.caps crc opening) (hopen' : Spec.OpensStream conn'.caps crc opening)
    (ts ts' : List Spec.Trx) (hv : ∀ t ∈ ts, t.Valid) (hv' : ∀ t ∈ ts', t.Valid)
    (hsame : ts.map (·.changes) = ts'.map (·.changes))
    (eof rest : Bytes)
    (hd : Spec.Delivers conn.inp
      (opening ++ ((ts.map Spec.Trx.log).flatten.map (fun x => Spec.streamMessage crc x.1) ++ [0xfe :: eof])) rest)
    (hd' : Spec.Delivers conn'.inp
      (opening ++ ((ts'.map Spec.Trx.log).flatten.map (fun x => Spec.streamMessage crc x.1) ++ [0xfe :: eof])) rest) :
    printDmls ft o uuid random conn' helper = printDmls ft o uuid random conn helper := by
  have hin : ∀ us : List Spec.Trx, (∀ t ∈ us, t.Valid) →
      ∀ e ∈ (us.map Spec.Trx.log).flatten.map (·.1), e.InRange := by
    intro us hu e he
    obtain ⟨x, hx, rfl⟩ := List.mem_map.1 he
    obtain ⟨l, hl, hx⟩ := List.mem_flatten.1 hx
    obtain ⟨t, ht, rfl⟩ := List.mem_map.1 hl
    exact ((hu t ht).says x hx).1.1
  have hone : ∀ t : Spec.Trx, t.Valid → (t.log.map (·.1)).filter (fun e => decide (Spec.AboutRows e))
      = (t.changes.map (·.1)).filter (fun e => decide (Spec.AboutRows e)) := by
    intro t ht
    have h1 : ¬ Spec.AboutRows t.gtid := by
      have := ht.1
      unfold Spec.AboutRows
      simp only [List.mem_cons, List.not_mem_nil, or_false] at this
      rcases this with e | e <;> rw [e] <;> decide
    have h2 : ¬ Spec.AboutRows t.start := by
      unfold Spec.AboutRows
      rw [ht.2.1.1]; decide
    have h3 : ¬ Spec.AboutRows t.last := by
      unfold Spec.AboutRows
      rcases ht.2.2.1 with (e | e) | e
      · rw [e]; decide
      · rw [e.1]; decide
      · rw [e.1]; decide
    simp [Spec.Trx.log, h1, h2, h3]
  have hall : ∀ us : List Spec.Trx, (∀ t ∈ us, t.Valid) →
      ((us.map Spec.Trx.log).flatten.map (·.1)).filter (fun e => decide (Spec.AboutRows e))
        = ((us.map (·.changes)).flatten.map (·.1)).filter (fun e => decide (Spec.AboutRows e)) := by
    intro us
    induction us with
    | nil => intro _; rfl
    | cons t us ih =>
      intro hu
      simp only [List.map_cons, List.flatten_cons, List.map_append, List.filter_append]
      rw [ih (fun t ht => hu t (by simp [ht])), hone t (hu t (by simp))]
  refine C108_dml_partial ft o hb hf uuid uuid hu hu random random hr hr conn conn' helper crc opening opening hopen hopen'
    ((ts.map Spec.Trx.log).flatten.map (·.1)) ((ts'.map Spec.Trx.log).flatten.map (·.1)) (hin ts hv)
    (hin ts' hv') eof eof rest rest ?_ ?_ ?_
  · rw [List.map_map]; exact hd
  · rw [List.map_map]; exact hd'
  · rw [hall ts hv, hall ts' hv', hsame]

/-- C116 fails for changes that are logged as statements (the default of servers before 5.7.7, and the format of all
changes of tables themselves): for a log of such transactions nothing is printed. -/
theorem C116_statements_false (ft : FloatText) (o : DmlOpts) (hb : o.nonBlock = true)
    (hf : o.filename.length < 10 ^ 9 ∧ validUtf8 o.filename = true) (uuid : Bytes) (hu : uuid.length = 36) (random : Nat)
    (hr : random < 2 ^ 32) (conn helper : Conn) (crc : Bool) (opening : List Bytes)
    (hopen : Spec.OpensStream conn.caps crc opening) (log : List LogEvent) (hin : ∀ e ∈ log, e.InRange)
    (hst : ∀ e ∈ log, e.code ∈ [16, 33, 34] ∨ ∃ text, e.Runs text) (eof rest : Bytes)
    (hd : Spec.Delivers conn.inp (opening ++ (log.map (Spec.streamMessage crc) ++ [0xfe :: eof])) rest) :
    printDmls ft o uuid random conn helper = ([], .done) := by
  rw [printDmls_runLog ft o hb hf uuid hu random hr conn helper crc opening hopen log hin eof rest hd, ← runLog_filter]
  have : log.filter (fun e => decide (Spec.AboutRows e)) = [] := by
    rw [List.filter_eq_nil_iff]
    intro e he
    simp only [decide_eq_true_eq]
    unfold Spec.AboutRows
    rcases hst e he with h | ⟨text, h⟩
    · simp only [List.mem_cons, List.not_mem_nil, or_false] at h
      rcases h with h | h | h <;> rw [h] <;> decide
    · rw [h.1]; decide
  rw [this]
  rfl

/-! ### an example -/

/-- the text of a statement, by a session without status variables, in the database `d` -/
def exampleQuery (pos : Nat) (text : List UInt8) : LogEvent :=
  ⟨1, 2, 7, pos, 0, Spec.le 4 9 ++ Spec.le 4 0 ++ Spec.u8 1 ++ Spec.le 2 0 ++ Spec.le 2 0 ++ [] ++ Spec.nulStr (Spec.ascii "d")
    ++ text⟩

theorem exampleQuery_runs (pos : Nat) (text : List UInt8) : (exampleQuery pos text).Runs text :=
  ⟨rfl, 9, 0, 0, by norm_num, by norm_num, by norm_num, [], Spec.ascii "d", by norm_num, by decide, rfl⟩

/-- a transaction that inserts two rows, and ends so -/
def exampleTransaction (last : LogEvent) : Spec.Trx :=
  ⟨⟨1, 34, 7, 50, 0, []⟩, exampleQuery 70 (Spec.ascii "BEGIN"), exampleLog.take 2, last⟩

/-- ended by the storage engine, by a statement, or undone -/
def exampleEnds : List LogEvent :=
  [⟨1, 16, 7, 300, 0, Spec.le 8 77⟩, exampleQuery 300 (Spec.ascii "COMMIT"), exampleQuery 300 (Spec.ascii "ROLLBACK")]

theorem exampleTransaction_valid : ∀ last ∈ exampleEnds, (exampleTransaction last).Valid := by
  intro last hl
  have hr : ∀ e ∈ (⟨1, 34, 7, 50, 0, []⟩ : LogEvent) :: exampleQuery 70 (Spec.ascii "BEGIN") :: exampleEnds, e.InRange := by
    unfold Spec.LogEvent.InRange
    decide +kernel
  refine ⟨by simp [exampleTransaction], exampleQuery_runs _ _, ?_, ⟨hr _ (by simp [exampleTransaction]), hr _ (by simp [exampleTransaction]),
    hr last (by simp [hl])⟩, ?_, ?_⟩
  · simp only [exampleEnds, List.mem_cons, List.not_mem_nil, or_false] at hl
    rcases hl with rfl | rfl | rfl
    · exact .inl (.inl rfl)
    · exact .inl (.inr (exampleQuery_runs _ _))
    · exact .inr (exampleQuery_runs _ _)
  · intro x hx
    exact example_says x (List.mem_of_mem_take hx)
  · exact ⟨by simp, trivial⟩

/-- the program prints the two rows of the example, or the first if the limit is one, however the transaction ends -/
theorem exampleTransaction_run (ft : FloatText) : ∀ last ∈ exampleEnds, ∃ (opening : List Bytes) (conn helper : Conn),
    Spec.OpensStream conn.caps true opening ∧
    Spec.Delivers conn.inp
      (opening ++ ((exampleTransaction last).log.map (fun x => Spec.streamMessage true x.1) ++ [[0xfe]])) [] ∧
    ∀ limit, limit < 2 → printDmls ft (exampleOpts limit) (List.replicate 36 0x61) 5 conn helper
      = (if limit = 0 then [.stmt (Spec.ascii "INSERT INTO `d`.`t` (`a`) VALUES (3)"),
          .stmt (Spec.ascii "INSERT INTO `d`.`t` (`a`) VALUES (4)")]
        else [.stmt (Spec.ascii "INSERT INTO `d`.`t` (`a`) VALUES (3)")], .done) := by
  intro last hl
  obtain ⟨answers, l1, l2⟩ := example_lists
  obtain ⟨opening, o1, o2⟩ := example_opens
  obtain ⟨inp, hd⟩ := delivers_small (opening ++ ((exampleTransaction last).log.map (fun x => Spec.streamMessage true x.1)
      ++ [[0xfe]])) [] (by
    intro m hm
    rcases List.mem_append.1 hm with hm | hm
    · exact o2 m hm
    · have : ∀ last ∈ exampleEnds, ∀ m ∈ (exampleTransaction last).log.map (fun x => Spec.streamMessage true x.1) ++ [[0xfe]],
          m.length < 0xffffff := by decide +kernel
      exact this last hl m hm)
  obtain ⟨hinp, hh⟩ := delivers_small answers [] l2
  refine ⟨opening, ⟨inp, [], 0, 2 ^ 9, 0⟩, ⟨hinp, [], 0, 2 ^ 9, 0⟩, o1, hd, ?_⟩
  intro limit hlim
  have hok := example_logOk ft limit
  have hlog : ([exampleTransaction last].map Spec.Trx.log).flatten
      = (⟨1, 34, 7, 50, 0, []⟩, .other) :: (exampleQuery 70 (Spec.ascii "BEGIN"), .other)
        :: (exampleLog.take 2 ++ [(last, .other)]) := by
    simp [Spec.Trx.log, exampleTransaction]
  obtain ⟨outs, h1, h2⟩ := C116_transactions_partial ft (exampleOpts limit) rfl
    ⟨(by decide +kernel : (Spec.ascii "f1").length < 10 ^ 9), (by decide +kernel : validUtf8 (Spec.ascii "f1") = true)⟩
    (List.replicate 36 0x61) (by simp) 5 (by norm_num) ⟨inp, [], 0, 2 ^ 9, 0⟩ ⟨hinp, [], 0, 2 ^ 9, 0⟩ true opening o1
    exampleCatalogue [exampleTransaction last] (by simpa using exampleTransaction_valid last hl)
    (by rw [hlog]; exact ⟨trivial, trivial, hok.1, hok.2.1, trivial, trivial⟩) [] []
    (by simpa using hd) answers [] (by rw [hlog]; exact l1) hh
  cases h1 with
  | cons h1 hnil =>
  cases hnil
  obtain ⟨ls, rest, rfl, p1, ls2, rest2, rfl, p2, p5⟩ := h1
  have p1 : ls = [] := p1
  have p5 : rest2 = [] := p5
  subst p1 p5
  obtain ⟨decoded, stmts, q1, q2, rfl⟩ := p2
  have hrow : ∀ n vs, RowDenotes [.longLong] (exampleImage n).cells vs → vs = [.longLong n] := by
    intro n vs h
    cases vs with
    | nil => exact h.elim
    | cons v vs =>
      cases vs with
      | cons _ _ => exact h.2.elim
      | nil => rw [show v = .longLong n from h.1 trivial]
  cases q1 with
  | cons r1 q1 =>
  cases q1 with
  | cons r2 q1 =>
  cases q1
  rw [hrow 3 _ r1, hrow 4 _ r2] at q2
  cases q2 with
  | cons s1 q2 =>
  cases q2 with
  | cons s2 q2 =>
  cases q2
  obtain ⟨t1, e1, rfl⟩ := s1
  obtain ⟨t2, e2, rfl⟩ := s2
  have htext : ∀ (n : Nat) (ls : List Bytes), List.Forall₂ (TextOf ft) (logged [true] (exampleCatalogue [] []) [.longLong n]) ls →
      ls = [natText n] := by
    intro n ls h
    have h : List.Forall₂ (TextOf ft) [(clientDef (exampleDef 8) .longLong [], .longLong n)] ls := h
    cases h with
    | cons h1 h2 =>
      cases h2
      obtain ⟨p, t, q, e1, e2, rfl⟩ := h1
      injection (example_param n).symm.trans e1 with e1
      subst e1
      injection (show some (natText n, false) = some (t, q) from e2) with e2
      injection e2 with e3 e4
      subst e3 e4
      simp [Spec.quotedIf]
  have e1 := htext 3 t1 e1
  have e2 := htext 4 t2 e2
  subst e1 e2
  rw [h2]
  have : limit = 0 ∨ limit = 1 := by omega
  rcases this with rfl | rfl
  · decide +kernel
  · decide +kernel

/-- C116 fails for transactions rolled back: the two rows that one of them inserts are printed. -/
theorem C116_rolled_back_false (ft : FloatText) : ∃ (t : Spec.Trx) (o : DmlOpts) (opening : List Bytes)
    (conn helper : Conn), t.Valid ∧ t.RolledBack ∧ o.limit = 0 ∧ Spec.OpensStream conn.caps true opening ∧
      Spec.Delivers conn.inp (opening ++ (t.log.map (fun x => Spec.streamMessage true x.1) ++ [[0xfe]])) [] ∧
      printDmls ft o (List.replicate 36 0x61) 5 conn helper
        = ([.stmt (Spec.ascii "INSERT INTO `d`.`t` (`a`) VALUES (3)"),
            .stmt (Spec.ascii "INSERT INTO `d`.`t` (`a`) VALUES (4)")], .done) := by
  have hl : exampleQuery 300 (Spec.ascii "ROLLBACK") ∈ exampleEnds := by simp [exampleEnds]
  obtain ⟨opening, conn, helper, h1, h2, h3⟩ := exampleTransaction_run ft _ hl
  exact ⟨_, exampleOpts 0, opening, conn, helper, exampleTransaction_valid _ hl, exampleQuery_runs _ _,
    rfl, h1, h2, h3 0 (by norm_num)⟩

/-- C116 fails if there is a limit: of a transaction that inserts two rows, one is printed, and the program ends as if
all was well. -/
theorem C116_limit_false (ft : FloatText) : ∃ (t : Spec.Trx) (o : DmlOpts) (opening : List Bytes)
    (conn helper : Conn), t.Valid ∧ t.Committed ∧ o.limit = 1 ∧ Spec.OpensStream conn.caps true opening ∧
      Spec.Delivers conn.inp (opening ++ (t.log.map (fun x => Spec.streamMessage true x.1) ++ [[0xfe]])) [] ∧
      printDmls ft o (List.replicate 36 0x61) 5 conn helper
        = ([.stmt (Spec.ascii "INSERT INTO `d`.`t` (`a`) VALUES (3)")], .done) ∧
      printDmls ft { o with limit := 0 } (List.replicate 36 0x61) 5 conn helper
        = ([.stmt (Spec.ascii "INSERT INTO `d`.`t` (`a`) VALUES (3)"),
            .stmt (Spec.ascii "INSERT INTO `d`.`t` (`a`) VALUES (4)")], .done) := by
  have hl : exampleQuery 300 (Spec.ascii "COMMIT") ∈ exampleEnds := by simp [exampleEnds]
  obtain ⟨opening, conn, helper, h1, h2, h3⟩ := exampleTransaction_run ft _ hl
  exact ⟨_, exampleOpts 1, opening, conn, helper, exampleTransaction_valid _ hl,
    .inr (exampleQuery_runs _ _), rfl, h1, h2, h3 1 (by norm_num), h3 0 (by norm_num)⟩

/-- the hypotheses of `C116_endings`: the transaction with each two of its ends -/
example : ∀ a ∈ exampleEnds, ∀ b ∈ exampleEnds, (exampleTransaction a).Valid ∧ (exampleTransaction b).Valid ∧
    (exampleTransaction a).changes = (exampleTransaction b).changes :=
  fun a ha b hb => ⟨exampleTransaction_valid a ha, exampleTransaction_valid b hb, rfl⟩

/-- a transaction whose change is a statement (`C116_statements_false`) -/
example : ∀ e ∈ [(⟨1, 34, 7, 50, 0, []⟩ : LogEvent), exampleQuery 70 (Spec.ascii "BEGIN"),
    exampleQuery 90 (Spec.ascii "delete from t"), ⟨1, 16, 7, 300, 0, Spec.le 8 77⟩],
    e.InRange ∧ (e.code ∈ [16, 33, 34] ∨ ∃ text, e.Runs text) := by
  intro e he
  refine ⟨?_, ?_⟩
  · revert e
    unfold Spec.LogEvent.InRange
    decide +kernel
  · simp only [List.mem_cons, List.not_mem_nil, or_false] at he
    rcases he with rfl | rfl | rfl | rfl
    · exact .inl (by decide)
    · exact .inr ⟨_, exampleQuery_runs _ _⟩
    · exact .inr ⟨_, exampleQuery_runs _ _⟩
    · exact .inl (by decide)

end Mybin
