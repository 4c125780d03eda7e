/-
C122: the variable that is named. `get_var`, `set_var` and `set_user_var` put the name into the text of a statement. What the
server takes it for: `SHOW VARIABLES LIKE` reads it as a pattern, in which `_` and `%` stand for other characters, and `SET`
as whatever the text says.
-/
import Verif.Props.C70_exact
import Verif.Spec.Replay
import Mathlib.Data.List.TakeWhile

namespace Mybin

/-! ### specification: a server with variables -/

/-- letters without case, as the names of variables are compared -/
def Spec.noCase (b : UInt8) : UInt8 := if 0x41 ≤ b ∧ b ≤ 0x5a then b + 0x20 else b

/-- the names are the same for the server -/
def Spec.sameName (a b : Bytes) : Bool := a.map Spec.noCase == b.map Spec.noCase

/-- `name LIKE pattern`: `%` is any text, `_` any character, a backslash takes the next character as it is (names of variables
are ASCII, a character is a byte) -/
def Spec.like : (pattern name : Bytes) → Bool
  | [], n => n.isEmpty
  | c :: p, n =>
    if c = 0x25 then
      Spec.like p n || (match n with | [] => false | _ :: n' => Spec.like (c :: p) n')
    else if c = 0x5f then
      (match n with | [] => false | _ :: n' => Spec.like p n')
    else if c = 0x5c then
      (match p, n with
      | d :: p', x :: n' => Spec.noCase d == Spec.noCase x && Spec.like p' n'
      | _, _ => false)
    else
      (match n with | [] => false | x :: n' => Spec.noCase c == Spec.noCase x && Spec.like p n')
termination_by p n => p.length + n.length

/-- the variables of a server, global or of the session: names and values, in the order in which it shows them -/
abbrev Spec.Variables := List (Bytes × Bytes)

/-- what the server answers to the statement `q`: the names and values of the variables that match the pattern -/
def Spec.showsFor (vars : Bool → Spec.Variables) (q : Bytes) : Option (List (List (Option Bytes))) :=
  let rows := fun (global : Bool) (t : Bytes) =>
    match Spec.stringLiteral t with
    | some (pattern, []) => some (((vars global).filter fun v => Spec.like pattern v.1).map fun v => [some v.1, some v.2])
    | _ => none
  match Spec.strip (Spec.ascii "SHOW GLOBAL VARIABLES LIKE ") q with
  | some t => rows true t
  | none =>
    match Spec.strip (Spec.ascii "SHOW VARIABLES LIKE ") q with
    | some t => rows false t
    | none => none

/-- the characters of names that are not quoted -/
def Spec.nameChar (b : UInt8) : Bool :=
  (0x30 ≤ b && b ≤ 0x39) || (0x41 ≤ b && b ≤ 0x5a) || (0x61 ≤ b && b ≤ 0x7a) || b == 0x5f || b == 0x24 || b == 0x2e

/-- the user variable that `SET @name …` sets first, and the text after it -/
def Spec.userTarget (q : Bytes) : Option (Bytes × Bytes) :=
  (Spec.strip (Spec.ascii "SET @") q).map fun t => (t.takeWhile Spec.nameChar, t.dropWhile Spec.nameChar)

/-- the words before a dot that choose whose variable is set -/
def Spec.scopes : List Bytes := ["global", "session", "local", "persist", "persist_only"].map Spec.ascii

/-- the system variable that `SET @@name …` sets first: the word that says whose, if there is one, the name, and the text
after it -/
def Spec.systemTarget (q : Bytes) : Option (Option Bytes × Bytes × Bytes) :=
  (Spec.strip (Spec.ascii "SET @@") q).map fun t =>
    let n := t.takeWhile Spec.nameChar
    let rest := t.dropWhile Spec.nameChar
    let word := (n.takeWhile (· ≠ 0x2e)).map Spec.noCase
    if Spec.scopes.contains word && n.contains 0x2e then (some word, n.drop (word.length + 1), rest) else (none, n, rest)

/-! ### patterns -/

theorem like_cons_plain (c : UInt8) (p n : Bytes) (h1 : c ≠ 0x25) (h2 : c ≠ 0x5f) (h3 : c ≠ 0x5c) :
    Spec.like (c :: p) n = match n with | [] => false | x :: n' => Spec.noCase c == Spec.noCase x && Spec.like p n' := by
  rw [Spec.like.eq_def]
  dsimp only
  rw [if_neg h1, if_neg h2, if_neg h3]

/-- a pattern without wildcards matches the variable of that name only -/
theorem like_plain (p n : Bytes) (h1 : 0x25 ∉ p) (h2 : 0x5f ∉ p) (h3 : 0x5c ∉ p) : Spec.like p n = Spec.sameName p n := by
  induction p generalizing n with
  | nil =>
    rw [Spec.like.eq_def]
    cases n <;> rfl
  | cons c p ih =>
    simp only [List.mem_cons, not_or] at h1 h2 h3
    rw [like_cons_plain c p n (Ne.symm h1.1) (Ne.symm h2.1) (Ne.symm h3.1)]
    cases n with
    | nil => rfl
    | cons x n =>
      dsimp only
      rw [ih n h1.2 h2.2 h3.2]
      unfold Spec.sameName
      rw [List.map_cons, List.map_cons, List.cons_beq_cons]

/-- a name without backslashes matches itself, in upper or lower case -/
theorem like_self (p n : Bytes) (h : 0x5c ∉ p) (hs : Spec.sameName p n = true) : Spec.like p n = true := by
  unfold Spec.sameName at hs
  rw [beq_iff_eq] at hs
  induction p generalizing n with
  | nil =>
    cases n with
    | nil => rw [Spec.like.eq_def]; rfl
    | cons x n => cases hs
  | cons c p ih =>
    cases n with
    | nil => cases hs
    | cons x n =>
      rw [List.map_cons, List.map_cons, List.cons.injEq] at hs
      simp only [List.mem_cons, not_or] at h
      have hp := ih n h.2 hs.2
      have hz : ∀ m, Spec.like p m = true → Spec.like (0x25 :: p) m = true := by
        intro m hm
        rw [Spec.like.eq_def]
        dsimp only
        rw [if_pos rfl, hm]
        rfl
      by_cases h1 : c = 0x25
      · subst h1
        rw [Spec.like.eq_def]
        dsimp only
        rw [if_pos rfl, hz n hp, Bool.or_true]
      · rw [Spec.like.eq_def]
        dsimp only
        rw [if_neg h1]
        by_cases h2 : c = 0x5f
        · rw [if_pos h2]
          exact hp
        · rw [if_neg h2, if_neg (Ne.symm h.1), hs.1, hp]
          simp

theorem strip_self (p t : Bytes) : Spec.strip p (p ++ t) = some t := by
  induction p with
  | nil => cases t <;> rfl
  | cons c p ih =>
    show (if c = c then Spec.strip p (p ++ t) else none) = _
    rw [if_pos rfl, ih]

/-- the server's answer to what `get_var` asks -/
theorem showsFor_variable (vars : Bool → Spec.Variables) (global : Bool) (name : Bytes) (hq : 0x27 ∉ name)
    (hw : Spec.OnlyWildcardEscapes name) :
    Spec.showsFor vars (Spec.showVariable global name) =
      some (((vars global).filter fun v => Spec.like name v.1).map fun v => [some v.1, some v.2]) := by
  have hl : Spec.stringLiteral (0x27 :: (name ++ [0x27])) = some (name, []) := by
    show (if (0x27 : UInt8) = 0x27 then Spec.stringBody _ else none) = _
    rw [if_pos rfl]
    exact (stringBody_undoubled name).2 ⟨hq, hw⟩
  have e : ∀ p : Bytes, p ++ Spec.ascii "'" ++ name ++ Spec.ascii "'" = p ++ 0x27 :: (name ++ [0x27]) := by
    intro p; simp [Spec.ascii]
  unfold Spec.showsFor Spec.showVariable
  cases global
  · rw [if_neg (by decide), e]
    have : Spec.strip (Spec.ascii "SHOW GLOBAL VARIABLES LIKE ") (Spec.ascii "SHOW VARIABLES LIKE " ++ 0x27 :: (name ++ [0x27]))
        = none := rfl
    dsimp only
    rw [this, strip_self]
    dsimp only
    rw [hl]
  · rw [if_pos rfl, e]
    dsimp only
    rw [strip_self]
    dsimp only
    rw [hl]

/-! ### reading a variable -/

/-- C122, as far as `get_var` goes: with a server that answers by `showsFor`, it returns the converted value of the first
variable that matches the name as a pattern, and `None` if none does. (Names with quotes or other backslashes: see C70.) -/
theorem C122_first_match {α : Type} (conv : Option Bytes → Res α) (vars : Bool → Spec.Variables) (name : Bytes) (global : Bool)
    (hn : name.length + 64 < 255 * 0xffffff) (hq : 0x27 ∉ name) (hw : Spec.OnlyWildcardEscapes name)
    {cols : List (Spec.ColDef × ColumnType)} (hc2 : cols.length = 2) {w s : Nat} {term : Bytes} {c : Conn} (rest : Bytes) :
    ∃ rows, Spec.showsFor vars (Spec.showVariable global name) = some rows ∧
      (Spec.AnswerOk c.caps cols w s rows term →
        Spec.Delivers c.inp (Spec.textAnswer c.caps (cols.map (·.1)) w s rows term) rest →
        ∃ c', c'.inp = rest ∧ SentOne c.caps c.out c'.out (.query (Spec.showVariable global name)) ∧
          Reads conv (((vars global).find? fun v => Spec.like name v.1).map fun v => some v.2) (Cmd.getVar conv name global c) c') := by
  refine ⟨_, showsFor_variable vars global name hq hw, fun ha hd => ?_⟩
  obtain ⟨c', h1, -, h3, h4⟩ := C70_get_var conv name global hn hc2 ha rest hd
  refine ⟨c', h1, h3, ?_⟩
  have e : (((vars global).filter fun v => Spec.like name v.1).map fun v => [some v.1, some v.2]).head?.bind (fun row => row[1]?)
      = ((vars global).find? fun v => Spec.like name v.1).map fun v => some v.2 := by
    rw [List.head?_map, List.head?_filter]
    cases (vars global).find? fun v => Spec.like name v.1 <;> rfl
  rw [← e]
  exact h4

/-- C122: `get_var` returns the value of the variable of that name, and `None` if there is none, for every name without
quotes and backslashes that matches no other variable of the server; names without `_` and `%` never do. Missing from the
full claim: names that match another variable (`C122_other_false`), which those with `_` can, and names with quotes and
backslashes (see C70). -/
theorem C122_get_var_partial {α : Type} (conv : Option Bytes → Res α) (vars : Bool → Spec.Variables) (name : Bytes)
    (global : Bool) (hn : name.length + 64 < 255 * 0xffffff) (hq : 0x27 ∉ name) (hb : 0x5c ∉ name)
    (hone : (0x25 ∉ name ∧ 0x5f ∉ name) ∨ ∀ v ∈ vars global, Spec.like name v.1 = true → Spec.sameName name v.1 = true)
    {cols : List (Spec.ColDef × ColumnType)} (hc2 : cols.length = 2) {w s : Nat} {term : Bytes} {c : Conn} (rest : Bytes) :
    ∃ rows, Spec.showsFor vars (Spec.showVariable global name) = some rows ∧
      (Spec.AnswerOk c.caps cols w s rows term →
        Spec.Delivers c.inp (Spec.textAnswer c.caps (cols.map (·.1)) w s rows term) rest →
        ∃ c', c'.inp = rest ∧
          Reads conv (((vars global).find? fun v => Spec.sameName name v.1).map fun v => some v.2) (Cmd.getVar conv name global c) c') := by
  have hw : Spec.OnlyWildcardEscapes name := by
    intro a b hab
    exact absurd (hab ▸ List.mem_append_right a List.mem_cons_self) hb
  obtain ⟨rows, h1, h2⟩ := C122_first_match conv vars name global hn hq hw hc2 (w := w) (s := s) (term := term) (c := c) rest
  refine ⟨rows, h1, fun ha hd => ?_⟩
  obtain ⟨c', g1, -, g3⟩ := h2 ha hd
  refine ⟨c', g1, ?_⟩
  have e : ((vars global).find? fun v => Spec.sameName name v.1) = (vars global).find? fun v => Spec.like name v.1 := by
    have hall : ∀ v ∈ vars global, Spec.sameName name v.1 = Spec.like name v.1 := by
      intro v hv
      rcases hone with ⟨p1, p2⟩ | hone
      · exact (like_plain name v.1 p1 p2 hb).symm
      · cases hl : Spec.like name v.1
        · cases hs : Spec.sameName name v.1
          · rfl
          · rw [like_self name v.1 hb hs] at hl; cases hl
        · exact hone v hv hl
    generalize vars global = l at hall
    induction l with
    | nil => rfl
    | cons v l ih =>
      rw [List.find?_cons, List.find?_cons, hall v List.mem_cons_self, ih fun x hx => hall x (List.mem_cons_of_mem _ hx)]
  rw [e]
  exact g3

/-- a server with three variables, two of which match `a_b` -/
def exampleVariables : Bool → Spec.Variables := fun _ =>
  [(Spec.ascii "a1b", Spec.ascii "1"), (Spec.ascii "a_b", Spec.ascii "2"), (Spec.ascii "server_id", Spec.ascii "7")]

/-- the name `server_id` has a `_`, but matches no other variable there -/
example : (∀ v ∈ exampleVariables true, Spec.like (Spec.ascii "server_id") v.1 = true →
      Spec.sameName (Spec.ascii "server_id") v.1 = true) ∧
    Spec.like (Spec.ascii "Server_ID") (Spec.ascii "server_id") = true ∧
    Spec.showsFor exampleVariables (Spec.showVariable true (Spec.ascii "server_id")) =
      some [[some (Spec.ascii "server_id"), some (Spec.ascii "7")]] := by
  refine ⟨?_, ?_, ?_⟩
  · have h : ∀ n : Bytes, n.length ≠ 9 → Spec.like (Spec.ascii "server_id") n = true → False := by
      intro n hn h
      have hlen : ∀ (p n : Bytes), 0x25 ∉ p → 0x5c ∉ p → Spec.like p n = true → n.length = p.length := by
        intro p
        induction p with
        | nil => intro n _ _ h; rw [Spec.like.eq_def] at h; cases n <;> simp_all
        | cons c p ih =>
          intro n h1 h2 h
          simp only [List.mem_cons, not_or] at h1 h2
          rw [Spec.like.eq_def] at h
          dsimp only at h
          rw [if_neg (Ne.symm h1.1)] at h
          cases n with
          | nil => split at h <;> simp_all
          | cons x n =>
            have : Spec.like p n = true := by
              split at h
              · exact h
              · rw [if_neg (Ne.symm h2.1)] at h
                simp only [Bool.and_eq_true] at h
                exact h.2
            rw [List.length_cons, List.length_cons, ih n h1.2 h2.2 this]
      exact hn (hlen _ n (by decide +kernel) (by decide +kernel) h)
    intro v hv hl
    simp only [exampleVariables, List.mem_cons, List.not_mem_nil, or_false] at hv
    rcases hv with rfl | rfl | rfl
    · exact (h _ (by decide +kernel) hl).elim
    · exact (h _ (by decide +kernel) hl).elim
    · decide +kernel
  · decide +kernel
  · decide +kernel

/-- what this server shows for `a_b` -/
def exampleShown : List (List (Option Bytes)) :=
  [[some (Spec.ascii "a1b"), some (Spec.ascii "1")], [some (Spec.ascii "a_b"), some (Spec.ascii "2")]]

theorem exampleShown_ok : Spec.AnswerOk (2 ^ 9) [(exampleTextDef, .varString), (exampleTextDef, .varString)] 0 2 exampleShown
    (Spec.eofPacket (2 ^ 9) 0 2) := by
  have hs : Spec.Supported (exampleTextDef, .varString) := by
    refine ⟨?_, by decide⟩
    constructor <;> first | (exact ⟨by decide, by decide⟩) | (exact (by decide))
  refine ⟨by simp, by simp, ?_, by norm_num, by norm_num, ?_, ?_, ?_⟩
  · simp only [List.mem_cons, List.not_mem_nil, or_false, or_self, forall_eq]
    exact hs
  · simp [exampleShown]
  · intro row hr t ht
    simp only [exampleShown, List.mem_cons, List.not_mem_nil, or_false] at hr
    rcases hr with rfl | rfl <;>
    · simp only [List.mem_cons, List.not_mem_nil, or_false, Option.some.injEq] at ht
      rcases ht with rfl | rfl <;> decide +kernel
  · unfold Spec.IsTerminator
    rw [if_neg (by decide)]
    exact ⟨0, 2, by norm_num, by norm_num, rfl⟩

/-- C122 is false of names that match another variable: with a server that has `a1b` and `a_b`, in this order, reading `a_b`
as a number returns the value of `a1b`. -/
theorem C122_other_false : ∃ c c' : Conn, ∃ rows term,
    Spec.showsFor exampleVariables (Spec.showVariable false (Spec.ascii "a_b")) = some rows ∧
    Spec.Delivers c.inp (Spec.textAnswer c.caps [exampleTextDef, exampleTextDef] 0 2 rows term) [] ∧
    Spec.AnswerOk c.caps [(exampleTextDef, .varString), (exampleTextDef, .varString)] 0 2 rows term ∧
    ((exampleVariables false).find? fun v => Spec.sameName (Spec.ascii "a_b") v.1) = some (Spec.ascii "a_b", Spec.ascii "2") ∧
    Cmd.getVar (uintFromText 32).nonNull (Spec.ascii "a_b") false c = .ok (some 1) c' := by
  have hrows : Spec.showsFor exampleVariables (Spec.showVariable false (Spec.ascii "a_b")) = some exampleShown := by
    decide +kernel
  obtain ⟨inp, hd⟩ := delivers_small (Spec.textAnswer (2 ^ 9) [exampleTextDef, exampleTextDef] 0 2 exampleShown
    (Spec.eofPacket (2 ^ 9) 0 2)) [] (by decide +kernel)
  obtain ⟨rows', h1, h2⟩ := C122_first_match (uintFromText 32).nonNull exampleVariables (Spec.ascii "a_b") false
    (by decide +kernel) (by decide +kernel) (by
      intro a b hab
      exact absurd (hab ▸ List.mem_append_right a List.mem_cons_self : (0x5c : UInt8) ∈ Spec.ascii "a_b") (by decide +kernel))
    (cols := [(exampleTextDef, .varString), (exampleTextDef, .varString)]) rfl (w := 0) (s := 2)
    (term := Spec.eofPacket (2 ^ 9) 0 2) (c := ⟨inp, [], 0, 2 ^ 9, 0⟩) []
  obtain rfl : exampleShown = rows' := Option.some.inj (hrows.symm.trans h1)
  obtain ⟨c', -, -, g⟩ := h2 exampleShown_ok hd
  have hf : ((exampleVariables false).find? fun v => Spec.like (Spec.ascii "a_b") v.1) = some (Spec.ascii "a1b", Spec.ascii "1") := by
    decide +kernel
  rw [hf] at g
  exact ⟨⟨inp, [], 0, 2 ^ 9, 0⟩, c', exampleShown, _, hrows, hd, exampleShown_ok, by decide +kernel, g.2.1 _ 1 rfl (by decide +kernel)⟩

/-! ### setting a variable -/

theorem takeWhile_all_append (p : UInt8 → Bool) (n t : Bytes) (h : ∀ b ∈ n, p b = true) (ht : ∀ b, t.head? = some b → p b = false) :
    (n ++ t).takeWhile p = n ∧ (n ++ t).dropWhile p = t := by
  induction n with
  | nil =>
    cases t with
    | nil => exact ⟨rfl, rfl⟩
    | cons b t =>
      have := ht b rfl
      simp [this]
  | cons c n ih =>
    have hc := h c List.mem_cons_self
    obtain ⟨h1, h2⟩ := ih fun b hb => h b (List.mem_cons_of_mem _ hb)
    rw [List.cons_append, List.takeWhile_cons, List.dropWhile_cons, hc]
    simp [h1, h2]

/-- C122 for user variables: the statement that `set_user_var` has the server execute sets the variable of that name, and no
other, exactly when the name consists of letters, digits, `_`, `$` and dots. Missing from the full claim: the other names
(`C122_set_user_false`). -/
theorem C122_set_user_partial (name : Bytes) (hn : name.length + 64 < 255 * 0xffffff) (v : StmtColumnValue) (hv : v.Sound) :
    ∃ q, SetsBy (Cmd.setUserVar name v) q v ∧
      (Spec.userTarget q = some (name, Spec.ascii " = ?") ↔ ∀ b ∈ name, Spec.nameChar b = true) := by
  refine ⟨_, (C71_set_var name hn v hv false).2, ?_⟩
  unfold Spec.userTarget
  rw [List.append_assoc, strip_self, Option.map_some, Option.some.injEq, Prod.mk.injEq]
  constructor
  · rintro ⟨h, -⟩ b hb
    rw [← h] at hb
    exact List.mem_takeWhile_imp hb
  · intro h
    exact takeWhile_all_append _ name _ h (by
      intro b hb
      have : b = 0x20 := by
        have h2 : (Spec.ascii " = ?").head? = some 0x20 := by decide +kernel
        rw [h2] at hb
        exact (Option.some.inj hb).symm
      subst this
      decide)

/-- C122 is false of other names: the statement for the name `a = 1, @b` sets the variable `a` (and `b` after it). -/
theorem C122_set_user_false (v : StmtColumnValue) (hv : v.Sound) :
    ∃ q, SetsBy (Cmd.setUserVar (Spec.ascii "a = 1, @b") v) q v ∧
      Spec.userTarget q = some (Spec.ascii "a", Spec.ascii " = 1, @b = ?") :=
  ⟨_, (C71_set_var (Spec.ascii "a = 1, @b") (by decide +kernel) v hv false).2, by decide +kernel⟩

/-- C122 for system variables: for names of letters, digits, `_`, `$` and dots that do not start with a word for whose
variable is meant (`global.`, `session.`, …), the statement of `set_var` sets the variable of that name: the global one
exactly if `global`. Missing from the full claim: names that start with such a word (`C122_set_scope_false`) and names with
other characters. -/
theorem C122_set_partial (name : Bytes) (hn : name.length + 64 < 255 * 0xffffff) (v : StmtColumnValue) (hv : v.Sound)
    (global : Bool) (hc : ∀ b ∈ name, Spec.nameChar b = true)
    (hs : (name.takeWhile (· ≠ 0x2e)).map Spec.noCase ∉ Spec.scopes) :
    ∃ q, SetsBy (Cmd.setVar name v global) q v ∧
      Spec.systemTarget q = some (if global then some (Spec.ascii "global") else none, name, Spec.ascii " = ?") := by
  refine ⟨_, (C71_set_var name hn v hv global).1, ?_⟩
  have hend : ∀ b, (Spec.ascii " = ?").head? = some b → Spec.nameChar b = false := by
    intro b hb
    have h2 : (Spec.ascii " = ?").head? = some 0x20 := by decide +kernel
    rw [h2] at hb
    cases hb
    decide
  unfold Spec.systemTarget Spec.setVariable
  cases global
  · rw [if_neg (by decide), List.append_assoc, strip_self, Option.map_some]
    obtain ⟨h1, h2⟩ := takeWhile_all_append _ name _ hc hend
    dsimp only
    rw [h1, h2, if_neg (fun h => hs (List.contains_iff_mem.1 (Bool.and_eq_true_iff.1 h).1))]
    rfl
  · have e : Spec.ascii "SET @@GLOBAL." ++ name ++ Spec.ascii " = ?"
        = Spec.ascii "SET @@" ++ ((Spec.ascii "GLOBAL." ++ name) ++ Spec.ascii " = ?") := by
      rw [show Spec.ascii "SET @@GLOBAL." = Spec.ascii "SET @@" ++ Spec.ascii "GLOBAL." by decide +kernel]
      simp only [List.append_assoc]
    rw [if_pos rfl, e, strip_self, Option.map_some]
    obtain ⟨h1, h2⟩ := takeWhile_all_append Spec.nameChar (Spec.ascii "GLOBAL." ++ name) _ (by
      intro b hb
      rcases List.mem_append.1 hb with hb | hb
      · have : ∀ b ∈ Spec.ascii "GLOBAL.", Spec.nameChar b = true := by decide +kernel
        exact this b hb
      · exact hc b hb) hend
    have hw : ((Spec.ascii "GLOBAL." ++ name).takeWhile (· ≠ 0x2e)).map Spec.noCase = Spec.ascii "global" := by
      rw [show Spec.ascii "GLOBAL." = Spec.ascii "GLOBAL" ++ [0x2e] by decide +kernel, List.append_assoc,
        (takeWhile_all_append (· ≠ 0x2e) (Spec.ascii "GLOBAL") ([0x2e] ++ name) (by decide +kernel) (by
          intro b hb; cases hb; decide)).1]
      decide +kernel
    have hd : (Spec.ascii "GLOBAL." ++ name).drop ((Spec.ascii "global").length + 1) = name := by
      rw [show (Spec.ascii "global").length + 1 = (Spec.ascii "GLOBAL.").length by decide +kernel]
      exact List.drop_left
    dsimp only
    rw [h1, h2, hw, if_pos (Bool.and_eq_true_iff.2 ⟨by decide +kernel, List.contains_iff_mem.2 ?_⟩), hd]
    · rfl
    · exact List.mem_append_left _ (by decide +kernel)

/-- a name that meets the hypotheses -/
example : (∀ b ∈ Spec.ascii "max_connections", Spec.nameChar b = true) ∧
    ((Spec.ascii "max_connections").takeWhile (· ≠ 0x2e)).map Spec.noCase ∉ Spec.scopes := by decide +kernel

/-- C122 is false of names that start with a word for whose variable is meant: with `global = false`, the name
`GLOBAL.max_connections` sets the global variable, for all sessions. -/
theorem C122_set_scope_false (v : StmtColumnValue) (hv : v.Sound) :
    ∃ q, SetsBy (Cmd.setVar (Spec.ascii "GLOBAL.max_connections") v false) q v ∧
      Spec.systemTarget q = some (some (Spec.ascii "global"), Spec.ascii "max_connections", Spec.ascii " = ?") :=
  ⟨_, (C71_set_var (Spec.ascii "GLOBAL.max_connections") (by decide +kernel) v hv false).1, by decide +kernel⟩

end Mybin
