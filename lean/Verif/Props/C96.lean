/-
C96: whenever a call waits for the server, the server has heard a whole message that it has not wholly answered; so a
session with a server that answers what it hears comes to its end.
-/
import Verif.Props.C84_more
import Verif.Props.C93

namespace Mybin

/-! ### calls that wait

In the model a call that has used up the bytes that arrived returns the error `io`: for an application whose stream goes
on, it waits at that point. -/

/-- a call, or where it waits: the error of a stream that came to its end is not an outcome -/
def Ask.cut (a : Ask) : M Outcome := fun c =>
  match a.perform c with
  | .ok (.failed .io) c' => .err .io c'
  | r => r

/-- setting a variable, or where it waits. `exec_close` sends the closing message also after an error, so where it waits
has to be said for its parts. -/
def cutSet (q : Bytes) (v : StmtColumnValue) : M Outcome := do
  match ← (Ask.prepare q).cut with
  | .stmt st => do
    let o ← (Ask.stmtExec st [v]).cut
    let _ ← (Ask.stmtClose st).cut
    return o
  | o => return o

/-- a call, or where it waits; if it does not wait, it is the call (`C96_same`) -/
def Ask.live : Ask → M Outcome
  | .setVar global name v => cutSet (Spec.setVariable global name) v
  | .setUserVar name v => cutSet (Spec.ascii "SET @" ++ name ++ Spec.ascii " = ?") v
  | a => a.cut

/-- a session, or where it waits: as `session` -/
def liveSession (app : List Outcome → Option Ask) : Nat → List Outcome → M (List Outcome)
  | 0, got => pure got
  | n + 1, got =>
    match app got with
    | none => pure got
    | some ask => do
      let o ← ask.live
      liveSession app n (got ++ [o])

/-! ### the protocol -/

/-- One call, message by message: what the server hears, and its answer to each. -/
inductive Spec.Rounds (caps : Nat) : Ask → List (Spec.Said × List Bytes) → Outcome → Prop
  /-- one message and its answer -/
  | one {ask s msgs got} (h : Spec.Exchange caps ask [s] msgs got) : Spec.Rounds caps ask [(s, msgs)] got
  /-- setting a variable: preparing, executing and closing a statement; closing is not answered -/
  | sets {ask q v} (id : Nat) (msgs : List Bytes) (f : Spec.OkFields) (h : Spec.sets ask = some (q, v))
      (ha : Spec.AcceptsPreparing caps id msgs) (hf : f.InRange) :
      Spec.Rounds caps ask [(.command (.stmtPrepare q), msgs), (.execute id [Spec.serverParam v], [Spec.okPacket caps 0 f]),
        (.command (.stmtClose id), [])] .done
  | setRefused {ask q v} (id : Nat) (msgs : List Bytes) (code : Nat) (state msg : Bytes)
      (h : Spec.sets ask = some (q, v)) (ha : Spec.AcceptsPreparing caps id msgs) (he : Spec.ErrOk code state msg) :
      Spec.Rounds caps ask [(.command (.stmtPrepare q), msgs),
        (.execute id [Spec.serverParam v], [refusalMsg caps code state msg]), (.command (.stmtClose id), [])]
        (refusal caps code state msg)

/-- one call in the history of a session: its messages, each with the bytes of the answer -/
structure Spec.Event96 where
  ask : Ask
  rounds : List (Spec.Said × Bytes)
  got : Outcome

/-- a history of `app` with a server that follows the protocol; `got` are the outcomes before it -/
def Spec.IsDialogue (caps : Nat) (app : List Outcome → Option Ask) : List Outcome → List Spec.Event96 → Prop
  | _, [] => True
  | got, e :: es => app got = some e.ask ∧ e.ask.Carried ∧ e.got ≠ .failed .io ∧
      (∃ rounds, Spec.Rounds caps e.ask rounds e.got ∧
        List.Forall₂ (fun r m => r.1 = m.1 ∧ Spec.Sends r.2 m.2) e.rounds rounds) ∧
      Spec.IsDialogue caps app (got ++ [e.got]) es

/-- all messages of a history with their answers -/
def Spec.allRounds (hist : List Spec.Event96) : List (Spec.Said × Bytes) := (hist.map (·.rounds)).flatten

/-- the bytes of all answers to these messages -/
def Spec.answers (rounds : List (Spec.Said × Bytes)) : Bytes := (rounds.map (·.2)).flatten

/-! ### proofs -/

theorem answers_append (a b : List (Spec.Said × Bytes)) : Spec.answers (a ++ b) = Spec.answers a ++ Spec.answers b := by
  simp [Spec.answers]

/-- `run` plays the rounds: with all answers it returns `a` having said all; with the answers cut off it waits, having said
exactly the messages up to the one whose answer is not whole -/
def Live {α : Type} (caps : Nat) (run : M α) (rounds : List (Spec.Said × Bytes)) (a : α) : Prop :=
  (∀ (c : Conn) (rest : Bytes), c.caps = caps → c.inp = Spec.answers rounds ++ rest →
    ∃ c', run c = .ok a c' ∧ c'.inp = rest ∧ c'.caps = caps ∧ Spec.Heard caps c.out c'.out (rounds.map (·.1))) ∧
  (∀ pre s y post, rounds = pre ++ (s, y) :: post → ∀ part, part <+: y → part ≠ y → ∀ c : Conn, c.caps = caps →
    c.inp = Spec.answers pre ++ part →
    ∃ c', run c = .err .io c' ∧ Spec.Heard caps c.out c'.out (pre.map (·.1) ++ [s]))

theorem Live.pure {α : Type} (caps : Nat) (a : α) : Live caps (Pure.pure a : M α) [] a := by
  refine ⟨fun c rest hc hi => ⟨c, rfl, by simpa [Spec.answers] using hi, hc, Heard.nil _ _⟩, ?_⟩
  intro pre s y post h
  simp at h

theorem Live.bind {α β : Type} {caps : Nat} {x : M α} {f : α → M β} {r1 r2 : List (Spec.Said × Bytes)} {a : α} {b : β}
    (hx : Live caps x r1 a) (hf : Live caps (f a) r2 b) : Live caps (x >>= f) (r1 ++ r2) b := by
  refine ⟨fun c rest hc hi => ?_, fun pre s y post h part hp hne c hc hi => ?_⟩
  · rw [answers_append, List.append_assoc] at hi
    obtain ⟨c1, e1, i1, k1, o1⟩ := hx.1 c _ hc hi
    obtain ⟨c2, e2, i2, k2, o2⟩ := hf.1 c1 _ k1 i1
    refine ⟨c2, by rw [M.bind_apply, e1]; exact e2, i2, k2, ?_⟩
    rw [List.map_append]
    exact Heard.append o1 o2
  · rcases List.append_eq_append_iff.1 h with ⟨m, h1, h2⟩ | ⟨m, h1, h2⟩
    · -- the round is in `r2`
      subst h1
      rw [answers_append, List.append_assoc] at hi
      obtain ⟨c1, e1, i1, k1, o1⟩ := hx.1 c _ hc hi
      obtain ⟨c2, e2, o2⟩ := hf.2 m s y post h2 part hp hne c1 k1 i1
      refine ⟨c2, by rw [M.bind_apply, e1]; exact e2, ?_⟩
      rw [List.map_append, List.append_assoc]
      exact Heard.append o1 o2
    · rcases m with _ | ⟨⟨s', y'⟩, m⟩
      · simp only [List.append_nil, List.nil_append] at h1 h2
        subst h1
        obtain ⟨c1, e1, i1, k1, o1⟩ := hx.1 c _ hc hi
        obtain ⟨c2, e2, o2⟩ := hf.2 [] s y post h2.symm part hp hne c1 k1 (by simpa [Spec.answers] using i1)
        exact ⟨c2, by rw [M.bind_apply, e1]; exact e2, Heard.append o1 o2⟩
      · simp only [List.cons_append, List.cons.injEq, Prod.mk.injEq] at h2
        obtain ⟨⟨rfl, rfl⟩, -⟩ := h2
        obtain ⟨c1, e1, o1⟩ := hx.2 pre s y m h1 part hp hne c hc hi
        exact ⟨c1, by rw [M.bind_apply, e1]; rfl, o1⟩

theorem Live.congr {α : Type} {caps : Nat} {x y : M α} {r : List (Spec.Said × Bytes)} {a : α} (h : Live caps x r a)
    (e : x = y) : Live caps y r a := e ▸ h

/-- one message, then its answer -/
theorem Live.one {α : Type} {caps : Nat} {run : M α} {bs : Bytes} {s : Spec.Said} {msgs : List Bytes} {a : α} {y : Bytes}
    (h1 : SendsOne bs run) (h2 : Inc run) (h3 : ∀ caps, Spec.Hears caps bs s) (h4 : Exchanges caps run msgs a [s])
    (hy : Spec.Sends y msgs) : Live caps run [(s, y)] a := by
  refine ⟨fun c rest hc hi => ?_, fun pre s' y' post h part hp hne c hc hi => ?_⟩
  · simp only [Spec.answers, List.map_cons, List.map_nil, List.flatten_cons, List.flatten_nil, List.append_nil] at hi
    exact h4 c rest hc (by rw [hi]; exact sends_delivers hy rest)
  · have hpre : pre = [] := by
      rcases pre with _ | ⟨p, pre⟩
      · rfl
      · simp at h
    subst hpre
    simp only [List.nil_append, List.cons.injEq, Prod.mk.injEq] at h
    obtain ⟨⟨rfl, rfl⟩, -⟩ := h
    obtain ⟨z, rfl⟩ := hp
    have hz : z ≠ [] := fun e => hne (by simp [e])
    have hi : c.inp = part := by simpa [Spec.answers] using hi
    obtain ⟨c2, e2, i2, -, -⟩ := h4 (Spec.arrived c z) [] hc (by
      show Spec.Delivers (c.inp ++ z) _ _
      rw [hi, ← List.append_nil (part ++ z)]; exact sends_delivers hy [])
    have hag := h2.2 z c
    rw [e2] at hag
    cases hr : run c with
    | ok v c' =>
      rw [hr] at hag
      have hag : MR.ok a c2 = .ok v (Spec.arrived c' z) := hag
      cases hag
      have : c'.inp ++ z = [] := i2
      simp [hz] at this
    | err e c' =>
      rw [hr] at hag
      rcases (hag : MR.ok a c2 = .err e (Spec.arrived c' z) ∨ _) with hag | ⟨rfl, -⟩
      · cases hag
      · exact ⟨c', rfl, (h1.says h3) caps c c' (Or.inr ⟨_, hr⟩)⟩
    | panic => rw [hr] at hag; cases (show MR.ok a c2 = .panic from hag)
    | hang => rw [hr] at hag; cases (show MR.ok a c2 = .hang from hag)

theorem cut_ends {a : Ask} {c c' : Conn} (h : Ends (a.cut c) c') : Ends (a.perform c) c' := by
  unfold Ask.cut at h
  cases hr : a.perform c with
  | ok o c1 =>
    rw [hr] at h
    split at h
    · rename_i e; cases e; rw [Ends.err h]; exact Or.inl ⟨_, rfl⟩
    · rw [Ends.ok h]; exact Or.inl ⟨o, rfl⟩
  | err e c1 => rw [hr] at h; rw [Ends.err h]; exact Or.inr ⟨e, rfl⟩
  | panic => rw [hr] at h; exact h.panic.elim
  | hang => rw [hr] at h; rcases h with ⟨_, h⟩ | ⟨_, h⟩ <;> cases h

theorem SendsOne.cut {bs : Bytes} {a : Ask} (h : SendsOne bs a.perform) : SendsOne bs a.cut :=
  fun c c' he => h c c' (cut_ends he)

/-- a call as an attempt: cutting it off turns the error of the stream's end back into an error -/
theorem cut_attempt {α : Type} {a : Ask} {run : M α} {f : α → Outcome} (e : a.perform = attempt run f)
    (hf : ∀ v, f v ≠ .failed .io) (c : Conn) :
    a.cut c = match run c with
      | .ok v c' => .ok (f v) c'
      | .err .io c' => .err .io c'
      | .err e c' => .ok (.failed e) c'
      | .panic => .panic
      | .hang => .hang := by
  unfold Ask.cut
  rw [e]
  unfold attempt
  cases run c with
  | ok v c' =>
    dsimp only
    have := hf v
    split
    · rename_i e; simp only [MR.ok.injEq] at e; exact absurd e.1 this
    · rfl
  | err e c' => cases e <;> rfl
  | panic => rfl
  | hang => rfl

theorem Inc.cut {α : Type} {a : Ask} {run : M α} {f : α → Outcome} (h : Inc run) (e : a.perform = attempt run f)
    (hf : ∀ v, f v ≠ .failed .io) : Inc a.cut := by
  have hends : ∀ c d, Ends (a.cut c) d → Ends (run c) d := fun c d hd => by
    have := cut_ends hd
    rw [e] at this
    exact attempt_ends this
  refine ⟨fun c d hd => h.1 c d (hends c d hd), fun b c => ?_⟩
  have hag := h.2 b c
  have hw := hends (Spec.arrived c b)
  rw [cut_attempt e hf] at hw ⊢
  rw [cut_attempt e hf]
  cases hr : run c with
  | ok v c' =>
    rw [hr] at hag
    have hag : run (Spec.arrived c b) = .ok v (Spec.arrived c' b) := hag
    rw [hag]
    rfl
  | err e c' =>
    rw [hr] at hag
    rcases (hag : run (Spec.arrived c b) = .err e (Spec.arrived c' b) ∨ _) with hag | ⟨rfl, hag⟩
    · rw [hag]
      cases e <;> first | rfl | exact Or.inl rfl
    · exact Or.inr ⟨rfl, fun d hd => hag d (hw d hd)⟩
  | panic => rw [hr] at hag; rw [show run (Spec.arrived c b) = .panic from hag]; rfl
  | hang => rw [hr] at hag; rw [show run (Spec.arrived c b) = .hang from hag]; rfl

theorem Exchanges.cut {caps : Nat} {a : Ask} {msgs : List Bytes} {got : Outcome} {said : List Spec.Said}
    (h : Exchanges caps a.perform msgs got said) (hg : got ≠ .failed .io) : Exchanges caps a.cut msgs got said := by
  intro c rest hc hd
  obtain ⟨c', h1, h2⟩ := h c rest hc hd
  refine ⟨c', ?_, h2⟩
  unfold Ask.cut
  rw [h1]
  split
  · rename_i e; simp only [MR.ok.injEq] at e; exact absurd e.1 hg
  · rfl

/-- the calls of one message -/
theorem ask_sendsOne (a : Ask) (ha : a.Typed) (hn : Spec.sets a = none) :
    Inc a.cut ∧ ∃ bs s, SendsOne bs a.cut ∧ (∀ caps, Spec.Hears caps bs s) ∧ ∀ t, Spec.MaySay a [t] → t = s := by
  have one : ∀ {α : Type} {run : M α} {f : α → Outcome} {bs : Bytes} {s : Spec.Said}, a.perform = attempt run f →
      (∀ v, f v ≠ .failed .io) → Inc run → SendsOne bs run → (∀ caps, Spec.Hears caps bs s) →
      (∀ t, Spec.MaySay a [t] → t = s) → Inc a.cut ∧ ∃ bs s, SendsOne bs a.cut ∧ (∀ caps, Spec.Hears caps bs s) ∧
        ∀ t, Spec.MaySay a [t] → t = s :=
    fun e hf hi hb hs hm => ⟨hi.cut e hf, _, _, SendsOne.cut (by rw [e]; exact hb.attempt _), hs, hm⟩
  have str := fun q caps => C19_string_commands caps [] q
  have single : ∀ {t s : Spec.Said}, [t] = [s] → t = s := fun h => by simpa using h
  cases a with
  | initDb db =>
    exact one rfl (by simp) (Inc.okCommand _) (SendsOne.okCommand _) (SentAs.hears fun caps => (str db caps).2.1) fun _ => single
  | createDb db =>
    exact one rfl (by simp) (Inc.okCommand _) (SendsOne.okCommand _) (SentAs.hears fun caps => (str db caps).2.2.1)
      fun _ => single
  | dropDb db =>
    exact one rfl (by simp) (Inc.okCommand _) (SendsOne.okCommand _) (SentAs.hears fun caps => (str db caps).2.2.2.1)
      fun _ => single
  | refresh flags =>
    exact one rfl (by simp) (Inc.okCommand _) (SendsOne.okCommand _) (SentAs.hears fun caps =>
      (C19_integer_commands caps [] 0 0 flags false (by norm_num) (by norm_num) ha).2.2.2.2.1) fun _ => single
  | processKill id =>
    exact one rfl (by simp) (Inc.okCommand _) (SendsOne.okCommand _) (SentAs.hears fun caps =>
      (C19_integer_commands caps [] id 0 0 false ha (by norm_num) (by norm_num)).1) fun _ => single
  | resetConnection =>
    exact one rfl (by simp) (Inc.okCommand _) (SendsOne.okCommand _) (SentAs.hears fun caps =>
      (C19_simple_commands caps []).2.2.2.2.2) fun _ => single
  | registerSlave id =>
    exact one rfl (by simp) (Inc.okCommand _) (SendsOne.okCommand _) (SentAs.hears fun caps =>
      C19_register_slave_partial caps [] ⟨id, [], [], [], 0, 0, 0⟩ ha (by simp) (by simp) (by simp) (by simp) (by simp)
        (by simp)) fun _ => single
  | ping =>
    refine one rfl (by simp) Inc.ping ?_ (SentAs.hears fun caps => (C19_simple_commands caps []).2.2.2.2.1) fun _ => single
    exact (SendsOne.sendMsg _).bind fun _ => Quiet.recvMsg.bind fun _ => Quiet.getCaps.bind fun _ =>
      (Quiet.parse _ _).bind fun _ => Quiet.pure _
  | statistics =>
    refine one rfl (by simp) Inc.statistics ?_ (SentAs.hears fun caps => (C19_simple_commands caps []).2.1) fun _ => single
    refine (SendsOne.sendMsg _).bind fun _ => Quiet.recvMsg.bind fun _ => ?_
    split
    · exact Quiet.pure _
    · exact Quiet.fail _
  | debug =>
    refine one rfl (by simp) Inc.debug ?_ (SentAs.hears fun caps => (C19_simple_commands caps []).2.2.2.1) fun _ => single
    refine (SendsOne.sendMsg _).bind fun _ => Quiet.recvMsg.bind fun _ => Quiet.getCaps.bind fun _ =>
      (Quiet.parse _ _).bind fun r => ?_
    cases r with
    | eof p => exact Quiet.pure _
    | err p => exact Quiet.fail _
  | processInfo =>
    refine one rfl (by simp) (Inc.processInfo.bind fun _ => Inc.application (.all _ _)) ?_
      (SentAs.hears fun caps => (C19_simple_commands caps []).2.2.1) fun _ => single
    exact SendsOne.bind ((SendsOne.sendMsg _).bind fun _ => Quiet.newResultSet _) fun _ => Quiet.all _ _
  | fieldList t w =>
    exact one rfl (by simp) (Inc.fieldList t w) (SendsOne.fieldList t w) (SentAs.hears fun caps => C19_field_list caps [] t w ha)
      fun _ => single
  | binlogFiles =>
    exact one rfl (by simp) Inc.binlogFiles SendsOne.binlogFiles (SentAs.hears fun caps => (str _ caps).1) fun _ => single
  | query q =>
    exact one rfl (by simp) ((Inc.query q).bind fun _ => Inc.application (.all _ _))
      ((SendsOne.qry q).bind fun _ => Quiet.all _ _) (SentAs.hears fun caps => (str q caps).1) fun _ => single
  | exec q => exact one rfl (by simp) (Inc.queryExec q) (SendsOne.exec q) (SentAs.hears fun caps => (str q caps).1) fun _ => single
  | prepare q =>
    exact one rfl (by simp) (Inc.prepare q) (SendsOne.prepare q) (SentAs.hears fun caps => (str q caps).2.2.2.2) fun _ => single
  | stmtExec st ps =>
    obtain ⟨bs, h1, h2⟩ := send_inv st ps ha.1 ha.2
    exact one rfl (by simp) (Inc.exec st ps) (h1.bind fun _ => Quiet.execLoop) h2 fun _ => single
  | stmtQuery st ps =>
    obtain ⟨bs, h1, h2⟩ := send_inv st ps ha.1 ha.2
    exact one rfl (by simp) ((Inc.stmtQry st ps).bind fun _ => Inc.application (.all _ _))
      ((h1.bind fun _ => Quiet.newResultSet _).bind fun _ => Quiet.all _ _) h2 fun _ => single
  | stmtClose st =>
    exact one rfl (by simp) (Inc.stmtClose st) (SendsOne.sendMsg _) (SentAs.hears fun caps =>
      (C19_integer_commands caps [] st.stmtId 0 0 false ha (by norm_num) (by norm_num)).2.1) fun _ => single
  | setVar global name v => simp [Spec.sets] at hn
  | setUserVar name v => simp [Spec.sets] at hn
  | getVar conv global name =>
    exact one rfl (by simp) (Inc.getVar conv name global) (SendsOne.getVar conv name global)
      (SentAs.hears fun caps => (str _ caps).1) fun _ => single
  | getUserVar conv name =>
    exact one rfl (by simp) (Inc.getUserVar conv name) (SendsOne.getUserVar conv name)
      (SentAs.hears fun caps => (str _ caps).1) fun _ => single

theorem Ask.Carried.typed {a : Ask} (h : a.Carried) : a.Typed := by
  cases a <;> first
    | trivial
    | exact h
    | exact h.1
    | exact ⟨h.1, h.2.1⟩
    | exact h.2.1

theorem exchange_maySay {caps : Nat} {ask : Ask} {s : Spec.Said} {msgs : List Bytes} {got : Outcome}
    (h : Spec.Exchange caps ask [s] msgs got) : Spec.MaySay ask [s] := by
  have plain : ∀ {ask s}, Spec.plain ask = some s → Spec.MaySay ask [s] := by
    intro ask s h
    cases ask <;> simp only [Spec.plain, Option.some.injEq, reduceCtorEq] at h <;> subst h <;> rfl
  have text : ∀ {ask s}, Spec.asksText ask = some s → Spec.MaySay ask [.command s] := by
    intro ask s h
    cases ask <;> simp only [Spec.asksText, Option.some.injEq, reduceCtorEq] at h <;> subst h <;> rfl
  have sets : ∀ {ask q v}, Spec.sets ask = some (q, v) → Spec.MaySay ask [.command (.stmtPrepare q)] := by
    intro ask q v h
    cases ask <;> simp only [Spec.sets, Option.some.injEq, reduceCtorEq, Prod.mk.injEq] at h <;> obtain ⟨rfl, rfl⟩ := h <;>
      exact Or.inl rfl
  cases h with
  | ok f h _ => exact plain h
  | refused c st m h _ => exact plain h
  | rows cols w s rows term h _ => exact text h
  | noRows f h _ => exact text h
  | queryRefused c st m h _ => exact text h
  | setNotPrepared c st m h _ => exact sets h
  | _ => rfl

/-- the calls that are one message -/
theorem live_one {caps : Nat} {ask : Ask} {s : Spec.Said} {msgs : List Bytes} {got : Outcome} {y : Bytes}
    (hc : ask.Carried) (hn : Spec.sets ask = none) (h : Spec.Exchange caps ask [s] msgs got) (hg : got ≠ .failed .io)
    (hy : Spec.Sends y msgs) : Live caps ask.cut [(s, y)] got := by
  obtain ⟨h1, bs, t, h2, h3, h4⟩ := ask_sendsOne ask hc.typed hn
  obtain rfl := h4 s (exchange_maySay h)
  exact .one h2 h1 h3 ((exchange_performs caps ask _ _ _ hc h).cut hg) hy

theorem sets_live (ask : Ask) (hc : ask.Carried) (q : Bytes) (v : StmtColumnValue) (h : Spec.sets ask = some (q, v)) :
    ask.live = cutSet q v ∧ q.length + 1 < 255 * 0xffffff ∧ v.Sound ∧ ParamsFit [v] := by
  have h4 : (Spec.ascii " = ?").length = 4 := rfl
  cases ask with
  | setVar global name v =>
    simp only [Spec.sets, Option.some.injEq, Prod.mk.injEq] at h
    obtain ⟨rfl, rfl⟩ := h
    refine ⟨rfl, ?_, hc.2⟩
    have h1 : (Spec.ascii (if global then "SET @@GLOBAL." else "SET @@")).length ≤ 20 := by cases global <;> decide
    have h2 : name.length + 64 < 255 * 0xffffff := hc.1
    unfold Spec.setVariable
    simp only [List.length_append]
    omega
  | setUserVar name v =>
    simp only [Spec.sets, Option.some.injEq, Prod.mk.injEq] at h
    obtain ⟨rfl, rfl⟩ := h
    refine ⟨rfl, ?_, hc.2⟩
    have h1 : (Spec.ascii "SET @").length = 5 := rfl
    have h2 : name.length + 64 < 255 * 0xffffff := hc.1
    simp only [List.length_append]
    omega
  | _ => simp [Spec.sets] at h

/-- preparing, executing and closing -/
theorem live_sets {caps : Nat} {q : Bytes} {v : StmtColumnValue} (hq : q.length + 1 < 255 * 0xffffff) (hv : v.Sound)
    (hp : ParamsFit [v]) {id : Nat} {msgs : List Bytes} (ha : Spec.AcceptsPreparing caps id msgs) {m : Bytes} {got : Outcome}
    (h : ∀ st : PreparedStmt, st.stmtId = id →
      Spec.Exchange caps (.stmtExec st [v]) [.execute st.stmtId [Spec.serverParam v]] [m] got)
    (hg : got ≠ .failed .io) {y1 y2 y3 : Bytes} (hy1 : Spec.Sends y1 msgs) (hy2 : Spec.Sends y2 [m])
    (hy3 : Spec.Sends y3 []) :
    Live caps (cutSet q v) [(.command (.stmtPrepare q), y1), (.execute id [Spec.serverParam v], y2),
      (.command (.stmtClose id), y3)] got := by
  obtain ⟨warnings, w, s, param, g1, g2, g3, g4, g5, rfl⟩ := ha
  have hprep : Live caps (Ask.prepare q).cut [(.command (.stmtPrepare q), y1)]
      (.stmt ⟨id, clientDefs [], clientDefs [param], warnings⟩) := by
    obtain ⟨h1, bs, t, h2, h3, h4⟩ := ask_sendsOne (.prepare q) trivial rfl
    obtain rfl := h4 (.command (.stmtPrepare q)) rfl
    refine .one h2 h1 h3 (Exchanges.cut ?_ (by simp)) hy1
    refine attempt_ok (run := Stmt.prepare q) (f := .stmt) ?_
    rintro c rest rfl hd
    obtain ⟨c', h1, h2, h3, h4⟩ := C50_prepare_partial q hq ⟨id, warnings⟩ g1 g2 [param] [] (by simp) (by simp)
      (by simpa using g5) (by simp) w s 0 0 g3 g4 (by norm_num) (by norm_num) rest c hd
    exact ⟨c', h1, h2, h3, h4.heard⟩
  have hexec := live_one (caps := caps) (ask := .stmtExec ⟨id, clientDefs [], clientDefs [param], warnings⟩ [v])
    ⟨g1, by simpa using hv, hp⟩ rfl (h _ rfl) hg hy2
  have hclose := live_one (caps := caps) (ask := .stmtClose ⟨id, clientDefs [], clientDefs [param], warnings⟩)
    g1 rfl (.stmtClose _) (by simp) hy3
  have := hprep.bind (f := fun o => match o with
    | .stmt st => do
      let o ← (Ask.stmtExec st [v]).cut
      let _ ← (Ask.stmtClose st).cut
      return o
    | o => return o) (hexec.bind (f := fun o => do
      let _ ← (Ask.stmtClose ⟨id, clientDefs [], clientDefs [param], warnings⟩).cut
      return o) (hclose.bind (Live.pure caps got)))
  exact this

theorem exchange_sets_one {caps : Nat} {ask : Ask} {s : Spec.Said} {msgs : List Bytes} {got : Outcome} {q : Bytes}
    {v : StmtColumnValue} (h : Spec.Exchange caps ask [s] msgs got) (hs : Spec.sets ask = some (q, v)) :
    ∃ code state msg, Spec.ErrOk code state msg ∧ s = .command (.stmtPrepare q) ∧ msgs = [refusalMsg caps code state msg] ∧
      got = refusal caps code state msg := by
  have plain : ∀ {s}, Spec.plain ask = some s → False := by
    intro s h
    cases ask <;> simp [Spec.plain, Spec.sets] at h hs
  have text : ∀ {s}, Spec.asksText ask = some s → False := by
    intro s h
    cases ask <;> simp [Spec.asksText, Spec.sets] at h hs
  cases h with
  | ok f h _ => exact (plain h).elim
  | refused c st m h _ => exact (plain h).elim
  | rows cols w s rows term h _ => exact (text h).elim
  | noRows f h _ => exact (text h).elim
  | queryRefused c st m h _ => exact (text h).elim
  | setNotPrepared c st m h he =>
    rw [hs] at h
    cases h
    exact ⟨c, st, m, he, rfl, rfl, rfl⟩
  | _ => simp [Spec.sets] at hs

theorem live_rounds {caps : Nat} {ask : Ask} {rounds : List (Spec.Said × List Bytes)} {got : Outcome}
    (hc : ask.Carried) (h : Spec.Rounds caps ask rounds got) (hg : got ≠ .failed .io) {rs : List (Spec.Said × Bytes)}
    (hr : List.Forall₂ (fun r m => r.1 = m.1 ∧ Spec.Sends r.2 m.2) rs rounds) : Live caps ask.live rs got := by
  have one : ∀ {s msgs}, Spec.sets ask = none → Spec.Exchange caps ask [s] msgs got →
      List.Forall₂ (fun r m => r.1 = m.1 ∧ Spec.Sends r.2 m.2) rs [(s, msgs)] → Live caps ask.live rs got := by
    intro s msgs hn h hr
    cases hr with
    | cons h1 h2 =>
      cases h2
      rename_i r
      obtain ⟨t, y⟩ := r
      obtain ⟨rfl, h1⟩ := h1
      have : ask.live = ask.cut := by
        cases ask <;> first | rfl | simp [Spec.sets] at hn
      rw [this]
      exact live_one hc hn h hg h1
  cases h with
  | one h =>
    cases hs : Spec.sets ask with
    | none => exact one hs h hr
    | some qv =>
      obtain ⟨q, v⟩ := qv
      obtain ⟨e, hq, hv, hp⟩ := sets_live ask hc q v hs
      rw [e]
      obtain ⟨code, state, msg, he, rfl, rfl, rfl⟩ := exchange_sets_one h hs
      cases hr with
      | cons h1 h2 =>
        cases h2
        rename_i r
        obtain ⟨t, y⟩ := r
        obtain ⟨rfl, h1⟩ := h1
        have hprep : Live caps (Ask.prepare q).cut [(.command (.stmtPrepare q), y)] (refusal caps code state msg) := by
          obtain ⟨k1, bs, t, k2, k3, k4⟩ := ask_sendsOne (.prepare q) trivial rfl
          obtain rfl := k4 (.command (.stmtPrepare q)) rfl
          refine .one k2 k1 k3 (Exchanges.cut ?_ (by simp)) h1
          refine attempt_err (run := Stmt.prepare q) (f := .stmt) ?_
          rintro c rest rfl hd
          obtain ⟨c', h1, h2, h3, h4⟩ := C50_prepare_err q hq code he.code_lt state msg he.state_len he.state_utf8
            he.msg_utf8 rest c hd
          exact ⟨c', h1, h2, h3, h4.heard⟩
        exact hprep.bind (f := fun o => match o with
          | .stmt st => do
            let o ← (Ask.stmtExec st [v]).cut
            let _ ← (Ask.stmtClose st).cut
            return o
          | o => return o) (Live.pure caps _)
  | sets id msgs f h ha hf =>
    obtain ⟨e, hq, hv, hp⟩ := sets_live ask hc _ _ h
    rw [e]
    cases hr with
    | cons h1 h2 => cases h2 with
      | cons h2 h3 => cases h3 with
        | cons h3 h4 =>
          cases h4
          rename_i r1 r2 r3
          obtain ⟨t1, y1⟩ := r1
          obtain ⟨t2, y2⟩ := r2
          obtain ⟨t3, y3⟩ := r3
          obtain ⟨rfl, h1⟩ := h1
          obtain ⟨rfl, h2⟩ := h2
          obtain ⟨rfl, h3⟩ := h3
          exact live_sets hq hv hp ha (fun st hst => .ok f rfl hf) hg h1 h2 h3
  | setRefused id msgs code state msg h ha he =>
    obtain ⟨e, hq, hv, hp⟩ := sets_live ask hc _ _ h
    rw [e]
    cases hr with
    | cons h1 h2 => cases h2 with
      | cons h2 h3 => cases h3 with
        | cons h3 h4 =>
          cases h4
          rename_i r1 r2 r3
          obtain ⟨t1, y1⟩ := r1
          obtain ⟨t2, y2⟩ := r2
          obtain ⟨t3, y3⟩ := r3
          obtain ⟨rfl, h1⟩ := h1
          obtain ⟨rfl, h2⟩ := h2
          obtain ⟨rfl, h3⟩ := h3
          exact live_sets hq hv hp ha (fun st hst => .refused code state msg rfl he) hg h1 h2 h3

theorem live_history {caps : Nat} {app : List Outcome → Option Ask} (hist : List Spec.Event96) (got : List Outcome)
    (h : Spec.IsDialogue caps app got hist) :
    Live caps (liveSession app hist.length got) (Spec.allRounds hist) (got ++ hist.map (·.got)) := by
  induction hist generalizing got with
  | nil => simpa [liveSession, Spec.allRounds] using Live.pure caps got
  | cons e es ih =>
    obtain ⟨h1, h2, h3, ⟨rounds, h4, h5⟩, h6⟩ := h
    have := (live_rounds h2 h4 h3 h5).bind (f := fun o => liveSession app es.length (got ++ [o])) (ih _ h6)
    simp only [List.length_cons, liveSession, h1]
    simpa [Spec.allRounds] using this

theorem cut_same {a : Ask} {c c' : Conn} {o : Outcome} (h : a.cut c = .ok o c') : a.perform c = .ok o c' := by
  unfold Ask.cut at h
  split at h
  · cases h
  · exact h

/-- where an answer is cut off -/
theorem cut_point (rounds : List (Spec.Said × Bytes)) (part : Bytes) (h : part <+: Spec.answers rounds)
    (hne : part ≠ Spec.answers rounds) :
    ∃ pre s y post p, rounds = pre ++ (s, y) :: post ∧ part = Spec.answers pre ++ p ∧ p <+: y ∧ p ≠ y := by
  induction rounds generalizing part with
  | nil => exact absurd (List.prefix_nil.1 h) hne
  | cons r rs ih =>
    obtain ⟨s, y⟩ := r
    have e : Spec.answers ((s, y) :: rs) = y ++ Spec.answers rs := rfl
    rw [e] at h hne
    have next : ∀ q, part = y ++ q → q <+: Spec.answers rs →
        ∃ pre s' y' post p, (s, y) :: rs = pre ++ (s', y') :: post ∧ part = Spec.answers pre ++ p ∧ p <+: y' ∧ p ≠ y' := by
      rintro q rfl hq
      obtain ⟨pre, s', y', post, p, h1, h2, h3, h4⟩ := ih q hq (fun e => hne (by rw [e]))
      exact ⟨(s, y) :: pre, s', y', post, p, by rw [h1]; rfl, by rw [h2]; simp [Spec.answers], h3, h4⟩
    obtain ⟨t, ht⟩ := h
    rcases List.append_eq_append_iff.1 ht with ⟨m, h1, h2⟩ | ⟨m, h1, h2⟩
    · by_cases hm : m = []
      · exact next [] (by rw [h1, hm]; simp) List.nil_prefix
      · exact ⟨[], s, y, rs, part, rfl, rfl, ⟨m, h1.symm⟩, fun e => hm (by rw [h1] at e; simpa using e)⟩
    · exact next m h1 ⟨t, h2.symm⟩

/-! ### the theorems -/

/-- a call that does not wait is the call -/
theorem C96_same (a : Ask) (c c' : Conn) (o : Outcome) (h : a.live c = .ok o c') : a.perform c = .ok o c' := by
  have sets : ∀ (q : Bytes) (v : StmtColumnValue), cutSet q v c = .ok o c' →
      attempt (do let st ← Stmt.prepare q; st.execClose [v] : M Unit) (fun _ => .done) c = .ok o c' := by
    intro q v h
    unfold cutSet at h
    rw [M.bind_apply, cut_attempt (a := .prepare q) rfl (by simp)] at h
    unfold attempt
    rw [M.bind_apply]
    cases hp : Stmt.prepare q c with
    | ok st c1 =>
      rw [hp] at h
      simp only [MR.bind_ok] at h ⊢
      rw [M.bind_apply, cut_attempt (a := .stmtExec st [v]) rfl (by simp)] at h
      unfold PreparedStmt.execClose
      cases he : st.exec [v] c1 with
      | ok u c2 =>
        rw [he] at h
        simp only [MR.bind_ok] at h ⊢
        rw [M.bind_apply, cut_attempt (a := .stmtClose st) rfl (by simp)] at h
        cases hcl : st.close c2 with
        | ok u c3 => rw [hcl] at h; exact h
        | err e c3 => rw [hcl] at h; cases e <;> first | exact h | cases h
        | panic => rw [hcl] at h; cases h
        | hang => rw [hcl] at h; cases h
      | err e c2 =>
        rw [he] at h
        by_cases hio : e = .io
        · subst hio; cases h
        have h : ((Ask.stmtClose st).cut >>= fun _ => (Pure.pure (Outcome.failed e) : M Outcome)) c2 = .ok o c' := by
          cases e <;> first | exact h | exact absurd rfl hio
        rw [M.bind_apply, cut_attempt (a := .stmtClose st) rfl (by simp)] at h
        dsimp only
        cases hcl : st.close c2 with
        | ok u c3 => rw [hcl] at h; exact h
        | err e' c3 => rw [hcl] at h; cases e' <;> first | exact h | cases h
        | panic => rw [hcl] at h; cases h
        | hang => rw [hcl] at h; cases h
      | panic => rw [he] at h; cases h
      | hang => rw [he] at h; cases h
    | err e c1 =>
      rw [hp] at h
      cases e <;> first | exact h | cases h
    | panic => rw [hp] at h; cases h
    | hang => rw [hp] at h; cases h
  cases a with
  | setVar global name v =>
    have e : Cmd.setVar name v global = (do let st ← Stmt.prepare (Spec.setVariable global name); st.execClose [v] : M Unit) := by
      cases global <;> rfl
    show attempt (Cmd.setVar name v global) _ c = _
    rw [e]
    exact sets _ v h
  | setUserVar name v => exact sets _ v h
  | _ => exact cut_same h

/-- C96: for every application and every history with a server that follows the protocol: if only a part of the answers
has arrived, wherever it is cut off, the session waits, and the server has heard exactly the first `k + 1` messages,
whole, has answered the `k` before it, and has not wholly answered the last one. Nobody waits for nothing. (Full claim: for all
answers the protocol allows. Missing: rows in answer to `exec`, for which it is false, `C96_exec_rows_false`; the other
limits of `C84_session_partial`.) -/
theorem C96_owed_partial (app : List Outcome → Option Ask) (caps : Nat) (hist : List Spec.Event96)
    (h : Spec.IsDialogue caps app [] hist) (c : Conn) (hc : c.caps = caps)
    (hp : c.inp <+: Spec.answers (Spec.allRounds hist)) (hne : c.inp ≠ Spec.answers (Spec.allRounds hist)) :
    ∃ c' k, liveSession app hist.length [] c = .err .io c' ∧ k < (Spec.allRounds hist).length ∧
      Spec.Heard caps c.out c'.out (((Spec.allRounds hist).take (k + 1)).map (·.1)) ∧
      Spec.answers ((Spec.allRounds hist).take k) <+: c.inp ∧
      c.inp.length < (Spec.answers ((Spec.allRounds hist).take (k + 1))).length := by
  obtain ⟨pre, s, y, post, p, h1, h2, h3, h4⟩ := cut_point _ _ hp hne
  obtain ⟨c', e, ho⟩ := (live_history hist [] h).2 pre s y post h1 p h3 h4 c hc h2
  have hl : p.length < y.length := by
    rcases Nat.lt_or_ge p.length y.length with h | h
    · exact h
    · exact absurd (h3.eq_of_length_le h) h4
  have t1 : (pre ++ (s, y) :: post).take (pre.length + 1) = pre ++ [(s, y)] := by
    rw [List.take_append]; simp
  refine ⟨c', pre.length, e, by rw [h1]; simp, ?_, ?_, ?_⟩
  · rw [h1, t1]; simpa using ho
  · rw [h1, List.take_left, h2]; exact List.prefix_append _ _
  · rw [h1, t1, answers_append, h2]
    simp [Spec.answers]
    exact hl

/-- C96: so a session with a server that goes on answering as long as it has not answered all it heard comes to its end,
with the outcomes of the history (with the same limits). `stream n` is what has arrived of the answers after `n` steps of the server. -/
theorem C96_served_partial (app : List Outcome → Option Ask) (caps : Nat) (hist : List Spec.Event96)
    (h : Spec.IsDialogue caps app [] hist) (c : Conn) (hc : c.caps = caps) (stream : Nat → Bytes)
    (hs : ∀ n, stream n <+: Spec.answers (Spec.allRounds hist))
    (hgo : ∀ n c' k, liveSession app hist.length [] { c with inp := stream n } = .err .io c' →
      Spec.Heard caps c.out c'.out (((Spec.allRounds hist).take k).map (·.1)) →
      (stream n).length < (Spec.answers ((Spec.allRounds hist).take k)).length →
      (stream n).length < (stream (n + 1)).length) :
    ∃ n c', liveSession app hist.length [] { c with inp := stream n } = .ok (hist.map (·.got)) c' ∧
      session app hist.length [] { c with inp := stream n } = .ok (hist.map (·.got)) c' ∧ c'.inp = [] ∧
      Spec.Heard caps c.out c'.out ((Spec.allRounds hist).map (·.1)) := by
  by_cases hall : ∃ n, stream n = Spec.answers (Spec.allRounds hist)
  · obtain ⟨n, hn⟩ := hall
    obtain ⟨c', e, i, -, o⟩ := (live_history hist [] h).1 { c with inp := stream n } [] hc (by rw [List.append_nil]; exact hn)
    refine ⟨n, c', e, ?_, i, o⟩
    have key : ∀ (m : Nat) (got got' : List Outcome) (c c' : Conn), liveSession app m got c = .ok got' c' →
        session app m got c = .ok got' c' := by
      intro m
      induction m with
      | zero => intro _ _ _ _ h; exact h
      | succ m ih =>
        intro got got' c c' h
        rw [liveSession] at h
        rw [session]
        cases ha : app got with
        | none => rw [ha] at h; exact h
        | some a =>
          rw [ha] at h
          dsimp only at h ⊢
          rw [M.bind_apply] at h ⊢
          cases hl : a.live c with
          | ok o c1 => rw [hl] at h; rw [C96_same a c c1 o hl]; exact ih _ _ _ _ h
          | err e c1 => rw [hl] at h; cases h
          | panic => rw [hl] at h; cases h
          | hang => rw [hl] at h; cases h
    exact key _ _ _ _ _ e
  · exfalso
    have grow : ∀ n, n ≤ (stream n).length := by
      intro n
      induction n with
      | zero => exact Nat.zero_le _
      | succ n ih =>
        obtain ⟨c', k, e, -, o, -, hlt⟩ := C96_owed_partial app caps hist h { c with inp := stream n } hc (hs n)
          (fun e => hall ⟨n, e⟩)
        have := hgo n c' (k + 1) e o hlt
        omega
    have := grow ((Spec.answers (Spec.allRounds hist)).length + 1)
    have := (hs ((Spec.answers (Spec.allRounds hist)).length + 1)).length_le
    omega

/-- an application that sets a variable and, when this was done, pings -/
def exampleWaiter : List Outcome → Option Ask
  | [] => some (.setUserVar (Spec.ascii "n") (.newUnsignedBigint 5))
  | [.done] => some .ping
  | _ => none

/-- four messages; the third is not answered -/
example : ∃ hist : List Spec.Event96, Spec.IsDialogue (2 ^ 9) exampleWaiter [] hist ∧ (Spec.allRounds hist).length = 4 ∧
    hist.length = 2 ∧ Spec.answers (Spec.allRounds hist) ≠ [] := by
  have hsends : ∀ ms : List Bytes, (∀ m ∈ ms, m.length < 0xffffff) → ∃ inp, Spec.Sends inp ms := fun ms hm =>
    delivers_small ms [] hm
  obtain ⟨i1, h1⟩ := hsends (Spec.prepareResponse (2 ^ 9) ⟨8, 0⟩ [exampleTextDef] [] 0 2 0 0) (by decide +kernel)
  obtain ⟨i2, h2⟩ := hsends [Spec.okPacket (2 ^ 9) 0 ⟨0, 0, 2, 0, [], []⟩] (by decide +kernel)
  have hne : i2 ≠ [] := by
    rintro rfl
    obtain ⟨runs, a1, a2, a3⟩ := h2
    rcases runs with _ | ⟨r, rs⟩
    · simp at a2
    · have := wire_pos (a1 r (by simp))
      have := congrArg List.length a3
      simp at this
      omega
  refine ⟨[⟨.setUserVar (Spec.ascii "n") (.newUnsignedBigint 5),
      [(.command (.stmtPrepare (Spec.ascii "SET @" ++ Spec.ascii "n" ++ Spec.ascii " = ?")), i1),
        (.execute 8 [Spec.serverParam (.newUnsignedBigint 5)], i2), (.command (.stmtClose 8), [])], .done⟩,
    ⟨.ping, [(.command .ping, i2)], .done⟩], ⟨rfl, ?_, by simp, ⟨_, .sets 8 _ ⟨0, 0, 2, 0, [], []⟩ rfl
      ⟨0, 0, 2, (exampleTextDef, .varString), by norm_num, by norm_num, by norm_num, by norm_num, exampleText_supported, rfl⟩
      (by constructor <;> norm_num), .cons ⟨rfl, h1⟩ (.cons ⟨rfl, h2⟩ (.cons ⟨rfl, ⟨[], by simp, rfl, rfl⟩⟩ .nil))⟩,
    rfl, trivial, by simp, ⟨_, .one (.ping ⟨0, 0, 2, 0, [], []⟩ (by constructor <;> norm_num)), .cons ⟨rfl, h2⟩ .nil⟩,
    trivial⟩, rfl, rfl, ?_⟩
  · exact ⟨by unfold MsgFits; decide +kernel, bigint_sound 5 (by norm_num), by
      unfold ParamsFit MsgFits; decide +kernel⟩
  · intro e
    simp [Spec.answers, Spec.allRounds, hne] at e

/-- C96 is false for `exec` answered by rows: the server has heard the query, nothing else, and has answered it wholly, to
the end of the rows; the call has read all of it and waits. -/
theorem C96_exec_rows_false (q : Bytes) (hq : MsgFits q.length) (defs : List Spec.ColDef) (hd0 : defs ≠ [])
    (hdl : defs.length < 2 ^ 32) (hdefs : ∀ d ∈ defs, d.catalog ≠ [] ∧ d.catalog.length < 2 ^ 32) (w s w' s' : Nat)
    (rows : List (List (Option Bytes)))
    (hrows : ∀ row ∈ rows, ∃ v vs, row = some v :: vs ∧ v ≠ [] ∧ v.length < 2 ^ 32) (c : Conn)
    (hd : Spec.Sends c.inp (Spec.resultSetHead c.caps defs w s ++ rows.map Spec.textRow ++ [Spec.eofPacket c.caps w' s'])) :
    ∃ c', (Ask.exec q).live c = .err .io c' ∧ c'.inp = [] ∧ Spec.Heard c.caps c.out c'.out [.command (.query q)] := by
  obtain ⟨c0, a1, a2, a3, a4⟩ := sends_query c.caps q hq c c.inp rfl (Delivers.nil_iff.2 rfl)
  have hd : Spec.Delivers c0.inp (Spec.resultSetHead c0.caps defs w s ++ rows.map Spec.textRow
      ++ [Spec.eofPacket c0.caps w' s'] ++ []) [] := by rw [a2, a3, List.append_nil]; exact hd
  obtain ⟨c1, h1, h2, h3⟩ := execLoop_skip _ (by
    intro m hm
    simp only [Spec.resultSetHead, Spec.defsEnd, List.mem_append, List.mem_singleton, List.mem_map] at hm
    rcases hm with ((((rfl | ⟨d, hd, rfl⟩) | hm) | ⟨row, hrow, rfl⟩) | rfl)
    · exact lenEncInt_head _ (List.length_pos_iff.2 hd0) hdl
    · exact columnDef_head d (hdefs d hd).1 (hdefs d hd).2
    · split at hm
      · cases hm
      · rw [List.mem_singleton.1 hm]
        exact ⟨0xfe, _, rfl, by decide, by decide⟩
    · obtain ⟨v, vs, rfl, hv, hl⟩ := hrows row hrow
      obtain ⟨b, t, e1, e2, e3⟩ := lenEncInt_head v.length (List.length_pos_iff.2 hv) hl
      refine ⟨b, t ++ v ++ (vs.map Spec.textValue).flatten, ?_, e2, e3⟩
      simp [Spec.textRow, Spec.textValue, Spec.lenEncStr, e1]
    · exact ⟨0xfe, _, rfl, by decide, by decide⟩) [] [] c0 hd
  have hi : c1.inp = [] := Delivers.nil h2
  have hr : ∃ c2, recvMsg c1 = .err .io c2 ∧ c2.inp = [] ∧ c2.out = c1.out := by
    unfold recvMsg
    rw [hi, recvLoop.eq_def]
    exact ⟨_, rfl, rfl, rfl⟩
  obtain ⟨c2, g1, g2, g3⟩ := hr
  refine ⟨c2, ?_, g2, ?_⟩
  · show (Ask.exec q).cut c = _
    rw [cut_attempt (a := .exec q) rfl (by simp)]
    have : Query.exec q c = .err .io c2 := by
      show (sendMsg (ComQuery.writeTo [] q).1 true c).bind (fun _ => execLoop) = _
      rw [a1]
      show execLoop c0 = _
      rw [h1, execLoop, g1]
    rw [this]
  · rw [g3, h3.out]; exact a4

/-- A statement answered by one column and two rows, and nothing more. -/
example : exampleTextDef.catalog ≠ [] ∧ ∃ inp, Spec.Sends inp (Spec.resultSetHead 0 [exampleTextDef] 0 2
    ++ [[some (Spec.ascii "1")], [some (Spec.ascii "2")]].map Spec.textRow ++ [Spec.eofPacket 0 0 2]) :=
  ⟨by decide, delivers_small _ [] (by decide +kernel)⟩

end Mybin
