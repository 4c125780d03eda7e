/-
C128: authentication, streams of events and programs on a connection that breaks while a message is being sent.
-/
import Verif.Props.C128

namespace Mybin

/-! ### proofs -/

/-- as `Breaks`, for what became of one run -/
def BreaksAt {α : Type} (r : MR α) (R : Nat → LR α) (out : Bytes) : Prop := ∀ c', Ends r c' → ∃ sent, c'.out = out ++ sent ∧
  ∀ k, (sent.length ≤ k → R k = r.on (k - sent.length)) ∧
    (k < sent.length → ∃ d : Conn, R k = .err .io ⟨d, 0⟩ ∧ d.out = out ++ sent.take k)

theorem BreaksAt.quiet {α : Type} {r : MR α} {R : Nat → LR α} {out : Bytes} (h : ∀ c', Ends r c' → c'.out = out)
    (hR : ∀ k, R k = r.on k) : BreaksAt r R out := by
  intro c' hc
  exact ⟨[], by simp [h c' hc], fun k => ⟨fun _ => by simp [hR], fun hk => by simp at hk⟩⟩

theorem BreaksAt.bind {α β : Type} {r1 : MR α} {R1 : Nat → LR α} {out : Bytes} {f : α → M β} {F : α → L β}
    (h1 : BreaksAt r1 R1 out) (h2 : ∀ a c1, r1 = .ok a c1 → BreaksAt (f a c1) (fun k => F a ⟨c1, k⟩) c1.out) :
    BreaksAt (r1.bind f) (fun k => (R1 k).bind F) out := by
  intro c' h
  cases r1 with
  | ok a c1 =>
    obtain ⟨s1, e1, b1⟩ := h1 c1 (.inl ⟨a, rfl⟩)
    obtain ⟨s2, e2, b2⟩ := h2 a c1 rfl c' h
    refine ⟨s1 ++ s2, by rw [e2, e1, List.append_assoc], fun k => ⟨fun hk => ?_, fun hk => ?_⟩⟩
    · rw [List.length_append] at hk
      dsimp only
      rw [(b1 k).1 (by omega)]
      refine ((b2 (k - s1.length)).1 (by omega)).trans ?_
      rw [List.length_append, Nat.sub_add_eq]
      rfl
    · rw [List.length_append] at hk
      dsimp only
      by_cases hs : s1.length ≤ k
      · obtain ⟨d, hd, ho⟩ := (b2 (k - s1.length)).2 (by omega)
        refine ⟨d, ?_, ?_⟩
        · rw [(b1 k).1 hs]
          exact hd
        · rw [ho, e1, List.take_append, List.take_of_length_le hs, List.append_assoc]
      · obtain ⟨d, hd, ho⟩ := (b1 k).2 (by omega)
        refine ⟨d, by rw [hd]; rfl, ?_⟩
        rw [ho, List.take_append, Nat.sub_eq_zero_of_le (by omega), List.take_zero, List.append_nil]
  | err e c1 =>
    have he := Ends.err h
    obtain ⟨s1, e1, b1⟩ := h1 c1 (.inr ⟨e, rfl⟩)
    refine ⟨s1, by rw [he]; exact e1, fun k => ⟨fun hk => ?_, fun hk => ?_⟩⟩
    · dsimp only
      rw [(b1 k).1 hk]; rfl
    · obtain ⟨d, hd, ho⟩ := (b1 k).2 hk
      exact ⟨d, by dsimp only; rw [hd]; rfl, ho⟩
  | panic => exact (Ends.panic h).elim
  | hang => exact (Ends.hang h).elim

theorem Breaks.at {α : Type} {x : M α} {X : L α} (h : Breaks x X) (c : Conn) : BreaksAt (x c) (fun k => X ⟨c, k⟩) c.out := h c

theorem Breaks.reply (bs : Bytes) : Breaks (Mybin.sendMsg bs false) (sendMsgL bs false) := fun c c' h =>
  Breaks.sendLoop bs c c' h

theorem BreaksAt.err {α : Type} {e : Err} {c : Conn} {R : Nat → LR α} {out : Bytes} (h : c.out = out)
    (hR : ∀ k, R k = .err e ⟨c, k⟩) : BreaksAt (.err e c) R out :=
  .quiet (fun c' hc => by rw [Ends.err hc]; exact h) hR

theorem BreaksAt.ok {α : Type} {a : α} {c : Conn} {R : Nat → LR α} {out : Bytes} (h : c.out = out)
    (hR : ∀ k, R k = .ok a ⟨c, k⟩) : BreaksAt (.ok a c) R out :=
  .quiet (fun c' hc => by rw [Ends.ok hc]; exact h) hR

theorem BreaksAt.panic {α : Type} {R : Nat → LR α} {out : Bytes} : BreaksAt .panic R out := fun _ h => (Ends.panic h).elim
theorem BreaksAt.hang {α : Type} {R : Nat → LR α} {out : Bytes} : BreaksAt .hang R out := fun _ h => (Ends.hang h).elim

theorem Breaks.handshakeLoop (H : Hashes) (caps : Nat) (plugin : AuthPlugin) :
    Breaks (handshakeLoop H caps plugin) (handshakeLoopL H caps plugin) := by
  intro c
  induction hn : c.inp.length using Nat.strong_induction_on generalizing c plugin with
  | _ n ih =>
    subst hn
    show BreaksAt (Mybin.handshakeLoop H caps plugin c) (fun k => handshakeLoopL H caps plugin ⟨c, k⟩) c.out
    have hL : ∀ k, handshakeLoopL H caps plugin ⟨c, k⟩ = _ := fun k => handshakeLoopL.eq_def H caps plugin ⟨c, k⟩
    dsimp only at hL
    have hM := Mybin.handshakeLoop.eq_def H caps plugin c
    cases hr : recvMsg c with
    | ok msg c1 =>
      simp only [hr] at hL hM
      have h1 : c1.out = c.out := Quiet.recvMsg c c1 (.inl ⟨_, hr⟩)
      cases hp : M.parse msg (HandshakeMessage.readFrom caps) c1 with
      | ok m c2 =>
        simp only [hp] at hL hM
        have h2 : c2.out = c.out := (Quiet.parse msg _ c1 c2 (.inl ⟨_, hp⟩)).trans h1
        cases m with
        | ok p => rw [hM]; exact .ok h2 hL
        | err p => rw [hM]; exact .err h2 hL
        | switch p => rw [hM]; exact .panic
        | moreData m =>
          dsimp only at hL hM
          cases hx : plugin.next H m.pluginData with
          | error e => simp only [hx] at hL hM; rw [hM]; exact .err h2 hL
          | ok rp =>
            obtain ⟨resp, plugin'⟩ := rp
            simp only [hx] at hL hM
            have hb : Breaks (if resp.isEmpty then pure () else Mybin.sendMsg resp false : M Unit)
                (if resp.isEmpty then pure () else sendMsgL resp false : L Unit) := by
              split
              · exact Breaks.lift (Quiet.pure ())
              · exact Breaks.reply resp
            rw [← h2]
            have key := (hb.at c2).bind (f := fun _ c3 => if c3.inp.length < c.inp.length then Mybin.handshakeLoop H caps plugin' c3 else .hang)
              (F := fun _ l3 => if l3.conn.inp.length < c.inp.length then handshakeLoopL H caps plugin' l3 else .hang)
              (fun a c3 _ => by
                dsimp only
                split
                · exact ih _ ‹_› plugin' c3 rfl
                · exact .hang)
            have e1 : ∀ r : MR Unit, (match r with
                | .ok _ c3 => if c3.inp.length < c.inp.length then Mybin.handshakeLoop H caps plugin' c3 else .hang
                | .err e c3 => .err e c3
                | .panic => .panic
                | .hang => .hang) = r.bind fun _ c3 => if c3.inp.length < c.inp.length then Mybin.handshakeLoop H caps plugin' c3 else .hang := by
              intro r; cases r <;> rfl
            have e2 : ∀ r : LR Unit, (match r with
                | .ok _ l3 => if l3.conn.inp.length < c.inp.length then handshakeLoopL H caps plugin' l3 else .hang
                | .err e l3 => .err e l3
                | .panic => .panic
                | .hang => .hang) = r.bind fun _ l3 => if l3.conn.inp.length < c.inp.length then handshakeLoopL H caps plugin' l3 else .hang := by
              intro r; cases r <;> rfl
            rw [hM.trans (e1 ((if resp.isEmpty then pure () else Mybin.sendMsg resp false : M Unit) c2)),
              funext fun k => (hL k).trans (e2 _)]
            exact key
      | err e c2 =>
        simp only [hp] at hL hM
        rw [hM]
        exact .err ((Quiet.parse msg _ c1 c2 (.inr ⟨_, hp⟩)).trans h1) hL
      | panic => simp only [hp] at hM; rw [hM]; exact .panic
      | hang => simp only [hp] at hM; rw [hM]; exact .hang
    | err e c1 =>
      simp only [hr] at hL hM
      rw [hM]
      exact .err (Quiet.recvMsg c c1 (.inr ⟨_, hr⟩)) hL
    | panic => simp only [hr] at hM; rw [hM]; exact .panic
    | hang => simp only [hr] at hM; rw [hM]; exact .hang

theorem Breaks.changeUserLoop (H : Hashes) (password : Bytes) (plugin : Option AuthPlugin) :
    Breaks (changeUserLoop H password plugin) (changeUserLoopL H password plugin) := by
  intro c
  induction hn : c.inp.length using Nat.strong_induction_on generalizing c plugin with
  | _ n ih =>
    subst hn
    show BreaksAt (Mybin.changeUserLoop H password plugin c) (fun k => changeUserLoopL H password plugin ⟨c, k⟩) c.out
    have hL : ∀ k, changeUserLoopL H password plugin ⟨c, k⟩ = _ := fun k => changeUserLoopL.eq_def H password plugin ⟨c, k⟩
    dsimp only at hL
    have hM := Mybin.changeUserLoop.eq_def H password plugin c
    have again : ∀ (resp : Bytes) (pl' : AuthPlugin) (c2 : Conn),
        BreaksAt (match Mybin.sendMsg resp false c2 with
          | .ok _ c3 => if c3.inp.length < c.inp.length then Mybin.changeUserLoop H password (some pl') c3 else .hang
          | .err e c3 => .err e c3
          | .panic => .panic
          | .hang => .hang) (fun k => match sendMsgL resp false ⟨c2, k⟩ with
          | .ok _ l3 => if l3.conn.inp.length < c.inp.length then changeUserLoopL H password (some pl') l3 else .hang
          | .err e l3 => .err e l3
          | .panic => .panic
          | .hang => .hang) c2.out := by
      intro resp pl' c2
      have key := ((Breaks.reply resp).at c2).bind
        (f := fun _ c3 => if c3.inp.length < c.inp.length then Mybin.changeUserLoop H password (some pl') c3 else .hang)
        (F := fun _ l3 => if l3.conn.inp.length < c.inp.length then changeUserLoopL H password (some pl') l3 else .hang)
        (fun a c3 _ => by
          dsimp only
          split
          · exact ih _ ‹_› (some pl') c3 rfl
          · exact .hang)
      have e1 : ∀ r : MR Unit, (match r with
          | .ok _ c3 => if c3.inp.length < c.inp.length then Mybin.changeUserLoop H password (some pl') c3 else .hang
          | .err e c3 => .err e c3
          | .panic => .panic
          | .hang => .hang) = r.bind fun _ c3 => if c3.inp.length < c.inp.length then Mybin.changeUserLoop H password (some pl') c3 else .hang := by
        intro r; cases r <;> rfl
      have e2 : ∀ r : LR Unit, (match r with
          | .ok _ l3 => if l3.conn.inp.length < c.inp.length then changeUserLoopL H password (some pl') l3 else .hang
          | .err e l3 => .err e l3
          | .panic => .panic
          | .hang => .hang) = r.bind fun _ l3 => if l3.conn.inp.length < c.inp.length then changeUserLoopL H password (some pl') l3 else .hang := by
        intro r; cases r <;> rfl
      rw [e1, funext fun k => e2 _]
      exact key
    cases hr : recvMsg c with
    | ok msg c1 =>
      simp only [hr] at hL hM
      have h1 : c1.out = c.out := Quiet.recvMsg c c1 (.inl ⟨_, hr⟩)
      cases hp : M.parse msg (ComChangeUserResponse.readFrom c1.caps) c1 with
      | ok m c2 =>
        simp only [hp] at hL hM
        have h2 : c2.out = c.out := (Quiet.parse msg _ c1 c2 (.inl ⟨_, hp⟩)).trans h1
        cases m with
        | ok p => rw [hM]; exact .ok h2 hL
        | err p => rw [hM]; exact .err h2 hL
        | switch s =>
          dsimp only at hL hM
          cases hx : newAuthPlugin s.pluginName with
          | error e => simp only [hx] at hL hM; rw [hM]; exact .err h2 hL
          | ok pl =>
            simp only [hx] at hL hM
            cases hg : genInitAuthResp H pl password s.authPluginData with
            | error e => simp only [hg] at hL hM; rw [hM]; exact .err h2 hL
            | ok rp =>
              obtain ⟨resp, pl'⟩ := rp
              simp only [hg] at hL hM
              rw [hM, ← h2, funext hL]
              exact again resp pl' c2
        | moreData m =>
          cases plugin with
          | none => rw [hM]; exact .panic
          | some pl =>
            dsimp only at hL hM
            cases hx : pl.next H m.pluginData with
            | error e => simp only [hx] at hL hM; rw [hM]; exact .err h2 hL
            | ok rp =>
              obtain ⟨resp, pl'⟩ := rp
              simp only [hx] at hL hM
              rw [hM, ← h2, funext hL]
              exact again resp pl' c2
      | err e c2 =>
        simp only [hp] at hL hM
        rw [hM]
        exact .err ((Quiet.parse msg _ c1 c2 (.inr ⟨_, hp⟩)).trans h1) hL
      | panic => simp only [hp] at hM; rw [hM]; exact .panic
      | hang => simp only [hp] at hM; rw [hM]; exact .hang
    | err e c1 =>
      simp only [hr] at hL hM
      rw [hM]
      exact .err (Quiet.recvMsg c c1 (.inr ⟨_, hr⟩)) hL
    | panic => simp only [hr] at hM; rw [hM]; exact .panic
    | hang => simp only [hr] at hM; rw [hM]; exact .hang

theorem Quiet.greeted (H : Hashes) (opts : ConnOpts) : Quiet (greeted H opts) := by
  refine Quiet.recvMsg.bind fun msg => (Quiet.parse _ _).bind fun hs => ?_
  iterate 8 refine (Quiet.insertCap _).bind fun _ => ?_
  refine (Quiet.removeCap _).bind fun _ => (Quiet.ofExcept _).bind fun pl => (Quiet.ofExcept _).bind fun rp => ?_
  refine Quiet.bind ?_ fun _ => Quiet.getCaps.bind fun _ => Quiet.pure _
  split
  · exact Quiet.pure _
  · exact Quiet.insertCap _

theorem M.pure_bind {α β : Type} (a : α) (f : α → M β) : (pure a >>= f) = f a := rfl

theorem handshake_greeted (H : Hashes) (opts : ConnOpts) : handshake H opts =
    (greeted H opts >>= fun x => sendMsg x.1 false >>= fun _ => handshakeLoop H x.2.1 x.2.2) := by
  unfold handshake greeted
  simp only [M.bind_assoc, M.pure_bind]

theorem Breaks.handshake (H : Hashes) (opts : ConnOpts) : Breaks (handshake H opts) (handshakeL H opts) := by
  rw [handshake_greeted]
  exact (Breaks.lift (Quiet.greeted H opts)).bind fun x => (Breaks.reply x.1).bind fun _ => Breaks.handshakeLoop H x.2.1 x.2.2

theorem Breaks.changeUser (H : Hashes) (username password db : Bytes) (attrs : List ConnectAttr) :
    Breaks (changeUser H username password db attrs) (changeUserL H username password db attrs) :=
  (Breaks.lift Quiet.getCaps).bind fun _ => (Breaks.sendMsg _).bind fun _ => Breaks.changeUserLoop H password none

/-! ### setting variables, then more -/

/-- as `Breaks`, but what the server refused may be reported instead of the error of the stream -/
def Frays {α : Type} (x : M α) (X : L α) : Prop := ∀ c c', Ends (x c) c' → ∃ sent, c'.out = c.out ++ sent ∧
  ∀ k, (sent.length ≤ k → X ⟨c, k⟩ = (x c).on (k - sent.length)) ∧
    (k < sent.length → ∃ d : Conn, d.out = c.out ++ sent.take k ∧
      (X ⟨c, k⟩ = .err .io ⟨d, 0⟩ ∨ ∃ e, x c = .err e c' ∧ X ⟨c, k⟩ = .err e ⟨d, 0⟩))

/-- as `Frays`, but the break may also go unnoticed -/
def Slips (x : M Unit) (X : L Unit) : Prop := ∀ c c', Ends (x c) c' → ∃ sent, c'.out = c.out ++ sent ∧
  ∀ k, (sent.length ≤ k → X ⟨c, k⟩ = (x c).on (k - sent.length)) ∧
    (k < sent.length → ∃ d : Conn, d.out = c.out ++ sent.take k ∧
      (X ⟨c, k⟩ = .err .io ⟨d, 0⟩ ∨ (∃ e, x c = .err e c' ∧ X ⟨c, k⟩ = .err e ⟨d, 0⟩) ∨
        x c = .ok () c' ∧ X ⟨c, k⟩ = .ok () ⟨d, 0⟩))

/-- `X` sends before it returns -/
def Dead {α : Type} (X : L α) : Prop := ∀ c, ∃ d : Conn, X ⟨c, 0⟩ = .err .io ⟨d, 0⟩ ∧ d.out = c.out

theorem Dead.request {α : Type} (bs : Bytes) (x : M α) : Dead (requestL bs x) := fun c => ⟨_, requestL_dead bs x c, rfl⟩

theorem Dead.bind {α β : Type} {X : L α} (h : Dead X) (F : α → L β) : Dead (X >>= F) := by
  intro c
  obtain ⟨d, e, o⟩ := h c
  exact ⟨d, by rw [L.bind_apply, e]; rfl, o⟩

theorem Breaks.frays {α : Type} {x : M α} {X : L α} (h : Breaks x X) : Frays x X := by
  intro c c' hc
  obtain ⟨s, e, b⟩ := h c c' hc
  refine ⟨s, e, fun k => ⟨(b k).1, fun hk => ?_⟩⟩
  obtain ⟨d, hd, ho⟩ := (b k).2 hk
  exact ⟨d, ho, .inl hd⟩

theorem Frays.bind {α β : Type} {x : M α} {X : L α} {f : α → M β} {F : α → L β} (hx : Frays x X)
    (hf : ∀ a, Frays (f a) (F a)) : Frays (x >>= f) (X >>= F) := by
  intro c c' h
  rw [M.bind_apply] at h ⊢
  cases hr : x c with
  | ok a c1 =>
    rw [hr, MR.bind_ok] at h
    obtain ⟨s1, e1, b1⟩ := hx c c1 (.inl ⟨a, hr⟩)
    obtain ⟨s2, e2, b2⟩ := hf a c1 c' h
    refine ⟨s1 ++ s2, by rw [e2, e1, List.append_assoc], fun k => ⟨fun hk => ?_, fun hk => ?_⟩⟩
    · rw [List.length_append] at hk
      rw [L.bind_apply, (b1 k).1 (by omega), hr]
      refine ((b2 (k - s1.length)).1 (by omega)).trans ?_
      rw [List.length_append, Nat.sub_add_eq, MR.bind_ok]
    · rw [List.length_append] at hk
      rw [L.bind_apply]
      by_cases h1 : s1.length ≤ k
      · obtain ⟨d, ho, hd⟩ := (b2 (k - s1.length)).2 (by omega)
        refine ⟨d, ?_, ?_⟩
        · rw [ho, e1, List.take_append, List.take_of_length_le h1, List.append_assoc]
        · rw [(b1 k).1 h1, hr]
          exact hd
      · obtain ⟨d, ho, hd⟩ := (b1 k).2 (by omega)
        refine ⟨d, ?_, ?_⟩
        · rw [ho, List.take_append, Nat.sub_eq_zero_of_le (by omega), List.take_zero, List.append_nil]
        · rcases hd with hd | ⟨e, he, -⟩
          · exact .inl (by rw [hd]; rfl)
          · rw [hr] at he; cases he
  | err e c1 =>
    rw [hr] at h
    cases Ends.err h
    obtain ⟨s1, e1, b1⟩ := hx c c' (.inr ⟨e, hr⟩)
    refine ⟨s1, e1, fun k => ⟨fun hk => ?_, fun hk => ?_⟩⟩
    · rw [L.bind_apply, (b1 k).1 hk, hr]; rfl
    · obtain ⟨d, ho, hd⟩ := (b1 k).2 hk
      refine ⟨d, ho, ?_⟩
      rw [L.bind_apply]
      rcases hd with hd | ⟨e', he, hd⟩
      · exact .inl (by rw [hd]; rfl)
      · rw [hr] at he
        cases he
        exact .inr ⟨e, rfl, by rw [hd]; rfl⟩
  | panic => rw [hr] at h; exact (Ends.panic h).elim
  | hang => rw [hr] at h; exact (Ends.hang h).elim

theorem Slips.frays {β : Type} {x : M Unit} {X : L Unit} {f : M β} {F : L β} (hx : Slips x X)
    (hf : Frays f F) (hd : Dead F) : Frays (x >>= fun _ => f) (X >>= fun _ => F) := by
  intro c c' h
  rw [M.bind_apply] at h ⊢
  cases hr : x c with
  | ok a c1 =>
    rw [hr, MR.bind_ok] at h
    obtain ⟨s1, e1, b1⟩ := hx c c1 (.inl ⟨a, hr⟩)
    obtain ⟨s2, e2, b2⟩ := hf c1 c' h
    refine ⟨s1 ++ s2, by rw [e2, e1, List.append_assoc], fun k => ⟨fun hk => ?_, fun hk => ?_⟩⟩
    · rw [List.length_append] at hk
      rw [L.bind_apply, (b1 k).1 (by omega), hr]
      refine ((b2 (k - s1.length)).1 (by omega)).trans ?_
      rw [List.length_append, Nat.sub_add_eq, MR.bind_ok]
    · rw [List.length_append] at hk
      rw [L.bind_apply]
      by_cases h1 : s1.length ≤ k
      · obtain ⟨d, ho, hd⟩ := (b2 (k - s1.length)).2 (by omega)
        refine ⟨d, ?_, ?_⟩
        · rw [ho, e1, List.take_append, List.take_of_length_le h1, List.append_assoc]
        · rw [(b1 k).1 h1, hr]
          exact hd
      · obtain ⟨d, ho, hb⟩ := (b1 k).2 (by omega)
        have et : (s1 ++ s2).take k = s1.take k := by
          rw [List.take_append, Nat.sub_eq_zero_of_le (by omega), List.take_zero, List.append_nil]
        rw [et]
        rcases hb with hb | ⟨e, he, -⟩ | ⟨-, hb⟩
        · exact ⟨d, ho, .inl (by rw [hb]; rfl)⟩
        · rw [hr] at he; cases he
        · obtain ⟨d', h2, h3⟩ := hd d
          exact ⟨d', h3.trans ho, .inl (by rw [hb]; exact h2)⟩
  | err e c1 =>
    rw [hr] at h
    cases Ends.err h
    obtain ⟨s1, e1, b1⟩ := hx c c' (.inr ⟨e, hr⟩)
    refine ⟨s1, e1, fun k => ⟨fun hk => ?_, fun hk => ?_⟩⟩
    · rw [L.bind_apply, (b1 k).1 hk, hr]; rfl
    · obtain ⟨d, ho, hb⟩ := (b1 k).2 hk
      refine ⟨d, ho, ?_⟩
      rw [L.bind_apply]
      rcases hb with hb | ⟨e', he, hb⟩ | ⟨he, -⟩
      · exact .inl (by rw [hb]; rfl)
      · rw [hr] at he
        cases he
        exact .inr ⟨e, rfl, by rw [hb]; rfl⟩
      · rw [hr] at he; cases he
  | panic => rw [hr] at h; exact (Ends.panic h).elim
  | hang => rw [hr] at h; exact (Ends.hang h).elim

theorem Slips.execClose (st : PreparedStmt) (ps : List StmtColumnValue) : Slips (st.execClose ps) (st.execCloseL ps) := by
  intro c c' h
  have close : ∀ c2, BreaksAt (st.close c2) (fun k => st.closeL ⟨c2, k⟩) c2.out := fun c2 => Breaks.sendMsg _ c2
  unfold PreparedStmt.execClose at h ⊢
  unfold PreparedStmt.execCloseL
  cases hr : st.exec ps c with
  | ok a c1 =>
    rw [hr] at h
    dsimp only at h ⊢
    obtain ⟨s1, e1, b1⟩ := Breaks.exec st ps c c1 (.inl ⟨a, hr⟩)
    have hc : Ends (st.close c1) c' := by
      cases hr2 : st.close c1 with
      | ok b c2 => rw [hr2] at h; rw [Ends.ok h]; exact .inl ⟨b, rfl⟩
      | err e c2 => rw [hr2] at h; rw [Ends.ok h]; exact .inr ⟨e, rfl⟩
      | panic => rw [hr2] at h; exact (Ends.panic h).elim
      | hang => rw [hr2] at h; exact (Ends.hang h).elim
    obtain ⟨s2, e2, b2⟩ := close c1 c' hc
    refine ⟨s1 ++ s2, by rw [e2, e1, List.append_assoc], fun k => ⟨fun hk => ?_, fun hk => ?_⟩⟩
    · rw [List.length_append] at hk
      rw [(b1 k).1 (by omega), hr]
      dsimp only [MR.on]
      have := (b2 (k - s1.length)).1 (by omega)
      dsimp only at this
      rw [this, List.length_append, Nat.sub_add_eq]
      cases hr2 : st.close c1 <;> rfl
    · rw [List.length_append] at hk
      by_cases h1 : s1.length ≤ k
      · obtain ⟨d, hd, ho⟩ := (b2 (k - s1.length)).2 (by omega)
        dsimp only at hd
        refine ⟨d, by rw [ho, e1, List.take_append, List.take_of_length_le h1, List.append_assoc], .inr (.inr ⟨?_, ?_⟩)⟩
        · rcases hc with ⟨b, hc⟩ | ⟨e, hc⟩
          · rw [hc]
          · rw [hc]
        · rw [(b1 k).1 h1, hr]
          dsimp only [MR.on]
          rw [hd]
      · obtain ⟨d, hd, ho⟩ := (b1 k).2 (by omega)
        refine ⟨{ d with pktNr := 0 }, ?_, .inl ?_⟩
        · rw [List.take_append, Nat.sub_eq_zero_of_le (by omega), List.take_zero, List.append_nil]
          exact ho
        · rw [hd]
          dsimp only
          rw [show st.closeL ⟨d, 0⟩ = _ from sendMsgL_dead _ d]
  | err e c1 =>
    rw [hr] at h
    dsimp only at h ⊢
    obtain ⟨s1, e1, b1⟩ := Breaks.exec st ps c c1 (.inr ⟨e, hr⟩)
    have hc : Ends (st.close c1) c' := by
      cases hr2 : st.close c1 with
      | ok b c2 => rw [hr2] at h; rw [Ends.err h]; exact .inl ⟨b, rfl⟩
      | err e c2 => rw [hr2] at h; rw [Ends.err h]; exact .inr ⟨e, rfl⟩
      | panic => rw [hr2] at h; exact (Ends.panic h).elim
      | hang => rw [hr2] at h; exact (Ends.hang h).elim
    obtain ⟨s2, e2, b2⟩ := close c1 c' hc
    refine ⟨s1 ++ s2, by rw [e2, e1, List.append_assoc], fun k => ⟨fun hk => ?_, fun hk => ?_⟩⟩
    · rw [List.length_append] at hk
      rw [(b1 k).1 (by omega), hr]
      dsimp only [MR.on]
      have := (b2 (k - s1.length)).1 (by omega)
      dsimp only at this
      rw [this, List.length_append, Nat.sub_add_eq]
      cases hr2 : st.close c1 <;> rfl
    · rw [List.length_append] at hk
      by_cases h1 : s1.length ≤ k
      · obtain ⟨d, hd, ho⟩ := (b2 (k - s1.length)).2 (by omega)
        dsimp only at hd
        refine ⟨d, by rw [ho, e1, List.take_append, List.take_of_length_le h1, List.append_assoc], .inr (.inl ⟨e, ?_, ?_⟩)⟩
        · rcases hc with ⟨b, hc⟩ | ⟨e, hc⟩
          · rw [hc]
          · rw [hc]
        · rw [(b1 k).1 h1, hr]
          dsimp only [MR.on]
          rw [hd]
      · obtain ⟨d, hd, ho⟩ := (b1 k).2 (by omega)
        refine ⟨{ d with pktNr := 0 }, ?_, .inl ?_⟩
        · rw [List.take_append, Nat.sub_eq_zero_of_le (by omega), List.take_zero, List.append_nil]
          exact ho
        · rw [hd]
          dsimp only
          rw [show st.closeL ⟨d, 0⟩ = _ from sendMsgL_dead _ d]
  | panic => rw [hr] at h; exact (Ends.panic h).elim
  | hang => rw [hr] at h; exact (Ends.hang h).elim

theorem Breaks.slips {α : Type} {x : M α} {X : L α} {f : α → M Unit} {F : α → L Unit} (hx : Breaks x X)
    (hf : ∀ a, Slips (f a) (F a)) : Slips (x >>= f) (X >>= F) := by
  intro c c' h
  rw [M.bind_apply] at h ⊢
  cases hr : x c with
  | ok a c1 =>
    rw [hr, MR.bind_ok] at h
    obtain ⟨s1, e1, b1⟩ := hx c c1 (.inl ⟨a, hr⟩)
    obtain ⟨s2, e2, b2⟩ := hf a c1 c' h
    refine ⟨s1 ++ s2, by rw [e2, e1, List.append_assoc], fun k => ⟨fun hk => ?_, fun hk => ?_⟩⟩
    · rw [List.length_append] at hk
      rw [L.bind_apply, (b1 k).1 (by omega), hr]
      refine ((b2 (k - s1.length)).1 (by omega)).trans ?_
      rw [List.length_append, Nat.sub_add_eq, MR.bind_ok]
    · rw [List.length_append] at hk
      rw [L.bind_apply]
      by_cases h1 : s1.length ≤ k
      · obtain ⟨d, ho, hd⟩ := (b2 (k - s1.length)).2 (by omega)
        refine ⟨d, ?_, ?_⟩
        · rw [ho, e1, List.take_append, List.take_of_length_le h1, List.append_assoc]
        · rw [(b1 k).1 h1, hr]
          exact hd
      · obtain ⟨d, hd, ho⟩ := (b1 k).2 (by omega)
        refine ⟨d, ?_, .inl (by rw [hd]; rfl)⟩
        rw [ho, List.take_append, Nat.sub_eq_zero_of_le (by omega), List.take_zero, List.append_nil]
  | err e c1 =>
    rw [hr] at h
    cases Ends.err h
    obtain ⟨s1, e1, b1⟩ := hx c c' (.inr ⟨e, hr⟩)
    refine ⟨s1, e1, fun k => ⟨fun hk => ?_, fun hk => ?_⟩⟩
    · rw [L.bind_apply, (b1 k).1 hk, hr]; rfl
    · obtain ⟨d, hd, ho⟩ := (b1 k).2 hk
      exact ⟨d, ho, .inl (by rw [L.bind_apply, hd]; rfl)⟩
  | panic => rw [hr] at h; exact (Ends.panic h).elim
  | hang => rw [hr] at h; exact (Ends.hang h).elim

theorem Slips.setUserVar (name : Bytes) (v : StmtColumnValue) : Slips (Cmd.setUserVar name v) (setUserVarL name v) :=
  (Breaks.prepare _).slips fun st => Slips.execClose st [v]

theorem Breaks.getVar {α : Type} (conv : Option Bytes → Res α) (name : Bytes) (global : Bool) :
    Breaks (Cmd.getVar conv name global) (getVarL conv name global) :=
  .congr (.request _ ((Quiet.newResultSet _).bind fun rs => Quiet.firstMapped _ rs)) (M.bind_assoc' _ _ _)

theorem Dead.getVar {α : Type} (conv : Option Bytes → Res α) (name : Bytes) (global : Bool) :
    Dead (getVarL conv name global) := Dead.request _ _

theorem Frays.someOr {α : Type} (e : Err) (o : Option α) : Frays (M.someOr e o) (L.lift (M.someOr e o)) :=
  (Breaks.lift (Quiet.someOr e o)).frays

theorem Frays.setup (r : BinlogRequest) (uuid : Bytes) (random : Nat) : Frays (r.setup uuid random) (r.setupL uuid random) := by
  refine (Breaks.getVar _ _ _).frays.bind fun m => (Frays.someOr _ m).bind fun m => ?_
  refine (Slips.setUserVar _ _).frays ?_ ((Dead.getVar _ _ _).bind _)
  refine (Breaks.getVar _ _ _).frays.bind fun ck => (Frays.someOr _ ck).bind fun ck => ?_
  refine (Slips.setUserVar _ _).frays ?_ ((Dead.getVar _ _ _).bind _)
  refine (Breaks.getVar _ _ _).frays.bind fun g => (Frays.someOr _ g).bind fun g => ?_
  refine (Breaks.getVar _ _ _).frays.bind fun u => (Frays.someOr _ u).bind fun _ => ?_
  refine (Slips.setUserVar _ _).frays ?_ ((Dead.request _ _).bind _)
  exact (Breaks.okCommand _).frays.bind fun _ => (Breaks.lift (Quiet.pure _)).frays

theorem Frays.requestStream (r : BinlogRequest) (uuid : Bytes) (random : Nat) :
    Frays (r.requestStream uuid random) (r.requestStreamL uuid random) :=
  (Frays.setup r uuid random).bind fun _ => (Breaks.request _ (Quiet.firstEvents r _)).frays

/-! ### the property -/

theorem Breaks.whole {α : Type} {x : M α} {X : L α} (hb : Breaks x X) (c c' : Conn) (h : Ends (x c) c') (k : Nat) :
    (c'.out.length ≤ c.out.length + k ∧ X ⟨c, k⟩ = (x c).on (c.out.length + k - c'.out.length)) ∨
    c.out.length + k < c'.out.length ∧ ∃ d : Conn, X ⟨c, k⟩ = .err .io ⟨d, 0⟩ ∧ d.out = c'.out.take (c.out.length + k) := by
  obtain ⟨sent, e, b⟩ := hb c c' h
  have hl : c'.out.length = c.out.length + sent.length := by rw [e, List.length_append]
  by_cases hk : sent.length ≤ k
  · left
    refine ⟨by omega, ?_⟩
    rw [(b k).1 hk]
    congr 1
    omega
  · right
    obtain ⟨d, hd, ho⟩ := (b k).2 (by omega)
    refine ⟨by omega, d, hd, ?_⟩
    rw [ho, e, List.take_append, List.take_of_length_le (show c.out.length ≤ c.out.length + k by omega),
      show c.out.length + k - c.out.length = k by omega]

/-- C128, logging in: if the stream takes what logging in sends, the outcome is that on a stream that never fails. If it
fails after `k` bytes, logging in fails with the error of the stream, and the server got the first `k` bytes of what it
would get. So nobody is logged in unless the server got all of it. -/
theorem C128_login_partial (H : Hashes) (opts : ConnOpts) (c c' : Conn)
    (h : (∃ u, handshake H opts c = .ok u c') ∨ ∃ e, handshake H opts c = .err e c') (k : Nat) :
    (c'.out.length ≤ c.out.length + k ∧
      handshakeL H opts ⟨c, k⟩ = (handshake H opts c).on (c.out.length + k - c'.out.length)) ∨
    c.out.length + k < c'.out.length ∧ ∃ d : Conn, handshakeL H opts ⟨c, k⟩ = .err .io ⟨d, 0⟩ ∧
      d.out = c'.out.take (c.out.length + k) := (Breaks.handshake H opts).whole c c' h k

/-- C128, changing the user -/
theorem C128_change_user_partial (H : Hashes) (username password db : Bytes) (attrs : List ConnectAttr) (c c' : Conn)
    (h : (∃ u, changeUser H username password db attrs c = .ok u c') ∨ ∃ e, changeUser H username password db attrs c = .err e c')
    (k : Nat) :
    (c'.out.length ≤ c.out.length + k ∧ changeUserL H username password db attrs ⟨c, k⟩ =
      (changeUser H username password db attrs c).on (c.out.length + k - c'.out.length)) ∨
    c.out.length + k < c'.out.length ∧ ∃ d : Conn, changeUserL H username password db attrs ⟨c, k⟩ = .err .io ⟨d, 0⟩ ∧
      d.out = c'.out.take (c.out.length + k) := (Breaks.changeUser H username password db attrs).whole c c' h k

/-- C128, asking for a stream of events: it may also fail with the error of a server that refused to set a variable, which
it would fail with anyway. So there is no stream unless the server got all of the request. -/
theorem C128_stream_partial (r : BinlogRequest) (uuid : Bytes) (random : Nat) (c c' : Conn)
    (h : (∃ s, r.requestStream uuid random c = .ok s c') ∨ ∃ e, r.requestStream uuid random c = .err e c') (k : Nat) :
    (c'.out.length ≤ c.out.length + k ∧
      r.requestStreamL uuid random ⟨c, k⟩ = (r.requestStream uuid random c).on (c.out.length + k - c'.out.length)) ∨
    c.out.length + k < c'.out.length ∧ ∃ (d : Conn) (e : Err), r.requestStreamL uuid random ⟨c, k⟩ = .err e ⟨d, 0⟩ ∧
      (e = .io ∨ r.requestStream uuid random c = .err e c') ∧ d.out = c'.out.take (c.out.length + k) := by
  obtain ⟨sent, e, b⟩ := Frays.requestStream r uuid random c c' h
  have hl : c'.out.length = c.out.length + sent.length := by rw [e, List.length_append]
  by_cases hk : sent.length ≤ k
  · left
    refine ⟨by omega, ?_⟩
    rw [(b k).1 hk]
    congr 1
    omega
  · right
    obtain ⟨d, ho, hd⟩ := (b k).2 (by omega)
    have ho' : d.out = c'.out.take (c.out.length + k) := by
      rw [ho, e, List.take_append, List.take_of_length_le (show c.out.length ≤ c.out.length + k by omega),
        show c.out.length + k - c.out.length = k by omega]
    rcases hd with hd | ⟨e', he, hd⟩
    · exact ⟨by omega, d, .io, hd, .inl rfl, ho'⟩
    · exact ⟨by omega, d, e', hd, .inr he, ho'⟩

theorem BreaksAt.connect (w : World) (n : Nat) (host port username password : Bytes) :
    BreaksAt (connect w n host port username password) (fun k => connectL w n k host port username password) [] := by
  unfold Mybin.connect connectL
  cases w.stream n (address host port) with
  | none => exact .err rfl fun _ => rfl
  | some inp => exact Breaks.handshake _ _ { inp := inp }

theorem Breaks.binlogFiles : Breaks Cmd.binlogFiles binlogFilesL :=
  .congr (.request _ ((Quiet.newResultSet _).bind fun rs => Quiet.filesLoop rs _)) (M.bind_assoc' _ _ _)

/-- C128, `mybinlog list`, and `mybinlog` with a login that fails: it prints the list, or nothing -/
theorem C128_list_partial (w : World) (o : ProgOpts) (all : Bytes) (h : (mybinlog w o).sent = some [all])
    (k k1 : Nat) :
    (all.length ≤ k → mybinlogL w k k1 o = mybinlog w o) ∧
    (k < all.length → mybinlogL w k k1 o = ⟨[], .err .io, some [all.take k]⟩) := by
  unfold mybinlog at h ⊢
  unfold mybinlogL
  have hc := BreaksAt.connect w 0 o.host o.port o.username o.password
  cases hr : connect w 0 o.host o.port o.username o.password with
  | ok u c =>
    rw [hr] at h
    dsimp only at h ⊢
    obtain ⟨s1, e1, b1⟩ := hc c (.inl ⟨u, hr⟩)
    rw [List.nil_append] at e1
    subst e1
    have ho : o.cmd = .list := by
      cases hcmd : o.cmd with
      | list => rfl
      | dml filename untilNow databaseFilter tableFilter block limit =>
        rw [hcmd] at h
        exfalso
        dsimp only at h
        unfold dmlSent at h
        split at h
        · split at h
          · cases h
          · split at h
            · cases h
            · dsimp only at h
              split at h
              · rename_i s c3 _
                generalize dmlConns _ _ s _ c3 = r at h
                cases r <;> cases h
              · cases h
              · cases h
              · cases h
        · cases h
        · cases h
        · cases h
    rw [ho] at h ⊢
    dsimp only at h ⊢
    have hf := Breaks.binlogFiles c
    have run : ∀ k, c.out.length ≤ k → connectL w 0 k o.host o.port o.username o.password = .ok u ⟨c, k - c.out.length⟩ := by
      intro k hk
      have := (b1 k).1 hk
      rw [hr] at this
      exact this
    have cut : ∀ k, k < c.out.length → ∃ d : Conn, connectL w 0 k o.host o.port o.username o.password = .err .io ⟨d, 0⟩ ∧
        d.out = c.out.take k := fun k hk => (b1 k).2 hk
    cases hr2 : Cmd.binlogFiles c with
    | ok files c2 =>
      rw [hr2] at h
      cases h
      obtain ⟨s2, e2, b2⟩ := hf c2 (.inl ⟨_, hr2⟩)
      rw [e2, List.length_append]
      refine ⟨fun hk => ?_, fun hk => ?_⟩
      · rw [run k (by omega)]
        dsimp only
        rw [(b2 _).1 (by omega), hr2]
        dsimp only [MR.on]
      · by_cases h1 : c.out.length ≤ k
        · rw [run k h1]
          dsimp only
          obtain ⟨d, hd, ho⟩ := (b2 (k - c.out.length)).2 (by omega)
          rw [hd]
          dsimp only
          rw [ho, List.take_append, List.take_of_length_le h1]
        · obtain ⟨d, hd, ho⟩ := cut k (by omega)
          rw [hd]
          dsimp only
          rw [ho, List.take_append, Nat.sub_eq_zero_of_le (by omega), List.take_zero, List.append_nil]
    | err e c2 =>
      rw [hr2] at h
      cases h
      obtain ⟨s2, e2, b2⟩ := hf c2 (.inr ⟨_, hr2⟩)
      rw [e2, List.length_append]
      refine ⟨fun hk => ?_, fun hk => ?_⟩
      · rw [run k (by omega)]
        dsimp only
        rw [(b2 _).1 (by omega), hr2]
        dsimp only [MR.on]
      · by_cases h1 : c.out.length ≤ k
        · rw [run k h1]
          dsimp only
          obtain ⟨d, hd, ho⟩ := (b2 (k - c.out.length)).2 (by omega)
          rw [hd]
          dsimp only
          rw [ho, List.take_append, List.take_of_length_le h1]
        · obtain ⟨d, hd, ho⟩ := cut k (by omega)
          rw [hd]
          dsimp only
          rw [ho, List.take_append, Nat.sub_eq_zero_of_le (by omega), List.take_zero, List.append_nil]
    | panic => rw [hr2] at h; cases h
    | hang => rw [hr2] at h; cases h
  | err e c =>
    rw [hr] at h
    cases h
    obtain ⟨s1, e1, b1⟩ := hc c (.inr ⟨e, hr⟩)
    rw [List.nil_append] at e1
    subst e1
    refine ⟨fun hk => ?_, fun hk => ?_⟩
    · have := (b1 k).1 hk
      rw [hr] at this
      dsimp only at this
      rw [this]
      rfl
    · obtain ⟨d, hd, ho⟩ := (b1 k).2 hk
      dsimp only at hd
      rw [hd]
      dsimp only
      rw [ho, List.nil_append]
  | panic => rw [hr] at h; cases h
  | hang => rw [hr] at h; cases h

theorem msgLoop_events (s : BinlogStream) (c : Conn) : ∀ l ∈ (msgLoop s c).1, ∃ ev, l = .event ev := by
  induction hn : c.inp.length using Nat.strong_induction_on generalizing c s with
  | _ n ih =>
    rw [msgLoop.eq_def]
    cases hr : s.nextEvent c with
    | ok a c1 =>
      obtain ⟨o, s'⟩ := a
      cases o with
      | none => simp
      | some ev =>
        dsimp only
        split
        · intro l hl
          rcases List.mem_cons.1 hl with hl | hl
          · exact ⟨ev, hl⟩
          · exact ih c1.inp.length (by omega) s' c1 rfl l hl
        · intro l hl
          exact ⟨ev, by simpa using hl⟩
    | err e c1 => simp
    | panic => simp
    | hang => simp

/-- C128, `mybinmsg`: on a stream that fails it prints no event; it prints the files, all or none. -/
theorem C128_mybinmsg_partial (w : World) (conf : MsgConnect) (all : Bytes) (h : (mybinmsg w conf).sent = some [all])
    (k : Nat) :
    (all.length ≤ k → mybinmsgL w k conf = mybinmsg w conf) ∧
    (k < all.length → (mybinmsgL w k conf).sent = some [all.take k] ∧
      (∃ e, (mybinmsgL w k conf).theEnd = .err e ∧ (e = .io ∨ (mybinmsg w conf).theEnd = .err e)) ∧
      ((mybinmsgL w k conf).lines = [] ∨ ∃ (files : List Cmd.BinlogFile) (events : List MsgLine), (mybinmsg w conf).lines = files.map .file ++ events ∧
        (∀ l ∈ events, ∃ ev, l = .event ev) ∧ (mybinmsgL w k conf).lines = files.map .file)) := by
  cases conf with
  | unixSocket => cases h
  | tcp host port username password =>
    unfold mybinmsg at h ⊢
    have hc := BreaksAt.connect w 0 host port username password
    dsimp only at h ⊢
    cases hr : connect w 0 host port username password with
    | ok u c =>
      rw [hr] at h
      dsimp only at h ⊢
      obtain ⟨s1, e1, b1⟩ := hc c (.inl ⟨u, hr⟩)
      rw [List.nil_append] at e1
      subst e1
      have run : ∀ k, c.out.length ≤ k → connectL w 0 k host port username password = .ok u ⟨c, k - c.out.length⟩ := by
        intro k hk
        have := (b1 k).1 hk
        rw [hr] at this
        exact this
      have cut : ∀ k, k < c.out.length → ∃ d : Conn, connectL w 0 k host port username password = .err .io ⟨d, 0⟩ ∧
          d.out = c.out.take k := fun k hk => (b1 k).2 hk
      have early : ∀ a b : Bytes, a <+: b → ∀ k, k < a.length → b.take k = a.take k := by
        rintro a _ ⟨t, rfl⟩ k hk
        rw [List.take_append, Nat.sub_eq_zero_of_le hk.le, List.take_zero, List.append_nil]
      cases hr2 : Cmd.binlogFiles c with
      | ok files c2 =>
        rw [hr2] at h
        dsimp only at h ⊢
        obtain ⟨s2, e2, b2⟩ := Breaks.binlogFiles c c2 (.inl ⟨_, hr2⟩)
        have p2 : c.out <+: c2.out := ⟨s2, e2.symm⟩
        have l2 : c2.out.length = c.out.length + s2.length := by rw [e2, List.length_append]
        have run2 : ∀ k, c2.out.length ≤ k → binlogFilesL ⟨c, k - c.out.length⟩ = .ok files ⟨c2, k - c2.out.length⟩ := by
          intro k hk
          have := (b2 (k - c.out.length)).1 (by omega)
          rw [this, hr2, l2, Nat.sub_add_eq]
          rfl
        have cut2 : ∀ k, c.out.length ≤ k → k < c2.out.length → ∃ d : Conn,
            binlogFilesL ⟨c, k - c.out.length⟩ = .err .io ⟨d, 0⟩ ∧ d.out = c2.out.take k := by
          intro k h1 h2
          obtain ⟨d, hd, ho⟩ := (b2 (k - c.out.length)).2 (by omega)
          exact ⟨d, hd, by rw [ho, e2, List.take_append, List.take_of_length_le h1]⟩
        -- a break before the request of the stream
        have before : ∀ (all : Bytes) (k : Nat), c2.out <+: all → k < c2.out.length →
            mybinmsgL w k (.tcp host port username password) = ⟨[], .err .io, some [all.take k]⟩ := by
          intro all k hp hk
          unfold mybinmsgL
          dsimp only
          by_cases h1 : c.out.length ≤ k
          · rw [run k h1]
            obtain ⟨d, hd, ho⟩ := cut2 k h1 hk
            dsimp only
            rw [hd]
            dsimp only
            rw [ho, early _ _ hp k hk]
          · obtain ⟨d, hd, ho⟩ := cut k (by omega)
            rw [hd]
            dsimp only
            rw [ho, early _ _ (p2.trans hp) k (by omega)]
        cases hr3 : defaultRequest.requestStream w.uuid w.random c2 with
        | ok s c3 =>
          rw [hr3] at h
          dsimp only at h ⊢
          have hall : all = c3.out := by
            cases hm : (msgLoop s c3).2.2 with
            | none => rw [hm] at h; cases h
            | some c4 =>
              rw [hm] at h
              cases h
              exact Quiet.msgLoop s c3 _ _ c4 (Prod.ext rfl (Prod.ext rfl hm))
          subst hall
          have hs := C128_stream_partial defaultRequest w.uuid w.random c2 c3 (.inl ⟨s, hr3⟩)
          have p3 : c2.out <+: c3.out := by
            obtain ⟨s3, e3, -⟩ := Frays.requestStream defaultRequest w.uuid w.random c2 c3 (.inl ⟨s, hr3⟩)
            exact ⟨s3, e3.symm⟩
          refine ⟨fun hk => ?_, fun hk => ?_⟩
          · have := p3.length_le
            unfold mybinmsgL
            dsimp only
            rw [run k (by omega)]
            dsimp only
            rw [run2 k (by omega)]
            dsimp only
            rcases hs (k - c2.out.length) with ⟨-, h4⟩ | ⟨h4, -⟩
            · rw [h4, hr3]
              rfl
            · omega
          · by_cases h1 : c2.out.length ≤ k
            · unfold mybinmsgL
              dsimp only
              rw [run k (by omega)]
              dsimp only
              rw [run2 k h1]
              dsimp only
              rcases hs (k - c2.out.length) with ⟨h4, -⟩ | ⟨-, d, e, h4, h5, h6⟩
              · omega
              · rw [h4]
                dsimp only
                refine ⟨by rw [h6, Nat.add_sub_cancel' h1], ⟨e, rfl, .inl ?_⟩, .inr ⟨files, _, rfl, msgLoop_events s c3, rfl⟩⟩
                rcases h5 with h5 | h5
                · exact h5
                · rw [hr3] at h5; cases h5
            · rw [before c3.out k p3 (by omega)]
              exact ⟨rfl, ⟨.io, rfl, .inl rfl⟩, .inl rfl⟩
        | err e c3 =>
          rw [hr3] at h
          cases h
          have hs := C128_stream_partial defaultRequest w.uuid w.random c2 c3 (.inr ⟨e, hr3⟩)
          have p3 : c2.out <+: c3.out := by
            obtain ⟨s3, e3, -⟩ := Frays.requestStream defaultRequest w.uuid w.random c2 c3 (.inr ⟨e, hr3⟩)
            exact ⟨s3, e3.symm⟩
          refine ⟨fun hk => ?_, fun hk => ?_⟩
          · have := p3.length_le
            unfold mybinmsgL
            dsimp only
            rw [run k (by omega)]
            dsimp only
            rw [run2 k (by omega)]
            dsimp only
            rcases hs (k - c2.out.length) with ⟨-, h4⟩ | ⟨h4, -⟩
            · rw [h4, hr3]
              rfl
            · omega
          · by_cases h1 : c2.out.length ≤ k
            · unfold mybinmsgL
              dsimp only
              rw [run k (by omega)]
              dsimp only
              rw [run2 k h1]
              dsimp only
              rcases hs (k - c2.out.length) with ⟨h4, -⟩ | ⟨-, d, e', h4, h5, h6⟩
              · omega
              · rw [h4]
                dsimp only
                refine ⟨by rw [h6, Nat.add_sub_cancel' h1], ⟨e', rfl, ?_⟩, .inr ⟨files, [], by simp, by simp, rfl⟩⟩
                rcases h5 with h5 | h5
                · exact .inl h5
                · rw [hr3] at h5; cases h5; exact .inr rfl
            · rw [before c3.out k p3 (by omega)]
              exact ⟨rfl, ⟨.io, rfl, .inl rfl⟩, .inl rfl⟩
        | panic => rw [hr3] at h; cases h
        | hang => rw [hr3] at h; cases h
      | err e c2 =>
        rw [hr2] at h
        cases h
        obtain ⟨s2, e2, b2⟩ := Breaks.binlogFiles c c2 (.inr ⟨_, hr2⟩)
        have l2 : c2.out.length = c.out.length + s2.length := by rw [e2, List.length_append]
        unfold mybinmsgL
        refine ⟨fun hk => ?_, fun hk => ?_⟩
        · dsimp only
          rw [run k (by omega)]
          dsimp only
          rw [(b2 _).1 (by omega), hr2]
          rfl
        · by_cases h1 : c.out.length ≤ k
          · dsimp only
            rw [run k h1]
            dsimp only
            obtain ⟨d, hd, ho⟩ := (b2 (k - c.out.length)).2 (by omega)
            rw [hd]
            dsimp only
            exact ⟨by rw [ho, e2, List.take_append, List.take_of_length_le h1], ⟨.io, rfl, .inl rfl⟩, .inl rfl⟩
          · dsimp only
            obtain ⟨d, hd, ho⟩ := cut k (by omega)
            rw [hd]
            dsimp only
            exact ⟨by rw [ho, early c.out c2.out ⟨s2, e2.symm⟩ k (by omega)], ⟨.io, rfl, .inl rfl⟩, .inl rfl⟩
      | panic => rw [hr2] at h; cases h
      | hang => rw [hr2] at h; cases h
    | err e c =>
      rw [hr] at h
      cases h
      obtain ⟨s1, e1, b1⟩ := hc c (.inr ⟨e, hr⟩)
      rw [List.nil_append] at e1
      subst e1
      unfold mybinmsgL
      refine ⟨fun hk => ?_, fun hk => ?_⟩
      · have := (b1 k).1 hk
        rw [hr] at this
        dsimp only at this
        dsimp only
        rw [this]
        rfl
      · obtain ⟨d, hd, ho⟩ := (b1 k).2 hk
        dsimp only at hd
        dsimp only
        rw [hd]
        dsimp only
        exact ⟨by rw [ho, List.nil_append], ⟨.io, rfl, .inl rfl⟩, .inl rfl⟩
    | panic => rw [hr] at h; cases h
    | hang => rw [hr] at h; cases h

/-! ### examples -/

theorem msgLoop_known (s : BinlogStream) (c : Conn) (h : (msgLoop s c).2.1 ≠ .panic ∧ (msgLoop s c).2.1 ≠ .hang) :
    ∃ c', (msgLoop s c).2.2 = some c' := by
  induction hn : c.inp.length using Nat.strong_induction_on generalizing c s with
  | _ n ih =>
    rw [msgLoop.eq_def] at h ⊢
    cases hr : s.nextEvent c with
    | ok a c1 =>
      rw [hr] at h
      obtain ⟨o, s'⟩ := a
      cases o with
      | none => exact ⟨_, rfl⟩
      | some ev =>
        dsimp only at h ⊢
        split at h
        · rw [if_pos ‹_›]
          exact ih c1.inp.length (by omega) s' c1 h rfl
        · exact absurd rfl h.2
    | err e c1 => exact ⟨_, rfl⟩
    | panic => rw [hr] at h; exact absurd rfl h.1
    | hang => rw [hr] at h; exact absurd rfl h.2

theorem mybinmsg_known (w : World) (conf : MsgConnect) (h : (mybinmsg w conf).theEnd ≠ .panic ∧ (mybinmsg w conf).theEnd ≠ .hang) :
    ∃ all, (mybinmsg w conf).sent = some [all] := by
  cases conf with
  | unixSocket => exact absurd rfl h.1
  | tcp host port username password =>
    unfold mybinmsg at h ⊢
    dsimp only at h ⊢
    cases h1 : connect w 0 host port username password with
    | ok u c =>
      rw [h1] at h
      dsimp only at h ⊢
      cases h2 : Cmd.binlogFiles c with
      | ok files c2 =>
        rw [h2] at h
        dsimp only at h ⊢
        cases h3 : defaultRequest.requestStream w.uuid w.random c2 with
        | ok s c3 =>
          rw [h3] at h
          obtain ⟨c4, h4⟩ := msgLoop_known s c3 h
          exact ⟨c4.out, by dsimp only; rw [h4]; rfl⟩
        | err e c3 => exact ⟨_, rfl⟩
        | panic => rw [h3] at h; exact absurd rfl h.1
        | hang => rw [h3] at h; exact absurd rfl h.2
      | err e c2 => exact ⟨_, rfl⟩
      | panic => rw [h2] at h; exact absurd rfl h.1
      | hang => rw [h2] at h; exact absurd rfl h.2
    | err e c => exact ⟨_, rfl⟩
    | panic => rw [h1] at h; exact absurd rfl h.1
    | hang => rw [h1] at h; exact absurd rfl h.2

/-- the run of C87 over the example log tells the file and the events; if the stream fails, no event -/
example (ft : FloatText) : ∃ inp all lines,
    (mybinmsg (exampleWorld ft inp []) (.tcp (Spec.ascii "db") (Spec.ascii "3306") (Spec.ascii "root") (Spec.ascii "pw"))).sent
      = some [all] ∧
    (mybinmsg (exampleWorld ft inp []) (.tcp (Spec.ascii "db") (Spec.ascii "3306") (Spec.ascii "root") (Spec.ascii "pw"))).lines
      = .file ⟨Spec.ascii "f1", 120⟩ :: lines ∧ lines.length = exampleLog.length := by
  obtain ⟨inp, lines, h1, h2, h3⟩ := example_mybinmsg ft
  obtain ⟨all, hs⟩ := mybinmsg_known _ _ (by rw [h3]; exact ⟨by simp, by simp⟩)
  exact ⟨inp, all, lines, hs, h1, h2⟩

/-- logging in succeeds, and sends something -/
example : ∃ c c' : Conn, handshake realHashes ⟨Spec.ascii "root", Spec.ascii "pw", []⟩ c = .ok () c' ∧
    c.out.length < c'.out.length := by
  obtain ⟨mid, h⟩ := delivers_small [Spec.okPacket (Spec.clientCaps []) 0 ⟨0, 0, 2, 0, [], []⟩] []
    (by intro m hm; simp only [List.mem_singleton] at hm; subst hm; decide +kernel)
  obtain ⟨c', ps, resp, h1, -, h3, h4, -, h6, -⟩ := C56_native realHashes realHashes_sized
    ⟨Spec.ascii "root", Spec.ascii "pw", []⟩ exampleGreeting exampleGreeting_inRange
    (by decide +kernel) (by decide +kernel) (by decide +kernel) (by decide +kernel) ((List.range' 1 20).map UInt8.ofNat)
    (by decide +kernel) (by decide +kernel) (by decide +kernel) (by decide +kernel) ⟨0, 0, 2, 0, [], []⟩
    (by constructor <;> norm_num) { inp := Spec.wire [⟨0, Spec.handshakeV10 exampleGreeting⟩] ++ mid } rfl mid []
    (by decide +kernel) rfl h
  refine ⟨_, c', h1, ?_⟩
  obtain ⟨init, last, rfl, -⟩ := h4
  rw [h3]
  simp [Spec.wire, Spec.Packet.wire]

end Mybin
