/-
C134: what a program prints and how it ends do not depend on the password: the password leaves the client only in what is
sent to the server while logging in.
-/
import Verif.Props.C93
import Verif.Props.C44_C45
import Verif.Props.C88_login

namespace Mybin

/-! ### specification -/

/-- two runs that end the same way, with the same value or error, and leave connections that differ at most in the bytes
that were sent -/
inductive Spec.SameOutcome {α : Type} : MR α → MR α → Prop
  | ok (a : α) (c : Conn) (o : Bytes) : SameOutcome (.ok a c) (.ok a { c with out := o })
  | err (e : Err) (c : Conn) (o : Bytes) : SameOutcome (.err e c) (.err e { c with out := o })
  | panic : SameOutcome .panic .panic
  | hang : SameOutcome .hang .hang

/-! ### what was said before does not matter -/

open Spec (SameOutcome)

/-- a run that does not depend on what has been sent -/
def Deaf {α : Type} (run : M α) : Prop := ∀ c o, SameOutcome (run c) (run { c with out := o })

theorem SameOutcome.bind {α β : Type} {r r' : MR α} {f f' : α → M β} (h : SameOutcome r r')
    (hf : ∀ a c o, r = .ok a c → SameOutcome (f a c) (f' a { c with out := o })) : SameOutcome (r.bind f) (r'.bind f') := by
  cases h with
  | ok a c o => exact hf a c o rfl
  | err e c o => exact .err e c o
  | panic => exact .panic
  | hang => exact .hang

theorem Deaf.bind {α β : Type} {x : M α} {f : α → M β} (hx : Deaf x) (hf : ∀ a, Deaf (f a)) : Deaf (x >>= f) :=
  fun c o => SameOutcome.bind (hx c o) fun a c' o' _ => hf a c' o'

theorem Deaf.pure {α : Type} (a : α) : Deaf (Pure.pure a : M α) := fun c o => .ok a c o
theorem Deaf.fail {α : Type} (e : Err) : Deaf (M.fail e : M α) := fun c o => .err e c o
theorem Deaf.mpanic {α : Type} : Deaf (M.panic : M α) := fun _ _ => .panic
theorem Deaf.getCaps : Deaf getCaps := fun c o => .ok c.caps c o
theorem Deaf.insertCap (f : Nat) : Deaf (insertCap f) := fun c o => .ok () { c with caps := c.caps ||| f } o
theorem Deaf.removeCap (f : Nat) : Deaf (removeCap f) := fun c o => .ok () { c with caps := c.caps ^^^ (c.caps &&& f) } o

theorem Deaf.parse {α : Type} (msg : Bytes) (p : P α) : Deaf (M.parse msg p) := by
  intro c o
  unfold M.parse
  cases p msg with
  | ok a r => exact .ok _ _ _
  | err e r => exact .err _ _ _
  | panic => exact .panic
  | hang => exact .hang

theorem Deaf.ofExcept {α : Type} (r : Except Err α) : Deaf (M.ofExcept r) := by
  intro c o
  unfold M.ofExcept
  cases r with
  | ok a => exact .ok _ _ _
  | error e => exact .err _ _ _

theorem Deaf.ofRes {α : Type} (r : Res α) : Deaf (Cmd.M.ofRes r) := by
  intro c o
  unfold Cmd.M.ofRes
  cases r with
  | ok a => exact .ok _ _ _
  | err e => exact .err _ _ _
  | panic => exact .panic

theorem Deaf.someOr {α : Type} (e : Err) (o : Option α) : Deaf (M.someOr e o) := by
  cases o with
  | none => exact Deaf.fail e
  | some a => exact Deaf.pure a

theorem Deaf.readColCnt (msg : Bytes) : Deaf (readColCnt msg) := by
  intro c o
  unfold Mybin.readColCnt
  cases readLenEncInt msg with
  | ok lei rest =>
    dsimp only
    cases lei.toU32 with
    | some n => exact .ok _ _ _
    | none =>
      dsimp only
      cases rest.isEmpty
      · exact .err _ _ _
      · exact .panic
  | err e r => exact .err _ _ _
  | panic => exact .panic
  | hang => exact .hang

theorem Deaf.readTerminator (caps : Nat) (msg : Bytes) : Deaf (readTerminator caps msg) := by
  intro c o
  unfold Mybin.readTerminator
  cases hasFlag caps Cap.DEPRECATE_EOF
  · cases EofPacket.readFrom caps msg <;> first | exact .panic | exact .hang | exact .ok _ _ _ | exact .err _ _ _
  · cases OkPacket.readFrom caps msg with
    | ok p r => exact .ok _ { c with status := _ } _
    | err e r => exact .err _ _ _
    | panic => exact .panic
    | hang => exact .hang

theorem Deaf.recvMsg : Deaf recvMsg := by
  intro c o
  unfold Mybin.recvMsg
  dsimp only
  cases recvLoop [] c.inp c.pktNr with
  | ok v =>
    obtain ⟨msg, rest, nr⟩ := v
    exact .ok msg { c with inp := rest, pktNr := nr } o
  | error nr => exact .err .io { c with inp := [], pktNr := nr } o

/-- what happens when a message is sent depends on its length only -/
theorem sendLoop_lengths (bs bs' : Bytes) (h : bs.length = bs'.length) (c : Conn) (o : Bytes) :
    SameOutcome (sendLoop bs c) (sendLoop bs' { c with out := o }) := by
  induction hn : bs.length using Nat.strong_induction_on generalizing bs bs' c o with
  | _ n ih =>
    have hp : ∀ p p' (c : Conn) (o : Bytes), SameOutcome (sendPacket p c) (sendPacket p' { c with out := o }) := by
      intro p p' c o
      unfold sendPacket
      dsimp only
      split
      · exact .ok () { c with out := _, pktNr := c.pktNr + 1 } _
      · exact .panic
    by_cases hge : bs.length ≥ maxPacket
    · have hl : sendLoop bs = (sendPacket (bs.take maxPacket) >>= fun _ => sendLoop (bs.drop maxPacket)) := by
        rw [sendLoop, dif_pos hge]
      have hl' : sendLoop bs' = (sendPacket (bs'.take maxPacket) >>= fun _ => sendLoop (bs'.drop maxPacket)) := by
        rw [sendLoop, dif_pos (by omega)]
      rw [hl, hl']
      have hd : (bs.drop maxPacket).length < n := by
        rw [List.length_drop]; unfold maxPacket at hge ⊢; omega
      refine SameOutcome.bind (hp _ _ c o) fun _ c' o' _ => ih _ hd _ _ ?_ _ _ rfl
      rw [List.length_drop, List.length_drop, h]
    · have hl : sendLoop bs = sendPacket bs := by rw [sendLoop, dif_neg hge]
      have hl' : sendLoop bs' = sendPacket bs' := by rw [sendLoop, dif_neg (by omega)]
      rw [hl, hl']
      exact hp _ _ c o

theorem sendMsg_lengths (bs bs' : Bytes) (reset : Bool) (h : bs.length = bs'.length) (c : Conn) (o : Bytes) :
    SameOutcome (sendMsg bs reset c) (sendMsg bs' reset { c with out := o }) := by
  unfold sendMsg
  cases reset
  · exact sendLoop_lengths bs bs' h c o
  · exact sendLoop_lengths bs bs' h { c with pktNr := 0 } o

theorem Deaf.sendMsg (bs : Bytes) (reset : Bool) : Deaf (sendMsg bs reset) := fun c o => sendMsg_lengths bs bs reset rfl c o

theorem Deaf.loggedIn (st : Nat) : Deaf (fun c => .ok none { c with status := st, pktNr := 0 } : M (Option AuthPlugin)) :=
  fun c o => .ok none { c with status := st, pktNr := 0 } o

/-- a loop, as in `Inc.loop` -/
theorem Deaf.loop {σ α β : Type} (loop : σ → M β) (round : σ → M α) (next : σ → α → σ ⊕ M β)
    (he : ∀ s c, loop s c = (round s c).bind fun a c' =>
      match next s a with
      | .inl s' => if c'.inp.length < c.inp.length then loop s' c' else .hang
      | .inr m => m c')
    (hr : ∀ s, Deaf (round s)) (hn : ∀ s a m, next s a = .inr m → Deaf m) (s : σ) : Deaf (loop s) := by
  intro c o
  induction hl : c.inp.length using Nat.strong_induction_on generalizing c s o with
  | _ n ih =>
    rw [he s c, he s { c with out := o }]
    refine SameOutcome.bind (hr s c o) fun a c1 o' h1 => ?_
    cases hx : next s a with
    | inl s' =>
      show SameOutcome (if c1.inp.length < c.inp.length then loop s' c1 else .hang)
        (if c1.inp.length < c.inp.length then loop s' { c1 with out := o' } else .hang)
      split
      · exact ih _ (by omega) s' c1 o' rfl
      · exact .hang
    | inr m => exact hn s a m hx c1 o'

/-! ### the operations -/

theorem Deaf.failWithErrPacket {α : Type} (msg : Bytes) : Deaf (failWithErrPacket msg : M α) := by
  unfold Mybin.failWithErrPacket
  exact Deaf.getCaps.bind fun caps => (Deaf.parse _ _).bind fun p => Deaf.fail _

theorem Deaf.recvColDefs (n : Nat) : Deaf (recvColDefs n) := by
  induction n with
  | zero => exact Deaf.pure _
  | succ n ih =>
    unfold Mybin.recvColDefs
    exact Deaf.recvMsg.bind fun _ => (Deaf.parse _ _).bind fun _ => ih.bind fun _ => Deaf.pure _

theorem Deaf.recvDefsEof : Deaf recvDefsEof := by
  unfold Mybin.recvDefsEof
  refine Deaf.getCaps.bind fun caps => ?_
  split
  · exact Deaf.recvMsg.bind fun _ => (Deaf.parse _ _).bind fun _ => Deaf.pure _
  · exact Deaf.pure _

theorem Deaf.recvDefs (n : Nat) : Deaf (recvDefs n) := by
  unfold Mybin.recvDefs
  split
  · exact Deaf.pure _
  · exact (Deaf.recvColDefs n).bind fun _ => Deaf.recvDefsEof.bind fun _ => Deaf.pure _

theorem Deaf.parseColCnt (msg : Bytes) : Deaf (parseColCnt msg) := by
  unfold Mybin.parseColCnt
  split
  · exact Deaf.mpanic
  · refine Deaf.getCaps.bind fun caps => ?_
    split
    · exact Deaf.failWithErrPacket _
    · split
      · exact (Deaf.parse _ _).bind fun _ => Deaf.pure _
      · exact Deaf.readColCnt _

theorem Deaf.newResultSet (id : Option Nat) : Deaf (newResultSet id) := by
  unfold Mybin.newResultSet
  refine Deaf.recvMsg.bind fun msg => (Deaf.parseColCnt _).bind fun n => ?_
  split
  · exact Deaf.pure _
  · exact (Deaf.recvColDefs n).bind fun _ => Deaf.recvDefsEof.bind fun _ => Deaf.pure _

theorem Deaf.nextRow {ρ : Type} (read : P ρ) (rs : ResultSet) : Deaf (rs.nextRow read) := by
  unfold ResultSet.nextRow
  split
  · exact Deaf.pure _
  · refine Deaf.recvMsg.bind fun msg => Deaf.getCaps.bind fun caps => ?_
    split
    · exact Deaf.fail _
    · split
      · exact (Deaf.readTerminator _ _).bind fun _ => Deaf.pure _
      · exact (Deaf.parse _ _).bind fun _ => Deaf.pure _

/-- the test every loop makes is not changed by more bytes -/
theorem Deaf.foldRows {ρ σ : Type} (read : P ρ) (f : σ → ρ → σ) (s : σ) (rs : ResultSet) : Deaf (rs.foldRows read f s) := by
  refine Deaf.loop (σ := σ × ResultSet) (fun x => x.2.foldRows read f x.1) (fun x => x.2.nextRow read)
    (fun x a => match a with | (some r, rs') => .inl (f x.1 r, rs') | (none, _) => .inr (Pure.pure x.1)) ?_
    (fun x => Deaf.nextRow read x.2) ?_ (s, rs)
  · rintro ⟨s, rs⟩ c
    show ResultSet.foldRows read f s rs c = _
    rw [ResultSet.foldRows]
    cases rs.nextRow read c with
    | ok a c' => obtain ⟨_ | r, rs'⟩ := a <;> rfl
    | err e c' => rfl
    | panic => rfl
    | hang => rfl
  · rintro ⟨s, rs⟩ ⟨_ | r, rs'⟩ m h
    · cases h; exact Deaf.pure _
    · cases h

theorem Deaf.filesLoop (rs : ResultSet) (fs : List Cmd.BinlogFile) : Deaf (Cmd.filesLoop rs fs) := by
  refine Deaf.loop (σ := List Cmd.BinlogFile × ResultSet) (fun x => Cmd.filesLoop x.2 x.1)
    (fun x => x.2.nextRow (mapRow x.2.textRow Cmd.binlogFileMapper))
    (fun x a => match a with
      | (some (.ok f), rs') => .inl (x.1 ++ [f], rs')
      | (some (.err e), _) => .inr (M.fail e)
      | (some .panic, _) => .inr M.panic
      | (none, _) => .inr (Pure.pure x.1)) ?_
    (fun x => Deaf.nextRow _ x.2) ?_ (fs, rs)
  · rintro ⟨fs, rs⟩ c
    show Cmd.filesLoop rs fs c = _
    rw [Cmd.filesLoop]
    cases rs.nextRow (mapRow rs.textRow Cmd.binlogFileMapper) c with
    | ok a c' => obtain ⟨_ | (r | e | _), rs'⟩ := a <;> rfl
    | err e c' => rfl
    | panic => rfl
    | hang => rfl
  · rintro ⟨fs, rs⟩ ⟨_ | (r | e | _), rs'⟩ m h
    · cases h; exact Deaf.pure _
    · cases h
    · cases h; exact Deaf.fail _
    · cases h; exact Deaf.mpanic

theorem Deaf.execLoop : Deaf execLoop := by
  refine Deaf.loop (σ := Unit) (fun _ => Mybin.execLoop) (fun _ => Mybin.recvMsg)
    (fun _ a => match a with
      | [] => .inr M.panic
      | b :: t =>
        if b = 0xff then .inr (Mybin.failWithErrPacket (b :: t))
        else if b = 0x00 then
          .inr (Mybin.getCaps >>= fun caps => M.parse (b :: t) (OkPacket.readFrom caps) >>= fun _ => Pure.pure ())
        else .inl ()) ?_ (fun _ => Deaf.recvMsg) ?_ ()
  · rintro _ c
    rw [Mybin.execLoop]
    cases Mybin.recvMsg c with
    | ok a c' =>
      cases a with
      | nil => rfl
      | cons b t =>
        dsimp only
        show _ = (MR.ok (b :: t) c').bind _
        unfold MR.bind
        by_cases h1 : b = 0xff
        · simp only [h1, if_true]
        · by_cases h2 : b = 0x00
          · simp only [if_neg h1, if_pos h2]
            show _ = ((M.parse (b :: t) (OkPacket.readFrom c'.caps) c').bind fun _ => Pure.pure ())
            cases M.parse (b :: t) (OkPacket.readFrom c'.caps) c' <;> rfl
          · simp only [h1, h2, if_false]
    | err e c' => rfl
    | panic => rfl
    | hang => rfl
  · rintro _ a m h
    cases a with
    | nil => cases h; exact Deaf.mpanic
    | cons b t =>
      dsimp only at h
      split at h
      · cases h; exact Deaf.failWithErrPacket _
      · split at h
        · cases h
          exact Deaf.getCaps.bind fun caps => (Deaf.parse _ _).bind fun _ => Deaf.pure _
        · cases h

theorem Deaf.fieldListLoop (defs : List ColumnDefinition) : Deaf (Cmd.fieldListLoop defs) := by
  refine Deaf.loop Cmd.fieldListLoop (fun _ => Mybin.recvMsg >>= fun msg => Mybin.getCaps >>= fun caps =>
      M.parse msg (ComFieldListResponse.readFrom caps true))
    (fun defs a => match a with
      | .err p => .inr (M.fail (sqlError p))
      | .eof _ => .inr (Pure.pure defs)
      | .colDef d => .inl (defs ++ [d])) ?_
    (fun _ => Deaf.recvMsg.bind fun _ => Deaf.getCaps.bind fun _ => Deaf.parse _ _) ?_ defs
  · rintro defs c
    rw [Cmd.fieldListLoop]
    show _ = ((Mybin.recvMsg c).bind _).bind _
    cases Mybin.recvMsg c with
    | ok msg c1 =>
      dsimp only
      show _ = (M.parse msg (ComFieldListResponse.readFrom c1.caps true) c1).bind _
      cases M.parse msg (ComFieldListResponse.readFrom c1.caps true) c1 with
      | ok a c2 => cases a <;> rfl
      | err e c' => rfl
      | panic => rfl
      | hang => rfl
    | err e c' => rfl
    | panic => rfl
    | hang => rfl
  · rintro defs a m h
    cases a with
    | err p => cases h; exact Deaf.fail _
    | eof p => cases h; exact Deaf.pure _
    | colDef d => cases h

theorem Deaf.recvAndParse (s : BinlogStream) : Deaf s.recvAndParse := by
  have : s.recvAndParse = (Mybin.recvMsg >>= fun msg => match msg with
      | [] => M.fail (.incomplete none)
      | b :: t =>
        if s.nonBlock && b == 0xfe then Pure.pure .theEnd
        else if b ≠ 0x00 then M.fail .packet
        else M.parse t (s.pv4.parseEvent s.validateChecksum) >>= fun o => match o with
          | some e => Pure.pure (.single e)
          | none => Pure.pure .unsupported) := by
    funext c
    unfold BinlogStream.recvAndParse
    show _ = (Mybin.recvMsg c).bind _
    cases Mybin.recvMsg c with
    | ok msg c' =>
      cases msg with
      | nil => rfl
      | cons b t =>
        show _ = (if s.nonBlock && b == 0xfe then _ else _ : M BinlogStreamEvent) c'
        by_cases h1 : (s.nonBlock && b == 0xfe) = true
        · simp only [if_pos h1]; rfl
        · simp only [if_neg h1]
          by_cases h2 : b ≠ 0x00
          · simp only [if_pos h2]; rfl
          · simp only [if_neg h2]
            show _ = (M.parse t (s.pv4.parseEvent s.validateChecksum) c').bind _
            cases M.parse t (s.pv4.parseEvent s.validateChecksum) c' with
            | ok o c'' => cases o <;> rfl
            | err e c' => rfl
            | panic => rfl
            | hang => rfl
    | err e c' => rfl
    | panic => rfl
    | hang => rfl
  rw [this]
  refine Deaf.recvMsg.bind fun msg => ?_
  cases msg with
  | nil => exact Deaf.fail _
  | cons b t =>
    dsimp only
    split
    · exact Deaf.pure _
    · split
      · exact Deaf.fail _
      · refine (Deaf.parse _ _).bind fun o => ?_
        cases o <;> exact Deaf.pure _

theorem Deaf.nextEvent (s : BinlogStream) : Deaf s.nextEvent := by
  have hl : Deaf s.nextLoop := by
    refine Deaf.loop BinlogStream.nextLoop (fun s => s.recvAndParse)
      (fun s a => match a with
        | .single e => .inr (Pure.pure (some e, s))
        | .unsupported => .inl s
        | .theEnd => .inr (Pure.pure (none, s))) ?_ Deaf.recvAndParse ?_ s
    · rintro s c
      rw [BinlogStream.nextLoop]
      cases s.recvAndParse c with
      | ok a c' => cases a <;> rfl
      | err e c' => rfl
      | panic => rfl
      | hang => rfl
    · rintro s a m h
      cases a <;> cases h <;> exact Deaf.pure _
  have : s.nextEvent = if s.completed then Pure.pure (none, s) else s.nextLoop := by
    funext c
    unfold BinlogStream.nextEvent
    cases s.completed <;> rfl
  rw [this]
  cases s.completed
  · exact hl
  · exact Deaf.pure _


theorem Deaf.handshakeLoop (H : Hashes) (caps : Nat) (plugin : AuthPlugin) : Deaf (handshakeLoop H caps plugin) := by
  refine Deaf.loop (Mybin.handshakeLoop H caps)
    (fun plugin => Mybin.recvMsg >>= fun msg => M.parse msg (HandshakeMessage.readFrom caps) >>= fun a => match a with
      | .ok p => (fun c => .ok none { c with status := p.statusFlags, pktNr := 0 } : M (Option AuthPlugin))
      | .err _ => M.fail .packet
      | .switch _ => M.panic
      | .moreData m => M.ofExcept (plugin.next H m.pluginData) >>= fun x =>
          (if x.1.isEmpty then Pure.pure () else Mybin.sendMsg x.1 false : M Unit) >>= fun _ => Pure.pure (some x.2))
    (fun _ a => match a with
      | some pl => .inl pl
      | none => .inr (Pure.pure ())) ?_ ?_ ?_ plugin
  · rintro plugin c
    rw [Mybin.handshakeLoop]
    show _ = ((Mybin.recvMsg c).bind _).bind _
    cases Mybin.recvMsg c with
    | ok msg c1 =>
      dsimp only
      show _ = ((M.parse msg (HandshakeMessage.readFrom caps) c1).bind _).bind _
      cases M.parse msg (HandshakeMessage.readFrom caps) c1 with
      | ok a c2 =>
        cases a with
        | moreData m =>
          dsimp only
          show _ = (((M.ofExcept (plugin.next H m.pluginData) c2).bind _).bind _)
          unfold M.ofExcept
          cases plugin.next H m.pluginData with
          | error e => rfl
          | ok x =>
            obtain ⟨resp, pl⟩ := x
            cases hs : (if resp.isEmpty then Pure.pure () else Mybin.sendMsg resp false : M Unit) c2 <;>
              simp only [hs, MR.bind, Bind.bind] <;> rfl
        | ok p => rfl
        | err p => rfl
        | switch p => rfl
      | err e c' => rfl
      | panic => rfl
      | hang => rfl
    | err e c' => rfl
    | panic => rfl
    | hang => rfl
  · intro plugin
    refine Deaf.recvMsg.bind fun msg => (Deaf.parse _ _).bind fun a => ?_
    cases a with
    | ok p => exact Deaf.loggedIn _
    | err p => exact Deaf.fail _
    | switch p => exact Deaf.mpanic
    | moreData m =>
      refine (Deaf.ofExcept _).bind fun x => Deaf.bind ?_ fun _ => Deaf.pure _
      split
      · exact Deaf.pure _
      · exact Deaf.sendMsg _ _
  · rintro plugin a m h
    cases a <;> cases h
    exact Deaf.pure _

theorem Deaf.handshake (H : Hashes) (o : ConnOpts) : Deaf (handshake H o) := by
  unfold Mybin.handshake
  refine Deaf.recvMsg.bind fun _ => (Deaf.parse _ _).bind fun _ => ?_
  refine (Deaf.insertCap _).bind fun _ => (Deaf.insertCap _).bind fun _ => (Deaf.insertCap _).bind fun _ =>
    (Deaf.insertCap _).bind fun _ => (Deaf.insertCap _).bind fun _ => (Deaf.insertCap _).bind fun _ =>
    (Deaf.insertCap _).bind fun _ => (Deaf.insertCap _).bind fun _ => (Deaf.removeCap _).bind fun _ => ?_
  refine (Deaf.ofExcept _).bind fun _ => (Deaf.ofExcept _).bind fun _ => Deaf.bind ?_ fun _ => Deaf.getCaps.bind fun _ =>
    (Deaf.sendMsg _ _).bind fun _ => Deaf.handshakeLoop _ _ _
  split
  · exact Deaf.pure _
  · exact Deaf.insertCap _

theorem Deaf.changeUserLoop (H : Hashes) (password : Bytes) (plugin : Option AuthPlugin) :
    Deaf (changeUserLoop H password plugin) := by
  refine Deaf.loop (Mybin.changeUserLoop H password)
    (fun plugin => Mybin.recvMsg >>= fun msg => Mybin.getCaps >>= fun caps =>
      M.parse msg (ComChangeUserResponse.readFrom caps) >>= fun a => match a with
      | .ok _ => (Pure.pure none : M (Option AuthPlugin))
      | .err p => M.fail (sqlError p)
      | .switch s => M.ofExcept (newAuthPlugin s.pluginName) >>= fun pl =>
          M.ofExcept (genInitAuthResp H pl password s.authPluginData) >>= fun x =>
          Mybin.sendMsg x.1 false >>= fun _ => Pure.pure (some x.2)
      | .moreData m => match plugin with
        | none => M.panic
        | some pl => M.ofExcept (pl.next H m.pluginData) >>= fun x =>
          Mybin.sendMsg x.1 false >>= fun _ => Pure.pure (some x.2))
    (fun _ a => match a with
      | some pl => .inl (some pl)
      | none => .inr (Pure.pure ())) ?_ ?_ ?_ plugin
  · rintro plugin c
    rw [Mybin.changeUserLoop]
    show _ = ((Mybin.recvMsg c).bind _).bind _
    cases Mybin.recvMsg c with
    | ok msg c1 =>
      dsimp only
      show _ = ((M.parse msg (ComChangeUserResponse.readFrom c1.caps) c1).bind _).bind _
      cases M.parse msg (ComChangeUserResponse.readFrom c1.caps) c1 with
      | ok a c2 =>
        cases a with
        | moreData m =>
          cases plugin with
          | none => rfl
          | some pl =>
            dsimp only
            show _ = (((M.ofExcept (pl.next H m.pluginData) c2).bind _).bind _)
            unfold M.ofExcept
            cases pl.next H m.pluginData with
            | error e => rfl
            | ok x =>
              obtain ⟨resp, pl⟩ := x
              cases hs : Mybin.sendMsg resp false c2 <;> simp only [hs, MR.bind, Bind.bind] <;> rfl
        | ok p => rfl
        | err p => rfl
        | switch s =>
          dsimp only
          show _ = (((M.ofExcept (newAuthPlugin s.pluginName) c2).bind _).bind _)
          unfold M.ofExcept
          cases newAuthPlugin s.pluginName with
          | error e => rfl
          | ok pl =>
            dsimp only
            show _ = (((M.ofExcept (genInitAuthResp H pl password s.authPluginData) c2).bind _).bind _)
            unfold M.ofExcept
            cases genInitAuthResp H pl password s.authPluginData with
            | error e => rfl
            | ok x =>
              obtain ⟨resp, pl⟩ := x
              cases hs : Mybin.sendMsg resp false c2 <;> simp only [hs, MR.bind, Bind.bind] <;> rfl
      | err e c' => rfl
      | panic => rfl
      | hang => rfl
    | err e c' => rfl
    | panic => rfl
    | hang => rfl
  · intro plugin
    refine Deaf.recvMsg.bind fun msg => Deaf.getCaps.bind fun _ => (Deaf.parse _ _).bind fun a => ?_
    cases a with
    | ok p => exact Deaf.pure _
    | err p => exact Deaf.fail _
    | switch p =>
      exact (Deaf.ofExcept _).bind fun _ => (Deaf.ofExcept _).bind fun _ => (Deaf.sendMsg _ _).bind fun _ => Deaf.pure _
    | moreData m =>
      cases plugin with
      | none => exact Deaf.mpanic
      | some pl => exact (Deaf.ofExcept _).bind fun _ => (Deaf.sendMsg _ _).bind fun _ => Deaf.pure _
  · rintro plugin a m h
    cases a <;> cases h
    exact Deaf.pure _

theorem Deaf.changeUser (H : Hashes) (user password db : Bytes) (attrs : List ConnectAttr) :
    Deaf (changeUser H user password db attrs) := by
  unfold Mybin.changeUser
  exact Deaf.getCaps.bind fun _ => (Deaf.sendMsg _ _).bind fun _ => Deaf.changeUserLoop _ _ _

theorem Deaf.okCommand (bs : Bytes) : Deaf (okCommand bs) := by
  unfold Mybin.okCommand
  refine (Deaf.sendMsg _ _).bind fun _ => Deaf.recvMsg.bind fun _ => Deaf.getCaps.bind fun _ => (Deaf.parse _ _).bind fun r => ?_
  cases r
  · exact Deaf.pure _
  · exact Deaf.fail _

theorem Deaf.fieldList (t w : Bytes) : Deaf (Cmd.fieldList t w) := by
  unfold Cmd.fieldList
  exact (Deaf.sendMsg _ _).bind fun _ => Deaf.fieldListLoop _

theorem Deaf.statistics : Deaf Cmd.statistics := by
  unfold Cmd.statistics
  refine (Deaf.sendMsg _ _).bind fun _ => Deaf.recvMsg.bind fun _ => ?_
  split
  · exact Deaf.pure _
  · exact Deaf.fail _

theorem Deaf.debug : Deaf Cmd.debug := by
  unfold Cmd.debug
  refine (Deaf.sendMsg _ _).bind fun _ => Deaf.recvMsg.bind fun _ => Deaf.getCaps.bind fun _ => (Deaf.parse _ _).bind fun r => ?_
  cases r
  · exact Deaf.pure _
  · exact Deaf.fail _

theorem Deaf.ping : Deaf Cmd.ping := by
  unfold Cmd.ping
  exact (Deaf.sendMsg _ _).bind fun _ => Deaf.recvMsg.bind fun _ => Deaf.getCaps.bind fun _ => (Deaf.parse _ _).bind fun r =>
    Deaf.pure _

theorem Deaf.setMultiStmts (multi : Bool) : Deaf (Cmd.setMultiStmts multi) := by
  unfold Cmd.setMultiStmts
  refine (Deaf.sendMsg _ _).bind fun _ => Deaf.recvMsg.bind fun _ => Deaf.getCaps.bind fun _ => (Deaf.parse _ _).bind fun r => ?_
  cases r
  · dsimp only
    split
    · exact Deaf.insertCap _
    · exact Deaf.removeCap _
  · exact Deaf.fail _

theorem Deaf.query (q : Bytes) : Deaf (Query.qry q) := by
  unfold Query.qry
  exact (Deaf.sendMsg _ _).bind fun _ => Deaf.newResultSet _

theorem Deaf.queryExec (q : Bytes) : Deaf (Query.exec q) := by
  unfold Query.exec
  exact (Deaf.sendMsg _ _).bind fun _ => Deaf.execLoop

theorem Deaf.prepare (q : Bytes) : Deaf (Stmt.prepare q) := by
  unfold Stmt.prepare
  refine (Deaf.sendMsg _ _).bind fun _ => Deaf.recvMsg.bind fun msg => ?_
  cases msg with
  | nil => exact Deaf.fail _
  | cons b t =>
    refine Deaf.bind ?_ fun _ => (Deaf.recvDefs _).bind fun _ => (Deaf.recvDefs _).bind fun _ => Deaf.pure _
    split
    · exact Deaf.failWithErrPacket _
    · exact Deaf.parse _ _

theorem Deaf.send (s : PreparedStmt) (ps : List StmtColumnValue) : Deaf (s.send ps) := by
  unfold PreparedStmt.send
  split
  · exact Deaf.mpanic
  · split
    · exact Deaf.mpanic
    · exact Deaf.sendMsg _ _

theorem Deaf.exec (s : PreparedStmt) (ps : List StmtColumnValue) : Deaf (s.exec ps) := by
  unfold PreparedStmt.exec
  exact (Deaf.send s ps).bind fun _ => Deaf.execLoop

theorem Deaf.stmtQry (s : PreparedStmt) (ps : List StmtColumnValue) : Deaf (s.qry ps) := by
  unfold PreparedStmt.qry
  exact (Deaf.send s ps).bind fun _ => Deaf.newResultSet _

theorem Deaf.stmtClose (s : PreparedStmt) : Deaf s.close := Deaf.sendMsg _ _

theorem Deaf.rsClose (rs : ResultSet) : Deaf rs.close := by
  unfold ResultSet.close
  split
  · exact (Deaf.sendMsg _ _).bind fun _ => Deaf.pure _
  · exact Deaf.pure _

theorem Deaf.execClose (s : PreparedStmt) (ps : List StmtColumnValue) : Deaf (s.execClose ps) := by
  intro c o
  have hx := Deaf.exec s ps c o
  unfold PreparedStmt.execClose
  generalize s.exec ps c = r at hx
  generalize s.exec ps { c with out := o } = r' at hx
  cases hx with
  | ok a c o => simp only [close_sends]; exact .ok a { c with out := _, pktNr := 1 } _
  | err e c o => simp only [close_sends]; exact .err e { c with out := _, pktNr := 1 } _
  | panic => exact .panic
  | hang => exact .hang

theorem Deaf.firstMapped {α : Type} (mapper : List (Option Bytes) → Res α) (rs : ResultSet) :
    Deaf (Cmd.firstMapped mapper rs) := by
  unfold Cmd.firstMapped ResultSet.firstOrNone
  refine (Deaf.foldRows _ _ _ _).bind fun r => ?_
  cases r with
  | none => exact Deaf.pure _
  | some v => exact (Deaf.ofRes _).bind fun _ => Deaf.pure _

theorem Deaf.getVar {α : Type} (conv : Option Bytes → Res α) (name : Bytes) (global : Bool) :
    Deaf (Cmd.getVar conv name global) := by
  unfold Cmd.getVar
  exact (Deaf.query _).bind fun _ => Deaf.firstMapped _ _

theorem Deaf.getUserVar {α : Type} (conv : Option Bytes → Res α) (name : Bytes) : Deaf (Cmd.getUserVar conv name) := by
  unfold Cmd.getUserVar
  exact (Deaf.query _).bind fun _ => Deaf.firstMapped _ _

theorem Deaf.setVar (name : Bytes) (v : StmtColumnValue) (global : Bool) : Deaf (Cmd.setVar name v global) := by
  unfold Cmd.setVar
  exact (Deaf.prepare _).bind fun _ => Deaf.execClose _ _

theorem Deaf.setUserVar (name : Bytes) (v : StmtColumnValue) : Deaf (Cmd.setUserVar name v) := by
  unfold Cmd.setUserVar
  exact (Deaf.prepare _).bind fun _ => Deaf.execClose _ _

theorem Deaf.binlogFiles : Deaf Cmd.binlogFiles := by
  unfold Cmd.binlogFiles
  exact (Deaf.query _).bind fun _ => Deaf.filesLoop _ _

theorem Deaf.first {ρ : Type} (read : P ρ) (rs : ResultSet) : Deaf (rs.first read) := by
  unfold ResultSet.first ResultSet.firstOrNone
  refine (Deaf.foldRows _ _ _ _).bind fun r => ?_
  cases r with
  | none => exact Deaf.fail _
  | some v => exact Deaf.pure _

theorem Deaf.setup (r : BinlogRequest) (uuid : Bytes) (random : Nat) : Deaf (r.setup uuid random) := by
  unfold BinlogRequest.setup
  exact (Deaf.getVar _ _ _).bind fun _ => (Deaf.someOr _ _).bind fun _ => (Deaf.setUserVar _ _).bind fun _ =>
    (Deaf.getVar _ _ _).bind fun _ => (Deaf.someOr _ _).bind fun _ => (Deaf.setUserVar _ _).bind fun _ =>
    (Deaf.getVar _ _ _).bind fun _ => (Deaf.someOr _ _).bind fun _ =>
    (Deaf.getVar _ _ _).bind fun _ => (Deaf.someOr _ _).bind fun _ => (Deaf.setUserVar _ _).bind fun _ =>
    (Deaf.okCommand _).bind fun _ => Deaf.pure _

theorem Deaf.firstEvents (r : BinlogRequest) (checksum : Bool) : Deaf (r.firstEvents checksum) := by
  unfold BinlogRequest.firstEvents
  refine Deaf.recvMsg.bind fun msg => ?_
  cases msg with
  | nil => exact Deaf.fail _
  | cons b t =>
    dsimp only
    split
    · exact Deaf.failWithErrPacket _
    · split
      · exact Deaf.getCaps.bind fun _ => (Deaf.parse _ _).bind fun _ => Deaf.pure _
      · split
        · exact (Deaf.parse _ _).bind fun _ => Deaf.recvMsg.bind fun _ => (Deaf.parse _ _).bind fun _ => Deaf.pure _
        · exact Deaf.fail _

theorem Deaf.requestStream (r : BinlogRequest) (uuid : Bytes) (random : Nat) : Deaf (r.requestStream uuid random) := by
  unfold BinlogRequest.requestStream
  exact (Deaf.setup _ _ _).bind fun _ => (Deaf.sendMsg _ _).bind fun _ => Deaf.firstEvents _ _

theorem Deaf.processInfo : Deaf Cmd.processInfo := by
  unfold Cmd.processInfo
  exact (Deaf.sendMsg _ _).bind fun _ => Deaf.newResultSet _

theorem Deaf.recover {α : Type} {x : M α} {h : Err → M α} (hx : Deaf x) (hh : ∀ e, Deaf (h e)) : Deaf (Spec.recover x h) := by
  intro c o
  have ha := hx c o
  unfold Spec.recover
  generalize x c = r at ha
  generalize x { c with out := o } = r' at ha
  cases ha with
  | ok a c o => exact .ok a c o
  | err e c o =>
    dsimp only
    split
    · exact .err e c o
    · exact hh e c o
  | panic => exact .panic
  | hang => exact .hang

theorem Deaf.application {α : Type} {run : M α} (h : Spec.Application run) : Deaf run := by
  induction h with
  | login H o => exact Deaf.handshake H o
  | changeUser H u p d a => exact Deaf.changeUser H u p d a
  | quit => exact Deaf.sendMsg _ _
  | initDb db => exact Deaf.okCommand _
  | createDb db => exact Deaf.okCommand _
  | dropDb db => exact Deaf.okCommand _
  | refresh f => exact Deaf.okCommand _
  | processKill id => exact Deaf.okCommand _
  | resetConnection => exact Deaf.okCommand _
  | registerSlave id => exact Deaf.okCommand _
  | fieldList t w => exact Deaf.fieldList t w
  | statistics => exact Deaf.statistics
  | debug => exact Deaf.debug
  | ping => exact Deaf.ping
  | setMultiStmts m => exact Deaf.setMultiStmts m
  | processInfo => exact Deaf.processInfo
  | binlogFiles => exact Deaf.binlogFiles
  | getVar conv n g => exact Deaf.getVar conv n g
  | setVar n v g => exact Deaf.setVar n v g
  | getUserVar conv n => exact Deaf.getUserVar conv n
  | setUserVar n v => exact Deaf.setUserVar n v
  | queryExec q => exact Deaf.queryExec q
  | query q => exact Deaf.query q
  | nextRow rs read => exact Deaf.nextRow read rs
  | all rs read => exact Deaf.foldRows _ _ _ _
  | first rs read => exact Deaf.first read rs
  | firstOrNone rs read => exact Deaf.foldRows _ _ _ _
  | count rs read => exact Deaf.foldRows _ _ _ _
  | closeResult rs => exact Deaf.rsClose rs
  | prepare q => exact Deaf.prepare q
  | exec s ps => exact Deaf.exec s ps
  | execClose s ps => exact Deaf.execClose s ps
  | qry s ps => exact Deaf.stmtQry s ps
  | close s => exact Deaf.stmtClose s
  | requestStream r u n => exact Deaf.requestStream r u n
  | nextEvent s => exact Deaf.nextEvent s
  | done a => exact Deaf.pure a
  | giveUp e => exact Deaf.fail e
  | andThen x f _ _ hx hf => exact hx.bind hf
  | recover x h _ _ hx hh => exact hx.recover hh


/-! ### logging in with another password -/

/-- two plugins that differ in the password only, and have one -/
inductive PluginAlike : AuthPlugin → AuthPlugin → Prop
  | native (p p' : Bytes) (h : p ≠ []) (h' : p' ≠ []) : PluginAlike (.native p) (.native p')
  | cachingSha2 (p p' seed : Bytes) (stage : CachingSha2Stage) (h : p ≠ []) (h' : p' ≠ []) :
      PluginAlike (.cachingSha2 p seed stage false) (.cachingSha2 p' seed stage false)

/-- two answers of plugins: the same error, or responses of the same length -/
inductive ResponseAlike : Except Err (Bytes × AuthPlugin) → Except Err (Bytes × AuthPlugin) → Prop
  | ok (r r' : Bytes) (q q' : AuthPlugin) (hl : r.length = r'.length) (hq : PluginAlike q q') :
      ResponseAlike (.ok (r, q)) (.ok (r', q'))
  | error (e : Err) : ResponseAlike (.error e) (.error e)

theorem scramble411_length (H : Hashes) (hH : H.Sized) (p seed : Bytes) : (scramble411 H p seed).length = 20 := by
  unfold scramble411
  dsimp only
  rw [xorBytes_length _ _ (by rw [hH.sha1, hH.sha1]), hH.sha1]

theorem scrambleCachingSha2_length (H : Hashes) (hH : H.Sized) (p seed : Bytes) :
    (scrambleCachingSha2 H p seed).length = 32 := by
  unfold scrambleCachingSha2
  dsimp only
  rw [xorBytes_length _ _ (by rw [hH.sha256, hH.sha256]), hH.sha256]

theorem PluginAlike.next {q q' : AuthPlugin} (h : PluginAlike q q') (H : Hashes) (hH : H.Sized) (input : Bytes) :
    ResponseAlike (q.next H input) (q'.next H input) := by
  have he : ∀ p : Bytes, p ≠ [] → p.isEmpty = false := fun p hp => by cases p <;> simp_all
  cases h with
  | native p p' h h' =>
    simp only [AuthPlugin.next, he p h, he p' h', Bool.false_eq_true, if_false]
    exact .ok _ _ _ _ (by rw [scramble411_length H hH, scramble411_length H hH]) (.native p p' h h')
  | cachingSha2 p p' seed stage h h' =>
    simp only [AuthPlugin.next, he p h, he p' h', Bool.false_eq_true, if_false]
    cases stage with
    | sendScramble =>
      exact .ok _ _ _ _ (by rw [scrambleCachingSha2_length H hH, scrambleCachingSha2_length H hH]) (.cachingSha2 p p' _ _ h h')
    | readResult =>
      cases input with
      | nil => exact .error _
      | cons b t =>
        dsimp only
        split
        · exact .ok _ _ _ _ rfl (.cachingSha2 p p' _ _ h h')
        · split
          · exact .error _
          · exact .error _
    | complete => exact .error _
    | fullAuth => exact .error _

theorem genInitAuthResp_alike (H : Hashes) (hH : H.Sized) (name p p' seed : Bytes) (h : p ≠ []) (h' : p' ≠ [])
    (pl : AuthPlugin) (hpl : newAuthPlugin name = .ok pl) :
    ResponseAlike (genInitAuthResp H pl p seed) (genInitAuthResp H pl p' seed) := by
  unfold genInitAuthResp
  refine PluginAlike.next ?_ H hH _
  unfold newAuthPlugin at hpl
  split at hpl
  · cases hpl; exact .native p p' h h'
  · split at hpl
    · cases hpl; exact .cachingSha2 p p' _ _ h h'
    · cases hpl

theorem lenEnc_writes (x : LenEncInt) (out out' : Bytes) (h : out.length = out'.length) :
    (x.writeTo out).1.length = (x.writeTo out').1.length := by
  cases x <;> simp [LenEncInt.writeTo, writeU8, writeLeU16, writeLeU24, writeLeU32, writeLeU64, h]

theorem response_lengths (r : HandshakeResponse41) (a : Bytes) (h : r.authResponse.length = a.length) :
    (r.writeTo []).1.length = (({ r with authResponse := a } : HandshakeResponse41).writeTo []).1.length := by
  unfold HandshakeResponse41.writeTo
  simp only [← h]
  split <;> split <;> split <;>
    simp only [writeBytes, writeU8, writeLeU32, List.length_append, List.length_cons, List.length_nil, ← h] <;>
    first
    | done
    | (refine lenEnc_writes _ _ _ ?_ ; simp only [writeBytes, writeU8, writeLeU32, List.length_append, List.length_cons, ← h])
    | (congr 1; refine lenEnc_writes _ _ _ ?_ ; simp only [writeBytes, writeU8, writeLeU32, List.length_append, List.length_cons, ← h])

theorem sendOpt_lengths (r r' : Bytes) (h : r.length = r'.length) (c : Conn) (o : Bytes) :
    SameOutcome ((if r.isEmpty then pure () else sendMsg r false : M Unit) c)
      ((if r'.isEmpty then pure () else sendMsg r' false : M Unit) { c with out := o }) := by
  cases r with
  | nil =>
    cases r' with
    | nil => exact .ok () c o
    | cons b t => cases h
  | cons b t =>
    cases r' with
    | nil => cases h
    | cons b' t' => exact sendMsg_lengths _ _ _ h c o

theorem handshakeLoop_alike (H : Hashes) (hH : H.Sized) (caps : Nat) (q q' : AuthPlugin) (hq : PluginAlike q q') (c : Conn)
    (o : Bytes) : SameOutcome (handshakeLoop H caps q c) (handshakeLoop H caps q' { c with out := o }) := by
  induction hn : c.inp.length using Nat.strong_induction_on generalizing c q q' o with
  | _ n ih =>
    have hr := Deaf.recvMsg c o
    rw [handshakeLoop, handshakeLoop]
    generalize recvMsg c = r1 at hr
    generalize recvMsg { c with out := o } = r1' at hr
    cases hr with
    | ok msg c1 o1 =>
      dsimp only
      have hp := Deaf.parse msg (HandshakeMessage.readFrom caps) c1 o1
      generalize M.parse msg (HandshakeMessage.readFrom caps) c1 = r2 at hp
      generalize M.parse msg (HandshakeMessage.readFrom caps) { c1 with out := o1 } = r2' at hp
      cases hp with
      | ok m c2 o2 =>
        cases m with
        | ok p => exact .ok () { c2 with status := p.statusFlags, pktNr := 0 } o2
        | err p => exact .err _ _ _
        | switch s => exact .panic
        | moreData m =>
          dsimp only
          have hx := hq.next H hH m.pluginData
          generalize q.next H m.pluginData = x at hx
          generalize q'.next H m.pluginData = x' at hx
          cases hx with
          | error e => exact .err _ _ _
          | ok r r' p p' hl hpp =>
            dsimp only
            have hs := sendOpt_lengths r r' hl c2 o2
            generalize (if r.isEmpty then pure () else sendMsg r false : M Unit) c2 = r3 at hs
            generalize (if r'.isEmpty then pure () else sendMsg r' false : M Unit) { c2 with out := o2 } = r3' at hs
            cases hs with
            | ok _ c3 o3 =>
              show SameOutcome (if c3.inp.length < c.inp.length then _ else _) (if c3.inp.length < c.inp.length then _ else _)
              split
              · exact ih _ (by omega) p p' hpp c3 o3 rfl
              · exact .hang
            | err e c3 o3 => exact .err _ _ _
            | panic => exact .panic
            | hang => exact .hang
      | err e c2 o2 => exact .err _ _ _
      | panic => exact .panic
      | hang => exact .hang
    | err e c1 o1 => exact .err _ _ _
    | panic => exact .panic
    | hang => exact .hang

theorem changeUserLoop_alike (H : Hashes) (hH : H.Sized) (p p' : Bytes) (hp : p ≠ []) (hp' : p' ≠ []) (q q' : Option AuthPlugin)
    (hq : (q = none ∧ q' = none) ∨ ∃ a a', q = some a ∧ q' = some a' ∧ PluginAlike a a') (c : Conn) (o : Bytes) :
    SameOutcome (changeUserLoop H p q c) (changeUserLoop H p' q' { c with out := o }) := by
  induction hn : c.inp.length using Nat.strong_induction_on generalizing c q q' o with
  | _ n ih =>
    have hr := Deaf.recvMsg c o
    rw [changeUserLoop, changeUserLoop]
    generalize recvMsg c = r1 at hr
    generalize recvMsg { c with out := o } = r1' at hr
    cases hr with
    | ok msg c1 o1 =>
      dsimp only
      have hm := Deaf.parse msg (ComChangeUserResponse.readFrom c1.caps) c1 o1
      generalize M.parse msg (ComChangeUserResponse.readFrom c1.caps) c1 = r2 at hm
      generalize M.parse msg (ComChangeUserResponse.readFrom c1.caps) { c1 with out := o1 } = r2' at hm
      cases hm with
      | ok m c2 o2 =>
        have go : ∀ (x x' : Except Err (Bytes × AuthPlugin)), ResponseAlike x x' →
            SameOutcome (match x with
              | .error e => .err e c2
              | .ok (resp, pl') =>
                match sendMsg resp false c2 with
                | .ok _ c3 => if c3.inp.length < c.inp.length then changeUserLoop H p (some pl') c3 else .hang
                | .err e c3 => .err e c3
                | .panic => .panic
                | .hang => .hang)
              (match x' with
              | .error e => .err e { c2 with out := o2 }
              | .ok (resp, pl') =>
                match sendMsg resp false { c2 with out := o2 } with
                | .ok _ c3 => if c3.inp.length < c.inp.length then changeUserLoop H p' (some pl') c3 else .hang
                | .err e c3 => .err e c3
                | .panic => .panic
                | .hang => .hang) := by
          intro x x' hx
          cases hx with
          | error e => exact .err _ _ _
          | ok r r' a a' hl ha =>
            dsimp only
            have hs := sendMsg_lengths r r' false hl c2 o2
            generalize sendMsg r false c2 = r3 at hs
            generalize sendMsg r' false { c2 with out := o2 } = r3' at hs
            cases hs with
            | ok _ c3 o3 =>
              show SameOutcome (if c3.inp.length < c.inp.length then _ else _) (if c3.inp.length < c.inp.length then _ else _)
              split
              · exact ih _ (by omega) (some a) (some a') (Or.inr ⟨a, a', rfl, rfl, ha⟩) c3 o3 rfl
              · exact .hang
            | err e c3 o3 => exact .err _ _ _
            | panic => exact .panic
            | hang => exact .hang
        cases m with
        | ok p => exact .ok () c2 o2
        | err p => exact .err _ _ _
        | switch s =>
          dsimp only
          cases hpl : newAuthPlugin s.pluginName with
          | error e => exact .err _ _ _
          | ok pl => exact go _ _ (genInitAuthResp_alike H hH _ p p' _ hp hp' pl hpl)
        | moreData m =>
          rcases hq with ⟨rfl, rfl⟩ | ⟨a, a', rfl, rfl, ha⟩
          · exact .panic
          · exact go _ _ (ha.next H hH m.pluginData)
      | err e c2 o2 => exact .err _ _ _
      | panic => exact .panic
      | hang => exact .hang
    | err e c1 o1 => exact .err _ _ _
    | panic => exact .panic
    | hang => exact .hang

theorem handshake_alike (H : Hashes) (hH : H.Sized) (user db p p' : Bytes) (hp : p ≠ []) (hp' : p' ≠ []) (c : Conn) (o : Bytes) :
    SameOutcome (handshake H ⟨user, p, db⟩ c) (handshake H ⟨user, p', db⟩ { c with out := o }) := by
  unfold handshake
  refine SameOutcome.bind (Deaf.recvMsg c o) fun msg c o _ => ?_
  refine SameOutcome.bind (Deaf.parse msg _ c o) fun hs c o _ => ?_
  refine SameOutcome.bind (Deaf.insertCap _ c o) fun _ c o _ => ?_
  refine SameOutcome.bind (Deaf.insertCap _ c o) fun _ c o _ => ?_
  refine SameOutcome.bind (Deaf.insertCap _ c o) fun _ c o _ => ?_
  refine SameOutcome.bind (Deaf.insertCap _ c o) fun _ c o _ => ?_
  refine SameOutcome.bind (Deaf.insertCap _ c o) fun _ c o _ => ?_
  refine SameOutcome.bind (Deaf.insertCap _ c o) fun _ c o _ => ?_
  refine SameOutcome.bind (Deaf.insertCap _ c o) fun _ c o _ => ?_
  refine SameOutcome.bind (Deaf.insertCap _ c o) fun _ c o _ => ?_
  refine SameOutcome.bind (Deaf.removeCap _ c o) fun _ c o _ => ?_
  cases hpl : newAuthPlugin hs.authPluginName with
  | error e => exact .err _ _ _
  | ok pl =>
    refine SameOutcome.bind (Deaf.ofExcept _ c o) fun pl' c o h => ?_
    cases h
    have hx := genInitAuthResp_alike H hH _ p p' (hs.authPluginData1 ++ hs.authPluginData2) hp hp' pl hpl
    show SameOutcome ((M.ofExcept (genInitAuthResp H pl p (hs.authPluginData1 ++ hs.authPluginData2)) c).bind _)
      ((M.ofExcept (genInitAuthResp H pl p' (hs.authPluginData1 ++ hs.authPluginData2)) { c with out := o }).bind _)
    generalize genInitAuthResp H pl p (hs.authPluginData1 ++ hs.authPluginData2) = x at hx
    generalize genInitAuthResp H pl p' (hs.authPluginData1 ++ hs.authPluginData2) = x' at hx
    cases hx with
    | error e => exact .err _ _ _
    | ok r r' q q' hl hq =>
      have hd : Deaf (if db.isEmpty then pure () else insertCap Cap.CONNECT_WITH_DB : M Unit) := by
        split
        · exact Deaf.pure _
        · exact Deaf.insertCap _
      show SameOutcome (((if db.isEmpty then pure () else insertCap Cap.CONNECT_WITH_DB : M Unit) c).bind (fun _ => getCaps >>= fun caps =>
          sendMsg (({ capabilityFlags := caps, username := user, authResponse := r, database := db, authPluginName := hs.authPluginName } :
            HandshakeResponse41).writeTo []).1 false >>= fun _ => handshakeLoop H caps q))
        (((if db.isEmpty then pure () else insertCap Cap.CONNECT_WITH_DB : M Unit) { c with out := o }).bind (fun _ => getCaps >>= fun caps =>
          sendMsg (({ capabilityFlags := caps, username := user, authResponse := r', database := db, authPluginName := hs.authPluginName } :
            HandshakeResponse41).writeTo []).1 false >>= fun _ => handshakeLoop H caps q'))
      refine SameOutcome.bind (hd c o) fun _ c o _ => ?_
      refine SameOutcome.bind (Deaf.getCaps c o) fun caps c o _ => ?_
      refine SameOutcome.bind (sendMsg_lengths _ _ false ?_ c o) fun _ c o _ => handshakeLoop_alike H hH caps q q' hq c o
      exact response_lengths ⟨caps, _, _, user, r, db, hs.authPluginName, _⟩ r' hl

/-! ### the theorems about the API -/

/-- C134: for every two passwords, every server and whatever an application does after logging in: everything but the bytes
sent is the same -/
theorem C134_login {α : Type} (H : Hashes) (hH : H.Sized) (user db p p' : Bytes) (hp : p ≠ []) (hp' : p' ≠ []) (run : M α)
    (hrun : Spec.Application run) (c : Conn) :
    Spec.SameOutcome ((handshake H ⟨user, p, db⟩ >>= fun _ => run) c) ((handshake H ⟨user, p', db⟩ >>= fun _ => run) c) :=
  SameOutcome.bind (handshake_alike H hH user db p p' hp hp' c c.out) fun _ c' o' _ => Deaf.application hrun c' o'

/-- C134: the same when the user is changed -/
theorem C134_change_user {α : Type} (H : Hashes) (hH : H.Sized) (user db p p' : Bytes) (attrs : List ConnectAttr) (hp : p ≠ [])
    (hp' : p' ≠ []) (run : M α) (hrun : Spec.Application run) (c : Conn) :
    Spec.SameOutcome ((changeUser H user p db attrs >>= fun _ => run) c) ((changeUser H user p' db attrs >>= fun _ => run) c) := by
  refine SameOutcome.bind (?_ : SameOutcome (changeUser H user p db attrs c) (changeUser H user p' db attrs { c with out := c.out }))
    fun _ c' o' _ => Deaf.application hrun c' o'
  unfold changeUser
  refine SameOutcome.bind (Deaf.getCaps c c.out) fun caps c o _ => ?_
  refine SameOutcome.bind (Deaf.sendMsg _ _ c o) fun _ c o _ => ?_
  exact changeUserLoop_alike H hH p p' hp hp' none none (Or.inl ⟨rfl, rfl⟩) c o

/-! ### the programs -/

/-- other bytes sent on the helper connection -/
def otherHelper (o : Bytes) (st : DmlState) : DmlState := { st with helper := { st.helper with out := o } }

/-- the next step, with other bytes sent on the helper connection -/
inductive NextAlike : DmlNext → DmlNext → Prop
  | go (st : DmlState) (o : Bytes) : NextAlike (.go st) (.go (otherHelper o st))
  | stop : NextAlike .stop .stop
  | err (e : Err) : NextAlike (.err e) (.err e)
  | panic : NextAlike .panic .panic
  | hang : NextAlike .hang .hang

theorem onTableMap_alike (ob : Bytes) (o : DmlOpts) (st : DmlState) (data : Bytes) :
    NextAlike (onTableMap o st data) (onTableMap o (otherHelper ob st) data) := by
  unfold onTableMap
  cases TableMapData.readFrom data with
  | ok d r =>
    dsimp only
    show NextAlike (if (st.tbls.lookup d.tableId).isSome ∨ d.tableId ∈ st.skip then _ else _)
      (if (st.tbls.lookup d.tableId).isSome ∨ d.tableId ∈ st.skip then _ else _)
    split
    · exact .go _ _
    · cases TableMapData.tableMap d.payload with
      | ok tm r =>
        dsimp only
        split
        · exact .go { st with skip := _ } _
        · split
          · exact .go { st with skip := _ } _
          · have h : Deaf (fetchColumns tm.schemaName tm.tableName) := (Deaf.okCommand _).bind fun _ => Deaf.fieldList _ _
            have h := h st.helper ob
            change SameOutcome _ (fetchColumns tm.schemaName tm.tableName (otherHelper ob st).helper) at h
            generalize fetchColumns tm.schemaName tm.tableName st.helper = r at h
            generalize fetchColumns tm.schemaName tm.tableName (otherHelper ob st).helper = r' at h
            cases h with
            | ok defs c o => exact .go { st with tbls := _, helper := c } o
            | err e c o => exact .err _
            | panic => exact .panic
            | hang => exact .hang
      | err e r => exact .err _
      | panic => exact .panic
      | hang => exact .hang
  | err e r => exact .err _
  | panic => exact .panic
  | hang => exact .hang

theorem onRows_otherHelper (ob : Bytes) (limit : Nat) (lines : TableMeta → RowsDataV2 → R (List DmlLine)) (st : DmlState) (data : Bytes) :
    (onRows limit lines (otherHelper ob st) data).1 = (onRows limit lines st data).1 ∧
      NextAlike (onRows limit lines st data).2 (onRows limit lines (otherHelper ob st) data).2 := by
  unfold onRows
  cases RowsDataV2.readFrom data with
  | ok d r =>
    dsimp only
    by_cases hk : d.tableId ∈ st.skip
    · rw [if_pos hk, if_pos (show d.tableId ∈ (otherHelper ob st).skip from hk)]
      exact ⟨rfl, .go _ _⟩
    · rw [if_neg hk, if_neg (show ¬ d.tableId ∈ (otherHelper ob st).skip from hk),
        show (otherHelper ob st).tbls = st.tbls from rfl, show (otherHelper ob st).nRows = st.nRows from rfl]
      cases st.tbls.lookup d.tableId with
      | none => exact ⟨rfl, .go _ _⟩
      | some tm =>
        dsimp only
        cases lines tm d with
        | ok ls r =>
          dsimp only
          rcases printLines limit st.nRows ls with ⟨out, _ | n⟩
          · exact ⟨rfl, .stop⟩
          · exact ⟨rfl, .go { st with nRows := _ } _⟩
        | err e r => exact ⟨rfl, .err _⟩
        | panic => exact ⟨rfl, .panic⟩
        | hang => exact ⟨rfl, .hang⟩
  | err e r => exact ⟨rfl, .err _⟩
  | panic => exact ⟨rfl, .panic⟩
  | hang => exact ⟨rfl, .hang⟩

theorem onEvent_alike (ob : Bytes) (ft : FloatText) (o : DmlOpts) (st : DmlState) (ev : Event) :
    (onEvent ft o (otherHelper ob st) ev).1 = (onEvent ft o st ev).1 ∧
      NextAlike (onEvent ft o st ev).2 (onEvent ft o (otherHelper ob st) ev).2 := by
  unfold onEvent
  split
  · exact ⟨rfl, onTableMap_alike ob o st ev.data⟩
  · exact onRows_otherHelper ob _ _ st _
  · exact onRows_otherHelper ob _ _ st _
  · exact onRows_otherHelper ob _ _ st _
  · split
    · exact ⟨rfl, .go { st with tbls := [], skip := [] } _⟩
    · exact ⟨rfl, .stop⟩
  · exact ⟨rfl, .go _ _⟩

theorem dmlLoop_alike (ft : FloatText) (o : DmlOpts) (s : BinlogStream) (st : DmlState) (c : Conn) (o1 o2 : Bytes) :
    dmlLoop ft o s (otherHelper o2 st) { c with out := o1 } = dmlLoop ft o s st c := by
  induction hn : c.inp.length using Nat.strong_induction_on generalizing c s st o1 o2 with
  | _ n ih =>
    have hi := Deaf.nextEvent s c o1
    rw [dmlLoop.eq_def ft o s st c, dmlLoop.eq_def ft o s (otherHelper o2 st)]
    generalize s.nextEvent c = r at hi
    generalize s.nextEvent { c with out := o1 } = r' at hi
    cases hi with
    | ok v c' o1' =>
      obtain ⟨_ | ev, s'⟩ := v
      · rfl
      · dsimp only
        obtain ⟨ho, hnx⟩ := onEvent_alike o2 ft o st ev
        generalize onEvent ft o st ev = x at ho hnx
        generalize onEvent ft o (otherHelper o2 st) ev = x' at ho hnx
        obtain ⟨out, nx⟩ := x
        obtain ⟨out', nx'⟩ := x'
        dsimp only at ho hnx
        subst ho
        cases hnx with
        | go st' o2' =>
          dsimp only
          split
          · rw [ih _ (by omega) s' st' c' o1' o2' rfl]
          · rfl
        | stop => rfl
        | err e => rfl
        | panic => rfl
        | hang => rfl
    | err e c' o => rfl
    | panic => rfl
    | hang => rfl

theorem printDmls_alike (ft : FloatText) (o : DmlOpts) (uuid : Bytes) (random : Nat) (c h : Conn) (o1 o2 : Bytes) :
    printDmls ft o uuid random { c with out := o1 } { h with out := o2 } = printDmls ft o uuid random c h := by
  have hi := Deaf.requestStream o.request uuid random c o1
  unfold printDmls
  generalize o.request.requestStream uuid random c = r at hi
  generalize o.request.requestStream uuid random { c with out := o1 } = r' at hi
  cases hi with
  | ok s c' o' => exact dmlLoop_alike ft o s ⟨[], [], 0, h⟩ c' o' o2
  | err e c' o' => rfl
  | panic => rfl
  | hang => rfl

theorem msgLoop_alike (s : BinlogStream) (c : Conn) (o : Bytes) :
    (msgLoop s { c with out := o }).1 = (msgLoop s c).1 ∧ (msgLoop s { c with out := o }).2.1 = (msgLoop s c).2.1 := by
  induction hn : c.inp.length using Nat.strong_induction_on generalizing c s o with
  | _ n ih =>
    have hi := Deaf.nextEvent s c o
    rw [msgLoop.eq_def s c, msgLoop.eq_def s { c with out := o }]
    generalize s.nextEvent c = r at hi
    generalize s.nextEvent { c with out := o } = r' at hi
    cases hi with
    | ok v c' o' =>
      obtain ⟨_ | ev, s'⟩ := v
      · exact ⟨rfl, rfl⟩
      · dsimp only
        split
        · obtain ⟨i1, i2⟩ := ih _ (by omega) s' c' o' rfl
          exact ⟨congrArg (MsgLine.event ev :: ·) i1, i2⟩
        · exact ⟨rfl, rfl⟩
    | err e c' o => exact ⟨rfl, rfl⟩
    | panic => exact ⟨rfl, rfl⟩
    | hang => exact ⟨rfl, rfl⟩

theorem connect_alike (w : World) (hH : w.hashes.Sized) (n : Nat) (host port user p p' : Bytes) (hp : p ≠ []) (hp' : p' ≠ []) :
    SameOutcome (connect w n host port user p) (connect w n host port user p') := by
  unfold connect
  cases w.stream n (address host port) with
  | none => exact .err _ _ _
  | some inp => exact handshake_alike w.hashes hH user [] p p' hp hp' { inp := inp } []

/-- C134: `mybinlog` prints the same lines and ends the same way with every password -/
theorem C134_mybinlog (w : World) (hH : w.hashes.Sized) (o : ProgOpts) (p p' : Bytes) (hp : p ≠ []) (hp' : p' ≠ []) :
    (mybinlog w { o with password := p }).lines = (mybinlog w { o with password := p' }).lines ∧
      (mybinlog w { o with password := p }).theEnd = (mybinlog w { o with password := p' }).theEnd := by
  unfold mybinlog
  dsimp only
  have h0 := connect_alike w hH 0 o.host o.port o.username p p' hp hp'
  have h1 := connect_alike w hH 1 o.host o.port o.username p p' hp hp'
  generalize connect w 0 o.host o.port o.username p = r0 at h0
  generalize connect w 0 o.host o.port o.username p' = r0' at h0
  generalize connect w 1 o.host o.port o.username p = r1 at h1
  generalize connect w 1 o.host o.port o.username p' = r1' at h1
  cases h0 with
  | ok _ conn o0 =>
    dsimp only
    cases o.cmd with
    | list =>
      dsimp only
      have hb := Deaf.binlogFiles conn o0
      generalize Cmd.binlogFiles conn = b at hb
      generalize Cmd.binlogFiles { conn with out := o0 } = b' at hb
      cases hb <;> exact ⟨rfl, rfl⟩
    | dml filename untilNow df tf block limit =>
      dsimp only
      cases h1 with
      | ok _ helper o1 =>
        dsimp only
        cases compileFilter w df with
        | none => exact ⟨rfl, rfl⟩
        | some df =>
          dsimp only
          cases compileFilter w tf with
          | none => exact ⟨rfl, rfl⟩
          | some tf =>
            dsimp only
            have hd := printDmls_alike w.ft ⟨filename, untilNow, df, tf, !block, limit⟩ w.uuid w.random conn helper o0 o1
            exact ⟨congrArg (fun r => r.1.map ProgLine.dml) hd.symm, congrArg Prod.snd hd.symm⟩
      | err e c o => exact ⟨rfl, rfl⟩
      | panic => exact ⟨rfl, rfl⟩
      | hang => exact ⟨rfl, rfl⟩
  | err e c o => exact ⟨rfl, rfl⟩
  | panic => exact ⟨rfl, rfl⟩
  | hang => exact ⟨rfl, rfl⟩

/-- C134: `mybinmsg` logs the same lines and ends the same way with every password -/
theorem C134_mybinmsg (w : World) (hH : w.hashes.Sized) (host port user p p' : Bytes) (hp : p ≠ []) (hp' : p' ≠ []) :
    (mybinmsg w (.tcp host port user p)).lines = (mybinmsg w (.tcp host port user p')).lines ∧
      (mybinmsg w (.tcp host port user p)).theEnd = (mybinmsg w (.tcp host port user p')).theEnd := by
  unfold mybinmsg
  dsimp only
  have h0 := connect_alike w hH 0 host port user p p' hp hp'
  generalize connect w 0 host port user p = r0 at h0
  generalize connect w 0 host port user p' = r0' at h0
  cases h0 with
  | ok _ conn o0 =>
    dsimp only
    have hb := Deaf.binlogFiles conn o0
    generalize Cmd.binlogFiles conn = b at hb
    generalize Cmd.binlogFiles { conn with out := o0 } = b' at hb
    cases hb with
    | ok files c o =>
      dsimp only
      have hq := Deaf.requestStream defaultRequest w.uuid w.random c o
      generalize defaultRequest.requestStream w.uuid w.random c = q at hq
      generalize defaultRequest.requestStream w.uuid w.random { c with out := o } = q' at hq
      cases hq with
      | ok s c o =>
        obtain ⟨i1, i2⟩ := msgLoop_alike s c o
        exact ⟨congrArg (files.map MsgLine.file ++ ·) i1.symm, i2.symm⟩
      | err e c o => exact ⟨rfl, rfl⟩
      | panic => exact ⟨rfl, rfl⟩
      | hang => exact ⟨rfl, rfl⟩
    | err e c o => exact ⟨rfl, rfl⟩
    | panic => exact ⟨rfl, rfl⟩
    | hang => exact ⟨rfl, rfl⟩
  | err e c o => exact ⟨rfl, rfl⟩
  | panic => exact ⟨rfl, rfl⟩
  | hang => exact ⟨rfl, rfl⟩

/-- the hypotheses can be met by a login that works: a server that lets everybody in, and a question after the login -/
example : ∃ (c c1 c2 : Conn), Spec.Application Cmd.statistics ∧ realHashes.Sized ∧
    handshake realHashes ⟨Spec.ascii "root", Spec.ascii "pw", []⟩ c = .ok () c1 ∧
    handshake realHashes ⟨Spec.ascii "root", Spec.ascii "another", []⟩ c = .ok () c2 ∧ c1.out ≠ c.out := by
  obtain ⟨mid, hd⟩ := delivers_small [Spec.okPacket (Spec.clientCaps []) 0 ⟨0, 0, 2, 0, [], []⟩] []
    (by intro m hm; simp only [List.mem_singleton] at hm; subst hm; decide +kernel)
  obtain ⟨c', ps, resp, h1, -, h2, h3, -⟩ := C56_native realHashes realHashes_sized
    ⟨Spec.ascii "root", Spec.ascii "pw", []⟩ exampleGreeting exampleGreeting_inRange
    (by decide +kernel) (by decide +kernel) (by decide +kernel) (by decide +kernel) ((List.range' 1 20).map UInt8.ofNat)
    (by decide +kernel) (by decide +kernel) (by decide +kernel) (by decide +kernel) ⟨0, 0, 2, 0, [], []⟩
    (by constructor <;> norm_num) { inp := Spec.wire [⟨0, Spec.handshakeV10 exampleGreeting⟩] ++ mid } rfl mid []
    (by decide +kernel) rfl hd
  have h := handshake_alike realHashes realHashes_sized (Spec.ascii "root") [] (Spec.ascii "pw") (Spec.ascii "another")
    (by decide +kernel) (by decide +kernel) { inp := Spec.wire [⟨0, Spec.handshakeV10 exampleGreeting⟩] ++ mid } []
  rw [h1] at h
  generalize hr : handshake realHashes ⟨Spec.ascii "root", Spec.ascii "another", []⟩ _ = r at h
  cases h with
  | ok _ _ o =>
    refine ⟨_, c', _, .statistics, realHashes_sized, h1, hr, ?_⟩
    rw [h2]
    intro e
    have := congrArg List.length e
    rw [List.length_append] at this
    have := wire_pos h3
    omega

end Mybin
