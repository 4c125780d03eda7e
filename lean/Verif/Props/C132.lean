/-
C132: every operation, and every application made of them, takes whole messages from the front of what the server sends.
-/
import Verif.Props.C93
import Verif.Props.C70_C73

namespace Mybin

/-! ### specification -/

/-- where a run leaves the stream: it took whole messages, none of them partly and nothing in between, unless it ended
because the stream did -/
structure Spec.ReadsWhole {α : Type} (run : M α) : Prop where
  /-- a value is returned -/
  value : ∀ c v c', run c = .ok v c' → ∃ msgs, Spec.Delivers c.inp msgs c'.inp
  /-- an error is returned: the same, or the stream came to its end and nothing is left of it -/
  error : ∀ c e c', run c = .err e c' → (∃ msgs, Spec.Delivers c.inp msgs c'.inp) ∨ e = .io ∧ c'.inp = []

/-! ### the steps -/

/-- the same for a single outcome -/
def Took {α : Type} (inp : Bytes) : MR α → Prop
  | .ok _ c' => ∃ msgs, Spec.Delivers inp msgs c'.inp
  | .err e c' => (∃ msgs, Spec.Delivers inp msgs c'.inp) ∨ e = .io ∧ c'.inp = []
  | .panic => True
  | .hang => True

def Takes {α : Type} (run : M α) : Prop := ∀ c, Took c.inp (run c)

theorem delivers_none (inp : Bytes) : ∃ msgs, Spec.Delivers inp msgs inp := ⟨[], Delivers.nil_iff.2 rfl⟩

theorem Took.after {α : Type} {inp mid : Bytes} {ms : List Bytes} {r : MR α} (h : Spec.Delivers inp ms mid) (hr : Took mid r) :
    Took inp r := by
  cases r with
  | ok v c =>
    obtain ⟨ns, h2⟩ := hr
    exact ⟨_, Delivers.join h h2⟩
  | err e c =>
    rcases hr with ⟨ns, h2⟩ | h2
    · exact Or.inl ⟨_, Delivers.join h h2⟩
    · exact Or.inr h2
  | panic => trivial
  | hang => trivial

theorem Took.bind {α β : Type} {inp : Bytes} {r : MR α} {f : α → M β} (h : Took inp r) (hf : ∀ a c, r = .ok a c → Took c.inp (f a c)) :
    Took inp (r.bind f) := by
  cases r with
  | ok a c =>
    obtain ⟨ms, h1⟩ := h
    exact (hf a c rfl).after h1
  | err e c => exact h
  | panic => trivial
  | hang => trivial

theorem Takes.bind {α β : Type} {x : M α} {f : α → M β} (hx : Takes x) (hf : ∀ a, Takes (f a)) : Takes (x >>= f) :=
  fun c => (hx c).bind fun a c' _ => hf a c'

theorem Takes.pure {α : Type} (a : α) : Takes (Pure.pure a : M α) := fun c => delivers_none c.inp
theorem Takes.fail {α : Type} (e : Err) : Takes (M.fail e : M α) := fun c => Or.inl (delivers_none c.inp)
theorem Takes.mpanic {α : Type} : Takes (M.panic : M α) := fun _ => trivial
theorem Takes.getCaps : Takes getCaps := fun c => delivers_none c.inp
theorem Takes.insertCap (f : Nat) : Takes (insertCap f) := fun c => delivers_none c.inp
theorem Takes.removeCap (f : Nat) : Takes (removeCap f) := fun c => delivers_none c.inp

theorem Takes.parse {α : Type} (msg : Bytes) (p : P α) : Takes (M.parse msg p) := by
  intro c
  unfold M.parse
  cases p msg with
  | ok a r => exact delivers_none c.inp
  | err e r => exact Or.inl (delivers_none c.inp)
  | panic => trivial
  | hang => trivial

theorem Takes.ofExcept {α : Type} (r : Except Err α) : Takes (M.ofExcept r) := by
  intro c
  unfold M.ofExcept
  cases r with
  | ok a => exact delivers_none c.inp
  | error e => exact Or.inl (delivers_none c.inp)

theorem Takes.ofRes {α : Type} (r : Res α) : Takes (Cmd.M.ofRes r) := by
  intro c
  unfold Cmd.M.ofRes
  cases r with
  | ok a => exact delivers_none c.inp
  | err e => exact Or.inl (delivers_none c.inp)
  | panic => trivial

theorem Takes.someOr {α : Type} (e : Err) (o : Option α) : Takes (M.someOr e o) := by
  cases o with
  | none => exact Takes.fail e
  | some a => exact Takes.pure a

theorem Takes.readColCnt (msg : Bytes) : Takes (readColCnt msg) := by
  intro c
  unfold Mybin.readColCnt
  cases readLenEncInt msg with
  | ok lei rest =>
    dsimp only
    cases lei.toU32 with
    | some n => exact delivers_none c.inp
    | none =>
      dsimp only
      cases rest.isEmpty
      · exact Or.inl (delivers_none c.inp)
      · trivial
  | err e r => exact Or.inl (delivers_none c.inp)
  | panic => trivial
  | hang => trivial

theorem Takes.readTerminator (caps : Nat) (msg : Bytes) : Takes (readTerminator caps msg) := by
  intro c
  unfold Mybin.readTerminator
  cases hasFlag caps Cap.DEPRECATE_EOF
  · cases EofPacket.readFrom caps msg <;>
      first | trivial | exact delivers_none c.inp | exact Or.inl (delivers_none c.inp)
  · cases OkPacket.readFrom caps msg <;>
      first | trivial | exact delivers_none c.inp | exact Or.inl (delivers_none c.inp)

theorem Takes.recvMsg : Takes recvMsg := by
  intro c
  unfold Mybin.recvMsg
  cases h : recvLoop [] c.inp c.pktNr with
  | ok v =>
    obtain ⟨msg, rest, nr⟩ := v
    obtain ⟨ps, h1, h2, -⟩ := recvLoop_sound _ _ _ _ _ _ h
    exact ⟨_, [ps], by simpa using h1, rfl, by simpa using h2⟩
  | error nr => exact Or.inr ⟨rfl, rfl⟩

theorem sendLoop_inp (bs : Bytes) (c c' : Conn) (h : Ends (sendLoop bs c) c') : c'.inp = c.inp := by
  induction hn : bs.length using Nat.strong_induction_on generalizing bs c with
  | _ n ih =>
    have hp : ∀ p (c c' : Conn), Ends (sendPacket p c) c' → c'.inp = c.inp := by
      intro p c c' h
      unfold sendPacket at h
      dsimp only at h
      split at h
      · rw [Ends.ok h]
      · exact (Ends.panic h).elim
    by_cases hge : bs.length ≥ maxPacket
    · have hl : sendLoop bs = (sendPacket (bs.take maxPacket) >>= fun _ => sendLoop (bs.drop maxPacket)) := by
        rw [sendLoop, dif_pos hge]
      rw [hl] at h
      have hd : (bs.drop maxPacket).length < n := by
        rw [List.length_drop]; unfold maxPacket at hge ⊢; omega
      rcases Ends.bind h with ⟨a, c1, h1, h2⟩ | ⟨e, h1⟩
      · rw [ih _ hd _ _ h2 rfl, hp _ _ _ (Or.inl ⟨a, h1⟩)]
      · exact hp _ _ _ (Or.inr ⟨e, h1⟩)
    · have hl : sendLoop bs = sendPacket bs := by rw [sendLoop, dif_neg hge]
      rw [hl] at h
      exact hp _ _ _ h

theorem Takes.sendMsg (bs : Bytes) (reset : Bool) : Takes (sendMsg bs reset) := by
  intro c
  have key : ∀ c0 : Conn, c0.inp = c.inp → Took c.inp (sendLoop bs c0) := by
    intro c0 h0
    have := sendLoop_inp bs c0
    cases hr : sendLoop bs c0 with
    | ok v c' =>
      have := this c' (Or.inl ⟨v, hr⟩)
      exact ⟨[], Delivers.nil_iff.2 (by rw [this, h0])⟩
    | err e c' => exact absurd hr (sendLoop_no_err _ _ _ _)
    | panic => trivial
    | hang => trivial
  unfold Mybin.sendMsg
  cases reset
  · exact key c rfl
  · exact key { c with pktNr := 0 } rfl

theorem Takes.loggedIn (st : Nat) : Takes (fun c => .ok none { c with status := st, pktNr := 0 } : M (Option AuthPlugin)) :=
  fun c => delivers_none c.inp

/-- a loop, as in `Inc.loop` -/
theorem Takes.loop {σ α β : Type} (loop : σ → M β) (round : σ → M α) (next : σ → α → σ ⊕ M β)
    (he : ∀ s c, loop s c = (round s c).bind fun a c' =>
      match next s a with
      | .inl s' => if c'.inp.length < c.inp.length then loop s' c' else .hang
      | .inr m => m c')
    (hr : ∀ s, Takes (round s)) (hn : ∀ s a m, next s a = .inr m → Takes m) (s : σ) : Takes (loop s) := by
  intro c
  induction hl : c.inp.length using Nat.strong_induction_on generalizing c s with
  | _ n ih =>
    rw [he]
    refine (hr s c).bind fun a c1 h1 => ?_
    cases hx : next s a with
    | inl s' =>
      show Took c1.inp (if c1.inp.length < c.inp.length then loop s' c1 else .hang)
      split
      · exact ih _ (by omega) s' c1 rfl
      · trivial
    | inr m => exact hn s a m hx c1

/-! ### the operations -/

theorem Takes.failWithErrPacket {α : Type} (msg : Bytes) : Takes (failWithErrPacket msg : M α) := by
  unfold Mybin.failWithErrPacket
  exact Takes.getCaps.bind fun caps => (Takes.parse _ _).bind fun p => Takes.fail _

theorem Takes.recvColDefs (n : Nat) : Takes (recvColDefs n) := by
  induction n with
  | zero => exact Takes.pure _
  | succ n ih =>
    unfold Mybin.recvColDefs
    exact Takes.recvMsg.bind fun _ => (Takes.parse _ _).bind fun _ => ih.bind fun _ => Takes.pure _

theorem Takes.recvDefsEof : Takes recvDefsEof := by
  unfold Mybin.recvDefsEof
  refine Takes.getCaps.bind fun caps => ?_
  split
  · exact Takes.recvMsg.bind fun _ => (Takes.parse _ _).bind fun _ => Takes.pure _
  · exact Takes.pure _

theorem Takes.recvDefs (n : Nat) : Takes (recvDefs n) := by
  unfold Mybin.recvDefs
  split
  · exact Takes.pure _
  · exact (Takes.recvColDefs n).bind fun _ => Takes.recvDefsEof.bind fun _ => Takes.pure _

theorem Takes.parseColCnt (msg : Bytes) : Takes (parseColCnt msg) := by
  unfold Mybin.parseColCnt
  split
  · exact Takes.mpanic
  · refine Takes.getCaps.bind fun caps => ?_
    split
    · exact Takes.failWithErrPacket _
    · split
      · exact (Takes.parse _ _).bind fun _ => Takes.pure _
      · exact Takes.readColCnt _

theorem Takes.newResultSet (id : Option Nat) : Takes (newResultSet id) := by
  unfold Mybin.newResultSet
  refine Takes.recvMsg.bind fun msg => (Takes.parseColCnt _).bind fun n => ?_
  split
  · exact Takes.pure _
  · exact (Takes.recvColDefs n).bind fun _ => Takes.recvDefsEof.bind fun _ => Takes.pure _

theorem Takes.nextRow {ρ : Type} (read : P ρ) (rs : ResultSet) : Takes (rs.nextRow read) := by
  unfold ResultSet.nextRow
  split
  · exact Takes.pure _
  · refine Takes.recvMsg.bind fun msg => Takes.getCaps.bind fun caps => ?_
    split
    · exact Takes.fail _
    · split
      · exact (Takes.readTerminator _ _).bind fun _ => Takes.pure _
      · exact (Takes.parse _ _).bind fun _ => Takes.pure _

/-- the test every loop makes is not changed by more bytes -/
theorem Takes.foldRows {ρ σ : Type} (read : P ρ) (f : σ → ρ → σ) (s : σ) (rs : ResultSet) : Takes (rs.foldRows read f s) := by
  refine Takes.loop (σ := σ × ResultSet) (fun x => x.2.foldRows read f x.1) (fun x => x.2.nextRow read)
    (fun x a => match a with | (some r, rs') => .inl (f x.1 r, rs') | (none, _) => .inr (Pure.pure x.1)) ?_
    (fun x => Takes.nextRow read x.2) ?_ (s, rs)
  · rintro ⟨s, rs⟩ c
    show ResultSet.foldRows read f s rs c = _
    rw [ResultSet.foldRows]
    cases rs.nextRow read c with
    | ok a c' => obtain ⟨_ | r, rs'⟩ := a <;> rfl
    | err e c' => rfl
    | panic => rfl
    | hang => rfl
  · rintro ⟨s, rs⟩ ⟨_ | r, rs'⟩ m h
    · cases h; exact Takes.pure _
    · cases h

theorem Takes.filesLoop (rs : ResultSet) (fs : List Cmd.BinlogFile) : Takes (Cmd.filesLoop rs fs) := by
  refine Takes.loop (σ := List Cmd.BinlogFile × ResultSet) (fun x => Cmd.filesLoop x.2 x.1)
    (fun x => x.2.nextRow (mapRow x.2.textRow Cmd.binlogFileMapper))
    (fun x a => match a with
      | (some (.ok f), rs') => .inl (x.1 ++ [f], rs')
      | (some (.err e), _) => .inr (M.fail e)
      | (some .panic, _) => .inr M.panic
      | (none, _) => .inr (Pure.pure x.1)) ?_
    (fun x => Takes.nextRow _ x.2) ?_ (fs, rs)
  · rintro ⟨fs, rs⟩ c
    show Cmd.filesLoop rs fs c = _
    rw [Cmd.filesLoop]
    cases rs.nextRow (mapRow rs.textRow Cmd.binlogFileMapper) c with
    | ok a c' => obtain ⟨_ | (r | e | _), rs'⟩ := a <;> rfl
    | err e c' => rfl
    | panic => rfl
    | hang => rfl
  · rintro ⟨fs, rs⟩ ⟨_ | (r | e | _), rs'⟩ m h
    · cases h; exact Takes.pure _
    · cases h
    · cases h; exact Takes.fail _
    · cases h; exact Takes.mpanic

theorem Takes.execLoop : Takes execLoop := by
  refine Takes.loop (σ := Unit) (fun _ => Mybin.execLoop) (fun _ => Mybin.recvMsg)
    (fun _ a => match a with
      | [] => .inr M.panic
      | b :: t =>
        if b = 0xff then .inr (Mybin.failWithErrPacket (b :: t))
        else if b = 0x00 then
          .inr (Mybin.getCaps >>= fun caps => M.parse (b :: t) (OkPacket.readFrom caps) >>= fun _ => Pure.pure ())
        else .inl ()) ?_ (fun _ => Takes.recvMsg) ?_ ()
  · rintro _ c
    rw [Mybin.execLoop]
    cases Mybin.recvMsg c with
    | ok a c' =>
      cases a with
      | nil => rfl
      | cons b t =>
        dsimp only
        show _ = (MR.ok (b :: t) c').bind _
        unfold MR.bind
        by_cases h1 : b = 0xff
        · simp only [h1, if_true]
        · by_cases h2 : b = 0x00
          · simp only [if_neg h1, if_pos h2]
            show _ = ((M.parse (b :: t) (OkPacket.readFrom c'.caps) c').bind fun _ => Pure.pure ())
            cases M.parse (b :: t) (OkPacket.readFrom c'.caps) c' <;> rfl
          · simp only [h1, h2, if_false]
    | err e c' => rfl
    | panic => rfl
    | hang => rfl
  · rintro _ a m h
    cases a with
    | nil => cases h; exact Takes.mpanic
    | cons b t =>
      dsimp only at h
      split at h
      · cases h; exact Takes.failWithErrPacket _
      · split at h
        · cases h
          exact Takes.getCaps.bind fun caps => (Takes.parse _ _).bind fun _ => Takes.pure _
        · cases h

theorem Takes.fieldListLoop (defs : List ColumnDefinition) : Takes (Cmd.fieldListLoop defs) := by
  refine Takes.loop Cmd.fieldListLoop (fun _ => Mybin.recvMsg >>= fun msg => Mybin.getCaps >>= fun caps =>
      M.parse msg (ComFieldListResponse.readFrom caps true))
    (fun defs a => match a with
      | .err p => .inr (M.fail (sqlError p))
      | .eof _ => .inr (Pure.pure defs)
      | .colDef d => .inl (defs ++ [d])) ?_
    (fun _ => Takes.recvMsg.bind fun _ => Takes.getCaps.bind fun _ => Takes.parse _ _) ?_ defs
  · rintro defs c
    rw [Cmd.fieldListLoop]
    show _ = ((Mybin.recvMsg c).bind _).bind _
    cases Mybin.recvMsg c with
    | ok msg c1 =>
      dsimp only
      show _ = (M.parse msg (ComFieldListResponse.readFrom c1.caps true) c1).bind _
      cases M.parse msg (ComFieldListResponse.readFrom c1.caps true) c1 with
      | ok a c2 => cases a <;> rfl
      | err e c' => rfl
      | panic => rfl
      | hang => rfl
    | err e c' => rfl
    | panic => rfl
    | hang => rfl
  · rintro defs a m h
    cases a with
    | err p => cases h; exact Takes.fail _
    | eof p => cases h; exact Takes.pure _
    | colDef d => cases h

theorem Takes.recvAndParse (s : BinlogStream) : Takes s.recvAndParse := by
  have : s.recvAndParse = (Mybin.recvMsg >>= fun msg => match msg with
      | [] => M.fail (.incomplete none)
      | b :: t =>
        if s.nonBlock && b == 0xfe then Pure.pure .theEnd
        else if b ≠ 0x00 then M.fail .packet
        else M.parse t (s.pv4.parseEvent s.validateChecksum) >>= fun o => match o with
          | some e => Pure.pure (.single e)
          | none => Pure.pure .unsupported) := by
    funext c
    unfold BinlogStream.recvAndParse
    show _ = (Mybin.recvMsg c).bind _
    cases Mybin.recvMsg c with
    | ok msg c' =>
      cases msg with
      | nil => rfl
      | cons b t =>
        show _ = (if s.nonBlock && b == 0xfe then _ else _ : M BinlogStreamEvent) c'
        by_cases h1 : (s.nonBlock && b == 0xfe) = true
        · simp only [if_pos h1]; rfl
        · simp only [if_neg h1]
          by_cases h2 : b ≠ 0x00
          · simp only [if_pos h2]; rfl
          · simp only [if_neg h2]
            show _ = (M.parse t (s.pv4.parseEvent s.validateChecksum) c').bind _
            cases M.parse t (s.pv4.parseEvent s.validateChecksum) c' with
            | ok o c'' => cases o <;> rfl
            | err e c' => rfl
            | panic => rfl
            | hang => rfl
    | err e c' => rfl
    | panic => rfl
    | hang => rfl
  rw [this]
  refine Takes.recvMsg.bind fun msg => ?_
  cases msg with
  | nil => exact Takes.fail _
  | cons b t =>
    dsimp only
    split
    · exact Takes.pure _
    · split
      · exact Takes.fail _
      · refine (Takes.parse _ _).bind fun o => ?_
        cases o <;> exact Takes.pure _

theorem Takes.nextEvent (s : BinlogStream) : Takes s.nextEvent := by
  have hl : Takes s.nextLoop := by
    refine Takes.loop BinlogStream.nextLoop (fun s => s.recvAndParse)
      (fun s a => match a with
        | .single e => .inr (Pure.pure (some e, s))
        | .unsupported => .inl s
        | .theEnd => .inr (Pure.pure (none, s))) ?_ Takes.recvAndParse ?_ s
    · rintro s c
      rw [BinlogStream.nextLoop]
      cases s.recvAndParse c with
      | ok a c' => cases a <;> rfl
      | err e c' => rfl
      | panic => rfl
      | hang => rfl
    · rintro s a m h
      cases a <;> cases h <;> exact Takes.pure _
  have : s.nextEvent = if s.completed then Pure.pure (none, s) else s.nextLoop := by
    funext c
    unfold BinlogStream.nextEvent
    cases s.completed <;> rfl
  rw [this]
  cases s.completed
  · exact hl
  · exact Takes.pure _


theorem Takes.handshakeLoop (H : Hashes) (caps : Nat) (plugin : AuthPlugin) : Takes (handshakeLoop H caps plugin) := by
  refine Takes.loop (Mybin.handshakeLoop H caps)
    (fun plugin => Mybin.recvMsg >>= fun msg => M.parse msg (HandshakeMessage.readFrom caps) >>= fun a => match a with
      | .ok p => (fun c => .ok none { c with status := p.statusFlags, pktNr := 0 } : M (Option AuthPlugin))
      | .err _ => M.fail .packet
      | .switch _ => M.panic
      | .moreData m => M.ofExcept (plugin.next H m.pluginData) >>= fun x =>
          (if x.1.isEmpty then Pure.pure () else Mybin.sendMsg x.1 false : M Unit) >>= fun _ => Pure.pure (some x.2))
    (fun _ a => match a with
      | some pl => .inl pl
      | none => .inr (Pure.pure ())) ?_ ?_ ?_ plugin
  · rintro plugin c
    rw [Mybin.handshakeLoop]
    show _ = ((Mybin.recvMsg c).bind _).bind _
    cases Mybin.recvMsg c with
    | ok msg c1 =>
      dsimp only
      show _ = ((M.parse msg (HandshakeMessage.readFrom caps) c1).bind _).bind _
      cases M.parse msg (HandshakeMessage.readFrom caps) c1 with
      | ok a c2 =>
        cases a with
        | moreData m =>
          dsimp only
          show _ = (((M.ofExcept (plugin.next H m.pluginData) c2).bind _).bind _)
          unfold M.ofExcept
          cases plugin.next H m.pluginData with
          | error e => rfl
          | ok x =>
            obtain ⟨resp, pl⟩ := x
            cases hs : (if resp.isEmpty then Pure.pure () else Mybin.sendMsg resp false : M Unit) c2 <;>
              simp only [hs, MR.bind, Bind.bind] <;> rfl
        | ok p => rfl
        | err p => rfl
        | switch p => rfl
      | err e c' => rfl
      | panic => rfl
      | hang => rfl
    | err e c' => rfl
    | panic => rfl
    | hang => rfl
  · intro plugin
    refine Takes.recvMsg.bind fun msg => (Takes.parse _ _).bind fun a => ?_
    cases a with
    | ok p => exact Takes.loggedIn _
    | err p => exact Takes.fail _
    | switch p => exact Takes.mpanic
    | moreData m =>
      refine (Takes.ofExcept _).bind fun x => Takes.bind ?_ fun _ => Takes.pure _
      split
      · exact Takes.pure _
      · exact Takes.sendMsg _ _
  · rintro plugin a m h
    cases a <;> cases h
    exact Takes.pure _

theorem Takes.handshake (H : Hashes) (o : ConnOpts) : Takes (handshake H o) := by
  unfold Mybin.handshake
  refine Takes.recvMsg.bind fun _ => (Takes.parse _ _).bind fun _ => ?_
  refine (Takes.insertCap _).bind fun _ => (Takes.insertCap _).bind fun _ => (Takes.insertCap _).bind fun _ =>
    (Takes.insertCap _).bind fun _ => (Takes.insertCap _).bind fun _ => (Takes.insertCap _).bind fun _ =>
    (Takes.insertCap _).bind fun _ => (Takes.insertCap _).bind fun _ => (Takes.removeCap _).bind fun _ => ?_
  refine (Takes.ofExcept _).bind fun _ => (Takes.ofExcept _).bind fun _ => Takes.bind ?_ fun _ => Takes.getCaps.bind fun _ =>
    (Takes.sendMsg _ _).bind fun _ => Takes.handshakeLoop _ _ _
  split
  · exact Takes.pure _
  · exact Takes.insertCap _

theorem Takes.changeUserLoop (H : Hashes) (password : Bytes) (plugin : Option AuthPlugin) :
    Takes (changeUserLoop H password plugin) := by
  refine Takes.loop (Mybin.changeUserLoop H password)
    (fun plugin => Mybin.recvMsg >>= fun msg => Mybin.getCaps >>= fun caps =>
      M.parse msg (ComChangeUserResponse.readFrom caps) >>= fun a => match a with
      | .ok _ => (Pure.pure none : M (Option AuthPlugin))
      | .err p => M.fail (sqlError p)
      | .switch s => M.ofExcept (newAuthPlugin s.pluginName) >>= fun pl =>
          M.ofExcept (genInitAuthResp H pl password s.authPluginData) >>= fun x =>
          Mybin.sendMsg x.1 false >>= fun _ => Pure.pure (some x.2)
      | .moreData m => match plugin with
        | none => M.panic
        | some pl => M.ofExcept (pl.next H m.pluginData) >>= fun x =>
          Mybin.sendMsg x.1 false >>= fun _ => Pure.pure (some x.2))
    (fun _ a => match a with
      | some pl => .inl (some pl)
      | none => .inr (Pure.pure ())) ?_ ?_ ?_ plugin
  · rintro plugin c
    rw [Mybin.changeUserLoop]
    show _ = ((Mybin.recvMsg c).bind _).bind _
    cases Mybin.recvMsg c with
    | ok msg c1 =>
      dsimp only
      show _ = ((M.parse msg (ComChangeUserResponse.readFrom c1.caps) c1).bind _).bind _
      cases M.parse msg (ComChangeUserResponse.readFrom c1.caps) c1 with
      | ok a c2 =>
        cases a with
        | moreData m =>
          cases plugin with
          | none => rfl
          | some pl =>
            dsimp only
            show _ = (((M.ofExcept (pl.next H m.pluginData) c2).bind _).bind _)
            unfold M.ofExcept
            cases pl.next H m.pluginData with
            | error e => rfl
            | ok x =>
              obtain ⟨resp, pl⟩ := x
              cases hs : Mybin.sendMsg resp false c2 <;> simp only [hs, MR.bind, Bind.bind] <;> rfl
        | ok p => rfl
        | err p => rfl
        | switch s =>
          dsimp only
          show _ = (((M.ofExcept (newAuthPlugin s.pluginName) c2).bind _).bind _)
          unfold M.ofExcept
          cases newAuthPlugin s.pluginName with
          | error e => rfl
          | ok pl =>
            dsimp only
            show _ = (((M.ofExcept (genInitAuthResp H pl password s.authPluginData) c2).bind _).bind _)
            unfold M.ofExcept
            cases genInitAuthResp H pl password s.authPluginData with
            | error e => rfl
            | ok x =>
              obtain ⟨resp, pl⟩ := x
              cases hs : Mybin.sendMsg resp false c2 <;> simp only [hs, MR.bind, Bind.bind] <;> rfl
      | err e c' => rfl
      | panic => rfl
      | hang => rfl
    | err e c' => rfl
    | panic => rfl
    | hang => rfl
  · intro plugin
    refine Takes.recvMsg.bind fun msg => Takes.getCaps.bind fun _ => (Takes.parse _ _).bind fun a => ?_
    cases a with
    | ok p => exact Takes.pure _
    | err p => exact Takes.fail _
    | switch p =>
      exact (Takes.ofExcept _).bind fun _ => (Takes.ofExcept _).bind fun _ => (Takes.sendMsg _ _).bind fun _ => Takes.pure _
    | moreData m =>
      cases plugin with
      | none => exact Takes.mpanic
      | some pl => exact (Takes.ofExcept _).bind fun _ => (Takes.sendMsg _ _).bind fun _ => Takes.pure _
  · rintro plugin a m h
    cases a <;> cases h
    exact Takes.pure _

theorem Takes.changeUser (H : Hashes) (user password db : Bytes) (attrs : List ConnectAttr) :
    Takes (changeUser H user password db attrs) := by
  unfold Mybin.changeUser
  exact Takes.getCaps.bind fun _ => (Takes.sendMsg _ _).bind fun _ => Takes.changeUserLoop _ _ _

theorem Takes.okCommand (bs : Bytes) : Takes (okCommand bs) := by
  unfold Mybin.okCommand
  refine (Takes.sendMsg _ _).bind fun _ => Takes.recvMsg.bind fun _ => Takes.getCaps.bind fun _ => (Takes.parse _ _).bind fun r => ?_
  cases r
  · exact Takes.pure _
  · exact Takes.fail _

theorem Takes.fieldList (t w : Bytes) : Takes (Cmd.fieldList t w) := by
  unfold Cmd.fieldList
  exact (Takes.sendMsg _ _).bind fun _ => Takes.fieldListLoop _

theorem Takes.statistics : Takes Cmd.statistics := by
  unfold Cmd.statistics
  refine (Takes.sendMsg _ _).bind fun _ => Takes.recvMsg.bind fun _ => ?_
  split
  · exact Takes.pure _
  · exact Takes.fail _

theorem Takes.debug : Takes Cmd.debug := by
  unfold Cmd.debug
  refine (Takes.sendMsg _ _).bind fun _ => Takes.recvMsg.bind fun _ => Takes.getCaps.bind fun _ => (Takes.parse _ _).bind fun r => ?_
  cases r
  · exact Takes.pure _
  · exact Takes.fail _

theorem Takes.ping : Takes Cmd.ping := by
  unfold Cmd.ping
  exact (Takes.sendMsg _ _).bind fun _ => Takes.recvMsg.bind fun _ => Takes.getCaps.bind fun _ => (Takes.parse _ _).bind fun r =>
    Takes.pure _

theorem Takes.setMultiStmts (multi : Bool) : Takes (Cmd.setMultiStmts multi) := by
  unfold Cmd.setMultiStmts
  refine (Takes.sendMsg _ _).bind fun _ => Takes.recvMsg.bind fun _ => Takes.getCaps.bind fun _ => (Takes.parse _ _).bind fun r => ?_
  cases r
  · dsimp only
    split
    · exact Takes.insertCap _
    · exact Takes.removeCap _
  · exact Takes.fail _

theorem Takes.query (q : Bytes) : Takes (Query.qry q) := by
  unfold Query.qry
  exact (Takes.sendMsg _ _).bind fun _ => Takes.newResultSet _

theorem Takes.queryExec (q : Bytes) : Takes (Query.exec q) := by
  unfold Query.exec
  exact (Takes.sendMsg _ _).bind fun _ => Takes.execLoop

theorem Takes.prepare (q : Bytes) : Takes (Stmt.prepare q) := by
  unfold Stmt.prepare
  refine (Takes.sendMsg _ _).bind fun _ => Takes.recvMsg.bind fun msg => ?_
  cases msg with
  | nil => exact Takes.fail _
  | cons b t =>
    refine Takes.bind ?_ fun _ => (Takes.recvDefs _).bind fun _ => (Takes.recvDefs _).bind fun _ => Takes.pure _
    split
    · exact Takes.failWithErrPacket _
    · exact Takes.parse _ _

theorem Takes.send (s : PreparedStmt) (ps : List StmtColumnValue) : Takes (s.send ps) := by
  unfold PreparedStmt.send
  split
  · exact Takes.mpanic
  · split
    · exact Takes.mpanic
    · exact Takes.sendMsg _ _

theorem Takes.exec (s : PreparedStmt) (ps : List StmtColumnValue) : Takes (s.exec ps) := by
  unfold PreparedStmt.exec
  exact (Takes.send s ps).bind fun _ => Takes.execLoop

theorem Takes.stmtQry (s : PreparedStmt) (ps : List StmtColumnValue) : Takes (s.qry ps) := by
  unfold PreparedStmt.qry
  exact (Takes.send s ps).bind fun _ => Takes.newResultSet _

theorem Takes.stmtClose (s : PreparedStmt) : Takes s.close := Takes.sendMsg _ _

theorem Takes.rsClose (rs : ResultSet) : Takes rs.close := by
  unfold ResultSet.close
  split
  · exact (Takes.sendMsg _ _).bind fun _ => Takes.pure _
  · exact Takes.pure _

theorem Takes.execClose (s : PreparedStmt) (ps : List StmtColumnValue) : Takes (s.execClose ps) := by
  intro c
  have hx := Takes.exec s ps c
  unfold PreparedStmt.execClose
  cases hr : s.exec ps c with
  | ok v c' => rw [hr] at hx; simp only [close_sends]; exact hx
  | err e c' => rw [hr] at hx; simp only [close_sends]; exact hx
  | panic => trivial
  | hang => trivial

theorem Takes.firstMapped {α : Type} (mapper : List (Option Bytes) → Res α) (rs : ResultSet) :
    Takes (Cmd.firstMapped mapper rs) := by
  unfold Cmd.firstMapped ResultSet.firstOrNone
  refine (Takes.foldRows _ _ _ _).bind fun r => ?_
  cases r with
  | none => exact Takes.pure _
  | some v => exact (Takes.ofRes _).bind fun _ => Takes.pure _

theorem Takes.getVar {α : Type} (conv : Option Bytes → Res α) (name : Bytes) (global : Bool) :
    Takes (Cmd.getVar conv name global) := by
  unfold Cmd.getVar
  exact (Takes.query _).bind fun _ => Takes.firstMapped _ _

theorem Takes.getUserVar {α : Type} (conv : Option Bytes → Res α) (name : Bytes) : Takes (Cmd.getUserVar conv name) := by
  unfold Cmd.getUserVar
  exact (Takes.query _).bind fun _ => Takes.firstMapped _ _

theorem Takes.setVar (name : Bytes) (v : StmtColumnValue) (global : Bool) : Takes (Cmd.setVar name v global) := by
  unfold Cmd.setVar
  exact (Takes.prepare _).bind fun _ => Takes.execClose _ _

theorem Takes.setUserVar (name : Bytes) (v : StmtColumnValue) : Takes (Cmd.setUserVar name v) := by
  unfold Cmd.setUserVar
  exact (Takes.prepare _).bind fun _ => Takes.execClose _ _

theorem Takes.binlogFiles : Takes Cmd.binlogFiles := by
  unfold Cmd.binlogFiles
  exact (Takes.query _).bind fun _ => Takes.filesLoop _ _

theorem Takes.first {ρ : Type} (read : P ρ) (rs : ResultSet) : Takes (rs.first read) := by
  unfold ResultSet.first ResultSet.firstOrNone
  refine (Takes.foldRows _ _ _ _).bind fun r => ?_
  cases r with
  | none => exact Takes.fail _
  | some v => exact Takes.pure _

theorem Takes.setup (r : BinlogRequest) (uuid : Bytes) (random : Nat) : Takes (r.setup uuid random) := by
  unfold BinlogRequest.setup
  exact (Takes.getVar _ _ _).bind fun _ => (Takes.someOr _ _).bind fun _ => (Takes.setUserVar _ _).bind fun _ =>
    (Takes.getVar _ _ _).bind fun _ => (Takes.someOr _ _).bind fun _ => (Takes.setUserVar _ _).bind fun _ =>
    (Takes.getVar _ _ _).bind fun _ => (Takes.someOr _ _).bind fun _ =>
    (Takes.getVar _ _ _).bind fun _ => (Takes.someOr _ _).bind fun _ => (Takes.setUserVar _ _).bind fun _ =>
    (Takes.okCommand _).bind fun _ => Takes.pure _

theorem Takes.firstEvents (r : BinlogRequest) (checksum : Bool) : Takes (r.firstEvents checksum) := by
  unfold BinlogRequest.firstEvents
  refine Takes.recvMsg.bind fun msg => ?_
  cases msg with
  | nil => exact Takes.fail _
  | cons b t =>
    dsimp only
    split
    · exact Takes.failWithErrPacket _
    · split
      · exact Takes.getCaps.bind fun _ => (Takes.parse _ _).bind fun _ => Takes.pure _
      · split
        · exact (Takes.parse _ _).bind fun _ => Takes.recvMsg.bind fun _ => (Takes.parse _ _).bind fun _ => Takes.pure _
        · exact Takes.fail _

theorem Takes.requestStream (r : BinlogRequest) (uuid : Bytes) (random : Nat) : Takes (r.requestStream uuid random) := by
  unfold BinlogRequest.requestStream
  exact (Takes.setup _ _ _).bind fun _ => (Takes.sendMsg _ _).bind fun _ => Takes.firstEvents _ _

theorem Takes.processInfo : Takes Cmd.processInfo := by
  unfold Cmd.processInfo
  exact (Takes.sendMsg _ _).bind fun _ => Takes.newResultSet _

theorem Takes.recover {α : Type} {x : M α} {h : Err → M α} (hx : Takes x) (hh : ∀ e, Takes (h e)) : Takes (Spec.recover x h) := by
  intro c
  have ha := hx c
  unfold Spec.recover
  cases hr : x c with
  | ok v c' => rw [hr] at ha; exact ha
  | err e c' =>
    rw [hr] at ha
    dsimp only
    by_cases he : e = .io
    · rw [if_pos he]; exact ha
    · rw [if_neg he]
      rcases ha with ⟨ms, ha⟩ | ⟨h1, -⟩
      · exact (hh e c').after ha
      · exact absurd h1 he
  | panic => trivial
  | hang => trivial

theorem Takes.application {α : Type} {run : M α} (h : Spec.Application run) : Takes run := by
  induction h with
  | login H o => exact Takes.handshake H o
  | changeUser H u p d a => exact Takes.changeUser H u p d a
  | quit => exact Takes.sendMsg _ _
  | initDb db => exact Takes.okCommand _
  | createDb db => exact Takes.okCommand _
  | dropDb db => exact Takes.okCommand _
  | refresh f => exact Takes.okCommand _
  | processKill id => exact Takes.okCommand _
  | resetConnection => exact Takes.okCommand _
  | registerSlave id => exact Takes.okCommand _
  | fieldList t w => exact Takes.fieldList t w
  | statistics => exact Takes.statistics
  | debug => exact Takes.debug
  | ping => exact Takes.ping
  | setMultiStmts m => exact Takes.setMultiStmts m
  | processInfo => exact Takes.processInfo
  | binlogFiles => exact Takes.binlogFiles
  | getVar conv n g => exact Takes.getVar conv n g
  | setVar n v g => exact Takes.setVar n v g
  | getUserVar conv n => exact Takes.getUserVar conv n
  | setUserVar n v => exact Takes.setUserVar n v
  | queryExec q => exact Takes.queryExec q
  | query q => exact Takes.query q
  | nextRow rs read => exact Takes.nextRow read rs
  | all rs read => exact Takes.foldRows _ _ _ _
  | first rs read => exact Takes.first read rs
  | firstOrNone rs read => exact Takes.foldRows _ _ _ _
  | count rs read => exact Takes.foldRows _ _ _ _
  | closeResult rs => exact Takes.rsClose rs
  | prepare q => exact Takes.prepare q
  | exec s ps => exact Takes.exec s ps
  | execClose s ps => exact Takes.execClose s ps
  | qry s ps => exact Takes.stmtQry s ps
  | close s => exact Takes.stmtClose s
  | requestStream r u n => exact Takes.requestStream r u n
  | nextEvent s => exact Takes.nextEvent s
  | done a => exact Takes.pure a
  | giveUp e => exact Takes.fail e
  | andThen x f _ _ hx hf => exact hx.bind hf
  | recover x h _ _ hx hh => exact hx.recover hh

/-! ### the theorem -/

theorem Takes.whole {α : Type} {run : M α} (h : Takes run) : Spec.ReadsWhole run where
  value c v c' hr := by have := h c; rw [hr] at this; exact this
  error c e c' hr := by have := h c; rw [hr] at this; exact this

/-- C132: whatever an application does with the operations of the API and whatever the server sends, what has been read are
whole messages from the front of the stream: the next operation begins where a message begins -/
theorem C132_whole_messages {α : Type} (run : M α) (h : Spec.Application run) : Spec.ReadsWhole run := (Takes.application h).whole

/-- an application that asks twice and goes on after an error is one, and returns a value: the answer to `statistics` -/
example : Spec.Application (Cmd.statistics >>= fun s => Spec.recover (Query.exec s) fun _ => Cmd.ping) :=
  .andThen _ _ .statistics fun s => .recover _ _ (.queryExec s) fun _ => .ping

example : ∃ msgs, Spec.Delivers [2, 0, 0, 1, 0x55, 0x70, 1, 2] msgs [1, 2] :=
  (C132_whole_messages _ Spec.Application.statistics).value _ _ _ (example_statistics [1, 2])

end Mybin
