/-
C119: an error the server sends tells the caller its code, state and text, whichever call it is the answer to.
-/
import Verif.Props.C84_more
import Verif.Props.C53

namespace Mybin

/-- the calls that end with the error if the server answers their first message with an error; closing a statement is not
answered -/
def Spec.passesOn : Step → Bool
  | .basic .ping | .basic .statistics => false
  | .basic (.stmtClose _) => false
  | _ => true

theorem delivers_sends {inp rest : Bytes} {msgs : List Bytes} (h : Spec.Delivers inp msgs rest) :
    ∃ i, Spec.Sends i msgs ∧ inp = i ++ rest := by
  obtain ⟨runs, h1, h2, h3⟩ := h
  exact ⟨_, ⟨runs, h1, h2, by simp⟩, h3⟩

/-- the refusal of a call is a turn of the protocol -/
theorem refusal_turn (sha1 : Bytes → Bytes) (caps : Nat) (h41 : caps.testBit Spec.PROTOCOL_41 = true) (step : Step)
    (hp : Spec.passesOn step = true) (code : Nat) (state msg : Bytes) (he : Spec.ErrOk code state msg) (inp : Bytes)
    (hi : Spec.Sends inp [Spec.errPacket true code state msg]) :
    ∃ said, Spec.Turn sha1 caps step said inp (.basic (.failed (.sql code state msg))) caps := by
  have e1 : refusal caps code state msg = .failed (.sql code state msg) := by simp [refusal, reported, h41]
  have e2 : refusalMsg caps code state msg = Spec.errPacket true code state msg := by simp [refusalMsg, h41]
  have hi' : Spec.Sends inp [refusalMsg caps code state msg] := by rw [e2]; exact hi
  rw [← e1]
  cases step with
  | basic a =>
    have plain : ∀ s, Spec.plain a = some s → ∃ said, Spec.Turn sha1 caps (.basic a) said inp
        (.basic (refusal caps code state msg)) caps := fun s h => ⟨_, .basic (.refused code state msg h he) hi'⟩
    have query : ∀ q, Spec.asksQuery a = some q → ∃ said, Spec.Turn sha1 caps (.basic a) said inp
        (.basic (refusal caps code state msg)) caps := fun q h => ⟨_, .basicRefused code state msg h he hi'⟩
    have text : ∀ q, Spec.asksText a = some q → ∃ said, Spec.Turn sha1 caps (.basic a) said inp
        (.basic (refusal caps code state msg)) caps := fun q h => ⟨_, .basic (.queryRefused code state msg h he) hi'⟩
    have sets : ∀ q, Spec.sets a = some q → ∃ said, Spec.Turn sha1 caps (.basic a) said inp
        (.basic (refusal caps code state msg)) caps := fun q h => ⟨_, .basic (.setNotPrepared code state msg h he) hi'⟩
    cases a with
    | ping => cases hp
    | statistics => cases hp
    | stmtClose st => cases hp
    | debug => exact ⟨_, .basic (.debugRefused code state msg he) hi'⟩
    | fieldList t w => exact ⟨_, .basic (.fieldListRefused t w code state msg he) hi'⟩
    | prepare q => exact ⟨_, .basic (.prepareRefused q code state msg he) hi'⟩
    | stmtQuery st ps => exact ⟨_, .basic (.stmtRefused st ps code state msg he) hi'⟩
    | initDb _ | createDb _ | dropDb _ | refresh _ | processKill _ | resetConnection | registerSlave _ | exec _
    | stmtExec _ _ => exact plain _ rfl
    | query _ | processInfo => exact text _ rfl
    | binlogFiles | getVar _ _ _ | getUserVar _ _ => exact query _ rfl
    | setVar _ _ _ | setUserVar _ _ => exact sets _ rfl
  | query q how => exact ⟨_, .rowsRefused code state msg rfl he hi'⟩
  | processInfo how => exact ⟨_, .rowsRefused code state msg rfl he hi'⟩
  | stmtQuery st ps how => exact ⟨_, .stmtRefused st ps how code state msg he hi'⟩
  | stmtExecClose st ps => exact ⟨_, .execCloseRefused st ps code state msg he hi'⟩
  | setMultiStmts multi =>
    exact ⟨_, .multiRefused multi (if multi then 1 else 0) code state msg he (by cases multi <;> simp)
      (by cases multi <;> simp) hi'⟩
  | changeUser user password db attrs =>
    rw [e1]
    exact ⟨_, .changeUserRefused user password db attrs code state msg he h41 hi⟩

/-- C119: every call of the API on a connection, whatever its arguments, that the server answers with an error ends with
exactly this error: its code, its state and its text. The error is read and nothing else, so the next call finds its own
answer. Missing from the full claim: ping, statistics, errors in the place of a row, errors in a stream of events, and a
server that refuses the connection at once (the theorems below). -/
theorem C119_calls_partial (H : Hashes) (hH : H.Sized) (step : Step) (hc : step.Carried) (hp : Spec.passesOn step = true)
    (code : Nat) (state msg : Bytes) (he : Spec.ErrOk code state msg) (c : Conn)
    (h41 : c.caps.testBit Spec.PROTOCOL_41 = true) (rest : Bytes)
    (hd : Spec.Delivers c.inp [Spec.errPacket true code state msg] rest) :
    ∃ c', step.perform H c = .ok (.basic (.failed (.sql code state msg))) c' ∧ c'.inp = rest ∧ c'.caps = c.caps := by
  obtain ⟨i, h1, h2⟩ := delivers_sends hd
  obtain ⟨said, ht⟩ := refusal_turn H.sha1 c.caps h41 step hp code state msg he i h1
  obtain ⟨c', -, a1, a2, a3, -⟩ := turn_passes H hH _ _ step said i _ hc ht c rest rfl h2
  exact ⟨c', a1, a2, a3⟩

/-! ### where the error is lost -/

/-- C119 fails when connecting: a server that refuses the connection at once (too many connections, a blocked host) sends
an error in the place of its greeting. Whatever its code and text, the caller gets one and the same error, "incomplete
input". (Full claim: the code and the text.) -/
theorem C119_connect_false (H : Hashes) (opts : ConnOpts) (withState : Bool) (code : Nat) (state msg : Bytes)
    (hz : (0 : UInt8) ∉ (Spec.errPacket withState code state msg)) (ms : List Bytes) (rest : Bytes) (c : Conn)
    (hd : Spec.Delivers c.inp (Spec.errPacket withState code state msg :: ms) rest) :
    ∃ c', handshake H opts c = .err (.incomplete none) c' ∧ c'.out = c.out := by
  obtain ⟨c1, h1, h2, -⟩ := Delivers.recv hd
  obtain ⟨t, ht⟩ := errPacket_head withState code state msg
  rw [ht] at hz h1
  have hf : t.findIdx? (· == (0 : UInt8)) = none := by
    rw [List.findIdx?_eq_none_iff]
    intro x hx
    simp only [beq_eq_false_iff_ne, ne_eq]
    rintro rfl
    exact hz (List.mem_cons_of_mem _ hx)
  have hp : InitialHandshake.readFrom (0xff :: t) = .err (.incomplete none) t := by
    unfold InitialHandshake.readFrom
    rw [P.bind_apply, show readU8 (0xff :: t) = .ok 0xff t from rfl, R.bind_ok, P.bind_apply]
    unfold readUntil
    rw [hf]
    rfl
  refine ⟨c1, ?_, h2.out⟩
  unfold handshake
  rw [M.bind_apply, h1, MR.bind_ok, M.bind_apply]
  unfold M.parse
  rw [hp]
  rfl

/-- C119 fails for a stream of events: whatever the code and the text of an error the server sends in it (the log has been
purged, the connection is killed, another reader has the same id), the caller gets one and the same error. (Full claim:
the code and the text.) -/
theorem C119_stream_false (s : BinlogStream) (hs : s.completed = false) (withState : Bool) (code : Nat) (state msg : Bytes)
    (ms : List Bytes) (rest : Bytes) (c : Conn)
    (hd : Spec.Delivers c.inp (Spec.errPacket withState code state msg :: ms) rest) :
    ∃ c', s.nextEvent c = .err .packet c' := by
  obtain ⟨t, ht⟩ := errPacket_head withState code state msg
  rw [ht] at hd
  exact C53_other_message s hs 0xff t (by decide) (.inr (by decide)) ms rest c hd

/-- C119 fails for errors in the place of a text row: whatever the code and the text, the caller gets one and the same
error. (Full claim: the code and the text.) For binary rows see `C27_binary_false`. -/
theorem C119_row_false (rs : ResultSet) (hrs : rs.completed = false) (hn0 : 0 < rs.colDefs.length)
    (hn : rs.colDefs.length < 2 ^ 32) (withState : Bool) (code : Nat) (state msg : Bytes) (ms : List Bytes) (rest : Bytes)
    (c : Conn) (hd : Spec.Delivers c.inp (Spec.errPacket withState code state msg :: ms) rest) :
    ∃ c', rs.nextRow rs.textRow c = .err .constraint c' := by
  obtain ⟨t, ht⟩ := errPacket_head withState code state msg
  rw [ht] at hd
  obtain ⟨c1, h1, -⟩ := Delivers.recv hd
  refine ⟨c1, ?_⟩
  unfold ResultSet.nextRow
  rw [hrs]
  have : ¬ ((0xff : UInt8) = 0xfe ∧ (0xff :: t).length ≤ 0xffffff) := by rintro ⟨h, -⟩; exact absurd h (by decide)
  simp only [Bool.false_eq_true, if_false, M.bind_apply, h1, MR.bind_ok, getCaps_apply, M.ite_apply, if_neg this]
  have hr : ∃ r, rs.textRow (0xff :: t) = .err .constraint r := by
    unfold ResultSet.textRow TextRow.readFrom
    rw [P.bind_apply, withCapacity_ok _ _ (by omega), R.bind_ok]
    cases hlen : rs.colDefs.length with
    | zero => omega
    | succ n => exact ⟨t, rfl⟩
  obtain ⟨r, hr⟩ := hr
  unfold M.parse
  rw [hr]
  rfl

/-- C119 fails for the statistics: whatever the code and the text, the caller is told that the text is not UTF-8. (Full
claim: the code and the text.) For ping, which takes errors for success, see `C62_err_false`. -/
theorem C119_statistics_false (withState : Bool) (code : Nat) (state msg rest : Bytes) (c : Conn)
    (hd : Spec.Delivers c.inp [Spec.errPacket withState code state msg] rest) :
    ∃ c', Cmd.statistics c = .err .utf8 c' := by
  obtain ⟨c', -, -, -, h, -⟩ := C63_statistics _ rest c hd
  exact ⟨c', h (by obtain ⟨t, ht⟩ := errPacket_head withState code state msg; rw [ht]; unfold validUtf8; rfl)⟩

/-- C119 fails for texts that are not UTF-8 (a server sends errors in the character set the session asked for): changing
the database, like every other call, then ends with an error about the text, and the code and the state are lost. (Full
claim: the code and the state.) -/
theorem C119_text_false (db : Bytes) (hdb : MsgFits db.length) (code : Nat) (hcode : code < 2 ^ 16) (state msg : Bytes)
    (hs : state.length = 5) (hm : validUtf8 msg = false) (c : Conn) (h41 : c.caps.testBit Spec.PROTOCOL_41 = true)
    (rest : Bytes) (hd : Spec.Delivers c.inp [Spec.errPacket true code state msg] rest) :
    ∃ c', Cmd.initDb db c = .err .utf8 c' := by
  obtain ⟨c1, a1, a2, a3, a4, -⟩ := sendMsg_cmd c (ComInitDB.writeTo [] db) (.initDb db) (C19_string_commands c.caps [] db).2.1
    (by unfold MsgFits at hdb; simp [ComInitDB.writeTo, writeStrCmd, writeU8, writeBytes]; omega)
  rw [← a3] at hd
  obtain ⟨c2, b1, b2, b3, -⟩ := Delivers.recv hd
  have hp := C15_err_packet c.caps true code hcode state msg hs
  rw [h41, Bool.and_self, if_pos rfl, if_pos rfl] at hp
  obtain ⟨t, ht⟩ := errPacket_head true code state msg
  refine ⟨c2, ?_⟩
  unfold Cmd.initDb okCommand
  rw [M.bind_apply, a1, MR.bind_ok, M.bind_apply, b1, MR.bind_ok, M.bind_apply, getCaps_apply, MR.bind_ok, M.bind_apply,
    b2.caps, a4]
  have hr : ComResponse.readFrom c.caps (Spec.errPacket true code state msg) = .ok (.err
      { header := 0xff, errorCode := code, sqlStateMarker := 0x23, sqlState := state, errorMessage := msg }) [] := by
    rw [ht] at hp ⊢
    rw [(C16_com_response c.caps 0xff t).2.1 rfl, hp]
    rfl
  rw [M.parse_ok hr, MR.bind_ok]
  unfold sqlError
  cases validUtf8 state <;> simp [hm] <;> rfl

/-! ### the hypotheses can be met -/

/-- 1049, 42000, "Unknown database 'd'", in answer to changing the database, with the answer of the next call behind it -/
example : ∃ (c : Conn) (msg : Bytes), msg = Spec.ascii "Unknown database 'd'" ∧
    (Step.basic (.initDb [100])).Carried ∧ Spec.passesOn (.basic (.initDb [100])) = true ∧
    Spec.ErrOk 1049 (Spec.ascii "42000") msg ∧ c.caps.testBit Spec.PROTOCOL_41 = true ∧
    Spec.Delivers c.inp [Spec.errPacket true 1049 (Spec.ascii "42000") msg] [7, 0, 0, 1] := by
  obtain ⟨inp, h⟩ := delivers_small [Spec.errPacket true 1049 (Spec.ascii "42000") (Spec.ascii "Unknown database 'd'")]
    [7, 0, 0, 1] (by decide +kernel)
  exact ⟨⟨inp, [], 0, 2 ^ 9, 0⟩, _, rfl, show MsgFits 1 by unfold MsgFits; norm_num, rfl,
    ⟨by norm_num, by decide +kernel, by decide +kernel, by decide +kernel⟩, show Nat.testBit (2 ^ 9) 9 = true by decide, h⟩

/-- 1040, "Too many connections", in the place of the greeting: there is no zero byte in it -/
example : (0 : UInt8) ∉ Spec.errPacket false 1040 [] (Spec.ascii "Too many connections") ∧
    ∃ inp, Spec.Delivers inp [Spec.errPacket false 1040 [] (Spec.ascii "Too many connections")] [] :=
  ⟨by decide +kernel, delivers_small _ _ (by decide +kernel)⟩

end Mybin
