/-
C87: whole runs of the two programs, from the connection to the end.
-/
import Verif.Model.Program
import Verif.Props.C43
import Verif.Props.C56_C58
import Verif.Props.C70_C73

namespace Mybin

/-- On a connection on which `inp` comes, the server greets the client and accepts it, by one of the two methods the
client knows, and then sends `rest`. The greeting has the nonce `nonce` and names the method `method`. -/
def Spec.Welcomes (password : Bytes) (inp : Bytes) (method nonce rest : Bytes) : Prop :=
  ∃ (f : Spec.HandshakeFields) (mid : Bytes) (ok : Spec.OkFields), f.InRange ∧ ok.InRange ∧
    f.caps.testBit Spec.SECURE_CONNECTION = true ∧ f.caps.testBit Spec.PLUGIN_AUTH = true ∧ 8 ≤ f.authLen ∧
    f.data1 ++ f.data2 = nonce ++ [0] ∧ f.pluginName = method ∧ (Spec.handshakeV10 f).length < 0xffffff ∧
    inp = Spec.wire [⟨0, Spec.handshakeV10 f⟩] ++ mid ∧
    ((method = Spec.ascii "mysql_native_password" ∧
        Spec.Delivers mid [Spec.okPacket (Spec.clientCaps []) 0 ok] rest) ∨
      (method = Spec.ascii "caching_sha2_password" ∧ password ≠ [] ∧
        Spec.Delivers mid [Spec.authMoreData [3], Spec.okPacket (Spec.clientCaps []) 0 ok] rest))

/-- The bytes `out` are one message, the login of this user for no database, by a response the server accepts for the
password. For caching_sha2_password it is the response for the empty nonce (see C45). -/
def Spec.LogsIn (H : Hashes) (user password method nonce out : Bytes) : Prop :=
  ∃ (ps : List Spec.Packet) (resp : Bytes), out = Spec.wire ps ∧ Spec.IsMessage ps ∧ Spec.Numbered 1 ps ∧
    Spec.D.all Spec.D.handshakeResponse41 (Spec.payload ps)
      = some ⟨Spec.clientCaps [], 0xffffff, 33, user, resp, [], method, []⟩ ∧
    (if method = Spec.ascii "mysql_native_password" then
        Spec.nativeAccepts H.sha1 (Spec.stored H.sha1 password) nonce resp
      else Spec.cachingAccepts H.sha256 (Spec.stored H.sha256 password) [] resp)

theorem connect_welcome (w : World) (hH : w.hashes.Sized) (n : Nat) (host port user password : Bytes)
    (hu : (0 : UInt8) ∉ user ∧ user.length < 2 ^ 30) (inp method nonce rest : Bytes)
    (hs : w.stream n (host ++ Spec.ascii ":" ++ port) = some inp) (hw : Spec.Welcomes password inp method nonce rest) :
    ∃ c, connect w n host port user password = .ok () c ∧ c.inp = rest ∧ c.caps = Spec.clientCaps [] ∧
      Spec.LogsIn w.hashes user password method nonce c.out := by
  obtain ⟨f, mid, ok, h1, h2, h3, h4, h5, h6, h7, h8, h9, h10⟩ := hw
  have hc : connect w n host port user password = handshake w.hashes ⟨user, password, []⟩ { inp := inp } := by
    unfold connect
    rw [show address host port = host ++ Spec.ascii ":" ++ port from rfl, hs]
  rw [hc]
  have hsz : user.length + ([] : Bytes).length < 2 ^ 30 := by simpa using hu.2
  rcases h10 with ⟨hm, hd⟩ | ⟨hm, hpw, hd⟩
  · obtain ⟨c, ps, resp, a1, a2, a3, a4, a5, a6, a7, a8, a9, a10⟩ := C56_native w.hashes hH ⟨user, password, []⟩ f h1 h3 h4 h5
      (by rw [h7, hm]) nonce h6 hu.1 (by simp) hsz ok h2 { inp := inp } rfl mid rest h8 h9 hd
    refine ⟨c, a1, a2, a9, ps, resp, by rw [a3]; rfl, a4, a5, ?_, ?_⟩
    · rw [a6, hm]
    · rw [if_pos hm]; exact a7
  · obtain ⟨c, ps, resp, a1, a2, a3, a4, a5, a6, a7, a8, a9, a10⟩ := C56_caching_partial w.hashes hH ⟨user, password, []⟩ f h1
      h3 h4 h5 (by rw [h7, hm]) hpw hu.1 (by simp) hsz ok h2 { inp := inp } rfl mid rest h8 h9 hd
    refine ⟨c, a1, a2, a9, ps, resp, by rw [a3]; rfl, a4, a5, ?_, ?_⟩
    · rw [a6, hm]
    · rw [if_neg (by rw [hm]; decide +kernel)]; exact a7

/-- C87, `mybinlog list`: against every server that accepts the login and answers the question, the program prints
exactly the files of the server, in order, ends without an error, has logged in with the user and the password of its
arguments and has asked nothing but for the files. (Full claim: the response is one for the server's nonce, also with
caching_sha2_password.) -/
theorem C87_list_partial (w : World) (hH : w.hashes.Sized) (o : ProgOpts) (hcmd : o.cmd = .list)
    (hu : (0 : UInt8) ∉ o.username ∧ o.username.length < 2 ^ 30) (inp method nonce mid rest : Bytes)
    (hs : w.stream 0 (o.host ++ Spec.ascii ":" ++ o.port) = some inp)
    (hw : Spec.Welcomes o.password inp method nonce mid)
    {cols : List (Spec.ColDef × ColumnType)} {wa s : Nat} {rows : List (List (Option Bytes))} {term : Bytes}
    (ha : Spec.AnswerOk (Spec.clientCaps []) cols wa s rows term) (files : List Cmd.BinlogFile)
    (hf : List.Forall₂ (fun row f => Spec.FileRow row f.filename f.size) rows files)
    (hd : Spec.Delivers mid (Spec.textAnswer (Spec.clientCaps []) (cols.map (·.1)) wa s rows term) rest) :
    ∃ login all, mybinlog w o = ⟨[.files files], .done, some [all]⟩ ∧
      Spec.LogsIn w.hashes o.username o.password method nonce login ∧
      SentOne (Spec.clientCaps []) login all (.query (Spec.ascii "SHOW MASTER LOGS")) := by
  obtain ⟨c, a1, a2, a3, a4⟩ := connect_welcome w hH 0 o.host o.port o.username o.password hu inp method nonce mid hs hw
  subst a2
  rw [← a3] at ha hd
  obtain ⟨c', b1, b2, b3, b4⟩ := C72_binlog_files ha files hf rest hd
  refine ⟨c.out, c'.out, ?_, a4, by rw [← a3]; exact b4⟩
  unfold mybinlog
  rw [a1]
  dsimp only
  rw [hcmd]
  dsimp only
  rw [b1]

/-- the options of the `dml` command, with the meaning of its filters -/
def dmlOpts (filename : Bytes) (untilNow : Bool) (df tf : Option (Bytes → Bool)) (block : Bool) (limit : Nat) : DmlOpts :=
  ⟨filename, untilNow, df, tf, !block, limit⟩

theorem mybinlog_dml (w : World) (o : ProgOpts) (filename : Bytes) (untilNow : Bool) (dt tt : Option Bytes) (block : Bool)
    (limit : Nat) (hcmd : o.cmd = .dml filename untilNow dt tt block limit) (df tf : Option (Bytes → Bool))
    (hdf : compileFilter w dt = some df) (htf : compileFilter w tt = some tf) (conn helper : Conn)
    (h1 : connect w 0 o.host o.port o.username o.password = .ok () conn)
    (h2 : connect w 1 o.host o.port o.username o.password = .ok () helper) :
    (mybinlog w o).lines = (printDmls w.ft (dmlOpts filename untilNow df tf block limit) w.uuid w.random conn helper).1.map .dml ∧
    (mybinlog w o).theEnd = (printDmls w.ft (dmlOpts filename untilNow df tf block limit) w.uuid w.random conn helper).2 := by
  unfold mybinlog
  rw [h1]
  dsimp only
  rw [hcmd]
  dsimp only
  rw [h2]
  dsimp only
  rw [hdf]
  dsimp only
  rw [htf]
  exact ⟨rfl, rfl⟩

/-- a filter that is not given lets everything through; one that is given is a regular expression -/
def Spec.FilterMeans (w : World) : Option Bytes → Option (Bytes → Bool) → Prop
  | none, f => f = none
  | some s, f => ∃ re, w.regex s = some re ∧ f = some re

theorem compileFilter_ok (w : World) (t : Option Bytes) (f : Option (Bytes → Bool)) (h : Spec.FilterMeans w t f) :
    compileFilter w t = some f := by
  cases t with
  | none => have : f = none := h; subst this; rfl
  | some s =>
    obtain ⟨re, h1, rfl⟩ := h
    show (w.regex s).map some = _
    rw [h1]
    rfl

/-- C87, `mybinlog dml` without `--block`: against every master that accepts both logins, answers the setup of the stream
and lists the columns of the tables, for every log, the program prints exactly the statements of the rows of the wanted
tables, up to the limit, and ends without an error. (The limits are those of `C43_prints_partial`.) -/
theorem C87_dml_partial (w : World) (hH : w.hashes.Sized) (o : ProgOpts) (filename : Bytes) (untilNow : Bool)
    (dt tt : Option Bytes) (limit : Nat) (hcmd : o.cmd = .dml filename untilNow dt tt false limit)
    (df tf : Option (Bytes → Bool)) (hdf : Spec.FilterMeans w dt df) (htf : Spec.FilterMeans w tt tf)
    (hu : (0 : UInt8) ∉ o.username ∧ o.username.length < 2 ^ 30) (huu : w.uuid.length = 36) (hr : w.random < 2 ^ 32)
    (hfile : filename.length < 10 ^ 9 ∧ validUtf8 filename = true)
    (inp1 inp2 method1 method2 nonce1 nonce2 mid1 mid2 rest1 rest2 : Bytes)
    (hs1 : w.stream 0 (o.host ++ Spec.ascii ":" ++ o.port) = some inp1)
    (hs2 : w.stream 1 (o.host ++ Spec.ascii ":" ++ o.port) = some inp2)
    (hw1 : Spec.Welcomes o.password inp1 method1 nonce1 mid1) (hw2 : Spec.Welcomes o.password inp2 method2 nonce2 mid2)
    (crc : Bool) (opening : List Bytes) (hopen : Spec.OpensStream (Spec.clientCaps []) crc opening) (cat : Catalogue)
    (log : List (Spec.LogEvent × Spec.LogItem)) (hin : ∀ x ∈ log, x.1.InRange ∧ x.1.Says x.2)
    (hrot : ∀ x ∈ log, x.2 = .rotate → untilNow = true)
    (hok : LogOk w.ft (dmlOpts filename untilNow df tf false limit).wanted cat (fun _ => none) (log.map (·.2))) (eof : Bytes)
    (hd1 : Spec.Delivers mid1
      (opening ++ (log.map (fun x => Spec.streamMessage crc x.1) ++ [0xfe :: eof])) rest1)
    (answers : List Bytes)
    (ha : Spec.ListsTables (Spec.clientCaps []) cat
      (Spec.questions (dmlOpts filename untilNow df tf false limit).wanted (fun _ => none) (log.map (·.2))) answers)
    (hd2 : Spec.Delivers mid2 answers rest2) :
    ∃ out, Spec.PrintsAll w.ft (dmlOpts filename untilNow df tf false limit).wanted cat (fun _ => none) log out ∧
      (mybinlog w o).lines = (if limit = 0 then out else upTo limit out).map .dml ∧ (mybinlog w o).theEnd = .done := by
  obtain ⟨c1, a1, a2, a3, -⟩ := connect_welcome w hH 0 o.host o.port o.username o.password hu inp1 method1 nonce1 mid1 hs1 hw1
  obtain ⟨c2, b1, b2, b3, -⟩ := connect_welcome w hH 1 o.host o.port o.username o.password hu inp2 method2 nonce2 mid2 hs2 hw2
  subst a2 b2
  obtain ⟨out, p1, p2⟩ := C43_prints_partial w.ft (dmlOpts filename untilNow df tf false limit) rfl hfile w.uuid huu w.random
    hr c1 c2 crc opening (by rw [a3]; exact hopen) cat log hin hrot hok eof rest1 hd1 answers rest2 (by rw [b3]; exact ha) hd2
  obtain ⟨m1, m2⟩ := mybinlog_dml w o filename untilNow dt tt false limit hcmd df tf (compileFilter_ok w dt df hdf)
    (compileFilter_ok w tt tf htf) c1 c2 a1 b1
  rw [p2] at m1 m2
  exact ⟨out, p1, m1, m2⟩

/-- C87: the limit counts over the whole run, whatever the servers do: with a limit the program prints the beginning of
what it would print without one. -/
theorem C87_limit (w : World) (o : ProgOpts) (filename : Bytes) (untilNow : Bool) (dt tt : Option Bytes) (block : Bool)
    (limit : Nat) (hl : limit ≠ 0) :
    ∃ free : List DmlLine,
      (mybinlog w { o with cmd := .dml filename untilNow dt tt block 0 }).lines = free.map .dml ∧
      (mybinlog w { o with cmd := .dml filename untilNow dt tt block limit }).lines = (upTo limit free).map .dml := by
  unfold mybinlog
  dsimp only
  cases connect w 0 o.host o.port o.username o.password with
  | ok u conn =>
    dsimp only
    cases connect w 1 o.host o.port o.username o.password with
    | ok u helper =>
      dsimp only
      cases compileFilter w dt with
      | none => exact ⟨[], rfl, by simp [upTo_nil]⟩
      | some df =>
        dsimp only
        cases compileFilter w tt with
        | none => exact ⟨[], rfl, by simp [upTo_nil]⟩
        | some tf =>
          refine ⟨_, rfl, ?_⟩
          dsimp only
          rw [C43_limit w.ft ⟨filename, untilNow, df, tf, !block, limit⟩ w.uuid w.random conn helper hl]
    | err e c => exact ⟨[], rfl, by simp [upTo_nil]⟩
    | panic => exact ⟨[], rfl, by simp [upTo_nil]⟩
    | hang => exact ⟨[], rfl, by simp [upTo_nil]⟩
  | err e c => exact ⟨[], rfl, by simp [upTo_nil]⟩
  | panic => exact ⟨[], rfl, by simp [upTo_nil]⟩
  | hang => exact ⟨[], rfl, by simp [upTo_nil]⟩

/-! ### programs that cannot start -/

/-- C87: without a connection nothing is sent and nothing printed. -/
theorem C87_unreachable (w : World) (o : ProgOpts) (h : w.stream 0 (o.host ++ Spec.ascii ":" ++ o.port) = none) :
    mybinlog w o = ⟨[], .err .io, some [[]]⟩ := by
  have : connect w 0 o.host o.port o.username o.password = .err .io { inp := [] } := by
    unfold connect
    rw [show address o.host o.port = o.host ++ Spec.ascii ":" ++ o.port from rfl, h]
  unfold mybinlog
  rw [this]

/-- the server greets the client, and refuses its login with an ERR packet -/
def Spec.TurnsAway (inp : Bytes) : Prop :=
  ∃ (f : Spec.HandshakeFields) (mid rest : Bytes) (withState : Bool) (code : Nat) (state msg : Bytes), f.InRange ∧
    f.caps.testBit Spec.SECURE_CONNECTION = true ∧ f.caps.testBit Spec.PLUGIN_AUTH = true ∧ 8 ≤ f.authLen ∧
    f.pluginName = Spec.ascii "mysql_native_password" ∧ (∃ nonce, f.data1 ++ f.data2 = nonce ++ [0]) ∧
    (Spec.handshakeV10 f).length < 0xffffff ∧ code < 2 ^ 16 ∧ inp = Spec.wire [⟨0, Spec.handshakeV10 f⟩] ++ mid ∧
    Spec.Delivers mid [Spec.errPacket withState code state msg] rest

theorem connect_refused (w : World) (hH : w.hashes.Sized) (n : Nat) (host port user password : Bytes)
    (hu : (0 : UInt8) ∉ user ∧ user.length < 2 ^ 30) (inp : Bytes)
    (hs : w.stream n (host ++ Spec.ascii ":" ++ port) = some inp) (hw : Spec.TurnsAway inp) :
    ∃ c ps, connect w n host port user password = .err .packet c ∧ c.out = Spec.wire ps ∧ Spec.IsMessage ps := by
  obtain ⟨f, mid, rest, ws, code, state, msg, h1, h2, h3, h4, h5, ⟨nonce, hn⟩, h6, h7, h8, h9⟩ := hw
  have hc : connect w n host port user password = handshake w.hashes ⟨user, password, []⟩ { inp := inp } := by
    unfold connect
    rw [show address host port = host ++ Spec.ascii ":" ++ port from rfl, hs]
  obtain ⟨plugin, resp, plugin', a1, a2, a3⟩ := C44_native w.hashes hH password nonce
  have hrl : resp.length < 251 := by
    unfold Spec.nativeAccepts at a3
    split at a3
    · rw [a3]; simp
    · rw [a3.1]; norm_num
  obtain ⟨c1, ps, b1, b2, b3, b4, b5, b6, b7⟩ := handshake_sent w.hashes ⟨user, password, []⟩ f h1 h2 h3 h4 plugin plugin' resp
    (by rw [h5]; exact a1) (by rw [hn]; exact a2) hrl hu.1 (by simp) (by simpa using hu.2)
    { inp := inp } rfl mid h6 h8
  obtain ⟨c2, d1, d2⟩ := C56_refused w.hashes (Spec.clientCaps []) plugin' code h7 state msg ws [] rest c1 (by rw [b2]; exact h9)
  exact ⟨c2, ps, by rw [hc, b1, d1], by rw [d2, b3]; rfl, b5⟩

/-- C87: a refused login ends the program with an error; nothing is printed, and nothing but the login was sent on that
connection. -/
theorem C87_refused (w : World) (hH : w.hashes.Sized) (o : ProgOpts)
    (hu : (0 : UInt8) ∉ o.username ∧ o.username.length < 2 ^ 30) (inp : Bytes)
    (hs : w.stream 0 (o.host ++ Spec.ascii ":" ++ o.port) = some inp) (hw : Spec.TurnsAway inp) :
    ∃ ps, Spec.IsMessage ps ∧ mybinlog w o = ⟨[], .err .packet, some [Spec.wire ps]⟩ := by
  obtain ⟨c, ps, h1, h2, h3⟩ := connect_refused w hH 0 o.host o.port o.username o.password hu inp hs hw
  refine ⟨ps, h3, ?_⟩
  unfold mybinlog
  rw [h1, ← h2]

/-- C87: a filter that is not a regular expression ends the program with an error before it asks for the log: nothing is
printed, and both servers have heard nothing but the login. -/
theorem C87_bad_filter_partial (w : World) (hH : w.hashes.Sized) (o : ProgOpts) (filename : Bytes) (untilNow : Bool)
    (dt tt : Option Bytes) (block : Bool) (limit : Nat) (hcmd : o.cmd = .dml filename untilNow dt tt block limit)
    (bad : Bytes) (hre : w.regex bad = none) (hbad : dt = some bad ∨ tt = some bad)
    (hu : (0 : UInt8) ∉ o.username ∧ o.username.length < 2 ^ 30)
    (inp1 inp2 method1 method2 nonce1 nonce2 rest1 rest2 : Bytes)
    (hs1 : w.stream 0 (o.host ++ Spec.ascii ":" ++ o.port) = some inp1)
    (hs2 : w.stream 1 (o.host ++ Spec.ascii ":" ++ o.port) = some inp2)
    (hw1 : Spec.Welcomes o.password inp1 method1 nonce1 rest1) (hw2 : Spec.Welcomes o.password inp2 method2 nonce2 rest2) :
    ∃ login1 login2, mybinlog w o = ⟨[], .err .custom, some [login1, login2]⟩ ∧
      Spec.LogsIn w.hashes o.username o.password method1 nonce1 login1 ∧
      Spec.LogsIn w.hashes o.username o.password method2 nonce2 login2 := by
  obtain ⟨c1, a1, a2, a3, a4⟩ := connect_welcome w hH 0 o.host o.port o.username o.password hu inp1 method1 nonce1 rest1 hs1 hw1
  obtain ⟨c2, b1, b2, b3, b4⟩ := connect_welcome w hH 1 o.host o.port o.username o.password hu inp2 method2 nonce2 rest2 hs2 hw2
  refine ⟨c1.out, c2.out, ?_, a4, b4⟩
  have hb : compileFilter w (some bad) = none := by show (w.regex bad).map some = _; rw [hre]; rfl
  unfold mybinlog
  rw [a1]
  dsimp only
  rw [hcmd]
  dsimp only
  rw [b1]
  dsimp only
  rcases hbad with rfl | rfl
  · rw [hb]
  · rw [hb]
    cases compileFilter w dt <;> rfl

/-! ### mybinmsg -/

theorem nextLoop_same {s s' : BinlogStream} {c c' : Conn} {o : Option Event} (h : s.nextLoop c = .ok (o, s') c') :
    s' = s := by
  induction hn : c.inp.length using Nat.strong_induction_on generalizing c with
  | _ n ih =>
    rw [BinlogStream.nextLoop.eq_def] at h
    cases hr : s.recvAndParse c with
    | ok y c1 =>
      rw [hr] at h
      cases y with
      | single e => cases h; rfl
      | unsupported =>
        dsimp only at h
        split at h
        · exact ih _ (by omega) h rfl
        · cases h
      | theEnd => cases h; rfl
    | err e c1 => rw [hr] at h; cases h
    | panic => rw [hr] at h; cases h
    | hang => rw [hr] at h; cases h

theorem msgLoop_calls (s : BinlogStream) (n : Nat) (c c' : Conn) (os : List (Option Event))
    (h : s.calls n c = .ok (os, s) c') (hs : s.completed = false) (hn : ∀ o ∈ os, o ≠ none) :
    (msgLoop s c).1 = (os.filterMap id).map .event ++ (msgLoop s c').1 ∧ (msgLoop s c).2 = (msgLoop s c').2 := by
  have hlen : ∀ c o s' c', s.nextEvent c = .ok (some o, s') c' → s' = s ∧ c'.inp.length < c.inp.length := by
    intro c o s' c' h
    unfold BinlogStream.nextEvent at h
    rw [if_neg (by simp [hs])] at h
    exact ⟨nextLoop_same h, nextLoop_consumes h⟩
  induction n generalizing c os with
  | zero =>
    rw [show s.calls 0 c = .ok ([], s) c from rfl] at h
    cases h
    exact ⟨by simp, rfl⟩
  | succ n ih =>
    rw [BinlogStream.calls, M.bind_apply] at h
    cases hne : s.nextEvent c with
    | ok r c1 =>
      obtain ⟨o, s'⟩ := r
      rw [hne, MR.bind_ok] at h
      dsimp only at h
      rw [M.bind_apply] at h
      cases hc : s'.calls n c1 with
      | ok r2 c2 =>
        obtain ⟨os', s''⟩ := r2
        rw [hc, MR.bind_ok] at h
        have e : (os = o :: os' ∧ s'' = s) ∧ c' = c2 := by
          have : (MR.ok (o :: os', s'') c2 : MR _) = .ok (os, s) c' := h
          simp only [MR.ok.injEq, Prod.mk.injEq] at this
          exact ⟨⟨this.1.1.symm, this.1.2⟩, this.2.symm⟩
        obtain ⟨⟨rfl, rfl⟩, rfl⟩ := e
        cases o with
        | none => exact absurd rfl (hn none List.mem_cons_self)
        | some ev =>
          obtain ⟨rfl, hl⟩ := hlen c ev s' c1 hne
          obtain ⟨i1, i2⟩ := ih c1 os' hc (fun o ho => hn o (List.mem_cons_of_mem _ ho))
          rw [msgLoop.eq_def s', hne]
          dsimp only
          rw [if_pos hl]
          exact ⟨by simp [i1], i2⟩
      | err e c2 => rw [hc] at h; cases h
      | panic => rw [hc] at h; cases h
      | hang => rw [hc] at h; cases h
    | err e c1 => rw [hne] at h; cases h
    | panic => rw [hne] at h; cases h
    | hang => rw [hne] at h; cases h

/-- the event of the log, as the program logs it -/
def Spec.LogsEvent (crc : Bool) (e : Spec.LogEvent) (line : MsgLine) : Prop :=
  ∃ k : LogEventType, k.toByte = e.code ∧
    line = .event ⟨k, ⟨e.timestamp, k, e.serverId, e.len crc, e.nextPos, e.flags⟩, e.payload⟩

theorem seen_lines {crc : Bool} {es : List Spec.LogEvent} {os : List (Option Event)}
    (h : List.Forall₂ (Spec.Seen crc) es os) (hn : ∀ o ∈ os, o ≠ none) :
    List.Forall₂ (Spec.LogsEvent crc) es ((os.filterMap id).map .event) := by
  induction h with
  | nil => exact .nil
  | @cons e o es os h1 h2 ih =>
    unfold Spec.Seen at h1
    split at h1
    · obtain ⟨k, hk, rfl⟩ := h1
      exact .cons ⟨k, hk, rfl⟩ (ih fun o ho => hn o (List.mem_cons_of_mem _ ho))
    · subst h1
      exact absurd rfl (hn none List.mem_cons_self)

/-- a run of `mybinmsg` up to the last event of a sequence -/
theorem mybinmsg_runs (w : World) (hH : w.hashes.Sized) (host port user password : Bytes)
    (hu : (0 : UInt8) ∉ user ∧ user.length < 2 ^ 30) (huu : w.uuid.length = 36) (hr : w.random < 2 ^ 32)
    (inp method nonce mid rest : Bytes) (hs : w.stream 0 (host ++ Spec.ascii ":" ++ port) = some inp)
    (hw : Spec.Welcomes password inp method nonce mid)
    {cols : List (Spec.ColDef × ColumnType)} {wa st : Nat} {rows : List (List (Option Bytes))} {term : Bytes}
    (ha : Spec.AnswerOk (Spec.clientCaps []) cols wa st rows term) (files : List Cmd.BinlogFile)
    (hf : List.Forall₂ (fun row f => Spec.FileRow row f.filename f.size) rows files)
    (crc : Bool) (opening : List Bytes) (hopen : Spec.OpensStream (Spec.clientCaps []) crc opening)
    (es : List Spec.LogEvent) (hes : ∀ e ∈ es, e.InRange) (more : List Bytes)
    (hd : Spec.Delivers mid (Spec.textAnswer (Spec.clientCaps []) (cols.map (·.1)) wa st rows term ++
      (opening ++ (es.map (Spec.streamMessage crc) ++ more))) rest) :
    ∃ lines s c, (mybinmsg w (.tcp host port user password)).lines = files.map .file ++ lines ++ (msgLoop s c).1 ∧
      (mybinmsg w (.tcp host port user password)).theEnd = (msgLoop s c).2.1 ∧
      List.Forall₂ (Spec.LogsEvent crc) (Spec.visible es) lines ∧ s.completed = false ∧ s.nonBlock = false ∧
      ∃ c', s.nextLoop c = s.nextLoop c' ∧ Spec.Delivers c'.inp more rest := by
  obtain ⟨c, a1, a2, a3, a4⟩ := connect_welcome w hH 0 host port user password hu inp method nonce mid hs hw
  subst a2
  rw [← a3] at ha hd hopen
  obtain ⟨mid2, d1, d2⟩ := Delivers.append hd
  obtain ⟨c', b1, rfl, b3, b4⟩ := C72_binlog_files ha files hf mid2 d1
  rw [← b3] at hopen
  obtain ⟨s, c2, e1, e2, e3, rfl, e5⟩ := requestStream_opens ⟨[], false, none, none, false, 0⟩ ⟨by simp, by decide⟩ w.uuid huu
    w.random hr c' crc opening _ rest hopen d2
  obtain ⟨c3, os, left, g1, g2, g3, -, g5, g6, g7⟩ := C53_events s e2 es hes more rest c2 e5
  obtain ⟨c4, k1, -, k3⟩ := nextLoop_skip s left (fun x hx => hes x (g5.subset hx)) g6 _ rest c3 g7
  obtain ⟨m1, m2⟩ := msgLoop_calls s _ c2 c3 os g1 e2 g3
  have e1' : defaultRequest.requestStream w.uuid w.random c' = .ok s c2 := e1
  have hrun : mybinmsg w (.tcp host port user password) =
      ⟨files.map .file ++ (msgLoop s c2).1, (msgLoop s c2).2.1, (msgLoop s c2).2.2.map fun c => [c.out]⟩ := by
    unfold mybinmsg
    dsimp only
    rw [a1]
    dsimp only
    rw [b1]
    dsimp only
    rw [e1']
  refine ⟨(os.filterMap id).map .event, s, c3, ?_, ?_, seen_lines g2 g3, e2, e3, c4, k1, k3⟩
  · rw [hrun, m1, List.append_assoc]
  · rw [hrun, m2]

/-- C87, `mybinmsg` over TCP: against every master that accepts the login, lists its files and opens the stream, the
program logs the files of the server, and then every event this library knows that the master sends, in order, whatever
comes after them. -/
theorem C87_mybinmsg_partial (w : World) (hH : w.hashes.Sized) (host port user password : Bytes)
    (hu : (0 : UInt8) ∉ user ∧ user.length < 2 ^ 30) (huu : w.uuid.length = 36) (hr : w.random < 2 ^ 32)
    (inp method nonce mid rest : Bytes) (hs : w.stream 0 (host ++ Spec.ascii ":" ++ port) = some inp)
    (hw : Spec.Welcomes password inp method nonce mid)
    {cols : List (Spec.ColDef × ColumnType)} {wa st : Nat} {rows : List (List (Option Bytes))} {term : Bytes}
    (ha : Spec.AnswerOk (Spec.clientCaps []) cols wa st rows term) (files : List Cmd.BinlogFile)
    (hf : List.Forall₂ (fun row f => Spec.FileRow row f.filename f.size) rows files)
    (crc : Bool) (opening : List Bytes) (hopen : Spec.OpensStream (Spec.clientCaps []) crc opening)
    (es : List Spec.LogEvent) (hes : ∀ e ∈ es, e.InRange) (more : List Bytes)
    (hd : Spec.Delivers mid (Spec.textAnswer (Spec.clientCaps []) (cols.map (·.1)) wa st rows term ++
      (opening ++ (es.map (Spec.streamMessage crc) ++ more))) rest) :
    ∃ lines after, (mybinmsg w (.tcp host port user password)).lines = files.map .file ++ lines ++ after ∧
      List.Forall₂ (Spec.LogsEvent crc) (Spec.visible es) lines := by
  obtain ⟨lines, s, c, h1, -, h3, -⟩ := mybinmsg_runs w hH host port user password hu huu hr inp method nonce mid rest hs hw ha
    files hf crc opening hopen es hes more hd
  exact ⟨lines, _, h1, h3⟩

/-- C87, the end of `mybinmsg`: when a message comes that is not an event, such as an ERR packet, or when the server closes
the connection, the program ends with an error, having logged exactly the files and the events before it. -/
theorem C87_mybinmsg_end (w : World) (hH : w.hashes.Sized) (host port user password : Bytes)
    (hu : (0 : UInt8) ∉ user ∧ user.length < 2 ^ 30) (huu : w.uuid.length = 36) (hr : w.random < 2 ^ 32)
    (inp method nonce mid rest : Bytes) (hs : w.stream 0 (host ++ Spec.ascii ":" ++ port) = some inp)
    (hw : Spec.Welcomes password inp method nonce mid)
    {cols : List (Spec.ColDef × ColumnType)} {wa st : Nat} {rows : List (List (Option Bytes))} {term : Bytes}
    (ha : Spec.AnswerOk (Spec.clientCaps []) cols wa st rows term) (files : List Cmd.BinlogFile)
    (hf : List.Forall₂ (fun row f => Spec.FileRow row f.filename f.size) rows files)
    (crc : Bool) (opening : List Bytes) (hopen : Spec.OpensStream (Spec.clientCaps []) crc opening)
    (es : List Spec.LogEvent) (hes : ∀ e ∈ es, e.InRange) (more : List Bytes) (e : Err)
    (he : (∃ b t ms, b ≠ 0 ∧ more = (b :: t) :: ms ∧ e = .packet) ∨ more = [] ∧ rest = [] ∧ e = .io)
    (hd : Spec.Delivers mid (Spec.textAnswer (Spec.clientCaps []) (cols.map (·.1)) wa st rows term ++
      (opening ++ (es.map (Spec.streamMessage crc) ++ more))) rest) :
    ∃ lines, (mybinmsg w (.tcp host port user password)).lines = files.map .file ++ lines ∧
      List.Forall₂ (Spec.LogsEvent crc) (Spec.visible es) lines ∧
      (mybinmsg w (.tcp host port user password)).theEnd = .err e := by
  obtain ⟨lines, s, c, h1, h2, h3, h4, h5, c', h6, h7⟩ := mybinmsg_runs w hH host port user password hu huu hr inp method nonce
    mid rest hs hw ha files hf crc opening hopen es hes more hd
  have hn : ∃ c2, s.nextEvent c = .err e c2 := by
    have hsame : s.nextEvent c = s.nextEvent c' := by
      unfold BinlogStream.nextEvent
      rw [if_neg (by simp [h4]), if_neg (by simp [h4]), h6]
    rw [hsame]
    rcases he with ⟨b, t, ms, hb, rfl, rfl⟩ | ⟨rfl, rfl, rfl⟩
    · exact C53_other_message s h4 b t hb (.inl h5) ms rest c' h7
    · have hi := Delivers.nil h7
      have hrm : recvMsg c' = .err .io { c' with inp := [] } := by
        unfold recvMsg
        rw [hi, recvLoop.eq_def]
      refine ⟨{ c' with inp := [] }, ?_⟩
      unfold BinlogStream.nextEvent
      rw [if_neg (by simp [h4]), BinlogStream.nextLoop.eq_def, BinlogStream.recvAndParse, hrm]
  obtain ⟨c2, hn⟩ := hn
  have hl : msgLoop s c = ([], .err e, some c2) := by rw [msgLoop.eq_def, hn]
  rw [hl] at h1 h2
  exact ⟨lines, by rw [h1, List.append_nil], h3, h2⟩

/-- C87 fails for a server behind a socket: the configuration is accepted, and the program panics. -/
theorem C87_unix_socket_false (w : World) : (mybinmsg w .unixSocket).theEnd = .panic := rfl

/-! ### the hypotheses can be met -/

/-- the flags of the client without a database -/
abbrev plainCaps : Nat := Spec.clientCaps []

theorem example_welcome (mid : Bytes) : ∃ inp, Spec.Welcomes (Spec.ascii "pw") inp (Spec.ascii "mysql_native_password")
    ((List.range' 1 20).map UInt8.ofNat) mid := by
  obtain ⟨inp, h⟩ := delivers_small [Spec.okPacket plainCaps 0 ⟨0, 0, 2, 0, [], []⟩] mid
    (by intro m hm; simp only [List.mem_singleton] at hm; subst hm; decide +kernel)
  exact ⟨_, exampleGreeting, inp, ⟨0, 0, 2, 0, [], []⟩, exampleGreeting_inRange, by constructor <;> norm_num, by decide +kernel,
    by decide +kernel, by decide +kernel, by decide +kernel, by decide +kernel, by decide +kernel, rfl, Or.inl ⟨rfl, h⟩⟩

theorem plain_tells (value : Bytes) (hv : value.length < 100) :
    Spec.TellsVariable plainCaps value (Spec.textAnswer plainCaps [exampleTextDef, exampleTextDef] 0 2
      [[some (Spec.ascii "x"), some value]] (Spec.okPacket plainCaps 0xfe ⟨0, 0, 2, 0, [], []⟩)) := by
  have h : Spec.Supported (exampleTextDef, .varString) := by
    refine ⟨?_, by decide⟩
    constructor <;> first | (exact ⟨by decide, by decide⟩) | (exact (by decide))
  refine ⟨[(exampleTextDef, .varString), (exampleTextDef, .varString)], 0, 2, _, [], _, rfl,
    ⟨by simp, by simp, ?_, by norm_num, by norm_num, ?_, ?_, ?_⟩, rfl⟩
  · simp only [List.mem_cons, List.not_mem_nil, or_false, or_self, forall_eq]
    exact h
  · simp
  · intro row hr s hs
    simp only [List.mem_singleton] at hr
    subst hr
    simp only [List.mem_cons, List.not_mem_nil, or_false, Option.some.injEq] at hs
    rcases hs with rfl | rfl
    · decide +kernel
    · omega
  · unfold Spec.IsTerminator
    rw [if_pos (by decide)]
    exact ⟨_, ⟨by norm_num, by norm_num, by norm_num, by norm_num, by decide, by decide⟩, rfl, by decide +kernel⟩

theorem plain_accepts (id : Nat) (h : id < 100) : Spec.AcceptsSetting plainCaps id
    (Spec.prepareResponse plainCaps ⟨id, 0⟩ [exampleTextDef] [] 0 2 0 0 ++ [Spec.okPacket plainCaps 0 ⟨0, 0, 2, 0, [], []⟩]) := by
  refine ⟨0, 0, 2, (exampleTextDef, .varString), ⟨0, 0, 2, 0, [], []⟩, by omega, by norm_num, by norm_num, by norm_num, ?_,
    ?_, rfl⟩
  · refine ⟨?_, by decide⟩
    constructor <;> first | (exact ⟨by decide, by decide⟩) | (exact (by decide))
  · constructor <;> norm_num

theorem plain_opens : ∃ opening, Spec.OpensStream plainCaps true opening ∧ ∀ m ∈ opening, m.length < 0xffffff := by
  let tells : Bytes → List Bytes := fun value => Spec.textAnswer plainCaps [exampleTextDef, exampleTextDef] 0 2
      [[some (Spec.ascii "x"), some value]] (Spec.okPacket plainCaps 0xfe ⟨0, 0, 2, 0, [], []⟩)
  let accepts : Nat → List Bytes := fun id => Spec.prepareResponse plainCaps ⟨id, 0⟩ [exampleTextDef] [] 0 2 0 0
    ++ [Spec.okPacket plainCaps 0 ⟨0, 0, 2, 0, [], []⟩]
  let msgs : List Bytes := [tells (Spec.ascii "7"), accepts 1, tells (Spec.ascii "CRC32"), accepts 2, tells (Spec.ascii "ON"),
    tells (Spec.ascii "u"), accepts 3, [Spec.okPacket plainCaps 0 ⟨0, 0, 2, 0, [], []⟩]].flatten
  let rot : Spec.LogEvent := ⟨0, 4, 7, 0, 0, Spec.le 8 4 ++ Spec.ascii "f1"⟩
  let e : Spec.LogEvent := ⟨0, 15, 7, 0, 0, exampleFde.encode ++ Spec.u8 1 ++ Spec.le 4 5⟩
  refine ⟨_, ⟨7, Spec.ascii "CRC32", Spec.ascii "ON", 1, 2, 3, msgs, rot, 4, Spec.ascii "f1", e, exampleFde, 1, by decide +kernel,
    ?_, ?_, ?_, rfl, rfl⟩, ?_⟩
  · exact ⟨Spec.ascii "7", Spec.ascii "u", _, _, _, _, _, _, _, ⟨0, 0, 2, 0, [], []⟩, by decide +kernel, by norm_num,
      by decide +kernel, by decide +kernel, by decide +kernel, plain_tells _ (by decide), plain_accepts 1 (by norm_num),
      plain_tells _ (by decide), plain_accepts 2 (by norm_num), plain_tells _ (by decide), plain_tells _ (by decide),
      plain_accepts 3 (by norm_num), by constructor <;> norm_num, rfl⟩
  · exact ⟨by unfold Spec.LogEvent.InRange; decide +kernel, rfl, by norm_num, rfl⟩
  · exact ⟨by unfold Spec.LogEvent.InRange; decide +kernel, exampleFde_ok.1, exampleFde_ok.2, by norm_num, 5, by norm_num, rfl⟩
  · rw [decide_eq_true rfl]
    decide +kernel

theorem plain_lists : ∃ answers, Spec.ListsTables plainCaps exampleCatalogue
    (Spec.questions (exampleOpts 0).wanted (fun _ => none) (exampleLog.map (·.2))) answers ∧
    ∀ m ∈ answers, m.length < 0xffffff := by
  have h : Spec.Supported (exampleDef 8, .longLong) := by
    refine ⟨?_, by decide⟩
    constructor <;> first | (exact ⟨by decide, by decide⟩) | (exact (by decide))
  refine ⟨(Spec.okPacket plainCaps 0 ⟨0, 0, 2, 0, [], []⟩ ::
    Spec.fieldListResponse [(exampleDef 8, none)] (Spec.okPacket plainCaps 0xfe ⟨0, 0, 2, 0, [], []⟩)) ++ [],
    ⟨_, [], rfl, ⟨⟨0, 0, 2, 0, [], []⟩, [(exampleDef 8, .longLong, none)], _, ?_, ?_, ?_, rfl, rfl⟩,
      rfl⟩, by decide +kernel⟩
  · constructor <;> norm_num
  · intro col hcol
    simp only [List.mem_singleton] at hcol
    subst hcol
    exact ⟨h, by decide, by rintro v ⟨⟩⟩
  · unfold Spec.IsCommandEnd
    rw [if_pos (by decide)]
    exact ⟨_, rfl, rfl, by norm_num, rfl⟩

def exampleProg (limit : Nat) : ProgOpts where
  host := Spec.ascii "db"
  port := Spec.ascii "3306"
  username := Spec.ascii "root"
  password := Spec.ascii "pw"
  cmd := .dml (Spec.ascii "f1") true (some (Spec.ascii "^d$")) none false limit

/-- two connections with these bytes; the only regular expression is the one of the example -/
def exampleWorld (ft : FloatText) (inp1 inp2 : Bytes) : World where
  stream n a := if a = Spec.ascii "db:3306" then (if n = 0 then some inp1 else some inp2) else none
  regex s := if s = Spec.ascii "^d$" then some (fun db => db == Spec.ascii "d") else none
  hashes := realHashes
  ft := ft
  uuid := List.replicate 36 0x61
  random := 5

/-- the hypotheses of `C87_dml_partial` can be met: a run over the example log of C43 -/
theorem example_program (ft : FloatText) (limit : Nat) : ∃ inp1 inp2 out,
    Spec.PrintsAll ft (exampleOpts limit).wanted exampleCatalogue (fun _ => none) exampleLog out ∧
    (mybinlog (exampleWorld ft inp1 inp2) (exampleProg limit)).lines = (if limit = 0 then out else upTo limit out).map .dml ∧
    (mybinlog (exampleWorld ft inp1 inp2) (exampleProg limit)).theEnd = .done := by
  obtain ⟨answers, l1, l2⟩ := plain_lists
  obtain ⟨opening, o1, o2⟩ := plain_opens
  obtain ⟨mid1, hd⟩ := delivers_small (opening ++ (exampleLog.map (fun x => Spec.streamMessage true x.1) ++ [[0xfe]])) [] (by
    intro m hm
    rcases List.mem_append.1 hm with hm | hm
    · exact o2 m hm
    · have : ∀ m ∈ exampleLog.map (fun x => Spec.streamMessage true x.1) ++ [[0xfe]], m.length < 0xffffff := by decide +kernel
      exact this m hm)
  obtain ⟨mid2, hh⟩ := delivers_small answers [] l2
  obtain ⟨inp1, w1⟩ := example_welcome mid1
  obtain ⟨inp2, w2⟩ := example_welcome mid2
  obtain ⟨out, h⟩ := C87_dml_partial (exampleWorld ft inp1 inp2) realHashes_sized (exampleProg limit) (Spec.ascii "f1") true
    (some (Spec.ascii "^d$")) none limit rfl (some (fun db => db == Spec.ascii "d")) none ⟨_, rfl, rfl⟩ rfl
    ⟨(by decide +kernel : (0 : UInt8) ∉ Spec.ascii "root"), (by decide +kernel : (Spec.ascii "root").length < 2 ^ 30)⟩
    (List.length_replicate ..) (by show 5 < _; norm_num) ⟨by decide +kernel, by decide +kernel⟩ inp1 inp2 _ _ _ _ mid1 mid2 [] [] rfl rfl w1 w2 true
    opening o1 exampleCatalogue exampleLog example_says (fun _ _ _ => rfl) (example_logOk ft limit) [] hd answers l1 hh
  exact ⟨inp1, inp2, out, h⟩

theorem plain_files : Spec.AnswerOk plainCaps [(exampleTextDef, .varString), (exampleTextDef, .varString)] 0 2
    [[some (Spec.ascii "f1"), some (Spec.ascii "120")]] (Spec.okPacket plainCaps 0xfe ⟨0, 0, 2, 0, [], []⟩) := by
  have hdef : Spec.Supported (exampleTextDef, .varString) := by
    refine ⟨?_, by decide⟩
    constructor <;> first | (exact ⟨by decide, by decide⟩) | (exact (by decide))
  refine ⟨by simp, by simp, ?_, by norm_num, by norm_num, ?_, ?_, ?_⟩
  · simp only [List.mem_cons, List.not_mem_nil, or_false, or_self, forall_eq]
    exact hdef
  · simp
  · intro row hr s hs
    simp only [List.mem_singleton] at hr
    subst hr
    simp only [List.mem_cons, List.not_mem_nil, or_false, Option.some.injEq] at hs
    rcases hs with rfl | rfl <;> decide +kernel
  · unfold Spec.IsTerminator
    rw [if_pos (by decide)]
    exact ⟨_, ⟨by norm_num, by norm_num, by norm_num, by norm_num, by decide, by decide⟩, rfl, by decide +kernel⟩

theorem plain_files_small : ∀ m ∈ Spec.textAnswer plainCaps
    ([(exampleTextDef, ColumnType.varString), (exampleTextDef, ColumnType.varString)].map (·.1)) 0 2
    [[some (Spec.ascii "f1"), some (Spec.ascii "120")]] (Spec.okPacket plainCaps 0xfe ⟨0, 0, 2, 0, [], []⟩),
    m.length < 0xffffff := by decide +kernel

theorem plain_log_small : ∀ m ∈ (exampleLog.map (·.1)).map (Spec.streamMessage true) ++ [[0xff, 0x10, 0x04]],
    m.length < 0xffffff := by decide +kernel

theorem plain_log_range : ∀ e ∈ exampleLog.map (·.1), e.InRange := by
  unfold Spec.LogEvent.InRange
  decide +kernel

theorem plain_log_visible : (Spec.visible (exampleLog.map (·.1))).length = exampleLog.length := by decide +kernel

/-- the hypotheses of `C87_mybinmsg_end` can be met: a server with one file sends the example log of C43, then an ERR packet -/
theorem example_mybinmsg (ft : FloatText) : ∃ inp lines,
    (mybinmsg (exampleWorld ft inp []) (.tcp (Spec.ascii "db") (Spec.ascii "3306") (Spec.ascii "root") (Spec.ascii "pw"))).lines
      = .file ⟨Spec.ascii "f1", 120⟩ :: lines ∧ lines.length = exampleLog.length ∧
    (mybinmsg (exampleWorld ft inp []) (.tcp (Spec.ascii "db") (Spec.ascii "3306") (Spec.ascii "root") (Spec.ascii "pw"))).theEnd
      = .err .packet := by
  obtain ⟨opening, o1, o2⟩ := plain_opens
  obtain ⟨mid, hd⟩ := delivers_small (Spec.textAnswer plainCaps
    ([(exampleTextDef, ColumnType.varString), (exampleTextDef, ColumnType.varString)].map (·.1)) 0 2
      [[some (Spec.ascii "f1"), some (Spec.ascii "120")]] (Spec.okPacket plainCaps 0xfe ⟨0, 0, 2, 0, [], []⟩) ++
      (opening ++ ((exampleLog.map (·.1)).map (Spec.streamMessage true) ++ [[0xff, 0x10, 0x04]]))) [] (by
    intro m hm
    rcases List.mem_append.1 hm with hm | hm
    · exact plain_files_small m hm
    · rcases List.mem_append.1 hm with hm | hm
      · exact o2 m hm
      · exact plain_log_small m hm)
  obtain ⟨inp, w1⟩ := example_welcome mid
  have hs : (exampleWorld ft inp []).stream 0 (Spec.ascii "db" ++ Spec.ascii ":" ++ Spec.ascii "3306") = some inp := rfl
  have hu : (0 : UInt8) ∉ Spec.ascii "root" ∧ (Spec.ascii "root").length < 2 ^ 30 := ⟨by decide +kernel, by decide +kernel⟩
  have hid : (exampleWorld ft inp []).uuid.length = 36 := List.length_replicate ..
  have hr : (exampleWorld ft inp []).random < 2 ^ 32 := by show 5 < _; norm_num
  have hf : List.Forall₂ (fun row (f : Cmd.BinlogFile) => Spec.FileRow row f.filename f.size)
      [[some (Spec.ascii "f1"), some (Spec.ascii "120")]] [⟨Spec.ascii "f1", 120⟩] :=
    .cons ⟨_, [], rfl, by decide +kernel, by decide +kernel, by norm_num⟩ .nil
  have he : (∃ (b : UInt8) (t : Bytes) (ms : List Bytes), b ≠ 0 ∧ [[0xff, 0x10, 0x04]] = (b :: t) :: ms ∧ Err.packet = .packet) ∨
      [[(0xff : UInt8), 0x10, 0x04]] = [] ∧ ([] : Bytes) = [] ∧ Err.packet = .io := .inl ⟨_, _, _, by decide, rfl, rfl⟩
  have hz : (exampleWorld ft inp []).hashes.Sized := realHashes_sized
  have h := C87_mybinmsg_end (exampleWorld ft inp []) hz (Spec.ascii "db") (Spec.ascii "3306")
    (Spec.ascii "root") (Spec.ascii "pw") hu hid hr inp _ _ mid [] hs w1 plain_files [⟨Spec.ascii "f1", 120⟩] hf
    true opening o1 (exampleLog.map (·.1)) plain_log_range [[0xff, 0x10, 0x04]] .packet he
  have h := h hd
  obtain ⟨lines, h1, h2, h3⟩ := h
  refine ⟨inp, lines, ?_, ?_, ?_⟩
  · exact h1
  · rw [← h2.length_eq]
    exact plain_log_visible
  · exact h3

end Mybin
