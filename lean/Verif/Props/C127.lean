/-
C127: the log of `mybinmsg` tells the files and events of the server: every message has one line, and read as the values of
Rust it shows, it gives back the file or the event, to the last byte.
-/
import Verif.Model.MsgText
import Verif.Spec.MsgLog
import Verif.Props.C117

namespace Mybin

open Mybin.Spec (byteLiteral tokens oneOf flagList flagSet eventLine fileLine readLog hexValue blank identChar token)

/-! ### bytes -/

theorem hexValue_nibble : ∀ d, d < 16 → hexValue d.digitChar = some d := fun d h => (hexValue_digit d h).1

theorem ascii_char : ∀ n, n < 128 → (Char.ofNat n).toNat = n := by decide

/-- a byte of the data is read back as itself -/
theorem byteLiteral_byte (b : UInt8) (t : List Char) :
    byteLiteral .text (debugByte b ++ t) = (byteLiteral .text t).map fun x => (b :: x.1, x.2) := by
  unfold debugByte
  split
  · rename_i h; subst h; rfl
  split
  · rename_i h; subst h; rfl
  split
  · rename_i h; subst h; rfl
  split
  · rename_i h; subst h; rfl
  split
  · rename_i h; subst h; rfl
  split
  · rename_i h; subst h; rfl
  rename_i h1 h2 h3 h4 h5 h6
  have hb := UInt8.toNat_lt b
  split
  · rename_i h
    have hn : (Char.ofNat b.toNat).toNat = b.toNat := ascii_char b.toNat (by omega)
    have e1 : Char.ofNat b.toNat ≠ '"' := by
      intro e
      apply h5
      apply UInt8.toNat_inj.1
      rw [← hn, e]; rfl
    have e2 : Char.ofNat b.toNat ≠ '\\' := by
      intro e
      apply h4
      apply UInt8.toNat_inj.1
      rw [← hn, e]; rfl
    rw [List.cons_append, List.nil_append, byteLiteral, if_neg e1, if_neg e2, hn, if_pos (by omega), UInt8.ofNat_toNat]
  · simp only [List.cons_append, List.nil_append]
    rw [byteLiteral, if_neg (by decide), if_pos rfl, byteLiteral, if_pos rfl, byteLiteral, hexValue_nibble _ (by omega)]
    dsimp only
    rw [byteLiteral, hexValue_nibble _ (by omega)]
    dsimp only
    rw [show 16 * (b.toNat / 16) + b.toNat % 16 = b.toNat by omega, UInt8.ofNat_toNat]

theorem byteLiteral_bytes (bs : Bytes) (t : List Char) :
    byteLiteral .text (bs.flatMap debugByte ++ ('"' :: t)) = some (bs, t) := by
  induction bs with
  | nil => rfl
  | cons b bs ih =>
    rw [List.flatMap_cons, List.append_assoc, byteLiteral_byte, ih]
    rfl

/-! ### names and tokens -/

/-- white space and a token -/
def tokenOk (p : String × String) : Bool :=
  p.1.toList.all blank && (p.2.toList.dropWhile blank == p.2.toList) && !p.2.toList.isEmpty

/-- the text of tokens with the white space before each of them -/
def tokenText (ps : List (String × String)) : List Char := ps.flatMap fun p => p.1.toList ++ p.2.toList

theorem tokens_hit (t : List Char) : ∀ ps : List (String × String), ps.all tokenOk = true →
    tokens (ps.map (·.2)) (tokenText ps ++ t) = some t
  | [], _ => rfl
  | p :: ps, h => by
    simp only [List.all_cons, Bool.and_eq_true] at h
    obtain ⟨h1, h2⟩ := h
    unfold tokenOk at h1
    simp only [Bool.and_eq_true, beq_iff_eq, Bool.not_eq_true', List.isEmpty_eq_false_iff] at h1
    rw [List.map_cons, tokens, show tokenText (p :: ps) ++ t = p.1.toList ++ (p.2.toList ++ (tokenText ps ++ t)) by
      unfold tokenText; simp only [List.flatMap_cons, List.append_assoc], token_hit p.2 _ _ h1.1.1 ⟨h1.1.2, h1.2⟩]
    exact tokens_hit t ps h2

theorem oneOf_hit (names : List String) (w : String) (i : Nat) (hw : w.toList.all identChar = true ∧ w.toList ≠ [])
    (hi : names.findIdx? (fun n => n.toList == w.toList) = some i) (pre : List Char) (hp : pre.all blank = true) (c : Char)
    (hc : identChar c = false) (t : List Char) : oneOf names (pre ++ (w.toList ++ c :: t)) = some (i, c :: t) := by
  have hd : ∀ x ∈ w.toList, identChar x = true := List.all_eq_true.1 hw.1
  unfold oneOf
  rw [dropWhile_blank pre hp]
  have h0 : (w.toList ++ c :: t).dropWhile blank = w.toList ++ c :: t := by
    cases hl : w.toList with
    | nil => exact absurd hl hw.2
    | cons a l =>
      have ha := hd a (by rw [hl]; simp)
      have : ¬ blank a = true := by
        unfold blank
        intro e
        simp only [Bool.or_eq_true, beq_iff_eq] at e
        rcases e with rfl | rfl <;> revert ha <;> decide
      rw [List.cons_append, List.dropWhile_cons_of_neg this]
  have h1 : (w.toList ++ c :: t).takeWhile identChar = w.toList := by
    rw [List.takeWhile_append_of_pos hd, List.takeWhile_cons_of_neg (by simp [hc]), List.append_nil]
  have h2 : (w.toList ++ c :: t).dropWhile identChar = c :: t := by
    rw [List.dropWhile_append_of_pos hd, List.dropWhile_cons_of_neg (by simp [hc])]
  dsimp only
  rw [h0, h1, h2, hi]

theorem name_chars (k : LogEventType) : k.name.toList.all identChar = true ∧ k.name.toList ≠ [] := by
  cases k <;> decide +kernel

theorem name_place (k : LogEventType) : Spec.eventNames.findIdx? (fun n => n.toList == k.name.toList) = some k.toByte := by
  cases k <;> decide +kernel

theorem flagName_ok : ∀ i, i < 10 → ((flagName i).toList.all identChar = true ∧ (flagName i).toList ≠ []) ∧
    Spec.flagNames.findIdx? (fun n => n.toList == (flagName i).toList) = some i ∧
    (flagName i).toList.head? ≠ some '(' := by decide +kernel

/-! ### flags -/

theorem flagList_barred (t : List Char) : ∀ (is : List Nat) (fuel : Nat), is ≠ [] → (∀ i ∈ is, i < 10) → is.length ≤ fuel →
    ∀ pre : List Char, pre.all blank = true →
    flagList fuel (pre ++ (barred is ++ ' ' :: '}' :: t)) = some ((is.map (2 ^ ·)).sum, ' ' :: '}' :: t)
  | [], _, h, _, _, _, _ => absurd rfl h
  | _ :: _, 0, _, _, h, _, _ => by simp at h
  | [i], fuel + 1, _, hi, _, pre, hp => by
    obtain ⟨h1, h2, -⟩ := flagName_ok i (hi i (by simp))
    rw [flagList, barred, oneOf_hit _ _ i h1 h2 pre hp ' ' (by decide)]
    rfl
  | i :: j :: is, fuel + 1, _, hi, hf, pre, hp => by
    obtain ⟨h1, h2, -⟩ := flagName_ok i (hi i (by simp))
    have ih := flagList_barred t (j :: is) fuel (by simp) (fun i h => hi i (by simp [h])) (by simpa using hf) [' '] (by decide)
    rw [flagList, barred]
    · rw [show pre ++ ((flagName i).toList ++ " | ".toList ++ barred (j :: is) ++ ' ' :: '}' :: t)
          = pre ++ ((flagName i).toList ++ ' ' :: ('|' :: ([' '] ++ (barred (j :: is) ++ ' ' :: '}' :: t)))) by
          rw [show " | ".toList = [' ', '|', ' '] by decide +kernel]
          simp only [List.append_assoc, List.cons_append, List.nil_append],
        oneOf_hit _ _ i h1 h2 pre hp ' ' (by decide)]
      dsimp only [bind, Option.bind]
      have ht : ∀ x, token "|" (' ' :: '|' :: x) = some x := by
        intro x
        have := token_hit "|" [' '] x (by decide) (by decide +kernel)
        rw [show "|".toList = ['|'] by decide +kernel] at this
        exact this
      rw [ht]
      dsimp only
      rw [ih]
      rfl
    · simp

theorem flags_bits : ∀ n, n < 1024 → n ≠ 0 →
    ((List.range 10).filter fun i => n.testBit i) ≠ [] ∧
    (((List.range 10).filter fun i => n.testBit i).map (2 ^ ·)).sum = n := by decide +kernel

theorem barred_first (is : List Nat) (h : is ≠ []) (hi : ∀ i ∈ is, i < 10) :
    ∃ c r, barred is = c :: r ∧ c ≠ '(' ∧ blank c = false := by
  cases is with
  | nil => exact absurd rfl h
  | cons i is =>
    obtain ⟨⟨h1, h2⟩, -, h3⟩ := flagName_ok i (hi i (by simp))
    obtain ⟨c, r, e⟩ := List.exists_cons_of_ne_nil h2
    have hc : identChar c = true := List.all_eq_true.1 h1 c (by rw [e]; simp)
    have hb : blank c = false := by
      unfold blank
      rw [Bool.eq_false_iff]
      intro e
      simp only [Bool.or_eq_true, beq_iff_eq] at e
      rcases e with rfl | rfl <;> revert hc <;> decide
    rw [e] at h3
    refine ⟨c, ?_, ?_, by simpa using h3, hb⟩
    · exact r ++ (match is with | [] => [] | j :: js => " | ".toList ++ barred (j :: js))
    · cases is with
      | nil => rw [barred, e]; simp
      | cons j js => rw [barred, e]; · simp
                     · simp

/-- the flags are read back -/
theorem flagSet_text (n : Nat) (hn : n < 1024) (t : List Char) :
    flagSet (' ' :: (flagsText n ++ ' ' :: '}' :: t)) = some (n, ' ' :: '}' :: t) := by
  unfold flagSet
  by_cases h : n = 0
  · subst h
    rw [show ' ' :: (flagsText 0 ++ ' ' :: '}' :: t) = [' '] ++ ("(empty)".toList ++ ' ' :: '}' :: t) from rfl,
      token_hit "(empty)" [' '] _ (by decide) (by decide +kernel)]
  · obtain ⟨f1, f2⟩ := flags_bits n hn h
    have hi : ∀ i ∈ (List.range 10).filter (fun i => n.testBit i), i < 10 := by
      intro i h
      exact List.mem_range.1 (List.mem_filter.1 h).1
    have hl : ((List.range 10).filter (fun i => n.testBit i)).length ≤ 10 := List.length_filter_le _ _
    rw [flagsText, if_neg h]
    generalize (List.range 10).filter (fun i => n.testBit i) = is at f1 f2 hi hl
    obtain ⟨c, r, e, hc, hb⟩ := barred_first is f1 hi
    have hno : token "(empty)" (' ' :: (barred is ++ ' ' :: '}' :: t)) = none := by
      unfold token
      rw [List.dropWhile_cons_of_pos (by decide), e, List.cons_append, List.dropWhile_cons_of_neg (by simp [hb]),
        show "(empty)".toList = '(' :: "empty)".toList by decide +kernel]
      dsimp only
      rw [if_neg]
      simp only [List.isPrefixOf, Bool.and_eq_true, beq_iff_eq, not_and]
      exact fun e => absurd e.symm hc
    rw [hno]
    dsimp only
    have := flagList_barred t is 10 f1 hi hl [' '] (by decide)
    rw [f2] at this
    exact this

/-! ### messages -/

theorem tokens_lit (ws : List String) (ps : List (String × String)) (lit t : List Char) (hw : ws = ps.map (·.2))
    (hps : ps.all tokenOk = true) (hl : lit = tokenText ps ++ [' ']) : tokens ws (lit ++ t) = some (' ' :: t) := by
  rw [hw, hl, List.append_assoc]
  exact tokens_hit (' ' :: t) ps hps

theorem number_lit (n : Nat) (lit t : List Char) (hl : lit.head?.any (fun c => !c.isDigit) = true) :
    Spec.number (' ' :: (Nat.toDigits 10 n ++ (lit ++ t))) = some (n, lit ++ t) := by
  cases lit with
  | nil => cases hl
  | cons c r => exact number_digits [' '] (by decide) n c (by simpa using hl) (r ++ t)

theorem oneOf_lit (k : LogEventType) (pre lit t : List Char) (hp : pre.all blank = true)
    (hl : lit.head?.any (fun c => !identChar c) = true) :
    oneOf Spec.eventNames (pre ++ (k.name.toList ++ (lit ++ t))) = some (k.toByte, lit ++ t) := by
  cases lit with
  | nil => cases hl
  | cons c r => exact oneOf_hit _ _ _ (name_chars k) (name_place k) pre hp c (by simpa using hl) (r ++ t)

/-- the message for an event gives back the event -/
theorem eventLine_text (marker : LogEventType → List Char) (e : Event) (hk : e.kind = e.header.typeCode)
    (hf : e.header.flags < 1024) :
    eventLine (eventText marker e) = some (⟨e.header.timestamp, e.header.typeCode.toByte, e.header.serverId, e.header.nextPos,
      e.header.flags, e.data⟩, e.header.eventLen) := by
  obtain ⟨kind, ⟨ts, tc, sid, len, pos, flags⟩, data⟩ := e
  dsimp only at hk hf
  subst hk
  unfold eventText headerText
  dsimp only
  have j1 : ∀ t : List Char, "(RawEvent { header: ".toList ++ ("EventHeader { timestamp: ".toList ++ t)
      = "(RawEvent { header: EventHeader { timestamp: ".toList ++ t := by
    intro t
    rw [← List.append_assoc, show "(RawEvent { header: ".toList ++ "EventHeader { timestamp: ".toList
      = "(RawEvent { header: EventHeader { timestamp: ".toList by decide +kernel]
  have j2 : ∀ t : List Char, " }".toList ++ (", data: b\"".toList ++ t) = ' ' :: '}' :: (", data: b\"".toList ++ t) := by
    intro t
    rw [show " }".toList = [' ', '}'] by decide +kernel]
    rfl
  have j3 : ∀ t : List Char, ' ' :: '}' :: (", data: b\"".toList ++ t)
      = tokenText [(" ", "}"), ("", ","), (" ", "data"), ("", ":"), (" ", "b\"")] ++ t := by
    intro t
    rw [show tokenText [(" ", "}"), ("", ","), (" ", "data"), ("", ":"), (" ", "b\"")] = ' ' :: '}' :: ", data: b\"".toList by
      decide +kernel]
    rfl
  have j4 : ∀ t : List Char, "\", _marker: PhantomData".toList ++ t
      = '"' :: (tokenText [("", ","), (" ", "_marker"), ("", ":"), (" ", "PhantomData")] ++ t) := by
    intro t
    rw [show "\", _marker: PhantomData".toList
      = '"' :: tokenText [("", ","), (" ", "_marker"), ("", ":"), (" ", "PhantomData")] by decide +kernel]
    rfl
  simp only [List.append_assoc]
  rw [j1, j2, j4]
  generalize marker kind ++ " })".toList = tail
  unfold eventLine
  have o1 : ∀ t, oneOf Spec.eventNames (kind.name.toList ++ ("(RawEvent { header: EventHeader { timestamp: ".toList ++ t))
      = some (kind.toByte, "(RawEvent { header: EventHeader { timestamp: ".toList ++ t) :=
    fun t => oneOf_lit kind [] _ t rfl (by decide +kernel)
  have o2 : ∀ t, oneOf Spec.eventNames (' ' :: (kind.name.toList ++ (", server_id: ".toList ++ t)))
      = some (kind.toByte, ", server_id: ".toList ++ t) :=
    fun t => oneOf_lit kind [' '] _ t rfl (by decide +kernel)
  rw [o1]
  dsimp only [bind, Option.bind]
  rw [tokens_lit _ [("", "("), ("", "RawEvent"), (" ", "{"), (" ", "header"), ("", ":"), (" ", "EventHeader"), (" ", "{"),
    (" ", "timestamp"), ("", ":")] _ _ (by rfl) (by decide +kernel) (by decide +kernel)]
  dsimp only
  rw [number_lit ts _ _ (by decide +kernel)]
  dsimp only
  rw [tokens_lit _ [("", ","), (" ", "type_code"), ("", ":")] _ _ (by rfl) (by decide +kernel) (by decide +kernel)]
  dsimp only
  rw [o2]
  dsimp only
  rw [tokens_lit _ [("", ","), (" ", "server_id"), ("", ":")] _ _ (by rfl) (by decide +kernel) (by decide +kernel)]
  dsimp only
  rw [number_lit sid _ _ (by decide +kernel)]
  dsimp only
  rw [tokens_lit _ [("", ","), (" ", "event_len"), ("", ":")] _ _ (by rfl) (by decide +kernel) (by decide +kernel)]
  dsimp only
  rw [number_lit len _ _ (by decide +kernel)]
  dsimp only
  rw [tokens_lit _ [("", ","), (" ", "next_pos"), ("", ":")] _ _ (by rfl) (by decide +kernel) (by decide +kernel)]
  dsimp only
  rw [number_lit pos _ _ (by decide +kernel)]
  dsimp only
  rw [tokens_lit _ [("", ","), (" ", "flags"), ("", ":")] _ _ (by rfl) (by decide +kernel) (by decide +kernel)]
  dsimp only
  rw [flagSet_text flags hf]
  dsimp only
  rw [j3]
  rw [show ["}", ",", "data", ":", "b\""] = [(" ", "}"), ("", ","), (" ", "data"), ("", ":"), (" ", "b\"")].map (·.2) from rfl,
    tokens_hit _ _ (by decide +kernel)]
  dsimp only
  rw [byteLiteral_bytes]
  dsimp only
  rw [show [",", "_marker", ":", "PhantomData"] = [("", ","), (" ", "_marker"), ("", ":"), (" ", "PhantomData")].map (·.2)
    from rfl, tokens_hit _ _ (by decide +kernel)]
  dsimp only
  rw [if_pos rfl]

/-- the message for a file gives back its name and size -/
theorem fileLine_text (p : Char → Bool) (f : Cmd.BinlogFile) :
    fileLine (fileLineText p f) = some (charsOf f.filename, f.size) := by
  unfold fileLineText debugStr
  have j1 : ∀ t : List Char, "BinlogFile { filename: ".toList ++ (['"'] ++ t)
      = tokenText [("", "BinlogFile"), (" ", "{"), (" ", "filename"), ("", ":"), (" ", "\"")] ++ t := by
    intro t
    rw [show tokenText [("", "BinlogFile"), (" ", "{"), (" ", "filename"), ("", ":"), (" ", "\"")]
      = "BinlogFile { filename: ".toList ++ ['"'] by decide +kernel, List.append_assoc]
  simp only [List.append_assoc]
  rw [j1]
  unfold fileLine
  rw [show ["BinlogFile", "{", "filename", ":", "\""]
      = [("", "BinlogFile"), (" ", "{"), (" ", "filename"), ("", ":"), (" ", "\"")].map (·.2) from rfl,
    tokens_hit _ _ (by decide +kernel)]
  dsimp only [bind, Option.bind]
  rw [List.cons_append, List.nil_append, literal_str]
  dsimp only
  rw [tokens_lit _ [("", ","), (" ", "size"), ("", ":")] _ _ (by rfl) (by decide +kernel) (by decide +kernel)]
  dsimp only
  have := number_lit f.size " }".toList [] (by decide +kernel)
  rw [List.append_nil] at this
  rw [this]
  dsimp only
  have := tokens_hit [] [(" ", "}")] (by decide +kernel)
  rw [show tokenText [(" ", "}")] ++ [] = " }".toList by decide +kernel] at this
  rw [show ["}"] = [(" ", "}")].map (·.2) from rfl, this]
  rfl

/-! ### events the library delivers -/

/-- the type in the header is that of the variant, and there are ten flags -/
def Spec.Tidy (e : Event) : Prop := e.kind = e.header.typeCode ∧ e.header.flags < 1024

theorem header_flags {inp rest : Bytes} {h : EventHeader} (e : EventHeader.readFrom inp = .ok h rest) : h.flags < 1024 := by
  unfold EventHeader.readFrom at e
  obtain ⟨v1, r1, -, e⟩ := P.bind_eq_ok.1 e
  obtain ⟨np, r2, -, e⟩ := P.bind_eq_ok.1 e
  obtain ⟨fl, r3, -, e⟩ := P.bind_eq_ok.1 e
  cases e
  have : fl &&& 0x03ff = fl % 2 ^ 10 := Nat.and_two_pow_sub_one_eq_mod _ 10
  show fl &&& 0x03ff < 1024
  omega

theorem parseEvent_tidy (p : ParserV4) (validate : Bool) (inp rest : Bytes) (e : Event)
    (h : p.parseEvent validate inp = .ok (some e) rest) : Spec.Tidy e := by
  unfold ParserV4.parseEvent at h
  obtain ⟨_, r1, -, h⟩ := P.bind_eq_ok.1 h
  obtain ⟨hd, r2, h2, h⟩ := P.bind_eq_ok.1 h
  obtain ⟨n, r3, -, h⟩ := P.bind_eq_ok.1 h
  obtain ⟨d, r4, -, h⟩ := P.bind_eq_ok.1 h
  obtain ⟨d', r5, -, h⟩ := P.bind_eq_ok.1 h
  split at h
  · cases h
    exact ⟨rfl, header_flags h2⟩
  · cases h

theorem recvAndParse_tidy (s : BinlogStream) (c c' : Conn) (e : Event) (h : s.recvAndParse c = .ok (.single e) c') :
    Spec.Tidy e := by
  unfold BinlogStream.recvAndParse at h
  split at h
  · cases h
  · rename_i b t c1 _
    split at h
    · cases h
    split at h
    · cases h
    split at h
    · rename_i e' c2 hp
      cases h
      unfold M.parse at hp
      split at hp
      · rename_i a r hq
        cases hp
        exact parseEvent_tidy _ _ _ _ _ hq
      · cases hp
      · cases hp
      · cases hp
    · cases h
    · cases h
    · cases h
    · cases h
  · cases h
  · cases h
  · cases h

theorem nextLoop_tidy (s s' : BinlogStream) (c c' : Conn) (e : Event) (h : s.nextLoop c = .ok (some e, s') c') :
    Spec.Tidy e := by
  induction hn : c.inp.length using Nat.strong_induction_on generalizing c with
  | _ n ih =>
    rw [BinlogStream.nextLoop] at h
    split at h
    · rename_i e' c1 hr
      cases h
      exact recvAndParse_tidy _ _ _ _ hr
    · split at h
      · rename_i c1 _ hl
        exact ih _ (by omega) _ h rfl
      · cases h
    · cases h
    · cases h
    · cases h
    · cases h

theorem msgLoop_tidy (s : BinlogStream) (c : Conn) : ∀ l ∈ (msgLoop s c).1, ∃ e, l = .event e ∧ Spec.Tidy e := by
  induction hn : c.inp.length using Nat.strong_induction_on generalizing s c with
  | _ n ih =>
    rw [msgLoop]
    have hne : ∀ ev s' c', s.nextEvent c = .ok (some ev, s') c' → Spec.Tidy ev := by
      intro ev s' c' h
      unfold BinlogStream.nextEvent at h
      split at h
      · cases h
      · exact nextLoop_tidy _ _ _ _ _ h
    split
    · simp
    · rename_i ev s' c' hev
      split
      · rename_i hl
        intro l hl'
        rcases List.mem_cons.1 hl' with rfl | hl'
        · exact ⟨ev, rfl, hne _ _ _ hev⟩
        · exact ih _ (by omega) s' c' rfl l hl'
      · intro l hl'
        simp only [List.mem_singleton] at hl'
        exact ⟨ev, hl', hne _ _ _ hev⟩
    · simp
    · simp
    · simp

/-! ### claims -/

/-- C127: the message for an event, read as the value of Rust it shows, gives back the event: its type, every field of its
header with the flags, and its data, whatever bytes it has. The type is told twice, and both are the same. -/
theorem C127_event (marker : LogEventType → List Char) (printable : Char → Bool) (p : ParserV4) (validate : Bool)
    (inp rest : Bytes) (e : Event) (h : p.parseEvent validate inp = .ok (some e) rest) :
    eventLine (MsgLine.text marker printable (.event e)) = some (⟨e.header.timestamp, e.kind.toByte, e.header.serverId,
      e.header.nextPos, e.header.flags, e.data⟩, e.header.eventLen) := by
  obtain ⟨h1, h2⟩ := parseEvent_tidy p validate inp rest e h
  rw [h1]
  exact eventLine_text marker e h1 h2

/-- C127: events that differ in anything have different messages, even if they come from different logs -/
theorem C127_different (marker : LogEventType → List Char) (printable : Char → Bool) (p p' : ParserV4) (validate validate' : Bool)
    (inp rest inp' rest' : Bytes) (e e' : Event) (h : p.parseEvent validate inp = .ok (some e) rest)
    (h' : p'.parseEvent validate' inp' = .ok (some e') rest')
    (same : MsgLine.text marker printable (.event e) = MsgLine.text marker printable (.event e')) : e = e' := by
  have r := C127_event marker printable p validate inp rest e h
  rw [same, C127_event marker printable p' validate' inp' rest' e' h'] at r
  obtain ⟨h1, -⟩ := parseEvent_tidy p validate inp rest e h
  obtain ⟨h2, -⟩ := parseEvent_tidy p' validate' inp' rest' e' h'
  obtain ⟨k, ⟨ts, tc, sid, len, pos, flags⟩, data⟩ := e
  obtain ⟨k', ⟨ts', tc', sid', len', pos', flags'⟩, data'⟩ := e'
  dsimp only at h1 h2 r
  subst h1 h2
  simp only [Option.some.injEq, Prod.mk.injEq, Spec.LogEvent.mk.injEq] at r
  obtain ⟨⟨rfl, r2, rfl, rfl, rfl, rfl⟩, rfl⟩ := r
  have hb : ∀ k : LogEventType, LogEventType.tryFrom k.toByte = some k := by intro k; cases k <;> rfl
  have := hb k
  rw [← r2, hb k'] at this
  cases this
  rfl

/-- what a message should tell -/
def Spec.EntryOf : MsgLine → Spec.LogEntry → Prop
  | .file f, .file name size => size = f.size ∧ ∀ cs, f.filename = Spec.utf8 cs → name = cs
  | .event e, .event l len => l = ⟨e.header.timestamp, e.kind.toByte, e.header.serverId, e.header.nextPos, e.header.flags, e.data⟩ ∧
      len = e.header.eventLen
  | _, _ => False

theorem note_capital (c : Char) (r : List Char) (h : c ≠ 'l' ∧ c ≠ 'r' ∧ c ≠ 'b') : Spec.isNote (c :: r) = false := by
  unfold Spec.isNote
  rw [show "list of binlog files: ".toList = 'l' :: "ist of binlog files: ".toList by decide +kernel,
    show "requesting binlog stream".toList = 'r' :: "equesting binlog stream".toList by decide +kernel,
    show "binlog stream requested".toList = 'b' :: "inlog stream requested".toList by decide +kernel]
  simp only [List.isPrefixOf, Bool.or_eq_false_iff, Bool.and_eq_false_iff, beq_eq_false_iff_ne, ne_eq, List.cons.injEq, not_and]
  exact ⟨⟨.inl fun e => h.1 e.symm, fun e => absurd e h.2.1⟩, fun e => absurd e h.2.2⟩

theorem note_file (p : Char → Bool) (f : Cmd.BinlogFile) : Spec.isNote (fileLineText p f) = false := by
  unfold fileLineText
  rw [show "BinlogFile { filename: ".toList = 'B' :: "inlogFile { filename: ".toList by decide +kernel]
  exact note_capital _ _ (by decide)

theorem name_first (k : LogEventType) : ∃ c d r, k.name.toList = c :: d :: r ∧ (c ≠ 'l' ∧ c ≠ 'r' ∧ c ≠ 'b') ∧
    ¬ (c = 'B' ∧ d = 'i') ∧ blank c = false := by
  have h : ∀ k : LogEventType, k.name.toList = k.name.toList.head! :: k.name.toList.tail.head! :: k.name.toList.tail.tail ∧
      (k.name.toList.head! ≠ 'l' ∧ k.name.toList.head! ≠ 'r' ∧ k.name.toList.head! ≠ 'b') ∧
      ¬ (k.name.toList.head! = 'B' ∧ k.name.toList.tail.head! = 'i') ∧ blank k.name.toList.head! = false := by
    intro k; cases k <;> decide +kernel
  exact ⟨_, _, _, h k⟩

theorem note_event (m : LogEventType → List Char) (e : Event) : Spec.isNote (eventText m e) = false ∧
    fileLine (eventText m e) = none := by
  obtain ⟨c, d, r, h1, h2, h3, h4⟩ := name_first e.kind
  unfold eventText
  rw [h1]
  simp only [List.append_assoc, List.cons_append]
  refine ⟨note_capital _ _ h2, ?_⟩
  unfold fileLine
  rw [tokens]
  have : ∀ t, token "BinlogFile" (c :: d :: t) = none := by
    intro t
    unfold token
    rw [List.dropWhile_cons_of_neg (by simp [h4]), show "BinlogFile".toList = 'B' :: 'i' :: "nlogFile".toList by decide +kernel]
    dsimp only
    rw [if_neg]
    simp only [List.isPrefixOf, Bool.and_eq_true, beq_iff_eq, not_and]
    intro e1 e2
    exact absurd ⟨e1.symm, e2.symm⟩ h3
  rw [this]
  rfl

theorem readLog_lines (m : LogEventType → List Char) (p : Char → Bool) : ∀ ls : List MsgLine,
    (∀ l ∈ ls, ∀ e, l = .event e → Spec.Tidy e) →
    ∃ es, readLog (ls.map (MsgLine.text m p)) = some es ∧ List.Forall₂ Spec.EntryOf ls es
  | [], _ => ⟨[], rfl, .nil⟩
  | .file f :: ls, h => by
    obtain ⟨es, h1, h2⟩ := readLog_lines m p ls fun l hl => h l (by simp [hl])
    refine ⟨.file (charsOf f.filename) f.size :: es, ?_, .cons ⟨rfl, ?_⟩ h2⟩
    · rw [List.map_cons, show MsgLine.text m p (.file f) = fileLineText p f from rfl, readLog, h1]
      dsimp only
      rw [note_file, fileLine_text]
      rfl
    · intro cs hc
      rw [hc, charsOf_utf8]
  | .event e :: ls, h => by
    obtain ⟨es, h1, h2⟩ := readLog_lines m p ls fun l hl => h l (by simp [hl])
    obtain ⟨t1, t2⟩ := h (.event e) (by simp) e rfl
    refine ⟨.event _ _ :: es, ?_, .cons ⟨rfl, rfl⟩ h2⟩
    rw [List.map_cons, show MsgLine.text m p (.event e) = eventText m e from rfl, readLog, h1]
    dsimp only
    rw [(note_event m e).1, (note_event m e).2, eventLine_text m e t1 t2, t1]
    rfl

theorem readLog_notes (a b : List (List Char)) (h : ∀ t ∈ a, Spec.isNote t = true) : readLog (a ++ b) = readLog b := by
  induction a with
  | nil => rfl
  | cons t a ih =>
    rw [List.cons_append, readLog, ih fun x hx => h x (by simp [hx])]
    cases readLog b with
    | none => rfl
    | some es =>
      dsimp only
      rw [if_pos (h t (by simp))]

theorem readLog_append (b : List (List Char)) (ys : List Spec.LogEntry) (hb : readLog b = some ys) :
    ∀ (a : List (List Char)) (xs : List Spec.LogEntry), readLog a = some xs → readLog (a ++ b) = some (xs ++ ys)
  | [], xs, h => by
    cases h
    exact hb
  | t :: a, xs, h => by
    rw [readLog] at h
    rw [List.cons_append, readLog]
    cases ha : readLog a with
    | none => rw [ha] at h; cases h
    | some xs' =>
      rw [ha] at h
      rw [readLog_append b ys hb a xs' ha]
      dsimp only at h ⊢
      split at h
      · rename_i hn
        cases h
        rw [if_pos hn]
      · rename_i hn
        rw [if_neg hn]
        split at h
        · cases h
          rfl
        · split at h
          · cases h
            rfl
          · cases h

/-- C127, every run: whatever the server does, each message of the program is readable, and those about files and events
tell exactly the files and events it printed, in order. -/
theorem C127_log (marker : LogEventType → List Char) (printable : Char → Bool) (w : World) (conf : MsgConnect) :
    ∃ entries, readLog (mybinmsgLog marker printable w conf) = some entries ∧
      List.Forall₂ Spec.EntryOf (mybinmsg w conf).lines entries := by
  unfold mybinmsgLog mybinmsg
  cases conf with
  | unixSocket => exact ⟨[], rfl, .nil⟩
  | tcp host port username password =>
    dsimp only
    cases connect w 0 host port username password with
    | err e c => exact ⟨[], rfl, .nil⟩
    | panic => exact ⟨[], rfl, .nil⟩
    | hang => exact ⟨[], rfl, .nil⟩
    | ok u conn =>
      dsimp only
      cases Cmd.binlogFiles conn with
      | err e c => exact ⟨[], rfl, .nil⟩
      | panic => exact ⟨[], rfl, .nil⟩
      | hang => exact ⟨[], rfl, .nil⟩
      | ok files c =>
        dsimp only
        have hn : Spec.isNote ("list of binlog files: ".toList ++ Nat.toDigits 10 files.length) = true := by
          unfold Spec.isNote
          simp
        obtain ⟨fs, hf, hf'⟩ := readLog_lines marker printable (files.map .file) (by
          intro l hl e he
          subst he
          simp at hl)
        rw [List.map_map] at hf
        have key : ∀ ls : List MsgLine, (∀ l ∈ ls, ∀ e, l = .event e → Spec.Tidy e) → ∀ ns : List (List Char),
            (∀ t ∈ ns, Spec.isNote t = true) →
            ∃ entries, readLog (["list of binlog files: ".toList ++ Nat.toDigits 10 files.length]
              ++ files.map (fileLineText printable) ++ ["requesting binlog stream".toList]
              ++ (ns ++ ls.map (MsgLine.text marker printable))) = some entries ∧
              List.Forall₂ Spec.EntryOf (files.map .file ++ ls) entries := by
          intro ls hls ns hns
          obtain ⟨es, he, he'⟩ := readLog_lines marker printable ls hls
          refine ⟨fs ++ es, ?_, List.rel_append hf' he'⟩
          rw [List.append_assoc, List.append_assoc, readLog_notes _ _ (by simpa using hn)]
          apply readLog_append _ _ _ _ _ hf
          rw [← List.append_assoc, readLog_notes _ _ ?_]
          · exact he
          · intro t ht
            rcases List.mem_append.1 ht with ht | ht
            · simp only [List.mem_singleton] at ht
              subst ht
              decide +kernel
            · exact hns t ht
        cases defaultRequest.requestStream w.uuid w.random c with
        | ok s c =>
          refine key (msgLoop s c).1 ?_ ["binlog stream requested".toList] (by decide +kernel)
          intro l hl e he
          obtain ⟨e', h1, h2⟩ := msgLoop_tidy s c l hl
          rw [he] at h1
          cases h1
          exact h2
        | err e c =>
          have := key [] (by simp) [] (by simp)
          rw [List.append_nil] at this
          exact this
        | panic =>
          have := key [] (by simp) [] (by simp)
          rw [List.append_nil] at this
          exact this
        | hang =>
          have := key [] (by simp) [] (by simp)
          rw [List.append_nil] at this
          exact this

/-- C127, against a server: the program accepts the login, lists files with names of any characters, and sends events, until
a message comes that is not an event or the connection is closed (see `C87_mybinmsg_end`). Then the messages of the program
tell the names and sizes the server told, and every event of the types the library knows, as the server encoded it. -/
theorem C127_server (marker : LogEventType → List Char) (printable : Char → Bool) (w : World) (hH : w.hashes.Sized)
    (host port user password : Bytes) (hu : (0 : UInt8) ∉ user ∧ user.length < 2 ^ 30) (huu : w.uuid.length = 36)
    (hr : w.random < 2 ^ 32) (inp method nonce mid rest : Bytes) (hs : w.stream 0 (host ++ Spec.ascii ":" ++ port) = some inp)
    (hw : Spec.Welcomes password inp method nonce mid)
    {cols : List (Spec.ColDef × ColumnType)} {wa st : Nat} {rows : List (List (Option Bytes))} {term : Bytes}
    (ha : Spec.AnswerOk (Spec.clientCaps []) cols wa st rows term) (files : List (List Char × Nat))
    (hf : List.Forall₂ (fun row f => Spec.FileRow row (Spec.utf8 f.1) f.2) rows files)
    (crc : Bool) (opening : List Bytes) (hopen : Spec.OpensStream (Spec.clientCaps []) crc opening)
    (es : List Spec.LogEvent) (hes : ∀ e ∈ es, e.InRange) (more : List Bytes)
    (he : (∃ b t ms, b ≠ 0 ∧ more = (b :: t) :: ms) ∨ more = [] ∧ rest = [])
    (hd : Spec.Delivers mid (Spec.textAnswer (Spec.clientCaps []) (cols.map (·.1)) wa st rows term ++
      (opening ++ (es.map (Spec.streamMessage crc) ++ more))) rest) :
    readLog (mybinmsgLog marker printable w (.tcp host port user password)) = some
      (files.map (fun f => .file f.1 f.2) ++ (Spec.visible es).map fun e => .event e (e.len crc)) := by
  let fs : List Cmd.BinlogFile := files.map fun f => ⟨Spec.utf8 f.1, f.2⟩
  have hf' : List.Forall₂ (fun row (f : Cmd.BinlogFile) => Spec.FileRow row f.filename f.size) rows fs := by
    clear ha hd
    show List.Forall₂ _ rows (files.map _)
    rw [List.forall₂_map_right_iff]
    exact hf
  have he' : ∃ er : Err, (∃ b t ms, b ≠ 0 ∧ more = (b :: t) :: ms ∧ er = .packet) ∨ more = [] ∧ rest = [] ∧ er = .io := by
    rcases he with ⟨b, t, ms, h1, h2⟩ | ⟨h1, h2⟩
    · exact ⟨.packet, .inl ⟨b, t, ms, h1, h2, rfl⟩⟩
    · exact ⟨.io, .inr ⟨h1, h2, rfl⟩⟩
  obtain ⟨er, he'⟩ := he'
  obtain ⟨lines, l1, l2, -⟩ := C87_mybinmsg_end w hH host port user password hu huu hr inp method nonce mid rest hs hw ha fs hf'
    crc opening hopen es hes more er he' hd
  obtain ⟨entries, r1, r2⟩ := C127_log marker printable w (.tcp host port user password)
  rw [r1, Option.some.injEq]
  rw [l1] at r2
  clear r1 l1 hd ha hf hf' he'
  have e2 : ∀ (evs : List Spec.LogEvent) (ls : List MsgLine), List.Forall₂ (Spec.LogsEvent crc) evs ls →
      ∀ en, List.Forall₂ Spec.EntryOf ls en → en = evs.map fun e => .event e (e.len crc) := by
    intro evs ls h
    induction h with
    | nil => intro en h; cases h; rfl
    | @cons e l evs ls h1 _ ih =>
      intro en h
      cases h with
      | @cons _ x _ xs t1 t2 =>
        rw [List.map_cons, ih _ t2]
        obtain ⟨k, hk, rfl⟩ := h1
        cases x with
        | file _ _ => exact t1.elim
        | event l len =>
          obtain ⟨rfl, rfl⟩ := t1
          obtain ⟨a1, a2, a3, a4, a5, a6⟩ := e
          dsimp only at hk ⊢
          rw [hk]
  have e1 : ∀ (ds : List (List Char × Nat)) (en : List Spec.LogEntry),
      List.Forall₂ Spec.EntryOf ((ds.map fun f => (⟨Spec.utf8 f.1, f.2⟩ : Cmd.BinlogFile)).map .file ++ lines) en →
      en = ds.map (fun f => .file f.1 f.2) ++ (Spec.visible es).map fun e => .event e (e.len crc) := by
    intro ds
    induction ds with
    | nil => intro en h; exact e2 _ _ l2 _ h
    | cons f ds ih =>
      intro en h
      cases h with
      | @cons _ x _ xs t1 t2 =>
        rw [List.map_cons, List.cons_append, ih _ t2]
        cases x with
        | event _ _ => exact t1.elim
        | file name size =>
          obtain ⟨rfl, t⟩ := t1
          rw [t f.1 rfl]
  exact e1 files entries r2

/-! ### lines -/

theorem debugByte_graphic (b : UInt8) : ∀ d ∈ debugByte b, 0x20 ≤ d.toNat ∧ d.toNat < 0x7f := by
  have h : ∀ n, n < 256 → ∀ d ∈ debugByte (UInt8.ofNat n), 0x20 ≤ d.toNat ∧ d.toNat < 0x7f := by decide +kernel
  have := h b.toNat (UInt8.toNat_lt b)
  rwa [UInt8.ofNat_toNat] at this

theorem graphic_fixed (w : List Char) (h : w.all (fun d => decide (0x20 ≤ d.toNat)) = true) : ∀ d ∈ w, 0x20 ≤ d.toNat := by
  intro d hd
  simpa only [decide_eq_true_eq] using List.all_eq_true.1 h d hd

theorem graphic_digits (n : Nat) : ∀ d ∈ Nat.toDigits 10 n, 0x20 ≤ d.toNat := by
  intro d hd
  have := Nat.isDigit_of_mem_toDigits (by norm_num) (by norm_num) hd
  unfold Char.isDigit at this
  simp only [Bool.and_eq_true, decide_eq_true_eq, ge_iff_le, UInt32.le_iff_toNat_le] at this
  have h := this.1
  show 0x20 ≤ d.val.toNat
  have : ('0' : Char).val.toNat = 48 := by decide
  omega

theorem graphic_append {a b : List Char} (ha : ∀ d ∈ a, 0x20 ≤ d.toNat) (hb : ∀ d ∈ b, 0x20 ≤ d.toNat) :
    ∀ d ∈ a ++ b, 0x20 ≤ d.toNat := by
  intro d hd
  rcases List.mem_append.1 hd with h | h
  · exact ha d h
  · exact hb d h

theorem graphic_name (k : LogEventType) : ∀ d ∈ k.name.toList, 0x20 ≤ d.toNat := by
  apply graphic_fixed
  cases k <;> decide +kernel

theorem graphic_flag (i : Nat) : ∀ d ∈ (flagName i).toList, 0x20 ≤ d.toNat := by
  apply graphic_fixed
  unfold flagName
  split <;> decide +kernel

theorem graphic_barred : ∀ is : List Nat, ∀ d ∈ barred is, 0x20 ≤ d.toNat
  | [] => by intro d hd; cases hd
  | [i] => graphic_flag i
  | i :: j :: is => by
    rw [barred]
    · exact graphic_append (graphic_append (graphic_flag i) (graphic_fixed _ (by decide +kernel))) (graphic_barred (j :: is))
    · simp

theorem graphic_flags (n : Nat) : ∀ d ∈ flagsText n, 0x20 ≤ d.toNat := by
  unfold flagsText
  split
  · exact graphic_fixed _ (by decide +kernel)
  · exact graphic_barred _

theorem graphic_event (marker : LogEventType → List Char) (hm : ∀ k, ∀ d ∈ marker k, 0x20 ≤ d.toNat) (e : Event) :
    ∀ d ∈ eventText marker e, 0x20 ≤ d.toNat := by
  unfold eventText headerText
  repeat' apply graphic_append
  all_goals first
    | exact graphic_fixed _ (by decide +kernel)
    | exact graphic_digits _
    | exact graphic_name _
    | exact graphic_flags _
    | exact hm _
    | skip
  intro d hd
  obtain ⟨b, -, hd⟩ := List.mem_flatMap.1 hd
  exact (debugByte_graphic b d hd).1

theorem graphic_file (p : Char → Bool) (hp : ∀ c, c.toNat < 0x20 → p c = false) (f : Cmd.BinlogFile) :
    ∀ d ∈ fileLineText p f, 0x20 ≤ d.toNat := by
  unfold fileLineText debugStr
  repeat' apply graphic_append
  all_goals first
    | exact graphic_fixed _ (by decide +kernel)
    | exact graphic_digits _
    | skip
  intro d hd
  obtain ⟨c, -, hd⟩ := List.mem_flatMap.1 hd
  exact debugChar_graphic p hp c d hd

/-- C127: every message is one line: whatever the data of an event or the name of a file, it has no control character, if
control characters are not held to be printable, and the names of types have none. -/
theorem C127_one_line (marker : LogEventType → List Char) (printable : Char → Bool)
    (hm : ∀ k, ∀ d ∈ marker k, 0x20 ≤ d.toNat) (hp : ∀ c, c.toNat < 0x20 → printable c = false) (w : World) (conf : MsgConnect) :
    ∀ t ∈ mybinmsgLog marker printable w conf, ∀ d ∈ t, 0x20 ≤ d.toNat := by
  unfold mybinmsgLog
  cases conf with
  | unixSocket => intro t ht; cases ht
  | tcp host port username password =>
    dsimp only
    split
    · split
      · rename_i files c _
        intro t ht
        rcases List.mem_append.1 ht with ht | ht
        · rcases List.mem_append.1 ht with ht | ht
          · rcases List.mem_append.1 ht with ht | ht
            · simp only [List.mem_singleton] at ht
              subst ht
              exact graphic_append (graphic_fixed _ (by decide +kernel)) (graphic_digits _)
            · obtain ⟨f, -, rfl⟩ := List.mem_map.1 ht
              exact graphic_file printable hp f
          · simp only [List.mem_singleton] at ht
            subst ht
            exact graphic_fixed _ (by decide +kernel)
        · split at ht
          · rcases List.mem_cons.1 ht with rfl | ht
            · exact graphic_fixed _ (by decide +kernel)
            · obtain ⟨l, -, rfl⟩ := List.mem_map.1 ht
              cases l with
              | file f => exact graphic_file printable hp f
              | event e => exact graphic_event marker hm e
          · cases ht
      · intro t ht; cases ht
    · intro t ht; cases ht

/-! ### examples -/

/-- a format description as an artificial event, with a quote, a newline and a byte above 127 in its data -/
example : String.ofList (eventText (fun _ => []) ⟨.formatDescription, ⟨5, .formatDescription, 7, 25, 0, 0x21⟩,
      [0x61, 0x22, 0x0a, 0xff, 0x00, 0x5c]⟩)
    = "FormatDescriptionEvent(RawEvent { header: EventHeader { timestamp: 5, type_code: FormatDescriptionEvent, server_id: 7, event_len: 25, next_pos: 0, flags: BINLOG_IN_USE | ARTIFICIAL }, data: b\"a\\\"\\n\\xff\\0\\\\\", _marker: PhantomData })" := by
  decide +kernel

/-- an event that is parsed, with text in its data that looks like the end of the message, and the name of a type after
`PhantomData` -/
example : ∃ e, (ParserV4.mk [] false).parseEvent false
      ((⟨5, 2, 7, 100, 8, Spec.ascii "\", _marker: x })"⟩ : Spec.LogEvent).encode false) = .ok (some e) [] ∧
    eventLine (MsgLine.text (fun _ => "<QueryData>".toList) (fun _ => true) (.event e))
      = some (⟨5, 2, 7, 100, 8, Spec.ascii "\", _marker: x })"⟩, 35) := by
  have h : (ParserV4.mk [] false).parseEvent false
      ((⟨5, 2, 7, 100, 8, Spec.ascii "\", _marker: x })"⟩ : Spec.LogEvent).encode false)
      = .ok (some ⟨.query, ⟨5, .query, 7, 35, 100, 8⟩, Spec.ascii "\", _marker: x })"⟩) [] := by decide +kernel
  exact ⟨_, h, C127_event _ _ _ _ _ _ _ h⟩

/-- the hypotheses of `C127_server` can be met: a server with the file `f1` of 120 bytes sends the example log of
C43, then an ERR packet -/
theorem example_msg_log (ft : FloatText) : ∃ inp,
    readLog (mybinmsgLog (fun _ => []) (fun c => c.isAlphanum) (exampleWorld ft inp [])
      (.tcp (Spec.ascii "db") (Spec.ascii "3306") (Spec.ascii "root") (Spec.ascii "pw")))
      = some (.file ['f', '1'] 120 :: (Spec.visible (exampleLog.map (·.1))).map fun e => .event e (e.len true)) := by
  obtain ⟨opening, o1, o2⟩ := plain_opens
  obtain ⟨mid, hd⟩ := delivers_small (Spec.textAnswer plainCaps
    ([(exampleTextDef, ColumnType.varString), (exampleTextDef, ColumnType.varString)].map (·.1)) 0 2
      [[some (Spec.ascii "f1"), some (Spec.ascii "120")]] (Spec.okPacket plainCaps 0xfe ⟨0, 0, 2, 0, [], []⟩) ++
      (opening ++ ((exampleLog.map (·.1)).map (Spec.streamMessage true) ++ [[0xff, 0x10, 0x04]]))) [] (by
    intro m hm
    rcases List.mem_append.1 hm with hm | hm
    · exact plain_files_small m hm
    · rcases List.mem_append.1 hm with hm | hm
      · exact o2 m hm
      · exact plain_log_small m hm)
  obtain ⟨inp, w1⟩ := example_welcome mid
  have hs : (exampleWorld ft inp []).stream 0 (Spec.ascii "db" ++ Spec.ascii ":" ++ Spec.ascii "3306") = some inp := rfl
  have hu : (0 : UInt8) ∉ Spec.ascii "root" ∧ (Spec.ascii "root").length < 2 ^ 30 := ⟨by decide +kernel, by decide +kernel⟩
  have hid : (exampleWorld ft inp []).uuid.length = 36 := List.length_replicate ..
  have hr : (exampleWorld ft inp []).random < 2 ^ 32 := by show 5 < _; norm_num
  have hf : List.Forall₂ (fun row (f : List Char × Nat) => Spec.FileRow row (Spec.utf8 f.1) f.2)
      [[some (Spec.ascii "f1"), some (Spec.ascii "120")]] [(['f', '1'], 120)] :=
    .cons ⟨_, [], (rfl : [some (Spec.ascii "f1"), some (Spec.ascii "120")] = _), by decide +kernel, by decide +kernel,
      by norm_num⟩ .nil
  have hz : (exampleWorld ft inp []).hashes.Sized := realHashes_sized
  have he : (∃ (b : UInt8) (t : Bytes) (ms : List Bytes), b ≠ 0 ∧ [[0xff, 0x10, 0x04]] = (b :: t) :: ms) ∨
      [[(0xff : UInt8), 0x10, 0x04]] = [] ∧ ([] : Bytes) = [] := .inl ⟨_, _, _, by decide, rfl⟩
  have h := C127_server (fun _ => []) (fun c => c.isAlphanum) (exampleWorld ft inp []) hz (Spec.ascii "db")
    (Spec.ascii "3306") (Spec.ascii "root") (Spec.ascii "pw") hu hid hr inp _ _ mid [] hs w1 plain_files [(['f', '1'], 120)] hf
    true opening o1 (exampleLog.map (·.1)) plain_log_range [[0xff, 0x10, 0x04]] he
  have h := h hd
  exact ⟨inp, h⟩

/-- the log of the example has events -/
example : 0 < (Spec.visible (exampleLog.map (·.1))).length := by decide +kernel

/-- The limit of C127: flags the library has no name for are dropped before the program gets the event: two events that differ only in such a flag have the same
message. -/
theorem C127_flags_lost : ∃ (p : ParserV4) (a b : Bytes) (e : Event), a ≠ b ∧ p.parseEvent true a = .ok (some e) [] ∧
    p.parseEvent true b = .ok (some e) [] := by
  refine ⟨⟨[], false⟩, (⟨5, 2, 7, 100, 8, []⟩ : Spec.LogEvent).encode false,
    (⟨5, 2, 7, 100, 0x408, []⟩ : Spec.LogEvent).encode false, ⟨.query, ⟨5, .query, 7, 19, 100, 8⟩, []⟩, ?_, ?_, ?_⟩ <;>
  decide +kernel

end Mybin
