/-
C110: whether the printed statements mean the same in whatever session executes them.
-/
import Verif.Spec.Session
import Verif.Props.C79
import Verif.Props.C42_exact

namespace Mybin

open Spec (ColKind Val Fits storeVal Lit Ends FloatRead Session)

theorem quoteBody_doubled (rest : Bytes) (hr : rest.head? ≠ some 0x27) (s : Bytes) :
    Spec.quoteBody (doubled s ++ 0x27 :: rest) = some (s, rest) := by
  induction s with
  | nil =>
    show Spec.quoteBody (0x27 :: rest) = _
    cases rest with
    | nil => rfl
    | cons c t =>
      rw [Spec.quoteBody, if_pos rfl, if_neg]
      rintro rfl
      exact hr rfl
  | cons b s ih =>
    rw [doubled_cons, List.append_assoc]
    split
    · rename_i hb
      subst hb
      show Spec.quoteBody (0x27 :: 0x27 :: (doubled s ++ 0x27 :: rest)) = _
      rw [Spec.quoteBody, if_pos rfl, if_pos rfl, ih]
      rfl
    · rename_i hb
      show Spec.quoteBody (b :: (doubled s ++ 0x27 :: rest)) = _
      generalize hx : doubled s ++ 0x27 :: rest = x at ih ⊢
      cases x with
      | nil => simp at hx
      | cons c x => rw [Spec.quoteBody, if_neg hb, ih]; rfl

theorem noBackslash_wild (s : Bytes) (h : 0x5c ∉ s) : Spec.OnlyWildcardEscapes s := by
  induction s with
  | nil => exact wild_nil
  | cons b s ih =>
    rw [wild_cons]
    exact ⟨fun e => absurd (e ▸ List.mem_cons_self) h, ih fun e => h (List.mem_cons_of_mem _ e)⟩

/-- a text with doubled quotes and without backslashes is read alike in every session -/
theorem session_doubled (S : Session) (s tail : Bytes) (h : S.noBackslashEscapes = true ∨ 0x5c ∉ s) (ht : Ends tail) :
    S.literal (Spec.quotedIf true (doubled s) ++ tail) = some (.text s, tail) := by
  have es : Spec.quotedIf true (doubled s) ++ tail = 0x27 :: (doubled s ++ 0x27 :: tail) := by
    simp only [Spec.quotedIf, if_true, List.append_assoc]; rfl
  have hr := noQuote_of_ends tail ht
  rw [es, Spec.Session.literal]
  by_cases hS : S.noBackslashEscapes = true
  · rw [if_pos ⟨hS, rfl⟩, List.tail_cons, quoteBody_doubled tail hr s]; rfl
  · rw [if_neg fun e => hS e.1]
    refine literal_quote s _ tail ?_
    exact stringBody_doubled tail hr _ s rfl (noBackslash_wild s (h.resolve_left hS))

theorem harmless_minus (t : Bytes) (h : Harmless t) : Harmless (0x2d :: t) :=
  harmless_append (asc "-") t harmless_asc.1 h

theorem harmless_int (i : Int) : Harmless (intText i) := by
  rw [intText]
  split
  · exact harmless_minus _ (harmless_digits _ (natText_digits _))
  · exact harmless_digits _ (natText_digits _)

theorem harmless_padInt (w : Nat) (i : Int) : Harmless (padInt w i) := by
  rw [padInt]
  split
  · exact harmless_minus _ (harmless_pad _ _)
  · exact harmless_pad _ _

/-- what is quoted, other than strings, has neither quotes nor backslashes -/
theorem quoted_harmless (ft : FloatText) (p : StmtColumnValue) (text : Bytes)
    (h : p.toSqlLiteral ft = some (text, true)) :
    Harmless text ∨ ∃ s, (p.val = .varString s ∨ p.val = .string s) := by
  obtain ⟨ct, u, v⟩ := p
  cases v <;> simp only [StmtColumnValue.toSqlLiteral, Option.some.injEq, Prod.mk.injEq, Bool.false_eq_true, and_false,
    and_true, reduceCtorEq, Option.map_eq_some_iff, exists_false] at h ⊢
  case timestamp t => subst h; exact Or.inl (harmless_dateTime _)
  case date y m d => subst h; exact Or.inl (harmless_date _ _ _)
  case varString s => exact Or.inr ⟨s, Or.inl rfl⟩
  case string s => exact Or.inr ⟨s, Or.inr rfl⟩
  case dateTime t =>
    subst h
    refine Or.inl (harmless_append _ _ (harmless_dateTime _) ?_)
    split
    · exact harmless_asc.2.2.2.2
    · exact harmless_append _ _ harmless_asc.2.2.2.1 (harmless_pad _ _)
  case time t =>
    obtain ⟨x, hx, rfl⟩ := h
    rw [timeText] at hx
    split at hx
    · cases hx
    · injection hx with hx
      subst hx
      refine Or.inl (harmless_append _ _ (harmless_append _ _ (harmless_append _ _ (harmless_append _ _ ?_ ?_)
        harmless_asc.2.2.1) (harmless_ms _ _)) ?_)
      · split
        · exact harmless_asc.1
        · exact harmless_asc.2.2.2.2
      · split
        · exact harmless_int _
        · exact harmless_padInt _ _
      · split
        · exact harmless_asc.2.2.2.2
        · exact harmless_append _ _ harmless_asc.2.2.2.1 (harmless_pad _ _)

/-- the text of a string without quotes, or of ASCII, is the string with its quotes doubled -/
theorem string_doubled (ft : FloatText) (b text : Bytes) (h : (StmtColumnValue.newVarstring b).toSqlLiteral ft = some (text, true))
    (hq : 0x27 ∉ b ∨ ∀ x ∈ b, x < 0x80) : text = doubled b := by
  simp only [StmtColumnValue.newVarstring, StmtColumnValue.toSqlLiteral] at h
  by_cases hs : b.contains 0x27 = true
  · rw [if_neg (by simpa using hs)] at h
    simp only [Option.some.injEq, Prod.mk.injEq, and_true] at h
    rw [← h]
    exact doubled_ascii b (hq.resolve_left (by simpa using hs))
  · rw [if_pos hs, utf8Unwrap] at h
    split at h
    · simp only [Option.map_some, Option.some.injEq, Prod.mk.injEq, and_true] at h
      rw [← h, doubled_plain b (by simpa using hs)]
    · cases h

theorem string_quote (ft : FloatText) (b text : Bytes) (q : Bool)
    (h : (StmtColumnValue.newVarstring b).toSqlLiteral ft = some (text, q)) : q = true := by
  simp only [StmtColumnValue.newVarstring, StmtColumnValue.toSqlLiteral] at h
  split at h
  · rw [Option.map_eq_some_iff] at h
    obtain ⟨_, _, h⟩ := h
    injection h with _ h
    exact h.symm
  · injection h with h
    injection h with _ h
    exact h.symm

/-- which values are written as quoted text: those whose literal is one -/
theorem quote_of_text (ft : FloatText) (fl : FloatRead) (k : ColKind) (v : Val) (u : Bool) (c : BinlogColumnValue)
    (s : Bytes) (p : StmtColumnValue) (text : Bytes) (quote : Bool) (hd : Denotes k v c)
    (ha : Spec.assign fl u k (.text s) = some v) (hp : StmtColumnValue.ofBinlog c u = some p)
    (ht : p.toSqlLiteral ft = some (text, quote)) :
    quote = true ∧ (Harmless text ∨ ∃ b, v = .bytes b ∧ p = .newVarstring b ∧ ((∃ m, k = .varchar m) ∨ ∃ m, k = .char m)) := by
  cases k <;> cases v <;> simp only [Denotes, Spec.assign, reduceCtorEq] at hd ha
  case timestamp2.timestamp =>
    obtain ⟨rfl, rfl⟩ := hd
    injection hp with hp
    subst hp
    have hq : quote = true := by
      simp only [StmtColumnValue.newTimestamp, StmtColumnValue.toSqlLiteral, Option.some.injEq, Prod.mk.injEq] at ht
      exact ht.2.symm
    subst hq
    refine ⟨rfl, Or.inl ((quoted_harmless ft _ _ ht).resolve_right ?_)⟩
    rintro ⟨s, h | h⟩ <;> cases h
  case varchar.bytes =>
    subst hd
    injection hp with hp
    subst hp
    exact ⟨(string_quote ft _ text quote ht), Or.inr ⟨_, rfl, rfl, Or.inl ⟨_, rfl⟩⟩⟩
  case char.bytes =>
    subst hd
    injection hp with hp
    subst hp
    exact ⟨(string_quote ft _ text quote ht), Or.inr ⟨_, rfl, rfl, Or.inr ⟨_, rfl⟩⟩⟩
  case time2.time =>
    subst hd
    injection hp with hp
    subst hp
    have hq : quote = true := by
      simp only [StmtColumnValue.newMyTime, StmtColumnValue.toSqlLiteral, Option.map_eq_some_iff, Prod.mk.injEq] at ht
      obtain ⟨_, _, _, h⟩ := ht
      exact h.symm
    subst hq
    refine ⟨rfl, Or.inl ((quoted_harmless ft _ _ ht).resolve_right ?_)⟩
    rintro ⟨s, h | h⟩ <;> cases h
  all_goals
    subst hd
    simp only [StmtColumnValue.ofBinlog, Option.map_eq_some_iff] at hp
    obtain ⟨x, _, rfl⟩ := hp
    have hq : quote = true := by
      simp only [StmtColumnValue.newTimestamp, StmtColumnValue.newDate, StmtColumnValue.toSqlLiteral, Option.some.injEq,
        Prod.mk.injEq] at ht
      exact ht.2.symm
    subst hq
    refine ⟨rfl, Or.inl ((quoted_harmless ft _ _ ht).resolve_right ?_)⟩
    rintro ⟨s, h | h⟩ <;> cases h

/-- The text of a writable value is read in every session as the same literal. -/
theorem literal_session (ft : FloatText) (fl : FloatRead) (k : ColKind) (v : Val) (u : Bool) (c : BinlogColumnValue)
    (hk : k.Ok) (hv : Fits k v) (hs : Sound k v) (hw : Writable ft fl k v) (hd : Denotes k v c) :
    ∃ p text quote l, StmtColumnValue.ofBinlog c u = some p ∧ p.toSqlLiteral ft = some (text, quote) ∧
      (∀ (S : Session) tail, Ends tail → S.literal (Spec.quotedIf quote text ++ tail) = some (l, tail)) ∧
      Spec.assign fl u k l = some v := by
  obtain ⟨l, ⟨p, text, quote, h3, h4, h5⟩, h6, _⟩ := literal_denotes ft fl k v u c hk hv hs hw hd
  refine ⟨p, text, quote, l, h3, h4, fun S tail ht => ?_, h6⟩
  by_cases hl : ∃ s, l = .text s
  · obtain ⟨s, rfl⟩ := hl
    obtain ⟨rfl, h⟩ := quote_of_text ft fl k v u c s p text quote hd h6 h3 h4
    have key : ∃ d, 0x5c ∉ d ∧ text = doubled d := by
      rcases h with h | ⟨b, rfl, rfl, h⟩
      · exact ⟨text, h.2, (doubled_plain text h.1).symm⟩
      · rcases h with ⟨m, rfl⟩ | ⟨m, rfl⟩
        all_goals
          obtain ⟨_, hb, hq⟩ := hw
          exact ⟨b, hb, string_doubled ft b text h4 hq⟩
    obtain ⟨d, hd, rfl⟩ := key
    have e1 := session_doubled ⟨0, false, false⟩ d tail (Or.inr hd) ht
    rw [Spec.Session.literal, if_neg (by simp), h5 tail ht] at e1
    rw [session_doubled S d tail (Or.inr hd) ht, ← e1]
  · have hh : (Spec.quotedIf quote text ++ tail).head? ≠ some 0x27 := by
      intro e
      have := h5 tail ht
      rw [Spec.literal, if_pos e, Option.map_eq_some_iff] at this
      obtain ⟨r, _, e⟩ := this
      injection e with e _
      exact hl ⟨_, e.symm⟩
    rw [Spec.Session.literal, if_neg fun e => hh e.2]
    exact h5 tail ht

/-- C110, for every value that C79 covers, in every session whose time zone is UTC, and of every column but TIMESTAMP in
every session at all: the text made from the decoded value is read as a literal that gives the column the value of the
row. (Full claim: also TIMESTAMP columns. It fails for them: `C110_timestamp_false`.) -/
theorem C110_value_partial (ft : FloatText) (fl : FloatRead) (k : ColKind) (m : ColumnMeta) (v : Val) (u : Bool)
    (hk : k.Ok) (hm : metaOf k = some m) (hv : Fits k v) (hs : Sound k v) (hw : Writable ft fl k v) (rest : Bytes) :
    ∃ c p text quote, BinlogColumnValue.readFrom m (storeVal k v ++ rest) = .ok c rest ∧
      StmtColumnValue.ofBinlog c u = some p ∧ p.toSqlLiteral ft = some (text, quote) ∧
      ∀ S : Session, (S.zone = 0 ∨ ∀ f, k ≠ .timestamp2 f) → ∃ l,
        (∀ tail, Ends tail → S.literal (Spec.quotedIf quote text ++ tail) = some (l, tail)) ∧
        S.assign fl u k l = some v := by
  obtain ⟨c, h1, h2⟩ := C37_decode_partial k m v hk hm hv hs rest
  obtain ⟨p, text, quote, l, h3, h4, h5, h6⟩ := literal_session ft fl k v u c hk hv hs hw h2
  refine ⟨c, p, text, quote, h1, h3, h4, fun S hS => ⟨l, h5 S, ?_⟩⟩
  rw [Spec.Session.assign, h6, Option.bind_some]
  cases v
  case timestamp secs us =>
    have hz : S.zone = 0 := by
      refine hS.resolve_right fun h => ?_
      cases k <;> first | exact h _ rfl | exact (show False from h2)
    simp [Spec.Session.instant, hz]
  all_goals rfl

/-- C110 fails for TIMESTAMP columns: nothing printed says that the text is in UTC. Whatever the instant, and whatever
the time zone of the session if it is not UTC, the text of the value denotes another instant there, or none: the one
earlier by the offset of the zone. -/
theorem C110_timestamp_false (ft : FloatText) (fl : FloatRead) (secs : Nat) (u : Bool) (hsecs : secs < 2 ^ 32)
    (S : Session) (hS : S.zone ≠ 0) (rest : Bytes) :
    ∃ c p text quote l,
      BinlogColumnValue.readFrom (.timestamp 0) (storeVal (.timestamp2 0) (.timestamp secs 0) ++ rest) = .ok c rest ∧
      StmtColumnValue.ofBinlog c u = some p ∧ p.toSqlLiteral ft = some (text, quote) ∧
      (∀ tail, Ends tail → S.literal (Spec.quotedIf quote text ++ tail) = some (l, tail)) ∧
      S.assign fl u (.timestamp2 0) l = (if 0 ≤ (secs : Int) - S.zone
        then some (.timestamp ((secs : Int) - S.zone).toNat 0) else none) ∧
      S.assign fl u (.timestamp2 0) l ≠ some (.timestamp secs 0) := by
  have hk : ColKind.Ok (.timestamp2 0) := by simp [ColKind.Ok]
  have hv : Fits (.timestamp2 0) (.timestamp secs 0) := ⟨hsecs, by decide, by decide⟩
  have hs : Sound (.timestamp2 0) (.timestamp secs 0) := by simp [Sound]
  obtain ⟨c, h1, h2⟩ := C37_decode_partial (.timestamp2 0) (.timestamp 0) (.timestamp secs 0) hk rfl hv hs rest
  obtain ⟨p, text, quote, l, h3, h4, h5, h6⟩ := literal_session ft fl (.timestamp2 0) (.timestamp secs 0) u c hk hv hs trivial h2
  refine ⟨c, p, text, quote, l, h1, h3, h4, h5 S, ?_⟩
  rw [Spec.Session.assign, h6, Option.bind_some, Spec.Session.instant]
  refine ⟨rfl, ?_⟩
  split
  · intro e
    injection e with e
    injection e with e
    omega
  · simp

/-- C110: where backslashes are ordinary characters, every text without a quote, and every ASCII text, comes back from its
literal, whether it has backslashes or not -/
theorem C110_no_escapes (ft : FloatText) (b : Bytes) (S : Session) (hS : S.noBackslashEscapes = true)
    (h1 : validUtf8 b = true) (h2 : 0x27 ∉ b ∨ ∀ x ∈ b, x < 0x80) :
    ∃ text, (StmtColumnValue.newVarstring b).toSqlLiteral ft = some (text, true) ∧
      ∀ tail, Ends tail → S.literal (Spec.quotedIf true text ++ tail) = some (.text b, tail) := by
  have key : ∃ text, (StmtColumnValue.newVarstring b).toSqlLiteral ft = some (text, true) := by
    simp only [StmtColumnValue.newVarstring, StmtColumnValue.toSqlLiteral, utf8Unwrap, h1, if_true]
    split <;> exact ⟨_, rfl⟩
  obtain ⟨text, ht⟩ := key
  refine ⟨text, ht, fun tail he => ?_⟩
  rw [string_doubled ft b text ht h2]
  exact session_doubled S b tail (Or.inl hS) he

/-- C110 fails for strings with a backslash: one printed statement means different things in two sessions that differ in
that mode alone. -/
theorem C110_escapes_false (ft : FloatText) :
    ∃ text, (StmtColumnValue.newVarstring (Spec.ascii "C:\\new")).toSqlLiteral ft = some (text, true) ∧
      Session.literal ⟨0, true, false⟩ (Spec.quotedIf true text) = some (.text (Spec.ascii "C:\\new"), []) ∧
      Session.literal ⟨0, false, false⟩ (Spec.quotedIf true text) = some (.text (Spec.ascii "C:\new"), []) :=
  ⟨Spec.ascii "C:\\new", by
    simp only [StmtColumnValue.newVarstring, StmtColumnValue.toSqlLiteral]
    decide +kernel, by decide +kernel, by decide +kernel⟩

/-- C110 fails for rows with 0 in an AUTO_INCREMENT column: nothing printed sets the mode, without which the literal of
the value asks for the next number. -/
theorem C110_auto_increment_false (ft : FloatText) (fl : FloatRead) (u : Bool) (next : Val) (zone : Int) (nb : Bool) :
    ∃ c p text l, BinlogColumnValue.readFrom .long (storeVal .long (.num 0)) = .ok c [] ∧
      StmtColumnValue.ofBinlog c u = some p ∧ p.toSqlLiteral ft = some (text, false) ∧
      (∀ tail, Ends tail → Session.literal ⟨zone, nb, false⟩ (text ++ tail) = some (l, tail)) ∧
      Session.insertAuto ⟨zone, nb, false⟩ fl next u .long l = some next ∧
      Session.insertAuto ⟨zone, nb, true⟩ fl next u .long l = some (.num 0) := by
  refine ⟨.long 0, _, natText 0, .number 0 0, by decide +kernel, rfl, by cases u <;> rfl, fun tail ht => ?_, by
    rw [Spec.Session.insertAuto, if_pos (Or.inr ⟨rfl, rfl⟩)], by
    rw [Spec.Session.insertAuto, if_neg (by simp)]
    cases u <;> simp [Spec.Session.assign, Spec.assign, Spec.storeInt, Spec.Session.instant, Spec.pattern]⟩
  have h := literal_natText 0 tail (apart_of_ends _ ht)
  rw [Spec.Session.literal, if_neg]
  · exact h
  · intro e
    have : natText 0 ++ tail = 0x30 :: tail := rfl
    rw [this] at e
    simp at e

/-- hypotheses of the theorems above: a DECIMAL, a DATETIME and a string with a quote (see also the example beside C79),
and a session in New York, where the first second of 2020 in UTC is written back as one five hours later -/
example (ft : FloatText) (fl : FloatRead) :
    (ColKind.Ok (.datetime2 0) ∧ (∀ f, ColKind.datetime2 0 ≠ .timestamp2 f) ∧
      Fits (.datetime2 0) (.datetime 2020 2 29 23 59 59 0) ∧ Sound (.datetime2 0) (.datetime 2020 2 29 23 59 59 0) ∧
      Writable ft fl (.datetime2 0) (.datetime 2020 2 29 23 59 59 0)) ∧
    (validUtf8 (Spec.ascii "it's") = true ∧ ∀ x ∈ Spec.ascii "it's", x < 0x80) ∧
    Session.assign ⟨-18000, false, false⟩ fl false (.timestamp2 0) (.text (Spec.ascii "2020-01-01 00:00:00"))
      = some (.timestamp (1577836800 + 18000) 0) := by
  refine ⟨⟨by simp [ColKind.Ok], by simp, ⟨by decide, by decide, by decide, by decide, by decide, by decide, by decide,
    by decide, by decide⟩, by simp [Sound], by decide, rfl⟩, by decide +kernel, ?_⟩
  simp only [Spec.Session.assign, Spec.assign]
  decide +kernel

/-- in the usual session the specification is the one of C79 -/
example (fl : FloatRead) (u : Bool) (k : ColKind) (l : Lit) (t : Bytes) :
    Session.usual.literal t = Spec.literal t ∧ Session.usual.assign fl u k l = Spec.assign fl u k l := by
  refine ⟨by rw [Spec.Session.literal, if_neg (by simp [Spec.Session.usual])], ?_⟩
  rw [Spec.Session.assign]
  cases Spec.assign fl u k l with
  | none => rfl
  | some v =>
    cases v
    case timestamp => simp [Spec.Session.instant, Spec.Session.usual]
    all_goals rfl

end Mybin
