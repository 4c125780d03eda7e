/-
C33 GTID sets; C47 query events and status variables; C48 the other event payloads.
-/
import Verif.Lemmas.Invert
import Verif.Model.EventData
import Verif.Spec.Events

namespace Mybin

/-! ### C33 -/

theorem readLeU64_iff {bs r : Bytes} {n : Nat} :
    readLeU64 bs = .ok n r ↔ n < 2 ^ 64 ∧ bs = Spec.le 8 n ++ r := by
  rw [readLeU64, readLe_eq_ok]; norm_num

theorem readLeU128_iff {bs r : Bytes} {n : Nat} :
    readLeU128 bs = .ok n r ↔ n < 2 ^ 128 ∧ bs = Spec.le 16 n ++ r := by
  rw [readLeU128, readLe_eq_ok]; norm_num

theorem withCapacity_eq_ok {n sz : Nat} {bs r : Bytes} {u : Unit} :
    withCapacity n sz bs = .ok u r ↔ n * sz < 2 ^ 63 ∧ bs = r := by
  unfold withCapacity
  split
  · simp [*]
  · simp [P.panic, *]

/-- the intervals read are exactly an ordered list, encoded at the head of the input -/
theorem gtidIntervals_iff (n last : Nat) (bs r : Bytes) (l : List (Nat × Nat)) :
    readGtidIntervals n last bs = .ok l r ↔
      l.length = n ∧ Spec.Ordered last l ∧ (∀ i ∈ l, i.2 + 1 < 2 ^ 64) ∧
        bs = (l.map fun i => Spec.le 8 i.1 ++ Spec.le 8 (i.2 + 1)).flatten ++ r := by
  induction n generalizing last bs l with
  | zero =>
    simp only [readGtidIntervals, P.pure_eq_ok]
    constructor
    · rintro ⟨rfl, rfl⟩; exact ⟨rfl, trivial, by simp, by simp⟩
    · rintro ⟨h1, -, -, rfl⟩
      rw [List.length_eq_zero_iff] at h1
      subst h1; simp
  | succ n ih =>
    simp only [readGtidIntervals, P.bind_eq_ok, readLeU64_iff]
    constructor
    · rintro ⟨a, r1, ⟨ha, rfl⟩, b, r2, ⟨hb, rfl⟩, h⟩
      split at h
      · cases h
      · rename_i hc
        rw [P.bind_eq_ok] at h
        obtain ⟨more, r3, h1, h2⟩ := h
        rw [P.pure_eq_ok] at h2
        obtain ⟨rfl, rfl⟩ := h2
        obtain ⟨h3, h4, h5, h6⟩ := (ih _ _ _).1 h1
        have e : b - 1 + 1 = b := by omega
        refine ⟨by simp [h3], ⟨by omega, by omega, by rw [e]; exact h4⟩, ?_, ?_⟩
        · intro i hi
          rw [List.mem_cons] at hi
          rcases hi with rfl | hi
          · show b - 1 + 1 < _; omega
          · exact h5 i hi
        · rw [h6]; simp [e]
    · rintro ⟨h1, h2, h3, rfl⟩
      cases l with
      | nil => simp at h1
      | cons i l =>
        obtain ⟨a, b⟩ := i
        obtain ⟨h4, h5, h6⟩ := h2
        have hb := h3 (a, b) (by simp)
        dsimp only at hb
        refine ⟨a, _, ⟨by omega, by simp only [List.map_cons, List.flatten_cons, List.append_assoc]; rfl⟩,
          b + 1, _, ⟨hb, rfl⟩, ?_⟩
        rw [if_neg (by omega), P.bind_eq_ok]
        refine ⟨l, r, ?_, by simp⟩
        rw [ih]
        exact ⟨by simpa using h1, h6, fun i hi => h3 i (by simp [hi]), rfl⟩

theorem gtidRange_iff (bs r : Bytes) (g : GtidRange) :
    GtidRange.readFrom bs = .ok g r ↔
      (⟨g.sid, g.intervals⟩ : Spec.Gtids).Ok ∧ g.intervals.length * 16 < 2 ^ 63 ∧
        bs = (⟨g.sid, g.intervals⟩ : Spec.Gtids).encode ++ r := by
  unfold GtidRange.readFrom
  simp only [P.bind_eq_ok, readLeU64_iff, readLeU128_iff, withCapacity_eq_ok, P.pure_eq_ok,
    gtidIntervals_iff]
  constructor
  · rintro ⟨sid, _, ⟨h1, rfl⟩, n, _, ⟨h2, rfl⟩, _, _, ⟨h3, rfl⟩, l, _, ⟨rfl, h4, h5, rfl⟩, rfl, rfl⟩
    exact ⟨⟨h1, h4, h5⟩, h3, by simp [Spec.Gtids.encode]⟩
  · rintro ⟨⟨h1, h4, h5⟩, h3, rfl⟩
    refine ⟨g.sid, _, ⟨h1, by simp only [Spec.Gtids.encode, List.append_assoc]⟩,
      g.intervals.length, _, ⟨by omega, rfl⟩, (), _, ⟨h3, rfl⟩, g.intervals, r, ⟨rfl, h4, h5, rfl⟩,
      rfl, rfl⟩

/-- C33: whatever the input, an accepted range has non-empty, strictly increasing, non-touching
intervals, and the bytes consumed are exactly the encoding of what is returned. -/
theorem C33_accepted_range (bs rest : Bytes) (g : GtidRange)
    (h : GtidRange.readFrom bs = .ok g rest) :
    Spec.Ordered 0 g.intervals ∧ bs = (⟨g.sid, g.intervals⟩ : Spec.Gtids).encode ++ rest := by
  obtain ⟨h1, -, h3⟩ := (gtidRange_iff bs rest g).1 h
  exact ⟨h1.2.1, h3⟩

/-- C33: every well-formed list of intervals decodes to itself (with inclusive ends). -/
theorem C33_decode_range (g : Spec.Gtids) (hg : g.Ok) (hn : g.intervals.length < 2 ^ 58) (rest : Bytes) :
    GtidRange.readFrom (g.encode ++ rest) = .ok ⟨g.sid, g.intervals⟩ rest :=
  (gtidRange_iff _ _ _).2 ⟨hg, by show g.intervals.length * 16 < 2 ^ 63; omega, rfl⟩

theorem gtidRanges_mem (n : Nat) (m : List GtidRange) (bs r : Bytes) (s : List GtidRange)
    (h : readGtidRanges n m bs = .ok s r) (P0 : GtidRange → Prop) (hm : ∀ g ∈ m, P0 g)
    (hp : ∀ g bs r, GtidRange.readFrom bs = .ok g r → P0 g) :
    ∀ g ∈ s, P0 g := by
  induction n generalizing m bs with
  | zero =>
    rw [readGtidRanges, P.pure_eq_ok] at h
    rw [← h.1]; exact hm
  | succ n ih =>
    rw [readGtidRanges, P.bind_eq_ok] at h
    obtain ⟨g, r1, h1, h2⟩ := h
    refine ih _ _ h2 ?_
    intro x hx
    unfold gtidInsert at hx
    rw [List.mem_append] at hx
    rcases hx with hx | hx
    · exact hm x (List.mem_of_mem_filter hx)
    · rw [List.mem_singleton] at hx; subst hx; exact hp _ _ _ h1

/-- C33: every range of an accepted set has non-empty, strictly increasing, non-touching intervals. -/
theorem C33_accepted_set (bs rest : Bytes) (s : List GtidRange)
    (h : GtidSet.readFrom bs = .ok s rest) : ∀ g ∈ s, Spec.Ordered 0 g.intervals := by
  unfold GtidSet.readFrom at h
  simp only [P.bind_eq_ok] at h
  obtain ⟨n, r1, -, u, r2, -, h3⟩ := h
  exact gtidRanges_mem n [] r2 rest s h3 _ (by simp) (fun g bs r hg => (C33_accepted_range bs r g hg).1)

theorem gtidRanges_spec (gs : List Spec.Gtids) (hg : ∀ g ∈ gs, g.Ok ∧ g.intervals.length < 2 ^ 58)
    (m : List GtidRange) (hd : (m.map (·.sid) ++ gs.map (·.sid)).Nodup) (rest : Bytes) :
    readGtidRanges gs.length m ((gs.map Spec.Gtids.encode).flatten ++ rest)
      = .ok (m ++ gs.map fun g => ⟨g.sid, g.intervals⟩) rest := by
  induction gs generalizing m with
  | nil => simp [readGtidRanges]
  | cons g gs ih =>
    simp only [List.map_cons, List.flatten_cons, List.append_assoc, List.length_cons, readGtidRanges]
    step (C33_decode_range g (hg g (by simp)).1 (hg g (by simp)).2 _)
    have hins : gtidInsert m ⟨g.sid, g.intervals⟩ = m ++ [⟨g.sid, g.intervals⟩] := by
      unfold gtidInsert
      congr 1
      rw [List.filter_eq_self]
      intro x hx
      simp only [decide_eq_true_eq]
      intro he
      have := (List.nodup_append.1 hd).2.2 _ (List.mem_map_of_mem hx) _ (by simp) he
      exact this
    rw [hins, ih (fun x hx => hg x (by simp [hx])) _ (by simpa using hd)]
    simp

/-- C33: the set a server sends (distinct servers, well-formed intervals) decodes to itself, in order. -/
theorem C33_decode_set (gs : List Spec.Gtids) (hg : ∀ g ∈ gs, g.Ok ∧ g.intervals.length < 2 ^ 58)
    (hd : (gs.map (·.sid)).Nodup) (hn : gs.length < 2 ^ 57) (rest : Bytes) :
    GtidSet.readFrom (Spec.gtidSet gs ++ rest) = .ok (gs.map fun g => ⟨g.sid, g.intervals⟩) rest := by
  unfold GtidSet.readFrom Spec.gtidSet
  rw [List.append_assoc]
  step (readLeU64_le gs.length _ (by omega))
  step (withCapacity_ok gs.length 40 (by omega) _)
  rw [gtidRanges_spec gs hg [] (by simpa using hd)]
  simp

/-- C33: an interval that is empty or not beyond the previous one is an error, wherever it appears. -/
theorem C33_rejects (good : List (Nat × Nat)) (a b k last : Nat) (rest : Bytes)
    (hg : ∀ i ∈ good, i.2 + 1 < 2 ^ 64) (ho : Spec.Ordered last good) (ha : a < 2 ^ 64) (hb : b < 2 ^ 64)
    (hbad : b ≤ a ∨ a ≤ ((good.getLast?.map (·.2 + 1)).getD last)) :
    readGtidIntervals (good.length + 1 + k) last
      ((good.map fun i => Spec.le 8 i.1 ++ Spec.le 8 (i.2 + 1)).flatten
        ++ (Spec.le 8 a ++ Spec.le 8 b ++ rest)) = .err .constraint rest := by
  induction good generalizing last with
  | nil =>
    rw [show ([] : List (Nat × Nat)).length + 1 + k = k + 1 by simp; omega, readGtidIntervals]
    simp only [List.map_nil, List.flatten_nil, List.nil_append, List.append_assoc]
    step (readLeU64_le a _ ha)
    step (readLeU64_le b _ hb)
    rw [if_pos (by simp at hbad; omega)]
    rfl
  | cons i t ih =>
    obtain ⟨x, y⟩ := i
    obtain ⟨h1, h2, h3⟩ := ho
    have hy := hg (x, y) (by simp)
    dsimp only at hy
    rw [show ((x, y) :: t).length + 1 + k = (t.length + 1 + k) + 1 by simp; omega, readGtidIntervals]
    simp only [List.map_cons, List.flatten_cons, List.append_assoc]
    step (readLeU64_le x _ (by omega))
    step (readLeU64_le (y + 1) _ hy)
    rw [if_neg (by omega)]
    have := ih (y + 1) (fun i hi => hg i (by simp [hi])) h3 (by
      cases t with
      | nil => simpa using hbad
      | cons z t =>
        rw [List.getLast?_cons_cons] at hbad
        cases e : (z :: t).getLast? with
        | none => simp at e
        | some w => rw [e] at hbad; exact hbad)
    simp only [List.append_assoc] at this
    rw [P.bind_apply, this]
    rfl

/-- two servers, one with two intervals separated by a gap of one, one with none -/
example : ∀ g ∈ [(⟨7, [(1, 4), (6, 6)]⟩ : Spec.Gtids), ⟨8, []⟩], g.Ok ∧ g.intervals.length < 2 ^ 58 := by
  intro g hg
  simp only [List.mem_cons, List.not_mem_nil, or_false] at hg
  rcases hg with rfl | rfl <;> simp [Spec.Gtids.Ok, Spec.Ordered]

/-- C33: a set whose announced number of servers is absurd is a panic (capacity overflow), not an error.
-/
theorem C33_huge_count_false : GtidSet.readFrom (Spec.le 8 (2 ^ 64 - 1)) = .panic := by
  have := readLeU64_le (2 ^ 64 - 1) [] (by norm_num)
  rw [List.append_nil] at this
  unfold GtidSet.readFrom
  step this
  rfl

/-- C33: a server listed twice (which no server sends) keeps only its last list of intervals. -/
theorem C33_duplicate_server :
    GtidSet.readFrom (Spec.gtidSet [⟨7, [(1, 1)]⟩, ⟨7, [(5, 5)]⟩]) = .ok [⟨7, [(5, 5)]⟩] [] := by
  decide +kernel

/-! ### loops to the end of the input -/

theorem whileRemaining_spec {α β : Type} (p : P β) (enc : α → Bytes) (val : α → β) (l : List α)
    (h : ∀ a ∈ l, enc a ≠ [] ∧ ∀ t, p (enc a ++ t) = .ok (val a) t) :
    P.whileRemaining p (l.map enc).flatten = .ok (l.map val) [] := by
  induction l with
  | nil => rw [P.whileRemaining]; simp
  | cons a as ih =>
    obtain ⟨h1, h2⟩ := h a (by simp)
    rw [P.whileRemaining, List.map_cons, List.flatten_cons, if_neg (by simp [h1]), h2]
    have hl : ((as.map enc).flatten).length < (enc a ++ (as.map enc).flatten).length := by
      have := List.length_pos_of_ne_nil h1
      rw [List.length_append]; omega
    dsimp only
    rw [dif_pos hl, ih (fun x hx => h x (by simp [hx]))]
    rfl

/-- a loop whose body consumes input and does not panic terminates without panic -/
theorem Well.whileRemaining {α : Type} {p : P α} (h : Well p)
    (hc : ∀ bs a r, bs ≠ [] → p bs = .ok a r → r.length < bs.length) : Well (P.whileRemaining p) := by
  intro bs
  induction hn : bs.length using Nat.strong_induction_on generalizing bs with
  | _ n ih =>
    rw [P.whileRemaining]
    by_cases hb : bs = []
    · rw [if_pos hb]; exact List.nil_suffix
    · rw [if_neg hb]
      have hw := h bs
      cases e : p bs with
      | panic => rw [e] at hw; exact hw
      | hang => rw [e] at hw; exact hw
      | err e' r => rw [e] at hw; exact hw
      | ok a r =>
        rw [e] at hw
        have hlt := hc bs a r hb e
        dsimp only
        rw [dif_pos hlt]
        have := ih r.length (by omega) r rfl
        cases e2 : P.whileRemaining p r with
        | panic => rw [e2] at this; exact this
        | hang => rw [e2] at this; exact this
        | err e' r' => rw [e2] at this; exact List.IsSuffix.trans this hw
        | ok a' r' => rw [e2] at this; exact List.IsSuffix.trans this hw

/-! ### C47 -/

/-- what the API should return for a status variable -/
def Spec.StatusVar.expected : Spec.StatusVar → QueryStatusVar
  | .flags2 n => .flags2Code n
  | .sqlMode n => .sqlModeCode n
  | .catalog s => .catalog s
  | .autoIncrement a b => .autoIncrement a b
  | .charset a b c => .charsetCode a b c
  | .timeZone s => .timeZoneCode s
  | .catalogNz s => .catalogNzCode s
  | .lcTimeNames n => .lcTimeNamesCode n
  | .charsetDatabase n => .charsetDatabaseCode n
  | .tableMapForUpdate n => .tableMapForUpdateCode n
  | .masterDataWritten n => .masterDataWrittenCode n
  | .invoker u h => .invokers u h
  | .updatedDbs ns => .updatedDbNames ns
  | .overMaxDbs => .updatedDbNames []
  | .microseconds n => .microSeconds n

theorem readU8_str8 (s t : Bytes) (h : s.length < 256) :
    readU8 (Spec.str8 s ++ t) = .ok s.length (s ++ t) := by
  rw [Spec.str8, List.append_assoc, readU8_u8 _ _ h]

theorem statusVar_spec (v : Spec.StatusVar) (hv : v.InRange) (hm : v ≠ .overMaxDbs) (t : Bytes) :
    QueryStatusVar.readFrom (v.encode ++ t) = .ok v.expected t := by
  unfold QueryStatusVar.readFrom
  cases v <;> simp only [Spec.StatusVar.InRange] at hv <;>
    simp only [Spec.StatusVar.encode, List.append_assoc]
  case flags2 n =>
    step (readU8_u8 0 _ (by omega)); rw [QueryStatusVar.readValue]; step (readLeU32_le n _ hv); rfl
  case sqlMode n =>
    step (readU8_u8 1 _ (by omega)); rw [QueryStatusVar.readValue]; step (readLeU64_le n _ hv); rfl
  case catalog s =>
    step (readU8_u8 2 _ (by omega)); rw [QueryStatusVar.readValue]; step (readU8_str8 s _ hv)
    step (readLen_append s (Spec.u8 0 ++ t))
    step (readLen_append' 1 (Spec.u8 0) t rfl); rfl
  case autoIncrement a b =>
    step (readU8_u8 3 _ (by omega)); rw [QueryStatusVar.readValue]; step (readLeU16_le a _ hv.1); step (readLeU16_le b _ hv.2); rfl
  case charset a b c =>
    step (readU8_u8 4 _ (by omega)); rw [QueryStatusVar.readValue]; step (readLeU16_le a _ hv.1); step (readLeU16_le b _ hv.2.1)
    step (readLeU16_le c _ hv.2.2); rfl
  case timeZone s =>
    step (readU8_u8 5 _ (by omega)); rw [QueryStatusVar.readValue]; step (readU8_str8 s _ hv); step (readLen_append s t); rfl
  case catalogNz s =>
    step (readU8_u8 6 _ (by omega)); rw [QueryStatusVar.readValue]; step (readU8_str8 s _ hv); step (readLen_append s t); rfl
  case lcTimeNames n =>
    step (readU8_u8 7 _ (by omega)); rw [QueryStatusVar.readValue]; step (readLeU16_le n _ hv); rfl
  case charsetDatabase n =>
    step (readU8_u8 8 _ (by omega)); rw [QueryStatusVar.readValue]; step (readLeU16_le n _ hv); rfl
  case tableMapForUpdate n =>
    step (readU8_u8 9 _ (by omega)); rw [QueryStatusVar.readValue]; step (readLeU64_le n _ hv); rfl
  case masterDataWritten n =>
    step (readU8_u8 10 _ (by omega)); rw [QueryStatusVar.readValue]; step (readLeU32_le n _ hv); rfl
  case invoker u h =>
    step (readU8_u8 11 _ (by omega)); rw [QueryStatusVar.readValue]; step (readU8_str8 u _ hv.1); step (readLen_append u _)
    step (readU8_str8 h _ hv.2); step (readLen_append h t); rfl
  case updatedDbs ns =>
    step (readU8_u8 12 _ (by omega)); rw [QueryStatusVar.readValue]; step (readU8_u8 ns.length _ (by omega))
    have := P.times_spec (readUntil 0 false) Spec.nulStr id ns
      (fun s hs t => readUntil_nulStr s t (hv.2 s hs)) t
    rw [List.map_id] at this
    step this
    rfl
  case overMaxDbs => exact absurd rfl hm
  case microseconds n =>
    step (readU8_u8 13 _ (by omega)); rw [QueryStatusVar.readValue]; step (readLeU24_le n _ hv); rfl

/-- C47: any list of status variables decodes to that list. (Full claim: also the marker written when a
statement touched more than 16 databases. That is false: `C47_over_max_dbs_false`.) -/
theorem C47_status_vars_partial (vs : List Spec.StatusVar) (h : ∀ v ∈ vs, v.InRange)
    (hm : ∀ v ∈ vs, v ≠ .overMaxDbs) :
    QueryStatusVars.readFrom ((vs.map (·.encode)).flatten) = .ok (vs.map (·.expected)) [] := by
  refine whileRemaining_spec _ _ _ vs fun v hv => ⟨?_, statusVar_spec v (h v hv) (hm v hv)⟩
  cases v <;> simp [Spec.StatusVar.encode, Spec.u8]

/-- C47 is false for the over-max marker: the decoder looks for 254 names that are not there. -/
theorem C47_over_max_dbs_false :
    QueryStatusVars.readFrom (Spec.StatusVar.encode .overMaxDbs) = .err (.incomplete none) [] := by
  have : QueryStatusVar.readFrom (Spec.StatusVar.encode .overMaxDbs) = .err (.incomplete none) [] := by
    decide +kernel
  unfold QueryStatusVars.readFrom
  rw [P.whileRemaining, if_neg (by simp [Spec.StatusVar.encode, Spec.u8]), this]

/-- C47: a key the decoder does not know (newer servers write keys from 14 on) is an error. -/
theorem C47_unknown_key (k : Nat) (h : 14 ≤ k) (h2 : k < 256) (t : Bytes) :
    QueryStatusVars.readFrom (Spec.u8 k ++ t) = .err .constraint t := by
  have : QueryStatusVar.readFrom (Spec.u8 k ++ t) = .err .constraint t := by
    unfold QueryStatusVar.readFrom
    step (readU8_u8 k _ h2)
    unfold QueryStatusVar.readValue
    split <;> first | omega | rfl
  unfold QueryStatusVars.readFrom
  rw [P.whileRemaining, if_neg (by simp [Spec.u8]), this]

/-- C47: the query event itself. -/
theorem C47_query (proxy exec err : Nat) (vars schema query : Bytes) (h1 : proxy < 2 ^ 32)
    (h2 : exec < 2 ^ 32) (h3 : err < 2 ^ 16) (h4 : vars.length < 2 ^ 16) (h5 : schema.length < 2 ^ 8) :
    QueryData.readFrom (Spec.le 4 proxy ++ Spec.le 4 exec ++ Spec.u8 schema.length ++ Spec.le 2 err
        ++ Spec.le 2 vars.length ++ vars ++ Spec.nulStr schema ++ query)
      = .ok ⟨proxy, exec, schema.length, err, vars.length, vars, schema, query⟩ [] := by
  unfold QueryData.readFrom
  simp only [List.append_assoc, Spec.nulStr]
  step (readLeU32_le proxy _ h1)
  step (readLeU32_le exec _ h2)
  step (readU8_u8 schema.length _ h5)
  step (readLeU16_le err _ h3)
  step (readLeU16_le vars.length _ h4)
  step (readLen_append vars _)
  step (readLen_append schema _)
  step (readLen_append' 1 (Spec.u8 0) query rfl)
  rfl

theorem Well.statusValue (k : Nat) : Well (QueryStatusVar.readValue k) := by
  unfold QueryStatusVar.readValue
  split <;> first
    | (refine Well.bind Well.u8 fun _ => Well.bind (Well.times (Well.until_ _ _) _) fun _ => Well.pure _)
    | well

theorem Well.statusVar : Well QueryStatusVar.readFrom :=
  Well.bind Well.u8 Well.statusValue

theorem Well.queryData : Well QueryData.readFrom := by unfold QueryData.readFrom; well

theorem statusVar_consumes (bs : Bytes) (a : QueryStatusVar) (r : Bytes)
    (h : QueryStatusVar.readFrom bs = .ok a r) : r.length < bs.length := by
  unfold QueryStatusVar.readFrom at h
  rw [P.bind_eq_ok] at h
  obtain ⟨k, r1, h1, h2⟩ := h
  obtain ⟨-, rfl⟩ := readU8_eq_ok'.1 h1
  have := Well.statusValue k r1
  rw [h2] at this
  have := this.length_le
  simp [Spec.u8]; omega

/-- C47: on any input, decoding a query event and its status variables ends with a result or an error. -/
theorem C47_no_panic (bs : Bytes) :
    (QueryData.readFrom bs ≠ .panic ∧ QueryData.readFrom bs ≠ .hang) ∧
    (QueryStatusVars.readFrom bs ≠ .panic ∧ QueryStatusVars.readFrom bs ≠ .hang) := by
  constructor
  · have := Well.queryData bs
    constructor <;> intro h <;> rw [h] at this <;> exact this
  · have := Well.whileRemaining Well.statusVar (fun bs a r _ h => statusVar_consumes bs a r h) bs
    unfold QueryStatusVars.readFrom
    constructor <;> intro h <;> rw [h] at this <;> exact this

example : ∀ v ∈ [Spec.StatusVar.flags2 1, .catalog [115], .updatedDbs [[97], []], .microseconds 5],
    v.InRange ∧ v ≠ .overMaxDbs := by
  intro v hv
  simp only [List.mem_cons, List.not_mem_nil, or_false] at hv
  rcases hv with rfl | rfl | rfl | rfl <;> simp [Spec.StatusVar.InRange]

/-! ### C48 -/

/-- C48: rotate events. -/
theorem C48_rotate (pos : Nat) (h : pos < 2 ^ 64) (file : Bytes) :
    RotateData.readFrom (Spec.le 8 pos ++ file) = .ok ⟨pos, file⟩ [] := by
  unfold RotateData.readFrom
  step (readLeU64_le pos _ h)
  rfl

/-- C48: integer variables: type 1 (last insert id) and 2 (insert id). -/
theorem C48_intvar (k v : Nat) (hk : k = 1 ∨ k = 2) (hv : v < 2 ^ 64) (rest : Bytes) :
    IntvarData.readFrom (Spec.u8 k ++ Spec.le 8 v ++ rest) = .ok ⟨k, v⟩ rest := by
  unfold IntvarData.readFrom
  rw [List.append_assoc]
  step (readU8_u8 k _ (by omega))
  have : P.orErr (if k &&& 3 = k then some k else none) .constraint (Spec.le 8 v ++ rest)
      = .ok k (Spec.le 8 v ++ rest) := by
    rcases hk with rfl | rfl <;> rfl
  step this
  step (readLeU64_le v _ hv)
  rfl

/-- C48: random seeds. -/
theorem C48_rand (a b : Nat) (ha : a < 2 ^ 64) (hb : b < 2 ^ 64) (rest : Bytes) :
    RandData.readFrom (Spec.le 8 a ++ Spec.le 8 b ++ rest) = .ok ⟨a, b⟩ rest := by
  unfold RandData.readFrom
  rw [List.append_assoc]
  step (readLeU64_le a _ ha)
  step (readLeU64_le b _ hb)
  rfl

/-- C48: transaction ids. -/
theorem C48_xid (n : Nat) (h : n < 2 ^ 64) (rest : Bytes) :
    XidData.readFrom (Spec.le 8 n ++ rest) = .ok n rest := readLeU64_le n rest h

/-- C48: user variables: name, NULL marker and value. -/
theorem C48_user_var (name value : Bytes) (isNull : Nat) (h1 : name.length < 2 ^ 32)
    (h2 : isNull < 2 ^ 8) :
    UserVarData.readFrom (Spec.le 4 name.length ++ name ++ Spec.u8 isNull ++ value)
      = .ok ⟨name.length, name, isNull, value⟩ [] := by
  unfold UserVarData.readFrom
  simp only [List.append_assoc]
  step (readLeU32_le name.length _ h1)
  step (readLen_append name _)
  step (readU8_u8 isNull _ h2)
  rfl

/-- C48: the value of a user variable, with its flag byte (0 or 1: unsigned), or without (old servers). -/
theorem C48_user_var_value (ty charset flags : Nat) (value rest : Bytes) (h1 : ty < 2 ^ 8)
    (h2 : charset < 2 ^ 32) (h3 : value.length < 2 ^ 32) (h4 : flags ≤ 1) :
    UserVarValue.readFrom (Spec.u8 ty ++ Spec.le 4 charset ++ Spec.le 4 value.length ++ value
        ++ Spec.u8 flags ++ rest) = .ok ⟨ty, charset, value, flags⟩ rest ∧
    UserVarValue.readFrom (Spec.u8 ty ++ Spec.le 4 charset ++ Spec.le 4 value.length ++ value)
      = .ok ⟨ty, charset, value, 0⟩ [] := by
  constructor
  · unfold UserVarValue.readFrom
    simp only [List.append_assoc]
    step (readU8_u8 ty _ h1)
    step (readLeU32_le charset _ h2)
    step (readLeU32_le value.length _ h3)
    step (readLen_append value _)
    rw [P.bind_apply, hasRemaining_apply, R.bind_ok]
    have : (!(Spec.u8 flags ++ rest).isEmpty) = true := by simp [Spec.u8]
    rw [this]
    simp only [if_true]
    step (readU8_u8 flags rest (by omega))
    have : P.orErr (if flags &&& 1 = flags then some flags else none) .constraint rest = .ok flags rest := by
      have : flags = 0 ∨ flags = 1 := by omega
      rcases this with rfl | rfl <;> rfl
    step this
    rfl
  · unfold UserVarValue.readFrom
    simp only [List.append_assoc]
    step (readU8_u8 ty _ h1)
    step (readLeU32_le charset _ h2)
    step (readLeU32_le value.length _ h3)
    have := readLen_append value []
    rw [List.append_nil] at this
    step this
    rfl

/-- C48: incidents. -/
theorem C48_incident (ty : Nat) (msg rest : Bytes) (h1 : ty < 2 ^ 16) (h2 : msg.length < 2 ^ 8) :
    IncidentData.readFrom (Spec.le 2 ty ++ Spec.str8 msg ++ rest) = .ok ⟨ty, msg.length, msg⟩ rest := by
  unfold IncidentData.readFrom
  rw [List.append_assoc]
  step (readLeU16_le ty _ h1)
  step (readU8_str8 msg _ h2)
  step (readLen_append msg rest)
  rfl

/-- C48: GTID events (also anonymous ones), with the logical timestamps of 5.7 and whatever follows, and
without them (5.6). -/
theorem C48_gtid (flags sid gno ty last seq : Nat) (rest : Bytes) (h1 : flags < 2 ^ 8)
    (h2 : sid < 2 ^ 128) (h3 : gno < 2 ^ 64) (h4 : ty < 2 ^ 8) (h5 : last < 2 ^ 64) (h6 : seq < 2 ^ 64) :
    GtidLogData.readFrom (Spec.u8 flags ++ Spec.le 16 sid ++ Spec.le 8 gno ++ Spec.u8 ty
        ++ Spec.le 8 last ++ Spec.le 8 seq ++ rest) = .ok ⟨flags, sid, gno, ty, last, seq⟩ rest ∧
    GtidLogData.readFrom (Spec.u8 flags ++ Spec.le 16 sid ++ Spec.le 8 gno)
      = .ok ⟨flags, sid, gno, 0, 0, 0⟩ [] := by
  constructor
  · unfold GtidLogData.readFrom
    simp only [List.append_assoc]
    step (readU8_u8 flags _ h1)
    step (readLeU128_le sid _ h2)
    step (readLeU64_le gno _ h3)
    have : LogicalTs.readFrom (Spec.u8 ty ++ (Spec.le 8 last ++ (Spec.le 8 seq ++ rest)))
        = .ok ⟨ty, last, seq⟩ rest := by
      unfold LogicalTs.readFrom
      rw [P.bind_apply, remaining_apply, R.bind_ok, if_neg (by simp; omega)]
      step (readU8_u8 ty _ h4)
      step (readLeU64_le last _ h5)
      step (readLeU64_le seq _ h6)
      rfl
    step this
    rfl
  · unfold GtidLogData.readFrom
    simp only [List.append_assoc]
    step (readU8_u8 flags _ h1)
    step (readLeU128_le sid _ h2)
    have := readLeU64_le gno [] h3
    rw [List.append_nil] at this
    step this
    rfl

theorem loadNames_spec (l : Spec.LoadTarget) (h : l.Ok) :
    LoadNames.readFrom l.fields.length l.table.length l.schema.length l.encode
      = .ok ⟨l.lengths, l.names, l.table, l.schema, l.file⟩ [] := by
  obtain ⟨hf, ht1, ht2, hs1, hs2, hfile, hsum⟩ := h
  have hlen : l.lengths.length = l.fields.length := by simp [Spec.LoadTarget.lengths]
  have htot : (l.lengths.map (·.toNat)).sum + l.fields.length = (l.fields.map fun f => f.length + 1).sum := by
    unfold Spec.LoadTarget.lengths
    have : ∀ fs : List (List UInt8), (∀ f ∈ fs, f.length < 2 ^ 8 ∧ (0 : UInt8) ∉ f) →
        ((fs.map fun f => UInt8.ofNat f.length).map (·.toNat)).sum + fs.length
          = (fs.map fun f => f.length + 1).sum := by
      intro fs
      induction fs with
      | nil => intro _; rfl
      | cons f fs ih =>
        intro h
        have h1 := (h f (by simp)).1
        have := ih (fun x hx => h x (by simp [hx]))
        simp only [List.map_cons, List.sum_cons, List.length_cons] at this ⊢
        have e : (UInt8.ofNat f.length).toNat = f.length := by
          rw [UInt8.toNat_ofNat']; omega
        omega
    exact this l.fields hf
  have hnames : l.names.length = (l.fields.map fun f => f.length + 1).sum := by
    simp [Spec.LoadTarget.names, Spec.nulStr, List.length_flatten, Function.comp_def]
  unfold LoadNames.readFrom Spec.LoadTarget.encode
  simp only [List.append_assoc]
  step (readLen_append' l.fields.length l.lengths _ hlen)
  have hft : ∀ bs, fieldNameTotal l.lengths l.fields.length bs = .ok l.names.length bs := by
    intro bs
    unfold fieldNameTotal
    rw [htot, if_pos hsum, hnames]
    rfl
  step (hft _)
  step (readLen_append l.names _)
  have hn : ∀ s : Bytes, (Spec.nulStr s).length = s.length + 1 := by simp [Spec.nulStr]
  have hsub : ∀ (s bs : Bytes), (0 : UInt8) ∉ s →
      P.onSub (Spec.nulStr s) (readUntil 0 false) bs = .ok s bs := by
    intro s bs hs
    unfold P.onSub
    have := readUntil_nulStr s [] hs
    rw [List.append_nil] at this
    rw [this]
  step (readLen_append' (l.table.length + 1) (Spec.nulStr l.table) _ (hn _))
  step (hsub l.table _ ht2)
  step (readLen_append' (l.schema.length + 1) (Spec.nulStr l.schema) _ (hn _))
  step (hsub l.schema _ hs2)
  step (readRest_apply (Spec.nulStr l.file))
  step (hsub l.file _ hfile)
  rfl

/-- C48: load events. -/
theorem C48_load (l : Spec.LoadTarget) (hl : l.Ok) (proxy exec skip ft eb lt ls esc opt emp : Nat)
    (h1 : proxy < 2 ^ 32) (h2 : exec < 2 ^ 32) (h3 : skip < 2 ^ 32) (hf : ft < 2 ^ 8) (he : eb < 2 ^ 8)
    (hlt : lt < 2 ^ 8) (hls : ls < 2 ^ 8) (hesc : esc < 2 ^ 8) (hopt : opt < 2 ^ 8) (hemp : emp < 2 ^ 8) :
    LoadData.readFrom (Spec.le 4 proxy ++ Spec.le 4 exec ++ Spec.le 4 skip ++ Spec.u8 l.table.length
        ++ Spec.u8 l.schema.length ++ Spec.le 4 l.fields.length ++ Spec.u8 ft ++ Spec.u8 eb ++ Spec.u8 lt
        ++ Spec.u8 ls ++ Spec.u8 esc ++ Spec.u8 opt ++ Spec.u8 emp ++ l.encode)
      = .ok ⟨proxy, exec, skip, l.table.length, l.schema.length, l.fields.length, ft, eb, lt, ls, esc, opt,
          emp, ⟨l.lengths, l.names, l.table, l.schema, l.file⟩⟩ [] := by
  have hn : l.fields.length < 2 ^ 32 := by
    have : ∀ fs : List (List UInt8), fs.length ≤ (fs.map fun f => f.length + 1).sum := by
      intro fs
      induction fs with
      | nil => simp
      | cons f fs ih => simp at ih ⊢; omega
    have := this l.fields
    have := hl.2.2.2.2.2.2
    omega
  unfold LoadData.readFrom
  simp only [List.append_assoc]
  step (readLeU32_le proxy _ h1)
  step (readLeU32_le exec _ h2)
  step (readLeU32_le skip _ h3)
  step (readU8_u8 l.table.length _ hl.2.1)
  step (readU8_u8 l.schema.length _ hl.2.2.2.1)
  step (readLeU32_le l.fields.length _ hn)
  step (readU8_u8 ft _ hf)
  step (readU8_u8 eb _ he)
  step (readU8_u8 lt _ hlt)
  step (readU8_u8 ls _ hls)
  step (readU8_u8 esc _ hesc)
  step (readU8_u8 opt _ hopt)
  step (readU8_u8 emp _ hemp)
  step (loadNames_spec l hl)
  rfl

theorem readLen8Str_spec (s t : Bytes) (h : s.length < 2 ^ 8) :
    readLen8Str (Spec.str8 s ++ t) = .ok s t := by
  unfold readLen8Str
  step (readU8_str8 s t h)
  exact readLen_append s t

/-- C48: new load events. -/
theorem C48_new_load (l : Spec.LoadTarget) (hl : l.Ok) (proxy exec skip opt : Nat)
    (ft eb lt ls esc : Bytes) (h1 : proxy < 2 ^ 32) (h2 : exec < 2 ^ 32) (h3 : skip < 2 ^ 32)
    (hf : ft.length < 2 ^ 8) (he : eb.length < 2 ^ 8) (hlt : lt.length < 2 ^ 8) (hls : ls.length < 2 ^ 8)
    (hesc : esc.length < 2 ^ 8) (hopt : opt < 2 ^ 8) :
    NewLoadData.readFrom (Spec.le 4 proxy ++ Spec.le 4 exec ++ Spec.le 4 skip ++ Spec.u8 l.table.length
        ++ Spec.u8 l.schema.length ++ Spec.le 4 l.fields.length ++ Spec.str8 ft ++ Spec.str8 eb
        ++ Spec.str8 lt ++ Spec.str8 ls ++ Spec.str8 esc ++ Spec.u8 opt ++ l.encode)
      = .ok ⟨proxy, exec, skip, l.table.length, l.schema.length, l.fields.length, ft, eb, lt, ls, esc, opt,
          ⟨l.lengths, l.names, l.table, l.schema, l.file⟩⟩ [] := by
  have hn : l.fields.length < 2 ^ 32 := by
    have : ∀ fs : List (List UInt8), fs.length ≤ (fs.map fun f => f.length + 1).sum := by
      intro fs
      induction fs with
      | nil => simp
      | cons f fs ih => simp at ih ⊢; omega
    have := this l.fields
    have := hl.2.2.2.2.2.2
    omega
  unfold NewLoadData.readFrom
  simp only [List.append_assoc]
  step (readLeU32_le proxy _ h1)
  step (readLeU32_le exec _ h2)
  step (readLeU32_le skip _ h3)
  step (readU8_u8 l.table.length _ hl.2.1)
  step (readU8_u8 l.schema.length _ hl.2.2.2.1)
  step (readLeU32_le l.fields.length _ hn)
  step (readLen8Str_spec ft _ hf)
  step (readLen8Str_spec eb _ he)
  step (readLen8Str_spec lt _ hlt)
  step (readLen8Str_spec ls _ hls)
  step (readLen8Str_spec esc _ hesc)
  step (readU8_u8 opt _ hopt)
  step (loadNames_spec l hl)
  rfl

/-- C48: execute-load and delete-file events carry a file id. -/
theorem C48_file_id (id : Nat) (h : id < 2 ^ 32) (rest : Bytes) :
    ExecLoadData.readFrom (Spec.le 4 id ++ rest) = .ok id rest ∧
    DeleteFileData.readFrom (Spec.le 4 id ++ rest) = .ok id rest :=
  ⟨readLeU32_le id rest h, readLeU32_le id rest h⟩

/-- C48: begin-load-query events carry the raw block. -/
theorem C48_begin_load_query (id : Nat) (h : id < 2 ^ 32) (block : Bytes) :
    BeginLoadQueryData.readFrom (Spec.le 4 id ++ block) = .ok ⟨id, block⟩ [] := by
  unfold BeginLoadQueryData.readFrom
  step (readLeU32_le id _ h)
  rfl

/-- C48: create-file and append-block events, for blocks that contain no NUL and are NUL-terminated.
(Full claim: for every block of file content, which has no terminator. That is false:
`C48_file_block_false`.) -/
theorem C48_file_block_partial (id : Nat) (h : id < 2 ^ 32) (block : Bytes) (hb : (0 : UInt8) ∉ block) :
    CreateFileData.readFrom (Spec.le 4 id ++ Spec.nulStr block) = .ok ⟨id, block⟩ [] ∧
    AppendBlockData.readFrom (Spec.le 4 id ++ Spec.nulStr block) = .ok ⟨id, block⟩ [] := by
  have hsub : P.onSub (Spec.nulStr block) (readUntil 0 false) [] = .ok block [] := by
    unfold P.onSub
    have := readUntil_nulStr block [] hb
    rw [List.append_nil] at this
    rw [this]
  constructor
  · unfold CreateFileData.readFrom
    step (readLeU32_le id _ h)
    step (readRest_apply (Spec.nulStr block))
    step hsub
    rfl
  · unfold AppendBlockData.readFrom
    step (readLeU32_le id _ h)
    step (readRest_apply (Spec.nulStr block))
    step hsub
    rfl

/-- C48 is false for file blocks as the server writes them: a block without NUL bytes is rejected, and a
block with one is cut there. -/
theorem C48_file_block_false (id : Nat) (h : id < 2 ^ 32) (a b : Bytes) (ha : (0 : UInt8) ∉ a) :
    AppendBlockData.readFrom (Spec.le 4 id ++ a) = .err (.incomplete none) [] ∧
    AppendBlockData.readFrom (Spec.le 4 id ++ (a ++ 0 :: b)) = .ok ⟨id, a⟩ [] ∧
    CreateFileData.readFrom (Spec.le 4 id ++ a) = .err (.incomplete none) [] ∧
    CreateFileData.readFrom (Spec.le 4 id ++ (a ++ 0 :: b)) = .ok ⟨id, a⟩ [] := by
  have h1 : P.onSub a (readUntil 0 false) [] = .err (.incomplete none) [] := by
    unfold P.onSub
    rw [readUntil_none 0 false a ha]
  have h2 : P.onSub (a ++ 0 :: b) (readUntil 0 false) [] = .ok a [] := by
    unfold P.onSub
    rw [readUntil_append 0 a b ha]
  refine ⟨?_, ?_, ?_, ?_⟩
  · unfold AppendBlockData.readFrom
    step (readLeU32_le id _ h)
    rw [P.bind_apply, readRest_apply, R.bind_ok, P.bind_apply, h1]; rfl
  · unfold AppendBlockData.readFrom
    step (readLeU32_le id _ h)
    rw [P.bind_apply, readRest_apply, R.bind_ok, P.bind_apply, h2]; rfl
  · unfold CreateFileData.readFrom
    step (readLeU32_le id _ h)
    rw [P.bind_apply, readRest_apply, R.bind_ok, P.bind_apply, h1]; rfl
  · unfold CreateFileData.readFrom
    step (readLeU32_le id _ h)
    rw [P.bind_apply, readRest_apply, R.bind_ok, P.bind_apply, h2]; rfl

/-- C48: execute-load-query events. -/
theorem C48_execute_load_query (proxy exec sl err vl file start stop dup : Nat) (payload : Bytes)
    (h1 : proxy < 2 ^ 32) (h2 : exec < 2 ^ 32) (h3 : sl < 2 ^ 8) (h4 : err < 2 ^ 16) (h5 : vl < 2 ^ 16)
    (h6 : file < 2 ^ 32) (h7 : start < 2 ^ 32) (h8 : stop < 2 ^ 32) (h9 : dup < 2 ^ 8) :
    ExecuteLoadQueryData.readFrom (Spec.le 4 proxy ++ Spec.le 4 exec ++ Spec.u8 sl ++ Spec.le 2 err
        ++ Spec.le 2 vl ++ Spec.le 4 file ++ Spec.le 4 start ++ Spec.le 4 stop ++ Spec.u8 dup ++ payload)
      = .ok ⟨proxy, exec, sl, err, vl, file, start, stop, dup, payload⟩ [] := by
  unfold ExecuteLoadQueryData.readFrom
  simp only [List.append_assoc]
  step (readLeU32_le proxy _ h1)
  step (readLeU32_le exec _ h2)
  step (readU8_u8 sl _ h3)
  step (readLeU16_le err _ h4)
  step (readLeU16_le vl _ h5)
  step (readLeU32_le file _ h6)
  step (readLeU32_le start _ h7)
  step (readLeU32_le stop _ h8)
  step (readU8_u8 dup _ h9)
  rfl

/-- a load of two fields into a table -/
example : (⟨[[97], [98, 99]], [116], [115], [102]⟩ : Spec.LoadTarget).Ok := by
  refine ⟨?_, by decide, by decide, by decide, by decide, by decide, by decide⟩
  intro f hf
  simp only [List.mem_cons, List.not_mem_nil, or_false] at hf
  rcases hf with rfl | rfl <;> decide

end Mybin
