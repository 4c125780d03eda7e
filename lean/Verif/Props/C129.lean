/-
C129: a log of several files is printed like its files one after another.
-/
import Verif.Props.C106Alter

namespace Mybin

open Spec (LogEvent LogItem)

/-! ### specification -/

/-- what comes between two files in a stream: the rotate event at the end of the first, and events that are neither about
rows nor about tables (the rotate event that a master makes up for the second, its format description) -/
def Spec.Joint (joint : List (LogEvent × Spec.Topic)) : Prop :=
  ∃ e more, joint = (e, .fileEnd) :: more ∧ ∀ x ∈ more, x.2 = .fileEnd ∨ x.2 = .other

/-- the events of one file -/
def Spec.OneFile (file : List (LogEvent × Spec.Topic)) : Prop := ∀ x ∈ file, x.2 ≠ .fileEnd

/-- all files but the last, each with what follows it in a stream, and the last -/
def Spec.wholeLog (files : List (List (LogEvent × Spec.Topic) × List (LogEvent × Spec.Topic)))
    (last : List (LogEvent × Spec.Topic)) : List (LogEvent × Spec.Topic) :=
  files.flatMap (fun f => f.1 ++ f.2) ++ last

/-- runs one after another, up to the first that does not come to its end -/
def Spec.oneAfterAnother : List (List DmlLine × DmlEnd) → List DmlLine × DmlEnd
  | [] => ([], .done)
  | r :: more => if r.2 = .done then (r.1 ++ (Spec.oneAfterAnother more).1, (Spec.oneAfterAnother more).2) else r

/-- a file is printed on its own: the stream that starts with it goes on with any other events after its last rotate event,
or ends; the program is not told to go on until now -/
def Spec.PrintedAlone (ft : FloatText) (o : DmlOpts) (cat : Catalogue) (crc : Bool) (file : List (LogEvent × Spec.Topic))
    (r : List DmlLine × DmlEnd) : Prop :=
  ∃ (name uuid : Bytes) (random : Nat) (conn helper : Conn) (opening answers : List Bytes) (after : List LogEvent)
    (eof rest hrest : Bytes), name.length < 10 ^ 9 ∧ validUtf8 name = true ∧ uuid.length = 36 ∧ random < 2 ^ 32 ∧
    Spec.OpensStream conn.caps crc opening ∧ (∀ e ∈ after, e.InRange) ∧ (∀ e ∈ after.head?, e.code = 4) ∧
    Spec.Delivers conn.inp (opening ++ ((file.map (·.1) ++ after).map (Spec.streamMessage crc) ++ [0xfe :: eof])) rest ∧
    Spec.ListsTables helper.caps cat (Spec.asksFor o.wanted (fun _ => none) (file.map (·.2))) answers ∧
    Spec.Delivers helper.inp answers hrest ∧
    r = printDmls ft { o with filename := name, untilNow := false } uuid random conn helper

/-! ### one event of rows -/

theorem onRows_alike {wanted : Spec.Table → Bool} {cat : Catalogue} {known : Nat → Option Spec.Table} {st st' : DmlState}
    (hk : Keeps wanted cat known st) (hk' : Keeps wanted cat known st')
    (lines : TableMeta → RowsDataV2 → R (List DmlLine)) (data : Bytes) (d : RowsDataV2) (r : Bytes)
    (hd : RowsDataV2.readFrom data = .ok d r) :
    (∃ out n n', onRows 0 lines st data = (out, .go { st with nRows := n }) ∧
      onRows 0 lines st' data = (out, .go { st' with nRows := n' })) ∨
    ∃ out e, onRows 0 lines st data = (out, e) ∧ onRows 0 lines st' data = (out, e) ∧ (∀ x, e ≠ .go x) ∧ e ≠ .stop := by
  have h := hk d.tableId
  have h' := hk' d.tableId
  rw [onRows_free _ _ _ _ _ hd, onRows_free _ _ _ _ _ hd]
  cases hkn : known d.tableId with
  | none =>
    rw [hkn] at h h'
    dsimp only at h h'
    rw [if_neg h.2, h.1, if_neg h'.2, h'.1]
    exact Or.inl ⟨[], st.nRows, st'.nRows, rfl, rfl⟩
  | some t =>
    rw [hkn] at h h'
    dsimp only at h h'
    by_cases hw : wanted t = true
    · rw [if_pos hw] at h h'
      obtain ⟨h1, ms, h2, -, -, h5⟩ := h
      obtain ⟨g1, ms', g2, -, -, g5⟩ := h'
      have hms : ms = ms' := List.map_injective_iff.2 (Option.some_injective _) (h2.symm.trans g2)
      subst hms
      rw [if_neg h1, h5, if_neg g1, g5]
      dsimp only
      cases lines ⟨t.schema, t.table, ms, cat t.schema t.table⟩ d with
      | ok ls _ => exact Or.inl ⟨ls, _, _, rfl, rfl⟩
      | err e _ => exact Or.inr ⟨_, _, rfl, rfl, by simp, by simp⟩
      | panic => exact Or.inr ⟨_, _, rfl, rfl, by simp, by simp⟩
      | hang => exact Or.inr ⟨_, _, rfl, rfl, by simp, by simp⟩
    · rw [if_neg hw] at h h'
      rw [if_pos h.1, if_pos h'.1]
      exact Or.inl ⟨[], st.nRows, st'.nRows, rfl, rfl⟩

/-! ### one file -/

/-- the events of a file, in a run that goes on and in a run of its own: the same lines and the same error, or the run that
goes on comes to what follows the file, with the answers to the further questions still to come -/
theorem runLog_file {ft : FloatText} {o o' : DmlOpts} (hlim : o.limit = 0) (hlim' : o'.limit = 0)
    (hdb : o'.databaseFilter = o.databaseFilter) (htb : o'.tableFilter = o.tableFilter) {cat : Catalogue} (crc : Bool)
    (caps caps' : Nat) (tail after : List LogEvent) (more : List Bytes) (rest : Bytes) :
    ∀ (file : List (LogEvent × Spec.Topic)) (known : Nat → Option Spec.Table) (st st' : DmlState)
      (answers answers' : List Bytes) (rest' : Bytes),
    Keeps o.wanted cat known st → Keeps o.wanted cat known st' →
    (∀ x ∈ file, x.2.Of x.1) → Spec.OneFile file → Spec.Announced known (file.map (·.2)) →
    st.helper.caps = caps → Spec.ListsTables caps cat (Spec.asksFor o.wanted known (file.map (·.2))) answers →
    Spec.Delivers st.helper.inp (answers ++ more) rest →
    st'.helper.caps = caps' → Spec.ListsTables caps' cat (Spec.asksFor o.wanted known (file.map (·.2))) answers' →
    Spec.Delivers st'.helper.inp answers' rest' →
    (∃ out s s', s.helper.caps = caps ∧ Spec.Delivers s.helper.inp more rest ∧
      runLog ft o crc st (file.map (·.1) ++ tail) = (out ++ (runLog ft o crc s tail).1, (runLog ft o crc s tail).2) ∧
      runLog ft o' crc st' (file.map (·.1) ++ after) = (out ++ (runLog ft o' crc s' after).1, (runLog ft o' crc s' after).2)) ∨
    ∃ out e, e ≠ DmlEnd.done ∧ runLog ft o crc st (file.map (·.1) ++ tail) = (out, e) ∧
      runLog ft o' crc st' (file.map (·.1) ++ after) = (out, e)
  | [], _, st, st', answers, _, _, _, _, _, _, _, hc, hl, hd, _, _, _ => by
    have hl : answers = [] := hl
    subst hl
    exact Or.inl ⟨[], st, st', hc, hd, rfl, rfl⟩
  | (e, a) :: file, known, st, st', answers, answers', rest', hk, hk', hof, hone, hann, hc, hl, hd, hc', hl', hd' => by
    have ha := hof (e, a) List.mem_cons_self
    have hof' : ∀ x ∈ file, x.2.Of x.1 := fun x hx => hof x (List.mem_cons_of_mem _ hx)
    have hone' : Spec.OneFile file := fun x hx => hone x (List.mem_cons_of_mem _ hx)
    have hwant : o'.wanted = o.wanted := by
      funext t
      rw [wanted_eq, wanted_eq, hdb, htb]
    simp only [List.map_cons, List.cons_append] at hann hl hl' ⊢
    obtain ⟨hann1, hann2⟩ := hann
    -- both runs take the event in the same way and go on
    have go : ∀ ev ls s1 s1', seenEvent crc e = some ev → onEvent ft o st ev = (ls, .go s1) →
        onEvent ft o' st' ev = (ls, .go s1') →
        ((∃ out s s', s.helper.caps = caps ∧ Spec.Delivers s.helper.inp more rest ∧
          runLog ft o crc s1 (file.map (·.1) ++ tail) = (out ++ (runLog ft o crc s tail).1, (runLog ft o crc s tail).2) ∧
          runLog ft o' crc s1' (file.map (·.1) ++ after)
            = (out ++ (runLog ft o' crc s' after).1, (runLog ft o' crc s' after).2)) ∨
        ∃ out e, e ≠ DmlEnd.done ∧ runLog ft o crc s1 (file.map (·.1) ++ tail) = (out, e) ∧
          runLog ft o' crc s1' (file.map (·.1) ++ after) = (out, e)) →
        ((∃ out s s', s.helper.caps = caps ∧ Spec.Delivers s.helper.inp more rest ∧
          runLog ft o crc st (e :: (file.map (·.1) ++ tail)) = (out ++ (runLog ft o crc s tail).1, (runLog ft o crc s tail).2) ∧
          runLog ft o' crc st' (e :: (file.map (·.1) ++ after))
            = (out ++ (runLog ft o' crc s' after).1, (runLog ft o' crc s' after).2)) ∨
        ∃ out x, x ≠ DmlEnd.done ∧ runLog ft o crc st (e :: (file.map (·.1) ++ tail)) = (out, x) ∧
          runLog ft o' crc st' (e :: (file.map (·.1) ++ after)) = (out, x)) := by
      intro ev ls s1 s1' hs h1 h2 ih
      rw [runLog, runLog, hs]
      dsimp only
      rw [h1, h2]
      dsimp only
      rcases ih with ⟨out, s, s', i1, i2, i3, i4⟩ | ⟨out, x, i1, i2, i3⟩
      · refine Or.inl ⟨ls ++ out, s, s', i1, i2, ?_, ?_⟩
        · rw [i3, List.append_assoc]
        · rw [i4, List.append_assoc]
      · refine Or.inr ⟨ls ++ out, x, i1, ?_, ?_⟩
        · rw [i2]
        · rw [i3]
    cases a with
    | other =>
      have ih := runLog_file (ft := ft) (o := o) (o' := o') hlim hlim' hdb htb crc caps caps' tail after more rest file known
        st st' answers answers' rest' hk hk' hof' hone' hann2 hc hl hd hc' hl' hd'
      cases hs : seenEvent crc e with
      | none =>
        rw [runLog, runLog, hs]
        exact ih
      | some ev =>
        have hab : ¬ Spec.AboutRows e := ha
        exact go ev [] st st' hs (onEvent_other ft _ crc st e ev hs hab) (onEvent_other ft _ crc st' e ev hs hab) ih
    | fileEnd => exact absurd rfl (hone _ List.mem_cons_self)
    | table id t =>
      obtain ⟨s1, s2, flags, s3, s4⟩ := ha
      have hs := seenEvent_of crc e .tableMap s1 (by decide)
      obtain ⟨m1, m2, rfl, l1, l2⟩ := ListsTables.append hl
      obtain ⟨m1', m2', rfl, l1', l2'⟩ := ListsTables.append hl'
      rw [List.append_assoc] at hd
      obtain ⟨mid, d1, d2⟩ := Delivers.append hd
      obtain ⟨mid', d1', d2'⟩ := Delivers.append hd'
      obtain ⟨s, a1, a2, a3, a4, a5, -⟩ := onTableMap_flow hk id flags s2 s3 t hann1.1 hann1.2 caps hc m1 mid l1 d1
      obtain ⟨s', b1, b2, b3, b4, b5, -⟩ := onTableMap_flow hk' id flags s2 s3 t hann1.1 hann1.2 caps' hc' m1' mid' l1' d1'
      have b1 : onTableMap o' st' (Spec.le 6 id ++ Spec.le 2 flags ++ t.encode) = .go s' := by
        rw [← b1]
        unfold onTableMap
        rw [hdb, htb]
      rw [← a4] at d2
      rw [← b4] at d2'
      refine go _ [] s s' hs ?_ ?_ ?_
      · unfold onEvent
        dsimp only
        rw [s4, a1]
      · unfold onEvent
        dsimp only
        rw [s4, b1]
      · exact runLog_file hlim hlim' hdb htb crc caps caps' tail after more rest file _ s s' m2 m2' rest' a2 b2 hof' hone' hann2
          a5 l2 d2 b5 l2' d2'
    | rows id =>
      obtain ⟨s1, s2, flags, n, body, s3, s4, s5⟩ := ha
      have hdata : RowsDataV2.readFrom e.payload = .ok ⟨id, flags, n, body⟩ [] := by
        rw [s5]
        simp only [List.append_assoc]
        exact C35_data id flags n body s2 s3 s4
      have fin : ∀ k (lines : TableMeta → RowsDataV2 → R (List DmlLine)), e.code = k.toByte → k.toByte ∈ Spec.supportedCodes →
          (∀ (x : DmlState), onEvent ft o x ⟨k, ⟨e.timestamp, k, e.serverId, e.len crc, e.nextPos, e.flags⟩, e.payload⟩
              = onRows o.limit lines x e.payload) →
          (∀ (x : DmlState), onEvent ft o' x ⟨k, ⟨e.timestamp, k, e.serverId, e.len crc, e.nextPos, e.flags⟩, e.payload⟩
              = onRows o'.limit lines x e.payload) →
          ((∃ out s s', s.helper.caps = caps ∧ Spec.Delivers s.helper.inp more rest ∧
            runLog ft o crc st (e :: (file.map (·.1) ++ tail)) = (out ++ (runLog ft o crc s tail).1, (runLog ft o crc s tail).2) ∧
            runLog ft o' crc st' (e :: (file.map (·.1) ++ after))
              = (out ++ (runLog ft o' crc s' after).1, (runLog ft o' crc s' after).2)) ∨
          ∃ out x, x ≠ DmlEnd.done ∧ runLog ft o crc st (e :: (file.map (·.1) ++ tail)) = (out, x) ∧
            runLog ft o' crc st' (e :: (file.map (·.1) ++ after)) = (out, x)) := by
        intro k lines hcode hsup hev hev'
        have hs := seenEvent_of crc e k hcode hsup
        rw [hlim] at hev
        rw [hlim'] at hev'
        rcases onRows_alike hk hk' lines e.payload _ _ hdata with ⟨ls, m, m', r1, r2⟩ | ⟨ls, x, r1, r2, r3, r4⟩
        · refine go _ ls { st with nRows := m } { st' with nRows := m' } hs (by rw [hev, r1]) (by rw [hev', r2]) ?_
          exact runLog_file hlim hlim' hdb htb crc caps caps' tail after more rest file known { st with nRows := m }
            { st' with nRows := m' } answers answers' rest' hk hk' hof' hone' hann2 hc hl hd hc' hl' hd'
        · rw [runLog, runLog, hs]
          dsimp only
          rw [hev, hev', r1, r2]
          right
          cases x with
          | go x => exact absurd rfl (r3 x)
          | stop => exact absurd rfl r4
          | err x => exact ⟨ls, .err x, by simp, rfl, rfl⟩
          | panic => exact ⟨ls, .panic, by simp, rfl, rfl⟩
          | hang => exact ⟨ls, .hang, by simp, rfl, rfl⟩
      rcases s1 with s1 | s1 | s1
      · exact fin .writeRowsV2 (rowLines ft PreparedSql.fromInsert) s1 (by decide) (fun x => rfl) (fun x => rfl)
      · exact fin .updateRowsV2 (updateLines ft e.nextPos) s1 (by decide) (fun x => rfl) (fun x => rfl)
      · exact fin .deleteRowsV2 (rowLines ft PreparedSql.fromDelete) s1 (by decide) (fun x => rfl) (fun x => rfl)

/-! ### between files -/

theorem runLog_between {ft : FloatText} {o : DmlOpts} (hu : o.untilNow = true) (crc : Bool) (tail : List LogEvent) :
    ∀ (more : List (LogEvent × Spec.Topic)) (st : DmlState), st.tbls = [] → st.skip = [] → (∀ x ∈ more, x.2.Of x.1) →
    (∀ x ∈ more, x.2 = .fileEnd ∨ x.2 = .other) →
    runLog ft o crc st (more.map (·.1) ++ tail) = runLog ft o crc st tail
  | [], _, _, _, _, _ => rfl
  | (e, a) :: more, st, ht, hs0, hof, hk => by
    have ih := runLog_between (ft := ft) hu crc tail more st ht hs0 (fun x hx => hof x (List.mem_cons_of_mem _ hx))
      (fun x hx => hk x (List.mem_cons_of_mem _ hx))
    have ha := hof (e, a) List.mem_cons_self
    rw [List.map_cons, List.cons_append, runLog]
    rcases hk _ List.mem_cons_self with h | h
    · have h : a = .fileEnd := h
      subst h
      rw [seenEvent_of crc e .rotate ha (by decide)]
      dsimp only [onEvent]
      rw [if_pos hu]
      dsimp only
      rw [show ({ st with tbls := [], skip := [] } : DmlState) = st by cases st; cases ht; cases hs0; rfl, ih]
      rfl
    · have h : a = .other := h
      subst h
      cases hs : seenEvent crc e with
      | none => exact ih
      | some ev =>
        dsimp only
        rw [onEvent_other ft o crc st e ev hs ha]
        dsimp only
        rw [ih]
        rfl

theorem runLog_joint {ft : FloatText} {o : DmlOpts} (hu : o.untilNow = true) (crc : Bool) (tail : List LogEvent)
    (joint : List (LogEvent × Spec.Topic)) (hj : Spec.Joint joint) (hof : ∀ x ∈ joint, x.2.Of x.1) (st : DmlState) :
    runLog ft o crc st (joint.map (·.1) ++ tail) = runLog ft o crc { st with tbls := [], skip := [] } tail := by
  obtain ⟨e, more, rfl, hm⟩ := hj
  have ha := hof (e, .fileEnd) List.mem_cons_self
  rw [List.map_cons, List.cons_append, runLog, seenEvent_of crc e .rotate ha (by decide)]
  dsimp only [onEvent]
  rw [if_pos hu]
  dsimp only
  rw [runLog_between hu crc tail more _ rfl rfl (fun x hx => hof x (List.mem_cons_of_mem _ hx)) hm]
  rfl

/-- a run of its own ends after the file -/
theorem runLog_ends {ft : FloatText} {o : DmlOpts} (hu : o.untilNow = false) (crc : Bool) (after : List LogEvent)
    (h : ∀ e ∈ after.head?, e.code = 4) (st : DmlState) : runLog ft o crc st after = ([], .done) := by
  cases after with
  | nil => rfl
  | cons e after =>
    have he : e.code = 4 := h e rfl
    rw [runLog, seenEvent_of crc e .rotate he (by decide)]
    dsimp only [onEvent]
    rw [if_neg (by simp [hu])]

/-! ### whole logs -/

theorem asksFor_append (wanted : Spec.Table → Bool) : ∀ (a b : List Spec.Topic) (known : Nat → Option Spec.Table),
    Spec.asksFor wanted known (a ++ b)
      = Spec.asksFor wanted known a ++ Spec.asksFor wanted (a.foldl (fun k t => t.announce k) known) b
  | [], _, _ => rfl
  | x :: a, b, known => by
    have h := asksFor_append wanted a b (x.announce known)
    cases x <;> (simp only [List.cons_append, Spec.asksFor, h, List.foldl_cons, List.append_assoc])

theorem announced_append : ∀ (a b : List Spec.Topic) (known : Nat → Option Spec.Table), Spec.Announced known (a ++ b) →
    Spec.Announced known a ∧ Spec.Announced (a.foldl (fun k t => t.announce k) known) b
  | [], _, _, h => ⟨trivial, h⟩
  | x :: a, b, known, h => by
    rw [List.cons_append] at h
    obtain ⟨h1, h2⟩ := h
    obtain ⟨h3, h4⟩ := announced_append a b _ h2
    exact ⟨⟨h1, h3⟩, h4⟩

/-- between files nothing is asked, and afterwards nothing is known -/
theorem joint_forgets (wanted : Spec.Table → Bool) (joint : List (LogEvent × Spec.Topic)) (hj : Spec.Joint joint)
    (known : Nat → Option Spec.Table) : Spec.asksFor wanted known (joint.map (·.2)) = [] ∧
      (joint.map (·.2)).foldl (fun k t => t.announce k) known = fun _ => none := by
  obtain ⟨e, more, rfl, hm⟩ := hj
  have key : ∀ (more : List (LogEvent × Spec.Topic)), (∀ x ∈ more, x.2 = .fileEnd ∨ x.2 = .other) →
      Spec.asksFor wanted (fun _ => none) (more.map (·.2)) = [] ∧
      (more.map (·.2)).foldl (fun k t => t.announce k) (fun _ => none) = fun _ => none := by
    intro more hm
    induction more with
    | nil => exact ⟨rfl, rfl⟩
    | cons x more ih =>
      obtain ⟨i1, i2⟩ := ih (fun y hy => hm y (List.mem_cons_of_mem _ hy))
      rcases x with ⟨e, a⟩
      rcases hm _ List.mem_cons_self with h | h
      · have h : a = .fileEnd := h
        subst h
        exact ⟨i1, i2⟩
      · have h : a = .other := h
        subst h
        exact ⟨i1, i2⟩
  exact key more hm

theorem runLog_files {ft : FloatText} {o : DmlOpts} (hb : o.nonBlock = true) (hlim : o.limit = 0) (hu : o.untilNow = true)
    {cat : Catalogue} (crc : Bool) (caps : Nat) (last : List (LogEvent × Spec.Topic)) (hlast : Spec.OneFile last) (rest : Bytes) :
    ∀ (files : List (List (LogEvent × Spec.Topic) × List (LogEvent × Spec.Topic))) (st : DmlState) (answers : List Bytes)
      (runs : List (List DmlLine × DmlEnd)),
    st.tbls = [] → st.skip = [] → (∀ f ∈ files, Spec.OneFile f.1 ∧ Spec.Joint f.2) →
    (∀ x ∈ Spec.wholeLog files last, x.1.InRange ∧ x.2.Of x.1) →
    Spec.Announced (fun _ => none) ((Spec.wholeLog files last).map (·.2)) →
    st.helper.caps = caps →
    Spec.ListsTables caps cat (Spec.asksFor o.wanted (fun _ => none) ((Spec.wholeLog files last).map (·.2))) answers →
    Spec.Delivers st.helper.inp answers rest →
    List.Forall₂ (Spec.PrintedAlone ft o cat crc) (files.map (·.1) ++ [last]) runs →
    runLog ft o crc st ((Spec.wholeLog files last).map (·.1)) = Spec.oneAfterAnother runs := by
  have alone : ∀ (file : List (LogEvent × Spec.Topic)) (r : List DmlLine × DmlEnd), Spec.PrintedAlone ft o cat crc file r →
      (∀ x ∈ file, x.1.InRange) → ∃ (o' : DmlOpts) (helper : Conn) (answers : List Bytes) (after : List LogEvent)
        (hrest : Bytes), o'.limit = 0 ∧ o'.untilNow = false ∧ o'.databaseFilter = o.databaseFilter ∧
        o'.tableFilter = o.tableFilter ∧ (∀ e ∈ after.head?, e.code = 4) ∧
        Spec.ListsTables helper.caps cat (Spec.asksFor o.wanted (fun _ => none) (file.map (·.2))) answers ∧
        Spec.Delivers helper.inp answers hrest ∧
        r = runLog ft o' crc ⟨[], [], 0, helper⟩ (file.map (·.1) ++ after) := by
    rintro file r ⟨name, uuid, random, conn, helper, opening, answers, after, eof, rest, hrest, p1, p2, p3, p4, p5, p6, p7, p8,
      p9, p10, rfl⟩ hin
    refine ⟨{ o with filename := name, untilNow := false }, helper, answers, after, hrest, hlim, rfl, rfl, rfl, p7, p9, p10, ?_⟩
    refine printDmls_runLog ft { o with filename := name, untilNow := false } hb ⟨p1, p2⟩ uuid p3 random p4 conn helper crc opening p5 _ ?_ eof rest p8
    intro e he
    rcases List.mem_append.1 he with he | he
    · obtain ⟨x, hx, rfl⟩ := List.mem_map.1 he
      exact hin x hx
    · exact p6 e he
  intro files
  induction files with
  | nil =>
    intro st answers runs ht hs _ hin hann hc hl hd hruns
    obtain ⟨r, runs, hr, hnil, rfl⟩ := List.forall₂_cons_left_iff.1 hruns
    cases hnil
    have hw : Spec.wholeLog [] last = last := rfl
    rw [hw] at hin hann hl ⊢
    obtain ⟨o', helper, answers', after, hrest, q1, q2, q3, q4, q5, q6, q7, rfl⟩ := alone last r hr (fun x hx => (hin x hx).1)
    have hk : Keeps o.wanted cat (fun _ => none) st := fun id => by
      dsimp only
      rw [ht, hs]
      exact ⟨rfl, by simp⟩
    rcases runLog_file (ft := ft) (o := o) (o' := o') hlim q1 q3 q4 crc caps helper.caps [] after [] rest last (fun _ => none) st
      ⟨[], [], 0, helper⟩ answers answers' hrest hk (keeps_nothing _ _ _) (fun x hx => (hin x hx).2) hlast hann hc hl
      (by rw [List.append_nil]; exact hd) rfl q6 q7 with ⟨out, s, s', -, -, i3, i4⟩ | ⟨out, e, i1, i2, i3⟩
    · rw [runLog_ends q2 crc after q5] at i4
      rw [List.append_nil] at i3 i4
      rw [i3, i4]
      simp [Spec.oneAfterAnother, runLog]
    · rw [List.append_nil] at i2
      rw [i2, i3, Spec.oneAfterAnother, if_neg i1]
  | cons f files ih =>
    intro st answers runs ht hs hfiles hin hann hc hl hd hruns
    rcases f with ⟨file, joint⟩
    obtain ⟨r, runs, hr, hruns', rfl⟩ := List.forall₂_cons_left_iff.1 hruns
    obtain ⟨hone, hjoint⟩ := hfiles _ List.mem_cons_self
    dsimp only at hone hjoint
    have hw : Spec.wholeLog ((file, joint) :: files) last = file ++ (joint ++ Spec.wholeLog files last) := by
      unfold Spec.wholeLog
      rw [List.flatMap_cons, List.append_assoc, List.append_assoc]
    rw [hw] at hin hann hl ⊢
    rw [List.map_append, List.map_append] at hann hl
    obtain ⟨ann1, ann2⟩ := announced_append _ _ _ hann
    obtain ⟨-, ann3⟩ := announced_append _ _ _ ann2
    rw [(joint_forgets o.wanted joint hjoint _).2] at ann3
    rw [asksFor_append, asksFor_append, (joint_forgets o.wanted joint hjoint _).1, (joint_forgets o.wanted joint hjoint _).2,
      List.nil_append] at hl
    obtain ⟨m1, m2, rfl, l1, l2⟩ := ListsTables.append hl
    obtain ⟨o', helper, answers', after, hrest, q1, q2, q3, q4, q5, q6, q7, rfl⟩ := alone file r hr
      (fun x hx => (hin x (List.mem_append_left _ hx)).1)
    have hk : Keeps o.wanted cat (fun _ => none) st := fun id => by
      dsimp only
      rw [ht, hs]
      exact ⟨rfl, by simp⟩
    rw [List.map_append, List.map_append]
    rcases runLog_file (ft := ft) (o := o) (o' := o') hlim q1 q3 q4 crc caps helper.caps
      (joint.map (·.1) ++ (Spec.wholeLog files last).map (·.1)) after m2 rest file (fun _ => none) st
      ⟨[], [], 0, helper⟩ m1 answers' hrest hk (keeps_nothing _ _ _) (fun x hx => (hin x (List.mem_append_left _ hx)).2) hone ann1
      hc l1 hd rfl q6 q7 with ⟨out, s, s', i1, i2, i3, i4⟩ | ⟨out, e, i1, i2, i3⟩
    · rw [runLog_ends q2 crc after q5, List.append_nil] at i4
      rw [i3, i4, runLog_joint hu crc _ joint hjoint
        (fun x hx => (hin x (List.mem_append_right _ (List.mem_append_left _ hx))).2),
        ih { s with tbls := [], skip := [] } m2 runs rfl rfl (fun g hg => hfiles g (List.mem_cons_of_mem _ hg))
          (fun x hx => hin x (List.mem_append_right _ (List.mem_append_right _ hx))) ann3 i1 l2 i2 hruns']
      simp [Spec.oneAfterAnother]
    · rw [i2, i3, Spec.oneAfterAnother, if_neg i1]

/-- C129: a log of any number of files, read in one run until now, is printed like its files, each read in a run of its
own, one after another, up to the first error: the same lines and the same end. Missing from the full claim: files with
different checksum settings (`C105_changed_false`); and as in C123 tables the library cannot read and table ids that change
their meaning within a file. -/
theorem C129_files_partial (ft : FloatText) (o : DmlOpts) (hb : o.nonBlock = true) (hlim : o.limit = 0)
    (hu : o.untilNow = true) (hf : o.filename.length < 10 ^ 9 ∧ validUtf8 o.filename = true) (uuid : Bytes)
    (hid : uuid.length = 36) (random : Nat) (hr : random < 2 ^ 32) (conn helper : Conn) (crc : Bool) (opening : List Bytes)
    (hopen : Spec.OpensStream conn.caps crc opening)
    (files : List (List (LogEvent × Spec.Topic) × List (LogEvent × Spec.Topic))) (last : List (LogEvent × Spec.Topic))
    (hfiles : ∀ f ∈ files, Spec.OneFile f.1 ∧ Spec.Joint f.2) (hlast : Spec.OneFile last)
    (hin : ∀ x ∈ Spec.wholeLog files last, x.1.InRange ∧ x.2.Of x.1)
    (hann : Spec.Announced (fun _ => none) ((Spec.wholeLog files last).map (·.2))) (eof rest : Bytes)
    (hd : Spec.Delivers conn.inp
      (opening ++ (((Spec.wholeLog files last).map (·.1)).map (Spec.streamMessage crc) ++ [0xfe :: eof])) rest)
    (cat : Catalogue) (answers : List Bytes) (hrest : Bytes)
    (ha : Spec.ListsTables helper.caps cat
      (Spec.asksFor o.wanted (fun _ => none) ((Spec.wholeLog files last).map (·.2))) answers)
    (hh : Spec.Delivers helper.inp answers hrest) (runs : List (List DmlLine × DmlEnd))
    (hruns : List.Forall₂ (Spec.PrintedAlone ft o cat crc) (files.map (·.1) ++ [last]) runs) :
    printDmls ft o uuid random conn helper = Spec.oneAfterAnother runs := by
  rw [printDmls_runLog ft o hb hf uuid hid random hr conn helper crc opening hopen _ (by
    intro e he
    obtain ⟨x, hx, rfl⟩ := List.mem_map.1 he
    exact (hin x hx).1) eof rest hd]
  exact runLog_files hb hlim hu crc helper.caps last hlast hrest files ⟨[], [], 0, helper⟩ answers runs rfl rfl hfiles hin hann
    rfl ha hh hruns

/-- C129 with a limit: when each of the runs comes to its end, what is printed in one run is cut after that many
statements of all of them. -/
theorem C129_limit_partial (ft : FloatText) (o : DmlOpts) (hb : o.nonBlock = true)
    (hu : o.untilNow = true) (hf : o.filename.length < 10 ^ 9 ∧ validUtf8 o.filename = true) (uuid : Bytes)
    (hid : uuid.length = 36) (random : Nat) (hr : random < 2 ^ 32) (conn helper : Conn) (crc : Bool) (opening : List Bytes)
    (hopen : Spec.OpensStream conn.caps crc opening)
    (files : List (List (LogEvent × Spec.Topic) × List (LogEvent × Spec.Topic))) (last : List (LogEvent × Spec.Topic))
    (hfiles : ∀ f ∈ files, Spec.OneFile f.1 ∧ Spec.Joint f.2) (hlast : Spec.OneFile last)
    (hin : ∀ x ∈ Spec.wholeLog files last, x.1.InRange ∧ x.2.Of x.1)
    (hann : Spec.Announced (fun _ => none) ((Spec.wholeLog files last).map (·.2))) (eof rest : Bytes)
    (hd : Spec.Delivers conn.inp
      (opening ++ (((Spec.wholeLog files last).map (·.1)).map (Spec.streamMessage crc) ++ [0xfe :: eof])) rest)
    (cat : Catalogue) (answers : List Bytes) (hrest : Bytes)
    (ha : Spec.ListsTables helper.caps cat
      (Spec.asksFor o.wanted (fun _ => none) ((Spec.wholeLog files last).map (·.2))) answers)
    (hh : Spec.Delivers helper.inp answers hrest) (outs : List (List DmlLine))
    (hruns : List.Forall₂ (Spec.PrintedAlone ft { o with limit := 0 } cat crc) (files.map (·.1) ++ [last])
      (outs.map fun out => (out, .done))) :
    printDmls ft o uuid random conn helper = (if o.limit = 0 then outs.flatten else upTo o.limit outs.flatten, .done) := by
  have key : ∀ outs : List (List DmlLine), Spec.oneAfterAnother (outs.map fun out => (out, .done)) = (outs.flatten, .done) := by
    intro outs
    induction outs with
    | nil => rfl
    | cons out outs ih =>
      rw [List.map_cons, Spec.oneAfterAnother, if_pos rfl, ih, List.flatten_cons]
  refine printDmls_cut ft o uuid random conn helper _ ?_
  rw [← key]
  exact C129_files_partial ft { o with limit := 0 } hb rfl hu hf uuid hid random hr conn helper crc opening hopen files last
    hfiles hlast hin hann eof rest hd cat answers hrest ha hh _ hruns

/-! ### an example -/

/-- the log of C43: a table and two rows in one file, and a row in the next -/
def twoFiles : List (LogEvent × Spec.Topic) :=
  (exampleLog.map (·.1)).zip [.table 5 exampleTable, .rows 5, .fileEnd, .rows 5]

theorem twoFiles_of : ∀ x ∈ twoFiles, x.1.InRange ∧ x.2.Of x.1 := by
  intro x hx
  simp only [twoFiles, exampleLog, List.map_cons, List.map_nil, List.zip_cons_cons, List.zip_nil_right, List.mem_cons,
    List.not_mem_nil, or_false] at hx
  rcases hx with rfl | rfl | rfl | rfl
  · exact ⟨by unfold Spec.LogEvent.InRange; decide +kernel, rfl, by norm_num, 1, by norm_num, rfl⟩
  · exact ⟨by unfold Spec.LogEvent.InRange; decide +kernel, Or.inl rfl, by norm_num, 1, 2, _, by norm_num, by norm_num, rfl⟩
  · exact ⟨by unfold Spec.LogEvent.InRange; decide +kernel, rfl⟩
  · exact ⟨by unfold Spec.LogEvent.InRange; decide +kernel, Or.inr (Or.inr rfl), by norm_num, 1, 2, _, by norm_num, by norm_num,
      rfl⟩

example (ft : FloatText) : ∃ (conn helper : Conn) (run1 run2 : List DmlLine × DmlEnd),
    Spec.PrintedAlone ft (exampleOpts 0) exampleCatalogue true (twoFiles.take 2) run1 ∧
    Spec.PrintedAlone ft (exampleOpts 0) exampleCatalogue true (twoFiles.drop 3) run2 ∧
    printDmls ft (exampleOpts 0) (List.replicate 36 0x61) 5 conn helper = Spec.oneAfterAnother [run1, run2] := by
  obtain ⟨answers, l1, l2⟩ := example_lists
  obtain ⟨opening, o1, o2⟩ := example_opens
  have small : ∀ m ∈ exampleLog.map (fun x => Spec.streamMessage true x.1) ++ [[0xfe]], m.length < 0xffffff := by decide +kernel
  have deliver : ∀ log : List LogEvent, (∀ e ∈ log, e ∈ exampleLog.map (·.1)) → ∃ inp,
      Spec.Delivers inp (opening ++ (log.map (Spec.streamMessage true) ++ [[0xfe]])) [] := by
    intro log hlog
    refine delivers_small _ [] (fun m hm => ?_)
    rcases List.mem_append.1 hm with hm | hm
    · exact o2 m hm
    · refine small m ?_
      rcases List.mem_append.1 hm with hm | hm
      · obtain ⟨e, he, rfl⟩ := List.mem_map.1 hm
        obtain ⟨x, hx, rfl⟩ := List.mem_map.1 (hlog e he)
        exact List.mem_append_left _ (List.mem_map.2 ⟨x, hx, rfl⟩)
      · exact List.mem_append_right _ hm
  obtain ⟨inp, hd⟩ := deliver (exampleLog.map (·.1)) (fun e he => he)
  obtain ⟨inp2, hd2⟩ := deliver ((exampleLog.map (·.1)).drop 3) (fun e he => List.mem_of_mem_drop he)
  obtain ⟨hinp, hh⟩ := delivers_small answers [] l2
  have hq : Spec.questions (exampleOpts 0).wanted (fun _ => none) (exampleLog.map (·.2))
      = [(Spec.ascii "d", Spec.ascii "t")] := by decide +kernel
  rw [hq] at l1
  have hname : (Spec.ascii "f1").length < 10 ^ 9 ∧ validUtf8 (Spec.ascii "f1") = true := ⟨by decide +kernel, by decide +kernel⟩
  have e1 : (twoFiles.take 2).map (·.1) ++ (exampleLog.map (·.1)).drop 2 = exampleLog.map (·.1) := rfl
  have e2 : (twoFiles.drop 3).map (·.1) ++ [] = (exampleLog.map (·.1)).drop 3 := rfl
  have e3 : Spec.wholeLog [(twoFiles.take 2, (twoFiles.drop 2).take 1)] (twoFiles.drop 3) = twoFiles := rfl
  have e4 : twoFiles.map (·.1) = exampleLog.map (·.1) := rfl
  have q1 : Spec.asksFor (exampleOpts 0).wanted (fun _ => none) ((twoFiles.take 2).map (·.2))
      = [(Spec.ascii "d", Spec.ascii "t")] := by decide +kernel
  have q2 : Spec.asksFor (exampleOpts 0).wanted (fun _ => none) ((twoFiles.drop 3).map (·.2)) = [] := by decide +kernel
  have q3 : Spec.asksFor (exampleOpts 0).wanted (fun _ => none) (twoFiles.map (·.2))
      = [(Spec.ascii "d", Spec.ascii "t")] := by decide +kernel
  have r1 : Spec.PrintedAlone ft (exampleOpts 0) exampleCatalogue true (twoFiles.take 2)
      (printDmls ft { exampleOpts 0 with filename := Spec.ascii "f1", untilNow := false } (List.replicate 36 0x61) 5
        ⟨inp, [], 0, 2 ^ 9, 0⟩ ⟨hinp, [], 0, 2 ^ 9, 0⟩) := by
    refine ⟨Spec.ascii "f1", List.replicate 36 0x61, 5, ⟨inp, [], 0, 2 ^ 9, 0⟩, ⟨hinp, [], 0, 2 ^ 9, 0⟩, opening, answers,
      (exampleLog.map (·.1)).drop 2, [], [], [], hname.1, hname.2, by simp, by norm_num, o1, ?_, ?_, by rw [e1]; exact hd,
      by rw [q1]; exact l1, hh, rfl⟩
    · intro e he
      obtain ⟨x, hx, rfl⟩ := List.mem_map.1 (List.mem_of_mem_drop he)
      exact (example_says x hx).1
    · rintro e ⟨⟩
      rfl
  have r2 : Spec.PrintedAlone ft (exampleOpts 0) exampleCatalogue true (twoFiles.drop 3)
      (printDmls ft { exampleOpts 0 with filename := Spec.ascii "f1", untilNow := false } (List.replicate 36 0x61) 5
        ⟨inp2, [], 0, 2 ^ 9, 0⟩ ⟨[], [], 0, 2 ^ 9, 0⟩) :=
    ⟨Spec.ascii "f1", List.replicate 36 0x61, 5, ⟨inp2, [], 0, 2 ^ 9, 0⟩, ⟨[], [], 0, 2 ^ 9, 0⟩, opening, [], [], [], [], [],
      hname.1, hname.2, by simp, by norm_num, o1, by simp, by simp, by rw [e2]; exact hd2,
      by rw [q2]; rfl, Delivers.nil_iff.2 rfl, rfl⟩
  refine ⟨⟨inp, [], 0, 2 ^ 9, 0⟩, ⟨hinp, [], 0, 2 ^ 9, 0⟩, _, _, r1, r2, ?_⟩
  exact C129_files_partial ft (exampleOpts 0) rfl rfl rfl hname (List.replicate 36 0x61) (by simp) 5 (by norm_num)
    ⟨inp, [], 0, 2 ^ 9, 0⟩ ⟨hinp, [], 0, 2 ^ 9, 0⟩ true opening o1 [(twoFiles.take 2, (twoFiles.drop 2).take 1)] (twoFiles.drop 3)
    (by
      intro f hf
      simp only [List.mem_singleton] at hf
      subst hf
      refine ⟨?_, _, [], rfl, by simp⟩
      intro x hx
      simp only [twoFiles, exampleLog, List.map_cons, List.map_nil, List.zip_cons_cons, List.zip_nil_right, List.take_succ_cons,
        List.take_zero, List.mem_cons, List.not_mem_nil, or_false] at hx
      rcases hx with rfl | rfl <;> simp)
    (by
      intro x hx
      simp only [twoFiles, exampleLog, List.map_cons, List.map_nil, List.zip_cons_cons, List.zip_nil_right, List.drop_succ_cons,
        List.drop_zero, List.mem_cons, List.not_mem_nil, or_false] at hx
      subst hx
      simp)
    (by rw [e3]; exact twoFiles_of)
    (by rw [e3]; exact ⟨⟨both_readable.1, Or.inl rfl⟩, trivial, trivial, trivial, trivial⟩) [] []
    (by rw [e3, e4]; exact hd) exampleCatalogue answers [] (by rw [e3, q3]; exact l1) hh _
    (.cons r1 (.cons r2 .nil))

end Mybin
