/-
C103: a reader that stopped can go on where it stopped. The specification of the log and of the master is in Spec/Resume.
-/
import Verif.Spec.Resume
import Verif.Props.C87

namespace Mybin

/-- What a reader remembers to go on later: the file and position to ask for. A rotate event says both itself; every other
event but a heartbeat says where the next one begins. -/
def Bookmark.next (b : Bytes × Nat) (e : Event) : Bytes × Nat :=
  match e.kind with
  | .rotate =>
    match RotateData.readFrom e.data with
    | .ok d _ => (d.nextBinlogFilename, d.position)
    | _ => b
  | .heartbeat => b
  | _ => (b.1, e.header.nextPos)

/-- the results of calls that report something that happened at the master -/
def happened (os : List (Option Event)) : List (Option Event) :=
  os.filter fun o => match o with
    | some e => e.kind ≠ .rotate ∧ e.kind ≠ .formatDescription ∧ e.kind ≠ .heartbeat
    | none => False

/-- the bookmark, on the side of the log -/
def markNext (b : Bytes × Nat) (e : Spec.LogEvent) : Bytes × Nat :=
  if e.code ∉ Spec.supportedCodes then b
  else if e.code = 4 then
    match RotateData.readFrom e.payload with
    | .ok d _ => (d.nextBinlogFilename, d.position)
    | _ => b
  else if e.code = 27 then b
  else (b.1, e.nextPos)

theorem markNext_seen (crc : Bool) (b : Bytes × Nat) (e : Spec.LogEvent) (o : Option Event) (h : Spec.Seen crc e o) :
    o.elim b (Bookmark.next b) = markNext b e := by
  unfold Spec.Seen at h
  unfold markNext
  split at h
  · rename_i hs
    obtain ⟨k, hk, rfl⟩ := h
    rw [if_neg (by simpa using hs), ← hk]
    simp only [Option.elim, Bookmark.next]
    cases k <;> simp [LogEventType.toByte]
  · rename_i hs
    subst h
    rw [if_pos hs]
    rfl

theorem marks_seen (crc : Bool) (es : List Spec.LogEvent) (os : List (Option Event))
    (h : List.Forall₂ (Spec.Seen crc) (Spec.visible es) os) (b : Bytes × Nat) :
    (os.filterMap id).foldl Bookmark.next b = es.foldl markNext b := by
  induction es generalizing os b with
  | nil => cases h; rfl
  | cons e es ih =>
    by_cases hs : e.code ∈ Spec.supportedCodes
    · rw [Spec.visible, List.filter_cons_of_pos (by simpa using hs)] at h
      cases h with
      | @cons _ o _ os h1 h2 =>
        have hm := markNext_seen crc b e o h1
        unfold Spec.Seen at h1
        rw [if_pos hs] at h1
        obtain ⟨k, -, rfl⟩ := h1
        rw [List.filterMap_cons_some (by rfl), List.foldl_cons, List.foldl_cons]
        rw [show Bookmark.next b _ = markNext b e from hm]
        exact ih os h2 _
    · rw [Spec.visible, List.filter_cons_of_neg (by simpa using hs)] at h
      rw [List.foldl_cons, ih os h]
      unfold markNext
      rw [if_pos hs]

theorem happened_seen (crc : Bool) (es : List Spec.LogEvent) (os : List (Option Event))
    (h : List.Forall₂ (Spec.Seen crc) (Spec.visible es) os) :
    List.Forall₂ (Spec.Seen crc) (Spec.changes es) (happened os) := by
  induction es generalizing os with
  | nil => cases h; exact .nil
  | cons e es ih =>
    by_cases hs : e.code ∈ Spec.supportedCodes
    · rw [Spec.visible, List.filter_cons_of_pos (by simpa using hs)] at h
      cases h with
      | @cons _ o _ os h1 h2 =>
        have hr := ih os h2
        have h1' := h1
        unfold Spec.Seen at h1
        rw [if_pos hs] at h1
        obtain ⟨k, hk, rfl⟩ := h1
        by_cases hc : e.code ∈ [4, 15, 27]
        · rw [Spec.changes, List.filter_cons_of_neg (by simp only [decide_eq_true_eq]; exact fun h => h.2 hc), happened,
            List.filter_cons_of_neg]
          · exact hr
          · rw [← hk] at hc
            revert hc
            cases k <;> simp [LogEventType.toByte]
        · rw [Spec.changes, List.filter_cons_of_pos (by simp only [decide_eq_true_eq]; exact ⟨hs, hc⟩), happened,
            List.filter_cons_of_pos]
          · exact .cons h1' hr
          · rw [← hk] at hc
            revert hc
            cases k <;> simp [LogEventType.toByte]
    · rw [Spec.visible, List.filter_cons_of_neg (by simpa using hs)] at h
      rw [Spec.changes, List.filter_cons_of_neg (by simp only [decide_eq_true_eq]; exact fun h => hs h.1)]
      exact ih os h

theorem changes_append (a b : List Spec.LogEvent) : Spec.changes (a ++ b) = Spec.changes a ++ Spec.changes b := by
  simp [Spec.changes]

theorem changes_awake (es : List Spec.LogEvent) : Spec.changes (es.filter (fun e => e.code ≠ 27)) = Spec.changes es := by
  unfold Spec.changes
  rw [List.filter_filter]
  apply List.filter_congr
  intro e _
  by_cases h : e.code = 27 <;> simp [h]

theorem changes_skip (e : Spec.LogEvent) (es : List Spec.LogEvent) (h : e.code ∉ Spec.supportedCodes ∨ e.code ∈ [4, 15, 27]) :
    Spec.changes (e :: es) = Spec.changes es := by
  unfold Spec.changes
  rw [List.filter_cons_of_neg]
  simp only [decide_eq_true_eq]
  rintro ⟨h1, h2⟩
  rcases h with h | h
  · exact h h1
  · exact h2 h

theorem changes_files (heads : Spec.BinFile → Spec.LogEvent) (fs : List Spec.BinFile)
    (h : ∀ g ∈ fs, (heads g).code = 4) :
    Spec.changes (fs.flatMap fun g => heads g :: g.events) = Spec.changes (fs.flatMap (·.events)) := by
  induction fs with
  | nil => rfl
  | cons g fs ih =>
    rw [List.flatMap_cons, List.flatMap_cons, changes_append, changes_append, ih fun x hx => h x (List.mem_cons_of_mem _ hx),
      changes_skip _ _ (.inr (by rw [h g List.mem_cons_self]; decide))]

theorem size_append (crc : Bool) (a b : List Spec.LogEvent) : Spec.size crc (a ++ b) = Spec.size crc a + Spec.size crc b := by
  simp [Spec.size]

theorem size_cons (crc : Bool) (e : Spec.LogEvent) (b : List Spec.LogEvent) :
    Spec.size crc (e :: b) = e.len crc + Spec.size crc b := by
  simp [Spec.size]

theorem placed_at (crc : Bool) (start : Nat) (done : List Spec.LogEvent) (e : Spec.LogEvent) (todo : List Spec.LogEvent)
    (h : Spec.Placed crc start (done ++ e :: todo)) :
    e.nextPos = (start + Spec.size crc (done ++ [e])) % 2 ^ 32 := by
  induction done generalizing start with
  | nil => rw [h.1]; simp [Spec.size]
  | cons d done ih =>
    rw [ih _ h.2, List.cons_append, size_cons]
    congr 1
    omega

theorem sized_apart (crc : Bool) (a b c d : List Spec.LogEvent) (h : a ++ b = c ++ d)
    (hs : Spec.size crc a = Spec.size crc c) : a = c ∧ b = d := by
  induction a generalizing c with
  | nil =>
    cases c with
    | nil => exact ⟨rfl, h⟩
    | cons x c =>
      rw [size_cons] at hs
      simp only [Spec.LogEvent.len, Spec.size, List.map_nil, List.sum_nil] at hs
      omega
  | cons y a ih =>
    cases c with
    | nil =>
      rw [size_cons] at hs
      simp only [Spec.LogEvent.len, Spec.size, List.map_nil, List.sum_nil] at hs
      omega
    | cons x c =>
      rw [List.cons_append, List.cons_append, List.cons.injEq] at h
      obtain ⟨rfl, h⟩ := h
      rw [size_cons, size_cons] at hs
      obtain ⟨rfl, rfl⟩ := ih c h (by omega)
      exact ⟨rfl, rfl⟩

theorem named_apart (a b c d : List Spec.BinFile) (f g : Spec.BinFile) (h : a ++ f :: b = c ++ g :: d)
    (hn : ((a ++ f :: b).map (·.name)).Nodup) (hf : f.name = g.name) : a = c ∧ f = g ∧ b = d := by
  induction a generalizing c with
  | nil =>
    cases c with
    | nil =>
      rw [List.nil_append, List.nil_append, List.cons.injEq] at h
      exact ⟨rfl, h⟩
    | cons x c =>
      rw [List.nil_append, List.cons_append, List.cons.injEq] at h
      obtain ⟨rfl, rfl⟩ := h
      simp [hf] at hn
  | cons y a ih =>
    cases c with
    | nil =>
      rw [List.nil_append, List.cons_append, List.cons.injEq] at h
      obtain ⟨rfl, rfl⟩ := h
      simp [← hf] at hn
    | cons x c =>
      rw [List.cons_append, List.cons_append, List.cons.injEq] at h
      obtain ⟨rfl, h⟩ := h
      rw [List.cons_append, List.map_cons, List.nodup_cons] at hn
      obtain ⟨rfl, rfl, rfl⟩ := ih c h hn.2
      exact ⟨rfl, rfl, rfl⟩

/-- what a master sends reports what the log has from there on -/
theorem served_changes (crc : Bool) (log : List Spec.BinFile) (ok : Spec.LogOk crc log) (name : Bytes) (pos : Nat)
    (es rest : List Spec.LogEvent) (hs : Spec.Served crc log name pos es) (hp : Spec.Place crc log name pos rest) :
    Spec.changes es = Spec.changes rest := by
  obtain ⟨-, older, f, newer, done, todo, heads, h1, h2, h3, h4, h5, h6⟩ := hs
  obtain ⟨older', f', newer', done', todo', g1, g2, g3, g4, rfl⟩ := hp
  have hn := ok.names
  rw [h1] at hn
  obtain ⟨rfl, rfl, rfl⟩ := named_apart _ _ _ _ _ _ (h1.symm.trans g1) hn (h2.trans g2.symm)
  obtain ⟨rfl, rfl⟩ := sized_apart crc done todo done' todo' (h3.symm.trans g3) (by omega)
  rw [← changes_awake es, h6, changes_append, changes_append, changes_files _ _ fun g hg => (h5 g hg).2.1]
  congr 1
  by_cases hd : done = []
  · obtain ⟨d, more, e1, e2⟩ := ok.described f (by rw [h1]; simp)
    rw [if_pos hd]
    rw [hd, List.nil_append] at h3
    rw [← h3, e1, List.tail_cons, changes_skip _ _ (.inr (by rw [e2]; decide))]
  · rw [if_neg hd]

theorem markNext_rotates (b : Bytes × Nat) (e : Spec.LogEvent) (pos : Nat) (file : Bytes) (h : Spec.Rotates e pos file) :
    markNext b e = (file, pos) := by
  obtain ⟨-, h2, h3, h4⟩ := h
  unfold markNext
  rw [if_neg (by rw [h2]; decide), if_pos h2, h4, C48_rotate pos h3 file]

/-- the bookmark after a part of what a master sends is a place of the log, and what the master has still to send reports
what the log has from there on -/
theorem marks_place (crc : Bool) (log : List Spec.BinFile) (ok : Spec.LogOk crc log)
    (small : ∀ f ∈ log, 4 + Spec.size crc f.events < 2 ^ 32) (heads : Spec.BinFile → Spec.LogEvent) (P R : List Spec.LogEvent) :
    ∀ (b : Bytes × Nat) (older : List Spec.BinFile) (f : Spec.BinFile) (newer : List Spec.BinFile)
      (done todo : List Spec.LogEvent), log = older ++ f :: newer → f.events = done ++ todo →
      (∀ g ∈ newer, Spec.Rotates (heads g) 4 g.name) →
      (P ++ R).filter (fun e => e.code ≠ 27) = todo ++ newer.flatMap (fun g => heads g :: g.events) →
      ((∃ seen lag, done = seen ++ lag ∧ b = (f.name, 4 + Spec.size crc seen) ∧ Spec.changes lag = []) ∨
        (todo = [] ∧ ∃ g more, newer = g :: more ∧ b = (g.name, 4))) →
      ∃ rest, Spec.Place crc log (P.foldl markNext b).1 (P.foldl markNext b).2 rest ∧ Spec.changes rest = Spec.changes R := by
  induction P with
  | nil =>
    intro b older f newer done todo h1 h2 h3 h4 h5
    rw [List.nil_append] at h4
    rw [← changes_awake R, h4, changes_append, changes_files _ _ fun g hg => (h3 g hg).2.1]
    rcases h5 with ⟨seen, lag, rfl, rfl, h7⟩ | ⟨rfl, g, more, rfl, rfl⟩
    · refine ⟨(lag ++ todo) ++ newer.flatMap (·.events), ⟨older, f, newer, seen, lag ++ todo, h1, rfl, ?_, rfl, rfl⟩, ?_⟩
      · rw [h2, List.append_assoc]
      · rw [changes_append, changes_append, h7, List.nil_append]
    · refine ⟨g.events ++ more.flatMap (·.events), ⟨older ++ [f], g, more, [], g.events, ?_, rfl, rfl, rfl, rfl⟩, ?_⟩
      · rw [h1]; simp
      · rw [List.flatMap_cons]; rfl
  | cons x P ih =>
    intro b older f newer done todo h1 h2 h3 h4 h5
    rw [List.foldl_cons]
    by_cases hx : x.code = 27
    · rw [List.cons_append, List.filter_cons_of_neg (by simp [hx])] at h4
      have hb : markNext b x = b := by
        unfold markNext
        rw [if_neg (by rw [hx]; decide), if_neg (by rw [hx]; decide), if_pos hx]
      rw [hb]
      exact ih b older f newer done todo h1 h2 h3 h4 h5
    · rw [List.cons_append, List.filter_cons_of_pos (by simp [hx])] at h4
      have hf : f ∈ log := by rw [h1]; simp
      cases todo with
      | cons t todo =>
        rw [List.cons_append, List.cons.injEq] at h4
        obtain ⟨rfl, h4⟩ := h4
        rcases h5 with ⟨seen, lag, h6, rfl, h7⟩ | ⟨h6, -⟩
        swap
        · cases h6
        have h2' : f.events = (done ++ [x]) ++ todo := by rw [h2]; simp
        by_cases h4x : x.code = 4
        · obtain ⟨rfl, g, more, rfl, hr⟩ := ok.rotates older f newer h1 done x todo h2 h4x
          rw [markNext_rotates _ _ _ _ hr]
          exact ih _ older f _ (done ++ [x]) [] h1 h2' h3 h4 (.inr ⟨rfl, g, more, rfl, rfl⟩)
        · by_cases hs : x.code ∈ Spec.supportedCodes
          · have hb : markNext (f.name, 4 + Spec.size crc seen) x = (f.name, 4 + Spec.size crc (done ++ [x])) := by
              unfold markNext
              rw [if_neg (by simpa using hs), if_neg h4x, if_neg hx]
              have hp := ok.placed f hf
              rw [h2] at hp
              have hsm := small f hf
              rw [h2', size_append] at hsm
              rw [placed_at crc 4 done x todo hp, Nat.mod_eq_of_lt (by omega)]
            rw [hb]
            exact ih _ older f newer (done ++ [x]) todo h1 h2' h3 h4 (.inl ⟨done ++ [x], [], by simp, rfl, rfl⟩)
          · have hb : markNext (f.name, 4 + Spec.size crc seen) x = (f.name, 4 + Spec.size crc seen) := by
              unfold markNext
              rw [if_pos hs]
            rw [hb]
            refine ih _ older f newer (done ++ [x]) todo h1 h2' h3 h4 (.inl ⟨seen, lag ++ [x], ?_, rfl, ?_⟩)
            · rw [h6, List.append_assoc]
            · rw [changes_append, h7, changes_skip _ _ (.inl hs)]; rfl
      | nil =>
        cases newer with
        | nil => simp at h4
        | cons g newer =>
          rw [List.nil_append, List.flatMap_cons, List.cons_append, List.cons.injEq] at h4
          obtain ⟨rfl, h4⟩ := h4
          rw [markNext_rotates _ _ _ _ (h3 g List.mem_cons_self)]
          exact ih _ (older ++ [f]) g newer [] g.events (by rw [h1]; simp) rfl
            (fun y hy => h3 y (List.mem_cons_of_mem _ hy)) h4 (.inl ⟨[], [], rfl, rfl, rfl⟩)

/-- the bookmark after a part of what a master sends -/
theorem served_place (crc : Bool) (log : List Spec.BinFile) (ok : Spec.LogOk crc log)
    (small : ∀ f ∈ log, 4 + Spec.size crc f.events < 2 ^ 32) (name : Bytes) (pos : Nat) (P R : List Spec.LogEvent)
    (h : Spec.Served crc log name pos (P ++ R)) :
    ∃ rest, Spec.Place crc log (P.foldl markNext (name, pos)).1 (P.foldl markNext (name, pos)).2 rest ∧
      Spec.changes rest = Spec.changes R := by
  obtain ⟨-, older, f, newer, done, todo, heads, h1, rfl, h3, rfl, h5, h6⟩ := h
  by_cases hd : done = []
  · obtain ⟨d, more, e1, e2⟩ := ok.described f (by rw [h1]; simp)
    subst hd
    rw [List.nil_append] at h3
    rw [if_pos rfl, ← h3, e1, List.tail_cons] at h6
    exact marks_place crc log ok small heads P R _ older f newer [d] more h1 e1 h5 h6
      (.inl ⟨[], [d], rfl, rfl, by rw [changes_skip _ _ (.inr (by rw [e2]; decide))]; rfl⟩)
  · rw [if_neg hd] at h6
    exact marks_place crc log ok small heads P R _ older f newer done todo h1 h3 h5 h6
      (.inl ⟨done, [], by simp, rfl, rfl⟩)

/-- the master heard a request for the events of a file from a position on, as the last thing said -/
def Spec.AskedFor (caps : Nat) (a b : Bytes) (file : Bytes) (pos : Nat) : Prop :=
  ∃ setup gtidMode id nonBlock, Spec.Heard caps a b (setup ++ [.command (Spec.dumpSaid gtidMode file pos id [] nonBlock)])

theorem reader_reads (r : BinlogRequest) (ok : r.Ok) (hsids : r.sids = []) (hpos : r.binlogPos < 2 ^ 32)
    (hname : r.binlogFilename.length < 2 ^ 20) (uuid : Bytes) (hu : uuid.length = 36) (random : Nat) (hr : random < 2 ^ 32)
    (crc : Bool) (c : Conn) (opening : List Bytes) (ho : Spec.OpensStream c.caps crc opening) (es : List Spec.LogEvent)
    (hes : ∀ e ∈ es, e.InRange) (left : Bytes)
    (hd : Spec.Delivers c.inp (opening ++ es.map (Spec.streamMessage crc)) left) :
    ∃ s c1 c2 os, r.requestStream uuid random c = .ok s c1 ∧ s.calls (Spec.visible es).length c1 = .ok (os, s) c2 ∧
      Spec.AskedFor c.caps c.out c1.out r.binlogFilename r.binlogPos ∧
      List.Forall₂ (Spec.Seen crc) (Spec.visible es) os := by
  obtain ⟨masterId, checksum, gtidMode, i, j, k, answers, rot, pos, file, e, f, alg, h1, h2, h3, h4, rfl, rfl⟩ := ho
  obtain ⟨mid, d1, d2⟩ := Delivers.append hd
  have hl : r.binlogFilename.length + SidData.bytesLen r.sids + 64 < 255 * 0xffffff := by
    rw [hsids]
    norm_num [SidData.bytesLen]
    omega
  obtain ⟨c1, a1, a2, a3, a4⟩ := C74_request_partial r ok uuid hu random hr c.caps masterId checksum gtidMode h1 hl
    (fun _ => ⟨hpos, hsids⟩) i j k answers h2 rot pos file h3 e f alg h4 c mid rfl d1
  obtain ⟨c2, os, more, b1, b2, -⟩ := C53_events
    ⟨⟨0 :: f.lens, decide (alg = 1)⟩, r.validateChecksum, false, r.nonBlock⟩ rfl es hes [] left c1
    (by rw [List.append_nil, a2]; exact d2)
  rw [hsids] at a4
  exact ⟨_, c1, c2, os, a1, b1, ⟨_, gtidMode, _, _, a4⟩, b2⟩

theorem place_bounds (crc : Bool) (log : List Spec.BinFile) (small : ∀ f ∈ log, 4 + Spec.size crc f.events < 2 ^ 32)
    (name : Bytes) (pos : Nat) (rest : List Spec.LogEvent) (h : Spec.Place crc log name pos rest) :
    pos < 2 ^ 32 ∧ ∃ f ∈ log, f.name = name := by
  obtain ⟨older, f, newer, done, todo, h1, h2, h3, rfl, -⟩ := h
  have hf : f ∈ log := by rw [h1]; simp
  have := small f hf
  rw [h3, size_append] at this
  exact ⟨by omega, f, hf, h2⟩

theorem served_at (crc : Bool) (log : List Spec.BinFile) (name : Bytes) (pos : Nat) (es : List Spec.LogEvent)
    (h : Spec.Served crc log name pos es) : ∃ rest, Spec.Place crc log name pos rest := by
  obtain ⟨-, older, f, newer, done, todo, heads, h1, h2, h3, h4, -⟩ := h
  exact ⟨_, older, f, newer, done, todo, h1, h2, h3, h4, rfl⟩

/-- C103: for every log of files below 4 GiB, every place of it a reader asked for by name, and every moment it stops at:
the file and position it got from the events returned so far are a place of the log; a new request with them asks the
master for this place; and what the two readers saw together is, event by event and with nothing lost and nothing twice,
what the log reports from the first place on, up to what the second reader was not sent. The log may have grown meanwhile:
`R` is what the master had not sent when the first reader stopped. Missing from the full claim: a reader that did not name a
file (`C103_unnamed_false`), and files above 4 GiB (`C103_large_false`). -/
theorem C103_resume_partial (crc : Bool) (log : List Spec.BinFile) (ok : Spec.LogOk crc log)
    (small : ∀ f ∈ log, 4 + Spec.size crc f.events < 2 ^ 32)
    (names : ∀ f ∈ log, validUtf8 f.name = true ∧ f.name.length < 2 ^ 20)
    (r : BinlogRequest) (hr : r.Ok) (hsids : r.sids = []) (P R : List Spec.LogEvent)
    (hserved : Spec.Served crc log r.binlogFilename r.binlogPos (P ++ R))
    (uuid : Bytes) (hu : uuid.length = 36) (random : Nat) (hrand : random < 2 ^ 32) (c : Conn) (opening : List Bytes)
    (ho : Spec.OpensStream c.caps crc opening) (left : Bytes)
    (hd : Spec.Delivers c.inp (opening ++ P.map (Spec.streamMessage crc)) left) :
    ∃ s c1 c2 os name pos, r.requestStream uuid random c = .ok s c1 ∧
      s.calls (Spec.visible P).length c1 = .ok (os, s) c2 ∧ List.Forall₂ (Spec.Seen crc) (Spec.visible P) os ∧
      (os.filterMap id).foldl Bookmark.next (r.binlogFilename, r.binlogPos) = (name, pos) ∧
      (∃ rest, Spec.Place crc log name pos rest ∧ Spec.changes rest = Spec.changes R) ∧
      ∀ P' R', Spec.Served crc log name pos (P' ++ R') → ∀ (uuid' : Bytes), uuid'.length = 36 → ∀ random' < 2 ^ 32,
        ∀ (c' : Conn) (opening' : List Bytes), Spec.OpensStream c'.caps crc opening' → ∀ left',
        Spec.Delivers c'.inp (opening' ++ P'.map (Spec.streamMessage crc)) left' →
        ∃ s' c1' c2' os',
          ({ r with binlogFilename := name, binlogPos := pos } : BinlogRequest).requestStream uuid' random' c' = .ok s' c1' ∧
          Spec.AskedFor c'.caps c'.out c1'.out name pos ∧
          s'.calls (Spec.visible P').length c1' = .ok (os', s') c2' ∧
          ∀ rest, Spec.Place crc log r.binlogFilename r.binlogPos rest →
            ∃ seen, Spec.changes rest = seen ++ Spec.changes R' ∧
              List.Forall₂ (Spec.Seen crc) seen (happened os ++ happened os') := by
  obtain ⟨rest0, hp0⟩ := served_at _ _ _ _ _ hserved
  obtain ⟨b1, g, hg, b2⟩ := place_bounds crc log small _ _ _ hp0
  obtain ⟨s, c1, c2, os, a1, a2, -, a4⟩ := reader_reads r hr hsids b1 (b2 ▸ (names g hg).2) uuid hu random hrand crc c opening
    ho P (fun e he => hserved.1 e (by simp [he])) left hd
  obtain ⟨rest1, q1, q2⟩ := served_place crc log ok small _ _ P R hserved
  rw [← marks_seen crc P os a4] at q1
  generalize hm : (os.filterMap id).foldl Bookmark.next (r.binlogFilename, r.binlogPos) = m at q1
  obtain ⟨name, pos⟩ := m
  refine ⟨s, c1, c2, os, name, pos, a1, a2, a4, hm, ⟨rest1, q1, q2⟩, ?_⟩
  intro P' R' hserved' uuid' hu' random' hr' c' opening' ho' left' hd'
  obtain ⟨p1, f, hf, p2⟩ := place_bounds crc log small _ _ _ q1
  dsimp only at p1 p2
  subst p2
  have hr2 : ({ r with binlogFilename := f.name, binlogPos := pos } : BinlogRequest).Ok :=
    ⟨hr.serverId_lt, hr.heartbeat_lt, lt_trans (names f hf).2 (by norm_num), (names f hf).1, lt_trans p1 (by norm_num),
      hr.sids_ok, hr.sids_len⟩
  obtain ⟨s', c1', c2', os', e1, e2, e3, e4⟩ := reader_reads _ hr2 hsids p1 (names f hf).2 uuid' hu' random' hr' crc c' opening'
    ho' P' (fun e he => hserved'.1 e (by simp [he])) left' hd'
  refine ⟨s', c1', c2', os', e1, e3, e2, fun rest hrest => ⟨Spec.changes P ++ Spec.changes P', ?_, ?_⟩⟩
  · rw [← served_changes crc log ok _ _ _ rest hserved hrest, changes_append, List.append_assoc, ← q2,
      ← served_changes crc log ok _ _ _ rest1 hserved' q1, changes_append]
  · exact List.rel_append (happened_seen crc P os a4) (happened_seen crc P' os' e4)

/-! ### what a reader cannot know -/

theorem seen_same (crc : Bool) (e : Spec.LogEvent) (o o' : Option Event) (h : Spec.Seen crc e o) (h' : Spec.Seen crc e o') :
    o = o' := by
  unfold Spec.Seen at h h'
  split at h
  · rename_i hs
    rw [if_pos hs] at h'
    obtain ⟨k, hk, rfl⟩ := h
    obtain ⟨k', hk', rfl⟩ := h'
    rw [C20_event_types.2.1 k k' (hk.trans hk'.symm)]
  · rename_i hs
    rw [if_neg hs] at h'
    rw [h, h']

theorem seen_all_same (crc : Bool) (es : List Spec.LogEvent) (os os' : List (Option Event))
    (h : List.Forall₂ (Spec.Seen crc) es os) (h' : List.Forall₂ (Spec.Seen crc) es os') : os = os' := by
  induction h generalizing os' with
  | nil => cases h'; rfl
  | cons h1 _ ih =>
    cases h' with
    | cons h1' h2' => rw [seen_same crc _ _ _ h1 h1', ih _ h2']

/-- C103, the counterexample for a reader that leaves the choice of the file to the master: whatever way to tell the file
from the events returned (`file`), among two masters whose first files have different names, but the same events, there is
one for which it is wrong. The rotate event at the beginning of the stream, which says the name, is read by the request and
thrown away. Holds for every request, so also for the default one, which names no file. -/
theorem C103_unnamed_false (file : List (Option Event) → Bytes) (r : BinlogRequest) (ok : r.Ok) (hsids : r.sids = [])
    (hpos : r.binlogPos < 2 ^ 32) (hname : r.binlogFilename = []) (uuid : Bytes) (hu : uuid.length = 36) (random : Nat)
    (hr : random < 2 ^ 32) (crc : Bool) (name1 name2 : Bytes) (hne : name1 ≠ name2) (masterId : Nat)
    (checksum gtidMode : Bytes) (hc : checksum.length < 251) (i j k : Nat) (answers : List Bytes) (c1 c2 : Conn)
    (h1 : Spec.MasterAnswers c1.caps masterId checksum gtidMode i j k answers)
    (h2 : Spec.MasterAnswers c2.caps masterId checksum gtidMode i j k answers) (rot1 rot2 d : Spec.LogEvent)
    (hr1 : Spec.RotateTo rot1 4 name1) (hr2 : Spec.RotateTo rot2 4 name2) (f : Spec.Fde) (alg : Nat)
    (hd : Spec.Describes d f alg) (hcrc : crc = decide (alg = 1)) (es : List Spec.LogEvent) (hes : ∀ e ∈ es, e.InRange)
    (left1 left2 : Bytes)
    (hd1 : Spec.Delivers c1.inp ((answers ++ [Spec.streamMessage (decide (checksum = Spec.ascii "CRC32")) rot1,
      Spec.streamMessage false d]) ++ es.map (Spec.streamMessage crc)) left1)
    (hd2 : Spec.Delivers c2.inp ((answers ++ [Spec.streamMessage (decide (checksum = Spec.ascii "CRC32")) rot2,
      Spec.streamMessage false d]) ++ es.map (Spec.streamMessage crc)) left2) :
    ∃ s s' d1 e1 d2 e2 os, r.requestStream uuid random c1 = .ok s d1 ∧
      s.calls (Spec.visible es).length d1 = .ok (os, s) e1 ∧ r.requestStream uuid random c2 = .ok s' d2 ∧
      s'.calls (Spec.visible es).length d2 = .ok (os, s') e2 ∧ (file os ≠ name1 ∨ file os ≠ name2) := by
  have hn : r.binlogFilename.length < 2 ^ 20 := by rw [hname]; decide
  obtain ⟨s, d1, e1, os, a1, a2, -, a4⟩ := reader_reads r ok hsids hpos hn uuid hu random hr crc c1 _
    ⟨masterId, checksum, gtidMode, i, j, k, answers, rot1, 4, name1, d, f, alg, hc, h1, hr1, hd, hcrc, rfl⟩ es hes left1 hd1
  obtain ⟨s', d2, e2, os', b1, b2, -, b4⟩ := reader_reads r ok hsids hpos hn uuid hu random hr crc c2 _
    ⟨masterId, checksum, gtidMode, i, j, k, answers, rot2, 4, name2, d, f, alg, hc, h2, hr2, hd, hcrc, rfl⟩ es hes left2 hd2
  obtain rfl := seen_all_same crc _ _ _ a4 b4
  refine ⟨s, s', d1, e1, d2, e2, os, a1, a2, b1, b2, ?_⟩
  by_contra h
  push Not at h
  exact hne (h.1.symm.trans h.2)

/-- C103, the counterexample for files above 4 GiB: events that end beyond give their end in 32 bits, so a reader that stops
after one and goes on at the position it got is sent this event again, if anything. -/
theorem C103_large_false (crc : Bool) (log : List Spec.BinFile) (ok : Spec.LogOk crc log) (older newer : List Spec.BinFile)
    (f : Spec.BinFile) (hlog : log = older ++ f :: newer) (done todo : List Spec.LogEvent) (e : Spec.LogEvent)
    (hf : f.events = done ++ e :: todo) (hlarge : 2 ^ 32 ≤ 4 + Spec.size crc (done ++ [e]))
    (hchange : Spec.changes [e] = [e]) (b : Bytes × Nat) (hb : b.1 = f.name) (ev : Event)
    (hev : Spec.Seen crc e (some ev)) (rest : List Spec.LogEvent)
    (hp : Spec.Place crc log (Bookmark.next b ev).1 (Bookmark.next b ev).2 rest) :
    ∃ again, e ∈ again ∧ Spec.changes rest = again ++ Spec.changes (todo ++ newer.flatMap (·.events)) := by
  have hc : e.code ∈ Spec.supportedCodes ∧ e.code ∉ [4, 15, 27] := by
    by_contra h
    have : Spec.changes [e] = [] := by
      unfold Spec.changes
      rw [List.filter_cons_of_neg (by simpa only [decide_eq_true_eq] using h)]
      rfl
    rw [this] at hchange
    cases hchange
  have hm : Bookmark.next b ev = (f.name, e.nextPos) := by
    have := markNext_seen crc b e (some ev) hev
    rw [Option.elim] at this
    rw [this]
    unfold markNext
    rw [if_neg (by simpa using hc.1), if_neg fun h => hc.2 (by simp [h]), if_neg fun h => hc.2 (by simp [h]), hb]
  rw [hm] at hp
  obtain ⟨older', f', newer', done', todo', g1, g2, g3, g4, rfl⟩ := hp
  have hn := ok.names
  rw [hlog] at hn
  obtain ⟨rfl, rfl, rfl⟩ := named_apart _ _ _ _ _ _ (hlog.symm.trans g1) hn g2.symm
  have hpl := ok.placed f (by rw [hlog]; simp)
  rw [hf] at hpl
  have hnp := placed_at crc 4 done e todo hpl
  have hlt : Spec.size crc done' < Spec.size crc (done ++ [e]) := by
    have : e.nextPos < 2 ^ 32 := by rw [hnp]; exact Nat.mod_lt _ (by norm_num)
    dsimp only at g4
    omega
  have hsplit : (done ++ [e]) ++ todo = done' ++ todo' := by rw [← g3, hf]; simp
  have hpre : ∃ mid, done = done' ++ mid ∧ todo' = mid ++ e :: todo := by
    rcases List.append_eq_append_iff.1 hsplit with ⟨a, h1, h2⟩ | ⟨a, h1, h2⟩
    · rw [h1, size_append] at hlt
      omega
    · rcases List.eq_nil_or_concat a with rfl | ⟨a', x, rfl⟩
      · rw [List.append_nil] at h1
        rw [h1] at hlt
        omega
      · rw [List.concat_eq_append, ← List.append_assoc] at h1
        obtain ⟨h1, h3⟩ := List.append_inj' h1 rfl
        rw [List.cons.injEq] at h3
        exact ⟨a', h1, by rw [h2, ← h3.1]; simp⟩
  obtain ⟨mid, -, rfl⟩ := hpre
  refine ⟨Spec.changes mid ++ [e], by simp, ?_⟩
  rw [show (mid ++ e :: todo) ++ newer.flatMap (·.events) = mid ++ ([e] ++ (todo ++ newer.flatMap (·.events))) by simp,
    changes_append, changes_append, hchange, List.append_assoc]

/-! ### examples -/

def resumeRotate : Spec.LogEvent := ⟨5, 4, 7, 108, 0, Spec.le 8 4 ++ Spec.ascii "b"⟩

/-- two files; the first ends with a rotate event after one of a type this library does not know -/
def resumeLog : List Spec.BinFile :=
  [⟨Spec.ascii "a", [⟨1, 15, 7, 28, 0, [0]⟩, ⟨2, 2, 7, 53, 0, [1, 2]⟩, ⟨3, 36, 7, 76, 0, []⟩, resumeRotate]⟩,
   ⟨Spec.ascii "b", [⟨1, 15, 7, 28, 0, [0]⟩, ⟨6, 16, 7, 51, 0, []⟩]⟩]

theorem resumeLog_ok : Spec.LogOk true resumeLog := by
  refine ⟨by decide +kernel, ?_, ?_, ?_, ?_⟩
  · unfold Spec.LogEvent.InRange
    decide +kernel
  · intro f hf
    simp only [resumeLog, List.mem_cons, List.not_mem_nil, or_false] at hf
    rcases hf with rfl | rfl
    · exact ⟨by decide +kernel, by decide +kernel, by decide +kernel, by decide +kernel, trivial⟩
    · exact ⟨by decide +kernel, by decide +kernel, trivial⟩
  · intro f hf
    simp only [resumeLog, List.mem_cons, List.not_mem_nil, or_false] at hf
    rcases hf with rfl | rfl <;> exact ⟨_, _, rfl, rfl⟩
  · intro older f newer hl done e todo he hc
    have hrot : Spec.Rotates resumeRotate 4 (Spec.ascii "b") :=
      ⟨by unfold Spec.LogEvent.InRange; decide +kernel, rfl, by norm_num, rfl⟩
    rcases older with _ | ⟨x, _ | ⟨y, older⟩⟩
    · simp only [resumeLog, List.nil_append, List.cons.injEq] at hl
      obtain ⟨rfl, rfl⟩ := hl
      rcases done with _ | ⟨x1, _ | ⟨x2, _ | ⟨x3, _ | ⟨x4, done⟩⟩⟩⟩ <;>
        simp only [List.nil_append, List.cons_append, List.cons.injEq] at he
      · rw [← he.1] at hc; simp at hc
      · rw [← he.2.1] at hc; simp at hc
      · rw [← he.2.2.1] at hc; simp at hc
      · rw [← he.2.2.2.1]
        exact ⟨he.2.2.2.2.symm, _, _, rfl, hrot⟩
      · simp at he
    · simp only [resumeLog, List.nil_append, List.cons_append, List.cons.injEq] at hl
      obtain ⟨-, rfl, rfl⟩ := hl
      rcases done with _ | ⟨x1, _ | ⟨x2, done⟩⟩ <;>
        simp only [List.nil_append, List.cons_append, List.cons.injEq] at he
      · rw [← he.1] at hc; simp at hc
      · rw [← he.2.1] at hc; simp at hc
      · simp at he
    · simp [resumeLog] at hl

def resumeRequest : BinlogRequest :=
  { binlogFilename := Spec.ascii "a", binlogPos := 4, serverId := 0, sids := [], nonBlock := false, validateChecksum := true,
    heartbeatNanos := 30 }

/-- the hypotheses of `C103_resume_partial` can be met: a reader of the first file that stops after the query event, an
unknown event and a heartbeat, and a second one that gets the event of the second file -/
theorem example_resume : ∃ s c c1 c2 s' c' c1' c2' os os', resumeRequest.requestStream (List.replicate 36 0x30) 5 c = .ok s c1 ∧
    s.calls 2 c1 = .ok (os, s) c2 ∧
    ({ resumeRequest with binlogFilename := Spec.ascii "a", binlogPos := 53 } : BinlogRequest).requestStream
      (List.replicate 36 0x31) 6 c' = .ok s' c1' ∧ s'.calls 4 c1' = .ok (os', s') c2' ∧
    List.Forall₂ (Spec.Seen true) [⟨2, 2, 7, 53, 0, [1, 2]⟩, ⟨6, 16, 7, 51, 0, []⟩] (happened os ++ happened os') := by
  obtain ⟨opening, o1, o2⟩ := plain_opens
  let P : List Spec.LogEvent := [⟨2, 2, 7, 53, 0, [1, 2]⟩, ⟨3, 36, 7, 76, 0, []⟩, ⟨0, 27, 7, 76, 0, []⟩]
  let R : List Spec.LogEvent := [resumeRotate, resumeRotate, ⟨1, 15, 7, 28, 0, [0]⟩, ⟨6, 16, 7, 51, 0, []⟩]
  let P' : List Spec.LogEvent := [⟨3, 36, 7, 76, 0, []⟩, resumeRotate, resumeRotate, ⟨1, 15, 7, 28, 0, [0]⟩, ⟨6, 16, 7, 51, 0, []⟩]
  have hrot : Spec.Rotates resumeRotate 4 (Spec.ascii "b") :=
    ⟨by unfold Spec.LogEvent.InRange; decide +kernel, rfl, by norm_num, rfl⟩
  have hheads : ∀ g ∈ [(⟨Spec.ascii "b", [⟨1, 15, 7, 28, 0, [0]⟩, ⟨6, 16, 7, 51, 0, []⟩]⟩ : Spec.BinFile)],
      Spec.Rotates ((fun _ => resumeRotate) g) 4 g.name := by
    intro g hg
    rw [List.mem_singleton] at hg
    subst hg
    exact hrot
  have hs : Spec.Served true resumeLog (Spec.ascii "a") 4 (P ++ R) := by
    refine ⟨by unfold Spec.LogEvent.InRange; decide +kernel, [], _, _, [], _, fun _ => resumeRotate, rfl, rfl, rfl, rfl,
      hheads, by simp [P, P', R, resumeRotate]⟩
  have hs' : Spec.Served true resumeLog (Spec.ascii "a") 53 (P' ++ []) := by
    refine ⟨by unfold Spec.LogEvent.InRange; decide +kernel, [], _, _,
      [⟨1, 15, 7, 28, 0, [0]⟩, ⟨2, 2, 7, 53, 0, [1, 2]⟩], _, fun _ => resumeRotate, rfl, rfl, rfl, by decide +kernel,
      hheads, by simp [P, P', R, resumeRotate]⟩
  have small : ∀ es : List Spec.LogEvent, (∀ m ∈ es.map (Spec.streamMessage true), m.length < 0xffffff) →
      ∀ m ∈ opening ++ es.map (Spec.streamMessage true), m.length < 0xffffff := by
    intro es h m hm
    rcases List.mem_append.1 hm with hm | hm
    · exact o2 m hm
    · exact h m hm
  obtain ⟨inp, hd⟩ := delivers_small (opening ++ P.map (Spec.streamMessage true)) [] (small P (by decide +kernel))
  obtain ⟨inp', hd'⟩ := delivers_small (opening ++ P'.map (Spec.streamMessage true)) [] (small P' (by decide +kernel))
  have hok : resumeRequest.Ok := by
    refine ⟨by show 0 < _; norm_num, by show 30 < _; norm_num, by decide +kernel, by decide +kernel, by show 4 < _; norm_num, ?_, ?_⟩
    · intro s hs; cases hs
    · show SidData.bytesLen [] < _
      norm_num [SidData.bytesLen]
  obtain ⟨s, c1, c2, os, name, pos, a1, a2, a3, a4, -, a5⟩ := C103_resume_partial true resumeLog resumeLog_ok (by decide +kernel)
    (by decide +kernel) resumeRequest hok rfl P R hs (List.replicate 36 0x30) (by simp) 5 (by norm_num) ⟨inp, [], 0, plainCaps, 0⟩
    opening o1 [] hd
  rw [marks_seen true P os a3] at a4
  have hm : P.foldl markNext (Spec.ascii "a", 4) = (Spec.ascii "a", 53) := by decide +kernel
  rw [show (resumeRequest.binlogFilename, resumeRequest.binlogPos) = (Spec.ascii "a", 4) from rfl, hm, Prod.mk.injEq] at a4
  obtain ⟨rfl, rfl⟩ := a4
  obtain ⟨s', c1', c2', os', b1, -, b3, b4⟩ := a5 P' [] hs' (List.replicate 36 0x31) (by simp) 6 (by norm_num)
    ⟨inp', [], 0, plainCaps, 0⟩ opening o1 [] hd'
  obtain ⟨seen, e1, e2⟩ := b4 _ ⟨[], _, _, [], _, rfl, rfl, rfl, rfl, rfl⟩
  have hseen : seen = [⟨2, 2, 7, 53, 0, [1, 2]⟩, ⟨6, 16, 7, 51, 0, []⟩] := by
    rw [show Spec.changes ([] : List Spec.LogEvent) = [] from rfl, List.append_nil] at e1
    rw [← e1]
    rfl
  rw [hseen] at e2
  exact ⟨s, _, c1, c2, s', _, c1', c2', os, os', a1, a2, b1, b3, e2⟩

/-- the hypotheses of `C103_unnamed_false` can be met: a request that names no file, and two masters whose files are called
`f1` and `f2` -/
example (file : List (Option Event) → Bytes) : ∃ s s' c1 d1 e1 c2 d2 e2 os,
    ({ resumeRequest with binlogFilename := [] } : BinlogRequest).requestStream (List.replicate 36 0x30) 5 c1 = .ok s d1 ∧
    s.calls 1 d1 = .ok (os, s) e1 ∧
    ({ resumeRequest with binlogFilename := [] } : BinlogRequest).requestStream (List.replicate 36 0x30) 5 c2 = .ok s' d2 ∧
    s'.calls 1 d2 = .ok (os, s') e2 ∧ (file os ≠ Spec.ascii "f1" ∨ file os ≠ Spec.ascii "f2") := by
  obtain ⟨opening, ⟨masterId, checksum, gtidMode, i, j, k, answers, rot, pos, name, e, f, alg, h1, h2, h3, h4, h5, rfl⟩, o2⟩ :=
    plain_opens
  let rotTo : List UInt8 → Spec.LogEvent := fun n => ⟨0, 4, 7, 0, 0, Spec.le 8 4 ++ n⟩
  let es : List Spec.LogEvent := [⟨2, 2, 7, 53, 0, [1, 2]⟩]
  have small : ∀ (b : Bool) (n : List UInt8), n.length < 100 → ∀ m ∈ (answers ++ [Spec.streamMessage b (rotTo n),
      Spec.streamMessage false e]) ++ es.map (Spec.streamMessage true), m.length < 0xffffff := by
    intro b n hn m hm
    simp only [List.mem_append, List.mem_cons, List.not_mem_nil, or_false] at hm
    rcases hm with (hm | rfl | rfl) | hm
    · exact o2 m (by simp [hm])
    · rw [Spec.streamMessage, List.length_append, encode_length]
      simp only [rotTo, Spec.LogEvent.len, List.length_append, Spec.length_le, Spec.u8, List.length_cons, List.length_nil]
      split <;> omega
    · exact o2 _ (by simp)
    · revert m
      decide +kernel
  obtain ⟨inp1, d1⟩ := delivers_small _ [] (small (decide (checksum = Spec.ascii "CRC32")) (Spec.ascii "f1") (by decide))
  obtain ⟨inp2, d2⟩ := delivers_small _ [] (small (decide (checksum = Spec.ascii "CRC32")) (Spec.ascii "f2") (by decide))
  have hok : ({ resumeRequest with binlogFilename := [] } : BinlogRequest).Ok := by
    refine ⟨by show 0 < _; norm_num, by show 30 < _; norm_num, by decide +kernel, by decide +kernel, by show 4 < _; norm_num, ?_, ?_⟩
    · intro s hs; cases hs
    · show SidData.bytesLen [] < _
      norm_num [SidData.bytesLen]
  obtain ⟨s, s', a1, a2, a3, a4, os, b1, b2, b3, b4, b5⟩ := C103_unnamed_false file _ hok rfl (by decide +kernel) rfl
    (List.replicate 36 0x30) (by simp) 5 (by norm_num) true (Spec.ascii "f1") (Spec.ascii "f2") (by decide +kernel) masterId
    checksum gtidMode h1 i j k answers ⟨inp1, [], 0, plainCaps, 0⟩ ⟨inp2, [], 0, plainCaps, 0⟩ h2 h2
    (rotTo (Spec.ascii "f1")) (rotTo (Spec.ascii "f2")) e
    ⟨by unfold Spec.LogEvent.InRange; decide +kernel, rfl, by norm_num, rfl⟩
    ⟨by unfold Spec.LogEvent.InRange; decide +kernel, rfl, by norm_num, rfl⟩ f alg h4 h5 es
    (by unfold Spec.LogEvent.InRange; decide +kernel) [] [] d1 d2
  exact ⟨s, s', _, a1, a2, _, a3, a4, os, b1, b2, b3, b4, b5⟩

/-- a file with two events of 2 GiB, after which the 32-bit position is back at the first of them -/
def largeLog (a b : List UInt8) : List Spec.BinFile :=
  [⟨Spec.ascii "a", [⟨1, 15, 7, 24, 0, [0]⟩, ⟨2, 2, 7, 2 ^ 31 + 5, 0, a⟩,
    ⟨2, 2, 7, 24, 0, b⟩, ⟨3, 16, 7, 43, 0, []⟩]⟩]

theorem largeLog_ok (a b : List UInt8) (ha : a.length = 2 ^ 31 - 38) (hb : b.length = 2 ^ 31) :
    Spec.LogOk false (largeLog a b) := by
  have hev : ∀ f ∈ largeLog a b, ∀ e ∈ f.events, e.InRange ∧ e.code ≠ 4 := by
    intro f hf e he
    simp only [largeLog, List.mem_singleton] at hf
    subst hf
    simp only [List.mem_cons, List.not_mem_nil, or_false] at he
    rcases he with rfl | rfl | rfl | rfl <;>
      simp only [Spec.LogEvent.InRange, ha, hb, List.length_cons, List.length_nil] <;> norm_num
  refine ⟨by simp [largeLog], fun f hf e he => (hev f hf e he).1, ?_, ?_, ?_⟩
  · intro f hf
    simp only [largeLog, List.mem_singleton] at hf
    subst hf
    simp only [Spec.Placed, Spec.LogEvent.len, ha, hb, List.length_cons, List.length_nil]
    norm_num
  · intro f hf
    simp only [largeLog, List.mem_singleton] at hf
    subst hf
    exact ⟨_, _, rfl, rfl⟩
  · intro older f newer hl done e todo he hc
    exact absurd hc (hev f (by rw [hl]; simp) e (by rw [he]; simp)).2

/-- the hypotheses of `C103_large_false` can be met: after the second event of 2 GiB, the reader is sent back to the first -/
theorem large_sent_back (a b : List UInt8) (ha : a.length = 2 ^ 31 - 38) (hb : b.length = 2 ^ 31) :
    ∃ rest again, Spec.Place false (largeLog a b) (Spec.ascii "a") 24 rest ∧
    (⟨2, 2, 7, 24, 0, b⟩ : Spec.LogEvent) ∈ again ∧
    Spec.changes rest = again ++ Spec.changes [⟨3, 16, 7, 43, 0, []⟩] := by
  have hp : Spec.Place false (largeLog a b) (Spec.ascii "a") 24
      ([⟨2, 2, 7, 2 ^ 31 + 5, 0, a⟩, ⟨2, 2, 7, 24, 0, b⟩,
        ⟨3, 16, 7, 43, 0, []⟩] ++ ([] : List Spec.BinFile).flatMap (·.events)) :=
    ⟨[], _, [], [⟨1, 15, 7, 24, 0, [0]⟩], _, rfl, rfl, rfl, by simp [Spec.size, Spec.LogEvent.len], rfl⟩
  have hsize : 2 ^ 32 ≤ 4 + Spec.size false ([(⟨1, 15, 7, 24, 0, [0]⟩ : Spec.LogEvent),
      ⟨2, 2, 7, 2 ^ 31 + 5, 0, a⟩] ++ [⟨2, 2, 7, 24, 0, b⟩]) := by
    simp only [Spec.size, Spec.LogEvent.len, List.map_append, List.map_cons, List.map_nil, List.sum_append, List.sum_cons,
      List.sum_nil, ha, hb, List.length_cons, List.length_nil]
    norm_num
  have hch : Spec.changes [(⟨2, 2, 7, 24, 0, b⟩ : Spec.LogEvent)]
      = [⟨2, 2, 7, 24, 0, b⟩] := by
    unfold Spec.changes
    rw [List.filter_cons_of_pos (by simp only [decide_eq_true_eq]; decide)]
    rfl
  have hseen : Spec.Seen false ⟨2, 2, 7, 24, 0, b⟩ (some ⟨.query,
      ⟨2, .query, 7, Spec.LogEvent.len false ⟨2, 2, 7, 24, 0, b⟩, 24, 0⟩, b⟩) := by
    unfold Spec.Seen
    rw [if_pos (by show 2 ∈ _; decide)]
    exact ⟨.query, rfl, rfl⟩
  obtain ⟨again, h1, h2⟩ := C103_large_false false (largeLog a b) (largeLog_ok a b ha hb) [] [] _ rfl _ [⟨3, 16, 7, 43, 0, []⟩]
    ⟨2, 2, 7, 24, 0, b⟩ rfl hsize hch (Spec.ascii "a", 0) rfl _ hseen _ hp
  exact ⟨_, again, hp, h1, by rw [h2]; rfl⟩

example : ∃ a b : List UInt8, a.length = 2 ^ 31 - 38 ∧ b.length = 2 ^ 31 :=
  ⟨List.replicate _ 0, List.replicate _ 0, List.length_replicate, List.length_replicate⟩

end Mybin
