/-
C117: the text of `mybinlog list` tells the files: their names, whatever characters they have, and their sizes.
-/
import Verif.Model.ListText
import Verif.Spec.RustText
import Verif.Props.C87
import Verif.Props.C92

namespace Mybin

open Mybin.Spec (rustLiteral token fileEntry fileEntries fileListing hexValue blank number decimalValue)

/-! ### characters -/

theorem charsOf_utf8 (cs : List Char) : charsOf (Spec.utf8 cs) = cs := by
  unfold charsOf
  have : (⟨(Spec.utf8 cs).toArray⟩ : ByteArray) = cs.utf8Encode := by
    rw [List.utf8Encode]
    apply ByteArray.ext
    simp [Spec.utf8, List.data_toByteArray]
  rw [this, List.utf8Decode?_utf8Encode]

theorem hexValue_digit : ∀ d, d < 16 → hexValue d.digitChar = some d ∧ d.digitChar ≠ '}' := by decide

/-- digits of a hexadecimal number, read one by one -/
theorem literal_code (t : List Char) : ∀ (ds : List Nat) (n k : Nat), (∀ d ∈ ds, d < 16) → k + ds.length ≤ 6 →
    rustLiteral (.code n k) (ds.map Nat.digitChar ++ t) = rustLiteral (.code (ds.foldl (fun a d => 16 * a + d) n) (k + ds.length)) t
  | [], n, k, _, _ => rfl
  | d :: ds, n, k, hd, hk => by
    obtain ⟨h1, h2⟩ := hexValue_digit d (hd d (by simp))
    simp only [List.map_cons, List.cons_append, List.length_cons, List.foldl_cons] at hk ⊢
    rw [rustLiteral, if_neg h2, h1]
    dsimp only
    rw [if_pos (by omega), literal_code t ds _ _ (fun d h => hd d (by simp [h])) (by omega),
      show k + 1 + ds.length = k + (ds.length + 1) by omega]

theorem toDigits_hex : ∀ n : Nat, ∃ ds : List Nat, Nat.toDigits 16 n = ds.map Nat.digitChar ∧ (∀ d ∈ ds, d < 16) ∧
    ds.foldl (fun a d => 16 * a + d) 0 = n := by
  intro n
  induction n using Nat.strongRecOn with
  | _ n ih =>
    by_cases h : n < 16
    · exact ⟨[n], by rw [Nat.toDigits_of_lt_base h]; rfl, by simpa using h, by simp⟩
    · obtain ⟨ds, h1, h2, h3⟩ := ih (n / 16) (by omega)
      refine ⟨ds ++ [n % 16], ?_, ?_, ?_⟩
      · rw [Nat.toDigits_of_base_le (by norm_num) (by omega), h1]; simp
      · intro d hd
        rcases List.mem_append.1 hd with hd | hd
        · exact h2 d hd
        · simp only [List.mem_singleton] at hd; omega
      · rw [List.foldl_append, h3]
        simp only [List.foldl_cons, List.foldl_nil]
        omega

/-- a character of a string is read back as itself -/
theorem literal_char (p : Char → Bool) (c : Char) (t : List Char) :
    rustLiteral .text (debugChar p c ++ t) = (rustLiteral .text t).map fun x => (c :: x.1, x.2) := by
  unfold debugChar
  split
  · rename_i h; subst h; rfl
  split
  · rename_i h; subst h; rfl
  split
  · rename_i h; subst h; rfl
  split
  · rename_i h; subst h; rfl
  split
  · rename_i h; subst h; rfl
  split
  · rename_i h; subst h; rfl
  rename_i h1 h2
  split
  · rw [List.cons_append, List.nil_append, rustLiteral, if_neg h1, if_neg h2]
  · obtain ⟨ds, e1, e2, e3⟩ := toDigits_hex c.toNat
    have hlen : ds.length ≤ 6 := by
      have : (Nat.toDigits 16 c.toNat).length ≤ 6 := by
        rw [Nat.length_toDigits_le_iff (by norm_num) (by norm_num)]
        have := char_ranges c
        show c.val.toNat < _
        omega
      rw [e1] at this
      simpa using this
    have hpos : 0 < ds.length := by
      have : Nat.toDigits 16 c.toNat ≠ [] := Nat.toDigits_ne_nil
      rw [e1] at this
      cases ds with
      | nil => exact absurd rfl this
      | cons _ _ => simp
    rw [e1]
    simp only [List.cons_append, List.nil_append, List.append_assoc]
    rw [rustLiteral, if_neg (by decide), if_pos rfl, rustLiteral, if_pos rfl, rustLiteral, if_pos rfl,
      literal_code _ ds 0 0 e2 (by omega), e3, rustLiteral, if_pos rfl, if_pos ⟨by omega, c.valid⟩]
    have : Char.ofNat c.toNat = c := Char.ofNat_toNat c
    rw [this]

theorem literal_str (p : Char → Bool) (cs t : List Char) :
    rustLiteral .text (cs.flatMap (debugChar p) ++ ('"' :: t)) = some (cs, t) := by
  induction cs with
  | nil => rfl
  | cons c cs ih =>
    rw [List.flatMap_cons, List.append_assoc, literal_char, ih]
    rfl

/-! ### entries -/

theorem dropWhile_blank (pre : List Char) (hp : pre.all blank = true) (t : List Char) :
    (pre ++ t).dropWhile blank = t.dropWhile blank := by
  induction pre with
  | nil => rfl
  | cons a pre ih =>
    simp only [List.all_cons, Bool.and_eq_true] at hp
    rw [List.cons_append, List.dropWhile_cons_of_pos hp.1, ih hp.2]

theorem token_hit (w : String) (pre t : List Char) (hp : pre.all blank = true)
    (hw : (w.toList.dropWhile blank) = w.toList ∧ w.toList ≠ []) : token w (pre ++ (w.toList ++ t)) = some t := by
  unfold token
  rw [dropWhile_blank pre hp]
  have : (w.toList ++ t).dropWhile blank = w.toList ++ t := by
    obtain ⟨h1, h2⟩ := hw
    cases hl : w.toList with
    | nil => exact absurd hl h2
    | cons a l =>
      rw [hl] at h1
      have ha : ¬ blank a = true := by
        intro c
        rw [List.dropWhile_cons_of_pos c] at h1
        have := congrArg List.length h1
        have h3 := (List.dropWhile_sublist blank (l := l)).length_le
        simp only [List.length_cons] at this
        omega
      rw [List.cons_append, List.dropWhile_cons_of_neg ha]
  rw [this]
  simp

theorem decimal_digits (n : Nat) : decimalValue (Nat.toDigits 10 n) = n := by
  have := Nat.ofDigitChars_ten_toDigits (n := n)
  rw [Nat.ofDigitChars_eq_foldl] at this
  exact this

theorem number_digits (pre : List Char) (hp : pre.all blank = true) (n : Nat) (c : Char) (hc : c.isDigit = false)
    (t : List Char) : number (pre ++ (Nat.toDigits 10 n ++ c :: t)) = some (n, c :: t) := by
  have hd : ∀ x ∈ Nat.toDigits 10 n, x.isDigit = true := fun x hx => Nat.isDigit_of_mem_toDigits (by norm_num) (by norm_num) hx
  have hne : Nat.toDigits 10 n ≠ [] := Nat.toDigits_ne_nil
  unfold number
  rw [dropWhile_blank pre hp]
  have h0 : (Nat.toDigits 10 n ++ c :: t).dropWhile blank = Nat.toDigits 10 n ++ c :: t := by
    cases hl : Nat.toDigits 10 n with
    | nil => exact absurd hl hne
    | cons a l =>
      have ha := hd a (by rw [hl]; simp)
      have : ¬ blank a = true := by
        unfold blank
        intro e
        simp only [Bool.or_eq_true, beq_iff_eq] at e
        rcases e with rfl | rfl <;> revert ha <;> decide
      rw [List.cons_append, List.dropWhile_cons_of_neg this]
  rw [h0]
  have h1 : (Nat.toDigits 10 n ++ c :: t).takeWhile Char.isDigit = Nat.toDigits 10 n := by
    rw [List.takeWhile_append_of_pos hd, List.takeWhile_cons_of_neg (by simp [hc]), List.append_nil]
  have h2 : (Nat.toDigits 10 n ++ c :: t).dropWhile Char.isDigit = c :: t := by
    rw [List.dropWhile_append_of_pos hd, List.dropWhile_cons_of_neg (by simp [hc])]
  dsimp only
  rw [h1, h2, if_neg hne, decimal_digits]

theorem fileEntry_text (p : Char → Bool) (f : Cmd.BinlogFile) (pre : List Char) (hp : pre.all blank = true) (t : List Char) :
    fileEntry (pre ++ (fileText p f ++ t)) = some ((charsOf f.filename, f.size), '\n' :: t) := by
  have e : pre ++ (fileText p f ++ t) = (pre ++ "    ".toList) ++ ("BinlogFile".toList ++ (" ".toList ++ ("{".toList ++
      ("\n        ".toList ++ ("filename".toList ++ (([] : List Char) ++ (":".toList ++ (" ".toList ++ ("\"".toList ++
        ((charsOf f.filename).flatMap (debugChar p) ++ ('"' :: (([] : List Char) ++ (",".toList ++ ("\n        ".toList ++
        ("size".toList ++ (([] : List Char) ++ (":".toList ++ (" ".toList ++ (Nat.toDigits 10 f.size ++ ',' ::
          ("\n    ".toList ++ ("}".toList ++ (([] : List Char) ++ (",".toList ++ '\n' :: t))))))))))))))))))))))) := by
    unfold fileText debugStr
    rw [show "    BinlogFile {\n".toList = "    ".toList ++ ("BinlogFile".toList ++ (" ".toList ++ ("{".toList ++ "\n".toList))) by
        decide +kernel,
      show "        filename: ".toList = "        ".toList ++ ("filename".toList ++ (":".toList ++ " ".toList)) by decide +kernel,
      show "        size: ".toList = "        ".toList ++ ("size".toList ++ (":".toList ++ " ".toList)) by decide +kernel,
      show "    },\n".toList = "    ".toList ++ ("}".toList ++ (",".toList ++ ['\n'])) by decide +kernel,
      show ",\n".toList = ",".toList ++ "\n".toList by decide +kernel,
      show "\n        ".toList = "\n".toList ++ "        ".toList by decide +kernel,
      show "\n    ".toList = "\n".toList ++ "    ".toList by decide +kernel,
      show "\"".toList = ['"'] by decide +kernel,
      show ",".toList = [','] by decide +kernel]
    simp only [List.append_assoc, List.nil_append, List.cons_append]
  rw [e]
  unfold fileEntry
  have hp' : (pre ++ "    ".toList).all blank = true := by rw [List.all_append, hp]; decide +kernel
  rw [token_hit "BinlogFile" _ _ hp' (by decide +kernel)]
  dsimp only [bind, Option.bind]
  rw [token_hit "{" _ _ (by decide +kernel) (by decide +kernel)]
  dsimp only
  rw [token_hit "filename" _ _ (by decide +kernel) (by decide +kernel)]
  dsimp only
  rw [token_hit ":" _ _ (by decide +kernel) (by decide +kernel)]
  dsimp only
  rw [token_hit "\"" _ _ (by decide +kernel) (by decide +kernel)]
  dsimp only
  rw [literal_str]
  dsimp only
  rw [token_hit "," _ _ (by decide +kernel) (by decide +kernel)]
  dsimp only
  rw [token_hit "size" _ _ (by decide +kernel) (by decide +kernel)]
  dsimp only
  rw [token_hit ":" _ _ (by decide +kernel) (by decide +kernel)]
  dsimp only
  rw [number_digits " ".toList (by decide +kernel) _ _ (by decide +kernel)]
  dsimp only
  rw [show ∀ x : List Char, ',' :: x = ([] : List Char) ++ (",".toList ++ x) from fun _ => by
      rw [show ",".toList = [','] by decide +kernel]; rfl,
    token_hit "," _ _ (by decide +kernel) (by decide +kernel)]
  dsimp only
  rw [token_hit "}" _ _ (by decide +kernel) (by decide +kernel)]
  dsimp only
  rw [token_hit "," _ _ (by decide +kernel) (by decide +kernel)]
  rfl

theorem fileText_first (p : Char → Bool) (f : Cmd.BinlogFile) (pre : List Char) (hp : pre.all blank = true) (t : List Char) :
    token "]" (pre ++ (fileText p f ++ t)) = none := by
  have e : pre ++ (fileText p f ++ t) = (pre ++ "    ".toList) ++ ('B' :: ("inlogFile {\n".toList ++
      "        filename: ".toList ++ debugStr p (charsOf f.filename) ++ ",\n".toList
      ++ "        size: ".toList ++ Nat.toDigits 10 f.size ++ ",\n".toList ++ "    },\n".toList ++ t)) := by
    unfold fileText
    rw [show "    BinlogFile {\n".toList = "    ".toList ++ ('B' :: "inlogFile {\n".toList) by decide +kernel]
    simp only [List.append_assoc, List.cons_append]
  have hp' : (pre ++ "    ".toList).all blank = true := by rw [List.all_append, hp]; decide +kernel
  unfold token
  rw [e, dropWhile_blank _ hp', List.dropWhile_cons_of_neg (by decide +kernel)]
  rfl

theorem fileEntries_text (p : Char → Bool) : ∀ (files : List Cmd.BinlogFile) (fuel : Nat) (pre : List Char),
    pre.all blank = true → files.length < fuel →
    fileEntries fuel (pre ++ (files.flatMap (fileText p) ++ "]\n".toList))
      = some (files.map fun f => (charsOf f.filename, f.size), ['\n'])
  | [], fuel + 1, pre, hp, _ => by
    rw [fileEntries]
    have := token_hit "]" pre ['\n'] hp (by decide +kernel)
    rw [show pre ++ (([] : List Cmd.BinlogFile).flatMap (fileText p) ++ "]\n".toList) = pre ++ ("]".toList ++ ['\n']) by
        rw [show "]\n".toList = "]".toList ++ ['\n'] by decide +kernel]; rfl,
      this]
    rfl
  | f :: files, fuel + 1, pre, hp, hf => by
    rw [List.flatMap_cons, List.append_assoc, fileEntries, fileText_first p f pre hp]
    dsimp only
    rw [fileEntry_text p f pre hp]
    dsimp only [bind, Option.bind]
    have := fileEntries_text p files fuel ['\n'] (by decide +kernel) (by simpa using hf)
    rw [List.cons_append, List.nil_append] at this
    rw [this]
    rfl

/-- the characters of the text -/
def listChars (printable : Char → Bool) (files : List Cmd.BinlogFile) : List Char :=
  if files = [] then "[]\n".toList else "[\n".toList ++ files.flatMap (fileText printable) ++ "]\n".toList

theorem listChars_read (p : Char → Bool) (files : List Cmd.BinlogFile) :
    fileListing (listChars p files) = some (files.map fun f => (charsOf f.filename, f.size)) := by
  unfold listChars
  split
  · rename_i h; subst h; decide +kernel
  · rename_i h
    unfold fileListing
    have e : "[\n".toList ++ files.flatMap (fileText p) ++ "]\n".toList
        = ([] : List Char) ++ ("[".toList ++ (['\n'] ++ (files.flatMap (fileText p) ++ "]\n".toList))) := by
      rw [show "[\n".toList = "[".toList ++ ['\n'] by decide +kernel]
      simp only [List.append_assoc, List.nil_append]
    rw [e, token_hit "[" _ _ (by decide +kernel) (by decide +kernel)]
    dsimp only [bind, Option.bind]
    rw [fileEntries_text p files _ _ (by decide +kernel) ?_]
    · rfl
    · have : files.length ≤ (files.flatMap (fileText p)).length := by
        clear e h
        induction files with
        | nil => simp
        | cons f files ih =>
          rw [List.flatMap_cons, List.length_append, List.length_cons]
          have : 1 ≤ (fileText p f).length := by
            unfold fileText
            rw [show "    },\n".toList = [' ', ' ', ' ', ' ', '}', ',', '\n'] by decide +kernel]
            simp only [List.length_append, List.length_cons]
            omega
          omega
      simp only [List.length_append, List.nil_append, List.length_cons]
      omega

/-- C117: the text of the list command is a list of values of Rust that stands for exactly the files, in order: read as
Rust reads string literals and numbers it gives back the names, whatever characters they consist of, and the sizes. So
two different lists never have the same text. -/
theorem C117_text (printable : Char → Bool) (files : List Cmd.BinlogFile) (names : List (List Char))
    (hn : files.map (·.filename) = names.map Spec.utf8) :
    ∃ text, listText printable files = Spec.utf8 text ∧
      fileListing text = some (names.zip (files.map (·.size))) := by
  refine ⟨listChars printable files, rfl, ?_⟩
  rw [listChars_read]
  congr 1
  induction files generalizing names with
  | nil =>
    cases names with
    | nil => rfl
    | cons _ _ => cases hn
  | cons f files ih =>
    cases names with
    | nil => cases hn
    | cons n names =>
      simp only [List.map_cons, List.cons.injEq] at hn
      rw [List.map_cons, ih names hn.2, hn.1, charsOf_utf8]
      rfl

/-! ### lines -/

/-- the bytes of a character, given that it is not one of the first 32 -/
theorem utf8_graphic (c : Char) (hc : 0x20 ≤ c.toNat) : ∀ b ∈ String.utf8EncodeChar c, 0x20 ≤ b.toNat := by
  have tn : ∀ n : Nat, n < 256 → (UInt8.ofNat n).toNat = n := fun n h => UInt8.toNat_ofNat_of_lt' h
  have hc' : 0x20 ≤ c.val.toNat := hc
  have hr := char_ranges c
  unfold String.utf8EncodeChar
  dsimp only
  generalize c.val.toNat = v at hc' hr
  intro b hb
  split at hb
  · simp only [List.mem_singleton] at hb
    subst hb
    rw [tn _ (by omega)]; exact hc'
  split at hb
  · simp only [List.mem_cons, List.not_mem_nil, or_false] at hb
    rcases hb with rfl | rfl <;> rw [tn _ (by omega)] <;> omega
  split at hb
  · simp only [List.mem_cons, List.not_mem_nil, or_false] at hb
    rcases hb with rfl | rfl | rfl <;> rw [tn _ (by omega)] <;> omega
  · simp only [List.mem_cons, List.not_mem_nil, or_false] at hb
    rcases hb with rfl | rfl | rfl | rfl <;> rw [tn _ (by omega)] <;> omega

/-- the characters of a string in the text are no control characters -/
theorem debugChar_graphic (p : Char → Bool) (hp : ∀ c, c.toNat < 0x20 → p c = false) (c : Char) :
    ∀ d ∈ debugChar p c, 0x20 ≤ d.toNat := by
  intro d hd
  unfold debugChar at hd
  split at hd
  · revert d; decide
  split at hd
  · revert d; decide
  split at hd
  · revert d; decide
  split at hd
  · revert d; decide
  split at hd
  · revert d; decide
  split at hd
  · revert d; decide
  split at hd
  · rename_i h
    simp only [List.mem_singleton] at hd
    subst hd
    by_contra hlt
    rw [hp d (by omega)] at h
    cases h
  · obtain ⟨ds, e1, e2, -⟩ := toDigits_hex c.toNat
    rw [e1] at hd
    simp only [List.mem_append, List.mem_cons, List.mem_map, List.not_mem_nil, or_false] at hd
    rcases hd with ((rfl | rfl | rfl) | ⟨x, hx, rfl⟩) | rfl
    · decide
    · decide
    · decide
    · have : ∀ x, x < 16 → 0x20 ≤ x.digitChar.toNat := by decide
      exact this x (e2 x hx)
    · decide

theorem listChars_graphic (p : Char → Bool) (hp : ∀ c, c.toNat < 0x20 → p c = false) (files : List Cmd.BinlogFile) :
    ∀ d ∈ listChars p files, d = '\n' ∨ 0x20 ≤ d.toNat := by
  have hfix : ∀ w : List Char, w.all (fun d => d == '\n' || decide (0x20 ≤ d.toNat)) = true →
      ∀ d ∈ w, d = '\n' ∨ 0x20 ≤ d.toNat := by
    intro w h d hd
    have := List.all_eq_true.1 h d hd
    simpa only [Bool.or_eq_true, beq_iff_eq, decide_eq_true_eq] using this
  intro d hd
  unfold listChars at hd
  split at hd
  · exact hfix _ (by decide +kernel) d hd
  · simp only [List.mem_append, List.mem_flatMap] at hd
    rcases hd with (hd | ⟨f, -, hd⟩) | hd
    · exact hfix _ (by decide +kernel) d hd
    · unfold fileText debugStr at hd
      simp only [List.mem_append, List.mem_flatMap, List.mem_singleton] at hd
      rcases hd with ((((((hd | hd) | ((rfl | ⟨c, -, hd⟩) | rfl)) | hd) | hd) | hd) | hd) | hd
      · exact hfix _ (by decide +kernel) d hd
      · exact hfix _ (by decide +kernel) d hd
      · exact .inr (by decide)
      · exact .inr (debugChar_graphic p hp c d hd)
      · exact .inr (by decide)
      · exact hfix _ (by decide +kernel) d hd
      · exact hfix _ (by decide +kernel) d hd
      · right
        have := Nat.isDigit_of_mem_toDigits (by norm_num) (by norm_num) hd
        unfold Char.isDigit at this
        simp only [Bool.and_eq_true, decide_eq_true_eq, ge_iff_le, UInt32.le_iff_toNat_le] at this
        have h := this.1
        show 0x20 ≤ d.val.toNat
        have : ('0' : Char).val.toNat = 48 := by decide
        omega
      · exact hfix _ (by decide +kernel) d hd
      · exact hfix _ (by decide +kernel) d hd
    · exact hfix _ (by decide +kernel) d hd

/-- C117: no name can disturb the terminal or the lines of the text: besides the newlines the text has no control
characters, if control characters are not held to be printable. -/
theorem C117_clean (printable : Char → Bool) (hp : ∀ c, c.toNat < 0x20 → printable c = false) (files : List Cmd.BinlogFile) :
    ∀ b ∈ listText printable files, b = 0x0a ∨ 0x20 ≤ b.toNat := by
  intro b hb
  obtain ⟨d, hd, hb⟩ := List.mem_flatMap.1 (show b ∈ (listChars printable files).flatMap String.utf8EncodeChar from hb)
  rcases listChars_graphic printable hp files d hd with rfl | h
  · left
    have : ∀ b ∈ String.utf8EncodeChar '\n', b = 0x0a := by decide
    exact this b hb
  · exact .inr (utf8_graphic d h b hb)

/-- C117, the whole program: against every server that accepts the login and answers the question (see
`C87_list_partial`), the program ends without an error, and its output, read as Rust, is the list of the names and sizes
the server told. -/
theorem C117_list_partial (printable : Char → Bool) (w : World) (hH : w.hashes.Sized) (o : ProgOpts) (hcmd : o.cmd = .list)
    (hu : (0 : UInt8) ∉ o.username ∧ o.username.length < 2 ^ 30) (inp method nonce mid rest : Bytes)
    (hs : w.stream 0 (o.host ++ Spec.ascii ":" ++ o.port) = some inp)
    (hw : Spec.Welcomes o.password inp method nonce mid)
    {cols : List (Spec.ColDef × ColumnType)} {wa s : Nat} {rows : List (List (Option Bytes))} {term : Bytes}
    (ha : Spec.AnswerOk (Spec.clientCaps []) cols wa s rows term) (files : List (List Char × Nat))
    (hf : List.Forall₂ (fun row f => Spec.FileRow row (Spec.utf8 f.1) f.2) rows files)
    (hd : Spec.Delivers mid (Spec.textAnswer (Spec.clientCaps []) (cols.map (·.1)) wa s rows term) rest) :
    ∃ printed text, (mybinlog w o).lines = [.files printed] ∧ (mybinlog w o).theEnd = .done ∧
      listText printable printed = Spec.utf8 text ∧ fileListing text = some files := by
  let fs : List Cmd.BinlogFile := files.map fun f => ⟨Spec.utf8 f.1, f.2⟩
  have hf' : List.Forall₂ (fun row (f : Cmd.BinlogFile) => Spec.FileRow row f.filename f.size) rows fs := by
    clear ha hd
    show List.Forall₂ _ rows (files.map _)
    rw [List.forall₂_map_right_iff]
    exact hf
  obtain ⟨login, all, h, -, -⟩ := C87_list_partial w hH o hcmd hu inp method nonce mid rest hs hw ha fs hf' hd
  obtain ⟨text, t1, t2⟩ := C117_text printable fs (files.map (·.1)) (by simp [fs])
  refine ⟨fs, text, by rw [h], by rw [h], t1, ?_⟩
  rw [t2]
  congr 1
  show (files.map _).zip ((files.map _).map _) = files
  rw [List.map_map]
  clear ha hd hf hf' h t1 t2
  induction files with
  | nil => rfl
  | cons f files ih => rw [List.map_cons, List.map_cons, List.zip_cons_cons, ih]; rfl

/-- a whole run: a server with the file `f1` of 120 bytes -/
example (ft : FloatText) : ∃ inp printed text, (mybinlog (exampleWorld ft inp []) { exampleProg 0 with cmd := .list }).lines
      = [.files printed] ∧ listText Char.isAlphanum printed = Spec.utf8 text ∧ fileListing text = some [(['f', '1'], 120)] := by
  obtain ⟨mid, hd⟩ := delivers_small _ [] plain_files_small
  obtain ⟨inp, w1⟩ := example_welcome mid
  obtain ⟨printed, text, h1, -, h3, h4⟩ := C117_list_partial Char.isAlphanum (exampleWorld ft inp []) realHashes_sized
    { exampleProg 0 with cmd := .list } rfl
    ⟨(by decide +kernel : (0 : UInt8) ∉ Spec.ascii "root"), (by decide +kernel : (Spec.ascii "root").length < 2 ^ 30)⟩ inp _ _
    mid [] rfl w1 plain_files [(['f', '1'], 120)]
    (.cons ⟨_, [], (rfl : [some (Spec.ascii "f1"), some (Spec.ascii "120")] = _), by decide +kernel, by decide +kernel,
      by norm_num⟩ .nil) hd
  exact ⟨inp, printed, text, h1, h3, h4⟩

/-- names with a quote and braces, with a newline and a control character, and with a character of two bytes held not to
be printable -/
example :
    let files : List Cmd.BinlogFile := [⟨Spec.utf8 "a\", size: 1 }".toList, 154⟩, ⟨Spec.utf8 "b\n\x1b".toList, 0⟩,
      ⟨Spec.utf8 "é".toList, 2 ^ 64 - 1⟩]
    ∃ text, listText (fun c => c.isAlphanum || c = ' ' || c = '}') files = Spec.utf8 text ∧
      fileListing text = some [("a\", size: 1 }".toList, 154), ("b\n\x1b".toList, 0), ("é".toList, 2 ^ 64 - 1)] :=
  C117_text _ _ ["a\", size: 1 }".toList, "b\n\x1b".toList, "é".toList] rfl

/-- the text for a file, and that of a name with a quote, a newline and an escape character -/
example : debugStr (fun c => decide (0x20 ≤ c.toNat)) "b\"\n\x1b".toList = "\"b\\\"\\n\\u{1b}\"".toList ∧
    fileText (fun c => decide (0x20 ≤ c.toNat)) ⟨[], 154⟩ =
      "    BinlogFile {\n        filename: \"\",\n        size: 154,\n    },\n".toList := by
  refine ⟨by decide +kernel, ?_⟩
  have : charsOf [] = [] := charsOf_utf8 []
  unfold fileText
  rw [this]
  decide +kernel

end Mybin
