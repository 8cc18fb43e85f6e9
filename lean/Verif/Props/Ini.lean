import Verif.Lemmas.IniConfig

set_option autoImplicit false

/-!
# The INI parser (C59–C63)

`fileOf lines` is the text of a file, `Reader.ofFile text` the reader built from it. What a line
means is specified in `Spec/Ini.lean`.
-/

namespace QED

open Ini

/-! ## C62 -/

/-- No byte order mark at the start of the file. -/
def NoBom (lines : List (List Char)) : Prop :=
  ∀ l, lines.head? = some l → bom.isPrefixOf l = false

/-- Every list of lines has exactly one meaning. -/
theorem C62_meaning (lines : List (List Char)) : ∃! ks, Kinds [] [] lines ks := by
  obtain ⟨ks, h⟩ := kinds_total lines [] []
  exact ⟨ks, h, fun ks' h' => kinds_det h' h⟩

/-- C62, the part that holds: for every file whose lines have at most 198 characters, the result is
the number of the first bad line (zero if there is none), and all other lines are read: what is handed
over is exactly what the lines that are not bad say. Missing: files with longer lines, see
`C62_refuted`. -/
theorem C62_first_error_partial (lines : List (List Char)) (ks : List Kind)
    (hl : ∀ l ∈ lines, PlainLine l) (hb : NoBom lines) (hk : Kinds [] [] lines ks) :
    (parseFile (fileOf lines)).error = firstBad ks ∧
    (parseFile (fileOf lines)).calls = allCalls [] [] ks ∧
    ((parseFile (fileOf lines)).error = 0 ↔ .bad ∉ ks) := by
  have H := foldl_lines lines ks .init (fun l h => (hl l h).2.1) (fun _ => hb) hk
  have e : parseFile (fileOf lines) = (lines.map (· ++ ['\n'])).foldl lineStep .init := by
    rw [parseFile, fgetsAll_file lines hl, parseBuffers]
  rw [e]
  have he : ((lines.map (· ++ ['\n'])).foldl lineStep .init).error = firstBad ks := by
    rw [H.2.2]
    by_cases hf : firstBad ks = 0 <;> simp [PState.init, hf]
  refine ⟨he, by rw [H.1]; rfl, ?_⟩
  rw [he]
  unfold firstBad
  cases hx : ks.findIdx? (· = .bad) with
  | none =>
    rw [List.findIdx?_eq_none_iff] at hx
    simp only [true_iff]
    intro hm
    have := hx _ hm
    simp at this
  | some i =>
    simp only [Nat.add_eq_zero_iff, one_ne_zero, and_false, false_iff, not_not]
    obtain ⟨hi, h, -⟩ := List.findIdx?_eq_some_iff_getElem.mp hx
    have h' : ks[i] = .bad := by simpa using h
    rw [← h']
    exact List.getElem_mem _

/-- C62: lines after a bad line are read as if it were not there. -/
theorem C62_bad_lines_skipped (pre post : List (List Char)) (l : List Char) (ks : List Kind)
    (hl : ∀ l' ∈ pre ++ l :: post, Readable l') (hb : NoBom (pre ++ l :: post))
    (hb' : NoBom (pre ++ post)) (hk : Kinds [] [] (pre ++ l :: post) ks)
    (hbad : ks[pre.length]? = some .bad) :
    (parseFile (fileOf (pre ++ l :: post))).calls = (parseFile (fileOf (pre ++ post))).calls := by
  have key : ∀ (pre : List (List Char)) (s n : List Char) (ks : List Kind),
      Kinds s n (pre ++ l :: post) ks → ks[pre.length]? = some .bad →
      ∃ ks', Kinds s n (pre ++ post) ks' ∧ allCalls s n ks = allCalls s n ks' := by
    intro pre
    induction pre with
    | nil =>
      intro s n ks hk hb
      cases hk with
      | @cons _ _ _ _ k ks h1 h2 =>
        simp at hb
        subst hb
        exact ⟨ks, h2, rfl⟩
    | cons p pre ih =>
      intro s n ks hk hb
      rw [List.cons_append] at hk
      cases hk with
      | @cons _ _ _ _ k ks h1 h2 =>
        obtain ⟨ks', h3, h4⟩ := ih _ _ ks h2 (by simpa using hb)
        exact ⟨k :: ks', .cons h1 h3, by rw [allCalls, allCalls, h4]⟩
  obtain ⟨ks', h1, h2⟩ := key pre [] [] ks hk hbad
  rw [parseFile_calls hl hb hk, parseFile_calls (fun l' h' => hl l' ?_) hb' h1, h2]
  rcases List.mem_append.mp h' with h | h
  · simp [h]
  · simp [h]

/-- C62: the last line may lack its newline. -/
theorem C62_unterminated (lines : List (List Char)) (last : List Char)
    (hl : ∀ l ∈ lines, PlainLine l) (hlast : PlainLine last) (hne : last ≠ [])
    (hb : NoBom (lines ++ [last])) :
    parseFile (fileOf lines ++ last) = parseFile (fileOf (lines ++ [last])) := by
  apply parseFile_unterminated hl hlast hne
  cases lines with
  | nil => right; exact hb last rfl
  | cons l ls => left; simp

/-! ## C60 -/

theorem kinds_drop_inert {s n : List Char} {lines : List (List Char)} {ks : List Kind}
    (hk : Kinds s n lines ks) : ∃ ks', Kinds s n (open Classical in lines.filter (¬ IsInert ·)) ks' ∧
      allCalls s n ks = allCalls s n ks' := by
  classical
  induction hk with
  | nil => exact ⟨[], .nil, rfl⟩
  | @cons s n l ls k ks h1 h2 ih =>
    obtain ⟨ks', h3, h4⟩ := ih
    by_cases hi : IsInert l
    · have hk : k = .inert := by
        have a := (is_iff (n ≠ []) l k).mp (by simpa using h1)
        have b := (is_iff (n ≠ []) l .inert).mp hi
        rw [← a, ← b]
      subst hk
      refine ⟨ks', ?_, ?_⟩
      · rw [List.filter_cons, if_neg (by simpa using hi)]
        exact h3
      · exact h4
    · refine ⟨k :: ks', ?_, by rw [allCalls, allCalls, h4]⟩
      rw [List.filter_cons, if_pos (by simpa using hi)]
      exact .cons h1 (by convert h3)

open Classical in
/-- C60, the part that holds: if two files, whose lines have at most 199 characters, agree after
their comment and blank lines are dropped, everything read from them agrees. So such lines can be
inserted or removed anywhere in any number. Missing: longer comment lines, see `C60_refuted`. -/
theorem C60_inert_lines_partial (lines lines' : List (List Char))
    (hl : ∀ l ∈ lines, Readable l) (hl' : ∀ l ∈ lines', Readable l)
    (hb : NoBom lines) (hb' : NoBom lines')
    (h : lines.filter (¬ IsInert ·) = lines'.filter (¬ IsInert ·)) :
    (Reader.ofFile (fileOf lines)).values = (Reader.ofFile (fileOf lines')).values ∧
    (Reader.ofFile (fileOf lines)).sections = (Reader.ofFile (fileOf lines')).sections := by
  obtain ⟨ks, hk⟩ := kinds_total lines [] []
  obtain ⟨ks', hk'⟩ := kinds_total lines' [] []
  obtain ⟨m, h1, h2⟩ := kinds_drop_inert hk
  obtain ⟨m', h1', h2'⟩ := kinds_drop_inert hk'
  have hm : Kinds [] [] (lines.filter (¬ IsInert ·)) m := by convert h1
  have hm' : Kinds [] [] (lines'.filter (¬ IsInert ·)) m' := by convert h1'
  rw [h] at hm
  have hmm := kinds_det hm hm'
  have e : (parseFile (fileOf lines)).calls = (parseFile (fileOf lines')).calls := by
    rw [parseFile_calls hl hb hk, parseFile_calls hl' hb' hk', h2, h2', hmm]
  unfold Reader.ofFile
  dsimp only
  rw [e]
  exact ⟨rfl, rfl⟩

/-! ## C63 -/

/-- C63, the part that holds: a name/value line of at most 199 characters, anywhere in a file, is read
as one entry of the section it stands in, between what the lines before and after it say. Missing:
longer lines, see `C63_refuted`. -/
theorem C63_short_lines_partial (pre post : List (List Char)) (l k v : List Char)
    (kp kq : List Kind) (hl : ∀ l' ∈ pre ++ l :: post, Readable l') (hb : NoBom (pre ++ l :: post))
    (hk : Kinds [] [] (pre ++ l :: post) (kp ++ .entry k v :: kq)) :
    ∃ sect, sect = kp.foldl (fun s k => k.sectAfter s) [] ∧
      (parseFile (fileOf (pre ++ l :: post))).calls =
        allCalls [] [] kp ++ ⟨sect, k, v⟩ :: allCalls sect (short k) kq := by
  rw [parseFile_calls hl hb hk]
  have key : ∀ (kp : List Kind) (s n : List Char),
      allCalls s n (kp ++ .entry k v :: kq) = allCalls s n kp ++
        ⟨kp.foldl (fun s k => k.sectAfter s) s, k, v⟩ ::
          allCalls (kp.foldl (fun s k => k.sectAfter s) s) (short k) kq := by
    intro kp
    induction kp with
    | nil => intro s n; rfl
    | cons k' kp ih =>
      intro s n
      rw [List.cons_append, allCalls, ih, allCalls, List.append_assoc, List.foldl_cons]
  exact ⟨_, rfl, key kp [] []⟩

/-- The line `a=11…1` with `n` ones. -/
def longLine (n : Nat) : List Char := 'a' :: '=' :: List.replicate n '1'

theorem ones_trim (n : Nat) : lskip (rstrip (List.replicate n '1')) = List.replicate n '1' := by
  symm
  rw [← Trim.iff]
  refine ⟨[], [], by simp, blank_nil, blank_nil, ?_, ?_⟩
  · intro c hc
    cases n with
    | zero => simp at hc
    | succ n => simp [List.replicate_succ] at hc; subst hc; rfl
  · intro c hc
    have := List.mem_of_getLast? hc
    rw [List.eq_of_mem_replicate this]
    rfl

theorem ones_scan (stop : Char → Bool) (h : stop '1' = false) (n : Nat) (b : Bool) :
    findFrom stop b (List.replicate n '1') = (List.replicate n '1', []) := by
  have := findFrom_eq stop (List.replicate n '1') [] b ⟨by
    intro c hc; rw [List.eq_of_mem_replicate hc]; exact h, ?_, ?_, by simp⟩
  · simpa using this
  · intro x w y e _
    have : ';' ∈ List.replicate n '1' := by rw [e]; simp
    have := List.eq_of_mem_replicate this
    cases this
  · intro _ y e
    have : ';' ∈ List.replicate n '1' := by rw [e]; simp
    have := List.eq_of_mem_replicate this
    cases this

theorem longLine_trim (n : Nat) : lskip (rstrip (longLine n)) = longLine n := by
  symm
  rw [← Trim.iff]
  refine ⟨[], [], by simp, blank_nil, blank_nil, ?_, ?_⟩
  · intro c hc; simp [longLine] at hc; subst hc; rfl
  · intro c hc
    have := List.mem_of_getLast? hc
    simp only [longLine, List.mem_cons, List.mem_replicate] at this
    rcases this with h | h | h
    · subst h; rfl
    · subst h; rfl
    · rw [h.2]; rfl

theorem longLine_classify (h : Bool) (n : Nat) :
    classify h (longLine n) = .entry ['a'] (List.replicate n '1') := by
  unfold classify
  rw [longLine_trim]
  have e : findCharsOrComment (fun c => decide (c = '=') || decide (c = ':')) (longLine n) =
      (['a'], '=' :: List.replicate n '1') :=
    find_stop (p := ['a']) (d := '=') (by simp) (by
      rintro ⟨x, w, y, e, -⟩
      have := congrArg List.length e
      simp at this
      omega) (by simp)
  simp only [longLine] at e ⊢
  rw [e]
  dsimp only
  have e2 : findCharsOrComment (fun _ => false) (List.replicate n '1') = (List.replicate n '1', []) :=
    ones_scan _ rfl n false
  rw [e2]
  dsimp only
  have e3 : rstrip (lskip (List.replicate n '1')) = List.replicate n '1' := by
    have h1 := ones_trim n
    have hl : lskip (List.replicate n '1') = List.replicate n '1' := by
      apply lskip_of_head
      intro c hc
      cases n with
      | zero => simp at hc
      | succ n => simp [List.replicate_succ] at hc; subst hc; rfl
    rw [hl]
    apply rstrip_of_last
    intro c hc
    rw [List.eq_of_mem_replicate (List.mem_of_getLast? hc)]
    rfl
  rw [e3]
  have e4 : rstrip ['a'] = ['a'] := by decide
  rw [e4]
  simp [isSpace]

theorem ones_classify (h : Bool) (n : Nat) (hn : 0 < n) :
    classify h (List.replicate n '1') = .bad := by
  unfold classify
  rw [ones_trim]
  obtain ⟨m, rfl⟩ : ∃ m, n = m + 1 := ⟨n - 1, by omega⟩
  have e : findCharsOrComment (fun c => decide (c = '=') || decide (c = ':'))
      (List.replicate (m + 1) '1') = (List.replicate (m + 1) '1', []) :=
    ones_scan _ (by decide) _ false
  rw [List.replicate_succ] at e ⊢
  dsimp only
  rw [e]
  simp [isSpace]

/-- What the parser makes of a line `a=11…1` with more than 197 ones (up to 395): the value is cut
after 197 characters, and the rest is reported as an error on line 2 of the one-line file. -/
theorem longLine_parse (m : Nat) (h1 : 1 ≤ m) (h2 : m ≤ 198) :
    parseFile (fileOf [longLine (197 + m)]) =
      ⟨[], ['a'], 2, 2, [⟨[], ['a'], List.replicate 197 '1'⟩]⟩ := by
  have e : fileOf [longLine (197 + m)] = longLine 197 ++ (List.replicate m '1' ++ '\n' :: []) := by
    simp only [fileOf, longLine, List.replicate_add, List.map_cons, List.map_nil,
      List.flatten_cons, List.flatten_nil,
      List.cons_append, List.append_assoc, List.append_nil]
  have hn : ∀ n, '\n' ∉ longLine n := by
    intro n; simp [longLine]
  have hlen : (longLine 197).length = 199 := by
    simp only [longLine, List.length_cons, List.length_replicate]
  have a := fgetsAll_full (hn 197) (List.replicate m '1' ++ '\n' :: []) []
    (by simp only [longLine]; exact List.cons_ne_nil _ _)
  rw [hlen] at a
  have b := fgetsAll_line (l := List.replicate m '1') (by simp) [] 199 []
    (by simp; omega)
  unfold parseFile parseBuffers
  rw [e, a, b]
  simp only [List.nil_append, fgetsAll, if_true, List.foldl_cons, List.foldl_nil]
  rw [lineStep_eq .init (by simp [longLine, -List.reduceReplicate]) (by intro _; rfl),
    longLine_classify]
  rw [lineStep_eq _ (by simp) (by intro h; simp [PState.apply] at h), classify_newline,
    ones_classify _ m (by omega)]
  simp [PState.apply, PState.init, Kind.sectAfter, Kind.nameAfter, Kind.calls, short,
    -List.reduceReplicate]

/-- C63 is false for lines of 200 characters and more: the one-line file `a=11…1` (with 198 to 395
ones) is not read as the value it states. -/
theorem C63_refuted (m : Nat) (h1 : 1 ≤ m) (h2 : m ≤ 198) :
    Is False (longLine (197 + m)) (.entry ['a'] (List.replicate (197 + m) '1')) ∧
    (Reader.ofFile (fileOf [longLine (197 + m)])).get [] ['a'] [] = List.replicate 197 '1' ∧
    List.replicate 197 '1' ≠ List.replicate (197 + m) '1' := by
  refine ⟨?_, ?_, ?_⟩
  · have := (is_iff false _ _).mpr (longLine_classify false (197 + m))
    simpa using this
  · unfold Reader.ofFile
    rw [longLine_parse m h1 h2]
    simp [Reader.handle, Reader.empty, Reader.get, -List.reduceReplicate]
  · intro h
    have := congrArg List.length h
    simp only [List.length_replicate] at this
    omega

/-- C62 is false for files with longer lines: here every line is a name/value pair, but an error is
reported, on a line the file does not have. -/
theorem C62_refuted : ∃ (lines : List (List Char)) (ks : List Kind), Kinds [] [] lines ks ∧
    firstBad ks = 0 ∧ (parseFile (fileOf lines)).error = 2 ∧ lines.length = 1 := by
  refine ⟨[longLine 198], [.entry ['a'] (List.replicate 198 '1')], .cons ?_ .nil, rfl, ?_, rfl⟩
  · have := (is_iff false _ _).mpr (longLine_classify false 198)
    rwa [show ((false : Bool) = true) = (([] : List Char) ≠ []) by simp] at this
  · rw [longLine_parse 1 (by norm_num) (by norm_num)]

/-- A comment of 199 characters followed directly by `a=1`. -/
def longComment : List Char := '#' :: List.replicate 198 'x' ++ ['a', '=', '1']

/-- C60 is false for longer comments: inserting one comment line into an empty file defines a
value. -/
theorem C60_refuted : IsInert longComment ∧
    (Reader.ofFile (fileOf [])).get [] ['a'] [] = [] ∧
    (Reader.ofFile (fileOf [longComment])).get [] ['a'] [] = ['1'] := by
  refine ⟨Or.inr ⟨[], '#', List.replicate 198 'x' ++ ['a', '=', '1'], rfl, blank_nil, Or.inr rfl⟩,
    rfl, ?_⟩
  have e : fileOf [longComment] = ('#' :: List.replicate 198 'x') ++ (['a', '=', '1'] ++ '\n' :: []) := by
    simp only [fileOf, longComment, List.map_cons, List.map_nil,
      List.flatten_cons, List.flatten_nil,
      List.cons_append, List.append_assoc, List.append_nil, List.nil_append]
  have a := fgetsAll_full (l := '#' :: List.replicate 198 'x')
    (by simp [-List.reduceReplicate]) (['a', '=', '1'] ++ '\n' :: []) []
    (by simp [-List.reduceReplicate])
  have b := fgetsAll_line (l := ['a', '=', '1']) (by decide) [] 199 [] (by simp)
  simp only [List.length_cons, List.length_replicate, Nat.reduceAdd] at a
  have c : classify false ('#' :: List.replicate 198 'x') = .inert := by
    rw [← is_iff]
    exact Or.inr ⟨[], '#', List.replicate 198 'x', rfl, blank_nil, Or.inr rfl⟩
  have p : (parseFile (fileOf [longComment])).calls = [⟨[], ['a'], ['1']⟩] := by
    unfold parseFile parseBuffers
    rw [e, a, b]
    simp only [List.nil_append, fgetsAll, if_true, List.foldl_cons, List.foldl_nil]
    rw [lineStep_eq .init (by simp [-List.reduceReplicate]) (by intro _; rfl)]
    have : (decide (PState.init.prevName ≠ [])) = false := rfl
    rw [this, c, lineStep_eq _ (by decide) (by intro h; simp [PState.apply] at h), classify_newline]
    rfl
  unfold Reader.ofFile
  dsimp only
  rw [p]
  simp [Reader.handle, Reader.empty, Reader.get]

/-! ## C59 -/

theorem config_values {c : Config} (h : c.WF) :
    (Reader.ofFile (fileOf c.lines)).error = 0 ∧
    (∀ e ∈ c.entries, (Reader.ofFile (fileOf c.lines)).values (makeKey e.1 e.2.1) = some e.2.2) ∧
    (∀ key, (∀ e ∈ c.entries, makeKey e.1 e.2.1 ≠ key) →
      (Reader.ofFile (fileOf c.lines)).values key = none) ∧
    (∀ s, s ∈ (Reader.ofFile (fileOf c.lines)).sections ↔ ∃ e ∈ c.entries, e.1 = s) := by
  have hk := config_kinds c h.sects h.names h.values [] []
  have hp := config_plain h
  have H := C62_first_error_partial c.lines c.kinds hp (config_nobom c) hk
  rw [config_no_bad, config_calls c (fun s hs => (h.sects s hs).size)] at H
  obtain ⟨h1, h2, -⟩ := H
  unfold Reader.ofFile
  dsimp only
  rw [h1, h2]
  refine ⟨rfl, ?_, ?_, ?_⟩
  · intro e he
    have := handle_values (c.entries.map fun e => ⟨e.1, e.2.1, e.2.2⟩) Reader.empty
      (fun _ _ => rfl) ?_ ⟨e.1, e.2.1, e.2.2⟩ (List.mem_map.mpr ⟨e, he, rfl⟩)
    · exact this
    · rw [List.pairwise_map]
      refine List.Pairwise.imp_of_mem ?_ h.once
      intro a b ha hb hab e
      exact hab ((makeKey_inj (h.names a ha).eq (h.names b hb).eq).mp e)
  · intro key hkey
    rw [handle_values_of_not_mem]
    · rfl
    · intro c' hc'
      obtain ⟨e, he, rfl⟩ := List.mem_map.mp hc'
      exact hkey e he
  · intro s
    rw [handle_sections]
    simp [Reader.empty]

/-- C59: every configuration that can be written is read back exactly: there is no error, every
section and name gives the value written, all others give the default, and the sections are those that
were given entries. -/
theorem C59_round_trip (c : Config) (h : c.WF) :
    let r := Reader.ofFile (fileOf c.lines)
    r.error = 0 ∧
    (∀ s ∈ c, ∀ e ∈ s.2, ∀ d, r.get s.1 e.1 d = e.2 ∧ r.hasValue s.1 e.1 = true) ∧
    (∀ s k d, '=' ∉ k → (∀ s' ∈ c, ∀ e ∈ s'.2, ¬ (SameName s'.1 s ∧ SameName e.1 k)) →
      r.get s k d = d ∧ r.hasValue s k = false) ∧
    (∀ s, s ∈ r.sections ↔ ∃ es, (s, es) ∈ c ∧ es ≠ []) := by
  obtain ⟨h1, h2, h3, h4⟩ := config_values h
  have hm : ∀ s ∈ c, ∀ e ∈ s.2, (s.1, e.1, e.2) ∈ c.entries := by
    intro s hs e he
    simp only [Config.entries, List.mem_flatMap, List.mem_map]
    exact ⟨s, hs, e, he, rfl⟩
  have hm' : ∀ x ∈ c.entries, ∃ s ∈ c, ∃ e ∈ s.2, x = (s.1, e.1, e.2) := by
    intro x hx
    simp only [Config.entries, List.mem_flatMap, List.mem_map] at hx
    obtain ⟨s, hs, e, he, rfl⟩ := hx
    exact ⟨s, hs, e, he, rfl⟩
  refine ⟨h1, ?_, ?_, ?_⟩
  · intro s hs e he d
    have := h2 _ (hm s hs e he)
    dsimp only at this
    exact ⟨by rw [Reader.get, this]; rfl, by rw [Reader.hasValue, this]; rfl⟩
  · intro s k d hk hno
    have := h3 (makeKey s k) ?_
    · exact ⟨by rw [Reader.get, this]; rfl, by rw [Reader.hasValue, this]; rfl⟩
    · intro x hx e
      obtain ⟨s', hs', e', he', rfl⟩ := hm' x hx
      exact hno s' hs' e' he' ((makeKey_inj (h.names _ hx).eq hk).mp e)
  · intro s
    rw [h4]
    constructor
    · rintro ⟨x, hx, rfl⟩
      obtain ⟨s', hs', e', he', rfl⟩ := hm' x hx
      exact ⟨s'.2, hs', fun e => by rw [e] at he'; simp at he'⟩
    · rintro ⟨es, hs, hne⟩
      obtain ⟨e, he⟩ := List.exists_mem_of_ne_nil es hne
      exact ⟨_, hm _ hs e he, rfl⟩

/-- C59, beyond the limit: a section name of 50 characters or more is cut to 49, so its values are
found under the shortened name only. -/
theorem C59_long_section (s k v d : List Char) (hs : Clean s) (hb : ']' ∉ s)
    (hc : ¬ HasInlineComment s) (hlen : 50 ≤ s.length) (hlen' : s.length ≤ 196) (hk : GoodName k)
    (hv : GoodValue v) (hsz : k.length + 3 + v.length ≤ 198) :
    let r := Reader.ofFile (fileOf (Config.lines [(s, [(k, v)])]))
    r.get (s.take 49) k d = v ∧ r.get s k d = d := by
  have hkinds : Kinds [] [] (Config.lines [(s, [(k, v)])]) [.header s, .entry k v] := by
    have : Config.lines [(s, [(k, v)])] =
        ['[' :: s ++ [']'], k ++ ' ' :: '=' :: ' ' :: v] := by simp [Config.lines]
    rw [this]
    refine .cons ?_ (.cons (entry_is _ hk hv) .nil)
    refine ⟨not_inert_of_head rfl rfl (by decide) (by decide), not_more_of_head rfl rfl _, [], ?_,
      hb, hc⟩
    apply trim_trimmed
    refine ⟨?_, ?_⟩
    · intro c hc; simp at hc; subst hc; rfl
    · intro c hc
      have e : ('[' :: s ++ [']']).getLast? = some ']' := by rw [List.getLast?_append]; rfl
      rw [e] at hc
      cases hc; rfl
  have hr : ∀ l ∈ Config.lines [(s, [(k, v)])], Readable l := by
    intro l hl
    simp [Config.lines] at hl
    rcases hl with rfl | rfl
    · exact ⟨by simpa using hs.1, by simpa using hs.2, by simp; omega⟩
    · exact ⟨by simpa using ⟨hk.clean.1, hv.clean.1⟩, by simpa using ⟨hk.clean.2, hv.clean.2⟩,
        by simp; omega⟩
  have hcalls := parseFile_calls hr (config_nobom _) hkinds
  have hval : (Reader.ofFile (fileOf (Config.lines [(s, [(k, v)])]))).values =
      fun key => if key = makeKey (s.take 49) k then some v else none := by
    unfold Reader.ofFile
    dsimp only
    rw [hcalls]
    simp [allCalls, Kind.calls, Kind.sectAfter, Reader.handle, Reader.empty, short]
  refine ⟨?_, ?_⟩
  · rw [Reader.get, hval]; simp
  · rw [Reader.get, hval]
    have : makeKey s k ≠ makeKey (s.take 49) k := by
      intro e
      have := congrArg List.length ((makeKey_inj hk.eq hk.eq).mp e).1
      simp [lower] at this
      omega
    simp [this]

/-! ## C61 -/

/-- C61, the part that holds: a value is found whatever the case of section and name, in the file and
in the request. Missing: section detection, see `C61_refuted`. -/
theorem C61_any_case_partial (c : Config) (h : c.WF) (s : List Char × List (List Char × List Char))
    (hs : s ∈ c) (e : List Char × List Char) (he : e ∈ s.2) (s' k' d : List Char)
    (h1 : SameName s' s.1) (h2 : SameName k' e.1) :
    (Reader.ofFile (fileOf c.lines)).get s' k' d = e.2 ∧
    (Reader.ofFile (fileOf c.lines)).hasValue s' k' = true := by
  have hm : (s.1, e.1, e.2) ∈ c.entries := by
    simp only [Config.entries, List.mem_flatMap, List.mem_map]
    exact ⟨s, hs, e, he, rfl⟩
  have hval := (config_values h).2.1 _ hm
  have hkey : makeKey s' k' = makeKey s.1 e.1 := by
    rw [makeKey_eq, makeKey_eq]
    have a : lower s' = lower s.1 := h1
    have b : lower k' = lower e.1 := h2
    rw [a, b]
  dsimp only at hval
  rw [← hkey] at hval
  exact ⟨by rw [Reader.get, hval]; rfl, by rw [Reader.hasValue, hval]; rfl⟩

/-- C61: for any reader at all, requests that differ only in case get the same answer. -/
theorem C61_request (r : Reader) (s s' k k' d : List Char) (h1 : SameName s s')
    (h2 : SameName k k') : r.get s k d = r.get s' k' d ∧ r.hasValue s k = r.hasValue s' k' := by
  have hkey : makeKey s k = makeKey s' k' := by
    rw [makeKey_eq, makeKey_eq]
    have a : lower s = lower s' := h1
    have b : lower k = lower k' := h2
    rw [a, b]
  unfold Reader.get Reader.hasValue
  rw [hkey]
  exact ⟨rfl, rfl⟩

/-! ## The hypotheses can be met -/

/-- A configuration of two sections. -/
def sampleConfig : Config :=
  [("General".toList, [("time_step".toList, "1e-16".toList), ("units".toList, "SI".toList)]),
   ("Field".toList, [("type".toList, "static".toList), ("note".toList, "a;b c".toList)])]

example : sampleConfig.WF := Config.wfB_spec (by decide)

/-- A file with a comment, a bad line, a continuation and a header. -/
def sampleLines : List (List Char) :=
  ["# comment".toList, "oops".toList, "[General]".toList, "a = 1 ; one".toList, "  2".toList,
   "".toList, "b: x".toList]

example : (∀ l ∈ sampleLines, PlainLine l) ∧ NoBom sampleLines ∧
    Kinds [] [] sampleLines [.inert, .bad, .header "General".toList, .entry "a".toList "1".toList,
      .more "2".toList, .inert, .entry "b".toList "x".toList] := by
  refine ⟨by unfold PlainLine; decide, ?_, ?_⟩
  · intro l hl; cases hl; rfl
  · obtain ⟨ks, h⟩ := kinds_total sampleLines [] []
    have : ∀ (h : Bool) (n l : List Char), (h = true ↔ n ≠ []) → Is (n ≠ []) l (classify h l) := by
      intro h n l hn
      have := (is_iff h l _).mpr rfl
      rwa [propext hn] at this
    exact .cons (this false _ _ (by simp)) (.cons (this false _ _ (by simp [Kind.nameAfter]))
      (.cons (this false _ _ (by simp [Kind.nameAfter])) (.cons (this false _ _ (by
        simp [Kind.nameAfter])) (.cons (this true _ _ (by decide)) (.cons (this true _ _ (by decide))
        (.cons (this true _ _ (by decide)) .nil))))))

/-- `C60_inert_lines_partial` applies to files that differ. -/
example : open Classical in
    ["a=1".toList].filter (¬ IsInert ·) =
      ["; comment".toList, "a=1".toList, " ".toList].filter (¬ IsInert ·) := by
  have h1 : ¬ IsInert "a=1".toList :=
    not_inert_of_head (c := 'a') rfl rfl (by decide) (by decide)
  have h2 : IsInert "; comment".toList := Or.inr ⟨[], ';', _, rfl, blank_nil, Or.inl rfl⟩
  have h3 : IsInert " ".toList := Or.inl (by intro c hc; simp at hc; subst hc; rfl)
  simp only [List.filter_cons, List.filter_nil, h1, h2, h3, not_false_eq_true, decide_true,
    not_true_eq_false, decide_false, if_true, Bool.false_eq_true, if_false]

end QED
