import Verif.Spec.Ini
import Mathlib.Data.List.DropRight

set_option autoImplicit false

/-! # Helper lemmas for the INI parser -/

namespace QED
namespace Ini

/-! ## Trimming -/

theorem blank_nil : Blank [] := by intro c hc; cases hc

theorem blank_append {a b : List Char} : Blank (a ++ b) ↔ Blank a ∧ Blank b := by
  simp [Blank, or_imp, forall_and]

theorem lskip_blank_append {a s : List Char} (h : Blank a) : lskip (a ++ s) = lskip s := by
  induction a with
  | nil => rfl
  | cons c a ih =>
    have hc := h c (by simp)
    have ha : Blank a := fun d hd => h d (by simp [hd])
    simp only [lskip, List.cons_append, List.dropWhile_cons, hc, if_true]
    exact ih ha

theorem lskip_of_head {s : List Char} (h : ∀ c, s.head? = some c → isSpace c = false) :
    lskip s = s := by
  cases s with
  | nil => rfl
  | cons c s => simp [lskip, h c rfl]

theorem rstrip_append_blank {s b : List Char} (h : Blank b) : rstrip (s ++ b) = rstrip s := by
  unfold rstrip
  have : Blank b.reverse := fun c hc => h c (by simpa using hc)
  have e := lskip_blank_append (s := s.reverse) this
  unfold lskip at e
  rw [List.reverse_append, e]

theorem rstrip_of_last {s : List Char} (h : ∀ c, s.getLast? = some c → isSpace c = false) :
    rstrip s = s := by
  have e := lskip_of_head (s := s.reverse) (by intro c hc; apply h; simpa using hc)
  unfold lskip at e
  unfold rstrip
  rw [e, List.reverse_reverse]

theorem lskip_decomp (s : List Char) : ∃ a, s = a ++ lskip s ∧ Blank a ∧
    ∀ c, (lskip s).head? = some c → isSpace c = false := by
  induction s with
  | nil => exact ⟨[], rfl, blank_nil, by simp [lskip]⟩
  | cons c s ih =>
    by_cases hc : isSpace c = true
    · obtain ⟨a, h1, h2, h3⟩ := ih
      have e : lskip (c :: s) = lskip s := by simp [lskip, hc]
      refine ⟨c :: a, by rw [e, List.cons_append, ← h1], ?_, by rw [e]; exact h3⟩
      intro d hd
      rcases List.mem_cons.mp hd with h | h
      · rw [h]; exact hc
      · exact h2 d h
    · have e : lskip (c :: s) = c :: s := by simp [lskip, hc]
      refine ⟨[], by rw [e]; rfl, blank_nil, ?_⟩
      rw [e]
      intro d hd
      simp at hd
      subst hd
      simpa using hc

theorem rstrip_decomp (s : List Char) : ∃ b, s = rstrip s ++ b ∧ Blank b ∧
    ∀ c, (rstrip s).getLast? = some c → isSpace c = false := by
  obtain ⟨a, h1, h2, h3⟩ := lskip_decomp s.reverse
  refine ⟨a.reverse, ?_, ?_, ?_⟩
  · have := congrArg List.reverse h1
    rw [List.reverse_reverse, List.reverse_append] at this
    exact this
  · intro c hc; exact h2 c (by simpa using hc)
  · intro c hc
    apply h3
    have : rstrip s = (lskip s.reverse).reverse := rfl
    rw [this] at hc
    simpa using hc

theorem trim_self (s : List Char) : Trim s (lskip (rstrip s)) := by
  obtain ⟨b, h1, h2, h3⟩ := rstrip_decomp s
  obtain ⟨a, g1, g2, g3⟩ := lskip_decomp (rstrip s)
  refine ⟨a, b, ?_, g2, h2, g3, ?_⟩
  · rw [← g1]; exact h1
  · intro c hc
    apply h3
    rw [g1, List.getLast?_append, hc]
    rfl

theorem Trim.eq {s t : List Char} (h : Trim s t) : t = lskip (rstrip s) := by
  obtain ⟨a, b, h1, h2, h3, h4, h5⟩ := h
  subst h1
  rw [rstrip_append_blank h3]
  by_cases ht : t = []
  · subst ht
    rw [List.append_nil]
    have : rstrip a = [] := by
      have := rstrip_append_blank (s := []) h2
      simpa [rstrip] using this
    rw [this]; rfl
  · rw [rstrip_of_last, lskip_blank_append h2, lskip_of_head h4]
    intro c hc
    apply h5
    rw [List.getLast?_append] at hc
    cases hl : t.getLast? with
    | none => exact absurd (List.getLast?_eq_none_iff.mp hl) ht
    | some d => rw [hl] at hc; exact hc

theorem Trim.iff {s t : List Char} : Trim s t ↔ t = lskip (rstrip s) :=
  ⟨Trim.eq, fun h => h ▸ trim_self s⟩

/-- If the text begins with something that is not white space, trimming only strips the end. -/
theorem Trim.rstrip {s t : List Char} (hs : ∀ c, s.head? = some c → isSpace c = false)
    (h : Trim s t) : t = rstrip s := by
  rw [h.eq]
  apply lskip_of_head
  intro c hc
  apply hs
  obtain ⟨b, h1, -, -⟩ := rstrip_decomp s
  rw [h1, List.head?_append, hc]
  rfl

theorem trim_append_newline {s t : List Char} : Trim (s ++ ['\n']) t ↔ Trim s t := by
  rw [Trim.iff, Trim.iff, rstrip_append_blank]
  intro c hc
  simp at hc
  subst hc
  rfl

theorem trim_eq_nil {s : List Char} : lskip (Ini.rstrip s) = [] ↔ Blank s := by
  constructor
  · intro h
    obtain ⟨a, b, h1, h2, h3, -⟩ := trim_self s
    rw [h1, h]
    simp only [List.append_nil]
    exact blank_append.mpr ⟨h2, h3⟩
  · intro h
    have := rstrip_append_blank (s := []) h
    rw [List.nil_append] at this
    rw [this]; rfl

/-! ## Scanning -/

/-- A scan stopped in front of `q` after the text `p`; `b` says that white space came before. -/
structure Stopped (stop : Char → Bool) (b : Bool) (p q : List Char) : Prop where
  noStop : ∀ c ∈ p, stop c = false
  noComment : ∀ x w y, p = x ++ w :: ';' :: y → isSpace w = true → False
  noLead : b = true → ∀ y, p ≠ ';' :: y
  atEnd : ∀ d r, q = d :: r → stop d = true ∨ (d = ';' ∧
    ((p = [] ∧ b = true) ∨ ∃ v w, p = v ++ [w] ∧ isSpace w = true))

theorem findFrom_spec (stop : Char → Bool) : ∀ (s : List Char) (b : Bool),
    s = (findFrom stop b s).1 ++ (findFrom stop b s).2 ∧
    Stopped stop b (findFrom stop b s).1 (findFrom stop b s).2 := by
  intro s
  induction s with
  | nil =>
    intro b
    refine ⟨rfl, ⟨by simp [findFrom], ?_, by simp [findFrom], by simp [findFrom]⟩⟩
    intro x w y h
    cases x <;> simp [findFrom] at h
  | cons c cs ih =>
    intro b
    by_cases hc : (stop c || (b && decide (c = ';'))) = true
    · have e : findFrom stop b (c :: cs) = ([], c :: cs) := by rw [findFrom, if_pos hc]
      rw [e]
      refine ⟨rfl, ⟨by simp, ?_, by simp, ?_⟩⟩
      · intro x w y h
        cases x <;> simp at h
      · intro d r h
        cases h
        simp only [Bool.or_eq_true, Bool.and_eq_true, decide_eq_true_eq] at hc
        rcases hc with h | h
        · exact Or.inl h
        · exact Or.inr ⟨h.2, Or.inl ⟨rfl, h.1⟩⟩
    · have e : findFrom stop b (c :: cs) =
          (c :: (findFrom stop (isSpace c) cs).1, (findFrom stop (isSpace c) cs).2) := by
        rw [findFrom, if_neg hc]
      obtain ⟨h1, h2⟩ := ih (isSpace c)
      rw [e]
      simp only [Bool.or_eq_true, Bool.and_eq_true, decide_eq_true_eq, not_or, not_and,
        Bool.not_eq_true] at hc
      refine ⟨by simpa using h1, ⟨?_, ?_, ?_, ?_⟩⟩
      · intro d hd
        rcases List.mem_cons.mp hd with h | h
        · rw [h]; exact hc.1
        · exact h2.noStop d h
      · intro x w y h hw
        cases x with
        | nil =>
          simp only [List.nil_append, List.cons.injEq] at h
          obtain ⟨rfl, h⟩ := h
          exact h2.noLead hw y h
        | cons x0 x =>
          simp only [List.cons_append, List.cons.injEq] at h
          exact h2.noComment x w y h.2 hw
      · intro hb y h
        simp only [List.cons.injEq] at h
        exact hc.2 hb h.1
      · intro d r h
        rcases h2.atEnd d r h with h | ⟨h, h' | ⟨v, w, h', hw⟩⟩
        · exact Or.inl h
        · refine Or.inr ⟨h, Or.inr ⟨[], c, by rw [h'.1]; rfl, h'.2⟩⟩
        · exact Or.inr ⟨h, Or.inr ⟨c :: v, w, by rw [h']; rfl, hw⟩⟩

theorem findFrom_eq (stop : Char → Bool) : ∀ (p q : List Char) (b : Bool),
    Stopped stop b p q → findFrom stop b (p ++ q) = (p, q) := by
  intro p
  induction p with
  | nil =>
    intro q b h
    cases q with
    | nil => rfl
    | cons d r =>
      rw [List.nil_append, findFrom, if_pos]
      rcases h.atEnd d r rfl with h | ⟨h, h' | ⟨v, w, h', -⟩⟩
      · simp [h]
      · simp [h, h'.2]
      · cases v <;> simp at h'
  | cons c p ih =>
    intro q b h
    rw [List.cons_append, findFrom, if_neg]
    · have : Stopped stop (isSpace c) p q := by
        refine ⟨fun d hd => h.noStop d (by simp [hd]), ?_, ?_, ?_⟩
        · intro x w y e hw
          exact h.noComment (c :: x) w y (by rw [e]; rfl) hw
        · intro hc y e
          exact h.noComment [] c y (by rw [e]; rfl) hc
        · intro d r e
          rcases h.atEnd d r e with h' | ⟨h1, h' | ⟨v, w, h', hw⟩⟩
          · exact Or.inl h'
          · cases h'.1
          · refine Or.inr ⟨h1, ?_⟩
            cases v with
            | nil =>
              simp only [List.nil_append, List.cons.injEq] at h'
              exact Or.inl ⟨h'.2, h'.1 ▸ hw⟩
            | cons v0 v =>
              simp only [List.cons_append, List.cons.injEq] at h'
              exact Or.inr ⟨v, w, h'.2, hw⟩
      rw [ih q _ this]
    · have h1 := h.noStop c (by simp)
      simp only [h1, Bool.false_or, Bool.and_eq_true, decide_eq_true_eq, not_and]
      intro hb hc
      exact h.noLead hb p (by rw [hc])

theorem find_stop {stop : Char → Bool} {p r : List Char} {d : Char} (h1 : ∀ c ∈ p, stop c = false)
    (h2 : ¬ HasInlineComment p) (h3 : stop d = true) :
    findCharsOrComment stop (p ++ d :: r) = (p, d :: r) := by
  apply findFrom_eq
  refine ⟨h1, ?_, by simp, ?_⟩
  · intro x w y h hw
    exact h2 ⟨x, w, y, h, hw⟩
  · intro d' r' h
    cases h
    exact Or.inl h3

theorem find_uncommented {s u : List Char} :
    Uncommented s u ↔ (findCharsOrComment (fun _ => false) s).1 = u := by
  constructor
  · rintro ⟨h1, h2⟩
    have key : ∃ q, s = u ++ q ∧ Stopped (fun _ => false) false u q := by
      have nc : ∀ x w y, u = x ++ w :: ';' :: y → isSpace w = true → False :=
        fun x w y h hw => h1 ⟨x, w, y, h, hw⟩
      rcases h2 with h2 | ⟨w, v, rest, e1, hw, e2⟩
      · exact ⟨[], by rw [h2]; simp, ⟨by simp, nc, by simp, by simp⟩⟩
      · refine ⟨';' :: rest, e2, ⟨by simp, nc, by simp, ?_⟩⟩
        intro d r h
        cases h
        exact Or.inr ⟨rfl, Or.inr ⟨v, w, e1, hw⟩⟩
    obtain ⟨q, e, hq⟩ := key
    rw [e, findCharsOrComment, findFrom_eq _ _ _ _ hq]
  · intro h
    obtain ⟨h1, h2⟩ := findFrom_spec (fun _ => false) s false
    rw [findCharsOrComment] at h
    rw [h] at h1 h2
    refine ⟨?_, ?_⟩
    · rintro ⟨x, w, y, e, hw⟩
      exact h2.noComment x w y e hw
    · cases hq : (findFrom (fun _ => false) false s).2 with
      | nil => left; rw [h1, hq, List.append_nil]
      | cons d r =>
        right
        rcases h2.atEnd d r hq with h' | ⟨hd, h' | ⟨v, w, h', hw⟩⟩
        · cases h'
        · cases h'.2
        · exact ⟨w, v, r, h', hw, by rw [h1, hq, hd]⟩

theorem find_result {stop : Char → Bool} {s p r : List Char} {d : Char}
    (h : findCharsOrComment stop s = (p, d :: r)) (hd : stop d = true ∨ d ≠ ';') :
    s = p ++ d :: r ∧ (∀ c ∈ p, stop c = false) ∧ ¬ HasInlineComment p ∧ stop d = true := by
  obtain ⟨h1, h2⟩ := findFrom_spec stop s false
  rw [findCharsOrComment] at h
  rw [h] at h1 h2
  refine ⟨h1, h2.noStop, ?_, ?_⟩
  · rintro ⟨x, w, y, e, hw⟩
    exact h2.noComment x w y e hw
  · rcases h2.atEnd d r rfl with h' | ⟨h', -⟩
    · exact h'
    · rcases hd with hd | hd
      · exact hd
      · exact absurd h' hd

/-! ## Lines -/

/-- What the parser takes a line for. -/
def classify (hasName : Bool) (l : List Char) : Kind :=
  let start := lskip (rstrip l)
  match start with
  | [] => .inert
  | c :: rest =>
    if c = ';' ∨ c = '#' then .inert
    else if hasName = true ∧ l.head?.any isSpace = true then .more start
    else if c = '[' then
      match findCharsOrComment (· = ']') rest with
      | (name, ']' :: _) => .header name
      | _ => .bad
    else
      match findCharsOrComment (fun c => c = '=' || c = ':') start with
      | (before, d :: after) =>
        if d = '=' ∨ d = ':' then
          .entry (rstrip before)
            (rstrip (lskip (findCharsOrComment (fun _ => false) after).1))
        else .bad
      | _ => .bad

/-- The state after a line of the given kind. -/
def PState.apply (st : PState) (k : Kind) : PState :=
  { sect := k.sectAfter st.sect
    prevName := k.nameAfter st.prevName
    lineno := st.lineno + 1
    error := if k = .bad ∧ st.error = 0 then st.lineno + 1 else st.error
    calls := st.calls ++ k.calls st.sect st.prevName }

theorem cstr_eq {s : List Char} (h : '\x00' ∉ s) : cstr s = s := by
  unfold cstr
  rw [List.takeWhile_eq_self_iff]
  intro c hc
  simp only [ne_eq, decide_not, Bool.not_eq_eq_eq_not, Bool.not_true, decide_eq_false_iff_not]
  intro e
  exact h (e ▸ hc)

theorem lineStep_eq (st : PState) {l : List Char} (h0 : '\x00' ∉ l)
    (hb : st.lineno = 0 → bom.isPrefixOf l = false) :
    lineStep st l = st.apply (classify (st.prevName ≠ []) l) := by
  unfold lineStep
  rw [cstr_eq h0]
  have hb' : ¬ (st.lineno + 1 = 1 ∧ bom.isPrefixOf l = true) := by
    rintro ⟨h1, h2⟩
    rw [hb (by omega)] at h2
    cases h2
  dsimp only
  rw [if_neg hb']
  simp only [hb', false_or]
  unfold classify
  cases hs : lskip (rstrip l) with
  | nil => simp [PState.apply, Kind.sectAfter, Kind.nameAfter, Kind.calls]
  | cons c rest =>
    dsimp only
    by_cases h1 : c = ';' ∨ c = '#'
    · rw [if_pos h1, if_pos h1]; simp [PState.apply, Kind.sectAfter, Kind.nameAfter, Kind.calls]
    rw [if_neg h1, if_neg h1]
    by_cases h2 : st.prevName ≠ [] ∧ l.head?.any isSpace = true
    · rw [if_pos h2, if_pos (by simpa using h2)]
      simp [PState.apply, Kind.sectAfter, Kind.nameAfter, Kind.calls]
    rw [if_neg h2, if_neg (show ¬ (decide (st.prevName ≠ []) = true ∧ l.head?.any isSpace = true) by
      simpa using h2)]
    by_cases h3 : c = '['
    · rw [if_pos h3, if_pos h3]
      split
      · rename_i h4
        rw [h4]
        simp [PState.apply, Kind.sectAfter, Kind.nameAfter, Kind.calls, strncpy50, short]
      · rename_i h4
        by_cases he : st.error = 0 <;>
          simp [PState.apply, Kind.sectAfter, Kind.nameAfter, Kind.calls, PState.fail, he]
    · rw [if_neg h3, if_neg h3]
      split
      · rename_i d after h4
        by_cases h5 : d = '=' ∨ d = ':'
        · rw [if_pos h5, h4]
          dsimp only
          rw [if_pos h5]
          simp [PState.apply, Kind.sectAfter, Kind.nameAfter, Kind.calls, strncpy50, short]
        · rw [if_neg h5, h4]
          dsimp only
          rw [if_neg h5]
          by_cases he : st.error = 0 <;>
            simp [PState.apply, Kind.sectAfter, Kind.nameAfter, Kind.calls, PState.fail, he]
      · by_cases he : st.error = 0 <;>
          simp [PState.apply, Kind.sectAfter, Kind.nameAfter, Kind.calls, PState.fail, he]

theorem classify_newline (h : Bool) (l : List Char) : classify h (l ++ ['\n']) = classify h l := by
  have e : rstrip (l ++ ['\n']) = rstrip l := rstrip_append_blank (by
    intro c hc; simp at hc; subst hc; rfl)
  unfold classify
  rw [e]
  cases l with
  | nil => rfl
  | cons c l => rfl

theorem isInert_iff (l : List Char) : IsInert l ↔
    lskip (rstrip l) = [] ∨ ∃ c t, lskip (rstrip l) = c :: t ∧ (c = ';' ∨ c = '#') := by
  constructor
  · rintro (h | ⟨ws, c, t, rfl, hws, hc⟩)
    · exact Or.inl (trim_eq_nil.mpr h)
    · right
      obtain ⟨b, h1, h2, h3⟩ := rstrip_decomp (ws ++ c :: t)
      have hcs : isSpace c = false := by rcases hc with h | h <;> subst h <;> rfl
      obtain ⟨b', e1, e2, -⟩ := rstrip_decomp (c :: t)
      have hne : rstrip (c :: t) ≠ [] := by
        intro h
        rw [h, List.nil_append] at e1
        have := e2 c (by rw [← e1]; simp)
        rw [this] at hcs
        cases hcs
      cases hr : rstrip (c :: t) with
      | nil => exact absurd hr hne
      | cons c' t' =>
        rw [hr] at e1
        simp only [List.cons_append, List.cons.injEq] at e1
        have hT : Trim (ws ++ c :: t) (rstrip (c :: t)) := by
          obtain ⟨b'', f1, f2, f3⟩ := rstrip_decomp (c :: t)
          refine ⟨ws, b'', by rw [List.append_assoc, ← f1], hws, f2, ?_, f3⟩
          rw [hr]
          intro d hd
          simp at hd
          rw [← hd, ← e1.1]
          exact hcs
        refine ⟨c', t', ?_, e1.1 ▸ hc⟩
        rw [← hT.eq, hr]
  · rintro (h | ⟨c, t, h, hc⟩)
    · exact Or.inl (trim_eq_nil.mp h)
    · right
      obtain ⟨a, b, h1, h2, -⟩ := trim_self l
      rw [h] at h1
      exact ⟨a, c, t ++ b, by rw [h1]; simp, h2, hc⟩

theorem isMore_iff (h : Bool) (l : List Char) : IsMore (h = true) l ↔
    ¬ IsInert l ∧ h = true ∧ l.head?.any isSpace = true := by
  unfold IsMore
  cases l with
  | nil => simp
  | cons c l => simp

theorem isHeader_iff (l s : List Char) : IsHeader l s ↔
    ∃ rest r', lskip (rstrip l) = '[' :: rest ∧
      findCharsOrComment (· = ']') rest = (s, ']' :: r') := by
  constructor
  · rintro ⟨rest, hT, h1, h2⟩
    refine ⟨s ++ ']' :: rest, rest, by rw [← hT.eq]; rfl, find_stop ?_ h2 (by simp)⟩
    intro c hc
    simp only [decide_eq_false_iff_not]
    intro e
    exact h1 (e ▸ hc)
  · rintro ⟨rest, r', h1, h2⟩
    obtain ⟨e, h3, h4, -⟩ := find_result h2 (Or.inl (by simp))
    refine ⟨r', ?_, ?_, h4⟩
    · have := trim_self l
      rw [h1, e] at this
      exact this
    · intro hm
      have := h3 _ hm
      simp at this

theorem isEntry_iff (l k v : List Char) : IsEntry l k v ↔
    ∃ c rest before d after, lskip (rstrip l) = c :: rest ∧ c ≠ '[' ∧
      findCharsOrComment (fun c => c = '=' || c = ':') (c :: rest) = (before, d :: after) ∧
      (d = '=' ∨ d = ':') ∧ k = rstrip before ∧
      v = rstrip (lskip (findCharsOrComment (fun _ => false) after).1) := by
  have comm : ∀ s : List Char, lskip (rstrip s) = rstrip (lskip s) := by
    intro s
    obtain ⟨a, h1, h2, h3⟩ := lskip_decomp s
    obtain ⟨b, g1, g2, g3⟩ := rstrip_decomp (lskip s)
    symm
    apply Trim.eq
    refine ⟨a, b, by rw [List.append_assoc, ← g1]; exact h1, h2, g2, ?_, g3⟩
    intro c hc
    apply h3
    rw [g1, List.head?_append, hc]
    rfl
  constructor
  · rintro ⟨t, c0, kRaw, d, vRaw, vBare, hT, hc0, hb, ht, hd, h1, h2, h3, hk, hu, hv⟩
    cases t with
    | nil => cases hc0
    | cons c rest =>
      simp at hc0
      subst hc0
      refine ⟨c, rest, kRaw, d, vRaw, hT.eq.symm, hb, ?_, hd, ?_, ?_⟩
      · rw [ht]
        apply find_stop _ h3 (by rcases hd with h | h <;> simp [h])
        intro c' hc'
        simp only [Bool.or_eq_false_iff, decide_eq_false_iff_not]
        exact ⟨fun e => h1 (e ▸ hc'), fun e => h2 (e ▸ hc')⟩
      · apply Trim.rstrip _ hk
        intro c' hc'
        obtain ⟨-, -, -, -, -, h5, -⟩ := hT
        apply h5
        rw [ht, List.head?_append, hc']
        rfl
      · rw [find_uncommented.mp hu, ← comm]
        exact hv.eq
  · rintro ⟨c, rest, before, d, after, h1, h2, h3, hd, hk, hv⟩
    obtain ⟨e, h4, h5, -⟩ := find_result h3 (Or.inl (by rcases hd with h | h <;> simp [h]))
    have hT : Trim l (c :: rest) := by have := trim_self l; rwa [h1] at this
    refine ⟨c :: rest, c, before, d, after, _, hT, rfl, h2, e, hd, ?_, ?_, h5, ?_,
      find_uncommented.mpr rfl, ?_⟩
    · intro hm; have := h4 _ hm; simp at this
    · intro hm; have := h4 _ hm; simp at this
    · rw [Trim.iff, hk, lskip_of_head]
      intro c' hc'
      obtain ⟨b, g1, -, -⟩ := rstrip_decomp before
      obtain ⟨-, -, -, -, -, h6, -⟩ := hT
      apply h6
      rw [e, g1, List.append_assoc, List.head?_append, hc']
      rfl
    · rw [Trim.iff, hv, comm]

/-- The parser's classification of a line is the specified one. -/
theorem is_iff (h : Bool) (l : List Char) (k : Kind) : Is (h = true) l k ↔ classify h l = k := by
  have main : Is (h = true) l (classify h l) := by
    unfold classify
    dsimp only
    cases hs : lskip (rstrip l) with
    | nil => exact (isInert_iff l).mpr (Or.inl hs)
    | cons c rest =>
      dsimp only
      by_cases h1 : c = ';' ∨ c = '#'
      · rw [if_pos h1]
        exact (isInert_iff l).mpr (Or.inr ⟨c, rest, hs, h1⟩)
      rw [if_neg h1]
      have hni : ¬ IsInert l := by
        rw [isInert_iff, hs]
        rintro (h' | ⟨c', t, h', hc⟩)
        · cases h'
        · cases h'; exact h1 hc
      by_cases h2 : h = true ∧ l.head?.any isSpace = true
      · rw [if_pos h2]
        exact ⟨(isMore_iff h l).mpr ⟨hni, h2⟩, by rw [← hs]; exact trim_self l⟩
      rw [if_neg h2]
      have hnm : ¬ IsMore (h = true) l := by
        rw [isMore_iff]
        exact fun h' => h2 h'.2
      by_cases h3 : c = '['
      · rw [if_pos h3]
        subst h3
        split <;> rename_i h4
        · exact ⟨hni, hnm, (isHeader_iff _ _).mpr ⟨rest, _, hs, h4⟩⟩
        · refine ⟨hni, hnm, ?_, ?_⟩
          · intro s hh
            obtain ⟨r1, r2, e1, e2⟩ := (isHeader_iff _ _).mp hh
            rw [hs] at e1
            cases e1
            exact h4 _ _ e2
          · intro k' v' hh
            obtain ⟨c', r1, -, -, -, e1, e2, -⟩ := (isEntry_iff _ _ _).mp hh
            rw [hs] at e1
            cases e1
            exact e2 rfl
      · rw [if_neg h3]
        have hnh : ∀ s, ¬ IsHeader l s := by
          intro s hh
          obtain ⟨r1, r2, e1, -⟩ := (isHeader_iff _ _).mp hh
          rw [hs] at e1
          cases e1
          exact h3 rfl
        split
        · rename_i before h4 after h5
          by_cases h6 : h4 = '=' ∨ h4 = ':'
          · rw [if_pos h6]
            exact ⟨hni, hnm, (isEntry_iff _ _ _).mpr
              ⟨c, rest, before, h4, after, hs, h3, h5, h6, rfl, rfl⟩⟩
          · rw [if_neg h6]
            refine ⟨hni, hnm, hnh, ?_⟩
            intro k' v' hh
            obtain ⟨c', r1, b', d', a', e1, -, e2, e3, -⟩ := (isEntry_iff _ _ _).mp hh
            rw [hs] at e1
            cases e1
            rw [h5] at e2
            cases e2
            exact h6 e3
        · rename_i h4
          refine ⟨hni, hnm, hnh, ?_⟩
          intro k' v' hh
          obtain ⟨c', r1, b', d', a', e1, -, e2, e3, -⟩ := (isEntry_iff _ _ _).mp hh
          rw [hs] at e1
          cases e1
          exact h4 _ _ _ e2
  constructor
  · intro hk
    generalize classify h l = k' at main
    have hdet : ∀ {s s'}, IsHeader l s → IsHeader l s' → s = s' := by
      intro s s' h1 h2
      obtain ⟨_, _, e1, e2⟩ := (isHeader_iff _ _).mp h1
      obtain ⟨_, _, e3, e4⟩ := (isHeader_iff _ _).mp h2
      rw [e1] at e3
      cases e3
      rw [e2] at e4
      cases e4
      rfl
    have edet : ∀ {a b a' b'}, IsEntry l a b → IsEntry l a' b' → a = a' ∧ b = b' := by
      intro a b a' b' h1 h2
      obtain ⟨_, _, _, _, _, e1, _, e2, _, e3, e4⟩ := (isEntry_iff _ _ _).mp h1
      obtain ⟨_, _, _, _, _, f1, _, f2, _, f3, f4⟩ := (isEntry_iff _ _ _).mp h2
      rw [e1] at f1
      cases f1
      rw [e2] at f2
      cases f2
      exact ⟨e3.trans f3.symm, e4.trans f4.symm⟩
    have excl : ∀ {s a b}, IsHeader l s → IsEntry l a b → False := by
      intro s a b h1 h2
      obtain ⟨_, _, e1, _⟩ := (isHeader_iff _ _).mp h1
      obtain ⟨_, _, _, _, _, e3, e4, _⟩ := (isEntry_iff _ _ _).mp h2
      rw [e1] at e3
      cases e3
      exact e4 rfl
    cases k <;> cases k' <;> simp only [Is] at hk main
    · rfl
    · exact absurd hk main.1.1
    · exact absurd hk main.1
    · exact absurd hk main.1
    · exact absurd hk main.1
    · exact absurd main hk.1.1
    · rw [main.2.eq, hk.2.eq]
    · exact absurd hk.1 main.2.1
    · exact absurd hk.1 main.2.1
    · exact absurd hk.1 main.2.1
    · exact absurd main hk.1
    · exact absurd main.1 hk.2.1
    · rw [hdet main.2.2 hk.2.2]
    · exact (excl hk.2.2 main.2.2).elim
    · exact absurd hk.2.2 (main.2.2.1 _)
    · exact absurd main hk.1
    · exact absurd main.1 hk.2.1
    · exact (excl main.2.2 hk.2.2).elim
    · obtain ⟨e1, e2⟩ := edet main.2.2 hk.2.2
      rw [e1, e2]
    · exact absurd hk.2.2 (main.2.2.2 _ _)
    · exact absurd main hk.1
    · exact absurd main.1 hk.2.1
    · exact absurd main.2.2 (hk.2.2.1 _)
    · exact absurd main.2.2 (hk.2.2.2 _ _)
    · rfl
  · intro hk
    rw [← hk]
    exact main

/-! ## Files -/

theorem fgetsAll_line {l : List Char} (hl : '\n' ∉ l) (rest : List Char) :
    ∀ (room : Nat) (cur : List Char), l.length < room →
    fgetsAll room cur (l ++ '\n' :: rest) = (cur ++ l ++ ['\n']) :: fgetsAll 199 [] rest := by
  induction l with
  | nil => intro room cur _; simp [fgetsAll]
  | cons c l ih =>
    intro room cur h
    simp only [List.length_cons] at h
    have hc : c ≠ '\n' := fun e => hl (by simp [e])
    rw [List.cons_append, fgetsAll, if_neg (by rintro (h' | h'); exact hc h'; omega),
      ih (fun h' => hl (by simp [h'])) _ _ (by omega)]
    simp

theorem fgetsAll_file : ∀ (lines : List (List Char)), (∀ l ∈ lines, PlainLine l) →
    fgetsAll 199 [] (fileOf lines) = lines.map (· ++ ['\n']) := by
  intro lines
  induction lines with
  | nil => intro _; simp [fileOf, fgetsAll]
  | cons l ls ih =>
    intro h
    have hl := h l (by simp)
    have e : fileOf (l :: ls) = l ++ '\n' :: fileOf ls := by simp [fileOf]
    rw [e, fgetsAll_line hl.1 _ _ _ (by have := hl.2.2; omega),
      ih (fun l' h' => h l' (by simp [h']))]
    simp

/-- Parsing lines from any state. -/
theorem foldl_lines : ∀ (lines : List (List Char)) (ks : List Kind) (st : PState),
    (∀ l ∈ lines, '\x00' ∉ l) →
    (st.lineno = 0 → ∀ l, lines.head? = some l → bom.isPrefixOf l = false) →
    Kinds st.sect st.prevName lines ks →
    let st' := (lines.map (· ++ ['\n'])).foldl lineStep st
    st'.calls = st.calls ++ allCalls st.sect st.prevName ks ∧
    st'.lineno = st.lineno + lines.length ∧
    st'.error = (if st.error = 0 ∧ firstBad ks ≠ 0 then st.lineno + firstBad ks else st.error) := by
  intro lines
  induction lines with
  | nil =>
    intro ks st _ _ hk
    cases hk
    simp [allCalls, firstBad]
  | cons l ls ih =>
    intro ks st h0 hb hk
    cases hk with
    | @cons _ _ _ _ k ks hk1 hk2 =>
      have h0l : '\x00' ∉ l ++ ['\n'] := by
        have := h0 l (by simp)
        simp [this]
      have hbl : st.lineno = 0 → bom.isPrefixOf (l ++ ['\n']) = false := by
        intro hz
        have := hb hz l rfl
        rcases l with _ | ⟨a, _ | ⟨b, _ | ⟨c, l⟩⟩⟩
        · rfl
        · simp [bom, List.isPrefixOf]
        · simp [bom, List.isPrefixOf]
        · simpa [bom, List.isPrefixOf] using this
      have hcl : classify (st.prevName ≠ []) l = k := by
        rw [← is_iff]
        simpa using hk1
      have hstep : lineStep st (l ++ ['\n']) = st.apply k := by
        rw [lineStep_eq st h0l hbl, classify_newline, hcl]
      simp only [List.map_cons, List.foldl_cons]
      rw [hstep]
      have := ih ks (st.apply k) (fun l' h' => h0 l' (by simp [h']))
        (by intro hz; simp [PState.apply] at hz) hk2
      obtain ⟨e1, e2, e3⟩ := this
      refine ⟨?_, ?_, ?_⟩
      · rw [e1]; simp [PState.apply, allCalls]
      · rw [e2]; simp [PState.apply]; omega
      · rw [e3]
        have fb : firstBad (k :: ks) = if k = .bad then 1 else if firstBad ks = 0 then 0 else
            firstBad ks + 1 := by
          unfold firstBad
          rw [List.findIdx?_cons]
          by_cases hkb : k = .bad
          · simp [hkb]
          · simp only [hkb, decide_false, if_false, Bool.false_eq_true]
            cases ks.findIdx? (· = .bad) <;> simp
        rw [fb]
        simp only [PState.apply]
        by_cases hkb : k = .bad <;> by_cases he : st.error = 0 <;> by_cases hf : firstBad ks = 0 <;>
          simp [hkb, he, hf]
        omega

theorem kinds_total : ∀ (lines : List (List Char)) (sect name : List Char),
    ∃ ks, Kinds sect name lines ks := by
  intro lines
  induction lines with
  | nil => intro _ _; exact ⟨[], .nil⟩
  | cons l ls ih =>
    intro sect name
    obtain ⟨ks, hks⟩ := ih ((classify (name ≠ []) l).sectAfter sect)
      ((classify (name ≠ []) l).nameAfter name)
    refine ⟨_, .cons ?_ hks⟩
    have := (is_iff (name ≠ []) l _).mpr rfl
    simpa using this

theorem kinds_det : ∀ {sect name : List Char} {lines : List (List Char)} {ks ks' : List Kind},
    Kinds sect name lines ks → Kinds sect name lines ks' → ks = ks' := by
  intro sect name lines ks ks' h
  induction h generalizing ks' with
  | nil => intro h'; cases h'; rfl
  | @cons sect name l ls k ks h1 h2 ih =>
    intro h'
    cases h' with
    | @cons _ _ _ _ k' ks' h1' h2' =>
      have : k = k' := by
        have a := (is_iff (name ≠ []) l k).mp (by simpa using h1)
        have b := (is_iff (name ≠ []) l k').mp (by simpa using h1')
        rw [← a, ← b]
      subst this
      rw [ih h2']

theorem fgetsAll_full {l : List Char} (hl : '\n' ∉ l) (rest : List Char) :
    ∀ (cur : List Char), l ≠ [] →
    fgetsAll l.length cur (l ++ rest) = (cur ++ l) :: fgetsAll 199 [] rest := by
  induction l with
  | nil => intro _ h; exact absurd rfl h
  | cons c l ih =>
    intro cur _
    have hc : c ≠ '\n' := fun e => hl (by simp [e])
    cases l with
    | nil => simp [fgetsAll]
    | cons d l =>
      rw [List.cons_append, fgetsAll, if_neg (by
        rintro (h' | h')
        · exact hc h'
        · simp at h')]
      have := ih (fun h' => hl (by simp only [List.mem_cons]; exact Or.inr (by simpa using h')))
        (cur ++ [c]) (by simp)
      simp only [List.length_cons, Nat.add_sub_cancel] at this ⊢
      rw [this]
      simp

/-- The buffers for one line of at most 199 characters and its newline. -/
def bufsOf (l : List Char) : List (List Char) :=
  if l.length ≤ 198 then [l ++ ['\n']] else [l, ['\n']]

/-- A line the parser reads whole: no newline, no NUL, at most 199 characters. -/
def Readable (l : List Char) : Prop := '\n' ∉ l ∧ '\x00' ∉ l ∧ l.length ≤ 199

theorem PlainLine.readable {l : List Char} (h : PlainLine l) : Readable l :=
  ⟨h.1, h.2.1, by have := h.2.2; omega⟩

theorem fgetsAll_readable : ∀ (lines : List (List Char)), (∀ l ∈ lines, Readable l) →
    fgetsAll 199 [] (fileOf lines) = lines.flatMap bufsOf := by
  intro lines
  induction lines with
  | nil => intro _; simp [fileOf, fgetsAll]
  | cons l ls ih =>
    intro h
    have hl := h l (by simp)
    have e : fileOf (l :: ls) = l ++ '\n' :: fileOf ls := by simp [fileOf]
    have ihl := ih (fun l' h' => h l' (by simp [h']))
    rw [e, List.flatMap_cons]
    by_cases hlen : l.length ≤ 198
    · rw [fgetsAll_line hl.1 _ _ _ (by omega), ihl, bufsOf, if_pos hlen]
      simp
    · have h199 : l.length = 199 := by have := hl.2.2; omega
      have hne : l ≠ [] := by intro h'; rw [h'] at h199; simp at h199
      have := fgetsAll_full hl.1 ('\n' :: fileOf ls) [] hne
      rw [h199] at this
      rw [this, bufsOf, if_neg hlen, List.nil_append]
      have h2 := fgetsAll_line (l := []) (by simp) (fileOf ls) 199 [] (by simp)
      rw [List.nil_append] at h2
      rw [h2, ihl]
      simp

theorem lineStep_blank (st : PState) : lineStep st ['\n'] = { st with lineno := st.lineno + 1 } := by
  rw [lineStep_eq st (by decide) (by intro _; rfl)]
  have : classify (st.prevName ≠ []) ['\n'] = .inert := rfl
  rw [this]
  simp [PState.apply, Kind.sectAfter, Kind.nameAfter, Kind.calls]

theorem bom_newline {l : List Char} (h : bom.isPrefixOf l = false) :
    bom.isPrefixOf (l ++ ['\n']) = false := by
  rcases l with _ | ⟨a, _ | ⟨b, _ | ⟨c, l⟩⟩⟩
  · rfl
  · simp [bom, List.isPrefixOf]
  · simp [bom, List.isPrefixOf]
  · simpa [bom, List.isPrefixOf] using h

/-- Parsing readable lines from any state. -/
theorem foldl_calls : ∀ (lines : List (List Char)) (ks : List Kind) (st : PState),
    (∀ l ∈ lines, '\x00' ∉ l) →
    (st.lineno = 0 → ∀ l, lines.head? = some l → bom.isPrefixOf l = false) →
    Kinds st.sect st.prevName lines ks →
    ((lines.flatMap bufsOf).foldl lineStep st).calls =
      st.calls ++ allCalls st.sect st.prevName ks := by
  intro lines
  induction lines with
  | nil =>
    intro ks st _ _ hk
    cases hk
    simp [allCalls]
  | cons l ls ih =>
    intro ks st h0 hb hk
    cases hk with
    | @cons _ _ _ _ k ks hk1 hk2 =>
      have h0l : '\x00' ∉ l := h0 l (by simp)
      have hcl : classify (st.prevName ≠ []) l = k := by
        rw [← is_iff]
        simpa using hk1
      rw [List.flatMap_cons, List.foldl_append]
      have hstep : ∃ n, (bufsOf l).foldl lineStep st = { st.apply k with lineno := n + 1 } := by
        unfold bufsOf
        split
        · refine ⟨st.lineno, ?_⟩
          simp only [List.foldl_cons, List.foldl_nil]
          rw [lineStep_eq st (by simp [h0l]) (fun hz => bom_newline (hb hz l rfl)), classify_newline,
            hcl]
          rfl
        · refine ⟨st.lineno + 1, ?_⟩
          simp only [List.foldl_cons, List.foldl_nil]
          rw [lineStep_eq st h0l (fun hz => hb hz l rfl), hcl, lineStep_blank]
          rfl
      obtain ⟨n, hn⟩ := hstep
      rw [hn]
      have := ih ks { st.apply k with lineno := n + 1 } (fun l' h' => h0 l' (by simp [h']))
        (by intro hz; simp at hz) hk2
      rw [this]
      simp [PState.apply, allCalls]

theorem parseFile_calls {lines : List (List Char)} {ks : List Kind}
    (hl : ∀ l ∈ lines, Readable l) (hb : ∀ l, lines.head? = some l → bom.isPrefixOf l = false)
    (hk : Kinds [] [] lines ks) : (parseFile (fileOf lines)).calls = allCalls [] [] ks := by
  unfold parseFile parseBuffers
  rw [fgetsAll_readable lines hl, foldl_calls lines ks .init (fun l h => (hl l h).2.1)
    (fun _ => hb) hk]
  rfl

/-- A last line without its newline is read like one with it. -/
theorem parseFile_unterminated {lines : List (List Char)} {last : List Char}
    (hl : ∀ l ∈ lines, PlainLine l) (hlast : PlainLine last) (hne : last ≠ []) (hb : lines ≠ [] ∨
      bom.isPrefixOf last = false) :
    parseFile (fileOf lines ++ last) = parseFile (fileOf (lines ++ [last])) := by
  have e1 : fgetsAll 199 [] (fileOf lines ++ last) = lines.map (· ++ ['\n']) ++ [last] := by
    clear hb
    induction lines with
    | nil =>
      have : ∀ (s : List Char) (room : Nat) (cur : List Char), '\n' ∉ s → s.length < room →
          cur ++ s ≠ [] → fgetsAll room cur s = [cur ++ s] := by
        intro s
        induction s with
        | nil => intro room cur _ _ h; simp at h; simp [fgetsAll, h]
        | cons c s ih =>
          intro room cur h1 h2 _
          simp only [List.length_cons] at h2
          have hc : c ≠ '\n' := fun e => h1 (by simp [e])
          rw [fgetsAll, if_neg (by rintro (h' | h'); exact hc h'; omega),
            ih _ _ (fun h' => h1 (by simp [h'])) (by omega) (by simp)]
          simp
      simpa [fileOf] using this last 199 [] hlast.1 (by have := hlast.2.2; omega) (by simpa using hne)
    | cons l ls ih =>
      have hll := hl l (by simp)
      have e : fileOf (l :: ls) ++ last = l ++ '\n' :: (fileOf ls ++ last) := by simp [fileOf]
      rw [e, fgetsAll_line hll.1 _ _ _ (by have := hll.2.2; omega),
        ih (fun l' h' => hl l' (by simp [h']))]
      simp
  have e2 := fgetsAll_file (lines ++ [last]) (by
    intro l h
    rcases List.mem_append.mp h with h | h
    · exact hl l h
    · simp at h; subst h; exact hlast)
  unfold parseFile parseBuffers
  rw [e1, e2, List.map_append, List.foldl_append, List.foldl_append]
  simp only [List.map_cons, List.map_nil, List.foldl_cons, List.foldl_nil]
  have hn : ∀ (ls : List (List Char)) (st : PState), (ls.foldl lineStep st).lineno =
      st.lineno + ls.length := by
    intro ls
    induction ls with
    | nil => intro st; rfl
    | cons l ls ih =>
      intro st
      rw [List.foldl_cons, ih]
      have : (lineStep st l).lineno = st.lineno + 1 := by
        unfold lineStep PState.fail
        dsimp only
        repeat' split
        all_goals rfl
      rw [this, List.length_cons]
      omega
  generalize hst : (lines.map (· ++ ['\n'])).foldl lineStep .init = st
  have hz : st.lineno = 0 → bom.isPrefixOf last = false := by
    intro hz
    rw [← hst, hn] at hz
    rcases hb with h | h
    · exfalso
      apply h
      have : lines.length = 0 := by simpa [PState.init] using hz
      exact List.length_eq_zero_iff.mp this
    · exact h
  rw [lineStep_eq st hlast.2.1 hz, lineStep_eq st (by simp [hlast.2.1])
    (fun h => bom_newline (hz h)), classify_newline]

/-! ## The reader -/

theorem toLower_eq_eq {c : Char} (h : c.toLower = '=') : c = '=' := by
  unfold Char.toLower at h
  split at h
  · rename_i h1
    exfalso
    have hv := congrArg (fun c => c.val.toNat) h
    obtain ⟨h2, h3⟩ := h1
    rw [ge_iff_le, UInt32.le_iff_toNat_le] at h2
    rw [UInt32.le_iff_toNat_le] at h3
    simp at hv h2 h3
    omega
  · exact h

theorem eq_mem_lower {k : List Char} (h : '=' ∉ k) : '=' ∉ lower k := by
  unfold lower
  intro hm
  obtain ⟨c, hc, e⟩ := List.mem_map.mp hm
  exact h (toLower_eq_eq e ▸ hc)

theorem split_last_eq : ∀ {a a' b b' : List Char}, '=' ∉ b → '=' ∉ b' →
    a ++ '=' :: b = a' ++ '=' :: b' → a = a' ∧ b = b' := by
  intro a
  induction a with
  | nil =>
    intro a' b b' hb hb' h
    cases a' with
    | nil => simp at h; exact ⟨rfl, h⟩
    | cons c a' =>
      simp only [List.nil_append, List.cons_append, List.cons.injEq] at h
      exact absurd (by rw [h.2]; simp) hb
  | cons c a ih =>
    intro a' b b' hb hb' h
    cases a' with
    | nil =>
      simp only [List.nil_append, List.cons_append, List.cons.injEq] at h
      exact absurd (by rw [← h.2]; simp) hb'
    | cons c' a' =>
      simp only [List.cons_append, List.cons.injEq] at h
      obtain ⟨h1, h2⟩ := ih hb hb' h.2
      exact ⟨by rw [h.1, h1], h2⟩

theorem makeKey_eq (s k : List Char) : makeKey s k = lower s ++ '=' :: lower k := by
  have : ('=' : Char).toLower = '=' := by decide
  simp [makeKey, lower, this]

theorem makeKey_inj {s s' k k' : List Char} (hk : '=' ∉ k) (hk' : '=' ∉ k') :
    makeKey s k = makeKey s' k' ↔ lower s = lower s' ∧ lower k = lower k' := by
  rw [makeKey_eq, makeKey_eq]
  constructor
  · exact split_last_eq (eq_mem_lower hk) (eq_mem_lower hk')
  · rintro ⟨h1, h2⟩; rw [h1, h2]

/-- The key of a call. -/
def Call.key (c : Call) : List Char := makeKey c.sect c.name

theorem handle_values_of_not_mem : ∀ (cs : List Call) (r : Reader) (key : List Char),
    (∀ c ∈ cs, c.key ≠ key) → (cs.foldl Reader.handle r).values key = r.values key := by
  intro cs
  induction cs with
  | nil => intro r key _; rfl
  | cons c cs ih =>
    intro r key h
    rw [List.foldl_cons, ih _ _ (fun c' hc' => h c' (by simp [hc']))]
    have := h c (by simp)
    simp only [Reader.handle]
    rw [if_neg (fun e => this e.symm)]

theorem handle_values : ∀ (cs : List Call) (r : Reader), (∀ c ∈ cs, r.values c.key = none) →
    cs.Pairwise (fun c c' => c.key ≠ c'.key) → ∀ c ∈ cs,
    (cs.foldl Reader.handle r).values c.key = some c.value := by
  intro cs
  induction cs with
  | nil => intro r _ _ c hc; cases hc
  | cons d cs ih =>
    intro r hr hp c hc
    rw [List.pairwise_cons] at hp
    rw [List.foldl_cons]
    rcases List.mem_cons.mp hc with h | h
    · subst h
      rw [handle_values_of_not_mem cs _ _ (fun c' hc' => (hp.1 c' hc').symm)]
      have := hr c (by simp)
      simp [Reader.handle, Call.key] at this ⊢
      rw [this]
      simp
    · apply ih _ _ hp.2 c h
      intro c' hc'
      have h1 := hr c' (by simp [hc'])
      have h2 := hp.1 c' hc'
      simp only [Reader.handle]
      rw [if_neg (fun e => h2 e.symm), h1]

/-- The sections after some calls: the old ones and the new ones. -/
theorem handle_sections : ∀ (cs : List Call) (r : Reader) (s : List Char),
    s ∈ (cs.foldl Reader.handle r).sections ↔ s ∈ r.sections ∨ ∃ c ∈ cs, c.sect = s := by
  intro cs
  induction cs with
  | nil => intro r s; simp
  | cons c cs ih =>
    intro r s
    rw [List.foldl_cons, ih]
    have : s ∈ (r.handle c).sections ↔ s ∈ r.sections ∨ c.sect = s := by
      simp only [Reader.handle]
      split
      · constructor
        · exact Or.inl
        · rintro (h | h)
          · exact h
          · rw [← h]; assumption
      · simp [eq_comm]
    rw [this]
    simp [or_assoc]

theorem handle_sections_nodup : ∀ (cs : List Call) (r : Reader), r.sections.Nodup →
    (cs.foldl Reader.handle r).sections.Nodup := by
  intro cs
  induction cs with
  | nil => intro r h; exact h
  | cons c cs ih =>
    intro r h
    rw [List.foldl_cons]
    apply ih
    simp only [Reader.handle]
    split
    · exact h
    · rename_i hn
      rw [List.nodup_append]
      refine ⟨h, by simp, ?_⟩
      intro a ha b hb
      simp at hb
      subst hb
      intro e
      exact hn (e ▸ ha)

end Ini
end QED
