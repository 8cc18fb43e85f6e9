import Verif.Lemmas.Ini

set_option autoImplicit false

/-! # Helper lemmas for configurations written as INI files -/

namespace QED
namespace Ini

theorem not_inert_of_head {l : List Char} {c : Char} (h : l.head? = some c)
    (hs : isSpace c = false) (h1 : c ≠ ';') (h2 : c ≠ '#') : ¬ IsInert l := by
  cases l with
  | nil => simp at h
  | cons d l =>
    simp at h
    subst h
    rintro (hb | ⟨ws, c, t, e, hw, hc⟩)
    · have := hb d (by simp)
      rw [hs] at this; cases this
    · cases ws with
      | nil =>
        simp at e
        rw [← e.1] at hc
        rcases hc with h | h
        · exact h1 h
        · exact h2 h
      | cons w ws =>
        simp at e
        have := hw w (by simp)
        rw [← e.1, hs] at this; cases this

theorem not_more_of_head {l : List Char} {c : Char} (h : l.head? = some c)
    (hs : isSpace c = false) (P : Prop) : ¬ IsMore P l := by
  rintro ⟨-, -, d, t, e, hd⟩
  rw [e] at h
  simp at h
  subst h
  rw [hs] at hd; cases hd

theorem trim_trimmed {s : List Char} (h : Trimmed s) : Trim s s :=
  ⟨[], [], by simp, blank_nil, blank_nil, h.1, h.2⟩

theorem header_is (P : Prop) {s : List Char} (hs : GoodSection s) :
    Is P ('[' :: s ++ [']']) (.header s) := by
  refine ⟨not_inert_of_head rfl rfl (by decide) (by decide), not_more_of_head rfl rfl _, [], ?_,
    hs.bracket, hs.comment⟩
  apply trim_trimmed
  refine ⟨?_, ?_⟩
  · intro c hc; simp at hc; subst hc; rfl
  · intro c hc
    have e : ('[' :: s ++ [']']).getLast? = some ']' := by rw [List.getLast?_append]; rfl
    rw [e] at hc
    cases hc; rfl

theorem hasInline_append_left {a b : List Char} (h : HasInlineComment a) :
    HasInlineComment (a ++ b) := by
  obtain ⟨x, w, y, e, hw⟩ := h
  exact ⟨x, w, y ++ b, by rw [e]; simp, hw⟩

theorem not_hasInline_nil : ¬ HasInlineComment [] := by
  rintro ⟨x, w, y, e, -⟩
  simp at e

theorem hasInline_snoc {k : List Char} (h : ¬ HasInlineComment k) (c : Char) (hc : c ≠ ';') :
    ¬ HasInlineComment (k ++ [c]) := by
  rintro ⟨x, w, y, e, hw⟩
  rcases List.eq_nil_or_concat y with h' | ⟨y', d, h'⟩
  · subst h'
    have : k ++ [c] = (x ++ [w]) ++ [';'] := by rw [e]; simp
    have := List.append_inj_right' this rfl
    simp at this
    exact hc this
  · subst h'
    have : k ++ [c] = (x ++ w :: ';' :: y') ++ [d] := by rw [e]; simp
    have := List.append_inj_left' this rfl
    exact h ⟨x, w, y', this, hw⟩

theorem entry_is (P : Prop) {k v : List Char} (hk : GoodName k) (hv : GoodValue v) :
    Is P (k ++ ' ' :: '=' :: ' ' :: v) (.entry k v) := by
  obtain ⟨c, hc, h1, h2, h3⟩ := hk.start
  have hs := hk.trimmed.1 c hc
  have hh : ∀ t, (k ++ t).head? = some c := by
    intro t
    cases k with
    | nil => simp at hc
    | cons d k => simpa using hc
  refine ⟨not_inert_of_head (hh _) hs h1 h2, not_more_of_head (hh _) hs _, ?_⟩
  have hkr : ¬ HasInlineComment (k ++ [' ']) := hasInline_snoc hk.comment _ (by decide)
  have hkt : Trim (k ++ [' ']) k :=
    ⟨[], [' '], by simp, blank_nil, by intro c hc; simp at hc; subst hc; rfl, hk.trimmed⟩
  by_cases hv0 : v = []
  · subst hv0
    refine ⟨k ++ [' ', '='], c, k ++ [' '], '=', [], [], ?_, hh _, h3, by simp, Or.inl rfl,
      ?_, ?_, hkr, hkt, ⟨not_hasInline_nil, Or.inl rfl⟩, ?_⟩
    · refine ⟨[], [' '], by simp, blank_nil, by intro c hc; simp at hc; subst hc; rfl, ?_, ?_⟩
      · intro d hd; rw [hh] at hd; cases hd; exact hs
      · intro d hd; simp [List.getLast?_append] at hd; subst hd; rfl
    · simpa using hk.eq
    · simpa using hk.colon
    · exact trim_trimmed hv.trimmed
  · refine ⟨k ++ ' ' :: '=' :: ' ' :: v, c, k ++ [' '], '=', ' ' :: v, ' ' :: v, ?_, hh _, h3,
      by simp, Or.inl rfl, ?_, ?_, hkr, hkt, ⟨hv.comment, Or.inl rfl⟩, ?_⟩
    · apply trim_trimmed
      refine ⟨?_, ?_⟩
      · intro d hd; rw [hh] at hd; cases hd; exact hs
      · intro d hd
        apply hv.trimmed.2
        rw [List.getLast?_append] at hd
        cases v with
        | nil => exact absurd rfl hv0
        | cons a v => simpa [List.getLast?_cons] using hd
    · simpa using hk.eq
    · simpa using hk.colon
    · exact ⟨[' '], [], by simp, by intro c hc; simp at hc; subst hc; rfl, blank_nil, hv.trimmed⟩

/-- What the lines of a configuration mean. -/
def Config.kinds (c : Config) : List Kind :=
  c.flatMap fun s => .header s.1 :: s.2.map fun e => .entry e.1 e.2

theorem entries_kinds (sect : List Char) : ∀ (es : List (List Char × List Char)) (name : List Char)
    (ls : List (List Char)) (ks : List Kind), (∀ e ∈ es, GoodName e.1 ∧ GoodValue e.2) →
    (∀ name', Kinds sect name' ls ks) →
    Kinds sect name ((es.map fun e => e.1 ++ ' ' :: '=' :: ' ' :: e.2) ++ ls)
      ((es.map fun e => .entry e.1 e.2) ++ ks) := by
  intro es
  induction es with
  | nil => intro name ls ks _ h; exact h name
  | cons e es ih =>
    intro name ls ks he h
    have h1 := he e (by simp)
    exact .cons (entry_is _ h1.1 h1.2) (ih _ ls ks (fun e' h' => he e' (by simp [h'])) h)

theorem config_kinds : ∀ (c : Config), (∀ s ∈ c, GoodSection s.1) →
    (∀ e ∈ c.entries, GoodName e.2.1) → (∀ e ∈ c.entries, GoodValue e.2.2) →
    ∀ sect name, Kinds sect name c.lines c.kinds := by
  intro c
  induction c with
  | nil => intro _ _ _ _ _; exact .nil
  | cons s c ih =>
    intro h1 h2 h3 sect name
    have e1 : Config.lines (s :: c) = ('[' :: s.1 ++ [']']) ::
        ((s.2.map fun e => e.1 ++ ' ' :: '=' :: ' ' :: e.2) ++ Config.lines c) := by
      simp [Config.lines]
    have e2 : Config.kinds (s :: c) = .header s.1 ::
        ((s.2.map fun e => .entry e.1 e.2) ++ Config.kinds c) := by
      simp [Config.kinds]
    have e3 : Config.entries (s :: c) = (s.2.map fun e => (s.1, e.1, e.2)) ++ Config.entries c := by
      simp [Config.entries]
    rw [e1, e2]
    rw [e3] at h2 h3
    refine .cons (header_is _ (h1 s (by simp))) ?_
    apply entries_kinds
    · intro e he
      have hm : (s.1, e.1, e.2) ∈ (s.2.map fun e => (s.1, e.1, e.2)) ++ Config.entries c := by
        apply List.mem_append_left
        exact List.mem_map.mpr ⟨e, he, rfl⟩
      exact ⟨h2 _ hm, h3 _ hm⟩
    · intro name'
      have := ih (fun s' h' => h1 s' (by simp [h'])) (fun e he => h2 e (by simp [he]))
        (fun e he => h3 e (by simp [he]))
      exact this _ _

theorem config_calls : ∀ (c : Config), (∀ s ∈ c, s.1.length ≤ 49) → ∀ sect name,
    allCalls sect name c.kinds = c.entries.map fun e => ⟨e.1, e.2.1, e.2.2⟩ := by
  intro c
  induction c with
  | nil => intro _ _ _; rfl
  | cons s c ih =>
    intro h sect name
    have e2 : Config.kinds (s :: c) = .header s.1 ::
        ((s.2.map fun e => .entry e.1 e.2) ++ Config.kinds c) := by
      simp [Config.kinds]
    have e3 : Config.entries (s :: c) = (s.2.map fun e => (s.1, e.1, e.2)) ++ Config.entries c := by
      simp [Config.entries]
    have hs : short s.1 = s.1 := List.take_of_length_le (h s (by simp))
    have key : ∀ (es : List (List Char × List Char)) (name : List Char),
        allCalls s.1 name ((es.map fun e => .entry e.1 e.2) ++ Config.kinds c) =
          (es.map fun e => (⟨s.1, e.1, e.2⟩ : Call)) ++
            (Config.entries c).map fun e => ⟨e.1, e.2.1, e.2.2⟩ := by
      intro es
      induction es with
      | nil => intro name; exact ih (fun s' h' => h s' (by simp [h'])) _ _
      | cons e es ihe =>
        intro name
        have : allCalls s.1 name (((e :: es).map fun e => Kind.entry e.1 e.2) ++ Config.kinds c) =
          (⟨s.1, e.1, e.2⟩ : Call) :: allCalls s.1 (short e.1)
            ((es.map fun e => Kind.entry e.1 e.2) ++ Config.kinds c) := rfl
        rw [this, ihe]
        rfl
    rw [e2, e3]
    have : allCalls sect name (.header s.1 :: ((s.2.map fun e => Kind.entry e.1 e.2) ++
        Config.kinds c)) = allCalls (short s.1) [] ((s.2.map fun e => Kind.entry e.1 e.2) ++
        Config.kinds c) := rfl
    rw [this, hs, key, List.map_append, List.map_map]
    rfl

theorem config_no_bad (c : Config) : firstBad c.kinds = 0 := by
  have : c.kinds.findIdx? (· = .bad) = none := by
    rw [List.findIdx?_eq_none_iff]
    intro k hk
    simp only [Config.kinds, List.mem_flatMap, List.mem_cons, List.mem_map] at hk
    obtain ⟨s, -, h | ⟨e, -, h⟩⟩ := hk
    · subst h; simp
    · subst h; simp
  unfold firstBad
  rw [this]

theorem config_plain {c : Config} (h : c.WF) : ∀ l ∈ c.lines, PlainLine l := by
  intro l hl
  simp only [Config.lines, List.mem_flatMap, List.mem_cons, List.mem_map] at hl
  obtain ⟨s, hs, hl | ⟨e, he, hl⟩⟩ := hl
  · subst hl
    have g := h.sects s hs
    refine ⟨?_, ?_, ?_⟩
    · simpa using g.clean.1
    · simpa using g.clean.2
    · have := g.size
      simp; omega
  · have hm : (s.1, e.1, e.2) ∈ c.entries := by
      simp only [Config.entries, List.mem_flatMap, List.mem_map]
      exact ⟨s, hs, e, he, rfl⟩
    subst hl
    have g := h.names _ hm
    have g' := h.values _ hm
    have g2 := h.size _ hm
    refine ⟨?_, ?_, ?_⟩
    · simpa using ⟨g.clean.1, g'.clean.1⟩
    · simpa using ⟨g.clean.2, g'.clean.2⟩
    · simp at g2 ⊢; omega

theorem config_nobom (c : Config) : ∀ l, c.lines.head? = some l → bom.isPrefixOf l = false := by
  intro l hl
  cases c with
  | nil => simp [Config.lines] at hl
  | cons s c =>
    simp [Config.lines] at hl
    subst hl
    rfl

/-! ## A check for concrete configurations -/

theorem not_hasInline_of {s : List Char} (h : (findFrom (fun _ => false) false s).2 = []) :
    ¬ HasInlineComment s := by
  rintro ⟨x, w, y, e, hw⟩
  obtain ⟨h1, h2⟩ := findFrom_spec (fun _ => false) s false
  rw [h, List.append_nil] at h1
  exact h2.noComment x w y (by rw [← h1]; exact e) hw

/-- A check for `Trimmed`. -/
def trimmedB (s : List Char) : Bool := s.head?.all (!isSpace ·) && s.getLast?.all (!isSpace ·)

theorem trimmedB_spec {s : List Char} (h : trimmedB s = true) : Trimmed s := by
  simp only [trimmedB, Bool.and_eq_true] at h
  refine ⟨?_, ?_⟩
  · intro c hc; have := h.1; rw [hc] at this; simpa using this
  · intro c hc; have := h.2; rw [hc] at this; simpa using this

/-- A check for `GoodSection`. -/
def sectionB (s : List Char) : Bool :=
  !s.contains '\n' && !s.contains '\x00' && !s.contains ']' &&
    (findFrom (fun _ => false) false s).2.isEmpty && decide (s.length ≤ 49)

theorem sectionB_spec {s : List Char} (h : sectionB s = true) : GoodSection s := by
  simp only [sectionB, Bool.and_eq_true, Bool.not_eq_true', List.contains_eq_mem,
    decide_eq_false_iff_not, List.isEmpty_iff, decide_eq_true_eq] at h
  obtain ⟨⟨⟨⟨h1, h2⟩, h3⟩, h4⟩, h5⟩ := h
  exact ⟨⟨h1, h2⟩, h3, not_hasInline_of h4, h5⟩

/-- A check for `GoodName`. -/
def nameB (k : List Char) : Bool :=
  !k.contains '\n' && !k.contains '\x00' && trimmedB k &&
    k.head?.any (fun c => c != ';' && c != '#' && c != '[') && !k.contains '=' && !k.contains ':' &&
    (findFrom (fun _ => false) false k).2.isEmpty

theorem nameB_spec {k : List Char} (h : nameB k = true) : GoodName k := by
  simp only [nameB, Bool.and_eq_true, Bool.not_eq_true', List.contains_eq_mem,
    decide_eq_false_iff_not, List.isEmpty_iff] at h
  obtain ⟨⟨⟨⟨⟨⟨h1, h2⟩, h3⟩, h4⟩, h5⟩, h6⟩, h7⟩ := h
  refine ⟨⟨h1, h2⟩, trimmedB_spec h3, ?_, h5, h6, not_hasInline_of h7⟩
  cases hk : k.head? with
  | none => rw [hk] at h4; simp at h4
  | some c =>
    rw [hk] at h4
    simp at h4
    exact ⟨c, rfl, h4.1.1, h4.1.2, h4.2⟩

/-- A check for `GoodValue`. -/
def valueB (v : List Char) : Bool :=
  !v.contains '\n' && !v.contains '\x00' && trimmedB v &&
    (findFrom (fun _ => false) false (' ' :: v)).2.isEmpty

theorem valueB_spec {v : List Char} (h : valueB v = true) : GoodValue v := by
  simp only [valueB, Bool.and_eq_true, Bool.not_eq_true', List.contains_eq_mem,
    decide_eq_false_iff_not, List.isEmpty_iff] at h
  obtain ⟨⟨⟨h1, h2⟩, h3⟩, h4⟩ := h
  exact ⟨⟨h1, h2⟩, trimmedB_spec h3, not_hasInline_of h4⟩

/-- A check for `Config.WF`. -/
def Config.wfB (c : Config) : Bool :=
  c.all (fun s => sectionB s.1) && c.entries.all (fun e => nameB e.2.1) &&
    c.entries.all (fun e => valueB e.2.2) &&
    c.entries.all (fun e => decide (e.2.1.length + 3 + e.2.2.length ≤ 198)) &&
    decide ((c.entries.map fun e => (lower e.1, lower e.2.1)).Nodup)

theorem Config.wfB_spec {c : Config} (h : c.wfB = true) : c.WF := by
  simp only [Config.wfB, Bool.and_eq_true, List.all_eq_true, decide_eq_true_eq] at h
  obtain ⟨⟨⟨⟨h1, h2⟩, h3⟩, h4⟩, h5⟩ := h
  refine ⟨fun s hs => sectionB_spec (h1 s hs), fun e he => nameB_spec (h2 e he),
    fun e he => valueB_spec (h3 e he), h4, ?_⟩
  have := List.pairwise_map.mp h5
  refine this.imp ?_
  intro a b hab h
  apply hab
  rw [Prod.mk.injEq]
  exact h

end Ini
end QED
