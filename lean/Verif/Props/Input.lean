import Verif.Lemmas.Input

set_option autoImplicit false

/-!
# From the input file to the parameters of a run (C61, C66, C67, C79)

The meaning of the entries of a configuration is in `Spec/Input.lean`.
-/

namespace QED

open Ini FileParser _root_.QED.Units

/-! ## C66 -/

/-- The value of this name is a vector: it has at most three numbers (`C65_any_number`). -/
def VectorOk (r : Reader) (sect : List Char) (name : String) : Prop :=
  ∃ v : V3 ℝ, r.getThreeVector sect name.toList ⟨0, 0, 0⟩ = .ok v

/-- The field section is acceptable: a known type, and vectors where the type has them. -/
def FieldOk (r : Reader) : Prop :=
  let type := r.get "Field".toList "field_type".toList []
  (type = "static".toList ∧ VectorOk r "Field".toList "e_field" ∧
    VectorOk r "Field".toList "b_field") ∨
  (type = "plane".toList ∧ VectorOk r "Field".toList "direction") ∨
  ((type = "gaussian".toList ∨ type = "focusing".toList) ∧ VectorOk r "Field".toList "start" ∧
    VectorOk r "Field".toList "focus")

/-- What an input file must have. -/
structure Acceptable (r : Reader) : Prop where
  general : "General".toList ∈ r.sections
  timeStep : r.hasValue "General".toList "time_step".toList = true
  timeEnd : r.hasValue "General".toList "time_end".toList = true
  hasUnits : r.hasValue "General".toList "units".toList = true
  units : r.get "General".toList "units".toList [] = "SI".toList ∨
    r.get "General".toList "units".toList [] = "si".toList
  field : "Field".toList ∈ r.sections → FieldOk r
  sources : ∀ n, 1 ≤ n → (∀ i, 1 ≤ i → i ≤ n → numbered "Particle" i ∈ r.sections) →
    VectorOk r (numbered "Particle" n) "position" ∧ VectorOk r (numbered "Particle" n) "direction"

theorem checkVitals_ok {r : Reader} : checkVitals r = .ok () ↔ "General".toList ∈ r.sections ∧
    r.hasValue "General".toList "time_step".toList = true ∧
    r.hasValue "General".toList "time_end".toList = true ∧
    r.hasValue "General".toList "units".toList = true := by
  unfold checkVitals
  split
  · rename_i h; simp only [h, false_and, reduceCtorEq]
  · rename_i h1
    have h1' := not_not.mp h1
    split
    · rename_i h; simp only [h, false_and, and_false, reduceCtorEq, Bool.false_eq_true]
    · rename_i h2
      split
      · rename_i h; simp only [h, false_and, and_false, reduceCtorEq, Bool.false_eq_true]
      · rename_i h3
        split
        · rename_i h; simp only [h, and_false, reduceCtorEq, Bool.false_eq_true]
        · rename_i h4
          simp only [Bool.not_eq_false] at h2 h3 h4
          simp only [h2, h3, h4, h1', and_self]

theorem str_eq (r : Reader) (sect : List Char) (name dflt v : String) (hv : v ≠ "") (hd : dflt ≠ v) :
    str r sect name dflt = v ↔ r.get sect name.toList [] = v.toList := by
  unfold str Reader.getString
  dsimp only
  split
  · rename_i h
    rw [h, String.ofList_toList]
    constructor
    · intro e; exact absurd e hd
    · intro e
      exact absurd (String.toList_eq_nil_iff.mp e.symm) hv
  · constructor
    · intro e; rw [← e, String.toList_ofList]
    · intro e; rw [e, String.ofList_toList]

theorem readGeneral_ok (r : Reader) : (∃ x : UnitsSystem ℝ × GeneralParams ℝ, readGeneral r = .ok x) ↔
    r.get "General".toList "units".toList [] = "SI".toList ∨
    r.get "General".toList "units".toList [] = "si".toList := by
  rw [← str_eq r _ "units" "None" "SI" (by decide) (by decide),
    ← str_eq r _ "units" "None" "si" (by decide) (by decide)]
  unfold readGeneral UnitsSystem.new
  dsimp only
  split
  · rename_i h
    simp only [h, iff_true, Res.ok_bind]
    exact ⟨_, rfl⟩
  · rename_i h
    simp only [h, Res.exit_bind, reduceCtorEq, exists_false]

theorem vectorOk_iff (r : Reader) (sect : List Char) (name : String) (d : V3 ℝ) :
    VectorOk r sect name ↔ ∃ v, vec r sect name d = .ok v := Iff.rfl

theorem readField_ok (r : Reader) (u : UnitsSystem ℝ) : (∃ f, readField r u = .ok f) ↔
    ("Field".toList ∈ r.sections → FieldOk r) := by
  unfold readField FieldOk
  dsimp only
  have ht := fun v hv hd => str_eq r "Field".toList "field_type" "" v hv hd
  rw [← ht "static" (by decide) (by decide), ← ht "plane" (by decide) (by decide),
    ← ht "gaussian" (by decide) (by decide), ← ht "focusing" (by decide) (by decide)]
  generalize str r "Field".toList "field_type" "" = t
  split
  · rename_i hin
    simp only [hin, true_imp_iff]
    split
    · rename_i h
      simp [h.1, h.2.1, h.2.2.1, h.2.2.2]
    · rename_i h
      split
      · rename_i hs
        subst hs
        simp only [true_and, bind_eq_ok]
        rw [vectorOk_iff _ _ "e_field" V3.zero, vectorOk_iff _ _ "b_field" V3.zero]
        constructor
        · rintro ⟨f, e, he, b, hb, -⟩
          exact Or.inl ⟨⟨e, he⟩, ⟨b, hb⟩⟩
        · rintro (⟨⟨e, he⟩, ⟨b, hb⟩⟩ | ⟨h', -⟩ | ⟨h', -⟩)
          · exact ⟨_, e, he, b, hb, rfl⟩
          · exact absurd h' (by decide)
          · exact absurd h' (by decide)
      · rename_i hs
        split
        · rename_i hp
          subst hp
          simp only [true_and, bind_eq_ok]
          rw [vectorOk_iff _ _ "direction" V3.ez]
          constructor
          · rintro ⟨f, e, he, -⟩
            exact Or.inr (Or.inl ⟨e, he⟩)
          · rintro (⟨h', -⟩ | ⟨e, he⟩ | ⟨h', -⟩)
            · exact absurd h' (by decide)
            · exact ⟨_, e, he, rfl⟩
            · exact absurd h' (by decide)
        · rename_i hp
          have hgf : t = "gaussian" ∨ t = "focusing" := by
            by_contra hc
            rw [not_or] at hc
            exact h ⟨hc.1, hp, hs, hc.2⟩
          simp only [hs, hp, hgf, false_and, false_or, true_and, bind_eq_ok]
          rw [vectorOk_iff _ _ "start" V3.zero, vectorOk_iff _ _ "focus" V3.zero]
          constructor
          · rintro ⟨f, e, he, b, hb, -⟩
            exact ⟨⟨e, he⟩, ⟨b, hb⟩⟩
          · rintro ⟨⟨e, he⟩, ⟨b, hb⟩⟩
            by_cases hg : t = "gaussian"
            · exact ⟨_, e, he, b, hb, by rw [if_pos hg]⟩
            · exact ⟨_, e, he, b, hb, by rw [if_neg hg]⟩
  · rename_i hin
    simp only [hin, false_imp_iff, iff_true]
    exact ⟨_, rfl⟩

theorem readParticle_ok (r : Reader) (u : UnitsSystem ℝ) (sect : List Char) :
    (∃ p, readParticle r u sect = .ok p) ↔
      VectorOk r sect "position" ∧ VectorOk r sect "direction" := by
  unfold readParticle
  simp only [bind_eq_ok]
  rw [vectorOk_iff _ _ "position" V3.zero, vectorOk_iff _ _ "direction" V3.ez]
  constructor
  · rintro ⟨f, e, he, b, hb, -⟩
    exact ⟨⟨e, he⟩, ⟨b, hb⟩⟩
  · rintro ⟨⟨e, he⟩, ⟨b, hb⟩⟩
    exact ⟨_, e, he, b, hb, rfl⟩

/-- C66: whatever the input file, the parser accepts it exactly if it has the general section, the
three required values, known units, a known field type if it has a field section, and no malformed
vector where it reads one; otherwise the program ends with error code 1. -/
theorem C66_accepts_iff (r : Reader) :
    ((∃ inp : Input ℝ, parse r = .ok inp) ↔ Acceptable r) ∧
    (¬ Acceptable r → parse (D := ℝ) r = .exit 1) := by
  have main : (∃ inp : Input ℝ, parse r = .ok inp) ↔ Acceptable r := by
    constructor
    · rintro ⟨inp, h⟩
      obtain ⟨h1, u, g, f, ps, hs, h2, h3, h4, h5, -⟩ := parse_eq_ok.mp h
      obtain ⟨a, b, c, d⟩ := checkVitals_ok.mp h1
      refine ⟨a, b, c, d, (readGeneral_ok r).mp ⟨_, h2⟩, (readField_ok r u).mp ⟨_, h3⟩, ?_⟩
      intro n hn hall
      obtain ⟨-, k2, k3⟩ := readNumbered_ok h4
      have hlt : n ≤ ps.length := by
        by_contra hc
        exact k2 (hall _ (by omega) (by omega))
      have := k3 (n - 1) (by omega)
      rw [show n - 1 + 1 = n by omega] at this
      exact (readParticle_ok r u _).mp ⟨_, this⟩
    · intro h
      obtain ⟨⟨u, g⟩, h2⟩ := (readGeneral_ok r).mpr h.units
      obtain ⟨f, h3⟩ := (readField_ok r u).mpr h.field
      obtain ⟨ps, h4⟩ := readNumbered_total r.sections "Particle" (read := readParticle r u)
        (fun n h1 h2 => (readParticle_ok r u _).mpr (h.sources n h1 h2)) (r.sections.length + 1) 0
        (by intro i h1 h2; omega)
      obtain ⟨hs, h5⟩ := readNumbered_total r.sections "Histogram" (read := readHistogram r u)
        (fun n h1 h2 => ⟨_, rfl⟩) (r.sections.length + 1) 0 (by intro i h1 h2; omega)
      exact ⟨_, parse_eq_ok.mpr ⟨checkVitals_ok.mpr ⟨h.general, h.timeStep, h.timeEnd, h.hasUnits⟩,
        u, g, f, ps, hs, h2, h3, h4, h5, rfl⟩⟩
  refine ⟨main, fun hno => ?_⟩
  rcases parse_okOrOne (D := ℝ) r with h | h
  · exact absurd (main.mp h) hno
  · exact h

/-- C66 for written configurations: each of the listed defects ends the program with error code 1. -/
theorem C66_rejected (c : Config) (h : c.WF)
    (bad : (¬ c.HasEntries "General".toList) ∨ c.Silent "General".toList "time_step".toList ∨
      c.Silent "General".toList "time_end".toList ∨ c.Silent "General".toList "units".toList ∨
      (∃ v, c.Says "General".toList "units".toList v ∧ v ≠ "SI".toList ∧ v ≠ "si".toList) ∨
      (c.HasEntries "Field".toList ∧ c.Silent "Field".toList "field_type".toList) ∨
      (c.HasEntries "Field".toList ∧ ∃ v, c.Says "Field".toList "field_type".toList v ∧
        v ≠ "static".toList ∧ v ≠ "plane".toList ∧ v ≠ "gaussian".toList ∧ v ≠ "focusing".toList)) :
    parse (D := ℝ) (Reader.ofFile (fileOf c.lines)) = .exit 1 := by
  apply (C66_accepts_iff _).2
  intro ha
  rcases bad with b | b | b | b | ⟨v, hv, b1, b2⟩ | ⟨b1, b2⟩ | ⟨b1, v, hv, b2, b3, b4, b5⟩
  · exact b ((mem_sections_iff h _).mp ha.general)
  · have := ha.timeStep
    rw [(get_of_silent h (by decide) b []).2] at this
    cases this
  · have := ha.timeEnd
    rw [(get_of_silent h (by decide) b []).2] at this
    cases this
  · have := ha.hasUnits
    rw [(get_of_silent h (by decide) b []).2] at this
    cases this
  · have := ha.units
    rw [(get_of_says h hv []).1] at this
    exact this.elim b1 b2
  · have := ha.field ((mem_sections_iff h _).mpr b1)
    unfold FieldOk at this
    rw [(get_of_silent h (by decide) b2 []).1] at this
    rcases this with ⟨e, -⟩ | ⟨e, -⟩ | ⟨e | e, -⟩ <;> exact absurd e (by decide)
  · have := ha.field ((mem_sections_iff h _).mpr b1)
    unfold FieldOk at this
    rw [(get_of_says h hv []).1] at this
    rcases this with ⟨e, -⟩ | ⟨e, -⟩ | ⟨e | e, -⟩
    · exact b2 e
    · exact b3 e
    · exact b4 e
    · exact b5 e

/-! ## C67 and C79 -/

theorem source_is {c : Config} (h : c.WF) {sect : List Char} {p : ParticleParams ℝ}
    (hp : readParticle (Reader.ofFile (fileOf c.lines)) unitsSI sect = .ok p) :
    SourceIs unitsSI c sect p := by
  obtain ⟨t, l, e, b, en⟩ := si_pos
  unfold readParticle at hp
  simp only [bind_eq_ok] at hp
  obtain ⟨pos, hpos, dir, hdir, hp⟩ := hp
  cases hp
  refine ⟨nat_is h sect _ 1 (by norm_num) (by decide), text_is h sect _ _ (by decide),
    text_is h sect _ _ (by decide), text_is h sect _ _ (by decide), ?_, vec_is h (by decide) hdir,
    real_is_div h sect _ 0 (by decide) _ en.ne', real_is_div h sect _ 0 (by decide) _ en.ne',
    real_is_div h sect _ 0 (by decide) _ l.ne', real_is h sect _ 0 (by decide),
    real_is_div h sect _ 0 (by decide) _ t.ne', flag_is h sect _ (by decide)⟩
  rw [inUnits_divs _ l.ne']
  exact vec_is h (by decide) hpos

theorem histogram_is {c : Config} (h : c.WF) {sect : List Char} {p : HistogramParams ℝ}
    (hp : readHistogram (Reader.ofFile (fileOf c.lines)) unitsSI sect = .ok p) :
    HistogramIs unitsSI c sect p := by
  obtain ⟨t, l, e, b, en⟩ := si_pos
  cases hp
  exact ⟨text_is h sect _ _ (by decide), text_is h sect _ [] (by decide),
    text_is h sect _ [] (by decide), real_is_div h sect _ 0 (by decide) _ t.ne',
    nat_is h sect _ 1 (by norm_num) (by decide), real_is h sect _ 0 (by decide),
    real_is h sect _ 1 (by decide)⟩

theorem readGeneral_units {r : Reader} {u : UnitsSystem ℝ} {g : GeneralParams ℝ}
    (h : readGeneral r = .ok (u, g)) : u = unitsSI := by
  unfold readGeneral at h
  simp only [bind_eq_ok] at h
  obtain ⟨u', hu, h⟩ := h
  have := units_new hu
  cases h
  exact this

/-- C67, the part that holds: of the sections that have entries, exactly those with the numbers up to
the first missing one are read, in order, each with its own values. Missing: sections without entries,
see `C67_refuted`. -/
theorem C67_sources_partial (c : Config) (h : c.WF) (inp : Input ℝ)
    (hp : parse (Reader.ofFile (fileOf c.lines)) = .ok inp) :
    (∀ i, 1 ≤ i → i ≤ inp.particles.length → c.HasEntries (numbered "Particle" i)) ∧
    ¬ c.HasEntries (numbered "Particle" (inp.particles.length + 1)) ∧
    ∀ i (hi : i < inp.particles.length),
      SourceIs unitsSI c (numbered "Particle" (i + 1)) inp.particles[i] := by
  obtain ⟨-, u, g, f, ps, hs, h2, -, h4, -, rfl⟩ := parse_eq_ok.mp hp
  have hu := readGeneral_units h2
  subst hu
  obtain ⟨k1, k2, k3⟩ := readNumbered_ok h4
  exact ⟨fun i h1 h2 => (mem_sections_iff h _).mp (k1 i h1 h2),
    fun hc => k2 ((mem_sections_iff h _).mpr hc), fun i hi => source_is h (k3 i hi)⟩

/-- C67, the part that holds, for histograms. -/
theorem C67_histograms_partial (c : Config) (h : c.WF) (inp : Input ℝ)
    (hp : parse (Reader.ofFile (fileOf c.lines)) = .ok inp) :
    (∀ i, 1 ≤ i → i ≤ inp.histograms.length → c.HasEntries (numbered "Histogram" i)) ∧
    ¬ c.HasEntries (numbered "Histogram" (inp.histograms.length + 1)) ∧
    ∀ i (hi : i < inp.histograms.length),
      HistogramIs unitsSI c (numbered "Histogram" (i + 1)) inp.histograms[i] := by
  obtain ⟨-, u, g, f, ps, hs, h2, -, -, h5, rfl⟩ := parse_eq_ok.mp hp
  have hu := readGeneral_units h2
  subst hu
  obtain ⟨k1, k2, k3⟩ := readNumbered_ok h5
  exact ⟨fun i h1 h2 => (mem_sections_iff h _).mp (k1 i h1 h2),
    fun hc => k2 ((mem_sections_iff h _).mpr hc), fun i hi => histogram_is h (k3 i hi)⟩

/-- C79: what the parser hands on for the general, field and physics sections is what the file says,
converted from SI to internal units. -/
theorem C79_parameters (c : Config) (h : c.WF) (inp : Input ℝ)
    (hp : parse (Reader.ofFile (fileOf c.lines)) = .ok inp) :
    GeneralIs unitsSI c inp.general ∧ FieldIs unitsSI c inp.field ∧
    PhysicsIs unitsSI c inp.physics := by
  obtain ⟨t, l, e, b, en⟩ := si_pos
  obtain ⟨-, u, g, f, ps, hs, h2, h3, -, -, rfl⟩ := parse_eq_ok.mp hp
  have hu := readGeneral_units h2
  subst hu
  refine ⟨?_, ?_, ?_⟩
  · unfold readGeneral at h2
    simp only [bind_eq_ok] at h2
    obtain ⟨u', hu, h2⟩ := h2
    cases h2
    exact ⟨real_is_div h _ _ 0 (by decide) _ t.ne', real_is_div h _ _ 0 (by decide) _ t.ne',
      text_is h _ _ _ (by decide), flag_is h _ _ (by decide)⟩
  · have hsays : ∀ v : String, v ≠ "" → str (Reader.ofFile (fileOf c.lines)) "Field".toList
        "field_type" "" = v → c.Says "Field".toList "field_type".toList v.toList := by
      intro v hv hs
      rw [str_eq _ _ _ _ _ hv hv.symm] at hs
      by_cases hsil : c.Silent "Field".toList "field_type".toList
      · rw [(get_of_silent h (by decide) hsil []).1] at hs
        exact absurd (String.toList_eq_nil_iff.mp hs.symm) hv
      · unfold Config.Silent at hsil
        push Not at hsil
        obtain ⟨w, hw⟩ := hsil
        rw [(get_of_says h hw []).1] at hs
        rwa [← hs]
    unfold readField at h3
    dsimp only at h3
    split at h3
    · split at h3
      · cases h3
      · rename_i hno
        split at h3
        · rename_i hst
          simp only [bind_eq_ok] at h3
          obtain ⟨ev, hev, bv, hbv, h3⟩ := h3
          cases h3
          refine ⟨hsays "static" (by decide) hst, ?_, ?_⟩
          · rw [inUnits_divs _ e.ne']; exact vec_is h (by decide) hev
          · rw [inUnits_divs _ b.ne']; exact vec_is h (by decide) hbv
        · rename_i hst
          split at h3
          · rename_i hpl
            simp only [bind_eq_ok] at h3
            obtain ⟨dv, hdv, h3⟩ := h3
            cases h3
            exact ⟨hsays "plane" (by decide) hpl, real_is_div h _ _ 0 (by decide) _ e.ne',
              real_is_div h _ _ 1 (by decide) _ l.ne', real_is h _ _ 0 (by decide),
              vec_is h (by decide) hdv⟩
          · rename_i hpl
            simp only [bind_eq_ok] at h3
            obtain ⟨sv, hsv, fv, hfv, h3⟩ := h3
            have pulse : PulseIs unitsSI c _ _ _ _ _ (sv.divs unitsSI.refLength)
                (fv.divs unitsSI.refLength) :=
              ⟨real_is_div h _ _ 0 (by decide) _ e.ne', real_is_div h _ _ 1 (by decide) _ l.ne',
                real_is_div h _ _ 1 (by decide) _ t.ne', real_is_div h _ _ 1 (by decide) _ l.ne',
                real_is h _ _ 0 (by decide),
                by rw [inUnits_divs _ l.ne']; exact vec_is h (by decide) hsv,
                by rw [inUnits_divs _ l.ne']; exact vec_is h (by decide) hfv⟩
            split at h3
            · rename_i hg
              cases h3
              exact ⟨hsays "gaussian" (by decide) hg, pulse⟩
            · rename_i hg
              cases h3
              refine ⟨hsays "focusing" (by decide) ?_, pulse⟩
              by_contra hc
              exact hno ⟨hg, hpl, hst, hc⟩
    · rename_i hin
      cases h3
      exact fun hc => hin ((mem_sections_iff h _).mpr hc)
  · exact ⟨text_is h _ _ [] (by decide), real_is_div h _ _ 0 (by decide) _ en.ne',
      real_is h _ _ 1 (by decide), flag_is h _ _ (by decide)⟩

/-! ## Refutations and examples -/

/-- A check for missing entries. -/
def silentB (c : Config) (sect name : List Char) : Bool :=
  c.all fun s => s.2.all fun e =>
    !(sect.map Char.toLower = s.1.map Char.toLower && name.map Char.toLower = e.1.map Char.toLower)

theorem silentB_spec {c : Config} {sect name : List Char} (h : silentB c sect name = true) :
    c.Silent sect name := by
  rintro v ⟨s, hs, e, he, h1, h2, -⟩
  have := List.all_eq_true.mp (List.all_eq_true.mp h s hs) e he
  simp only [SameName] at h1 h2
  simp [h1, h2] at this

theorem vectorOk_of_silent {c : Config} (h : c.WF) {sect : List Char} {name : String}
    (hn : '=' ∉ name.toList) (hs : silentB c sect name.toList = true) :
    VectorOk (Reader.ofFile (fileOf c.lines)) sect name :=
  ⟨_, C64_default_ignored _ _ _ _ (get_of_silent h hn (silentB_spec hs) []).2⟩

/-- The required entries and a source, with the general section under this name, followed by `more`. -/
def inputConfig (general : String) (more : Config) : Config :=
  [(general.toList, [("time_step".toList, "1e-18".toList), ("time_end".toList, "1e-15".toList),
      ("units".toList, "SI".toList)]),
    ("Field".toList, [("field_type".toList, "static".toList)])] ++ more

theorem inputConfig_ok (more : Config) (h : (inputConfig "General" more).WF)
    (hs : silentB (inputConfig "General" more) "Field".toList "e_field".toList = true)
    (hs' : silentB (inputConfig "General" more) "Field".toList "b_field".toList = true)
    (hp : ∀ n, silentB (inputConfig "General" more) (numbered "Particle" n) "position".toList = true)
    (hp' : ∀ n, silentB (inputConfig "General" more) (numbered "Particle" n) "direction".toList = true) :
    ∃ inp : Input ℝ, parse (Reader.ofFile (fileOf (inputConfig "General" more).lines)) = .ok inp := by
  have m : (inputConfig "General" more).head? = some ("General".toList,
      [("time_step".toList, "1e-18".toList), ("time_end".toList, "1e-15".toList),
      ("units".toList, "SI".toList)]) := rfl
  have hm := List.mem_of_mem_head? m
  have g1 : (inputConfig "General" more).Says "General".toList "time_step".toList "1e-18".toList :=
    ⟨_, hm, _, .head _, rfl, rfl, rfl⟩
  have g2 : (inputConfig "General" more).Says "General".toList "time_end".toList "1e-15".toList :=
    ⟨_, hm, _, .tail _ (.head _), rfl, rfl, rfl⟩
  have g3 : (inputConfig "General" more).Says "General".toList "units".toList "SI".toList :=
    ⟨_, hm, _, .tail _ (.tail _ (.head _)), rfl, rfl, rfl⟩
  have f : (inputConfig "General" more).Says "Field".toList "field_type".toList "static".toList :=
    ⟨_, List.mem_append_left _ (List.mem_cons_of_mem _ List.mem_cons_self), _, List.mem_cons_self,
      rfl, rfl, rfl⟩
  apply (C66_accepts_iff _).1.mpr
  refine ⟨(mem_sections_iff h _).mpr ⟨_, hm, by simp⟩, (get_of_says h g1 []).2,
    (get_of_says h g2 []).2, (get_of_says h g3 []).2, Or.inl (get_of_says h g3 []).1, fun _ => ?_,
    fun n _ _ => ?_⟩
  · exact Or.inl ⟨(get_of_says h f []).1, vectorOk_of_silent h (by decide) hs,
      vectorOk_of_silent h (by decide) hs'⟩
  · exact ⟨vectorOk_of_silent h (by decide) (hp n), vectorOk_of_silent h (by decide) (hp' n)⟩

/-- C61 is false of sections: a file whose general section is written `[general]` is rejected, although
all its values are found, while the same file with `[General]` is accepted. -/
theorem C61_refuted : (inputConfig "general" []).WF ∧
    (Reader.ofFile (fileOf (inputConfig "general" []).lines)).hasValue "General".toList
      "time_step".toList = true ∧
    parse (D := ℝ) (Reader.ofFile (fileOf (inputConfig "general" []).lines)) = .exit 1 ∧
    ∃ inp : Input ℝ, parse (Reader.ofFile (fileOf (inputConfig "General" []).lines)) = .ok inp := by
  have hw : (inputConfig "general" []).WF := Config.wfB_spec (by decide)
  refine ⟨hw, ?_, ?_, ?_⟩
  · exact (get_of_says hw (v := "1e-18".toList) ⟨_, List.mem_cons_self, _, List.mem_cons_self,
      by unfold SameName; decide, rfl, rfl⟩ []).2
  · apply C66_rejected _ hw
    left
    rintro ⟨es, hes, -⟩
    simp [inputConfig] at hes
  · apply inputConfig_ok [] (Config.wfB_spec (by decide)) (by decide) (by decide)
    · intro n; simp [silentB, inputConfig, numbered]
    · intro n; simp [silentB, inputConfig, numbered]

/-- An empty first source, followed by one with an entry. -/
def hiddenSources : Config :=
  [("Particle1".toList, []), ("Particle2".toList, [("number_particles".toList, "5".toList)])]

/-- C67 is false of sections without entries: with an empty section `[Particle1]`, for which all
defaults should apply, no source is read at all, not even that of `[Particle2]`. -/
theorem C67_refuted : (inputConfig "General" hiddenSources).WF ∧
    ∃ inp : Input ℝ, parse (Reader.ofFile (fileOf (inputConfig "General" hiddenSources).lines)) =
      .ok inp ∧ inp.particles = [] := by
  have hw : (inputConfig "General" hiddenSources).WF := Config.wfB_spec (by decide)
  refine ⟨hw, ?_⟩
  obtain ⟨inp, hi⟩ := inputConfig_ok hiddenSources hw (by decide) (by decide)
    (fun n => by simp [silentB, inputConfig, numbered, hiddenSources])
    (fun n => by simp [silentB, inputConfig, numbered, hiddenSources])
  refine ⟨inp, hi, ?_⟩
  by_contra hne
  obtain ⟨es, h1, h2⟩ := (C67_sources_partial _ hw inp hi).1 1 le_rfl
    (List.length_pos_iff.mpr hne)
  have : numbered "Particle" 1 = "Particle1".toList := by decide
  rw [this] at h1
  simp [inputConfig, hiddenSources] at h1
  exact h2 h1

/-- Two sources with entries. -/
def twoSources : Config :=
  [("Particle1".toList, [("energy_mean".toList, "1.5e-10".toList)]),
    ("Particle2".toList, [("number_particles".toList, "5".toList)]),
    ("Histogram1".toList, [("bins".toList, "100".toList)])]

/-- The hypotheses of `C67_sources_partial`, `C67_histograms_partial` and `C79_parameters` can be met,
with two sources and a histogram. -/
example : ∃ inp : Input ℝ, (inputConfig "General" twoSources).WF ∧
    parse (Reader.ofFile (fileOf (inputConfig "General" twoSources).lines)) = .ok inp ∧
    inp.particles.length = 2 ∧ inp.histograms.length = 1 := by
  have hw : (inputConfig "General" twoSources).WF := Config.wfB_spec (by decide)
  obtain ⟨inp, hi⟩ := inputConfig_ok twoSources hw (by decide) (by decide)
    (fun n => by simp [silentB, inputConfig, numbered, twoSources])
    (fun n => by simp [silentB, inputConfig, numbered, twoSources])
  refine ⟨inp, hw, hi, ?_, ?_⟩
  · obtain ⟨h1, h2, -⟩ := C67_sources_partial _ hw inp hi
    have n1 : numbered "Particle" 1 = "Particle1".toList := by decide
    have n2 : numbered "Particle" 2 = "Particle2".toList := by decide
    have n3 : numbered "Particle" 3 = "Particle3".toList := by decide
    rcases Nat.lt_trichotomy inp.particles.length 2 with hl | hl | hl
    · exfalso
      apply h2
      interval_cases inp.particles.length
      · rw [n1]; exact ⟨_, by simp [inputConfig, twoSources]; rfl, by simp⟩
      · rw [n2]; exact ⟨_, by simp [inputConfig, twoSources]; rfl, by simp⟩
    · exact hl
    · obtain ⟨es, h3, -⟩ := h1 3 (by omega) hl
      rw [n3] at h3
      simp [inputConfig, twoSources] at h3
  · obtain ⟨h1, h2, -⟩ := C67_histograms_partial _ hw inp hi
    have n1 : numbered "Histogram" 1 = "Histogram1".toList := by decide
    have n2 : numbered "Histogram" 2 = "Histogram2".toList := by decide
    rcases Nat.lt_trichotomy inp.histograms.length 1 with hl | hl | hl
    · exfalso
      apply h2
      interval_cases inp.histograms.length
      · rw [n1]; exact ⟨_, by simp [inputConfig, twoSources]; rfl, by simp⟩
    · exact hl
    · obtain ⟨es, h3, -⟩ := h1 2 (by omega) hl
      rw [n2] at h3
      simp [inputConfig, twoSources] at h3

end QED
