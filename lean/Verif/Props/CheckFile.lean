import Verif.Model.CheckFile
import Verif.Spec.CheckFile
import Verif.Props.Input

set_option autoImplicit false

/-!
# C146: the check file shows what a run uses
-/

namespace QED

open Ini FileParser _root_.QED.Units

variable {D : Type}

theorem checkField_alike {a b : FieldParams D} {xs ys : List (CheckLine D)}
    (hx : ∀ s, xs.head? ≠ some (.text s) ∨ s ≠ "Field input parameters ")
    (hy : ∀ s, ys.head? ≠ some (.text s) ∨ s ≠ "Field input parameters ") :
    checkField a ++ xs = checkField b ++ ys ↔ a.Alike b ∧ xs = ys := by
  have no : ∀ {xs ys : List (CheckLine D)}, (∀ s, xs.head? ≠ some (.text s) ∨ s ≠ "Field input parameters ") →
      xs ≠ .text "Field input parameters " :: ys := by
    intro xs ys h e
    have := h "Field input parameters "
    simp [e] at this
  cases a <;> cases b <;>
    simp [checkField, checkPulse, FieldParams.Alike, no hx, Ne.symm (no hy)] <;> grind

theorem checkNumbered_alike {α : Type} {log : Nat → α → List (CheckLine D)} {R : α → α → Prop}
    {stop : CheckLine D → Prop} (hlog : ∀ i a b xs ys, log i a ++ xs = log i b ++ ys ↔ R a b ∧ xs = ys)
    (hne : ∀ i a, ∃ x l, log i a = x :: l ∧ stop x) : ∀ (as bs : List α) (i : Nat) (xs ys : List (CheckLine D)),
    (∀ x, xs.head? = some x → ¬ stop x) → (∀ y, ys.head? = some y → ¬ stop y) →
    (checkNumbered log i as ++ xs = checkNumbered log i bs ++ ys ↔ List.Forall₂ R as bs ∧ xs = ys)
  | [], [], i, xs, ys, _, _ => by simp [checkNumbered]
  | [], b :: bs, i, xs, ys, hx, _ => by
    obtain ⟨x, l, e, hs⟩ := hne i b
    simp only [checkNumbered, e, List.nil_append, List.cons_append]
    constructor
    · rintro rfl
      exact absurd hs (hx x rfl)
    · rintro ⟨h, -⟩
      cases h
  | a :: as, [], i, xs, ys, _, hy => by
    obtain ⟨x, l, e, hs⟩ := hne i a
    simp only [checkNumbered, e, List.nil_append, List.cons_append]
    constructor
    · rintro rfl
      exact absurd hs (hy x rfl)
    · rintro ⟨h, -⟩
      cases h
  | a :: as, b :: bs, i, xs, ys, hx, hy => by
    simp only [checkNumbered, List.append_assoc]
    rw [hlog, checkNumbered_alike hlog hne as bs (i + 1) xs ys hx hy, List.forall₂_cons]
    tauto

theorem checkParticle_alike (i : Nat) (a b : ParticleParams D) (xs ys : List (CheckLine D)) :
    checkParticle i a ++ xs = checkParticle i b ++ ys ↔ a.Alike b ∧ xs = ys := by
  cases a; cases b
  simp [checkParticle, ParticleParams.Alike]
  tauto

theorem checkHistogram_alike (i : Nat) (a b : HistogramParams D) (xs ys : List (CheckLine D)) :
    checkHistogram i a ++ xs = checkHistogram i b ++ ys ↔ a.Alike b ∧ xs = ys := by
  cases a; cases b
  simp [checkHistogram, HistogramParams.Alike]
  tauto

/-- C146 as far as it holds: two inputs have the same check file if and only if they differ at most in the amplitude
of a plane wave, the polarisation of a pulse, the energy distribution of sources and the quantity that histograms
count. Everything else can be read off. -/
theorem C146_iff_partial (a b : Input D) : checkLines a = checkLines b ↔ a.Alike b := by
  unfold checkLines
  have hg : ∀ (g g' : GeneralParams D) xs ys, checkGeneral g ++ xs = checkGeneral g' ++ ys ↔ g = g' ∧ xs = ys := by
    intro g g' xs ys
    cases g; cases g'
    simp [checkGeneral]
    tauto
  have hp : ∀ (g g' : PhysicsParams D) xs ys, checkPhysics g ++ xs = checkPhysics g' ++ ys ↔ g = g' ∧ xs = ys := by
    intro g g' xs ys
    cases g; cases g'
    simp [checkPhysics]
    tauto
  have hhead : ∀ (ps : List (ParticleParams D)) (p : PhysicsParams D) zs s,
      (checkNumbered checkParticle 1 ps ++ (checkPhysics p ++ zs)).head? ≠ some (.text s) ∨
        s ≠ "Field input parameters " := by
    intro ps p zs s
    cases ps with
    | nil =>
      by_cases hs : s = "Field input parameters "
      · left
        rw [hs]
        simp [checkNumbered, checkPhysics]
      · exact .inr hs
    | cons q qs => left; simp [checkNumbered, checkParticle]
  rw [hg, checkField_alike (hhead _ _ _) (hhead _ _ _),
    checkNumbered_alike (stop := fun x => ∃ l v, x = .entry l v) checkParticle_alike
      (fun i a => ⟨_, _, rfl, _, _, rfl⟩) _ _ _ _ _ (by simp [checkPhysics]) (by simp [checkPhysics]), hp]
  have hh := checkNumbered_alike (stop := fun x => ∃ l v, x = .entry l v) checkHistogram_alike
      (fun i a => ⟨_, _, rfl, _, _, rfl⟩) a.histograms b.histograms 1 [] [] (by simp) (by simp)
  simp only [List.append_nil, and_true] at hh
  rw [hh]
  exact ⟨fun ⟨h1, h2, h3, h4, h5⟩ => ⟨h1, h2, h3, h4, h5⟩, fun ⟨h1, h2, h3, h4, h5⟩ => ⟨h1, h2, h3, h4, h5⟩⟩

/-! ## Input files -/

/-- The entries of an input file that the check file does not show: the amplitude of a plane wave, the polarisation of
a pulse, the energy distribution of a source, the quantity of a histogram. -/
def HiddenEntry (r : Reader) (sect name : List Char) : Prop :=
  (SameName sect "Field".toList ∧ SameName name "e_max".toList ∧
    r.get "Field".toList "field_type".toList [] = "plane".toList) ∨
  (SameName sect "Field".toList ∧ SameName name "polerisation".toList ∧
    r.get "Field".toList "field_type".toList [] ≠ "plane".toList) ∨
  (∃ i, SameName sect (numbered "Particle" i) ∧ SameName name "energy_distribution".toList) ∨
  ∃ i, SameName sect (numbered "Histogram" i) ∧ SameName name "type".toList

section hidden

variable [Dbl D] {r r' : Reader}

/-- The two files agree on an entry. -/
def Agree (r r' : Reader) (sect : List Char) (name : String) : Prop :=
  r.values (makeKey sect name.toList) = r'.values (makeKey sect name.toList)

theorem Agree.get {sect : List Char} {name : String} (h : Agree r r' sect name) (d : List Char) :
    r.get sect name.toList d = r'.get sect name.toList d := by
  unfold Agree at h
  unfold Reader.get
  rw [h]

theorem Agree.has {sect : List Char} {name : String} (h : Agree r r' sect name) :
    r.hasValue sect name.toList = r'.hasValue sect name.toList := by
  unfold Agree at h
  unfold Reader.hasValue
  rw [h]

theorem Agree.str {sect : List Char} {name : String} (h : Agree r r' sect name) (d : String) :
    str r sect name d = str r' sect name d := by
  simp only [FileParser.str, Reader.getString, h.get]

theorem Agree.string {sect : List Char} {name : String} (h : Agree r r' sect name) (d : List Char) :
    r.getString sect name.toList d = r'.getString sect name.toList d := by
  simp only [Reader.getString, h.get]

theorem Agree.real {sect : List Char} {name : String} (h : Agree r r' sect name) (d : D) :
    real r sect name d = real r' sect name d := by
  simp only [FileParser.real, Reader.getReal, h.get]

theorem Agree.vec {sect : List Char} {name : String} (h : Agree r r' sect name) (d : V3 D) :
    vec r sect name d = vec r' sect name d := by
  simp only [FileParser.vec, Reader.getThreeVector, h.get]

theorem Agree.bool {sect : List Char} {name : String} (h : Agree r r' sect name) (d : Bool) :
    r.getBoolean sect name.toList d = r'.getBoolean sect name.toList d := by
  simp only [Reader.getBoolean, h.get]

theorem Agree.int {sect : List Char} {name : String} (h : Agree r r' sect name) (d : Int) :
    r.getInteger sect name.toList d = r'.getInteger sect name.toList d := by
  simp only [Reader.getInteger, h.get]

/-- Everything that is shown is the same in both files. -/
structure Shown (r r' : Reader) : Prop where
  sections : r.sections = r'.sections
  names : ∀ sect, ∀ name ∈ ["time_step", "time_end", "units", "file_name", "tracking", "field_type", "e_field",
    "b_field", "wavelength", "direction", "duration", "waist", "start", "focus", "radiation_model", "min_energy",
    "sample_fraction", "pair_production", "number_particles", "name", "particle_type", "position", "energy_mean",
    "energy_sig", "radius", "divergence", "output", "particle", "time", "bins", "min_bin", "max_bin"],
    Agree r r' sect name
  amplitude : r.get "Field".toList "field_type".toList [] ≠ "plane".toList → Agree r r' "Field".toList "e_max"
  polarisation : r.get "Field".toList "field_type".toList [] = "plane".toList →
    Agree r r' "Field".toList "polerisation"

theorem Shown.symm (h : Shown r r') : Shown r' r := by
  have ht := (h.names "Field".toList "field_type" (by decide)).get []
  refine ⟨h.sections.symm, fun s n hn => (h.names s n hn).symm, fun hp => ?_, fun hp => ?_⟩
  · rw [← ht] at hp
    exact (h.amplitude hp).symm
  · rw [← ht] at hp
    exact (h.polarisation hp).symm

theorem Shown.vitals (h : Shown r r') : checkVitals r = checkVitals r' := by
  unfold checkVitals
  rw [h.sections, (h.names _ "time_step" (by decide)).has, (h.names _ "time_end" (by decide)).has,
    (h.names _ "units" (by decide)).has]

theorem Shown.general (h : Shown r r') :
    (readGeneral r : Res (UnitsSystem D × GeneralParams D)) = readGeneral r' := by
  unfold readGeneral
  dsimp only
  rw [(h.names _ "units" (by decide)).str, (h.names _ "time_step" (by decide)).real,
    (h.names _ "time_end" (by decide)).real, (h.names _ "file_name" (by decide)).str,
    (h.names _ "tracking" (by decide)).bool]

theorem Shown.field (h : Shown r r') (u : UnitsSystem D) {f : FieldParams D} (hf : readField r u = .ok f) :
    ∃ f', readField r' u = .ok f' ∧ f.Alike f' := by
  have ht := (h.names "Field".toList "field_type" (by decide)).str ""
  have hpl : r.get "Field".toList "field_type".toList [] = "plane".toList ↔
      str r "Field".toList "field_type" "" = "plane" := (str_eq _ _ _ _ _ (by decide) (by decide)).symm
  unfold readField at hf ⊢
  dsimp only at hf ⊢
  rw [← h.sections, ← ht]
  split at hf
  · rename_i hsec
    rw [if_pos hsec]
    split at hf
    · cases hf
    · rename_i h1
      rw [if_neg h1]
      split at hf
      · rename_i h2
        rw [if_pos h2, ← (h.names _ "e_field" (by decide)).vec, ← (h.names _ "b_field" (by decide)).vec]
        obtain ⟨e, he, hf⟩ := bind_eq_ok.1 hf
        obtain ⟨b, hb, hf⟩ := bind_eq_ok.1 hf
        cases hf
        rw [he, Res.ok_bind, hb, Res.ok_bind]
        exact ⟨_, rfl, rfl, rfl⟩
      · rename_i h2
        rw [if_neg h2]
        split at hf
        · rename_i h3
          rw [if_pos h3, ← (h.names _ "direction" (by decide)).vec, ← (h.names _ "wavelength" (by decide)).real,
            ← (h.polarisation (hpl.2 h3)).real]
          obtain ⟨d, hd, hf⟩ := bind_eq_ok.1 hf
          cases hf
          rw [hd, Res.ok_bind]
          exact ⟨_, rfl, rfl, rfl, rfl⟩
        · rename_i h3
          rw [if_neg h3, ← (h.names _ "start" (by decide)).vec, ← (h.names _ "focus" (by decide)).vec,
            ← (h.names _ "wavelength" (by decide)).real, ← (h.names _ "duration" (by decide)).real,
            ← (h.names _ "waist" (by decide)).real, ← (h.amplitude fun hp => h3 (hpl.1 hp)).real]
          obtain ⟨s, hs, hf⟩ := bind_eq_ok.1 hf
          obtain ⟨g, hg, hf⟩ := bind_eq_ok.1 hf
          rw [hs, Res.ok_bind, hg, Res.ok_bind]
          split at hf
          · rename_i h4
            cases hf
            rw [if_pos h4]
            exact ⟨_, rfl, rfl, rfl, rfl, rfl, rfl, rfl⟩
          · rename_i h4
            cases hf
            rw [if_neg h4]
            exact ⟨_, rfl, rfl, rfl, rfl, rfl, rfl, rfl⟩
  · rename_i hsec
    cases hf
    rw [if_neg hsec]
    exact ⟨_, rfl, trivial⟩

theorem numbered_alike {α : Type} {sections : List (List Char)} {pre : String} {read read' : List Char → Res α}
    {R : α → α → Prop} (h : ∀ s a, read s = .ok a → ∃ b, read' s = .ok b ∧ R a b) : ∀ (fuel i : Nat) (as : List α),
    readNumbered sections pre read fuel i = .ok as →
      ∃ bs, readNumbered sections pre read' fuel i = .ok bs ∧ List.Forall₂ R as bs
  | 0, _, as, e => by
    cases e
    exact ⟨[], rfl, .nil⟩
  | fuel + 1, i, as, e => by
    unfold readNumbered at e ⊢
    split at e
    · rename_i hs
      obtain ⟨a, ha, e⟩ := bind_eq_ok.1 e
      obtain ⟨l, hl, e⟩ := bind_eq_ok.1 e
      cases e
      obtain ⟨b, hb, hab⟩ := h _ _ ha
      obtain ⟨bs, hbs, hl'⟩ := numbered_alike h fuel (i + 1) l hl
      rw [if_pos hs, hb, Res.ok_bind, hbs, Res.ok_bind]
      exact ⟨_, rfl, .cons hab hl'⟩
    · rename_i hs
      cases e
      rw [if_neg hs]
      exact ⟨[], rfl, .nil⟩

theorem Shown.particle (h : Shown r r') (u : UnitsSystem D) (s : List Char) {p : ParticleParams D}
    (hp : readParticle r u s = .ok p) : ∃ q, readParticle r' u s = .ok q ∧ p.Alike q := by
  unfold readParticle at hp ⊢
  rw [← (h.names _ "position" (by decide)).vec, ← (h.names _ "direction" (by decide)).vec]
  obtain ⟨x, hx, hp⟩ := bind_eq_ok.1 hp
  obtain ⟨d, hd, hp⟩ := bind_eq_ok.1 hp
  cases hp
  rw [hx, Res.ok_bind, hd, Res.ok_bind]
  refine ⟨_, rfl, ?_⟩
  unfold ParticleParams.Alike
  dsimp only
  rw [(h.names _ "number_particles" (by decide)).int, (h.names _ "name" (by decide)).string,
    (h.names _ "particle_type" (by decide)).str, (h.names _ "energy_mean" (by decide)).real,
    (h.names _ "energy_sig" (by decide)).real, (h.names _ "radius" (by decide)).real,
    (h.names _ "divergence" (by decide)).real, (h.names _ "duration" (by decide)).real,
    (h.names _ "output" (by decide)).bool]

theorem Shown.histogram (h : Shown r r') (u : UnitsSystem D) (s : List Char) {p : HistogramParams D}
    (hp : readHistogram r u s = .ok p) : ∃ q, readHistogram r' u s = .ok q ∧ p.Alike q := by
  unfold readHistogram at hp ⊢
  cases hp
  refine ⟨_, rfl, ?_⟩
  unfold HistogramParams.Alike
  dsimp only
  rw [(h.names _ "name" (by decide)).string, (h.names _ "particle" (by decide)).str,
    (h.names _ "time" (by decide)).real, (h.names _ "bins" (by decide)).int,
    (h.names _ "min_bin" (by decide)).real, (h.names _ "max_bin" (by decide)).real]

theorem Shown.physics (h : Shown r r') (u : UnitsSystem D) : readPhysics r u = readPhysics r' u := by
  unfold readPhysics
  dsimp only
  rw [(h.names _ "radiation_model" (by decide)).str, (h.names _ "min_energy" (by decide)).real,
    (h.names _ "sample_fraction" (by decide)).real, (h.names _ "pair_production" (by decide)).bool]

theorem Shown.parse (h : Shown r r') {i : Input D} (hi : parse r = .ok i) :
    ∃ j, FileParser.parse r' = .ok j ∧ i.Alike j := by
  obtain ⟨hv, u, g, f, ps, hs, h2, h3, h4, h5, rfl⟩ := parse_eq_ok.mp hi
  obtain ⟨f', hf', hff⟩ := h.field u h3
  obtain ⟨ps', hps', hpp⟩ := numbered_alike (fun s a => h.particle u s) _ _ _ h4
  obtain ⟨hs', hhs', hhh⟩ := numbered_alike (fun s a => h.histogram u s) _ _ _ h5
  refine ⟨⟨g, f', ps', readPhysics r' u, hs'⟩, parse_eq_ok.mpr ⟨h.vitals ▸ hv, u, g, f', ps', hs', (h.general (D := D)) ▸ h2, hf',
    h.sections ▸ hps', h.sections ▸ hhs', rfl⟩, rfl, hff, hpp, h.physics u, hhh⟩

theorem Shown.checkFile (h : Shown r r') (old : Option (List (CheckLine D))) :
    FileParser.checkFile old r = FileParser.checkFile old r' := by
  unfold FileParser.checkFile
  rw [h.vitals]
  split
  · cases e : (FileParser.parse r : Res (Input D)) with
    | ok i =>
      obtain ⟨j, hj, ha⟩ := h.parse e
      rw [hj]
      dsimp only
      rw [(C146_iff_partial i j).2 ha]
    | _ =>
      cases e' : (FileParser.parse r' : Res (Input D)) with
      | ok j =>
        obtain ⟨i, hi, -⟩ := h.symm.parse e'
        rw [e] at hi
        cases hi
      | _ => rfl
  · rfl

/-- C146 is false of every input file with such an entry: the amplitude of a plane wave, the polarisation of a pulse,
the energy distribution of a source and the quantity of a histogram can be given any other value, or left out, and the
check file stays the same. -/
theorem C146_hidden_refuted (hs : r.sections = r'.sections)
    (hv : ∀ sect name, '=' ∉ name → ¬ HiddenEntry r sect name →
      r.values (makeKey sect name) = r'.values (makeKey sect name)) (old : Option (List (CheckLine D))) :
    checkFile old r = checkFile old r' := by
  have no : ∀ name : String, lower name.toList ≠ "e_max".toList → lower name.toList ≠ "polerisation".toList →
      lower name.toList ≠ "energy_distribution".toList → lower name.toList ≠ "type".toList →
      ∀ sect, ¬ HiddenEntry r sect name.toList := by
    rintro name h1 h2 h3 h4 sect (⟨-, h, -⟩ | ⟨-, h, -⟩ | ⟨i, -, h⟩ | ⟨i, -, h⟩)
    · exact h1 h
    · exact h2 h
    · exact h3 h
    · exact h4 h
  refine Shown.checkFile ⟨hs, ?_, ?_, ?_⟩ old
  · intro sect name hn
    simp only [List.mem_cons, List.not_mem_nil, or_false] at hn
    rcases hn with h | h | h | h | h | h | h | h | h | h | h | h | h | h | h | h | h | h | h | h | h | h | h | h | h | h | h |
      h | h | h | h | h <;> subst h <;>
      exact hv _ _ (by decide) (no _ (by decide) (by decide) (by decide) (by decide) sect)
  · intro ht
    refine hv _ _ (by decide) ?_
    rintro (⟨-, -, h⟩ | ⟨-, h, -⟩ | ⟨i, -, h⟩ | ⟨i, -, h⟩)
    · exact ht h
    · exact absurd h (by unfold SameName; decide)
    · exact absurd h (by unfold SameName; decide)
    · exact absurd h (by unfold SameName; decide)
  · intro ht
    refine hv _ _ (by decide) ?_
    rintro (⟨-, h, -⟩ | ⟨-, -, h⟩ | ⟨i, -, h⟩ | ⟨i, -, h⟩)
    · exact absurd h (by unfold SameName; decide)
    · exact h ht
    · exact absurd h (by unfold SameName; decide)
    · exact absurd h (by unfold SameName; decide)

/-- The check file of a rejected input: if a required entry is missing it is that of the run before; if the input is
rejected for another reason it is empty. It is written only for an input that is accepted. -/
theorem C146_rejected (r : Reader) (old : Option (List (CheckLine D))) :
    ((∃ x, checkVitals r = .ok x) → (∀ i : Input D, parse r ≠ .ok i) → checkFile old r = some []) ∧
    ((∀ x, checkVitals r ≠ .ok x) → checkFile old r = old) ∧
    ∀ i : Input D, parse r = .ok i → checkFile old r = some (checkLines i) := by
  refine ⟨?_, ?_, ?_⟩
  · rintro ⟨x, hx⟩ h
    unfold checkFile
    rw [hx]
    dsimp only
    split
    · rename_i i hi
      exact absurd hi (h i)
    · rfl
  · intro h
    unfold checkFile
    split
    · rename_i x hx
      exact absurd hx (h x)
    · rfl
  · intro i hi
    have hv := (parse_eq_ok.mp hi).1
    unfold checkFile
    rw [hv, hi]

end hidden

/-- Two configurations that differ in the value of one entry give readers that differ for this entry only. -/
theorem one_entry {c c' : Config} (h : c.WF) (h' : c'.WF) {pre post : List (List Char × List Char × List Char)}
    {s n v v' : List Char} (e : c.entries = pre ++ (s, n, v) :: post) (e' : c'.entries = pre ++ (s, n, v') :: post)
    {key : List Char} (hk : key ≠ makeKey s n) :
    (Reader.ofFile (fileOf c.lines)).values key = (Reader.ofFile (fileOf c'.lines)).values key := by
  obtain ⟨-, h2, h3, -⟩ := config_values h
  obtain ⟨-, h2', h3', -⟩ := config_values h'
  by_cases hx : ∃ x ∈ pre ++ post, makeKey x.1 x.2.1 = key
  · obtain ⟨x, hx, rfl⟩ := hx
    have hm : x ∈ c.entries := by
      rw [e]
      rcases List.mem_append.1 hx with hx | hx <;> simp [hx]
    have hm' : x ∈ c'.entries := by
      rw [e']
      rcases List.mem_append.1 hx with hx | hx <;> simp [hx]
    rw [h2 x hm, h2' x hm']
  · push Not at hx
    rw [h3, h3']
    · intro x hm
      rw [e'] at hm
      rcases List.mem_append.1 hm with hm | hm
      · exact hx x (by simp [hm])
      · rcases List.mem_cons.1 hm with rfl | hm
        · exact hk.symm
        · exact hx x (by simp [hm])
    · intro x hm
      rw [e] at hm
      rcases List.mem_append.1 hm with hm | hm
      · exact hx x (by simp [hm])
      · rcases List.mem_cons.1 hm with rfl | hm
        · exact hk.symm
        · exact hx x (by simp [hm])

/-- A plane wave with an amplitude of `d` volts per metre. -/
def waveConfig (d : Fin 10) : Config :=
  [("General".toList, [("time_step".toList, "1e-18".toList), ("time_end".toList, "1e-15".toList),
      ("units".toList, "SI".toList)]),
    ("Field".toList, [("field_type".toList, "plane".toList),
      ("e_max".toList, (⟨false, [d], none, none⟩ : Numeral).text), ("wavelength".toList, "8e-7".toList)])]

theorem waveConfig_wf (d : Fin 10) : (waveConfig d).WF :=
  Config.wfB_spec ((by decide : ∀ d, (waveConfig d).wfB = true) d)

theorem waveConfig_field (d : Fin 10) : ∃ i : Input ℝ, parse (Reader.ofFile (fileOf (waveConfig d).lines)) = .ok i ∧
    ∃ maxE l p n, i.field = .plane maxE l p n ∧ maxE * (unitsSI : UnitsSystem ℝ).refEField = (d : ℕ) := by
  have h := waveConfig_wf d
  have g : ∀ n v, (n, v) ∈ [("time_step".toList, "1e-18".toList), ("time_end".toList, "1e-15".toList),
      ("units".toList, "SI".toList)] → (waveConfig d).Says "General".toList n v := fun n v hm =>
    ⟨_, List.mem_cons_self, _, hm, rfl, rfl, rfl⟩
  have f : ∀ n v, (n, v) ∈ [("field_type".toList, "plane".toList),
      ("e_max".toList, (⟨false, [d], none, none⟩ : Numeral).text), ("wavelength".toList, "8e-7".toList)] →
      (waveConfig d).Says "Field".toList n v := fun n v hm =>
    ⟨_, List.mem_cons_of_mem _ List.mem_cons_self, _, hm, rfl, rfl, rfl⟩
  have ft := f "field_type".toList "plane".toList (by simp)
  obtain ⟨i, hi⟩ : ∃ i : Input ℝ, parse (Reader.ofFile (fileOf (waveConfig d).lines)) = .ok i := by
    apply (C66_accepts_iff _).1.mpr
    refine ⟨(mem_sections_iff h _).mpr ⟨_, List.mem_cons_self, by simp⟩,
      (get_of_says h (g "time_step".toList "1e-18".toList (by simp)) []).2, (get_of_says h (g "time_end".toList "1e-15".toList (by simp)) []).2,
      (get_of_says h (g "units".toList "SI".toList (by simp)) []).2,
      Or.inl (get_of_says h (g "units".toList "SI".toList (by simp)) []).1, fun _ => ?_, fun n hn hs => ?_⟩
    · exact .inr (.inl ⟨(get_of_says h ft []).1, vectorOk_of_silent h (by decide)
        ((by decide : ∀ d, silentB (waveConfig d) "Field".toList "direction".toList = true) d)⟩)
    · obtain ⟨es, hes, -⟩ := (mem_sections_iff h _).mp (hs n hn le_rfl)
      simp [waveConfig, numbered] at hes
  refine ⟨i, hi, ?_⟩
  have hF := (C79_parameters _ h i hi).2.1
  cases hf : i.field with
  | plane maxE l p n =>
    rw [hf] at hF
    refine ⟨_, _, _, _, rfl, ?_⟩
    rw [hF.2.1.2 ⟨false, [d], none, none⟩ (by simp [Numeral.WF]) (f "e_max".toList _ (by simp))]
    simp [Numeral.value, Numeral.nat, Numeral.expVal]
  | _ =>
    exfalso
    rw [hf] at hF
    first
      | exact hF ⟨_, List.mem_cons_of_mem _ List.mem_cons_self, by simp⟩
      | (have := (get_of_says h ft []).1.symm.trans (get_of_says h hF.1 []).1
         revert this
         decide)

/-- C146 is false: in these ten files the amplitude of the wave goes from nothing to nine volts per metre, and the
check file is always the same. -/
theorem C146_refuted (d d' : Fin 10) :
    (∃ i : Input ℝ, parse (Reader.ofFile (fileOf (waveConfig d).lines)) = .ok i ∧
      ∃ maxE l p n, i.field = .plane maxE l p n ∧ maxE * (unitsSI : UnitsSystem ℝ).refEField = (d : ℕ)) ∧
    ∀ old : Option (List (CheckLine ℝ)), checkFile old (Reader.ofFile (fileOf (waveConfig d).lines)) =
      checkFile old (Reader.ofFile (fileOf (waveConfig d').lines)) := by
  refine ⟨waveConfig_field d, fun old => C146_hidden_refuted ?_ ?_ old⟩
  · have : ∀ d, (Reader.ofFile (fileOf (waveConfig d).lines)).sections = ["General".toList, "Field".toList] := by
      decide +kernel
    rw [this d, this d']
  · intro sect name hn hh
    refine one_entry (waveConfig_wf d) (waveConfig_wf d') (pre := [("General".toList, "time_step".toList, "1e-18".toList),
      ("General".toList, "time_end".toList, "1e-15".toList), ("General".toList, "units".toList, "SI".toList),
      ("Field".toList, "field_type".toList, "plane".toList)]) (post := [("Field".toList, "wavelength".toList,
      "8e-7".toList)]) (s := "Field".toList) (n := "e_max".toList) rfl rfl fun hk => hh (.inl ?_)
    obtain ⟨h1, h2⟩ := (makeKey_inj hn (by decide)).1 hk
    exact ⟨h1, h2, (get_of_says (waveConfig_wf d) ⟨_, List.mem_cons_of_mem _ List.mem_cons_self, _,
      List.mem_cons_self, rfl, rfl, rfl⟩ []).1⟩

/-- Nor does the check file show the numbers that were given: they are converted. The time step of any input file is
shown as it was given only if it is zero. -/
theorem C146_units_refuted (c : Config) (h : c.WF) (i : Input ℝ)
    (hi : parse (Reader.ofFile (fileOf c.lines)) = .ok i) (m : Numeral) (hm : m.WF)
    (hs : c.Says "General".toList "time_step".toList m.text) :
    ∃ x : ℝ, CheckLine.entry "Time step   = " (.num x) ∈ checkLines i ∧
      x * (unitsSI : UnitsSystem ℝ).refTime = m.value ∧ (x = m.value ↔ (m.value : ℝ) = 0) := by
  have ht := si_pos.1
  have h1 : (unitsSI : UnitsSystem ℝ).refTime ≠ 1 := by
    simp only [unitsSI, SI_eSchw, SI_qe, SI_me, SI_c, real_lit, real_mul, real_div]
    norm_num
  have hg := (C79_parameters c h i hi).1.1.2 m hm hs
  refine ⟨i.general.timeStep, by simp [checkLines, checkGeneral], hg, ?_⟩
  rw [← hg]
  constructor
  · intro e
    have : i.general.timeStep * ((unitsSI : UnitsSystem ℝ).refTime - 1) = 0 := by linarith
    rcases mul_eq_zero.1 this with h0 | h0
    · rw [h0, zero_mul]
    · exact absurd (sub_eq_zero.1 h0) h1
  · intro e
    rcases mul_eq_zero.1 e with h0 | h0
    · rw [h0, zero_mul]
    · exact absurd h0 ht.ne'

/-- The file of C146_refuted has a time step of 1e-18 s. -/
example (d : Fin 10) : ∃ i : Input ℝ, parse (Reader.ofFile (fileOf (waveConfig d).lines)) = .ok i ∧
    ∃ m : Numeral, m.WF ∧ (waveConfig d).Says "General".toList "time_step".toList m.text ∧ (m.value : ℝ) ≠ 0 := by
  obtain ⟨i, hi, -⟩ := waveConfig_field d
  refine ⟨i, hi, ⟨false, [1], none, some (true, [1, 8])⟩, by simp [Numeral.WF], ⟨_, List.mem_cons_self, _,
    List.mem_cons_self, rfl, rfl, by decide⟩, ?_⟩
  simp only [Numeral.value, Numeral.nat]
  norm_num
  positivity

/-- An input without a section is rejected at once, one with unknown units later. -/
example (old : Option (List (CheckLine ℝ))) : checkFile old .empty = old ∧
    checkFile old ⟨0, fun _ => some "x".toList, ["General".toList]⟩ = some [] := by
  refine ⟨(C146_rejected _ old).2.1 fun x hx => ?_, (C146_rejected _ old).1 ⟨(), ?_⟩ fun i hi => ?_⟩
  · have := (checkVitals_ok.1 hx).1
    simp [Reader.empty] at this
  · exact checkVitals_ok.2 ⟨by simp, rfl, rfl, rfl⟩
  · have := (C66_accepts_iff _).1.1 ⟨i, hi⟩
    rcases this.units with h | h <;> revert h <;> decide

end QED
