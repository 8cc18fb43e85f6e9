import Verif.Model.Main
import Verif.Props.Input

set_option autoImplicit false

/-!
# Command line and set-up of a run (C66, C68, C69)
-/

namespace QED

open Ini FileParser Main

/-! ## C69 -/

/-- C69: the program goes on to run exactly if it has one argument and that ends in `.ini`. -/
theorem C69_runs_iff (args : List (List Char)) (path : List Char) :
    commandLine args = .ok path ↔ args = [path] ∧ ∃ stem, path = stem ++ ".ini".toList := by
  rcases args with _ | ⟨a, _ | ⟨b, args⟩⟩
  · simp [commandLine]
  · have key : (a.length ≥ 4 ∧ a.drop (a.length - 4) = ".ini".toList) ↔
        ∃ stem, a = stem ++ ".ini".toList := by
      constructor
      · rintro ⟨-, h⟩
        exact ⟨a.take (a.length - 4), by rw [← h, List.take_append_drop]⟩
      · rintro ⟨stem, rfl⟩
        have hl : ".ini".toList.length = 4 := rfl
        refine ⟨by rw [List.length_append, hl]; omega, ?_⟩
        rw [List.length_append, hl, Nat.add_sub_cancel, List.drop_left]
    unfold commandLine
    dsimp only
    split
    · rename_i h
      subst h
      simp only [reduceCtorEq, false_iff, not_and, not_exists]
      rintro he stem hs
      simp only [List.cons.injEq, and_true] at he
      rw [← he] at hs
      have := congrArg List.length hs
      simp at this
    · split
      · rename_i h
        simp only [reduceCtorEq, false_iff, not_and]
        intro he hs
        simp only [List.cons.injEq, and_true] at he
        subst he
        have := (key.mpr hs).1
        omega
      · rename_i h
        split
        · rename_i hd
          simp only [Res.ok.injEq, List.cons.injEq, and_true]
          constructor
          · rintro rfl
            exact ⟨rfl, key.mp ⟨by omega, hd⟩⟩
          · exact fun h => h.1
        · rename_i hd
          simp only [reduceCtorEq, false_iff, not_and]
          intro he hs
          simp only [List.cons.injEq, and_true] at he
          subst he
          exact hd (key.mpr hs).2
  · simp [commandLine]

/-- C69, the part that holds: on every other command line the program returns error code 1, unless the
only argument has fewer than four characters. Missing: those, see `C69_refuted`. -/
theorem C69_error_code_partial (args : List (List Char))
    (h : ¬ ∃ path, args = [path] ∧ ∃ stem, path = stem ++ ".ini".toList)
    (hs : ∀ a, args = [a] → 4 ≤ a.length ∨ a = "-h".toList) : commandLine args = .exit 1 := by
  rcases args with _ | ⟨a, _ | ⟨b, args⟩⟩
  · rfl
  · have hno : ∀ p, commandLine [a] ≠ .ok p := fun p hp => h ⟨p, (C69_runs_iff _ _).mp hp⟩
    unfold commandLine at hno ⊢
    dsimp only at hno ⊢
    split
    · rfl
    · rename_i h1
      have := (hs a rfl).resolve_right h1
      rw [if_neg h1, if_neg (by omega)] at hno
      rw [if_neg (by omega)]
      split
      · rename_i h2
        rw [if_pos h2] at hno
        exact absurd rfl (hno a)
      · rfl
  · rfl

/-- C69 is false: with one argument of fewer than four characters other than `-h` the program ends
with an uncaught exception. -/
theorem C69_refuted (a : List Char) (h1 : a.length < 4) (h2 : a ≠ "-h".toList) :
    commandLine [a] = .throw "std::out_of_range" := by
  unfold commandLine
  dsimp only
  rw [if_neg h2, if_pos h1]

example : commandLine ["run.ini".toList] = .ok "run.ini".toList := by decide
example : commandLine ["run.txt".toList] = .exit 1 := by decide
example : commandLine ["-v".toList] = .throw "std::out_of_range" := by decide

/-! ## C68 -/

/-- The physics models of the documentation. -/
inductive Model where
  | classical
  | semiclassical
  | quantum

/-- The names a model goes by. -/
def Model.names : Model → List String
  | .classical => ["Classical", "classical"]
  | .semiclassical => ["Semiclassical", "semiclassical"]
  | .quantum => ["Quantum", "quantum"]

/-- Equation of motion and emission process of a model. -/
def Model.Is {D : Type} [Dbl D] (cfg : EmissionCfg D) : Model → PushMom D → Proc D → Prop
  | .classical, push, proc => push = landauForce ∧ proc = .continuous cfg true
  | .semiclassical, push, proc => push = modLandauForce ∧ proc = .continuous cfg false
  | .quantum, push, proc => push = lorentzForce ∧ proc = .stochastic cfg

theorem setup_eq {t : Tables ℝ} {i : Input ℝ} {cfg : SimCfg ℝ} (h : setup t i = .ok cfg) :
    ∃ field push procs, makeField i.field = .ok field ∧
      makePhysics t i.general i.physics field = .ok (push, procs) ∧
      cfg = ⟨push, field, i.general.timeStep, i.general.timeEnd, procs⟩ := by
  unfold setup at h
  simp only [bind_eq_ok] at h
  obtain ⟨f, hf, ⟨push, procs⟩, hp, h⟩ := h
  cases h
  exact ⟨f, push, procs, hf, hp, rfl⟩

/-- C68: a known name selects the equation of motion and the emission process of its model, with the
sampling parameters, the time step and the field of this run; pair production is added exactly if it
is asked for; and every other name ends the program with error code 1. -/
theorem C68_selection (t : Tables ℝ) (i : Input ℝ) :
    (∀ cfg, setup t i = .ok cfg → ∃ (m : Model) (e : EmissionCfg ℝ) (proc : Proc ℝ),
      i.physics.physics ∈ m.names ∧ m.Is e cfg.push proc ∧
      e.field = cfg.field ∧ e.dt = i.general.timeStep ∧ e.track = i.general.tracking ∧
      e.sampleFrac = i.physics.sampleFraction ∧ e.eMin = i.physics.minEnergy ∧
      (i.physics.pairProduction = false → cfg.procs = [proc]) ∧
      (i.physics.pairProduction = true → ∃ b : BWCfg ℝ, b.field = cfg.field ∧
        b.dt = i.general.timeStep ∧ cfg.procs = [proc, .breitWheeler b])) ∧
    ((∀ m : Model, i.physics.physics ∉ m.names) → setup t i = .exit 1) ∧
    (∀ m : Model, i.physics.physics ∈ m.names → i.field ≠ .unset → ∃ cfg, setup t i = .ok cfg) := by
  refine ⟨?_, ?_, ?_⟩
  · intro cfg h
    obtain ⟨field, push, procs, -, hp, rfl⟩ := setup_eq h
    unfold makePhysics at hp
    simp only [bind_eq_ok] at hp
    obtain ⟨⟨pu, em⟩, h1, h2⟩ := hp
    have hm : ∃ m : Model, i.physics.physics ∈ m.names ∧
        m.Is (emissionCfg t field i.general.timeStep i.physics.sampleFraction i.physics.minEnergy
          i.general.tracking) pu em := by
      unfold makeEmission at h1
      split at h1
      · rename_i hn
        cases h1
        exact ⟨.classical, by simpa [Model.names] using hn, rfl, rfl⟩
      · split at h1
        · rename_i hn
          cases h1
          exact ⟨.semiclassical, by simpa [Model.names] using hn, rfl, rfl⟩
        · split at h1
          · rename_i hn
            cases h1
            exact ⟨.quantum, by simpa [Model.names] using hn, rfl, rfl⟩
          · cases h1
    obtain ⟨m, hn, hm⟩ := hm
    dsimp only at h2
    split at h2
    · rename_i hpp
      cases h2
      exact ⟨m, _, em, hn, hm, rfl, rfl, rfl, rfl, rfl, (fun h => by simp [h] at hpp),
        fun _ => ⟨_, rfl, rfl, rfl⟩⟩
    · rename_i hpp
      cases h2
      exact ⟨m, _, em, hn, hm, rfl, rfl, rfl, rfl, rfl, fun _ => rfl, fun h => absurd h hpp⟩
  · intro hno
    have h1 := hno .classical
    have h2 := hno .semiclassical
    have h3 := hno .quantum
    simp only [Model.names, List.mem_cons, List.not_mem_nil, or_false] at h1 h2 h3
    have hphys : ∀ f, makePhysics t i.general i.physics f = .exit 1 := by
      intro f
      unfold makePhysics makeEmission
      simp only [h1, h2, h3, if_false, Res.exit_bind]
    unfold setup
    cases hf : i.field <;> simp only [makeField, Res.ok_bind, Res.exit_bind, hphys]
  · intro m hm hf
    have hphys : ∀ f, ∃ x, makePhysics t i.general i.physics f = .ok x := by
      intro f
      unfold makePhysics makeEmission
      cases m <;> simp only [Model.names, List.mem_cons, List.not_mem_nil, or_false] at hm <;>
        rcases hm with hm | hm <;> rw [hm] <;> simp only [String.reduceEq, or_false, or_true,
          if_true, if_false, Res.ok_bind] <;> split <;> exact ⟨_, rfl⟩
    have hfield : ∃ f, makeField i.field = .ok f := by
      cases h : i.field <;> first | exact absurd h hf | exact ⟨_, rfl⟩
    obtain ⟨f, hf⟩ := hfield
    obtain ⟨⟨a, b⟩, hx⟩ := hphys f
    exact ⟨_, by unfold setup; rw [hf, Res.ok_bind, hx]; rfl⟩

/-- C68 from the file: the name written in the physics section decides. -/
theorem C68_from_file (c : Config) (h : c.WF) (inp : Input ℝ)
    (hp : parse (Reader.ofFile (fileOf c.lines)) = .ok inp) (name : String) (hne : name ≠ "")
    (hs : c.Says "Physics".toList "radiation_model".toList name.toList) (t : Tables ℝ) :
    (∀ m : Model, name ∈ m.names → ∀ cfg, setup t inp = .ok cfg → ∃ e proc, m.Is e cfg.push proc ∧
      cfg.procs.head? = some proc) ∧
    ((∀ m : Model, name ∉ m.names) → setup t inp = .exit 1) := by
  have hname : inp.physics.physics = name := by
    have := (C79_parameters c h inp hp).2.2.physics.2 name.toList
      (fun e => hne (String.toList_eq_nil_iff.mp e)) hs
    exact String.toList_inj.mp this
  obtain ⟨a, b, -⟩ := C68_selection t inp
  rw [hname] at a b
  refine ⟨?_, b⟩
  intro m hm cfg hc
  obtain ⟨m', e, proc, h1, h2, -, -, -, -, -, h3, h4⟩ := a cfg hc
  have : m' = m := by
    cases m <;> cases m' <;> simp only [Model.names, List.mem_cons, List.not_mem_nil, or_false]
      at hm h1 <;> first | rfl | (rcases hm with rfl | rfl <;> simp at h1)
  subst this
  refine ⟨e, proc, h2, ?_⟩
  cases hpp : inp.physics.pairProduction with
  | false => rw [h3 hpp]; rfl
  | true =>
    obtain ⟨_, -, -, hb⟩ := h4 hpp
    rw [hb]; rfl

/-! ## C66: the whole way to the event loop -/

/-- C66: the program gets as far as setting up particle sources exactly if it is given a readable
`.ini` file that is acceptable, has a field section and names a known model. A missing file, an
unacceptable one, a missing field section and an unknown model all end it with error code 1. -/
theorem C66_starts_iff (t : Tables ℝ) (files : List Char → Option (List Char)) (stem : List Char) :
    let args := [stem ++ ".ini".toList]
    ((∃ x : Input ℝ × SimCfg ℝ, start t files args = .ok x) ↔
      ∃ text, files (stem ++ ".ini".toList) = some text ∧ Acceptable (Reader.ofFile text) ∧
        "Field".toList ∈ (Reader.ofFile text).sections ∧
        ∃ m : Model, (Reader.ofFile text).get "Physics".toList "radiation_model".toList [] ∈
          m.names.map String.toList) ∧
    ((∃ x : Input ℝ × SimCfg ℝ, start t files args = .ok x) ∨ start t files args = .exit 1) := by
  intro args
  have hcl : commandLine args = .ok (stem ++ ".ini".toList) :=
    (C69_runs_iff _ _).mpr ⟨rfl, stem, rfl⟩
  unfold start
  rw [hcl, Res.ok_bind]
  cases hfile : files (stem ++ ".ini".toList) with
  | none => simp [Reader.new]
  | some text =>
    simp only [Reader.new, Res.ok_bind, Option.some.injEq, exists_eq_left']
    rcases parse_okOrOne (D := ℝ) (Reader.ofFile text) with ⟨inp, hp⟩ | hp
    · have hacc := (C66_accepts_iff _).1.mp ⟨inp, hp⟩
      rw [hp, Res.ok_bind]
      obtain ⟨-, u, g, f, ps, hs, -, h3, -, -, rfl⟩ := parse_eq_ok.mp hp
      have hunset : f = .unset ↔ "Field".toList ∉ (Reader.ofFile text).sections := by
        unfold readField at h3
        dsimp only at h3
        split at h3
        · rename_i hin
          simp only [hin, not_true_eq_false, iff_false]
          rintro rfl
          split at h3
          · cases h3
          · split at h3
            · simp [bind_eq_ok] at h3
            · split at h3
              · simp [bind_eq_ok] at h3
              · simp only [bind_eq_ok] at h3
                obtain ⟨_, -, _, -, h3⟩ := h3
                split at h3 <;> cases h3
        · rename_i hin
          cases h3
          simp only [hin, not_false_eq_true]
      have hname : ∀ m : Model, (readPhysics (Reader.ofFile text) u).physics ∈ m.names ↔
          (Reader.ofFile text).get "Physics".toList "radiation_model".toList [] ∈
          m.names.map String.toList := by
        intro m
        have key : ∀ v : String, v ≠ "" → ((readPhysics (Reader.ofFile text) u).physics = v ↔
            (Reader.ofFile text).get "Physics".toList "radiation_model".toList [] = v.toList) :=
          fun v hv => str_eq _ _ _ "" v hv hv.symm
        cases m <;> simp only [Model.names, List.map_cons, List.map_nil, List.mem_cons,
          List.not_mem_nil, or_false] <;> rw [key _ (by decide), key _ (by decide)]
      obtain ⟨s1, s2, s3⟩ := C68_selection t
        ⟨g, f, ps, readPhysics (Reader.ofFile text) u, hs⟩
      have hset : (∃ cfg, setup t ⟨g, f, ps, readPhysics (Reader.ofFile text) u, hs⟩ = .ok cfg) ↔
          "Field".toList ∈ (Reader.ofFile text).sections ∧ ∃ m : Model,
          (Reader.ofFile text).get "Physics".toList "radiation_model".toList [] ∈
          m.names.map String.toList := by
        constructor
        · rintro ⟨cfg, hc⟩
          refine ⟨?_, ?_⟩
          · by_contra hno
            have := hunset.mpr hno
            subst this
            unfold setup at hc
            cases hc
          · obtain ⟨m, _, _, hm, -⟩ := s1 cfg hc
            exact ⟨m, (hname m).mp hm⟩
        · rintro ⟨h1, m, hm⟩
          exact s3 m ((hname m).mpr hm) (fun e => (hunset.mp e) h1)
      simp only [hacc, true_and]
      rw [← hset]
      by_cases hok : ∃ cfg, setup t ⟨g, f, ps, readPhysics (Reader.ofFile text) u, hs⟩ = .ok cfg
      · obtain ⟨cfg, hc⟩ := hok
        rw [hc]
        simp
      · have hex : setup t ⟨g, f, ps, readPhysics (Reader.ofFile text) u, hs⟩ = .exit 1 := by
          by_cases hm : ∃ m : Model, (readPhysics (Reader.ofFile text) u).physics ∈ m.names
          · obtain ⟨m, hm⟩ := hm
            have : f = .unset := by
              by_contra hf
              exact hok (s3 m hm hf)
            subst this
            rfl
          · exact s2 (fun m hmm => hm ⟨m, hmm⟩)
        rw [hex]
        simp
    · have hacc : ¬ Acceptable (Reader.ofFile text) := by
        intro ha
        obtain ⟨inp, hi⟩ := (C66_accepts_iff _).1.mpr ha
        rw [hp] at hi
        cases hi
      rw [hp]
      simp [hacc]

/-- A physics section. -/
def quantumPhysics : Config :=
  [("Physics".toList, [("radiation_model".toList, "Quantum".toList),
    ("pair_production".toList, "true".toList)])]

/-- The hypotheses of `C68_from_file` can be met, and its conclusion is not empty: this file is set up
with stochastic emission. -/
example (t : Tables ℝ) : ∃ (inp : Input ℝ) (cfg : SimCfg ℝ) (e : EmissionCfg ℝ),
    parse (Reader.ofFile (fileOf (inputConfig "General" quantumPhysics).lines)) = .ok inp ∧
    setup t inp = .ok cfg ∧ cfg.push = lorentzForce ∧ cfg.procs.head? = some (.stochastic e) := by
  have hw : (inputConfig "General" quantumPhysics).WF := Config.wfB_spec (by decide)
  obtain ⟨inp, hi⟩ := inputConfig_ok quantumPhysics hw (by decide) (by decide)
    (fun n => by simp [silentB, inputConfig, numbered, quantumPhysics])
    (fun n => by simp [silentB, inputConfig, numbered, quantumPhysics])
  have hs : (inputConfig "General" quantumPhysics).Says "Physics".toList "radiation_model".toList
      "Quantum".toList := ⟨_, .tail _ (.tail _ (.head _)), _, .head _, rfl, rfl, rfl⟩
  have hq : inp.physics.physics = "Quantum" := String.toList_inj.mp
    ((C79_parameters _ hw inp hi).2.2.physics.2 _ (by decide) hs)
  have hf : inp.field ≠ .unset := by
    intro e
    have := (C79_parameters _ hw inp hi).2.1
    rw [e] at this
    exact this ⟨_, .tail _ (.head _), by simp⟩
  obtain ⟨cfg, hc⟩ := (C68_selection t inp).2.2 .quantum (by simp [hq, Model.names]) hf
  obtain ⟨e, proc, h1, h2⟩ := (C68_from_file _ hw inp hi "Quantum" (by decide) hs t).1 .quantum
    (by simp [Model.names]) cfg hc
  obtain ⟨h3, h4⟩ := h1
  exact ⟨inp, cfg, e, hi, hc, h3, by rw [h2, h4]⟩

end QED
