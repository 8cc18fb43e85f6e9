import Verif.Lemmas.SameRun

set_option autoImplicit false

/-!
# Property C137: the same simulation from an input file and from Python

Over the reals. An order (`Spec/SameRun.lean`) is written into an input file and asked for with the calls
of a run manager. `simRun` (`Spec/Parallel.lean`) is what the program simulates. Both are given the same
random numbers and tables.
-/

namespace QED

open Dbl MCTools RunMgr Main Ini FileParser MpiSpec

/-- C137, the part that holds: whatever the order, however it is spread over the file, and whatever
history of calls has asked for it last, the program accepts the file, and `beamOn` on any allowed number
of threads returns from a run with these primaries and final particles exactly if they are what the
program simulates. Missing: settings only one side knows, see `C137_name_refuted` and
`C137_fraction_refuted`; and a history that has misused the run manager, see C70. -/
theorem C137_events_partial (o : RunOrder) (ho : o.Sound) (hk : o.Common) (c : Config) (hc : c.WF)
    (hw : o.Written c) (fa : FieldArgs ℝ) (ga : GenArgs ℝ) (h : List (Call ℝ × Outcome ℝ)) (m : Mgr ℝ)
    (hh : History (RunMgr.new fa ga) h m) (hm : ¬ Misuse h) (ha : o.Asked h) (e : Env ℝ) (t : Int)
    (he : InOrder e o.number t) (hp : e.omp = true ∨ t = 1) (ht : 0 ≤ t)
    (raws : Nat → Nat → RawDraws ℝ) (hraw : raws 0 o.number = e.raw) (garbage : Nat → Nat) :
    ∃ inp cfg, parse (Reader.ofFile (fileOf c.lines)) = .ok inp ∧ setup e.tables inp = .ok cfg ∧
      ∀ ev : RankEvents ℝ,
        (∃ m' ls, BeamOn e o.number t m (.ok (.ran m' ls)) ∧
          ev = ⟨ls.flatMap (·.1.items), ls.map (·.2.items)⟩) ↔
        ∃ fuel, simRun inp cfg raws garbage e.rng fuel = (some (.ok ([ev], [])) : Timed _) := by
  obtain ⟨inp, hinp⟩ := (C66_accepts_iff _).1.mpr (written_accepted ho hc hw)
  have hheld := asked_held hk hh ha
  have hset := written_setup ho hc hw hinp hheld e.tables (by
    have := hk.physics
    simp only [List.mem_cons, List.not_mem_nil, or_false] at this ⊢
    tauto)
  obtain ⟨-, -, -, -, -, -, -, -, hhist, p, hps, -, hnum, hsrc⟩ := written_read ho hc hw hinp hheld
  refine ⟨inp, _, hinp, hset, fun ev => ?_⟩
  have hN : RunMgr.u32 (o.number : Int) = o.number := by
    have := ho.number
    unfold RunMgr.u32
    omega
  obtain ⟨m', hcfg, hres, hprep⟩ := prepare_same (n := o.number) hh hp hm (asked_configured ho hk ha) ht
  have hmake : makeSources inp.general raws 0 inp.particles =
      (sourceOf o.number e.raw m >>= fun s => .ok [(s, p.output)]) := by
    rw [hps]
    unfold makeSources makeSources
    rw [hnum, hraw, hsrc]
    rfl
  have hnorun : ∀ {w}, sourceOf o.number e.raw m = .ub w →
      ¬ (∃ m' ls, BeamOn e o.number t m (.ok (.ran m' ls)) ∧
          ev = ⟨ls.flatMap (·.1.items), ls.map (·.2.items)⟩) ∧
      ¬ ∃ fuel, simRun inp (simOf e.tables m) raws garbage e.rng fuel =
          (some (.ok ([ev], [])) : Timed _) := by
    intro w hw
    rw [hw, Res.ub_bind] at hprep hmake
    constructor
    · rintro ⟨m'', ls, hb, -⟩
      cases hb with
      | ran h1 _ => rw [hprep] at h1; cases h1
    · rintro ⟨fuel, hf⟩
      unfold simRun at hf
      rw [hmake] at hf
      cases hf
  obtain ⟨s1, s2⟩ := sourceOf_total angleInOrder (o.number : Int) e.raw m he.raw
  by_cases hb : BeamInOrder m.genArgs
  swap
  · obtain ⟨w, hw⟩ := s2 hb
    have := hnorun hw
    exact iff_of_false this.1 this.2
  obtain ⟨s, hs, hfull, h0, hn⟩ := s1 hb
  rw [hs, Res.ok_bind] at hprep hmake
  rw [hN] at hn
  have hsim : ∀ fuel, simRun inp (simOf e.tables m) raws garbage e.rng fuel =
      (simEvents (simOf e.tables m) fuel o.number s e.rng [] >>= fun x =>
        (pure ([x.1], x.2.2) : Timed (List (RankEvents ℝ) × List (Hist ℝ)))) := by
    intro fuel
    unfold simRun
    rw [hmake, hhist]
    show Timed.bind (simEvents (simOf e.tables m) fuel s.nPart s e.rng []) _ = _
    rw [hn]
    rfl
  constructor
  · rintro ⟨m'', ls, hrun, rfl⟩
    cases hrun with
    | @ran m1 s' _ rs r h1 h2 =>
      rw [hprep] at h1
      cases h1
      rw [simOf_congr e.tables hcfg] at h2
      obtain ⟨fuel, hf⟩ := events_sim h2 rfl hfull h0
      rw [hn, Nat.sub_zero] at hf
      refine ⟨fuel, ?_⟩
      rw [hsim, hf]
      rfl
  · rintro ⟨fuel, hf⟩
    rw [hsim] at hf
    obtain ⟨⟨ev', r', hs'⟩, h1, h2⟩ := Timed.bind_ok hf
    have h2 := Res.ok.inj (Option.some.inj h2)
    simp only [Prod.mk.injEq, List.cons.injEq, and_true] at h2
    obtain ⟨rfl, rfl⟩ := h2
    have htid := threads_in_order he hp ht
    rw [hN] at htid
    obtain ⟨ls, rs', hev, hev', -⟩ := sim_events (n := t.toNat) h1 hfull (by omega)
      (rs := m'.results) (by rw [hres]; exact perThread_empty _) (by rw [hn]; exact htid)
    rw [h0, ← simOf_congr e.tables hcfg] at hev
    exact ⟨_, ls, .ran hprep hev, hev'⟩

/-- C137 for the whole program: it comes to its normal end exactly if `beamOn` returns from a run. -/
theorem C137_program_partial (o : RunOrder) (ho : o.Sound) (hk : o.Common) (c : Config) (hc : c.WF)
    (hw : o.Written c) (path : List Char) (hpath : 4 ≤ path.length)
    (hini : path.drop (path.length - 4) = ".ini".toList) (files : List Char → Option (List Char))
    (hfile : files path = some (fileOf c.lines)) (fa : FieldArgs ℝ) (ga : GenArgs ℝ)
    (h : List (Call ℝ × Outcome ℝ)) (m : Mgr ℝ) (hh : History (RunMgr.new fa ga) h m)
    (hm : ¬ Misuse h) (ha : o.Asked h) (e : Env ℝ) (t : Int) (he : InOrder e o.number t)
    (hp : e.omp = true ∨ t = 1) (ht : 0 ≤ t) (raws : Nat → Nat → RawDraws ℝ)
    (hraw : raws 0 o.number = e.raw) (garbage : Nat → Nat) :
    (∃ fuel f, program e.tables files [path] raws garbage e.rng fuel = (some (.ok f) : Timed _)) ↔
      ∃ m' ls, BeamOn e o.number t m (.ok (.ran m' ls)) := by
  obtain ⟨inp, cfg, hinp, hset, hev⟩ :=
    C137_events_partial o ho hk c hc hw fa ga h m hh hm ha e t he hp ht raws hraw garbage
  obtain ⟨-, -, htr, -, -, -, -, -, hhist, p, hps, hout, -, -⟩ :=
    written_read ho hc hw hinp (asked_held hk hh ha)
  have hprog : ∀ fuel, program e.tables files [path] raws garbage e.rng fuel =
      run inp cfg raws garbage e.rng fuel := by
    intro fuel
    have hcmd : commandLine [path] = .ok path := by
      unfold commandLine
      dsimp only
      rw [if_neg (by rintro rfl; exact absurd hpath (by decide)), if_neg (by omega), if_pos hini]
    have hstart : start e.tables files [path] = .ok (inp, cfg) := by
      unfold start
      rw [hcmd, Res.ok_bind, hfile]
      show (parse (Reader.ofFile (fileOf c.lines)) >>= fun input => _) = _
      rw [hinp, Res.ok_bind, hset]
      rfl
    unfold program
    rw [hstart]
    rfl
  have hmake : makeSources inp.general raws 0 inp.particles =
      (makeSource inp.general p (raws 0 p.number) >>= fun s => .ok [(s, false)]) := by
    rw [hps]
    unfold makeSources makeSources
    rw [hout]
    rfl
  obtain ⟨out, hnew⟩ : ∃ out : OutMgr ℝ, OutMgr.new none = .ok out := ⟨_, rfl⟩
  have key : (∃ fuel f, run inp cfg raws garbage e.rng fuel = (some (.ok f) : Timed _)) ↔
      ∃ ev fuel, simRun inp cfg raws garbage e.rng fuel = (some (.ok ([ev], [])) : Timed _) := by
    constructor
    · rintro ⟨fuel, f, hf⟩
      unfold run at hf
      obtain ⟨ss, h1, hf⟩ := Timed.bind_ok hf
      have h1 := Option.some.inj h1
      have h1' := h1
      rw [hmake] at h1
      obtain ⟨s, hs, h1⟩ := Res.bind_eq_ok.mp h1
      obtain rfl := Res.ok.inj h1
      obtain ⟨out', -, hf⟩ := Timed.bind_ok hf
      obtain ⟨w, h2, -⟩ := Timed.bind_ok hf
      rw [htr, hhist] at h2
      unfold runSources runSource at h2
      obtain ⟨w1, h2, -⟩ := Timed.bind_ok h2
      obtain ⟨⟨s', ⟨r', hs', out1⟩⟩, h2, -⟩ := Timed.bind_ok h2
      obtain ⟨ev, h3⟩ := runEvents_quiet.mp ⟨s', out1, h2⟩
      have hnil : hs' = [] := List.length_eq_zero_iff.mp (simEvents_frames h3).length_eq.symm
      refine ⟨ev, fuel, ?_⟩
      unfold simRun
      rw [h1', hhist]
      show Timed.bind (simEvents cfg fuel s.nPart s e.rng []) _ = _
      rw [show simEvents cfg fuel s.nPart s e.rng [] = _ from h3, hnil]
      rfl
    · rintro ⟨ev, fuel, hf⟩
      unfold simRun at hf
      obtain ⟨ss, h1, hf⟩ := Timed.bind_ok hf
      have h1 := Option.some.inj h1
      have h1' := h1
      rw [hmake] at h1
      obtain ⟨s, hs, h1⟩ := Res.bind_eq_ok.mp h1
      obtain rfl := Res.ok.inj h1
      rw [hhist] at hf
      unfold simSources at hf
      obtain ⟨⟨ev', r', hs'⟩, h2, hf⟩ := Timed.bind_ok hf
      have hnil : hs' = [] := List.length_eq_zero_iff.mp (simEvents_frames h2).length_eq.symm
      obtain ⟨s', out1, h3⟩ := (runEvents_quiet (j := 0) (w := ⟨e.rng, [], out⟩)).mpr ⟨_, h2⟩
      refine ⟨fuel, out1.file, ?_⟩
      unfold run
      rw [h1', hnew, htr, hhist]
      show Timed.bind (Timed.bind (Timed.bind (runEvents cfg fuel false false s.nPart 0
        (s, ⟨e.rng, [], out⟩)) _) _) _ = _
      rw [h3, hnil]
      rfl
  simp only [hprog]
  rw [key]
  constructor
  · rintro ⟨ev, fuel, hf⟩
    obtain ⟨m', ls, hb, -⟩ := (hev ev).mpr ⟨fuel, hf⟩
    exact ⟨m', ls, hb⟩
  · rintro ⟨m', ls, hb⟩
    exact ⟨_, (hev _).mp ⟨m', ls, hb, rfl⟩⟩

/-- C137 is false of the documented name `classical`: the program simulates the order with the classical
model, and `beamOn` always returns without running anything. -/
theorem C137_name_refuted (o : RunOrder) (ho : o.Sound) (hk : o.physics = "classical") (c : Config)
    (hc : c.WF) (hw : o.Written c) (fa : FieldArgs ℝ) (ga : GenArgs ℝ) (h : List (Call ℝ × Outcome ℝ))
    (m : Mgr ℝ) (hh : History (RunMgr.new fa ga) h m) (hm : ¬ Misuse h) (ha : o.Asked h) (e : Env ℝ)
    (t : Int) (he : InOrder e o.number t) (hp : e.omp = true ∨ t = 1) :
    (∃ inp cfg, parse (Reader.ofFile (fileOf c.lines)) = .ok inp ∧ setup e.tables inp = .ok cfg ∧
      cfg.push = landauForce) ∧
    ∀ out, BeamOn e o.number t m out → ∃ m', out = .ok (.rejected m') := by
  constructor
  · obtain ⟨inp, hinp⟩ := (C66_accepts_iff _).1.mpr (written_accepted ho hc hw)
    obtain ⟨m0, hheld⟩ := held_exists o
    refine ⟨inp, _, hinp, written_setup ho hc hw hinp hheld e.tables (by rw [hk]; simp), ?_⟩
    unfold simOf physicsOf
    rw [hheld.physics, hk]
    rfl
  · intro out hb
    have hno : ¬ Configured h := by
      rintro ⟨-, ⟨p, hp, hpn⟩, -, -⟩
      rw [ha.physics, hk] at hp
      obtain rfl := Option.some.inj hp
      simp [passedNames] at hpn
    obtain ⟨m', h1⟩ := (prepare_total hh he hp hm).1 hno
    cases hb with
    | rejected h2 => exact ⟨_, rfl⟩
    | raised h2 => rw [h1] at h2; cases h2
    | ran h2 _ => rw [h1] at h2; cases h2
    | ub h2 => rw [h1] at h2; cases h2
    | loopUb h2 _ => rw [h1] at h2; cases h2
    | loopExit h2 _ => rw [h1] at h2; cases h2

/-- The sample fraction of an emission process. -/
def fractionOf : Proc ℝ → Option ℝ
  | .stochastic em => some em.sampleFrac
  | .continuous em _ => some em.sampleFrac
  | .breitWheeler _ => none

/-- C137 is false of sample fractions outside [0,1]: the program uses the one in the file, and a run manager
never uses it, whatever the history of calls. -/
theorem C137_fraction_refuted (o : RunOrder) (ho : o.Sound)
    (hk : o.physics ∈ ["Classical", "classical", "Semiclassical", "semiclassical", "Quantum", "quantum"])
    (hx : o.sample.value < 0 ∨ 1 < o.sample.value) (c : Config) (hc : c.WF) (hw : o.Written c)
    (t : Tables ℝ) (fa : FieldArgs ℝ) (ga : GenArgs ℝ) (h : List (Call ℝ × Outcome ℝ)) (m : Mgr ℝ)
    (hh : History (RunMgr.new fa ga) h m) :
    (∃ inp cfg, parse (Reader.ofFile (fileOf c.lines)) = .ok inp ∧ setup t inp = .ok cfg ∧
      cfg.procs.filterMap fractionOf = [(o.sample.value : ℝ)]) ∧
    (simOf t m).procs.filterMap fractionOf ≠ [(o.sample.value : ℝ)] := by
  have hfrac : ∀ m : Mgr ℝ, (simOf t m).procs.filterMap fractionOf = [m.sampleFrac] := by
    intro m
    have h1 : ∀ b : Bool, (if b = true then
        [Proc.breitWheeler (bwCfg t (fieldOf m) m.timeStep)] else []).filterMap fractionOf = [] := by
      intro b; cases b <;> rfl
    have h2 : fractionOf (physicsOf t m).2 = some m.sampleFrac := by
      unfold physicsOf
      split
      · rfl
      · split <;> rfl
    unfold simOf
    dsimp only
    rw [List.filterMap_cons_some h2, h1]
  constructor
  · obtain ⟨inp, hinp⟩ := (C66_accepts_iff _).1.mpr (written_accepted ho hc hw)
    obtain ⟨m0, hheld⟩ := held_exists o
    refine ⟨inp, _, hinp, written_setup ho hc hw hinp hheld t hk, ?_⟩
    rw [hfrac, hheld.sample]
  · rw [hfrac]
    intro he
    obtain ⟨h0, h1⟩ := C75_valid fa ga h m hh
    rw [(List.cons.inj he).1] at h0 h1
    rcases hx with hx | hx
    · exact absurd h0 (not_le.mpr (by exact_mod_cast hx))
    · exact absurd h1 (not_le.mpr (by exact_mod_cast hx))

/-! ## Examples -/

namespace SameWitness

/-- A number with one digit. -/
def digit (d : Fin 10) : Numeral := ⟨false, [d], none, none⟩

theorem digit_wf (d : Fin 10) : (digit d).WF := ⟨Or.inl (by simp [digit]), by simp [digit]⟩

theorem digit_value (d : Fin 10) : (digit d).value = d.val := by
  simp [digit, Numeral.value, Numeral.nat, Numeral.expVal]

/-- Three numbers. -/
def triple (a b c : Fin 10) : Triple := ⟨digit a, digit b, digit c⟩

theorem triple_wf (a b c : Fin 10) : (triple a b c).WF := ⟨digit_wf a, digit_wf b, digit_wf c⟩

/-- Two electrons in a laser pulse, with this radiation model and sample fraction. -/
def order (physics : String) (sample : Fin 10) : RunOrder where
  timeStep := digit 1
  timeEnd := digit 9
  focusing := true
  maxField := digit 2
  wavelength := digit 3
  pulse := digit 4
  waist := digit 5
  polarisation := digit 6
  start := triple 0 0 7
  focus := triple 0 0 8
  physics
  sample := digit sample
  pairs := true
  particle := "Electron"
  dist := "uniform"
  number := 2
  energy1 := digit 1
  energy2 := digit 2
  radius := digit 3
  duration := digit 4
  divergence := digit 5
  position := triple 0 1 2
  direction := triple 0 0 1

theorem sound (physics : String) (hp : physics ≠ "") (sample : Fin 10) : (order physics sample).Sound :=
  ⟨digit_wf _, digit_wf _, digit_wf _, digit_wf _, digit_wf _, digit_wf _, digit_wf _, triple_wf _ _ _,
    triple_wf _ _ _, digit_wf _, digit_wf _, digit_wf _, digit_wf _, digit_wf _, digit_wf _,
    triple_wf _ _ _, triple_wf _ _ _, by simp [order, digit_value], hp, by simp [order],
    by simp [order], by simp [order]⟩

/-- The order in a file. -/
def config (physics : String) (sample : Fin 10) : Config :=
  let o := order physics sample
  [("General".toList, [("time_step".toList, o.timeStep.text), ("time_end".toList, o.timeEnd.text),
      ("units".toList, "SI".toList)]),
    ("Field".toList, [("field_type".toList, "focusing".toList), ("e_max".toList, o.maxField.text),
      ("wavelength".toList, o.wavelength.text), ("duration".toList, o.pulse.text),
      ("waist".toList, o.waist.text), ("polerisation".toList, o.polarisation.text),
      ("start".toList, o.start.text), ("focus".toList, o.focus.text)]),
    ("Physics".toList, [("radiation_model".toList, physics.toList),
      ("sample_fraction".toList, o.sample.text), ("pair_production".toList, "true".toList)]),
    ("Particle1".toList, [("particle_type".toList, "Electron".toList),
      ("energy_distribution".toList, "uniform".toList), ("number_particles".toList, "2".toList),
      ("energy_mean".toList, o.energy1.text), ("energy_sig".toList, o.energy2.text),
      ("radius".toList, o.radius.text), ("duration".toList, o.duration.text),
      ("divergence".toList, o.divergence.text), ("position".toList, o.position.text),
      ("direction".toList, o.direction.text)])]

theorem written (physics : String) (sample : Fin 10) :
    (order physics sample).Written (config physics sample) := by
  have entry : ∀ i j (hi : i < (config physics sample).length)
      (hj : j < (config physics sample)[i].2.length), (config physics sample).Says
        (config physics sample)[i].1 (config physics sample)[i].2[j].1
        (config physics sample)[i].2[j].2 :=
    fun i j hi hj => ⟨_, List.getElem_mem hi, _, List.getElem_mem hj, rfl, rfl, rfl⟩
  have has : ∀ i (hi : i < (config physics sample).length),
      (config physics sample)[i].2 ≠ [] → (config physics sample).HasEntries (config physics sample)[i].1 :=
    fun i hi hne => ⟨_, List.getElem_mem hi, hne⟩
  have hno : ∀ sect : List Char, sect ∉ (config physics sample).map Prod.fst →
      ¬ (config physics sample).HasEntries sect :=
    fun sect hs ⟨es, hes, _⟩ => hs (List.mem_map.mpr ⟨_, hes, rfl⟩)
  exact
    { general := has 0 (by decide : 0 < 4) (List.cons_ne_nil _ _)
      units := entry 0 2 (by decide : 0 < 4) (by decide : 2 < 3)
      timeStep := entry 0 0 (by decide : 0 < 4) (by decide : 0 < 3)
      timeEnd := entry 0 1 (by decide : 0 < 4) (by decide : 1 < 3)
      tracking := silentB_spec rfl
      field := has 1 (by decide : 1 < 4) (List.cons_ne_nil _ _)
      fieldType := entry 1 0 (by decide : 1 < 4) (by decide : 0 < 8)
      maxField := entry 1 1 (by decide : 1 < 4) (by decide : 1 < 8)
      wavelength := entry 1 2 (by decide : 1 < 4) (by decide : 2 < 8)
      pulse := entry 1 3 (by decide : 1 < 4) (by decide : 3 < 8)
      waist := entry 1 4 (by decide : 1 < 4) (by decide : 4 < 8)
      polarisation := entry 1 5 (by decide : 1 < 4) (by decide : 5 < 8)
      start := entry 1 6 (by decide : 1 < 4) (by decide : 6 < 8)
      focus := entry 1 7 (by decide : 1 < 4) (by decide : 7 < 8)
      physics := entry 2 0 (by decide : 2 < 4) (by decide : 0 < 3)
      sample := entry 2 1 (by decide : 2 < 4) (by decide : 1 < 3)
      pairs := entry 2 2 (by decide : 2 < 4) (by decide : 2 < 3)
      minEnergy := silentB_spec rfl
      beam := has 3 (by decide : 3 < 4) (List.cons_ne_nil _ _)
      particle := entry 3 0 (by decide : 3 < 4) (by decide : 0 < 10)
      dist := entry 3 1 (by decide : 3 < 4) (by decide : 1 < 10)
      number := by
        have := entry 3 2 (by decide : 3 < 4) (by decide : 2 < 10)
        rwa [show Nat.toDigits 10 (order physics sample).number = "2".toList from
          (by decide : Nat.toDigits 10 2 = "2".toList)]
      energy1 := entry 3 3 (by decide : 3 < 4) (by decide : 3 < 10)
      energy2 := entry 3 4 (by decide : 3 < 4) (by decide : 4 < 10)
      radius := entry 3 5 (by decide : 3 < 4) (by decide : 5 < 10)
      duration := entry 3 6 (by decide : 3 < 4) (by decide : 6 < 10)
      divergence := entry 3 7 (by decide : 3 < 4) (by decide : 7 < 10)
      position := entry 3 8 (by decide : 3 < 4) (by decide : 8 < 10)
      direction := entry 3 9 (by decide : 3 < 4) (by decide : 9 < 10)
      output := silentB_spec rfl
      only := hno _ (by decide : "Particle2".toList ∉ ["General".toList, "Field".toList, "Physics".toList, "Particle1".toList])
      histograms := hno _ (by decide : "Histogram1".toList ∉ ["General".toList, "Field".toList, "Physics".toList, "Particle1".toList]) }

/-- The calls that ask for the order. -/
noncomputable def calls (o : RunOrder) : List (Call ℝ) :=
  [.setTime o.timeStep.value o.timeEnd.value,
    .setField o.fieldName
      { maxField := (o.maxField.value : ℝ), wavelength := (o.wavelength.value : ℝ)
        duration := (o.pulse.value : ℝ), waist := (o.waist.value : ℝ)
        polarisation := (o.polarisation.value : ℝ), start := o.start.value, focus := o.focus.value },
    .setPhysics o.physics, .setSampleFraction o.sample.value, .usePairProduction o.pairs,
    .setGenerator
      { particleType := o.particle, energyDist := o.dist, energyParam1 := (o.energy1.value : ℝ)
        energyParam2 := (o.energy2.value : ℝ), radius := (o.radius.value : ℝ)
        duration := (o.duration.value : ℝ), divergence := (o.divergence.value : ℝ)
        position := o.position.value, direction := o.direction.value }]

open RunWitness in
theorem asked (o : RunOrder) : ∃ h m, History (RunMgr.new fieldArgs genArgs) h m ∧ h.map (·.1) = calls o ∧
    o.Asked h ∧ ¬ Misuse h := by
  refine ⟨_, _, .cons .setTime (.cons .setField (.cons .setPhysics (.cons .setSampleFraction
    (.cons .usePairProduction (.cons .setGenerator .nil))))), rfl,
    ⟨rfl, rfl, rfl, rfl, rfl, rfl⟩, ?_⟩
  rintro ⟨x, y, hx, -, hs⟩
  have hm := hs.subset (List.mem_cons_self ..)
  simp only [List.mem_cons, List.not_mem_nil, or_false] at hm
  rcases hx with ⟨_, _, hx⟩ | ⟨_, _, hx⟩ <;> rcases hm with rfl | rfl | rfl | rfl | rfl | rfl <;> cases hx

theorem inOrder (rng : Rng ℝ) :
    InOrder ⟨true, ProgramWitness.tables, ProgramWitness.draws 0 2, fun _ => 1, rng⟩ 2 3 :=
  ⟨ProgramWitness.tables_good, ProgramWitness.draws_sized 0 2,
    fun _ _ _ _ => (by decide : 1 < (3 : Int).toNat)⟩

end SameWitness

open SameWitness RunWitness in
/-- The hypotheses of C137 are met by two electrons in a focused pulse, simulated for nine time steps on
three threads. The call ends. -/
example (rng : Rng ℝ) : ∃ (o : RunOrder) (c : Config) (h : List (Call ℝ × Outcome ℝ)) (m : Mgr ℝ) (e : Env ℝ),
    o.Sound ∧ o.Common ∧ c.WF ∧ o.Written c ∧
    History (RunMgr.new fieldArgs genArgs) h m ∧ ¬ Misuse h ∧ o.Asked h ∧ InOrder e o.number 3 ∧
    e.omp = true ∧ ProgramWitness.draws 0 o.number = e.raw ∧ ∃ out, BeamOn e o.number 3 m out := by
  obtain ⟨h, m, hh, -, ha, hm⟩ := asked (order "Quantum" 1)
  refine ⟨order "Quantum" 1, config "Quantum" 1, h, m, _, sound _ (by decide) _, ⟨by simp [order], ?_⟩,
    Config.wfB_spec (by decide +kernel), written _ _, hh, hm, ha, inOrder rng, rfl, rfl, ?_⟩
  · simp [order, digit_value]
  · refine C123_ends_partial _ _ h m hh _ 2 3 (inOrder rng) fun a b hab => ?_
    rw [ha.time] at hab
    obtain ⟨rfl, -⟩ := Prod.mk.inj (Option.some.inj hab)
    left
    simp [order, digit_value]

open SameWitness RunWitness in
/-- The hypotheses of the refutations are met too. -/
example (rng : Rng ℝ) : (∃ (o : RunOrder) (c : Config) (h : List (Call ℝ × Outcome ℝ)) (m : Mgr ℝ) (e : Env ℝ),
    o.Sound ∧ o.physics = "classical" ∧ c.WF ∧ o.Written c ∧
    History (RunMgr.new fieldArgs genArgs) h m ∧ ¬ Misuse h ∧ o.Asked h ∧ InOrder e o.number 3 ∧
    e.omp = true) ∧
    ∃ (o : RunOrder) (c : Config), o.Sound ∧ o.physics = "quantum" ∧ 1 < o.sample.value ∧ c.WF ∧ o.Written c := by
  constructor
  · obtain ⟨h, m, hh, -, ha, hm⟩ := asked (order "classical" 1)
    exact ⟨order "classical" 1, config "classical" 1, h, m, _, sound _ (by decide) _, rfl,
      Config.wfB_spec (by decide +kernel), written _ _, hh, hm, ha, inOrder rng, rfl⟩
  · refine ⟨order "quantum" 2, config "quantum" 2, sound _ (by decide) _, rfl, ?_, Config.wfB_spec (by decide +kernel),
      written _ _⟩
    simp [order, digit_value]

end QED
