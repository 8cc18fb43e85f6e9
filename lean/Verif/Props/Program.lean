import Verif.Lemmas.ProgramRun

set_option linter.unusedSectionVars false
set_option autoImplicit false

/-!
# The whole program (C93–C95)

`program t files args raws garbage rng fuel` is the outcome of `main` on the command line `args`, with
the files `files` and the tables `t`: a normal end with the contents of the output file, an exit code,
an uncaught exception or undefined behaviour. It is `none` if some event takes more than `fuel` time
steps. `raws`, `garbage` and `rng` are the random numbers and the uninitialised memory.
-/

namespace QED

open Dbl MCTools OutMgr Main

variable {D : Type} [Dbl D]

/-! ## C94 Memory safety of the program -/

/-- C94 exactly. For all command lines, files, random numbers and contents of uninitialised memory, a
run with tables of consistent sizes has undefined behaviour if and only if it gets past the set-up and
one of its sources has a spread of energies below its mean energy and is not Gaussian. -/
theorem C94_undefined_iff_partial (ha : AngleInOrder D) (t : Tables D) (ht : t.Good)
    (files : List Char → Option (List Char)) (args : List (List Char))
    (raws : Nat → Nat → RawDraws D) (hr : ∀ i n, (raws i n).Sized n) (garbage : Nat → Nat)
    (rng : Rng D) (fuel : Nat) :
    (∃ w, program t files args raws garbage rng fuel = some (.ub w)) ↔
      ∃ x, start t files args = .ok x ∧ ∃ p ∈ x.1.particles, ¬ EnergiesInOrder p := by
  obtain ⟨h1, h2⟩ := start_total t ht files args
  unfold program
  cases hs : start t files args with
  | ok x =>
    rw [Timed.ok_bind]
    obtain ⟨input, cfg⟩ := x
    dsimp only
    obtain ⟨h3, -, -, h4⟩ := h2 _ hs
    constructor
    · rintro ⟨w, hw⟩
      refine ⟨_, rfl, ?_⟩
      by_contra hn
      push Not at hn
      exact ((run_good input cfg h3 ha raws hr h4 garbage rng fuel hn) _ hw).1
    · rintro ⟨x, hx, hp⟩
      obtain rfl := Res.ok.inj hx
      obtain ⟨w, hw⟩ := (makeSources_total ha input.general raws hr input.particles 0).2 hp
      exact ⟨w, by unfold run; rw [hw, Timed.ub_bind]⟩
  | exit c =>
    rw [Timed.exit_bind]
    exact ⟨fun ⟨w, h⟩ => (by cases h), fun ⟨x, h, _⟩ => by cases h⟩
  | throw c =>
    rw [Timed.throw_bind]
    exact ⟨fun ⟨w, h⟩ => (by cases h), fun ⟨x, h, _⟩ => by cases h⟩
  | ub c => rw [hs] at h1; exact h1.elim

/-- In real numbers the azimuth is no obstacle. -/
theorem angleInOrder : AngleInOrder ℝ := SourceWitness.two_pi

/-! ## C93 What a run saves -/

/-- The input asks for something to be saved: a histogram, the events of a source, or the tracks of
the particles of at least one event. -/
def AsksForOutput (i : Input D) : Prop :=
  i.histograms ≠ [] ∨ (∃ p ∈ i.particles, p.output = true) ∨
    (i.general.tracking = true ∧ ∃ p ∈ i.particles, 0 < p.number)

/-- C93 is false of every run that has something to save: no such run ends normally, whatever the
command line, files, tables of consistent sizes, random numbers and uninitialised memory. -/
theorem C93_refuted (ha : AngleInOrder D) (t : Tables D) (ht : t.Good)
    (files : List Char → Option (List Char)) (args : List (List Char))
    (raws : Nat → Nat → RawDraws D) (hr : ∀ i n, (raws i n).Sized n) (garbage : Nat → Nat)
    (rng : Rng D) (fuel : Nat) (i : Input D) (cfg : SimCfg D)
    (hs : start t files args = .ok (i, cfg)) (hask : AsksForOutput i) (f : H5 D) :
    program t files args raws garbage rng fuel ≠ some (.ok f) := by
  obtain ⟨-, h2⟩ := start_total t ht files args
  obtain ⟨h3, -, -, h4⟩ := h2 _ hs
  intro h
  have hen : ∀ p ∈ i.particles, EnergiesInOrder p := by
    by_contra hn
    push Not at hn
    obtain ⟨w, hw⟩ := (C94_undefined_iff_partial ha t ht files args raws hr garbage rng fuel).mpr
      ⟨_, hs, hn⟩
    rw [h] at hw
    cases hw
  unfold program at h
  rw [hs, Timed.ok_bind] at h
  obtain ⟨-, h5, h6⟩ := ((run_good i cfg h3 ha raws hr h4 garbage rng fuel hen) _ h).2 f rfl
  rcases hask with hask | ⟨p, hp, ho⟩ | ⟨ht, p, hp, hn⟩
  · exact hask h5
  · rw [(h6 p hp).1] at ho; cases ho
  · have := (h6 p hp).2 ht; omega

/-- C93, the part that holds: a run that ends normally had nothing to save, and leaves an empty file.
Missing: runs with something to save, see `C93_refuted`. -/
theorem C93_normal_end_partial (ha : AngleInOrder D) (t : Tables D) (ht : t.Good)
    (files : List Char → Option (List Char)) (args : List (List Char))
    (raws : Nat → Nat → RawDraws D) (hr : ∀ i n, (raws i n).Sized n) (garbage : Nat → Nat)
    (rng : Rng D) (fuel : Nat) (f : H5 D)
    (h : program t files args raws garbage rng fuel = some (.ok f)) :
    f.groups = [] ∧ f.sets = [] ∧
      ∃ i cfg, start t files args = .ok (i, cfg) ∧ ¬ AsksForOutput i := by
  obtain ⟨⟨i, cfg⟩, hs, -⟩ := Timed.bind_eq.mp h
  have hs := Timed.lift_eq.mp hs
  refine ⟨?_, ?_, i, cfg, hs, fun hask =>
    C93_refuted ha t ht files args raws hr garbage rng fuel i cfg hs hask f h⟩
  all_goals
    obtain ⟨-, h2⟩ := start_total t ht files args
    obtain ⟨h3, -, -, h4⟩ := h2 _ hs
    have hen : ∀ p ∈ i.particles, EnergiesInOrder p := by
      by_contra hn
      push Not at hn
      obtain ⟨w, hw⟩ := (C94_undefined_iff_partial ha t ht files args raws hr garbage rng fuel).mpr
        ⟨_, hs, hn⟩
      rw [h] at hw
      cases hw
    unfold program at h
    rw [hs, Timed.ok_bind] at h
    obtain ⟨rfl, -⟩ := ((run_good i cfg h3 ha raws hr h4 garbage rng fuel hen) _ h).2 f rfl
    rfl

/-! ## C95 Runs end -/

theorem runEvents_ends (cfg : SimCfg D) (hend : ∀ (l : PList D) (r : Rng D) (hists : List (Hist D)),
    Timed.Ends fun fuel => (timeLoop cfg fuel (.init l r hists) : Timed (EvState D))) (output tracking : Bool)
    (k j : Nat) (s : Source D × World D) :
    Timed.Ends fun fuel => runEvents cfg fuel output tracking k j s := by
  induction k generalizing j s with
  | zero => exact .pure _
  | succ k ih =>
    unfold runEvents
    refine Timed.Ends.bind (x := fun fuel => runEvent cfg fuel output tracking j s) ?_
      fun s' => ih (j + 1) s'
    unfold runEvent
    refine Timed.Ends.bind (.lift _) fun _ => Timed.Ends.bind (.lift _) fun _ =>
      Timed.Ends.bind (x := fun fuel => timeLoop cfg fuel _) (hend _ _ _) fun _ =>
      Timed.Ends.bind (.lift _) fun _ => Timed.Ends.bind (.lift _) fun _ => .pure _

theorem run_ends (input : Input D) (cfg : SimCfg D) (hend : ∀ (l : PList D) (r : Rng D) (hists : List (Hist D)),
    Timed.Ends fun fuel => (timeLoop cfg fuel (.init l r hists) : Timed (EvState D)))
    (raws : Nat → Nat → RawDraws D) (garbage : Nat → Nat) (rng : Rng D) :
    Timed.Ends fun fuel => run input cfg raws garbage rng fuel := by
  have hss : ∀ tracking (ss : List (Source D × Bool)) (w : World D),
      Timed.Ends fun fuel => runSources cfg fuel tracking ss w := by
    intro tracking ss
    induction ss with
    | nil => intro w; exact .pure _
    | cons s ss ih =>
      intro w
      unfold runSources
      refine Timed.Ends.bind (x := fun fuel => runSource cfg fuel tracking s w) ?_ fun w' => ih w'
      unfold runSource
      exact Timed.Ends.bind (x := fun fuel => runEvents cfg fuel _ _ _ _ _)
        (runEvents_ends cfg hend _ _ _ _ _) fun _ => Timed.Ends.bind (.lift _) fun _ => .pure _
  unfold run
  exact Timed.Ends.bind (.lift _) fun _ => Timed.Ends.bind (.lift _) fun _ =>
    Timed.Ends.bind (x := fun fuel => runSources cfg fuel _ _ _) (hss _ _ _) fun _ =>
    Timed.Ends.bind (.lift _) fun _ => .pure _

/-- The event loop uses the time step and end time read. -/
theorem start_times {t : Tables D} {files : List Char → Option (List Char)} {args : List (List Char)}
    {i : Input D} {cfg : SimCfg D} (hs : start t files args = .ok (i, cfg)) :
    cfg.dt = i.general.timeStep ∧ cfg.timeEnd = i.general.timeEnd := by
  unfold start at hs
  obtain ⟨path, -, h⟩ := Res.bind_eq_ok.mp hs
  obtain ⟨r, -, h⟩ := Res.bind_eq_ok.mp h
  obtain ⟨i', hi, h⟩ := Res.bind_eq_ok.mp h
  obtain ⟨cfg', hc, h⟩ := Res.bind_eq_ok.mp h
  have h := Res.ok.inj h
  simp only [Prod.mk.injEq] at h
  obtain ⟨rfl, rfl⟩ := h
  unfold setup at hc
  obtain ⟨_, _, hc⟩ := Res.bind_eq_ok.mp hc
  obtain ⟨_, _, hc⟩ := Res.bind_eq_ok.mp hc
  obtain rfl := Res.ok.inj hc
  exact ⟨rfl, rfl⟩

/-- C95, the part that holds: if the time step is positive, or no time is to be simulated, then the
program ends: from some fuel on there is an outcome, always the same. Missing: other time steps. -/
theorem C95_ends_partial (t : Tables ℝ) (files : List Char → Option (List Char))
    (args : List (List Char)) (raws : Nat → Nat → RawDraws ℝ) (garbage : Nat → Nat) (rng : Rng ℝ)
    (hstep : ∀ i cfg, start t files args = .ok (i, cfg) →
      0 < i.general.timeStep ∨ i.general.timeEnd ≤ 0) :
    ∃ fuel0 outcome, ∀ fuel, fuel0 ≤ fuel →
      program t files args raws garbage rng fuel = some outcome := by
  unfold program
  cases hs : start t files args with
  | ok x =>
    obtain ⟨i, cfg⟩ := x
    have hcfg := start_times hs
    simp only [Timed.ok_bind]
    refine run_ends i cfg (fun l r hists => ?_) raws garbage rng
    have key : ∃ n o, Run cfg (.init l r hists) n o := by
      rcases hstep i cfg hs with h | h
      · obtain ⟨n, o, h, -⟩ := C40_terminates cfg (by rw [hcfg.1]; exact h) l r hists
        exact ⟨n, o, h⟩
      · refine ⟨0, _, .done ?_⟩
        rw [hcfg.2]
        simpa [EvState.init] using h
    obtain ⟨n, o, hn⟩ := key
    obtain ⟨fuel, hf⟩ := (timeLoop_iff_run cfg _ o).mpr ⟨n, hn⟩
    exact ⟨fuel, o, fun m hm => timeLoop_mono cfg _ o fuel m hm hf⟩
  | exit c => exact ⟨0, .exit c, fun _ _ => rfl⟩
  | throw c => exact ⟨0, .throw c, fun _ _ => rfl⟩
  | ub c => exact ⟨0, .ub c, fun _ _ => rfl⟩

/-- The processes of a run without pair production. -/
theorem setup_procs {t : Tables ℝ} {i : Input ℝ} {cfg : SimCfg ℝ} (h : setup t i = .ok cfg)
    (hpp : i.physics.pairProduction = false) :
    cfg.dt = i.general.timeStep ∧ cfg.timeEnd = i.general.timeEnd ∧
    ∃ e, cfg.procs = [.stochastic e] ∨ ∃ c, cfg.procs = [.continuous e c] := by
  unfold setup at h
  obtain ⟨field, -, h⟩ := Res.bind_eq_ok.mp h
  obtain ⟨⟨push, procs⟩, hp, h⟩ := Res.bind_eq_ok.mp h
  obtain rfl := Res.ok.inj h
  refine ⟨rfl, rfl, ?_⟩
  unfold makePhysics at hp
  obtain ⟨⟨push', em⟩, h1, h2⟩ := Res.bind_eq_ok.mp hp
  dsimp only at h2 ⊢
  rw [if_neg (by rw [hpp]; decide)] at h2
  cases h2
  unfold makeEmission at h1
  split at h1
  · cases h1; exact ⟨_, Or.inr ⟨_, rfl⟩⟩
  · split at h1
    · cases h1; exact ⟨_, Or.inr ⟨_, rfl⟩⟩
    · split at h1
      · cases h1; exact ⟨_, Or.inl rfl⟩
      · cases h1

/-- A single photon stays a single photon. -/
theorem photon_step {cfg : SimCfg ℝ}
    (hp : ∃ e, cfg.procs = [.stochastic e] ∨ ∃ c, cfg.procs = [.continuous e c]) (s : EvState ℝ)
    (p : Particle ℝ) (hl : s.list.items = [p]) (hm : p.mass = 0) (h0 : 1 ≤ s.list.maxParticles)
    (hh : s.hists = []) : ∃ (s' : EvState ℝ) (p' : Particle ℝ), timeStep cfg s = .ok s' ∧
      s'.list.items = [p'] ∧ p'.mass = 0 ∧ 1 ≤ s'.list.maxParticles ∧ s'.hists = [] ∧
      s'.time = s.time + cfg.dt := by
  have hvisit : ∃ (l : PList ℝ) (p' : Particle ℝ), visit cfg 0 s.list s.rng = .ok (l, s.rng) ∧
      l.items = [p'] ∧ p'.mass = 0 ∧ l.maxParticles = s.list.maxParticles := by
    have hid := push_identity cfg.push cfg.field cfg.dt p
    have hm' : (pushParticle cfg.push cfg.field cfg.dt p).mass = 0 := hid.2.1.trans hm
    have hget : s.list.get 0 = .ok p := PList.get_eq_ok.mpr (by rw [hl]; rfl)
    have hset : (s.list.set 0 (pushParticle cfg.push cfg.field cfg.dt p)).items =
        [pushParticle cfg.push cfg.field cfg.dt p] := by rw [PList.set_items, hl]; rfl
    have hget' : (s.list.set 0 (pushParticle cfg.push cfg.field cfg.dt p)).get 0 =
        .ok (pushParticle cfg.push cfg.field cfg.dt p) := PList.get_eq_ok.mpr (by rw [hset]; rfl)
    unfold visit
    rw [hget, Res.ok_bind]
    obtain ⟨e, he | ⟨c, he⟩⟩ := hp <;> rw [he] <;> unfold interactAll interactAt <;>
      rw [hget', Res.ok_bind]
    · refine ⟨_, pushParticle cfg.push cfg.field cfg.dt p, by
        simp only [Proc.interact, stochasticInteract, hm']
        simp [interactAll]; rfl, ?_, hm', ?_⟩
      · rw [PList.set_items, hset]; rfl
      · rfl
    · refine ⟨_, pushParticle cfg.push cfg.field cfg.dt p, by
        simp only [Proc.interact, continuousInteract, hm']
        simp [interactAll]; rfl, ?_, hm', ?_⟩
      · rw [PList.set_items, hset]; rfl
      · rfl
  obtain ⟨l, p', hv, hl', hm', hmax⟩ := hvisit
  have hadv : advance cfg s.list s.rng = .ok (l, s.rng) := by
    unfold advance
    obtain ⟨n, hn⟩ : ∃ n, s.list.maxParticles = n + 1 := ⟨s.list.maxParticles - 1, by omega⟩
    rw [hn, particleLoop, if_pos (by simp [PList.nPart, hl]), hv, Res.ok_bind]
    cases n with
    | zero => rfl
    | succ n => dsimp only; rw [particleLoop, if_neg (by simp [PList.nPart, hl'])]
  refine ⟨⟨l, s.rng, s.time +. cfg.dt, s.histCount, s.hists⟩, p', ?_, hl', hm', by
    dsimp only; rw [hmax]; exact h0, hh, rfl⟩
  unfold timeStep histStep
  rw [hh]
  simp only [List.getElem?_nil, Res.ok_bind]
  rw [hadv, Res.ok_bind]
  rw [hh]

/-- C95 is false of time steps that are not positive: the simulation of a single photon then never
ends, and neither does the run. No such input is rejected. -/
theorem C95_refuted (t : Tables ℝ) (i : Input ℝ) (cfg : SimCfg ℝ) (hs : setup t i = .ok cfg)
    (hdt : i.general.timeStep ≤ 0) (hT : 0 < i.general.timeEnd) (hh : i.histograms = [])
    (hpp : i.physics.pairProduction = false) (p : ParticleParams ℝ) (ps : List (ParticleParams ℝ))
    (hps : i.particles = p :: ps) (hph : p.type = "Photon") (hn : 1 ≤ p.number)
    (hen : ∀ q ∈ i.particles, EnergiesInOrder q) (raws : Nat → Nat → RawDraws ℝ)
    (hr : ∀ i n, (raws i n).Sized n) (garbage : Nat → Nat) (rng : Rng ℝ) (fuel : Nat) :
    run i cfg raws garbage rng fuel = none := by
  obtain ⟨h1, h2, h3⟩ := setup_procs hs hpp
  have hloop : ∀ fuel (s : EvState ℝ) (p : Particle ℝ), s.list.items = [p] → p.mass = 0 →
      1 ≤ s.list.maxParticles → s.hists = [] → s.time ≤ 0 → timeLoop cfg fuel s = none := by
    intro fuel
    induction fuel with
    | zero =>
      intro s p _ _ _ _ ht
      have : s.time < cfg.timeEnd := by rw [h2]; linarith
      simp [timeLoop, this]
    | succ fuel ih =>
      intro s p a b c d ht
      have hlt : s.time < cfg.timeEnd := by rw [h2]; linarith
      obtain ⟨s', p', e1, e2, e3, e4, e5, e6⟩ := photon_step h3 s p a b c d
      rw [timeLoop, if_pos (by simpa using hlt), e1]
      exact ih s' p' e2 e3 e4 e5 (by rw [e6, h1]; linarith)
  obtain ⟨ss, hss, hall⟩ := (makeSources_total angleInOrder i.general raws hr i.particles 0).1 hen
  have htype : ∀ s ss', ss = s :: ss' → s.1.type = "Photon" := by
    intro s ss' he
    rw [hps, he] at hss
    unfold makeSources at hss
    obtain ⟨s1, hs1, hss⟩ := Res.bind_eq_ok.mp hss
    obtain ⟨ss1, -, hss⟩ := Res.bind_eq_ok.mp hss
    have := Res.ok.inj hss
    simp only [List.cons.injEq] at this
    rw [← this.1]
    unfold makeSource Source.new at hs1
    obtain ⟨phi, -, hs1⟩ := Res.bind_eq_ok.mp hs1
    obtain ⟨es, -, hs1⟩ := Res.bind_eq_ok.mp hs1
    rw [← Res.ok.inj hs1]
    exact hph
  rw [hps] at hall
  cases hall with
  | @cons _ s _ ss' hhd _ =>
  obtain ⟨hf, hc, hnum, -⟩ := hhd
  have hty := htype s ss' rfl
  obtain ⟨m, hm, hfile, -⟩ := new_file (D := ℝ) none
  unfold run
  rw [hss, Timed.ok_bind, hm, Timed.ok_bind, hh]
  have hev : ∀ out : OutMgr ℝ, (s.2 = true → out.Sized s.1.nPart) →
      runEvents cfg fuel s.2 i.general.tracking s.1.nPart 0 (s.1, ⟨rng, [], out⟩) = none := by
    intro out hout
    obtain ⟨k, hk⟩ : ∃ k, s.1.nPart = k + 1 := ⟨s.1.nPart - 1, by omega⟩
    obtain ⟨l, r', hg, -, q, hq, ⟨-, hqm, -⟩, -⟩ := generateList_step saneReal s.1 .photon
      (by rw [hty]; decide) hf (by rw [hc, hk]; omega) rng
    have hmax : l.maxParticles = PList.defaultMax := by
      rcases generateList_total s.1 hf (by rw [hc, hk]; omega) rng with h | ⟨_, _, _, h, -, hmax⟩
      · rw [hg] at h; cases h
      · rw [hg] at h
        have := Res.ok.inj h
        simp only [Prod.mk.injEq] at this
        rw [this.1]; exact hmax
    have hstore : ∃ m', storePrimaryIf s.2 out l 0 = .ok m' := by
      unfold storePrimaryIf
      split
      · next ho =>
        exact ⟨_, storePrimary_eq (hout ho) l 0 (by omega) (p := q) (by rw [hq]; rfl)⟩
      · exact ⟨_, rfl⟩
    obtain ⟨m', hm'⟩ := hstore
    rw [hk, runEvents]
    unfold runEvent
    dsimp only
    rw [hg, Timed.ok_bind]
    dsimp only
    rw [hm', Timed.ok_bind, hloop fuel (.init l r' []) q hq (by rw [hqm]; simp [Kind.massOf])
      (by show 1 ≤ l.maxParticles; rw [hmax]; decide) rfl (by simp [EvState.init])]
    rfl
  have hrun : runSources cfg fuel i.general.tracking (s :: ss')
      ⟨rng, makeHists garbage 0 [], m⟩ = none := by
    unfold runSources runSource
    have := hev (initSourceIf s.2 m s.1.nPart) (fun ho => by
      rw [initSourceIf, if_pos ho]; exact initSource_sized _ _)
    simp only [makeHists]
    rw [this]
    rfl
  rw [hrun]
  rfl

/-! ## A class of runs that end normally -/

/-- Whatever comes out is a normal result with `P`. -/
def Timed.Oks {α : Type} (x : Timed α) (P : α → Prop) : Prop := ∀ r, x = some r → ∃ a, r = .ok a ∧ P a

theorem Timed.Oks.bind {α β : Type} {x : Timed α} {f : α → Timed β} {P : α → Prop} {Q : β → Prop}
    (hx : x.Oks P) (hf : ∀ a, P a → (f a).Oks Q) : (x >>= f).Oks Q := by
  intro r hr
  match h : x with
  | none => cases hr
  | some o =>
    obtain ⟨a, rfl, ha⟩ := hx o rfl
    exact hf a ha r hr

/-- Events of a source of photons that is not saved. -/
theorem runEvents_photon (cfg : SimCfg ℝ) (fuel : Nat)
    (hp : ∃ e, cfg.procs = [.stochastic e] ∨ ∃ c, cfg.procs = [.continuous e c]) (k j : Nat)
    (s : Source ℝ × World ℝ) (hty : s.1.type = "Photon") (hf : s.1.Full)
    (hc : s.1.partCount + k = s.1.nPart) (hh : s.2.hists = []) :
    (runEvents cfg fuel false false k j s).Oks fun s' => s'.2.hists = [] ∧ s'.2.out = s.2.out := by
  induction k generalizing j s with
  | zero =>
    intro r hr
    exact ⟨s, (Option.some.inj hr).symm, hh, rfl⟩
  | succ k ih =>
    unfold runEvents
    refine Timed.Oks.bind (P := fun s' => s'.1.type = "Photon" ∧ s'.1.Full ∧
      s'.1.partCount + k = s'.1.nPart ∧ s'.2.hists = [] ∧ s'.2.out = s.2.out) ?_ ?_
    · obtain ⟨l, r', hg, -, q, hq, ⟨-, hqm, -⟩, -⟩ := generateList_step saneReal s.1 .photon
        (by rw [hty]; decide) hf (by omega) s.2.rng
      have hmax : l.maxParticles = PList.defaultMax := by
        rcases generateList_total s.1 hf (by omega) s.2.rng with h | ⟨_, _, _, h, -, hmax⟩
        · rw [hg] at h; cases h
        · rw [hg] at h
          have := Res.ok.inj h
          simp only [Prod.mk.injEq] at this
          rw [this.1]; exact hmax
      unfold runEvent
      rw [hg, Timed.ok_bind]
      dsimp only
      rw [storePrimaryIf, if_neg (by decide), Timed.ok_bind]
      refine Timed.Oks.bind (P := fun e : EvState ℝ => e.hists = []) ?_ ?_
      · have hloop : ∀ fuel (s : EvState ℝ) (p : Particle ℝ), s.list.items = [p] → p.mass = 0 →
            1 ≤ s.list.maxParticles → s.hists = [] →
            Timed.Oks (timeLoop cfg fuel s) fun e : EvState ℝ => e.hists = [] := by
          intro fuel
          induction fuel with
          | zero =>
            intro s p _ _ _ h r hr
            rw [timeLoop] at hr
            split at hr
            · cases hr
            · exact ⟨_, (Option.some.inj hr).symm, h⟩
          | succ fuel ih =>
            intro s p a b c d r hr
            rw [timeLoop] at hr
            split at hr
            · obtain ⟨s', p', e1, e2, e3, e4, e5, e6⟩ := photon_step hp s p a b c d
              rw [e1] at hr
              exact ih s' p' e2 e3 e4 e5 r hr
            · exact ⟨_, (Option.some.inj hr).symm, d⟩
        rw [hh]
        exact hloop fuel _ q hq (by rw [hqm]; simp [Kind.massOf])
          (by show 1 ≤ l.maxParticles; rw [hmax]; decide) rfl
      · intro e he
        rw [he, fillRest, Timed.ok_bind, storeFinalIf, if_neg (by decide), Timed.ok_bind]
        intro r hr
        refine ⟨_, (Option.some.inj hr).symm, hty, ⟨hf.x, hf.y, hf.z, hf.theta, hf.phi, hf.energy⟩, ?_,
          rfl, rfl⟩
        dsimp only
        omega
    · rintro s' ⟨h1, h2, h3, h4, h5⟩
      intro r hr
      obtain ⟨a, ha, hb, hc⟩ := ih (j + 1) s' h1 h2 h3 h4 r hr
      exact ⟨a, ha, hb, hc.trans h5⟩

/-- A run that only simulates photons and saves nothing: the program ends normally, after any number
of sources, events and steps. -/
theorem C95_photons_partial (t : Tables ℝ) (files : List Char → Option (List Char))
    (args : List (List Char)) (i : Input ℝ) (cfg : SimCfg ℝ)
    (hs : start t files args = .ok (i, cfg)) (hstep : 0 < i.general.timeStep)
    (htr : i.general.tracking = false) (hh : i.histograms = [])
    (hpp : i.physics.pairProduction = false)
    (hph : ∀ p ∈ i.particles, p.type = "Photon" ∧ p.output = false ∧ EnergiesInOrder p)
    (raws : Nat → Nat → RawDraws ℝ) (hr : ∀ i n, (raws i n).Sized n) (garbage : Nat → Nat)
    (rng : Rng ℝ) :
    ∃ fuel0, ∀ fuel, fuel0 ≤ fuel →
      ∃ f, program t files args raws garbage rng fuel = some (.ok f) := by
  obtain ⟨fuel0, o, ho⟩ := C95_ends_partial t files args raws garbage rng fun i' cfg' h => by
    rw [hs] at h
    have h := Res.ok.inj h
    simp only [Prod.mk.injEq] at h
    rw [← h.1]; exact Or.inl hstep
  refine ⟨fuel0, fun fuel hfuel => ?_⟩
  rw [ho fuel hfuel]
  have hset : setup t i = .ok cfg := by
    unfold start at hs
    obtain ⟨path, -, h⟩ := Res.bind_eq_ok.mp hs
    obtain ⟨r, -, h⟩ := Res.bind_eq_ok.mp h
    obtain ⟨i', hi, h⟩ := Res.bind_eq_ok.mp h
    obtain ⟨cfg', hc, h⟩ := Res.bind_eq_ok.mp h
    have h := Res.ok.inj h
    simp only [Prod.mk.injEq] at h
    rw [← h.1, ← h.2]; exact hc
  obtain ⟨-, -, h3⟩ := setup_procs hset hpp
  suffices h : (program t files args raws garbage rng fuel).Oks fun _ => True by
    obtain ⟨f, rfl, -⟩ := h o (ho fuel hfuel)
    exact ⟨f, rfl⟩
  unfold program
  rw [hs, Timed.ok_bind]
  dsimp only
  unfold run
  have hsrc : ∀ (ps : List (ParticleParams ℝ)), (∀ p ∈ ps, p.type = "Photon" ∧ p.output = false ∧
      EnergiesInOrder p) → ∀ n, ∃ ss, makeSources i.general raws n ps = .ok ss ∧
        ∀ s ∈ ss, s.1.type = "Photon" ∧ s.2 = false ∧ s.1.Full ∧ s.1.partCount = 0 := by
    intro ps
    induction ps with
    | nil => intro _ n; exact ⟨[], rfl, by simp⟩
    | cons p ps ih =>
      intro hps n
      obtain ⟨h1, h2, h3⟩ := hps p List.mem_cons_self
      obtain ⟨ss, hss, hall⟩ := ih (fun q hq => hps q (List.mem_cons_of_mem _ hq)) (n + 1)
      obtain ⟨s, hs, hf, hc, -⟩ := (makeSource_total angleInOrder i.general p (raws n p.number)
        (hr n p.number)).1 h3
      unfold makeSources
      rw [hs, Res.ok_bind, hss]
      refine ⟨_, rfl, fun s' hs' => ?_⟩
      rcases List.mem_cons.mp hs' with rfl | hs'
      · refine ⟨?_, h2, hf, hc⟩
        unfold makeSource Source.new at hs
        obtain ⟨phi, -, hs⟩ := Res.bind_eq_ok.mp hs
        obtain ⟨es, -, hs⟩ := Res.bind_eq_ok.mp hs
        rw [← Res.ok.inj hs]
        exact h1
      · exact hall s' hs'
  obtain ⟨ss, hss, hall⟩ := hsrc i.particles hph 0
  obtain ⟨m, hm, -⟩ := new_file (D := ℝ) none
  rw [hss, Timed.ok_bind, hm, Timed.ok_bind, hh, htr]
  have hrun : ∀ (ss : List (Source ℝ × Bool)), (∀ s ∈ ss, s.1.type = "Photon" ∧ s.2 = false ∧
      s.1.Full ∧ s.1.partCount = 0) → ∀ w : World ℝ, w.hists = [] →
      (runSources cfg fuel false ss w).Oks fun w' => w'.hists = [] := by
    intro ss
    induction ss with
    | nil => intro _ w hw r hr; exact ⟨w, (Option.some.inj hr).symm, hw⟩
    | cons s ss ih =>
      intro hall w hw
      obtain ⟨h1, h2, h4, h5⟩ := hall s List.mem_cons_self
      unfold runSources
      refine Timed.Oks.bind (P := fun w : World ℝ => w.hists = []) ?_
        fun w' hw' => ih (fun s' hs' => hall s' (List.mem_cons_of_mem _ hs')) w' hw'
      unfold runSource
      rw [h2]
      refine Timed.Oks.bind (runEvents_photon cfg fuel h3 s.1.nPart 0 _ h1 h4
        (by dsimp only; omega) hw) ?_
      rintro ⟨s', w'⟩ ⟨hw', -⟩ r hr
      exact ⟨_, (Option.some.inj hr).symm, hw'⟩
  refine Timed.Oks.bind (hrun ss hall _ rfl) ?_
  intro w hw r hr
  rw [hw] at hr
  exact ⟨_, (Option.some.inj hr).symm, trivial⟩

/-! ## Examples and the refutation of C94 -/

namespace ProgramWitness

/-- Tables of two entries each. -/
noncomputable def tables : Tables ℝ :=
  ⟨[0, 1], [0, 1], [0, 1], [[0, 1], [0, 1]], [[0, 1], [0, 1]], [0, 1], [0, 1], [0, 1], [0, 1],
    [[0, 1], [0, 1]]⟩

theorem tables_good : tables.Good := by
  have g : GoodAxis ([0, 1] : List ℝ) [0, 1] := ⟨rfl, by simp, by simp⟩
  refine ⟨g, ⟨by simp [tables], by simp [tables]⟩, ⟨rfl, rfl⟩, ?_, g,
    ⟨by simp [tables], by simp [tables]⟩, rfl, ?_⟩
  · intro i a c ha hc
    have ha := List.mem_of_getElem? ha
    have hc := List.mem_of_getElem? hc
    simp only [tables, List.mem_cons, List.not_mem_nil, or_false, or_self] at ha hc
    rw [ha, hc]
    exact g
  · intro a ha
    simp only [tables, List.mem_cons, List.not_mem_nil, or_false, or_self] at ha
    rw [ha]
    exact g

/-- Draws that are all zero. -/
noncomputable def draws (_ n : Nat) : RawDraws ℝ :=
  let z := List.replicate n 0
  ⟨z, z, z, z, z, z⟩

theorem draws_sized (i n : Nat) : (draws i n).Sized n := by simp [draws, RawDraws.Sized]

/-- One photon, followed for one time unit in steps of `dt`. -/
noncomputable def input (dt : ℝ) : Input ℝ :=
  ⟨⟨"SI", dt, 1, "out.h5", false⟩, .static ⟨1, 0, 0⟩ ⟨0, 0, 0⟩,
    [⟨1, "beam", "Photon", "mono", ⟨0, 0, 0⟩, ⟨0, 0, 1⟩, 1, 1, 0, 0, 0, false⟩],
    ⟨"Quantum", 0, 1, false⟩, []⟩

theorem input_ordered (dt : ℝ) : ∀ q ∈ (input dt).particles, EnergiesInOrder q := by
  intro q hq
  simp only [input, List.mem_cons, List.not_mem_nil, or_false] at hq
  subst hq
  exact Or.inr (Or.inr (by simp))

/-- The hypotheses of `C95_refuted` can be met: a photon and a time step of zero. -/
example (garbage : Nat → Nat) (rng : Rng ℝ) : ∃ cfg, setup tables (input 0) = .ok cfg ∧
    ∀ fuel, run (input 0) cfg draws garbage rng fuel = none :=
  ⟨_, rfl, fun fuel => C95_refuted tables (input 0) _ rfl le_rfl (by simp [input]) rfl rfl _ _ rfl rfl
    (by simp) (input_ordered 0) draws draws_sized garbage rng fuel⟩

end ProgramWitness

open Ini in
/-- C94 is false: a source with an energy and nothing said about distribution and spread, for which the
defaults apply, is enough for undefined behaviour, in every run that gets past the set-up. -/
theorem C94_refuted (t : Tables ℝ) (ht : t.Good) (c : Config) (hw : c.WF) (stem : List Char)
    (files : List Char → Option (List Char))
    (hfile : files (stem ++ ".ini".toList) = some (fileOf c.lines)) (i : Input ℝ) (cfg : SimCfg ℝ)
    (hs : start t files [stem ++ ".ini".toList] = .ok (i, cfg))
    (hsrc : c.HasEntries "Particle1".toList) (m : Numeral) (hm : m.WF) (hpos : 0 < m.value)
    (henergy : c.Says "Particle1".toList "energy_mean".toList m.text)
    (hdist : c.Silent "Particle1".toList "energy_distribution".toList)
    (hsig : c.Silent "Particle1".toList "energy_sig".toList)
    (raws : Nat → Nat → RawDraws ℝ) (hr : ∀ i n, (raws i n).Sized n) (garbage : Nat → Nat)
    (rng : Rng ℝ) (fuel : Nat) :
    ∃ w, program t files [stem ++ ".ini".toList] raws garbage rng fuel = some (.ub w) := by
  refine (C94_undefined_iff_partial angleInOrder t ht files _ raws hr garbage rng fuel).mpr
    ⟨_, hs, ?_⟩
  have hparse : FileParser.parse (Reader.ofFile (fileOf c.lines)) = .ok i := by
    unfold start at hs
    rw [(C69_runs_iff _ _).mpr ⟨rfl, stem, rfl⟩, Res.ok_bind, hfile] at hs
    obtain ⟨r, hr, h⟩ := Res.bind_eq_ok.mp hs
    obtain rfl := Res.ok.inj hr
    obtain ⟨i', hi, h⟩ := Res.bind_eq_ok.mp h
    obtain ⟨cfg', hc, h⟩ := Res.bind_eq_ok.mp h
    have h := Res.ok.inj h
    simp only [Prod.mk.injEq] at h
    rw [← h.1]; exact hi
  obtain ⟨-, h2, h3⟩ := C67_sources_partial c hw i hparse
  have n1 : FileParser.numbered "Particle" 1 = "Particle1".toList := by decide
  have hlen : 0 < i.particles.length := by
    by_contra hn
    apply h2
    rw [show i.particles.length = 0 by omega, n1]
    exact hsrc
  have hp := h3 0 hlen
  rw [n1] at hp
  refine ⟨i.particles[0], List.getElem_mem hlen, ?_⟩
  have hd := hp.distro.1 hdist
  have he1 := hp.energy1.2 m hm henergy
  have he2 := hp.energy2.1 hsig
  have hu : (0 : ℝ) < (Units.unitsSI : Units.UnitsSystem ℝ).refEnergy := si_pos.2.2.2.2
  have hd' : i.particles[0].distro = "mono" := by
    apply String.toList_injective; exact hd
  have hmv : (0 : ℝ) < (m.value : ℝ) := by exact_mod_cast hpos
  have h2' : i.particles[0].energy2 = 0 := by
    have : i.particles[0].energy2 * (Units.unitsSI : Units.UnitsSystem ℝ).refEnergy = 0 := by
      rw [he2]; simp
    exact (mul_eq_zero.mp this).resolve_right hu.ne'
  have h1' : (0 : ℝ) < i.particles[0].energy1 := by
    have : (0 : ℝ) < i.particles[0].energy1 * (Units.unitsSI : Units.UnitsSystem ℝ).refEnergy := by
      rw [he1]; exact hmv
    exact (mul_pos_iff_of_pos_right hu).mp this
  rintro (h | h | h)
  · rw [hd'] at h; exact absurd h (by decide)
  · rw [hd'] at h; exact absurd h (by decide)
  · rw [h2'] at h
    simp only [real_le, decide_eq_true_eq] at h
    linarith

namespace ProgramWitness

open Ini FileParser

/-- A source of which only the mean energy is given, classical physics and a histogram. -/
def config : Config :=
  inputConfig "General" [("Physics".toList, [("radiation_model".toList, "classical".toList)]),
    ("Particle1".toList, [("energy_mean".toList, "1.5e-10".toList)]),
    ("Histogram1".toList, [("bins".toList, "100".toList)])]

theorem config_wf : config.WF := Config.wfB_spec (by decide)

/-- The file system with this one file. -/
def files (path : List Char) : Option (List Char) :=
  if path = "run.ini".toList then some (fileOf config.lines) else none

theorem config_starts (t : Tables ℝ) :
    ∃ x : Input ℝ × SimCfg ℝ, start t files ["run".toList ++ ".ini".toList] = .ok x := by
  refine (C66_starts_iff t files "run".toList).1.mpr ⟨_, rfl, ?_, ?_, .classical, ?_⟩
  · obtain ⟨inp, hi⟩ := inputConfig_ok _ config_wf (by decide) (by decide)
      (fun n => by simp [silentB, inputConfig, numbered])
      (fun n => by simp [silentB, inputConfig, numbered])
    exact (C66_accepts_iff _).1.mp ⟨inp, hi⟩
  · exact (mem_sections_iff config_wf _).mpr
      ⟨_, List.mem_cons_of_mem _ List.mem_cons_self, by simp⟩
  · rw [(get_of_says config_wf (v := "classical".toList) ⟨_, List.mem_cons_of_mem _
      (List.mem_cons_of_mem _ List.mem_cons_self), _, List.mem_cons_self, rfl, rfl, rfl⟩ []).1]
    decide

/-- The hypotheses of `C94_refuted` can be met. -/
example (garbage : Nat → Nat) (rng : Rng ℝ) (fuel : Nat) : ∃ w,
    program tables files ["run".toList ++ ".ini".toList] draws garbage rng fuel = some (.ub w) := by
  obtain ⟨⟨i, cfg⟩, hs⟩ := config_starts tables
  exact C94_refuted tables tables_good config config_wf "run".toList files rfl i cfg hs
    ⟨_, .tail _ (.tail _ (.tail _ (.head _))), by simp⟩
    ⟨false, [1], some [5], some (true, [1, 0])⟩ ⟨Or.inl (by simp), by simp⟩
    (by norm_num [Numeral.value, Numeral.nat, Numeral.expVal])
    ⟨_, .tail _ (.tail _ (.tail _ (.head _))), _, .head _, rfl, rfl, by decide⟩
    (silentB_spec (by decide)) (silentB_spec (by decide)) draws draws_sized garbage rng fuel

/-- A beam of photons with a spread of energies and nothing to be saved. -/
def photons : Config :=
  inputConfig "General" [("Physics".toList, [("radiation_model".toList, "classical".toList)]),
    ("Particle1".toList, [("particle_type".toList, "Photon".toList),
      ("energy_distribution".toList, "gaussian".toList), ("energy_mean".toList, "1.5e-10".toList),
      ("number_particles".toList, "20".toList)])]

theorem photons_wf : photons.WF := Config.wfB_spec (by decide)

/-- The file system with this one file. -/
def photonFiles (path : List Char) : Option (List Char) :=
  if path = "run.ini".toList then some (fileOf photons.lines) else none

/-- The hypotheses of `C95_photons_partial`, `C95_ends_partial` and `C93_normal_end_partial` can be
met: 20 photons of a file are followed for 1000 steps to a normal end. -/
theorem photons_end (garbage : Nat → Nat) (rng : Rng ℝ) : ∃ fuel0, ∀ fuel, fuel0 ≤ fuel → ∃ f,
    program tables photonFiles ["run".toList ++ ".ini".toList] draws garbage rng fuel =
      some (.ok f) := by
  obtain ⟨⟨i, cfg⟩, hs⟩ : ∃ x : Input ℝ × SimCfg ℝ,
      start tables photonFiles ["run".toList ++ ".ini".toList] = .ok x := by
    refine (C66_starts_iff tables photonFiles "run".toList).1.mpr ⟨_, rfl, ?_, ?_, .classical, ?_⟩
    · obtain ⟨inp, hi⟩ := inputConfig_ok _ photons_wf (by decide) (by decide)
        (fun n => by simp [silentB, inputConfig, numbered])
        (fun n => by simp [silentB, inputConfig, numbered])
      exact (C66_accepts_iff _).1.mp ⟨inp, hi⟩
    · exact (mem_sections_iff photons_wf _).mpr
        ⟨_, List.mem_cons_of_mem _ List.mem_cons_self, by simp⟩
    · rw [(get_of_says photons_wf (v := "classical".toList) ⟨_, List.mem_cons_of_mem _
        (List.mem_cons_of_mem _ List.mem_cons_self), _, List.mem_cons_self, rfl, rfl, rfl⟩ []).1]
      decide
  have hparse : FileParser.parse (Reader.ofFile (fileOf photons.lines)) = .ok i := by
    have hs := hs
    unfold start at hs
    rw [(C69_runs_iff _ _).mpr ⟨rfl, "run".toList, rfl⟩, Res.ok_bind,
      show photonFiles ("run".toList ++ ".ini".toList) = some (fileOf photons.lines) from rfl] at hs
    obtain ⟨r, hr, h⟩ := Res.bind_eq_ok.mp hs
    obtain rfl := Res.ok.inj hr
    obtain ⟨i', hi, h⟩ := Res.bind_eq_ok.mp h
    obtain ⟨cfg', hc, h⟩ := Res.bind_eq_ok.mp h
    have h := Res.ok.inj h
    simp only [Prod.mk.injEq] at h
    rw [← h.1]; exact hi
  obtain ⟨hg, -, hph⟩ := C79_parameters photons photons_wf i hparse
  obtain ⟨h1, h2, h3⟩ := C67_sources_partial photons photons_wf i hparse
  obtain ⟨h4, -⟩ := C67_histograms_partial photons photons_wf i hparse
  have n1 : numbered "Particle" 1 = "Particle1".toList := by decide
  have n2 : numbered "Particle" 2 = "Particle2".toList := by decide
  refine C95_photons_partial tables photonFiles _ i cfg hs ?_ (hg.tracking.1 (silentB_spec (by decide)))
    ?_ (hph.pairProduction.1 (silentB_spec (by decide))) ?_ draws draws_sized garbage rng
  · have := hg.timeStep.2 ⟨false, [1], none, some (true, [1, 8])⟩ ⟨Or.inl (by simp), by simp⟩
      ⟨_, .head _, _, .head _, rfl, rfl, by decide⟩
    have ht : (0 : ℝ) < (Units.unitsSI : Units.UnitsSystem ℝ).refTime := si_pos.1
    refine (mul_pos_iff_of_pos_right ht).mp ?_
    rw [this]
    norm_num [Numeral.value, Numeral.nat, Numeral.expVal]
  · by_contra hne
    obtain ⟨es, h, -⟩ := h4 1 le_rfl (List.length_pos_iff.mpr hne)
    have : numbered "Histogram" 1 = "Histogram1".toList := by decide
    rw [this] at h
    simp [photons, inputConfig] at h
  · intro p hp
    obtain ⟨k, hk, rfl⟩ := List.mem_iff_getElem.mp hp
    have hk0 : k = 0 := by
      by_contra hne
      obtain ⟨es, h, -⟩ := h1 2 (by omega) (by omega)
      rw [n2] at h
      simp [photons, inputConfig] at h
    subst hk0
    have h := h3 0 hk
    rw [n1] at h
    refine ⟨?_, h.output.1 (silentB_spec (by decide)), Or.inl ?_⟩
    · apply String.toList_injective
      exact h.type.2 "Photon".toList (by decide)
        ⟨_, .tail _ (.tail _ (.tail _ (.head _))), _, .head _, rfl, rfl, rfl⟩
    · apply String.toList_injective
      exact h.distro.2 "gaussian".toList (by decide)
        ⟨_, .tail _ (.tail _ (.tail _ (.head _))), _, .tail _ (.head _), rfl, rfl, rfl⟩

/-- The run above leaves an empty file. -/
example (garbage : Nat → Nat) (rng : Rng ℝ) : ∃ fuel f,
    program tables photonFiles ["run".toList ++ ".ini".toList] draws garbage rng fuel =
      some (.ok f) ∧ f.groups = [] ∧ f.sets = [] := by
  obtain ⟨fuel, h⟩ := photons_end garbage rng
  obtain ⟨f, h⟩ := h fuel le_rfl
  obtain ⟨h1, h2, -⟩ := C93_normal_end_partial angleInOrder tables tables_good _ _ draws draws_sized
    garbage rng fuel f h
  exact ⟨fuel, f, h, h1, h2⟩

/-- The hypotheses of `C93_refuted` can be met: the first file above asks for a histogram. -/
example (garbage : Nat → Nat) (rng : Rng ℝ) (fuel : Nat) (f : H5 ℝ) :
    program tables files ["run".toList ++ ".ini".toList] draws garbage rng fuel ≠ some (.ok f) := by
  obtain ⟨⟨i, cfg⟩, hs⟩ := config_starts tables
  refine C93_refuted angleInOrder tables tables_good files _ draws draws_sized garbage rng fuel i cfg hs
    (Or.inl fun hn => ?_) f
  have hparse : FileParser.parse (Reader.ofFile (fileOf config.lines)) = .ok i := by
    unfold start at hs
    rw [(C69_runs_iff _ _).mpr ⟨rfl, "run".toList, rfl⟩, Res.ok_bind,
      show files ("run".toList ++ ".ini".toList) = some (fileOf config.lines) from rfl] at hs
    obtain ⟨r, hr, h⟩ := Res.bind_eq_ok.mp hs
    obtain rfl := Res.ok.inj hr
    obtain ⟨i', hi, h⟩ := Res.bind_eq_ok.mp h
    obtain ⟨cfg', hc, h⟩ := Res.bind_eq_ok.mp h
    have h := Res.ok.inj h
    simp only [Prod.mk.injEq] at h
    rw [← h.1]; exact hi
  obtain ⟨-, h2, -⟩ := C67_histograms_partial config config_wf i hparse
  rw [hn] at h2
  have : numbered "Histogram" (List.length ([] : List (HistogramParams ℝ)) + 1) =
    "Histogram1".toList := by decide
  rw [this] at h2
  exact h2 ⟨_, .tail _ (.tail _ (.tail _ (.tail _ (.head _)))), by simp⟩

end ProgramWitness

end QED
