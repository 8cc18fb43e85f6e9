import Verif.Lemmas.Watching
import Verif.Props.Program

set_option autoImplicit false
set_option linter.unusedSectionVars false

/-!
# C142: watching an event does not change it

Tracks, histograms and tables are records of an event. Numbers are of any kind: with the same random
numbers the event is the same to the last bit, whatever is recorded of it.
-/

namespace QED

open Dbl MCTools Main

variable {D : Type} [Dbl D]

/-- Tracking changes nothing. Two simulations that differ in what is tracked only, started with the same
particles, go through the same event: it takes as many steps, uses the same random numbers, ends with the
same particles, apart from their recorded tracks, and fills the histograms in the same way. -/
theorem C142_tracking {cfg cfg' : SimCfg D} (hc : cfg.bare = cfg'.bare) {l m : PList D}
    (hl : l.bare = m.bare) (r : Rng D) (hists : List (Hist D)) (n : Nat) (l' : PList D) (r' : Rng D)
    (hists' : List (Hist D)) (he : Event cfg l r hists n l' r' hists') :
    ∃ m', Event cfg' m r hists n m' r' hists' ∧ m'.bare = l'.bare := by
  have h := Watch.event_bare he
  rw [hc, hl] at h
  obtain ⟨m', e, h⟩ := Watch.event_bare_inv h
  exact ⟨m', h, e.symm⟩

/-- An event that ends the program, or runs into undefined behaviour, does so after the same number of
steps whatever is tracked. -/
theorem C142_tracking_abort {cfg cfg' : SimCfg D} (hc : cfg.bare = cfg'.bare) {l m : PList D}
    (hl : l.bare = m.bare) (r : Rng D) (hists : List (Hist D)) (n : Nat) (o : Res (EvState D))
    (ho : ∀ s, o ≠ .ok s) (hr : Run cfg (.init l r hists) n o) : Run cfg' (.init m r hists) n o := by
  have h := Watch.run_bare hr
  have e : Watch.state (.init l r hists) = Watch.state (.init m r hists) := by
    unfold Watch.state EvState.init; dsimp only; rw [hl]
  rw [hc, e] at h
  obtain ⟨o', h', e'⟩ := Watch.run_bare_inv h _ rfl
  have hoo : o' = o := by
    cases o with
    | ok s => exact absurd rfl (ho s)
    | _ => cases o' <;> simp_all [Watch.outcome]
  rw [hoo] at h'
  exact h'

/-- What remains of a particle without its recorded track: all that it is and does. -/
theorem C142_same (p q : Particle D) : p.bare = q.bare ↔
    p.kind = q.kind ∧ p.mass = q.mass ∧ p.charge = q.charge ∧ p.weight = q.weight ∧ p.time = q.time ∧
      p.opticalDepth = q.opticalDepth ∧ p.isAlive = q.isAlive ∧ p.position = q.position ∧
      p.momentum = q.momentum := by
  rcases p with ⟨⟩
  rcases q with ⟨⟩
  simp only [Particle.bare, Particle.mk.injEq]
  tauto

/-- Histograms change nothing: an event that is recorded in histograms is the event without them. -/
theorem C142_histograms {cfg : SimCfg D} {l : PList D} {r : Rng D} {hists : List (Hist D)} {n : Nat}
    {l' : PList D} {r' : Rng D} {hists' : List (Hist D)} (he : Event cfg l r hists n l' r' hists') :
    Event cfg l r [] n l' r' [] := by
  cases he with
  | mk hr hf =>
    have h := Watch.run_plain hr _ rfl
    exact Event.mk (s := Watch.plain _) h rfl

/-- The other way round: an event without histograms can be recorded in any histograms that have bins.
Missing: histograms without bins, see `C142_histograms_refuted`. -/
theorem C142_histograms_partial {cfg : SimCfg D} {l : PList D} {r : Rng D} {n : Nat}
    {l' : PList D} {r' : Rng D} (he : Event cfg l r [] n l' r' []) (hists : List (Hist D))
    (hu : ∀ h ∈ hists, h.Usable) : ∃ hists', Event cfg l r hists n l' r' hists' := by
  cases he with
  | mk hr hf =>
    obtain ⟨s', e, h, hu'⟩ := Watch.run_watched hr _ rfl (.init l r hists) rfl hu
    obtain ⟨hists', hf'⟩ := Watch.fillRest_usable s'.list s'.hists s'.histCount hu'
    refine ⟨hists', ?_⟩
    have e1 : s'.list = EvState.list _ := (congrArg EvState.list e).symm
    have e2 : s'.rng = EvState.rng _ := (congrArg EvState.rng e).symm
    rw [← e1, ← e2]
    exact Event.mk h hf'

/-- A histogram without bins ends the program at the first particle of its species, so the event that
happens without it has no result with it. -/
theorem C142_histograms_refuted (cfg : SimCfg D) (l : PList D) (r : Rng D) (h : Hist D)
    (h0 : h.nBins = 0) (p : Particle D) (hp : p ∈ l.items) (hn : h.particle = p.name)
    (ht : (h.time <=. (lit 0 : D)) = true) (hT : ((lit 0 : D) <. cfg.timeEnd) = true) :
    Run cfg (.init l r [h]) 1 (.exit 1) ∧
      ∀ n l' r' hists', ¬ Event cfg l r [h] n l' r' hists' := by
  have hfill : ∀ ps : List (Particle D), p ∈ ps → fillHist h ps = .exit 1 := by
    intro ps
    induction ps with
    | nil => intro hp; cases hp
    | cons q ps ih =>
      intro hp
      unfold fillHist
      by_cases hq : h.particle = q.name
      · rw [if_pos hq, Hist.appParticle, if_pos h0]; rfl
      · rw [if_neg hq, Res.ok_bind]
        refine ih ((List.mem_cons.mp hp).resolve_left ?_)
        rintro rfl
        exact hq hn
  have hstep : timeStep cfg (.init l r [h]) = .exit 1 := by
    unfold timeStep histStep
    simp only [EvState.init, List.getElem?_cons_zero, ht, if_true]
    rw [hfill _ hp]
    rfl
  refine ⟨.abort hT hstep (by simp), fun n l' r' hists' he => ?_⟩
  cases he with
  | mk hr hf =>
    cases hr with
    | done hd => exact absurd (hT.symm.trans hd) (by decide)
    | step _ hs _ => rw [hstep] at hs; cases hs
    | abort _ _ hno => exact hno _ rfl

/-- Saving the events of a source changes nothing: the same random numbers are used and the histograms
are the same as without. -/
theorem C142_saving (cfg : SimCfg D) (fuel : Nat) (tracking : Bool) (k j : Nat) (s s' : Source D)
    (w w' : World D) (out : OutMgr D)
    (h : runEvents cfg fuel true tracking k j (s, w) = (some (.ok (s', w')) : Timed _)) :
    ∃ out', runEvents cfg fuel false tracking k j (s, ⟨w.rng, w.hists, out⟩) =
      (some (.ok (s', ⟨w'.rng, w'.hists, out'⟩)) : Timed _) :=
  Watch.runEvents_silent cfg fuel tracking k j (s, w) (s', w') out h

/-- The tables of all events of a source, the histograms and the random numbers used are the same with
tracking and without. -/
theorem C142_tables (cfg : SimCfg D) (fuel : Nat) (output : Bool) (k j : Nat) (s s' : Source D)
    (w w' : World D)
    (h : runEvents cfg fuel output true k j (s, w) = (some (.ok (s', w')) : Timed _)) :
    runEvents cfg.bare fuel output false k j (s.bare, ⟨w.rng, w.hists, w.out.bare⟩) =
      (some (.ok (s'.bare, ⟨w'.rng, w'.hists, w'.out.bare⟩)) : Timed _) := by
  have := Watch.runEvents_bare cfg fuel output true k j (s, w)
  rw [h] at this
  exact this

/-- The set-up of the program without tracking is the one with tracking, without the records. -/
theorem C142_setup (t : Tables D) (i : Input D) (cfg : SimCfg D) (h : setup t i = .ok cfg) :
    setup t { i with general := { i.general with tracking := false } } = .ok cfg.bare := by
  unfold setup at h ⊢
  obtain ⟨field, hf, h⟩ := Res.bind_eq_ok.mp h
  obtain ⟨⟨push, procs⟩, hp, h⟩ := Res.bind_eq_ok.mp h
  obtain rfl := Res.ok.inj h
  dsimp only
  rw [hf, Res.ok_bind]
  have : makePhysics t { i.general with tracking := false } i.physics field =
      .ok (push, procs.map Proc.bare) := by
    have hem : ∀ (e : EmissionCfg D) (ph : String), makeEmission { e with track := false } ph =
        makeEmission e ph >>= fun x => .ok (x.1, x.2.bare) := by
      intro e ph
      unfold makeEmission
      split
      · rfl
      · split
        · rfl
        · split <;> rfl
    unfold makePhysics at hp ⊢
    obtain ⟨⟨push', em⟩, h1, h2⟩ := Res.bind_eq_ok.mp hp
    have h3 := hem (emissionCfg t field i.general.timeStep i.physics.sampleFraction i.physics.minEnergy
      i.general.tracking) i.physics.physics
    rw [h1, Res.ok_bind] at h3
    refine Res.bind_eq_ok.mpr ⟨_, h3, ?_⟩
    dsimp only at h2 ⊢
    by_cases hpp : i.physics.pairProduction = true
    · rw [if_pos hpp] at h2 ⊢
      obtain ⟨rfl, rfl⟩ := Prod.mk.inj (Res.ok.inj h2); rfl
    · rw [if_neg hpp] at h2 ⊢
      obtain ⟨rfl, rfl⟩ := Prod.mk.inj (Res.ok.inj h2); rfl
  rw [this]
  rfl

/-! ## Records do disturb each other, and the program -/

namespace WatchWitness

/-- An electron at rest. -/
noncomputable def electron : Particle ℝ :=
  .newLepton 1 (-1) ⟨0, 0, 0⟩ ⟨0, 0, 0⟩ 1 0 false 0

/-- It is accelerated for one step. -/
noncomputable def cfg : SimCfg ℝ := ⟨lorentzForce, staticField ⟨-10, 0, 0⟩ ⟨0, 0, 0⟩, 1, 1, []⟩

/-- Three bins for the energies of electrons, to be filled at the given time. -/
noncomputable def hist (time : ℝ) : Hist ℝ := .new "energies" "Electron" "Energy" time 0 3 3 0

noncomputable def list : PList ℝ := ⟨"0", 10, [electron]⟩

/-- The electron after the step. -/
noncomputable def later : Particle ℝ := pushParticle cfg.push cfg.field cfg.dt electron

theorem later_energy : later.energy = Real.sqrt 101 := by
  have hm : later.momentum = ⟨10, 0, 0⟩ := by
    simp [later, electron, cfg, pushParticle, rk4, lorentzForce, staticField, Particle.newLepton,
      Particle.new, Particle.updateTrack, Particle.updateTime, V3.add, V3.smul, V3.muls, V3.divs, V3.cross]
    norm_num
  have hk : later.kind = .electron := by
    have := (push_identity cfg.push cfg.field cfg.dt electron).1
    exact this.trans (by simp [electron, Particle.newLepton, Particle.new, Particle.leptonKind])
  have hmass : later.mass = 1 := (push_identity cfg.push cfg.field cfg.dt electron).2.1
  unfold Particle.energy Particle.gamma
  rw [hk, hm, hmass]
  norm_num [V3.mag2, V3.dot]

theorem name_early : electron.name = "Electron" := by
  simp [electron, Particle.newLepton, Particle.new, Particle.leptonKind, Particle.name]

theorem name_late : later.name = "Electron" := by
  have := (push_identity cfg.push cfg.field cfg.dt electron).1
  unfold Particle.name
  unfold later
  rw [this]
  simp [electron, Particle.newLepton, Particle.new, Particle.leptonKind]

theorem early (t : ℝ) : fillHist (hist t) [electron] =
    .ok { hist t with entries := 1, values := [0, 1, 0] } := by
  have he : electron.energy = 1 := by
    simp [electron, Particle.energy, Particle.gamma, Particle.newLepton, Particle.new,
      Particle.leptonKind, V3.mag2, V3.dot]
  unfold fillHist
  rw [if_pos (by rw [name_early]; rfl), Hist.appParticle, if_neg (by simp [hist, Hist.new]), he]
  norm_num [Hist.count, hist, Hist.new, Hist.binCentres, List.range_succ, rd, Numerics.usub,
    Numerics.arrayIndex, Numerics.scanLow, Hist.incr, fillHist, List.replicate]

theorem late (t : ℝ) : fillHist (hist t) [later] = .ok { hist t with entries := 1 } := by
  have h1 : ¬ Real.sqrt 101 < 3 := by
    rw [not_lt]; exact Real.le_sqrt_of_sq_le (by norm_num)
  unfold fillHist
  rw [if_pos (by rw [name_late]; rfl), Hist.appParticle, if_neg (by simp [hist, Hist.new]), later_energy]
  norm_num [Hist.count, hist, Hist.new, Hist.binCentres, List.range_succ, rd, Numerics.usub, Hist.incr,
    fillHist, h1]

theorem advance_later (r : Rng ℝ) : advance cfg list r = .ok (⟨"0", 10, [later]⟩, r) := rfl

end WatchWitness

open WatchWitness in
/-- Records disturb each other: a histogram of the energies at time 0 shows the electron at rest, in its
second bin. With another histogram in front of it, for a later time, it shows the end of the event
instead, and no electron in its range. -/
theorem C142_others_refuted : ∃ (cfg : SimCfg ℝ) (l : PList ℝ) (g h : Hist ℝ), h.time = 0 ∧
    ∀ r : Rng ℝ, ∃ (l' : PList ℝ) (g' h' h'' : Hist ℝ),
      Event cfg l r [h] 1 l' r [h'] ∧ Event cfg l r [g, h] 1 l' r [g', h''] ∧
      h'.values = [0, 1, 0] ∧ h''.values = [0, 0, 0] := by
  refine ⟨cfg, list, hist 5, hist 0, rfl, fun r => ⟨⟨"0", 10, [later]⟩,
    { hist 5 with entries := 1 }, { hist 0 with entries := 1, values := [0, 1, 0] },
    { hist 0 with entries := 1 },
    Event.mk (s := ⟨⟨"0", 10, [later]⟩, r, 1, 1, [{ hist 0 with entries := 1, values := [0, 1, 0] }]⟩)
      (.step ?_ ?_ (.done ?_)) rfl,
    Event.mk (s := ⟨⟨"0", 10, [later]⟩, r, 1, 0, [hist 5, hist 0]⟩) (.step ?_ ?_ (.done ?_)) ?_,
    rfl, ?_⟩⟩
  · simp [EvState.init, cfg]
  · unfold timeStep histStep
    have hd : ((hist 0).time <=. (lit 0 : ℝ)) = true := by simp [hist, Hist.new]
    simp only [EvState.init, List.getElem?_cons_zero, hd, if_true]
    rw [show list.items = [electron] from rfl, early]
    simp only [Res.ok_bind]
    rw [advance_later]
    simp [cfg]
  · simp [cfg]
  · simp [EvState.init, cfg]
  · unfold timeStep histStep
    have hd : ((hist 5).time <=. (lit 0 : ℝ)) = false := by simp [hist, Hist.new]
    simp only [EvState.init, List.getElem?_cons_zero, hd, Bool.false_eq_true, if_false]
    simp only [Res.ok_bind]
    rw [advance_later]
    simp [cfg]
  · simp [cfg]
  · unfold fillRest
    rw [late, Res.ok_bind]
    unfold fillRest
    rw [late, Res.ok_bind]
    rfl
  · simp [hist, Hist.new, List.replicate]

namespace WatchWitness

open Ini FileParser ProgramWitness

/-- The beam of photons `ProgramWitness.photons`, with a histogram. -/
def watched : Config :=
  inputConfig "General" [("Physics".toList, [("radiation_model".toList, "classical".toList)]),
    ("Particle1".toList, [("particle_type".toList, "Photon".toList),
      ("energy_distribution".toList, "gaussian".toList), ("energy_mean".toList, "1.5e-10".toList),
      ("number_particles".toList, "20".toList)]),
    ("Histogram1".toList, [("bins".toList, "100".toList)])]

theorem watched_wf : watched.WF := Config.wfB_spec (by decide)

/-- The file system with this one file. -/
def watchedFiles (path : List Char) : Option (List Char) :=
  if path = "run.ini".toList then some (fileOf watched.lines) else none

theorem watched_starts (t : Tables ℝ) :
    ∃ x : Input ℝ × SimCfg ℝ, start t watchedFiles ["run".toList ++ ".ini".toList] = .ok x := by
  refine (C66_starts_iff t watchedFiles "run".toList).1.mpr ⟨_, rfl, ?_, ?_, .classical, ?_⟩
  · obtain ⟨inp, hi⟩ := inputConfig_ok _ watched_wf (by decide) (by decide)
      (fun n => by simp [silentB, inputConfig, numbered])
      (fun n => by simp [silentB, inputConfig, numbered])
    exact (C66_accepts_iff _).1.mp ⟨inp, hi⟩
  · exact (mem_sections_iff watched_wf _).mpr
      ⟨_, List.mem_cons_of_mem _ List.mem_cons_self, by simp⟩
  · rw [(get_of_says watched_wf (v := "classical".toList) ⟨_, List.mem_cons_of_mem _
      (List.mem_cons_of_mem _ List.mem_cons_self), _, List.mem_cons_self, rfl, rfl, rfl⟩ []).1]
    decide

end WatchWitness

open WatchWitness ProgramWitness Ini FileParser in
/-- Records disturb the program: there are two input files, one of which asks for a histogram in addition
to what is in the other. With the same random numbers the program ends normally on the one without, and
never on the one with the histogram. -/
theorem C142_program_refuted (garbage : Nat → Nat) (rng : Rng ℝ) :
    watched = photons ++ [("Histogram1".toList, [("bins".toList, "100".toList)])] ∧
    (∃ fuel f, program tables photonFiles ["run".toList ++ ".ini".toList] draws garbage rng fuel =
      some (.ok f)) ∧
    ∀ fuel f, program tables watchedFiles ["run".toList ++ ".ini".toList] draws garbage rng fuel ≠
      some (.ok f) := by
  refine ⟨rfl, ?_, ?_⟩
  · obtain ⟨fuel, h⟩ := photons_end garbage rng
    exact ⟨fuel, h fuel le_rfl⟩
  intro fuel f
  obtain ⟨⟨i, cfg⟩, hs⟩ := watched_starts tables
  refine C93_refuted angleInOrder tables tables_good watchedFiles _ draws draws_sized garbage rng fuel i cfg hs
    (Or.inl fun hn => ?_) f
  have hparse : FileParser.parse (Reader.ofFile (fileOf watched.lines)) = .ok i := by
    unfold start at hs
    rw [(C69_runs_iff _ _).mpr ⟨rfl, "run".toList, rfl⟩, Res.ok_bind,
      show watchedFiles ("run".toList ++ ".ini".toList) = some (fileOf watched.lines) from rfl] at hs
    obtain ⟨r, hr, h⟩ := Res.bind_eq_ok.mp hs
    obtain rfl := Res.ok.inj hr
    obtain ⟨i', hi, h⟩ := Res.bind_eq_ok.mp h
    obtain ⟨cfg', hc, h⟩ := Res.bind_eq_ok.mp h
    have h := Res.ok.inj h
    simp only [Prod.mk.injEq] at h
    rw [← h.1]; exact hi
  obtain ⟨-, h2, -⟩ := C67_histograms_partial watched watched_wf i hparse
  rw [hn] at h2
  have : numbered "Histogram" (List.length ([] : List (HistogramParams ℝ)) + 1) =
    "Histogram1".toList := by decide
  rw [this] at h2
  exact h2 ⟨_, .tail _ (.tail _ (.tail _ (.tail _ (.head _)))), by simp⟩

/-! ## Examples -/

open WatchWitness in
/-- An electron is accelerated for one step, tracked or not: two simulations and two lists that differ
in the tracking, with an event and its image. -/
example (r : Rng ℝ) : ∃ l m l' : PList ℝ, l.bare = m.bare ∧ l ≠ m ∧ Event cfg l r [] 1 l' r [] ∧
    ∃ m', Event cfg m r [] 1 m' r [] ∧ m'.bare = l'.bare := by
  have he : Event cfg list r [] 1 ⟨"0", 10, [later]⟩ r [] :=
    Event.mk (s := ⟨⟨"0", 10, [later]⟩, r, 1, 0, []⟩) (.step (by simp [EvState.init, cfg])
      ((timeStep_nil rfl).mpr ⟨_, _, advance_later r, by simp [EvState.init, cfg]⟩)
      (.done (by simp [cfg]))) rfl
  refine ⟨list, ⟨"0", 10, [{ electron with tracking := true }]⟩, _, rfl, ?_, he,
    C142_tracking (cfg := cfg) (l := list) (m := ⟨"0", 10, [{ electron with tracking := true }]⟩) rfl rfl r [] 1 _ r [] he⟩
  intro h
  have := congrArg (fun l : PList ℝ => l.items.map Particle.tracking) h
  simp [list, electron, Particle.newLepton, Particle.new] at this

open WatchWitness in
/-- The histograms of the witness have bins. -/
example (r : Rng ℝ) : (hist 0).Usable ∧ ∃ l', Event cfg list r [] 1 l' r [] ∧
    ∃ hists', Event cfg list r [hist 0] 1 l' r hists' := by
  have hu : (hist 0).Usable := ⟨by simp [hist, Hist.new], by simp [hist, Hist.new],
    by simp [hist, Hist.new, Hist.binCentres], by simp [hist, Hist.new]⟩
  have he : Event cfg list r [] 1 ⟨"0", 10, [later]⟩ r [] :=
    Event.mk (s := ⟨⟨"0", 10, [later]⟩, r, 1, 0, []⟩) (.step (by simp [EvState.init, cfg])
      ((timeStep_nil rfl).mpr ⟨_, _, advance_later r, by simp [EvState.init, cfg]⟩)
      (.done (by simp [cfg]))) rfl
  exact ⟨hu, _, he, C142_histograms_partial he [hist 0] (by simpa using hu)⟩

open WatchWitness in
/-- One tracked photon of a source, saved, in an event without time steps. -/
example (r : Rng ℝ) (out : OutMgr ℝ) : ∃ (s s' : Source ℝ) (w' : World ℝ), s.track = true ∧
    runEvents { cfg with timeEnd := 0 } 0 true true 1 0 (s, ⟨r, [], out.initSource 1⟩) =
      (some (.ok (s', w')) : Timed _) := by
  let s : Source ℝ := ⟨"Photon", 1, ⟨0, 0, 0⟩, ⟨0, 0, 1⟩, [0], [0], [0], [0], [0], [1], 0,
    V3.rotateToAxis ⟨0, 0, 1⟩ V3.ez, true⟩
  suffices h : ∃ x, runEvents { cfg with timeEnd := 0 } 0 true true 1 0 (s, ⟨r, [], out.initSource 1⟩) =
      (some (.ok x) : Timed _) by
    obtain ⟨x, h⟩ := h
    exact ⟨s, x.1, x.2, rfl, h⟩
  obtain ⟨l, s1, r1, hg, hl⟩ : ∃ l s1 r1, s.generateList r = .ok (l, s1, r1) ∧ ∃ p, l.items = [p] :=
    ⟨_, _, _, rfl, _, rfl⟩
  obtain ⟨p, hl⟩ := hl
  obtain ⟨m, hm, -, -, -, hs⟩ := storeFinalIf_total (output := true) (n := 1) (j := 0) (by norm_num)
    (m := { out.initSource 1 with primary := (out.initSource 1).primary.set 0 (some (full [OutSpec.particleRow 0 p])) })
    (fun _ => by constructor <;> simp [OutMgr.initSource]) l (by rw [hl]; norm_num)
  refine ⟨(s1, ⟨r1, [], m.storeTrack l 0⟩), ?_⟩
  unfold runEvents
  refine Timed.bind_eq.mpr ⟨_, ?_, rfl⟩
  unfold runEvent
  refine Timed.bind_eq.mpr ⟨_, congrArg some hg, ?_⟩
  refine Timed.bind_eq.mpr ⟨_, congrArg some (storePrimary_eq (initSource_sized out 1) l 0
    (by norm_num) (p := p) (by rw [hl]; rfl)), ?_⟩
  refine Timed.bind_eq.mpr ⟨.init l r1 [], by simp [timeLoop, EvState.init]; rfl, ?_⟩
  refine Timed.bind_eq.mpr ⟨[], rfl, ?_⟩
  exact Timed.bind_eq.mpr ⟨m, congrArg some hm, rfl⟩

open WatchWitness in
/-- A histogram without bins. -/
example (r : Rng ℝ) : Run cfg (.init list r [.new "none" "Electron" "Energy" 0 0 1 0 0]) 1 (.exit 1) :=
  (C142_histograms_refuted cfg list r _ rfl electron (by simp [list]) (by rw [name_early]; rfl)
    (by simp [Hist.new]) (by simp [cfg])).1

end QED
