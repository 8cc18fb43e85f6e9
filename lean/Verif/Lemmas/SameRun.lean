import Verif.Spec.SameRun
import Verif.Lemmas.Parallel
import Verif.Props.Input
import Verif.Props.Pulse
import Verif.Props.RunEnds

set_option autoImplicit false

/-! Helper lemmas for C137: one order, written into a file and asked for from Python. -/

namespace QED

open Dbl MCTools RunMgr Main Ini FileParser MpiSpec

/-! ## From Python -/

theorem history_sample {D : Type} [Dbl D] {m m' : Mgr D} {h : List (Call D × Outcome D)}
    (hh : History m h m') : (lastOf asSample h = none → m'.sampleFrac = m.sampleFrac) ∧
      ∀ x, lastOf asSample h = some x → ((lit 0 <=. x) && (x <=. lit 1)) = true →
        m'.sampleFrac = x := by
  have keep : ∀ {m : Mgr D} {c : Call D} {o : Outcome D}, Does m c o → asSample c = none →
      o.mgr.sampleFrac = m.sampleFrac := by
    intro m c o h hn
    cases h with
    | setTime => rfl
    | setField => simp only [Outcome.mgr, RunMgr.setField]; split <;> rfl
    | setPhysics => simp only [Outcome.mgr, RunMgr.setPhysics]; split <;> rfl
    | setGenerator => rfl
    | setSampleFraction => cases hn
    | usePairProduction => rfl
    | beamOn hb => exact (beamOn_config hb).sampleFrac
  have set : ∀ {m : Mgr D} {c : Call D} {o : Outcome D} {x : D}, Does m c o →
      asSample c = some x → ((lit 0 <=. x) && (x <=. lit 1)) = true → o.mgr.sampleFrac = x := by
    intro m c o x h hs hx
    cases h <;> simp only [asSample, reduceCtorEq, Option.some.injEq] at hs
    subst hs
    simp only [Outcome.mgr, RunMgr.setSampleFraction, if_pos hx]
  induction hh with
  | nil => exact ⟨fun _ => rfl, fun x hx => by cases hx⟩
  | @cons m c o h m' hd hh ih =>
    rw [lastOf_cons]
    refine ⟨?_, ?_⟩
    · intro hn
      rw [Option.or_eq_none_iff] at hn
      rw [ih.1 hn.1, keep hd hn.2]
    · intro x hx hv
      cases hl : lastOf asSample h with
      | some y =>
        rw [hl, Option.some_or] at hx
        cases hx
        exact ih.2 x hl hv
      | none =>
        rw [hl, Option.none_or] at hx
        rw [ih.1 hl]
        exact set hd hx hv

theorem lastOf_field {D : Type} [Dbl D] (h : List (Call D × Outcome D)) :
    lastOf asField h = (lastOf asPulse h).map Prod.fst := by
  have hc : ∀ c : Call D, asField c = (asPulse c).map Prod.fst := by intro c; cases c <;> rfl
  induction h with
  | nil => rfl
  | cons x h ih =>
    rw [lastOf_cons, lastOf_cons, ih, hc]
    cases lastOf asPulse h <;> rfl

/-- The settings of a run manager that was given an order. -/
structure RunOrder.Held (o : RunOrder) (m : Mgr ℝ) : Prop where
  timeStep : m.timeStep = (o.timeStep.value : ℝ) / (Units.unitsSI : Units.UnitsSystem ℝ).refTime
  timeEnd : m.timeEnd = (o.timeEnd.value : ℝ) / (Units.unitsSI : Units.UnitsSystem ℝ).refTime
  fieldType : m.fieldType = o.fieldName
  fieldArgs : m.fieldArgs = FieldArgs.convert
    { maxField := (o.maxField.value : ℝ), wavelength := (o.wavelength.value : ℝ)
      duration := (o.pulse.value : ℝ), waist := (o.waist.value : ℝ)
      polarisation := (o.polarisation.value : ℝ), start := o.start.value, focus := o.focus.value }
  physics : m.physics = o.physics
  sample : m.sampleFrac = (o.sample.value : ℝ)
  pairs : m.useBW = o.pairs
  beam : m.genArgs = GenArgs.convert
    { particleType := o.particle, energyDist := o.dist, energyParam1 := (o.energy1.value : ℝ)
      energyParam2 := (o.energy2.value : ℝ), radius := (o.radius.value : ℝ)
      duration := (o.duration.value : ℝ), divergence := (o.divergence.value : ℝ)
      position := o.position.value, direction := o.direction.value }

theorem held_exists (o : RunOrder) : ∃ m, o.Held m := by
  refine ⟨{ RunMgr.new ⟨0, 0, 0, 0, 0, ⟨0, 0, 0⟩, ⟨0, 0, 0⟩⟩ ⟨"", "", 0, 0, 0, 0, 0, ⟨0, 0, 0⟩, ⟨0, 0, 0⟩⟩ with
    timeStep := _, timeEnd := _, fieldType := _, fieldArgs := _, physics := _, sampleFrac := _
    useBW := _, genArgs := _ }, rfl, rfl, rfl, rfl, rfl, rfl, rfl, rfl⟩

theorem fieldName_known (o : RunOrder) : o.fieldName ∈ fieldNames := by
  unfold RunOrder.fieldName fieldNames
  split <;> simp

theorem RunOrder.Common.passed {o : RunOrder} (ho : o.Common) : o.physics ∈ passedNames := by
  have := ho.physics
  simp only [passedNames, List.mem_cons, List.not_mem_nil, or_false] at this ⊢
  tauto

theorem asked_held {o : RunOrder} (ho : o.Common) {fa : FieldArgs ℝ} {ga : GenArgs ℝ}
    {h : List (Call ℝ × Outcome ℝ)} {m : Mgr ℝ} (hh : History (RunMgr.new fa ga) h m)
    (ha : o.Asked h) : o.Held m := by
  obtain ⟨-, -, hp, -, ht, he⟩ := history_config hh
  rw [ha.time] at ht he
  have hf := (history_pulse hh).2 _ _ ha.field (fieldName_known o)
  have hs := (history_sample hh).2 _ ha.sample (by
    have := ho.fraction
    simp only [real_le, real_lit, Bool.and_eq_true, decide_eq_true_eq]
    exact_mod_cast this)
  have hb := history_pairs hh
  rw [ha.pairs] at hb
  exact ⟨ht, he, hf.2, hf.1, hp.2 _ ha.physics ho.passed, hs, hb, (history_beam hh).2 _ ha.beam⟩

theorem asked_configured {o : RunOrder} (hs : o.Sound) (ho : o.Common) {h : List (Call ℝ × Outcome ℝ)}
    (ha : o.Asked h) : Configured h where
  field := ⟨o.fieldName, by rw [lastOf_field, ha.field]; rfl, fieldName_known o⟩
  physics := ⟨_, ha.physics, ho.passed⟩
  beam := ⟨_, ha.beam⟩
  step := ⟨_, _, ha.time, (C72_step_real _).mpr (by exact_mod_cast hs.step)⟩

/-! ## From the file -/

section file
variable {o : RunOrder} {c : Config}

theorem one_numbered : numbered "Particle" 1 = "Particle1".toList := by decide
theorem two_numbered : numbered "Particle" 2 = "Particle2".toList := by decide
theorem hist_numbered : numbered "Histogram" 1 = "Histogram1".toList := by decide

theorem triple_ok (hc : c.WF) {sect : List Char} {name : String} {v : Triple} (hv : v.WF)
    (hs : c.Says sect name.toList v.text) : VectorOk (Reader.ofFile (fileOf c.lines)) sect name :=
  ⟨_, C65_three _ _ _ _ v.x v.y v.z hv.1 hv.2.1 hv.2.2 (Or.inl (get_of_says hc hs []).1)⟩

theorem written_accepted (ho : o.Sound) (hc : c.WF) (hw : o.Written c) :
    Acceptable (Reader.ofFile (fileOf c.lines)) where
  general := (mem_sections_iff hc _).mpr hw.general
  timeStep := (get_of_says hc hw.timeStep []).2
  timeEnd := (get_of_says hc hw.timeEnd []).2
  hasUnits := (get_of_says hc hw.units []).2
  units := Or.inl (get_of_says hc hw.units []).1
  field := fun _ => by
    refine Or.inr (Or.inr ⟨?_, triple_ok hc ho.start hw.start, triple_ok hc ho.focus hw.focus⟩)
    rw [(get_of_says hc hw.fieldType []).1]
    unfold RunOrder.fieldName
    cases o.focusing
    · exact Or.inl rfl
    · exact Or.inr rfl
  sources := fun n h1 h2 => by
    rcases Nat.lt_or_ge n 2 with h | h
    · obtain rfl : n = 1 := by omega
      rw [one_numbered]
      exact ⟨triple_ok hc ho.position hw.position, triple_ok hc ho.direction hw.direction⟩
    · have := h2 2 (by omega) h
      rw [two_numbered] at this
      exact absurd ((mem_sections_iff hc _).mp this) hw.only

theorem says_unique (hc : c.WF) {sect name v w : List Char} (h1 : c.Says sect name v)
    (h2 : c.Says sect name w) : v = w :=
  ((get_of_says hc h1 []).1).symm.trans (get_of_says hc h2 []).1

theorem real_of {x u : ℝ} (hu : 0 < u) {sect : List Char} {name : String} {d : ℚ} {n : Numeral}
    (hn : n.WF) (hs : c.Says sect name.toList n.text) (h : RealIs c sect name d (x * u)) :
    x = (n.value : ℝ) / u := by
  rw [eq_div_iff hu.ne']
  exact h.2 n hn hs

theorem vec_of {x : V3 ℝ} {u : ℝ} (hu : 0 < u) {sect : List Char} {name : String} {v : Triple}
    (hv : v.WF) (hs : c.Says sect name.toList v.text) (h : VecIs c sect name (inUnits x u)) :
    x = v.value.divs u := by
  have := h.2 v.x v.y v.z hv.1 hv.2.1 hv.2.2 hs
  have e : inUnits x u = v.value := this
  rw [← e]
  obtain ⟨a, b, d⟩ := x
  simp [inUnits, V3.divs, hu.ne']

theorem string_of {x : String} {sect : List Char} {name : String} {d : List Char} {s : String}
    (hne : s ≠ "") (hs : c.Says sect name.toList s.toList) (h : TextIs c sect name d x) : x = s := by
  have := h.2 s.toList (fun e => hne (String.toList_eq_nil_iff.mp e)) hs
  exact String.toList_inj.mp this

/-- What the parser makes of an order. -/
theorem written_read (ho : o.Sound) (hc : c.WF) (hw : o.Written c) {inp : Input ℝ}
    (hp : parse (Reader.ofFile (fileOf c.lines)) = .ok inp) {m : Mgr ℝ} (hm : o.Held m) :
    inp.general.timeStep = m.timeStep ∧ inp.general.timeEnd = m.timeEnd ∧
    inp.general.tracking = false ∧ makeField inp.field = .ok (fieldOf m) ∧
    inp.physics.physics = m.physics ∧ inp.physics.sampleFraction = m.sampleFrac ∧
    inp.physics.minEnergy = 0 ∧ inp.physics.pairProduction = m.useBW ∧ inp.histograms = [] ∧
    ∃ p, inp.particles = [p] ∧ p.output = false ∧ p.number = o.number ∧
      ∀ raw, makeSource inp.general p raw = sourceOf o.number raw m := by
  obtain ⟨ut, ul, ue, ub, un⟩ := si_pos
  obtain ⟨hg, hf, hphys⟩ := C79_parameters c hc inp hp
  obtain ⟨p1, p2, p3⟩ := C67_sources_partial c hc inp hp
  obtain ⟨q1, -, -⟩ := C67_histograms_partial c hc inp hp
  have htr : inp.general.tracking = false := hg.tracking.1 hw.tracking
  have hone : inp.particles.length = 1 := by
    have h1 : ¬ 2 ≤ inp.particles.length := fun h => by
      have := p1 2 (by omega) h
      rw [two_numbered] at this
      exact hw.only this
    have h0 : inp.particles.length ≠ 0 := fun h => by
      rw [h] at p2
      exact p2 (by rw [Nat.zero_add, one_numbered]; exact hw.beam)
    omega
  obtain ⟨p, hps⟩ := List.length_eq_one_iff.mp hone
  have hsrc : SourceIs Units.unitsSI c "Particle1".toList p := by
    have := p3 0 (by omega)
    rw [Nat.zero_add, one_numbered] at this
    simpa [hps] using this
  refine ⟨?_, ?_, htr, ?_, ?_, ?_, ?_, ?_, ?_, p, hps, hsrc.output.1 hw.output, ?_, ?_⟩
  · rw [hm.timeStep]; exact real_of ut ho.timeStep hw.timeStep hg.timeStep
  · rw [hm.timeEnd]; exact real_of ut ho.timeEnd hw.timeEnd hg.timeEnd
  · have pulse : ∀ {a b d e g : ℝ} {s f : V3 ℝ}, PulseIs Units.unitsSI c a b d e g s f →
        (⟨a, b, d, e, g, s, f⟩ : FieldArgs ℝ) = m.fieldArgs := by
      intro a b d e g s f hpu
      rw [hm.fieldArgs, real_of ue ho.maxField hw.maxField hpu.maxE,
        real_of ul ho.wavelength hw.wavelength hpu.wavelength,
        real_of ut ho.pulse hw.pulse hpu.duration, real_of ul ho.waist hw.waist hpu.waist,
        hpu.pol.2 _ ho.polarisation hw.polarisation, vec_of ul ho.start hw.start hpu.start,
        vec_of ul ho.focus hw.focus hpu.focus]
      rfl
    have hname := hw.fieldType
    unfold fieldOf
    rw [hm.fieldType]
    unfold RunOrder.fieldName at hname ⊢
    cases hfi : inp.field with
    | unset => rw [hfi] at hf; exact absurd hw.field hf
    | static e b =>
      rw [hfi] at hf
      have := says_unique hc hf.1 hname
      cases hb : o.focusing <;> rw [hb] at this <;> exact absurd this (by decide)
    | plane a b d e =>
      rw [hfi] at hf
      have := says_unique hc hf.1 hname
      cases hb : o.focusing <;> rw [hb] at this <;> exact absurd this (by decide)
    | gaussian a b d e g s f =>
      rw [hfi] at hf
      have h1 := says_unique hc hf.1 hname
      cases hb : o.focusing with
      | true => rw [hb] at h1; exact absurd h1 (by decide)
      | false =>
        have := pulse hf.2
        dsimp only
        rw [← this, if_pos (by decide)]
        rfl
    | focusing a b d e g s f =>
      rw [hfi] at hf
      have h1 := says_unique hc hf.1 hname
      cases hb : o.focusing with
      | false => rw [hb] at h1; exact absurd h1 (by decide)
      | true =>
        have := pulse hf.2
        dsimp only
        rw [← this, if_neg (by decide)]
        rfl
  · rw [hm.physics]
    exact string_of ho.physics hw.physics hphys.physics
  · rw [hm.sample]; exact hphys.sampleFraction.2 _ ho.sample hw.sample
  · have := hphys.minEnergy.1 hw.minEnergy
    simpa [un.ne'] using this
  · rw [hm.pairs]
    have := hw.pairs
    cases hb : o.pairs with
    | true => rw [hb] at this; exact hphys.pairProduction.2.1 _ this (Or.inl rfl)
    | false => rw [hb] at this; exact hphys.pairProduction.2.2 _ this (Or.inl rfl)
  · by_contra hne
    have := q1 1 le_rfl (List.length_pos_iff.mpr hne)
    rw [hist_numbered] at this
    exact hw.histograms this
  · have := ho.number
    exact hsrc.number.2 _ (by omega) hw.number
  · intro raw
    have hnum : p.number = o.number := hsrc.number.2 _ (by have := ho.number; omega) hw.number
    have hu : RunMgr.u32 (o.number : Int) = o.number := by
      have := ho.number
      unfold RunMgr.u32
      omega
    unfold makeSource sourceOf
    dsimp only
    rw [htr, hm.beam, hu, hnum, string_of ho.particle hw.particle hsrc.type,
      string_of ho.dist hw.dist hsrc.distro, real_of un ho.energy1 hw.energy1 hsrc.energy1,
      real_of un ho.energy2 hw.energy2 hsrc.energy2, real_of ul ho.radius hw.radius hsrc.radius,
      real_of ut ho.duration hw.duration hsrc.duration,
      hsrc.divergence.2 _ ho.divergence hw.divergence,
      vec_of ul ho.position hw.position hsrc.position,
      hsrc.direction.2 _ _ _ ho.direction.1 ho.direction.2.1 ho.direction.2.2 hw.direction]
    rfl

/-- The program sets up what the run manager does. -/
theorem written_setup (ho : o.Sound) (hc : c.WF) (hw : o.Written c) {inp : Input ℝ}
    (hp : parse (Reader.ofFile (fileOf c.lines)) = .ok inp) {m : Mgr ℝ} (hm : o.Held m)
    (t : Tables ℝ) (hn : o.physics ∈ ["Classical", "classical", "Semiclassical", "semiclassical",
      "Quantum", "quantum"]) : Main.setup t inp = .ok (simOf t m) := by
  obtain ⟨h1, h2, h3, h4, h5, h6, h7, h8, -⟩ := written_read ho hc hw hp hm
  rw [← hm.physics] at hn
  unfold Main.setup
  rw [h4, Res.ok_bind]
  unfold makePhysics makeEmission simOf physicsOf emissionOf
  rw [h1, h2, h3, h5, h6, h7, h8]
  simp only [List.mem_cons, List.not_mem_nil, or_false] at hn
  have hz : (lit 0 : ℝ) = 0 := by simp
  rw [hz]
  by_cases hcl : m.physics = "Classical" ∨ m.physics = "classical"
  · simp only [if_pos hcl, Res.ok_bind]
    cases m.useBW <;> rfl
  · simp only [if_neg hcl]
    by_cases hs : m.physics = "Semiclassical" ∨ m.physics = "semiclassical"
    · simp only [if_pos hs, Res.ok_bind]
      cases m.useBW <;> rfl
    · simp only [if_neg hs]
      have hq : m.physics = "Quantum" ∨ m.physics = "quantum" := by tauto
      simp only [if_pos hq, Res.ok_bind]
      cases m.useBW <;> rfl

end file

/-! ## The events -/

section events
variable {D : Type} [Dbl D]

theorem fillRest_none (l : PList D) (c : Nat) : fillRest l c [] = .ok [] := by
  unfold fillRest
  simp

theorem run_none {cfg : SimCfg D} {l : PList D} {r : Rng D} {fuel : Nat} {e : EvState D}
    (h : timeLoop cfg fuel (.init l r []) = some (.ok e)) : e.hists = [] := by
  have := (timeLoop_frames h).length_eq
  exact List.length_eq_zero_iff.mp this.symm

theorem simEvents_step {cfg : SimCfg D} {fuel k : Nat} {s s1 : Source D} {r r1 r' : Rng D}
    {hs hs1 hs' : List (Hist D)} {l : PList D} {e : EvState D} {ev : RankEvents D}
    (h1 : s.generateList r = .ok (l, s1, r1))
    (h2 : timeLoop cfg fuel (.init l r1 hs) = some (.ok e))
    (h3 : fillRest e.list e.histCount e.hists = .ok hs1)
    (h4 : simEvents cfg fuel k s1 e.rng hs1 = (some (.ok (ev, r', hs')) : Timed _)) :
    simEvents cfg fuel (k + 1) s r hs =
      (some (.ok (⟨l.items.take 1 ++ ev.firsts, e.list.items :: ev.finals⟩, r', hs')) : Timed _) := by
  unfold simEvents
  rw [h1]
  show Timed.bind (timeLoop cfg fuel (.init l r1 hs)) _ = _
  rw [h2]
  show Timed.bind (Timed.lift (fillRest e.list e.histCount e.hists)) _ = _
  rw [h3]
  show Timed.bind (simEvents cfg fuel k s1 e.rng hs1) _ = _
  rw [h4]
  rfl

theorem simEvents_mono {cfg : SimCfg D} {n m : Nat} (hnm : n ≤ m) : ∀ {k : Nat} {s : Source D}
    {r r' : Rng D} {hs hs' : List (Hist D)} {ev : RankEvents D},
    simEvents cfg n k s r hs = (some (.ok (ev, r', hs')) : Timed _) →
    simEvents cfg m k s r hs = (some (.ok (ev, r', hs')) : Timed _) := by
  intro k
  induction k with
  | zero => intro s r r' hs hs' ev h; exact h
  | succ k ih =>
    intro s r r' hs hs' ev h
    obtain ⟨l, s1, r1, e, hs1, ev1, h1, h2, h3, h4, rfl⟩ := simEvents_succ h
    exact simEvents_step h1 (timeLoop_mono cfg _ _ _ _ hnm h2) h3 (ih h4)

/-- The events of the run manager are those of the program. -/
theorem events_sim {cfg : SimCfg D} {tid : Nat → Nat} {i : Nat} {s : Source D} {rs : Results D}
    {r : Rng D} {out : Res (List (PList D × PList D) × Results D × Rng D)}
    (h : Events cfg tid i s rs r out) : ∀ {ls rs' r'}, out = .ok (ls, rs', r') → s.Full →
    s.partCount = i → ∃ fuel, simEvents cfg fuel (s.nPart - i) s r [] =
      (some (.ok (⟨ls.flatMap (·.1.items), ls.map (·.2.items)⟩, r', [])) : Timed _) := by
  induction h with
  | @done i s rs r hi =>
    intro ls rs' r' ho _ _
    cases ho
    rw [show s.nPart - i = 0 by omega]
    exact ⟨0, rfl⟩
  | @event i s rs r l s' r1 rs1 n es rs2 ls rs3 r3 hi hgen hin hrun hfin _ ih =>
    intro ls' rs' r' ho hf hp
    cases ho
    obtain ⟨f1, hf1⟩ := (timeLoop_iff_run cfg _ _).mpr ⟨n, hrun⟩
    obtain ⟨p, hl, rfl, -⟩ := event_lists hf (by omega) hgen hf1
    obtain ⟨f2, hf2⟩ := ih rfl (full_succ hf) (by simp [hp])
    refine ⟨max f1 f2, ?_⟩
    rw [show s.nPart - i = (s.nPart - (i + 1)) + 1 by omega,
      simEvents_step hgen (timeLoop_mono cfg _ _ _ _ (le_max_left ..) hf1)
        (by rw [run_none hf1]; exact fillRest_none _ _) (simEvents_mono (le_max_right ..) hf2)]
    simp [hl]
    rfl
  | later _ _ _ _ _ _ hno => intro ls rs' r' ho; exact absurd ho (hno _)
  | source _ _ => intro ls rs' r' ho; cases ho
  | sourceUb _ _ => intro ls rs' r' ho; cases ho
  | inputUb _ _ _ => intro ls rs' r' ho; cases ho
  | runUb _ _ _ _ => intro ls rs' r' ho; cases ho
  | runExit _ _ _ _ => intro ls rs' r' ho; cases ho
  | finalUb _ _ _ _ _ => intro ls rs' r' ho; cases ho

/-- The events of the program are those of the run manager. -/
theorem sim_events {cfg : SimCfg D} {tid : Nat → Nat} {n fuel : Nat} : ∀ {k : Nat} {s : Source D}
    {r r' : Rng D} {hs' : List (Hist D)} {ev : RankEvents D} {rs : Results D},
    simEvents cfg fuel k s r [] = (some (.ok (ev, r', hs')) : Timed _) → s.Full →
    s.partCount + k = s.nPart → PerThread n rs → (∀ j < s.nPart, tid j < n) →
    ∃ ls rs', Events cfg tid s.partCount s rs r (.ok (ls, rs', r')) ∧
      ev = ⟨ls.flatMap (·.1.items), ls.map (·.2.items)⟩ ∧ hs' = [] := by
  intro k
  induction k with
  | zero =>
    intro s r r' hs' ev rs h _ hk _ _
    have h := Res.ok.inj (Option.some.inj h)
    simp only [Prod.mk.injEq] at h
    obtain ⟨rfl, rfl, rfl⟩ := h
    exact ⟨[], rs, .done (by omega), rfl, rfl⟩
  | succ k ih =>
    intro s r r' hs' ev rs h hf hk hrs htid
    obtain ⟨l, s1, r1, e, hs1, ev1, h1, h2, h3, h4, rfl⟩ := simEvents_succ h
    obtain ⟨p, hl, rfl, -⟩ := event_lists hf (by omega) h1 h2
    rw [run_none h2, fillRest_none] at h3
    obtain rfl := Res.ok.inj h3
    have ht := htid s.partCount (by omega)
    obtain ⟨rs1, hin, hrs1⟩ := hrs.stored ht l.items
    obtain ⟨rs2, hfin, hrs2⟩ := hrs1.finals ht e.list.items
    obtain ⟨m, hrun⟩ := (timeLoop_iff_run cfg _ _).mp ⟨fuel, h2⟩
    obtain ⟨ls, rs', hev, rfl, rfl⟩ := ih h4 (full_succ hf) (by simp; omega) hrs2 htid
    refine ⟨(l, e.list) :: ls, rs', .event (by omega) h1 hin hrun hfin hev, ?_, rfl⟩
    simp [hl]

end events

/-! ## The calls before and after the events -/

/-- A configured run manager makes the source and goes on. -/
theorem prepare_same {fa : FieldArgs ℝ} {ga : GenArgs ℝ} {h : List (Call ℝ × Outcome ℝ)} {m : Mgr ℝ}
    (hh : History (RunMgr.new fa ga) h m) {e : Env ℝ} {n t : Int} (hp : Passes e t)
    (hm : ¬ Misuse h) (hc : Configured h) (ht : 0 ≤ t) :
    ∃ m', SameConfig m m' ∧ m'.results = .empty t.toNat ∧
      prepare e.omp e.raw n t m = (sourceOf n e.raw m >>= fun s => .ok (.go m' s)) := by
  obtain ⟨m1, h1⟩ := (C70_beamOn_iff fa ga h m hh).2 hm
  have hcfg := (freeOld_config h1).1
  have hmade := hcfg.trans (made_config m1).1
  have hga : (makeObjects m1).genArgs = m.genArgs := hmade.genArgs
  have hs : sourceOf n e.raw (makeObjects m1) = sourceOf n e.raw m := by
    unfold sourceOf
    rw [hga]
  refine ⟨{ allocGenerator (makeObjects m1) with results := .empty t.toNat },
    ⟨hmade.1, hmade.2, hmade.3, hmade.4, hmade.5, hmade.6, hmade.7, hmade.8, hmade.9, hmade.10,
      hmade.11⟩, rfl, ?_⟩
  rw [prepare_pass hp, h1, Res.ok_bind, incomplete_congr hcfg,
    if_neg (by rw [(complete_iff RunWitness.zeroEq hh).mpr hc]; simp), hs]
  cases sourceOf n e.raw m with
  | ok s => rw [Res.ok_bind, Res.ok_bind, if_neg (by omega)]
  | exit c => rfl
  | throw w => rfl
  | ub w => rfl

section quiet
variable {D : Type} [Dbl D]

/-- Events without output. -/
theorem runEvents_quiet {cfg : SimCfg D} {fuel : Nat} {r' : Rng D} {hs' : List (Hist D)} :
    ∀ {k j : Nat} {s : Source D} {w : World D},
    (∃ s' out, runEvents cfg fuel false false k j (s, w) =
      (some (.ok (s', ⟨r', hs', out⟩)) : Timed _)) ↔
    ∃ ev, simEvents cfg fuel k s w.rng w.hists = (some (.ok (ev, r', hs')) : Timed _) := by
  intro k
  induction k with
  | zero =>
    intro j s w
    constructor
    · rintro ⟨s', out, h⟩
      obtain ⟨-, h⟩ := Prod.mk.inj (Res.ok.inj (Option.some.inj h))
      exact ⟨⟨[], []⟩, by rw [h]; rfl⟩
    · rintro ⟨ev, h⟩
      obtain ⟨-, h⟩ := Prod.mk.inj (Res.ok.inj (Option.some.inj h))
      obtain ⟨h1, h2⟩ := Prod.mk.inj h
      exact ⟨s, w.out, by rw [← h1, ← h2]; rfl⟩
  | succ k ih =>
    intro j s w
    constructor
    · rintro ⟨s', out, hx⟩
      unfold runEvents runEvent at hx
      obtain ⟨y, hy, hx⟩ := Timed.bind_ok hx
      obtain ⟨⟨l, s1, r1⟩, h1, hy⟩ := Timed.bind_ok hy
      obtain ⟨o1, ho1, hy⟩ := Timed.bind_ok hy
      obtain ⟨e, h2, hy⟩ := Timed.bind_ok hy
      obtain ⟨hs1, h3, hy⟩ := Timed.bind_ok hy
      obtain ⟨o2, ho2, hy⟩ := Timed.bind_ok hy
      obtain rfl := Res.ok.inj (Option.some.inj hy)
      obtain ⟨ev, h4⟩ := ih.mp ⟨s', out, hx⟩
      exact ⟨_, simEvents_step (Option.some.inj h1) h2 (Option.some.inj h3) h4⟩
    · rintro ⟨ev, hx⟩
      obtain ⟨l, s1, r1, e, hs1, ev1, h1, h2, h3, h4, -⟩ := simEvents_succ hx
      obtain ⟨s', out, hy⟩ := (ih (j := j + 1) (w := ⟨e.rng, hs1, w.out⟩)).mpr ⟨_, h4⟩
      refine ⟨s', out, ?_⟩
      unfold runEvents
      have hev : runEvent cfg fuel false false j (s, w) =
          (some (.ok (s1, ⟨e.rng, hs1, w.out⟩)) : Timed _) := by
        unfold runEvent
        dsimp only
        rw [h1]
        show Timed.bind (timeLoop cfg fuel (.init l r1 w.hists)) _ = _
        rw [h2]
        show Timed.bind (Timed.lift (fillRest e.list e.histCount e.hists)) _ = _
        rw [h3]
        rfl
      show Timed.bind (runEvent cfg fuel false false j (s, w)) _ = _
      rw [hev]
      exact hy

end quiet

end QED
