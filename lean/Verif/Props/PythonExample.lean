import Verif.Lemmas.PythonExample
import Verif.Spec.PythonExample
import Verif.Props.RunEnds
import Verif.Props.Example
import Verif.Props.Threads
import Verif.Lemmas.Covered

set_option autoImplicit false

/-!
# Property C124: the shipped Python example

`scriptManager` is the run manager after the setters of `example/QEDCascPy_example.py`. Over the reals.
-/

namespace QED

open Dbl MCTools RunMgr Main Matrix _root_.QED.Units

/-! ## What has been set -/

/-- The calls of the script before `beamOn`, with the run manager after each of them. -/
noncomputable def scriptCalls (fa : FieldArgs ℝ) (ga : GenArgs ℝ) : List (Call ℝ × Outcome ℝ) :=
  let m1 := setTime 5e-17 1e-13 (RunMgr.new fa ga)
  let m2 := setField "gaussian" scriptField m1
  let m3 := setPhysics "Semiclassical" m2
  let m4 := setSampleFraction 0.1 m3
  [(.setTime 5e-17 1e-13, .set m1), (.setField "gaussian" scriptField, .set m2),
    (.setPhysics "Semiclassical", .set m3), (.setSampleFraction 0.1, .set m4),
    (.setGenerator scriptBeam, .set (setGenerator scriptBeam m4))]

theorem script_history (fa : FieldArgs ℝ) (ga : GenArgs ℝ) :
    History (RunMgr.new fa ga) (scriptCalls fa ga) (scriptManager fa ga) :=
  .cons .setTime (.cons .setField (.cons .setPhysics (.cons .setSampleFraction
    (.cons .setGenerator .nil))))

theorem script_configured (fa : FieldArgs ℝ) (ga : GenArgs ℝ) : Configured (scriptCalls fa ga) where
  field := ⟨"gaussian", rfl, by simp [fieldNames]⟩
  physics := ⟨"Semiclassical", rfl, by simp [passedNames]⟩
  beam := ⟨scriptBeam, rfl⟩
  step := ⟨5e-17, 1e-13, rfl, (C72_step_real _).mpr (by norm_num)⟩

theorem script_no_misuse (fa : FieldArgs ℝ) (ga : GenArgs ℝ) : ¬ Misuse (scriptCalls fa ga) := by
  rintro ⟨x, y, hx, -, hs⟩
  have hm := hs.subset (List.mem_cons_self ..)
  simp only [scriptCalls, List.mem_cons, List.not_mem_nil, or_false] at hm
  rcases hx with ⟨_, _, hx⟩ | ⟨_, _, hx⟩ <;> rcases hm with rfl | rfl | rfl | rfl | rfl <;> cases hx

theorem script_not_reversed (fa : FieldArgs ℝ) (ga : GenArgs ℝ) :
    ¬ EnergiesReversed (scriptCalls fa ga) := by
  rintro ⟨g, hg, h1, -, -⟩
  cases Option.some.inj (show some scriptBeam = some g from hg)
  exact h1 rfl

/-- The laser pulse of the script. -/
noncomputable def scriptPulse : GaussField ℝ :=
  let u : UnitsSystem ℝ := unitsSI
  .new (1e14 / u.refEField) (8e-7 / u.refLength) (3e-14 / u.refTime) (1e-5 / u.refLength) 0
    ⟨0, 0, 1e-5 / u.refLength⟩ ⟨0, 0, 0⟩

theorem script_frac (fa : FieldArgs ℝ) (ga : GenArgs ℝ) :
    scriptManager fa ga = { setGenerator scriptBeam (setPhysics "Semiclassical"
      (setField "gaussian" scriptField (setTime 5e-17 1e-13 (RunMgr.new fa ga)))) with
      sampleFrac := 0.1 } := by
  unfold scriptManager setSampleFraction
  rw [if_pos (by norm_num)]
  rfl

theorem script_procs (fa : FieldArgs ℝ) (ga : GenArgs ℝ) (t : Tables ℝ) :
    (simOf t (scriptManager fa ga)).procs = [.continuous (emissionOf t (scriptManager fa ga)) false] := by
  rw [script_frac]
  rfl

/-- C124, the set-up: the events are simulated with the pulse, time step and end time of the script, with
radiation reaction reduced by the quantum factor, and with photon emission of which a tenth is sampled, but
without pairs. -/
theorem C124_setup (fa : FieldArgs ℝ) (ga : GenArgs ℝ) (t : Tables ℝ) :
    let cfg := simOf t (scriptManager fa ga)
    cfg.push = modLandauForce ∧ cfg.field = scriptPulse.getField ∧
      cfg.dt = 5e-17 / (unitsSI : UnitsSystem ℝ).refTime ∧
      cfg.timeEnd = 1e-13 / (unitsSI : UnitsSystem ℝ).refTime ∧
      ∃ e, cfg.procs = [.continuous e false] ∧ e.field = cfg.field ∧ e.dt = cfg.dt ∧
        e.sampleFrac = 0.1 ∧ e.eMin = 0 := by
  have hfrac := script_frac fa ga
  have hfield : fieldOf (scriptManager fa ga) = scriptPulse.getField := by
    rw [hfrac]
    have h0 : ((⟨0, 0, 0⟩ : V3 ℝ).divs (unitsSI : UnitsSystem ℝ).refLength) = ⟨0, 0, 0⟩ := by
      simp [V3.divs]
    have h1 : ((⟨0, 0, 1e-5⟩ : V3 ℝ).divs (unitsSI : UnitsSystem ℝ).refLength) =
        ⟨0, 0, 1e-5 / (unitsSI : UnitsSystem ℝ).refLength⟩ := by
      simp [V3.divs]
    show (GaussField.new (1e14 / (unitsSI : UnitsSystem ℝ).refEField)
      (8e-7 / (unitsSI : UnitsSystem ℝ).refLength) (3e-14 / (unitsSI : UnitsSystem ℝ).refTime)
      (1e-5 / (unitsSI : UnitsSystem ℝ).refLength) 0
      ((⟨0, 0, 1e-5⟩ : V3 ℝ).divs (unitsSI : UnitsSystem ℝ).refLength)
      ((⟨0, 0, 0⟩ : V3 ℝ).divs (unitsSI : UnitsSystem ℝ).refLength)).getField = _
    rw [h0, h1]
    rfl
  refine ⟨by rw [hfrac]; rfl, hfield, by rw [hfrac]; rfl, by rw [hfrac]; rfl,
    emissionOf t (scriptManager fa ga), by rw [hfrac]; rfl, rfl, rfl, by rw [hfrac]; rfl, ?_⟩
  show ((0 : ℚ) : ℝ) = 0
  exact Rat.cast_zero

/-- C124, the steps: an event of the script that ends takes exactly two thousand time steps. -/
theorem C124_steps (fa : FieldArgs ℝ) (ga : GenArgs ℝ) (t : Tables ℝ) (l : PList ℝ) (r : Rng ℝ) (n : Nat)
    (s : EvState ℝ) (h : Run (simOf t (scriptManager fa ga)) (.init l r []) n (.ok s)) : n = 2000 := by
  obtain ⟨-, -, hdt, hend, -⟩ := C124_setup fa ga t
  have ht := si_pos.1
  have := (C40_steps _ (by rw [hdt]; positivity) l r [] n s h).1
  rw [this, hdt, hend, div_div_div_cancel_right₀ ht.ne']
  norm_num

/-- C124, the collision: the pulse of the script has its full strength at the origin after the time light
takes for the 10 µm from its start, before the end of the simulation, and is nowhere and never stronger. It
is a transverse wave that travels along `-z`, against the electrons. -/
theorem C124_collision :
    let u : UnitsSystem ℝ := unitsSI
    let arrival := 1e-5 / u.refLength
    arrival = 1e-5 / cSI / u.refTime ∧ arrival < 1e-13 / u.refTime ∧
    len (scriptPulse.getField arrival ⟨0, 0, 0⟩).1.toVec = 1e14 / u.refEField ∧
    ∀ (t : ℝ) (x : V3 ℝ), len (scriptPulse.getField t x).1.toVec ≤ 1e14 / u.refEField ∧
      (scriptPulse.amplitude t x ≠ 0 → IsLightWave ![0, 0, -1] (scriptPulse.getField t x).1.toVec
        (scriptPulse.getField t x).2.toVec) := by
  obtain ⟨ht, hl, he, -, -⟩ := si_pos
  have hp : 0 < 1e-5 / (unitsSI : UnitsSystem ℝ).refLength := by positivity
  obtain ⟨h1, h2⟩ := C23_origin_partial (1e14 / (unitsSI : UnitsSystem ℝ).refEField)
    (8e-7 / (unitsSI : UnitsSystem ℝ).refLength) (3e-14 / (unitsSI : UnitsSystem ℝ).refTime)
    (1e-5 / (unitsSI : UnitsSystem ℝ).refLength) 0 (by positivity) (by positivity) (by positivity)
    (by positivity) _ (up_ne hp)
  rw [up_len hp] at h1
  refine ⟨C122_collision.1, C122_collision.2.1, h1, fun t x => ⟨h2 t x, fun hne => ?_⟩⟩
  have key := (C21_gauss_iff (1e14 / (unitsSI : UnitsSystem ℝ).refEField)
    (8e-7 / (unitsSI : UnitsSystem ℝ).refLength) (3e-14 / (unitsSI : UnitsSystem ℝ).refTime)
    (1e-5 / (unitsSI : UnitsSystem ℝ).refLength) 0 _ _ (down_ne hp)
    (Or.inr (by rw [down_norm hp]; rfl)) t x hne).mpr (by simp)
  rw [down_norm hp] at key
  exact key

/-! ## What a run gives -/

/-- C124 is false of a build without OpenMP: the script asks for two threads, `beamOn` only prints a
message, and the script goes on with empty arrays. -/
theorem C124_refuted (fa : FieldArgs ℝ) (ga : GenArgs ℝ) (e : Env ℝ) (he : e.omp = false)
    (o : Outcome ℝ) : ScriptRun fa ga e o ↔ o = .rejected (scriptManager fa ga) ∧
      (getInput o.mgr.results).rows = 0 ∧ (getElectrons o.mgr.results).rows = 0 ∧
      (getPhotons o.mgr.results).rows = 0 := by
  have hp : ¬ Passes e 2 := by
    rintro (h | h)
    · rw [he] at h; cases h
    · cases h
  have hres : (scriptManager fa ga).results = ⟨[], [], [], []⟩ := by
    unfold scriptManager setSampleFraction
    split <;> rfl
  constructor
  · intro h
    have := beamOn_gate h hp
    subst this
    refine ⟨rfl, ?_⟩
    rw [show (Outcome.rejected (scriptManager fa ga)).mgr = scriptManager fa ga from rfl, hres]
    exact ⟨rfl, rfl, rfl⟩
  · rintro ⟨rfl, -⟩
    exact .rejected (prepare_gate hp)

/-- C124, the run: with OpenMP the call comes to an end; it has run, unless `eta` has left the tables, when
the process exits. -/
theorem C124_runs_partial (fa : FieldArgs ℝ) (ga : GenArgs ℝ) (e : Env ℝ) (ho : e.omp = true)
    (he : InOrder e 1000 2) : (∃ o, BeamOn e 1000 2 (scriptManager fa ga) o) ∧
    ∀ o, BeamOn e 1000 2 (scriptManager fa ga) o → (∃ m ls, o = .ok (.ran m ls)) ∨ o = .exit (-1) := by
  have hh := script_history fa ga
  have hc := script_configured fa ga
  have hm := script_no_misuse fa ga
  have hr := script_not_reversed fa ga
  constructor
  · refine C123_ends_partial fa ga _ _ hh e 1000 2 he fun a b hab => ?_
    cases Option.some.inj (show some ((5e-17 : ℝ), (1e-13 : ℝ)) = some (a, b) from hab)
    exact .inl (by norm_num)
  · intro o hb
    obtain ⟨m', s, e1, hf, h0, hn, hres, -⟩ := (prepare_total hh he (.inl ho) hm).2.2.2 hc hr (by norm_num)
    have hthr := threads_in_order he (.inl ho) (by norm_num)
    cases hb with
    | rejected h1 => rw [e1] at h1; cases h1
    | raised h1 => rw [e1] at h1; cases h1
    | ran h1 h2 => exact .inl ⟨_, _, rfl⟩
    | ub h1 => rw [e1] at h1; cases h1
    | loopUb h1 h2 =>
      rw [e1] at h1
      cases h1
      rcases events_defined (simOf_good e.tables he.tables _) h2 hf h0 hres (by rw [hn]; exact hthr) with
        ⟨a, ha⟩ | ha <;> cases ha
    | loopExit h1 h2 =>
      rw [e1] at h1
      cases h1
      rcases events_defined (simOf_good e.tables he.tables _) h2 hf h0 hres (by rw [hn]; exact hthr) with
        ⟨a, ha⟩ | ha
      · cases ha
      · exact .inr (by cases ha; rfl)

/-- The events of a run of the script, one by one. -/
theorem script_events {fa : FieldArgs ℝ} {ga : GenArgs ℝ} {e : Env ℝ} {m : Mgr ℝ}
    {ls : List (PList ℝ × PList ℝ)} (h : ScriptRun fa ga e (.ran m ls)) :
    ∃ s, sourceOf 1000 e.raw (scriptManager fa ga) = .ok s ∧
      ∀ j l, ls[j]? = some l → ∃ ρ ρ' s'' n es, ({ s with partCount := j } : Source ℝ).generateList ρ =
        .ok (l.1, s'', ρ') ∧ Run (simOf e.tables (scriptManager fa ga)) (.init l.1 ρ' []) n (.ok es) ∧
        es.list = l.2 := by
  have hb : BeamOn e 1000 2 (scriptManager fa ga) (.ok (.ran m ls)) := h
  by_cases hp : Passes e 2
  swap
  · cases beamOn_gate hb hp
  obtain ⟨m1, h1, ⟨_, ho⟩ | ⟨_, _, ho⟩ | ⟨_, _, s, ls', rs, r, hsrc, hev, ho⟩⟩ := beamOn_cases hb hp
  · cases ho
  · cases ho
  cases ho
  have hcfg := (freeOld_config h1).1.trans (made_config m1).1
  have hga : (makeObjects m1).genArgs = (scriptManager fa ga).genArgs := hcfg.genArgs
  have hsrc' : sourceOf 1000 e.raw (scriptManager fa ga) = .ok s := by
    rw [← hsrc]
    unfold sourceOf
    rw [hga]
  have hsim : simOf e.tables { allocGenerator (makeObjects m1) with results := .empty (2 : Int).toNat } =
      simOf e.tables (scriptManager fa ga) := simOf_congr _
    ⟨hcfg.1, hcfg.2, hcfg.3, hcfg.4, hcfg.5, hcfg.6, hcfg.7, hcfg.8, hcfg.9, hcfg.10, hcfg.11⟩
  rw [hsim] at hev
  have h0 : s.partCount = 0 := by
    unfold sourceOf Source.new at hsrc'
    dsimp only at hsrc'
    obtain ⟨_, _, hx⟩ := Res.bind_eq_ok.mp hsrc'
    obtain ⟨_, _, hx⟩ := Res.bind_eq_ok.mp hx
    rw [← Res.ok.inj hx]
  refine ⟨s, hsrc', fun j l hl => ?_⟩
  have := events_nth hev _ _ _ rfl _ h0 j l hl
  rwa [Nat.zero_add] at this

theorem ez_rotation : ((⟨0, 0, 1⟩ : V3 ℝ).rotateToAxis V3.ez) = ⟨1, 0, 0, 0, 1, 0, 0, 0, 1⟩ := by
  have hz : (⟨0, 0, 1⟩ : V3 ℝ).norm = ⟨0, 0, 1⟩ := by simp [V3.norm, V3.mag, V3.dot, V3.divs]
  have he : (V3.ez : V3 ℝ) = ⟨0, 0, 1⟩ := by simp [V3.ez]
  rw [rotateToAxis_eq_rodrigues (by rw [he, hz]; norm_num [V3.add, V3.mag2, V3.dot]), he, hz]
  simp [rodrigues, V3.cross, V3.dot, skewMat, M3.add, M3.mul, M3.muls, M3.ideneity, M3.zeros, M3.acc3]

/-- The electron of the script whose energy has the normally distributed sample `z`. It is the same for all
draws but for its optical depth, which continuous emission does not use. -/
noncomputable def scriptElectron (z : ℝ) : Particle ℝ :=
  let u : UnitsSystem ℝ := unitsSI
  .newLepton 1 (-1) ⟨0, 0, -1e-5 / u.refLength⟩ ⟨0, 0, (8.176e-11 + 8.176e-12 * z) / u.refEnergy⟩ 1 0 false 0

theorem scriptElectron_kind {z : ℝ} : (scriptElectron z).kind = .electron := by
  simp [scriptElectron, Particle.newLepton, Particle.new, Particle.leptonKind]

/-- In SI units this electron starts at 10 µm below the origin with a momentum along `z`. -/
theorem scriptElectron_row (z : ℝ) :
    inputRow (scriptElectron z) = [0, 0, (8.176e-11 + 8.176e-12 * z) / cSI, 0, 0, -1e-5] := by
  obtain ⟨-, hl, -, -, hen⟩ := si_pos
  obtain ⟨-, hrel, -⟩ := C74_relations
  have hE : (unitsSI : UnitsSystem ℝ).refEnergy = cSI * (unitsSI : UnitsSystem ℝ).refMomentum := hrel
  have hc : (0 : ℝ) < cSI := consts_pos.1
  have hmp : 0 < (unitsSI : UnitsSystem ℝ).refMomentum :=
    (mul_pos_iff_of_pos_left hc).mp (by rw [← hE]; exact hen)
  unfold inputRow scriptElectron Particle.newLepton Particle.new
  simp only [real_mul, zero_mul, show (u : UnitsSystem ℝ) = unitsSI from rfl]
  rw [div_mul_cancel₀ _ hl.ne', hE]
  congr 3
  field_simp

/-- The calls of the script's source. -/
theorem script_source {fa : FieldArgs ℝ} {ga : GenArgs ℝ} {raw : RawDraws ℝ} {s : Source ℝ}
    (hs : sourceOf 1000 raw (scriptManager fa ga) = .ok s) (hr : raw.Sized 1000) {j : Nat} (hj : j < 1000)
    (ρ : Rng ℝ) : s.nPart = 1000 ∧ ∃ l s' ρ' z, raw.rawE[j]? = some z ∧
      ({ s with partCount := j } : Source ℝ).generateList ρ = .ok (l, s', ρ') ∧
      l.maxParticles = PList.defaultMax ∧ l.items = [(scriptElectron z).withDepth (initDepth ρ.next.1)] := by
  have hu : RunMgr.u32 1000 = 1000 := by decide
  have hga : (scriptManager fa ga).genArgs = scriptBeam.convert := rfl
  unfold sourceOf at hs
  rw [hga, hu] at hs
  let c : SourceConf ℝ := ⟨"Electron", "gaussian", 1000, scriptBeam.convert.energyParam1,
    scriptBeam.convert.energyParam2, scriptBeam.convert.radius, scriptBeam.convert.duration, 0,
    scriptBeam.convert.position, ⟨0, 0, 1⟩, false⟩
  have hb : c.build raw = .ok s := hs
  obtain ⟨hf, hn, h0, hty⟩ := build_full c raw s hb hr
  refine ⟨hn, ?_⟩
  obtain ⟨phi, en, hphi, hen, hsrc⟩ := build_spec c raw s hb
  have hnorm : (⟨0, 0, 1⟩ : V3 ℝ).norm = ⟨0, 0, 1⟩ := by simp [V3.norm, V3.mag, V3.dot, V3.divs]
  have henergy : en = sampleNorm c.energy1 c.energy2 raw.rawE := by
    unfold Source.sampleEnergy at hen
    rw [if_pos (.inl rfl)] at hen
    exact (Res.ok.inj hen).symm
  have hlen : ∀ {xs : List ℝ}, xs.length = s.nPart → j < xs.length := fun h => by rw [h, hn]; exact hj
  have e1 := hlen hf.x
  have e2 := hlen hf.y
  have e3 := hlen hf.z
  have e4 := hlen hf.theta
  have e5 := hlen hf.phi
  have e6 := hlen hf.energy
  have hgen : ({ s with partCount := j } : Source ℝ).generateList ρ =
      .ok ((PList.new (toString j) PList.defaultMax).add (.newLeptonE (lit 1) (lit (-1)) s.energy[j]
        ((s.rotation.mulVec ⟨s.xPos[j], s.yPos[j], s.zPos[j]⟩).add s.position)
        (s.rotation.mulVec (Source.sphere s.thetaDir[j] s.phiDir[j])) (lit 1) (lit 0) s.track ρ.next.1),
        { s with partCount := j + 1 }, ρ.next.2) := by
    unfold Source.generateList
    rw [if_neg (by dsimp only; rw [hn]; exact hj.ne)]
    dsimp only
    rw [rd_ok e1, Res.ok_bind, rd_ok e2, Res.ok_bind, rd_ok e3, Res.ok_bind, rd_ok e4, Res.ok_bind,
      rd_ok e5, Res.ok_bind, rd_ok e6, Res.ok_bind]
    unfold Source.mkParticle
    have hty' : s.type = "Electron" := hty
    rw [if_neg (by dsimp only; rw [hty']; decide), if_pos (by dsimp only; rw [hty']; decide), Res.ok_bind]
  subst hsrc henergy
  dsimp only at hgen e1 e2 e3 e4 e5 e6
  have hrot : c.direction.norm.rotateToAxis V3.ez = ⟨1, 0, 0, 0, 1, 0, 0, 0, 1⟩ := by
    show (⟨0, 0, 1⟩ : V3 ℝ).norm.rotateToAxis V3.ez = _
    rw [hnorm, ez_rotation]
  have c1 : c.deltaPos = 0 := by simp [c, GenArgs.convert, scriptBeam]
  have c2 : c.deltaTau = 0 := by simp [c, GenArgs.convert, scriptBeam]
  have c3 : c.deltaDir = 0 := rfl
  have c4 : c.position = ⟨0, 0, -1e-5 / (unitsSI : UnitsSystem ℝ).refLength⟩ := by
    show (⟨0, 0, -1e-5⟩ : V3 ℝ).divs (unitsSI : UnitsSystem ℝ).refLength = _
    simp [V3.divs]
  have c5 : c.energy1 = 8.176e-11 / (unitsSI : UnitsSystem ℝ).refEnergy := rfl
  have c6 : c.energy2 = 8.176e-12 / (unitsSI : UnitsSystem ℝ).refEnergy := rfl
  have hjE : j < raw.rawE.length := by
    unfold sampleNorm at e6
    simpa using e6
  refine ⟨_, _, _, raw.rawE[j], List.getElem?_eq_getElem hjE, hgen, by rw [PList.add_max]; rfl, ?_⟩
  unfold PList.add PList.new
  rw [if_pos (show ([] : List (Particle ℝ)).length < PList.defaultMax from (by norm_num : 0 < 1000000)),
    List.nil_append]
  unfold Particle.newLeptonE scriptElectron Particle.newLepton Particle.new Particle.withDepth
  have hP : (M3.mulVec (c.direction.norm.rotateToAxis V3.ez) ⟨(sampleNorm (lit 0) c.deltaPos raw.zx)[j],
      (sampleNorm (lit 0) c.deltaPos raw.zy)[j], (sampleNorm (lit 0) c.deltaTau raw.zz)[j]⟩).add c.position =
      ⟨0, 0, -1e-5 / (unitsSI : UnitsSystem ℝ).refLength⟩ := by
    rw [hrot, c4]
    simp [sampleNorm, c1, c2, M3.mulVec, M3.acc3, V3.add]
  have hM : (M3.mulVec (c.direction.norm.rotateToAxis V3.ez)
      (Source.sphere (sampleNorm (lit 0) c.deltaDir raw.zTheta)[j] phi[j])).norm.smul
        (sampleNorm c.energy1 c.energy2 raw.rawE)[j] =
      ⟨0, 0, (8.176e-11 + 8.176e-12 * raw.rawE[j]) / (unitsSI : UnitsSystem ℝ).refEnergy⟩ := by
    have : M3.mulVec (c.direction.norm.rotateToAxis V3.ez)
        (Source.sphere (sampleNorm (lit 0) c.deltaDir raw.zTheta)[j] phi[j]) = ⟨0, 0, 1⟩ := by
      rw [hrot]
      simp [sampleNorm, c3, Source.sphere, M3.mulVec, M3.acc3]
    rw [this, hnorm]
    simp only [sampleNorm, List.getElem_map, c5, c6, V3.smul, real_mul, real_add]
    congr 1 <;> ring
  rw [hP, hM]
  simp [c]

/-- C124, the beam: a run has a thousand events of one electron each, whose energies are normally
distributed samples. -/
theorem C124_beam (fa : FieldArgs ℝ) (ga : GenArgs ℝ) (e : Env ℝ) (hr : e.raw.Sized 1000) (m : Mgr ℝ)
    (ls : List (PList ℝ × PList ℝ)) (h : ScriptRun fa ga e (.ran m ls)) : ls.length = 1000 ∧
    ∀ (i : Nat) (l : PList ℝ × PList ℝ), ls[i]? = some l → ∃ z depth, e.raw.rawE[i]? = some z ∧
      l.1.items = [{ scriptElectron z with opticalDepth := depth }] ∧
      l.1.items.map PythonRows.primaryCells = [[0, 0, (8.176e-11 + 8.176e-12 * z) / cSI, 0, 0, -1e-5]] := by
  have hu : RunMgr.u32 1000 = 1000 := by decide
  have hlen := (C73_content chargeReal e 1000 2 _ m ls h).1
  rw [hu] at hlen
  refine ⟨hlen, fun i l hi => ?_⟩
  have hi1000 : i < 1000 := by rw [← hlen]; exact (List.getElem?_eq_some_iff.mp hi).1
  obtain ⟨s, hs, hall⟩ := script_events h
  obtain ⟨ρ, ρ', s'', n, es, hg, -, -⟩ := hall i l hi
  obtain ⟨-, l', s1, ρ1, z, hz, hg', -, hq⟩ := script_source hs hr hi1000 ρ
  rw [hg] at hg'
  have hl' := (Prod.mk.inj (Res.ok.inj hg')).1
  subst hl'
  refine ⟨z, initDepth ρ.next.1, hz, hq, ?_⟩
  rw [hq, ← scriptElectron_row z]
  rfl

/-- C124, the motion: the electron of an event is moved by two thousand pushes of the radiation-reaction
pusher in the pulse, whatever is drawn, and nothing else happens to it. -/
theorem C124_motion (fa : FieldArgs ℝ) (ga : GenArgs ℝ) (e : Env ℝ) (m : Mgr ℝ)
    (ls : List (PList ℝ × PList ℝ)) (h : ScriptRun fa ga e (.ran m ls)) :
    ∀ l ∈ ls, ∀ p, l.1.items = [p] → l.2.items.head? = some ((pushParticle modLandauForce
      scriptPulse.getField (5e-17 / (unitsSI : UnitsSystem ℝ).refTime))^[2000] p) := by
  intro l hl p hp
  obtain ⟨i, hi⟩ := List.mem_iff_getElem?.mp hl
  obtain ⟨s, hs, hall⟩ := script_events h
  obtain ⟨ρ, ρ', s'', n, es, hg, hrun, hes⟩ := hall i l hi
  obtain ⟨hpush, hfield, hdt, -, em, hprocs, -⟩ := C124_setup fa ga e.tables
  have hn := C124_steps fa ga e.tables _ _ _ _ hrun
  subst hn
  have hmax : l.1.maxParticles = PList.defaultMax := by
    unfold Source.generateList at hg
    split at hg
    · cases hg
    · obtain ⟨_, -, hg⟩ := Res.bind_eq_ok.mp hg
      obtain ⟨_, -, hg⟩ := Res.bind_eq_ok.mp hg
      obtain ⟨_, -, hg⟩ := Res.bind_eq_ok.mp hg
      obtain ⟨_, -, hg⟩ := Res.bind_eq_ok.mp hg
      obtain ⟨_, -, hg⟩ := Res.bind_eq_ok.mp hg
      obtain ⟨_, -, hg⟩ := Res.bind_eq_ok.mp hg
      obtain ⟨_, -, hg⟩ := Res.bind_eq_ok.mp hg
      rw [← (Prod.mk.inj (Res.ok.inj hg)).1, PList.add_max]
      rfl
  have key := steps_continuous (cfg := simOf e.tables (scriptManager fa ga))
    (by intro proc hm; rw [hprocs] at hm; exact ⟨em, false, List.mem_singleton.mp hm⟩)
    (show l.1.items.length ≤ l.1.maxParticles by
      rw [hp, hmax]
      exact (by norm_num : 1 ≤ 1000000))
    (run_ok_iff.mp hrun).1 (i := 0) (p := p) (show l.1.items[0]? = some p by rw [hp]; rfl)
  rw [hes] at key
  unfold pushes at key
  rw [hpush, hfield, hdt] at key
  rw [List.head?_eq_getElem?]
  exact key

/-- The values of `eta` on the path of an electron of the script. -/
noncomputable def scriptEta (z : ℝ) (k : Nat) : ℝ :=
  calculateEta scriptPulse.getField ((pushParticle modLandauForce scriptPulse.getField
    (5e-17 / (unitsSI : UnitsSystem ℝ).refTime))^[k] (scriptElectron z))

/-- C124, the run: if in addition the tables reach up to the values of `eta` on the paths of the electrons,
the call always runs to its end. The last interval of the table is not used, see C08. -/
theorem C124_completes_partial (fa : FieldArgs ℝ) (ga : GenArgs ℝ) (e : Env ℝ) (ho : e.omp = true)
    (he : InOrder e 1000 2) (hs : e.tables.etaAxis.Pairwise (· < ·)) (h3 : 3 ≤ e.tables.etaAxis.length)
    (h0 : Real.logb 10 (Real.exp (e.tables.hAxis.getD 0 0)) ≤ e.tables.etaAxis[e.tables.etaAxis.length - 2])
    (heta : ∀ z ∈ e.raw.rawE, ∀ k, 1 ≤ k → k ≤ 2000 →
      Real.logb 10 (scriptEta z k) ≤ e.tables.etaAxis[e.tables.etaAxis.length - 2])
    (o : Res (Outcome ℝ)) (hb : BeamOn e 1000 2 (scriptManager fa ga) o) : ∃ m ls, o = .ok (.ran m ls) := by
  rcases (C124_runs_partial fa ga e ho he).2 o hb with h | rfl
  · exact h
  exfalso
  obtain ⟨hpush, hfield, hdt, hend, em, hprocs, hef, -⟩ := C124_setup fa ga e.tables
  have hem : em = emissionOf e.tables (scriptManager fa ga) := by
    have h1 : (simOf e.tables (scriptManager fa ga)).procs =
        [.continuous (emissionOf e.tables (scriptManager fa ga)) false] := script_procs fa ga e.tables
    rw [h1] at hprocs
    cases hprocs
    rfl
  have hgood : em.GoodTables := by
    have := simOf_good e.tables he.tables (scriptManager fa ga) (.continuous em false)
      (by rw [hprocs]; exact List.mem_singleton.mpr rfl)
    exact this
  cases hb with
  | @loopExit m' s c h1 h2 =>
    rw [prepare_pass (.inl ho)] at h1
    obtain ⟨m1, hfree, h1⟩ := Res.bind_eq_ok.mp h1
    split at h1
    · cases h1
    obtain ⟨s2, hsrc, h1⟩ := Res.bind_eq_ok.mp h1
    rw [if_neg (by norm_num)] at h1
    cases h1
    have hcfg := (freeOld_config hfree).1.trans (made_config m1).1
    have hga : (makeObjects m1).genArgs = (scriptManager fa ga).genArgs := hcfg.genArgs
    have hsrc' : sourceOf 1000 e.raw (scriptManager fa ga) = .ok s := by
      rw [← hsrc]
      unfold sourceOf
      rw [hga]
    have hsim : simOf e.tables { allocGenerator (makeObjects m1) with results := .empty (2 : Int).toNat } =
        simOf e.tables (scriptManager fa ga) := simOf_congr _
      ⟨hcfg.1, hcfg.2, hcfg.3, hcfg.4, hcfg.5, hcfg.6, hcfg.7, hcfg.8, hcfg.9, hcfg.10, hcfg.11⟩
    rw [hsim] at h2
    have hp0 : s.partCount = 0 := by
      unfold sourceOf Source.new at hsrc'
      dsimp only at hsrc'
      obtain ⟨_, _, hx⟩ := Res.bind_eq_ok.mp hsrc'
      obtain ⟨_, _, hx⟩ := Res.bind_eq_ok.mp hx
      rw [← Res.ok.inj hx]
    obtain ⟨j, ρ, hj, hx⟩ := events_exit h2 _ rfl
    rw [hp0, Nat.zero_add] at hx
    have hraw : e.raw.Sized 1000 := he.raw
    obtain ⟨hn, -⟩ := script_source hsrc' hraw (j := 0) (by norm_num) ρ
    rw [hn, Nat.zero_add] at hj
    obtain ⟨-, l, s', ρ', z, hz, hg, hmax, hq⟩ := script_source hsrc' hraw hj ρ
    rcases hx with hx | ⟨l', s'', ρ'', n, hg', hrun⟩
    · rw [hg] at hx
      cases hx
    rw [hg] at hg'
    have hinj := Res.ok.inj hg'
    have hl := (Prod.mk.inj hinj).1
    have hρ := (Prod.mk.inj (Prod.mk.inj hinj).2).2
    subst hl hρ
    have hdt0 : 0 < (simOf e.tables (scriptManager fa ga)).dt := by
      rw [hdt]
      have := si_pos.1
      positivity
    obtain ⟨t, ht⟩ := alone_run (cfg := simOf e.tables (scriptManager fa ga)) hprocs
      (q := (scriptElectron z).withDepth (initDepth ρ.next.1)) (ph := [])
      ⟨hq, by simp, by
        show l.items.length ≤ l.maxParticles
        rw [hq, hmax]
        exact (by norm_num : 1 ≤ 1000000), rfl⟩
      (show (1 : ℝ) ≠ 0 from one_ne_zero) rfl (fun k hk => by
        have hk : k < 2000 := by
          have hk' : (k : ℝ) * (simOf e.tables (scriptManager fa ga)).dt <
              (simOf e.tables (scriptManager fa ga)).timeEnd := by simpa [EvState.init] using hk
          rw [hdt, hend, ← mul_div_assoc, div_lt_div_iff_of_pos_right si_pos.1] at hk'
          have : (k : ℝ) < 2000 := by linarith
          exact_mod_cast this
        have hax : em.etaAxis = e.tables.etaAxis := by rw [hem]; rfl
        have hah : em.hAxis = e.tables.hAxis := by rw [hem]; rfl
        have htop : em.etaAxis[em.etaAxis.length - 2]'(by have := hgood.eta.1; omega) =
            e.tables.etaAxis[e.tables.etaAxis.length - 2] := by simp only [hax]
        rw [covered_iff hgood (by rw [hax]; exact hs) (by rw [hax]; exact h3), htop]
        unfold lookedUp
        split
        · rw [hah]; exact h0
        · have heq : calculateEta em.field (pushes (simOf e.tables (scriptManager fa ga))
              ((scriptElectron z).withDepth (initDepth ρ.next.1)) (k + 1)) = scriptEta z (k + 1) := by
            rw [pushes_withDepth, hef, hfield]
            unfold scriptEta pushes
            rw [hpush, hfield, hdt]
            rfl
          rw [heq]
          exact heta z (List.mem_of_getElem? hz) _ (by omega) (by omega))
      hrun
    cases ht

/-- C124, the particles: every event of a run ends with its electron, which still has weight one, and at
most 999 999 photons. -/
theorem C124_finals (fa : FieldArgs ℝ) (ga : GenArgs ℝ) (e : Env ℝ) (hr : e.raw.Sized 1000) (m : Mgr ℝ)
    (ls : List (PList ℝ × PList ℝ)) (h : ScriptRun fa ga e (.ran m ls)) :
    ∀ l ∈ ls, ∃ q qs, l.2.items = q :: qs ∧ q.kind = .electron ∧ q.weight = 1 ∧
      qs.length < 1000000 ∧ ∀ x ∈ qs, x.kind = .photon := by
  intro l hl
  obtain ⟨i, hi⟩ := List.mem_iff_getElem?.mp hl
  obtain ⟨-, hbeam⟩ := C124_beam fa ga e hr m ls h
  obtain ⟨z, depth, -, hp, -⟩ := hbeam i l hi
  obtain ⟨s, hs, hall⟩ := script_events h
  obtain ⟨ρ, ρ', s'', n, es, hg, hrun, hes⟩ := hall i l hi
  obtain ⟨-, -, -, -, em, hprocs, -⟩ := C124_setup fa ga e.tables
  obtain ⟨hst, -⟩ := run_ok_iff.mp hrun
  obtain ⟨q, qs, h1, h2, h3⟩ := only_photons_added (cfg := simOf e.tables (scriptManager fa ga))
    (by intro proc hm; rw [hprocs] at hm; exact .inr ⟨em, false, List.mem_singleton.mp hm⟩)
    hst.reach hp
  rw [hes] at h1
  have hmax : l.1.maxParticles = PList.defaultMax := by
    unfold Source.generateList at hg
    split at hg
    · cases hg
    · obtain ⟨_, -, hg⟩ := Res.bind_eq_ok.mp hg
      obtain ⟨_, -, hg⟩ := Res.bind_eq_ok.mp hg
      obtain ⟨_, -, hg⟩ := Res.bind_eq_ok.mp hg
      obtain ⟨_, -, hg⟩ := Res.bind_eq_ok.mp hg
      obtain ⟨_, -, hg⟩ := Res.bind_eq_ok.mp hg
      obtain ⟨_, -, hg⟩ := Res.bind_eq_ok.mp hg
      obtain ⟨_, -, hg⟩ := Res.bind_eq_ok.mp hg
      rw [← (Prod.mk.inj (Res.ok.inj hg)).1, PList.add_max]
      rfl
  have hcap := (reach_grows hst.reach).cap
    (show l.1.items.length ≤ l.1.maxParticles by
      rw [hp, hmax]
      exact (by norm_num : 1 ≤ 1000000))
  rw [show (EvState.init l.1 ρ' []).list.maxParticles = l.1.maxParticles from rfl, hmax, hes, h1] at hcap
  exact ⟨q, qs, h1, h2.kind.trans (scriptElectron_kind (z := z)), h2.weight, by
    rw [List.length_cons] at hcap
    unfold PList.defaultMax at hcap
    omega, h3⟩

theorem finalOf_length {n : Nat} : ∀ {ls : List (PList ℝ × PList ℝ)} {k : Kind},
    (∀ l ∈ ls, (l.2.items.filter fun p => p.kind = k).length ≤ n) → (finalOf k ls).length ≤ ls.length * n
  | [], _, _ => by simp [finalOf]
  | l :: ls, k, h => by
    have := finalOf_length (ls := ls) (k := k) fun x hx => h x (List.mem_cons_of_mem _ hx)
    have h1 := h l (List.mem_cons_self ..)
    unfold finalOf at this ⊢
    rw [List.flatMap_cons, List.length_append, List.length_cons, Nat.succ_mul]
    omega

/-- C124, the arrays: after a run the script holds a thousand input rows, the thousand electrons with weight
one, no positron and one row for every photon. -/
theorem C124_arrays (fa : FieldArgs ℝ) (ga : GenArgs ℝ) (e : Env ℝ) (hr : e.raw.Sized 1000) (m : Mgr ℝ)
    (ls : List (PList ℝ × PList ℝ)) (h : ScriptRun fa ga e (.ran m ls)) :
    ((getInput m.results).rows = 1000 ∧ (getInput m.results).columns = 6 ∧
      (getInput m.results).data.length = 6000) ∧
    ((getElectrons m.results).rows = 1000 ∧ (getElectrons m.results).columns = 7 ∧
      ∃ qs : List (Particle ℝ), qs.length = 1000 ∧ (∀ q ∈ qs, q.kind = .electron ∧ q.weight = 1) ∧
        (getElectrons m.results).data = qs.flatMap PythonRows.finalCells) ∧
    ((getPositrons m.results).rows = 0 ∧ (getPositrons m.results).data = []) ∧
    (getPhotons m.results).columns = 7 ∧
      ∃ qs : List (Particle ℝ), (getPhotons m.results).rows = qs.length ∧
        (getPhotons m.results).data = qs.flatMap PythonRows.finalCells ∧
        qs.Perm (ls.flatMap fun l => l.2.items.tail) := by
  have hfin := C124_finals fa ga e hr m ls h
  have hlen : ls.length = 1000 := (C124_beam fa ga e hr m ls h).1
  obtain ⟨-, -, -, hel, hpo, hph⟩ := C73_content chargeReal e 1000 2 _ m ls h
  have hin := (C73_shape_partial chargeReal e 1000 2 _ m ls (by norm_num) h).1
  have hE : ∀ l ∈ ls, ∃ q : Particle ℝ, (l.2.items.filter fun p => p.kind = .electron) = [q] ∧
      q.kind = .electron ∧ q.weight = 1 := by
    intro l hl
    obtain ⟨q, qs, h1, h2, h3, -, h5⟩ := hfin l hl
    refine ⟨q, ?_, h2, h3⟩
    rw [h1, List.filter_cons_of_pos (by simp [h2]), List.filter_eq_nil_iff.mpr]
    intro x hx
    simp [h5 x hx]
  have hG : ∀ l ∈ ls, (l.2.items.filter fun p => p.kind = .photon) = l.2.items.tail := by
    intro l hl
    obtain ⟨q, qs, h1, h2, -, -, h5⟩ := hfin l hl
    rw [h1, List.filter_cons_of_neg (by simp [h2]), List.filter_eq_self.mpr, List.tail_cons]
    intro x hx
    simp [h5 x hx]
  have hP : finalOf .positron ls = [] := by
    unfold finalOf
    rw [List.flatMap_eq_nil_iff]
    intro l hl
    obtain ⟨q, qs, h1, h2, -, -, h5⟩ := hfin l hl
    rw [List.filter_eq_nil_iff]
    intro x hx
    rw [h1] at hx
    rcases List.mem_cons.mp hx with rfl | hx
    · simp [h2]
    · simp [h5 x hx]
  have hElen : (finalOf .electron ls).length = 1000 := by
    rw [← hlen]
    unfold finalOf
    rw [List.length_flatMap, List.map_congr_left (g := fun _ => 1)]
    · simp
    · intro l hl
      obtain ⟨q, hq, -⟩ := hE l hl
      rw [hq]
      rfl
  have hGeq : finalOf .photon ls = ls.flatMap fun l => l.2.items.tail :=
    List.flatMap_congr hG
  have hGlen : (finalOf .photon ls).length < 2 ^ 31 := by
    have := finalOf_length (n := 1000000) (ls := ls) (k := .photon) (fun l hl => by
      rw [hG l hl]
      obtain ⟨q, qs, h1, -, -, h4, -⟩ := hfin l hl
      rw [h1, List.tail_cons]
      exact h4.le)
    rw [hlen] at this
    omega
  refine ⟨⟨by simpa using hin.1, hin.2.1, by simpa using hin.2.2⟩, ⟨?_, hel.columns, ?_⟩, ⟨?_, ?_⟩,
    hph.columns, ?_⟩
  · rw [hel.rows, hElen]
    decide
  · obtain ⟨qs, hq, hd⟩ := hel.data
    refine ⟨qs, by rw [hq.length_eq, hElen], fun q hm => ?_, hd⟩
    obtain ⟨l, hl, hql⟩ := List.mem_flatMap.mp (hq.subset hm)
    obtain ⟨q', hq', h1, h2⟩ := hE l hl
    rw [hq', List.mem_singleton] at hql
    subst hql
    exact ⟨h1, h2⟩
  · rw [hpo.rows, hP]
    decide
  · obtain ⟨qs, hq, hd⟩ := hpo.data
    rw [hP] at hq
    rw [hd, hq.eq_nil]
    rfl
  · obtain ⟨qs, hq, hd⟩ := hph.data
    refine ⟨qs, ?_, hd, by rw [← hGeq]; exact hq⟩
    rw [hph.rows, i32_small hGlen, hq.length_eq]

/-- C124, the threads: the two threads of the script race for the samples of the beam as soon as each of
them has an event to run; in particular under the usual static schedule. -/
theorem C124_race_refuted :
    (∀ shares, Shared 1000 shares → TwoThreads shares →
      ∃ sched s, Threads.exec 1000 sched (.init shares) = .ok s ∧ s.Racing) ∧
    Shared 1000 [List.range 500, (List.range 500).map (500 + ·)] ∧
      TwoThreads [List.range 500, (List.range 500).map (500 + ·)] := by
  refine ⟨fun shares h1 h2 => (C57_race_iff 1000 shares h1).mpr h2, ?_,
    0, 1, List.range 500, (List.range 500).map (500 + ·), by decide, rfl, rfl, ?_, ?_⟩
  · unfold Shared
    rw [show (1000 : Nat) = 500 + 500 from rfl, List.range_add]
    simp
  · simp
  · simp

namespace ScriptWitness

open SourceWitness

/-- Tables whose second axis ends one above `top`. -/
noncomputable def tables (top : ℝ) : Tables ℝ :=
  let row := [0, 1]
  let rows := [row, row, row]
  ⟨row, row, [top - 1, top, top + 1], rows, rows, row, row, row, row, [row, row]⟩

theorem tables_good (top : ℝ) : (tables top).Good := by
  have g : GoodAxis ([0, 1] : List ℝ) [0, 1] := ⟨rfl, by simp, by simp⟩
  refine ⟨g, ⟨by simp [tables], by simp [tables]⟩, ⟨rfl, rfl⟩, ?_, g,
    ⟨by simp [tables], by simp [tables]⟩, rfl, ?_⟩
  · intro i a c ha hc
    have ha := List.mem_of_getElem? ha
    have hc := List.mem_of_getElem? hc
    simp only [tables, List.mem_cons, List.not_mem_nil, or_false, or_self] at ha hc
    rw [ha, hc]
    exact g
  · intro a ha
    simp only [tables, List.mem_cons, List.not_mem_nil, or_false, or_self] at ha
    rw [ha]
    exact g

/-- A machine with OpenMP on which the first 500 events are run by one thread and the others by another. -/
noncomputable def env (top : ℝ) (rng : Rng ℝ) : Env ℝ :=
  ⟨true, tables top, zeroRaw (RunMgr.u32 1000), fun j => if j < 500 then 0 else 1, rng⟩

theorem env_inOrder (top : ℝ) (rng : Rng ℝ) : InOrder (env top rng) 1000 2 :=
  ⟨tables_good top, zeroRaw_sized _, fun _ _ j _ => by
    show (if j < 500 then 0 else 1) < (2 : Int).toNat
    split <;> decide⟩

end ScriptWitness

open ScriptWitness

/-- The hypotheses of `C124_completes_partial` can be met, and with them those of `C124_runs_partial`,
`C124_steps`, `C124_beam`, `C124_motion`, `C124_finals` and `C124_arrays`: with tables that reach far enough
the script runs to its end. -/
example (fa : FieldArgs ℝ) (ga : GenArgs ℝ) (rng : Rng ℝ) : ∃ e m ls, e.omp = true ∧ InOrder e 1000 2 ∧
    e.raw.Sized 1000 ∧ ScriptRun fa ga e (.ran m ls) ∧
    ∃ l r n s, Run (simOf e.tables (scriptManager fa ga)) (.init l r []) n (.ok s) := by
  obtain ⟨b, hb⟩ := ((Set.finite_Iic 2000).image fun k => Real.logb 10 (scriptEta 0 k)).bddAbove
  let top := max b (Real.logb 10 (Real.exp 0))
  have he := env_inOrder top rng
  obtain ⟨o, ho⟩ := (C124_runs_partial fa ga (env top rng) rfl he).1
  obtain ⟨m, ls, rfl⟩ := C124_completes_partial fa ga (env top rng) rfl he
    (by simp [env, tables]; linarith) le_rfl
    (by show Real.logb 10 (Real.exp 0) ≤ top; exact le_max_right ..)
    (fun z hz k _ hk => by
      have hz : z = 0 := List.eq_of_mem_replicate hz
      subst hz
      show Real.logb 10 (scriptEta 0 k) ≤ top
      exact (hb ⟨k, hk, rfl⟩).trans (le_max_left ..)) o ho
  have hlen := (C124_beam fa ga _ he.raw m ls ho).1
  obtain ⟨_, -, hall⟩ := script_events ho
  obtain ⟨_, _, _, _, _, -, hrun, -⟩ := hall 0 _ (List.getElem?_eq_getElem (by omega))
  exact ⟨_, m, ls, rfl, he, he.raw, ho, _, _, _, _, hrun⟩

/-- The hypothesis of `C124_refuted` is met by a build without OpenMP. -/
example (fa : FieldArgs ℝ) (ga : GenArgs ℝ) (rng : Rng ℝ) : ∃ o, ScriptRun fa ga
    ⟨false, tables 0, zeroRaw (RunMgr.u32 1000), fun _ => 0, rng⟩ o :=
  ⟨_, (C124_refuted fa ga _ rfl _).mpr ⟨rfl, by
    have hres : (scriptManager fa ga).results = ⟨[], [], [], []⟩ := by rw [script_frac]; rfl
    rw [show (Outcome.rejected (scriptManager fa ga)).mgr = scriptManager fa ga from rfl, hres]
    exact ⟨rfl, rfl, rfl⟩⟩⟩

end QED
