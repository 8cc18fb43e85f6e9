import Verif.Lemmas.GeantEvent
import Verif.Lemmas.Emission
import Verif.Props.Geant

set_option autoImplicit false

/-!
# Property C134: the Geant4 process radiates what the program would
-/

namespace QED

open Dbl MCTools G4

section generic
variable {D : Type} [Dbl D]

/-- C134: the process hands a change to Geant4 exactly when the program, started with the same lepton, field, time
step, end time and draws, with emission as its only process and room for one particle more, ends normally. The
change is the energy and direction of the lepton in the program's event and those of all other particles of the
event, in their order. This holds in any arithmetic in which zero equals itself, such as double precision. -/
theorem C134_same (hz : ((lit 0 : D) ==. lit 0) = true) (c : StepCfg D) (t : G4.Track D) (r : Rng D) (ch : Change D) :
    PostStep c t r ch ↔ ∃ n es p qs,
      Run ⟨lorentzForce, c.emission.field, c.dt, c.tEnd, [.stochastic c.emission]⟩
        (.init ⟨"0", 1000001, [leptonOf t r.next.1]⟩ r.next.2 []) n (.ok es) ∧
      es.list.items = p :: qs ∧
      ch = ⟨p.energy /. (Units.unitsSI : Units.UnitsSystem D).g4Energy, p.direction,
        qs.map fun q => (q.energy /. (Units.unitsSI : Units.UnitsSystem D).g4Energy, q.direction)⟩ := by
  have h0 : Twin (D := D) ⟨leptonOf t r.next.1, PList.new "Photons" PList.defaultMax, r.next.2, lit 0⟩
      (.init ⟨"0", 1000001, [leptonOf t r.next.1]⟩ r.next.2 []) :=
    ⟨⟨[], rfl, .nil⟩, rfl, Nat.zero_le _, rfl, rfl, rfl⟩
  have hch : ∀ (s : StepState D) (es : EvState D), Twin s es → ∃ p qs, es.list.items = p :: qs ∧
      changeOf s = ⟨p.energy /. (Units.unitsSI : Units.UnitsSystem D).g4Energy, p.direction,
        qs.map fun q => (q.energy /. (Units.unitsSI : Units.UnitsSystem D).g4Energy, q.direction)⟩ := by
    intro s es h
    obtain ⟨ps, h1, h2⟩ := h.items
    refine ⟨_, ps, h1, ?_⟩
    have : ∀ {as bs : List (Particle D)} (e : D), List.Forall₂ SamePhoton as bs →
        (as.map fun q => (q.energy /. e, q.direction)) = bs.map fun q => (q.energy /. e, q.direction) := by
      intro as bs e hab
      induction hab with
      | nil => rfl
      | cons hab _ ih =>
        rw [List.map_cons, List.map_cons, ih]
        unfold Particle.energy Particle.direction Particle.gamma
        rw [hab.kind.1, hab.kind.2, hab.momentum]
    unfold changeOf
    dsimp only
    rw [this _ h2]
  constructor
  · rintro ⟨hs⟩
    obtain ⟨es, hr, htw⟩ := Twin.steps hz c hs h0
    obtain ⟨p, qs, h1, h2⟩ := hch _ _ htw
    exact ⟨_, es, p, qs, hr, h1, h2⟩
  · rintro ⟨n, es, p, qs, hr, hitems, rfl⟩
    obtain ⟨s, hs, htw⟩ := Twin.run hz c hr h0 es rfl
    obtain ⟨p', qs', h1, h2⟩ := hch _ _ htw
    rw [hitems] at h1
    obtain ⟨rfl, rfl⟩ := List.cons.inj h1
    rw [← h2]
    exact .mk hs

end generic

/-! ## A lepton that radiates -/

/-- In one step along the field, an electron that has no optical depth left emits a photon, which becomes a
secondary. -/
example : ∃ (c : StepCfg ℝ) (t : G4.Track ℝ) (r : Rng ℝ) (ch : Change ℝ),
    c.emission.sampleFrac = 0 ∧ r.Valid ∧ PostStep c t r ch ∧ ch.secondaries ≠ [] := by
  obtain ⟨e, he⟩ : ∃ e : EmissionCfg ℝ,
    e = { Witness.emCfg (1 / 4) 0 0 with field := staticField ⟨0, 0, -1⟩ ⟨0, 0, 0⟩ } := ⟨_, rfl⟩
  obtain ⟨r, hr⟩ : ∃ r : Rng ℝ, r = ⟨fun i => if i = 0 then 0 else 1 / 2, 0⟩ := ⟨_, rfl⟩
  obtain ⟨M, hM⟩ : ∃ M : ℝ, M = (Units.unitsSI : Units.UnitsSystem ℝ).g4Energy := ⟨_, rfl⟩
  have hMpos : 0 < M := by rw [hM, g4Energy_eq]; exact MeV_pos
  obtain ⟨p, hp⟩ : ∃ p, p = leptonOf (⟨1 / M, -1, 1 / M, ⟨0, 0, 0⟩, ⟨0, 0, 1⟩⟩ : G4.Track ℝ) r.next.1 := ⟨_, rfl⟩
  have hmass : p.mass = 1 := by
    rw [hp]; simp [leptonOf, Particle.newLeptonE, Particle.new, ← hM, hMpos.ne']
  have hkind : p.kind = .electron := by
    rw [hp]; simp [leptonOf, Particle.newLeptonE, Particle.new, Particle.leptonKind]
  have hcharge : p.charge = -1 := by rw [hp]; rfl
  have halive : p.isAlive = true := by rw [hp]; rfl
  have hmom : p.momentum = ⟨0, 0, 1⟩ := by
    rw [hp]
    simp [leptonOf, Particle.newLeptonE, Particle.new, V3.norm, V3.divs, V3.mag, V3.dot, V3.smul, ← hM, hMpos.ne']
  have hdepth : p.opticalDepth = 0 := by
    rw [hp, hr]
    simp [leptonOf, Particle.newLeptonE, Particle.new, initDepth, Rng.next]
  obtain ⟨q, hq⟩ : ∃ q, q = pushParticle lorentzForce e.field 1 p := ⟨_, rfl⟩
  have hpush : q.kind = .electron ∧ q.mass = 1 ∧ q.isAlive = true ∧ q.opticalDepth = 0 ∧
      q.momentum = ⟨0, 0, 2⟩ := by
    rw [hq]
    unfold pushParticle
    rw [if_neg (by simp [halive]), if_neg (by simp [hmass])]
    have hm2 : (rk4 lorentzForce e.field 1 p.mass p.charge p.time p.position p.momentum).2 = ⟨0, 0, 2⟩ := by
      rw [hmass, hcharge, hmom, he]
      simp [rk4, lorentzForce, staticField, V3.add, V3.smul, V3.muls, V3.divs, V3.cross]
      norm_num
    dsimp only
    rw [hm2]
    unfold Particle.updateTrack Particle.updateTime
    split <;> exact ⟨hkind, hmass, halive, hdepth, rfl⟩
  obtain ⟨k1, k2, k3, k4, k5⟩ := hpush
  have hdir : q.direction = ⟨0, 0, 1⟩ := by
    unfold Particle.direction; rw [k5]; exact Witness.norm_z 2 two_pos
  have hgam : 0 < q.gamma := by
    unfold Particle.gamma
    rw [k1, k2, k5]
    simp [V3.mag2, V3.dot]
    positivity
  have heta : calculateEta e.field q = 1 := by
    unfold calculateEta
    rw [hdir, he]
    simp [staticField, V3.dot, V3.smul, V3.sub, V3.cross, V3.add, V3.mag2]
    rw [Real.sqrt_mul_self (inv_nonneg.mpr hgam.le), inv_mul_cancel₀ hgam.ne']
  have hem : Emits e q (r.next.2.draw r.next.2.pos) (emissionDelta e.dt 1 0 q.gamma) (q.gamma / 2) := by
    refine ⟨by simp [k2], k3, ⟨0, ?_, ?_⟩, ?_, 1 / 4, ?_, ?_⟩
    · rw [heta, he]
      unfold emissionLogh
      rw [if_neg (by simp only [real_lit, real_lt]; norm_num)]
      simp [Numerics.interpolate1D, Witness.emCfg, Numerics.firstAbove, Numerics.usub, rd]
    · rw [heta]
    · rw [k4, he]
      simp only [emissionDelta, Witness.emCfg, Units.alpha, Units.pi, real_lit, real_mul, real_sqrt, real_div,
        real_pow, real_sub, real_lt, decide_eq_true_eq]
      norm_num
      positivity
    · rw [heta, he, hr]
      exact Witness.chi_const (1 / 4) 0 0 _ (by norm_num) (by simp [Rng.next]) (by simp [Rng.next]; norm_num)
    · rw [heta]; simp; ring
  have hstep : ∃ s', stepOnce ⟨e, 1, 1⟩ ⟨p, PList.new "Photons" PList.defaultMax, r.next.2, 0⟩ = .ok s' ∧
      s'.time = 1 ∧ s'.list.items ≠ [] := by
    unfold stepOnce
    dsimp only
    rw [← hq, stochastic_emit hem, Res.ok_bind]
    refine ⟨_, rfl, by simp, ?_⟩
    unfold storePhoton
    rw [if_pos (by rw [he]; simpa [Witness.emCfg] using hgam),
      if_pos (by rw [he, hr]; simp [Witness.emCfg, Rng.next])]
    simp [PList.add, pushParticleList, PList.new, PList.defaultMax]
  obtain ⟨s', h1, h2, h3⟩ := hstep
  refine ⟨⟨e, 1, 1⟩, ⟨1 / M, -1, 1 / M, ⟨0, 0, 0⟩, ⟨0, 0, 1⟩⟩, r, changeOf s', by rw [he]; simp [Witness.emCfg], ?_,
    .mk (n := 1) (.step (s' := s') ?_ ?_ (.done ?_)), ?_⟩
  · intro i; rw [hr]; by_cases h : i = 0 <;> simp [h]; norm_num
  · simp
  · rw [← hp]; simpa using h1
  · rw [h2]; simp
  · simpa [changeOf] using h3

end QED
