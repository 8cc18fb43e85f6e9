import Verif.Lemmas.Processes
import Verif.Lemmas.Witness

set_option linter.unusedSectionVars false
set_option autoImplicit false

/-!
An emission, evaluated step by step, and a concrete lepton that emits.
-/

namespace QED

open MCTools Numerics

section generic
variable {D : Type} [Dbl D]

/-- A living lepton whose optical depth is used up in this step, with everything that
determines the photon: `gammaE` is its energy. -/
structure Emits (cfg : EmissionCfg D) (p : Particle D) (u : D) (delta gammaE : D) : Prop where
  lepton : (p.mass ==. Dbl.lit 0) = false
  alive : p.isAlive = true
  rate : ∃ logh, emissionLogh cfg (calculateEta cfg.field p) = .ok logh ∧
    delta = emissionDelta cfg.dt (calculateEta cfg.field p) logh p.gamma
  used : (p.opticalDepth -. delta <. Dbl.lit 0) = true
  energy : ∃ chi, calculateChi cfg (calculateEta cfg.field p) u = .ok chi ∧
    gammaE = Dbl.lit 2 *. chi *. p.gamma /. calculateEta cfg.field p

/-- The lepton after the recoil. -/
def recoiled (p : Particle D) (delta gammaE : D) : Particle D :=
  (p.updateOpticalDepth delta).updateTrack p.position
    (p.momentum.sub (p.direction.smul gammaE))

theorem stochastic_emit {cfg : EmissionCfg D} {p : Particle D} {l : PList D} {r : Rng D}
    {delta gammaE : D} (h : Emits cfg p (r.draw r.pos) delta gammaE) :
    stochasticInteract cfg p l r =
      let stored := storePhoton cfg (recoiled p delta gammaE) gammaE l r.next.2
      .ok ((recoiled p delta gammaE).initOpticalDepth stored.2.next.1, stored.1,
        stored.2.next.2) := by
  obtain ⟨logh, hl, hd⟩ := h.rate
  obtain ⟨chi, hc, he⟩ := h.energy
  unfold stochasticInteract
  rw [if_neg (by simp [h.lepton, h.alive])]
  dsimp only
  rw [hl, Res.ok_bind]
  rw [← hd]
  have h1 : ((p.updateOpticalDepth delta).opticalDepth <. Dbl.lit 0) = true := h.used
  rw [if_pos h1]
  have hc' : calculateChi cfg (calculateEta cfg.field p) r.next.1 = .ok chi := hc
  rw [hc', Res.ok_bind]
  have he' : Dbl.lit 2 *. chi *. (p.updateOpticalDepth delta).gamma
      /. calculateEta cfg.field p = gammaE := he.symm
  rw [he']
  rfl

theorem recoiled_fields (p : Particle D) (delta gammaE : D) :
    (recoiled p delta gammaE).position = p.position ∧ (recoiled p delta gammaE).weight = p.weight ∧
    (recoiled p delta gammaE).time = p.time ∧
    (recoiled p delta gammaE).momentum = p.momentum.sub (p.direction.smul gammaE) := by
  unfold recoiled Particle.updateTrack
  split <;> exact ⟨rfl, rfl, rfl, rfl⟩

/-- Every emission is of this form. -/
theorem stochastic_emits {cfg : EmissionCfg D} {p : Particle D} {l : PList D} {r : Rng D}
    {p' : Particle D} {l' : PList D} {r' : Rng D}
    (h : stochasticInteract cfg p l r = .ok (p', l', r')) :
    (p'.momentum = p.momentum ∧ l' = l) ∨ ∃ delta gammaE, Emits cfg p (r.draw r.pos) delta gammaE := by
  by_cases h0 : (p.mass ==. Dbl.lit 0) || !p.isAlive
  · left
    unfold stochasticInteract at h
    rw [if_pos h0] at h
    simp only [Res.ok.injEq, Prod.mk.injEq] at h
    exact ⟨by rw [← h.1], h.2.1.symm⟩
  · have h' := h
    unfold stochasticInteract at h
    rw [if_neg h0, Res.bind_eq_ok] at h
    simp only [Bool.or_eq_true, Bool.not_eq_true', not_or, Bool.not_eq_true,
      Bool.not_eq_false] at h0
    obtain ⟨logh, hl, h⟩ := h
    dsimp only at h
    set delta := emissionDelta cfg.dt (calculateEta cfg.field p) logh p.gamma with hdelta
    by_cases h1 : ((p.updateOpticalDepth delta).opticalDepth <. Dbl.lit 0) = true
    · right
      rw [if_pos h1, Res.bind_eq_ok] at h
      obtain ⟨chi, hc, h⟩ := h
      exact ⟨delta, _, h0.1, h0.2, ⟨logh, hl, rfl⟩, h1, chi, hc, rfl⟩
    · left
      rw [if_neg h1] at h
      simp only [Res.ok.injEq, Prod.mk.injEq] at h
      exact ⟨by rw [← h.1]; rfl, h.2.1.symm⟩

end generic

namespace Witness

/-- Emission tables in which chi has the fixed value `x` for eta between 1 and 10, in a
static field across the z axis. -/
noncomputable def emCfg (x f eMin : ℝ) : EmissionCfg ℝ where
  field := staticField ⟨Real.sqrt 2 / 2, 0, 0⟩ ⟨0, 0, 0⟩
  dt := 1
  track := false
  sampleFrac := f
  eMin := eMin
  hAxis := [0, 1]
  hData := [0, 0]
  etaAxis := [0, 1, 2]
  chiAxis := [[Real.logb 10 x, Real.logb 10 x], [Real.logb 10 x, Real.logb 10 x],
    [Real.logb 10 x, Real.logb 10 x]]
  phEnTable := [[0, 1], [0, 1], [0, 1]]

/-- An electron of momentum 1 along z, with no optical depth left. -/
noncomputable def electron : Particle ℝ :=
  .newLepton 1 (-1) ⟨0, 0, 0⟩ ⟨0, 0, 1⟩ 1 0 false 0

theorem electron_kind : electron.kind = .electron := by
  simp [electron, Particle.newLepton, Particle.new, Particle.leptonKind]

theorem electron_momentum : electron.momentum = ⟨0, 0, 1⟩ := rfl

theorem electron_direction : electron.direction = ⟨0, 0, 1⟩ := norm_z 1 one_pos

theorem electron_gamma : electron.gamma = Real.sqrt 2 := by
  unfold Particle.gamma
  rw [electron_kind]
  simp only [electron, Particle.newLepton, Particle.new, V3.mag2, V3.dot, real_add, real_mul,
    real_sqrt, real_div, real_lit]
  norm_num

theorem electron_energy : electron.energy = Real.sqrt 2 := by
  have := electron_gamma
  unfold Particle.energy
  rw [electron_kind, this]
  simp [electron, Particle.newLepton, Particle.new]

theorem electron_depth : electron.opticalDepth = 0 := by
  simp [electron, Particle.newLepton, Particle.new, initDepth]

theorem eta_eq (x f eMin : ℝ) : calculateEta (emCfg x f eMin).field electron = 1 := by
  unfold calculateEta
  rw [electron_direction, electron_gamma]
  simp only [emCfg, staticField, V3.dot, V3.smul, V3.sub, V3.cross, V3.add, V3.mag2, real_add,
    real_mul, real_sub, real_sqrt, real_lit, real_pow, real_div]
  have h2 : Real.sqrt 2 * Real.sqrt 2 = 2 := Real.mul_self_sqrt (by norm_num)
  have : Real.sqrt 2 / 2 * (Real.sqrt 2 / 2) = 1 / 2 := by
    rw [div_mul_div_comm, h2]; norm_num
  norm_num
  rw [← sq, Real.sqrt_sq (by positivity)]
  rw [div_mul_eq_mul_div, h2]; norm_num

theorem chi_const (x f eMin u : ℝ) (hx : 0 < x) (h0 : 0 ≤ u) (h1 : u < 1) :
    calculateChi (emCfg x f eMin) 1 u = .ok x := by
  have e1 : closestPoints (emCfg x f eMin).etaAxis (Dbl.log10 (1:ℝ)) = .ok (0, 0) := by
    simp [closestPoints, emCfg, scanLow, usub, rd]
  have e2 : ∀ c : ℝ, interpolate1D [0, 1] [c, c] u = .ok c := by
    intro c
    simp [interpolate1D, firstAbove, usub, rd, not_lt.mpr h0, h1, not_lt.mpr h1.le]
  unfold calculateChi
  rw [e1]
  simp only [Res.ok_bind]
  simp only [emCfg, rd, List.getElem?_cons_zero, List.getElem?_cons_succ, Res.ok_bind, e2]
  simp [Real.rpow_logb, hx]

theorem emits (x f eMin : ℝ) (hx : 0 < x) (u : ℝ) (h0 : 0 ≤ u) (h1 : u < 1) :
    ∃ delta, 0 < delta ∧ Emits (emCfg x f eMin) electron u delta (2 * x * Real.sqrt 2) := by
  have hl : emissionLogh (emCfg x f eMin) (1:ℝ) = .ok 0 := by
    unfold emissionLogh
    rw [if_neg (by simp only [real_lit, real_lt]; norm_num)]
    simp [interpolate1D, emCfg, firstAbove, usub, rd]
  have hpos : 0 < emissionDelta (emCfg x f eMin).dt (1:ℝ) 0 (Real.sqrt 2) := by
    simp only [emissionDelta, emCfg, Units.alpha, Units.pi, real_lit, real_mul, real_sqrt, real_div,
      real_pow]
    have : (0:ℝ) < Real.sqrt 2 := by positivity
    norm_num
  refine ⟨_, hpos, ?_, rfl, ⟨0, ?_, ?_⟩, ?_, x, ?_, ?_⟩
  · simp [electron, Particle.newLepton, Particle.new]
  · rw [eta_eq]; exact hl
  · rw [eta_eq, electron_gamma]
  · rw [electron_depth]; simpa using hpos
  · rw [eta_eq]; exact chi_const x f eMin u hx h0 h1
  · rw [eta_eq, electron_gamma]; simp

end Witness
end QED
