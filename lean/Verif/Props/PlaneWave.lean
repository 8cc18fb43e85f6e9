import Verif.Lemmas.PlaneWave

set_option autoImplicit false

/-!
# Property C138: charges move in a plane laser as the exact solution says

In a plane wave the energy of a charge less its momentum along the wave never changes, and its momentum across the wave
changes by the charge times the integral of the electric field over the part of the wave that has passed it.
-/

namespace QED

open Dbl Matrix Set

/-- C138 for all plane waves: with the Lorentz pusher both hold up to a constant times `dt⁴`. -/
theorem C138_wave {field : Field ℝ} {F K : ℝ} (hf : SmoothField field F K) (h4 : FieldC4 field univ)
    {k : Fin 3 → ℝ} (hw : IsPlaneWave field k) (p : Particle ℝ) (ha : p.isAlive = true) (hm : 0 < p.mass)
    (hk : p.kind ≠ .photon) {T : ℝ} (hT : 0 ≤ T) {e : Fin 3 → ℝ} (he : e ⬝ᵥ k = 0) :
    ∃ C δ, 0 < δ ∧ ∀ dt, 0 ≤ dt → dt ≤ δ → ∀ n : Nat, n * dt ≤ T →
      let r := (pushParticle lorentzForce field dt)^[n] p
      |lightFront k r - lightFront k p| ≤ C * dt ^ 4 ∧
      |e ⬝ᵥ r.momentum.toVec - e ⬝ᵥ p.momentum.toVec -
        p.charge * ∫ u in phaseAt k p..phaseAt k r, e ⬝ᵥ electric field u 0| ≤ C * dt ^ 4 := by
  have hF := (smooth_nonneg hf).1
  obtain ⟨y, hy0, hy⟩ := motion_solution hf hm p.charge p.time (p.position.toVec, p.momentum.toVec) hT
  have hfo := C121_lorentz isOpen_univ h4 p ha hm hy0 hy (fun _ _ => mem_univ _)
  obtain ⟨C1, δ1, hδ1, h1⟩ := conserved_fourth hfo hy0
    (fun _ z => Real.sqrt (p.mass ^ 2 + z.2 ⬝ᵥ z.2) - k ⬝ᵥ z.2) (K := 3 + 3 * ‖k‖) (by positivity) (fun _ => front_lip hm k) (front_constant hw hm p.charge hy)
  obtain ⟨C2, δ2, hδ2, h2⟩ := conserved_fourth hfo hy0
    (fun s z => e ⬝ᵥ z.2 - p.charge * ∫ u in (0 : ℝ)..(s - k ⬝ᵥ z.1), e ⬝ᵥ electric field u 0)
    (K := 3 * ‖e‖ + |p.charge| * (3 * ‖e‖ * F * (3 * ‖k‖))) (by positivity) (by
      intro s a b
      have l1 := dot_le e (a.2 - b.2)
      have l2 := dot_le k (b.1 - a.1)
      rw [dotProduct_sub] at l1 l2
      have l3 : ‖a.2 - b.2‖ ≤ ‖a - b‖ := norm_snd_le (a - b)
      have l4 : ‖b.1 - a.1‖ ≤ ‖a - b‖ := by rw [norm_sub_rev]; exact norm_fst_le (a - b)
      have hc := wave_continuous hf e
      have l5 := intervalIntegral.norm_integral_le_of_norm_le_const (a := s - k ⬝ᵥ b.1) (b := s - k ⬝ᵥ a.1)
        (f := fun u => e ⬝ᵥ electric field u 0) (C := 3 * ‖e‖ * F) (by
          intro u _
          refine (dot_le _ _).trans (mul_le_mul_of_nonneg_left (hf.electric_le u 0) (by positivity)))
      rw [← intervalIntegral.integral_interval_sub_left (hc.intervalIntegrable 0 _) (hc.intervalIntegrable 0 _),
        Real.norm_eq_abs, show s - k ⬝ᵥ a.1 - (s - k ⬝ᵥ b.1) = k ⬝ᵥ b.1 - k ⬝ᵥ a.1 by ring] at l5
      rw [show ∀ P Q R S q : ℝ, P - q * Q - (R - q * S) = (P - R) - q * (Q - S) by intros; ring]
      refine (abs_sub _ _).trans ?_
      rw [abs_mul, add_mul, mul_assoc |p.charge|]
      refine add_le_add (l1.trans (mul_le_mul_of_nonneg_left l3 (by positivity)))
        (mul_le_mul_of_nonneg_left (l5.trans ?_) (abs_nonneg _))
      rw [mul_assoc (3 * ‖e‖ * F)]
      refine mul_le_mul_of_nonneg_left (l2.trans ?_) (by positivity)
      exact mul_le_mul_of_nonneg_left l4 (by positivity)) (across_constant hf hw p.mass p.charge he hy)
  refine ⟨max C1 C2, min δ1 δ2, lt_min hδ1 hδ2, fun dt d0 d1 n hn => ?_⟩
  intro r
  have b1 := h1 dt d0 (d1.trans (min_le_left _ _)) n hn
  have b2 := h2 dt d0 (d1.trans (min_le_right _ _)) n hn
  obtain ⟨-, -, -, h5, -⟩ := C103_pushes lorentzForce field dt p ha hm n
  have er : r.energy = Real.sqrt (p.mass ^ 2 + r.momentum.toVec ⬝ᵥ r.momentum.toVec) := by
    rw [energy_eq (by rw [h5]; exact hm) (by rw [iterate_kind]; exact hk), h5]
  have hdt : 0 ≤ dt ^ 4 := by positivity
  constructor
  · unfold lightFront
    rw [er, energy_eq hm hk]
    exact b1.trans (mul_le_mul_of_nonneg_right (le_max_left _ _) hdt)
  · refine le_trans (le_of_eq ?_) (b2.trans (mul_le_mul_of_nonneg_right (le_max_right _ _) hdt))
    have hc := wave_continuous hf e
    unfold phaseAt
    rw [← intervalIntegral.integral_interval_sub_left (hc.intervalIntegrable 0 _) (hc.intervalIntegrable 0 _)]
    congr 1
    ring

/-- C138 for the plane laser: it holds for polarisation angles that are multiples of π. Missing: all other angles, for
which it is false, and directions within `1e-5` of `-z`, which the code takes for `-z`. -/
theorem C138_plane_partial (maxE wl phi : ℝ) (hp : Real.sin phi = 0) (d : V3 ℝ) (hd : d.toVec ≠ 0)
    (hc : ClearOfMinusZ d) (p : Particle ℝ) (ha : p.isAlive = true) (hm : 0 < p.mass) (hk : p.kind ≠ .photon)
    {T : ℝ} (hT : 0 ≤ T) {e : Fin 3 → ℝ} (he : e ⬝ᵥ d.norm.toVec = 0) :
    let field := (PlaneField.new maxE wl phi d).getField
    ∃ C δ, 0 < δ ∧ ∀ dt, 0 ≤ dt → dt ≤ δ → ∀ n : Nat, n * dt ≤ T →
      let r := (pushParticle lorentzForce field dt)^[n] p
      |lightFront d.norm.toVec r - lightFront d.norm.toVec p| ≤ C * dt ^ 4 ∧
      |e ⬝ᵥ r.momentum.toVec - e ⬝ᵥ p.momentum.toVec -
        p.charge * ∫ u in phaseAt d.norm.toVec p..phaseAt d.norm.toVec r, e ⬝ᵥ electric field u 0| ≤ C * dt ^ 4 := by
  intro field
  obtain ⟨F, K, hf⟩ := C104_plane (PlaneField.new maxE wl phi d)
  exact C138_wave hf (C121_plane _) (plane_isWave maxE wl phi hp d hd hc) p ha hm hk hT he

/-- The full property is false: for every other polarisation angle there is a positron for which, however short the
time step, the energy less the momentum along the wave does not stay the same. -/
theorem C138_refuted (maxE wl phi : ℝ) (hE : maxE ≠ 0) (hp : Real.sin phi ≠ 0) (d : V3 ℝ) (hd : d.toVec ≠ 0)
    (hc : ClearOfMinusZ d) : ∃ p : Particle ℝ, p.isAlive = true ∧ p.mass = 1 ∧ p.kind = .positron ∧
      ∀ T > 0, ¬ ∃ C δ : ℝ, 0 < δ ∧ ∀ dt, 0 ≤ dt → dt ≤ δ → ∀ n : Nat, n * dt ≤ T →
        |lightFront d.norm.toVec ((pushParticle lorentzForce (PlaneField.new maxE wl phi d).getField dt)^[n] p) -
          lightFront d.norm.toVec p| ≤ C * dt := by
  have hd' := V3.ne_zero_of_toVec hd
  have hR := rotateToAxis_isRotation (v := d) (axis := V3.ez) hd' (by simp)
  have hk := inverse_ez hd' hc.iff
  obtain ⟨v, hv⟩ : ∃ v, v = (d.rotateToAxis V3.ez).inverse.mulVec ⟨0, 1, 0⟩ := ⟨_, rfl⟩
  obtain ⟨p, hpp⟩ : ∃ p : Particle ℝ, p = .newLepton 1 1 ⟨0, 0, 0⟩ v 1 0 false 0 := ⟨_, rfl⟩
  have hkind : p.kind = .positron := by
    rw [hpp]
    simp [Particle.newLepton, Particle.new, Particle.leptonKind]
    norm_num
  have ha : p.isAlive = true := by rw [hpp]; rfl
  have hmass : p.mass = 1 := by rw [hpp]; rfl
  have hcharge : p.charge = 1 := by rw [hpp]; rfl
  have htime : p.time = 0 := by rw [hpp]; rfl
  have hpos : p.position = ⟨0, 0, 0⟩ := by rw [hpp]; rfl
  have hmom : p.momentum = v := by rw [hpp]; rfl
  have hm : 0 < p.mass := by rw [hmass]; norm_num
  have hnp : p.kind ≠ .photon := by rw [hkind]; decide
  refine ⟨p, ha, hmass, hkind, fun T hT => ?_⟩
  rintro ⟨C, δ, hδ, h⟩
  obtain ⟨F, K, hf⟩ := C104_plane (PlaneField.new maxE wl phi d)
  obtain ⟨y, hy0, hy⟩ := motion_solution hf hm p.charge p.time (p.position.toVec, p.momentum.toVec) hT.le
  have hfo := C121_lorentz isOpen_univ (C121_plane _) p ha hm hy0 hy (fun _ _ => mem_univ _)
  have hconst := conserved_limit hfo (fun z => Real.sqrt (p.mass ^ 2 + z.2 ⬝ᵥ z.2) - d.norm.toVec ⬝ᵥ z.2)
    (fun _ => Real.sqrt (p.mass ^ 2 + p.momentum.toVec ⬝ᵥ p.momentum.toVec) - d.norm.toVec ⬝ᵥ p.momentum.toVec)
    (K := 3 + 3 * ‖d.norm.toVec‖) (by positivity) (front_lip hm _) hδ (by
      intro dt d0 d1 n hn r
      have := h dt d0 d1 n hn
      obtain ⟨-, -, -, h5, -⟩ := C103_pushes lorentzForce (PlaneField.new maxE wl phi d).getField dt p ha hm n
      have er : r.energy = Real.sqrt (p.mass ^ 2 + r.momentum.toVec ⬝ᵥ r.momentum.toVec) := by
        rw [energy_eq (by rw [h5]; exact hm) (by rw [iterate_kind]; exact hnp), h5]
      unfold lightFront at this
      rwa [er, energy_eq hm hnp] at this)
  -- the rate at which it changes at the start
  have hstart : p.time ∈ Icc p.time (p.time + T) := ⟨le_rfl, by linarith⟩
  have hrate := (energy_moves hm p.charge (hy _ hstart)).sub (dot_moves (hy _ hstart) d.norm.toVec).2
  have hzero : HasDerivWithinAt (fun s => Real.sqrt (p.mass ^ 2 + (y s).2 ⬝ᵥ (y s).2) - d.norm.toVec ⬝ᵥ (y s).2) 0
      (Icc p.time (p.time + T)) p.time := by
    refine (hasDerivWithinAt_const p.time _ (Real.sqrt (p.mass ^ 2 + p.momentum.toVec ⬝ᵥ p.momentum.toVec) -
      d.norm.toVec ⬝ᵥ p.momentum.toVec)).congr (fun s hs => ?_) (by rw [hy0])
    have := hconst (s - p.time) (by linarith [hs.1]) (by linarith [hs.2])
    rwa [show p.time + (s - p.time) = s by ring] at this
  have huniq := (uniqueDiffOn_Icc (by linarith : p.time < p.time + T) p.time hstart).eq_deriv _ hrate hzero
  -- it is not zero
  have hamp : (PlaneField.new maxE wl phi d).amplitude 0 ⟨0, 0, 0⟩ = maxE := by
    simp [PlaneField.amplitude, PlaneField.new, M3.mulVec, M3.acc3]
  rw [hy0, hpos, hmom, htime, hcharge, hmass] at huniq
  have hfield : (PlaneField.new maxE wl phi d).getField 0 (V3.ofVec (⟨0, 0, 0⟩ : V3 ℝ).toVec) =
      (waveE (d.rotateToAxis V3.ez) maxE phi, waveB (d.rotateToAxis V3.ez) maxE phi) := by
    have : V3.ofVec (⟨0, 0, 0⟩ : V3 ℝ).toVec = ⟨0, 0, 0⟩ := rfl
    rw [this, PlaneField.getField_eq, hamp]
  unfold lorentz electric magnetic at huniq
  rw [hfield] at huniq
  have hs : 0 < Real.sqrt ((1 : ℝ) ^ 2 + v.toVec ⬝ᵥ v.toVec) := by
    refine Real.sqrt_pos.mpr ?_
    rw [← dot_eq]
    simp only [V3.dot, real_add, real_mul]
    nlinarith [mul_self_nonneg v.x, mul_self_nonneg v.y, mul_self_nonneg v.z]
  have e1 : (waveE (d.rotateToAxis V3.ez) maxE phi).dot v = maxE * Real.sin phi := by
    rw [hv, waveE, inverse_dot hR]; simp [V3.dot]
  have e2 : d.norm.dot (waveE (d.rotateToAxis V3.ez) maxE phi) = 0 := by
    rw [← hk, waveE, inverse_dot hR]; simp [V3.dot]
  have e3 : d.norm.dot (v.cross (waveB (d.rotateToAxis V3.ez) maxE phi)) = -(maxE * Real.sin phi) := by
    rw [← hk, hv, waveB, inverse_cross hR, inverse_dot hR]; simp [V3.dot, V3.cross]
  rw [dot_eq] at e1 e2 e3
  rw [toVec_cross] at e3
  simp only [one_mul, one_smul, velocity, dotProduct_add, dotProduct_smul, LinearMap.map_smul₂, e1, e2, e3,
    smul_eq_mul] at huniq
  have : (Real.sqrt ((1 : ℝ) ^ 2 + v.toVec ⬝ᵥ v.toVec))⁻¹ * (2 * (maxE * Real.sin phi)) = 0 := by linarith
  rcases mul_eq_zero.mp this with h0 | h0
  · exact absurd h0 (inv_pos.mpr hs).ne'
  · exact mul_ne_zero two_ne_zero (mul_ne_zero hE hp) h0

/-- A positron in front of a plane laser meets the hypotheses. -/
example : ∃ (d : V3 ℝ) (p : Particle ℝ) (e : Fin 3 → ℝ), d.toVec ≠ 0 ∧ ClearOfMinusZ d ∧ p.isAlive = true ∧ 0 < p.mass ∧
    p.charge = 1 ∧ p.kind ≠ .photon ∧ e ⬝ᵥ d.norm.toVec = 0 ∧ e ≠ 0 ∧ Real.sin 0 = 0 ∧ Real.sin (Real.pi / 2) ≠ 0 := by
  refine ⟨⟨0, 0, 1⟩, .newLepton 1 1 ⟨0, 0, 0⟩ ⟨3 / 4, 0, 0⟩ 1 0 false 0, ![1, 0, 0], FieldWitness.z_ne,
    FieldWitness.z_clear, rfl, one_pos, rfl, ?_, ?_, ?_, Real.sin_zero, by rw [Real.sin_pi_div_two]; norm_num⟩
  · simp [Particle.newLepton, Particle.new, Particle.leptonKind]
    norm_num
    decide
  · rw [FieldWitness.norm_z]
    simp [V3.toVec]
  · intro h
    simpa using congrFun h 0

end QED
