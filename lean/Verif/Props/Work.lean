import Verif.Lemmas.Work

set_option autoImplicit false

/-!
# C112: fields change the energy of a particle by the work they do

The full property: the energy a charged particle gains equals the charge times the drop of the
electric potential; a magnetic field changes no energy.
-/

namespace QED

open Dbl Matrix

theorem iterate_kind (push : PushMom ℝ) (field : Field ℝ) (dt : ℝ) (p : Particle ℝ) (n : Nat) :
    ((pushParticle push field dt)^[n] p).kind = p.kind := by
  induction n with
  | zero => rfl
  | succ n ih => rw [Function.iterate_succ_apply', (push_identity _ _ _ _).1, ih]

theorem energy_eq {p : Particle ℝ} (hm : 0 < p.mass) (hk : p.kind ≠ .photon) :
    p.energy = Real.sqrt (p.mass ^ 2 + p.momentum.toVec ⬝ᵥ p.momentum.toVec) := by
  rw [← mass_gamma hm]
  unfold Particle.energy Particle.gamma pushGamma
  rcases h : p.kind with _ | _ | _
  · exact absurd h hk
  · rfl
  · rfl

/-- In any smooth field with a potential, the energy gained up to any time differs from the work
done by the electric field by at most a constant times the time step. -/
theorem C112_work_partial {field : Field ℝ} {F K : ℝ} (hf : SmoothField field F K)
    {φ : (Fin 3 → ℝ) → ℝ} (hφ : HasPotential field φ) (p : Particle ℝ)
    (ha : p.isAlive = true) (hm : 0 < p.mass) (hk : p.kind ≠ .photon) {T : ℝ} (hT : 0 ≤ T)
    {dt : ℝ} (hdt : 0 ≤ dt) (n : Nat) (hn : n * dt ≤ T) :
    let r := (pushParticle lorentzForce field dt)^[n] p
    let C := 3 / 2 * motionConst p.mass p.charge F K * (2 + 3 * |p.charge| * F) * T *
      Real.exp (2 * motionConst p.mass p.charge F K * T)
    |r.energy - p.energy - p.charge * (φ p.position.toVec - φ r.position.toVec)| ≤
      3 * (1 + |p.charge| * F) * C * dt := by
  intro r C
  obtain ⟨y, hy0, hy⟩ := motion_solution hf hm p.charge p.time (p.position.toVec, p.momentum.toVec) hT
  obtain ⟨ht, hc⟩ := C104_converges hf p ha hm hy0 hy hdt n hn
  obtain ⟨-, -, -, h4, -⟩ := C103_pushes lorentzForce field dt p ha hm n
  have hF := (smooth_nonneg hf).1
  have hmem : r.time ∈ Set.Icc p.time (p.time + T) := by
    rw [ht]
    exact ⟨by have : 0 ≤ (n : ℝ) * dt := by positivity
              linarith, by linarith⟩
  have hconst := energy_constant hφ hm p.charge hy r.time hmem
  rw [hy0] at hconst
  have er : r.energy = Real.sqrt (p.mass ^ 2 + r.momentum.toVec ⬝ᵥ r.momentum.toVec) := by
    rw [energy_eq (by rw [h4]; exact hm) (by rw [iterate_kind]; exact hk), h4]
  have hCdt : 0 ≤ C * dt := (abs_nonneg _).trans (hc 0).1
  have n1 : ‖r.position.toVec - (y r.time).1‖ ≤ C * dt :=
    (pi_norm_le_iff_of_nonneg hCdt).mpr fun i => (hc i).1
  have n2 : ‖r.momentum.toVec - (y r.time).2‖ ≤ C * dt :=
    (pi_norm_le_iff_of_nonneg hCdt).mpr fun i => (hc i).2
  have l1 := sqrt_energy_lip hm r.momentum.toVec (y r.time).2
  have l2 := potential_lip hf hφ r.position.toVec (y r.time).1
  rw [er, energy_eq hm hk]
  generalize Real.sqrt (p.mass ^ 2 + r.momentum.toVec ⬝ᵥ r.momentum.toVec) = Er at l1 ⊢
  generalize Real.sqrt (p.mass ^ 2 + (y r.time).2 ⬝ᵥ (y r.time).2) = Ey at l1 hconst
  generalize Real.sqrt (p.mass ^ 2 + p.momentum.toVec ⬝ᵥ p.momentum.toVec) = Ep at hconst ⊢
  have e : Er - Ep - p.charge * (φ p.position.toVec - φ r.position.toVec) =
      (Er - Ey) + p.charge * (φ r.position.toVec - φ (y r.time).1) := by linarith
  rw [e]
  refine (abs_add_le _ _).trans ?_
  rw [abs_mul]
  have a1 : |Er - Ey| ≤ 3 * (C * dt) := l1.trans (by linarith)
  have a2 : |φ r.position.toVec - φ (y r.time).1| ≤ 3 * F * (C * dt) :=
    l2.trans (mul_le_mul_of_nonneg_left n1 (by positivity))
  have a3 := mul_le_mul_of_nonneg_left a2 (abs_nonneg p.charge)
  calc _ ≤ 3 * (C * dt) + |p.charge| * (3 * F * (C * dt)) := add_le_add a1 a3
    _ = _ := by ring

/-- In a purely magnetic field, however it varies in space and time, the energy changes by at most
a constant times the time step. -/
theorem C112_magnetic_partial {field : Field ℝ} {F K : ℝ} (hf : SmoothField field F K)
    (hE : ∀ t x, (field t x).1 = ⟨0, 0, 0⟩) (p : Particle ℝ)
    (ha : p.isAlive = true) (hm : 0 < p.mass) (hk : p.kind ≠ .photon) {T : ℝ} (hT : 0 ≤ T)
    {dt : ℝ} (hdt : 0 ≤ dt) (n : Nat) (hn : n * dt ≤ T) :
    let C := 3 / 2 * motionConst p.mass p.charge F K * (2 + 3 * |p.charge| * F) * T *
      Real.exp (2 * motionConst p.mass p.charge F K * T)
    |((pushParticle lorentzForce field dt)^[n] p).energy - p.energy| ≤
      3 * (1 + |p.charge| * F) * C * dt := by
  intro C
  have hφ : HasPotential field fun _ => 0 := fun t x => ⟨0, hasFDerivAt_const _ _, fun v => by
    simp [electric, hE, V3.toVec, dotProduct, Fin.sum_univ_three]⟩
  simpa using C112_work_partial hf hφ p ha hm hk hT hdt n hn

/-- In static uniform fields the energy gained is the charge times the electric field times the
distance travelled along it, up to a constant times the time step. The constant is the same for
all particles of a mass and charge. -/
theorem C112_static_partial (e b : V3 ℝ) (m q : ℝ) (hm : 0 < m) {T : ℝ} (hT : 0 ≤ T) :
    ∃ C, ∀ p : Particle ℝ, p.isAlive = true → p.mass = m → p.charge = q → p.kind ≠ .photon →
      ∀ (dt : ℝ) (n : Nat), 0 ≤ dt → n * dt ≤ T →
      let r := (pushParticle lorentzForce (staticField e b) dt)^[n] p
      |r.energy - p.energy - q * (e.toVec ⬝ᵥ (r.position.toVec - p.position.toVec))| ≤ C * dt := by
  obtain ⟨F, hF⟩ := C104_static e b
  refine ⟨3 * (1 + |q| * F) * (3 / 2 * motionConst m q F 0 * (2 + 3 * |q| * F) * T *
      Real.exp (2 * motionConst m q F 0 * T)), ?_⟩
  rintro p ha rfl rfl hk dt n hdt hn r
  have hφ : HasPotential (staticField e b) fun x => -(e.toVec ⬝ᵥ x) := by
    intro t x
    let M : (Fin 3 → ℝ) →L[ℝ] ℝ := LinearMap.toContinuousLinearMap
      { toFun := fun v => -(e.toVec ⬝ᵥ v)
        map_add' := fun v w => by rw [dotProduct_add]; ring
        map_smul' := fun c v => by rw [dotProduct_smul]; simp }
    exact ⟨M, M.hasFDerivAt, fun v => rfl⟩
  have := C112_work_partial hF hφ p ha hm hk hT hdt n hn
  rw [dotProduct_sub]
  refine le_trans (le_of_eq ?_) this
  congr 1
  ring

/-- Along a uniform magnetic field the momentum stays exactly as it was. -/
theorem C112_parallel (b : V3 ℝ) (dt : ℝ) (p : Particle ℝ) (n : Nat) :
    ((pushParticle lorentzForce (staticField ⟨0, 0, 0⟩ b) dt)^[n] p).momentum.toVec ⬝ᵥ b.toVec =
      p.momentum.toVec ⬝ᵥ b.toVec := by
  induction n with
  | zero => rfl
  | succ n ih =>
    rw [Function.iterate_succ_apply', ← ih]
    generalize (pushParticle lorentzForce (staticField ⟨0, 0, 0⟩ b) dt)^[n] p = r
    unfold pushParticle
    split
    · rfl
    · split
      · simp only [Particle.updateTime, Particle.updateTrack]
        split <;> rfl
      · have hforce : ∀ (mass charge : ℝ) (k : V3 ℝ),
            (lorentzForce mass charge k ⟨0, 0, 0⟩ b).toVec ⬝ᵥ b.toVec = 0 := by
          intro mass charge k
          simp only [lorentzForce, V3.smul, V3.add, V3.divs, V3.cross, V3.toVec, dotProduct,
            Fin.sum_univ_three, real_add, real_mul, real_div, real_sub]
          simp
          ring
        have hrk : (rk4 lorentzForce (staticField ⟨0, 0, 0⟩ b) dt r.mass r.charge r.time r.position
            r.momentum).2.toVec ⬝ᵥ b.toVec = r.momentum.toVec ⬝ᵥ b.toVec := by
          simp only [rk4, staticField]
          generalize h1 : lorentzForce r.mass r.charge _ _ b = k1
          generalize h2 : lorentzForce r.mass r.charge _ _ b = k2
          generalize h3 : lorentzForce r.mass r.charge _ _ b = k3
          generalize h4 : lorentzForce r.mass r.charge _ _ b = k4
          have e1 := hforce r.mass r.charge r.momentum
          rw [h1] at e1
          have e2 : k2.toVec ⬝ᵥ b.toVec = 0 := by rw [← h2]; exact hforce _ _ _
          have e3 : k3.toVec ⬝ᵥ b.toVec = 0 := by rw [← h3]; exact hforce _ _ _
          have e4 : k4.toVec ⬝ᵥ b.toVec = 0 := by rw [← h4]; exact hforce _ _ _
          simp only [V3.toVec, dotProduct, Fin.sum_univ_three, V3.add, V3.smul, real_add, real_mul,
            real_div, real_lit, Matrix.cons_val_zero, Matrix.cons_val_one, Matrix.cons_val] at *
          linear_combination (dt / 6) * (e1 + 2 * e2 + 2 * e3 + e4)
        simp only [Particle.updateTime, Particle.updateTrack]
        split <;> exact hrk

/-- Force on momenta perpendicular to a magnetic field along z, for unit mass and charge. -/
theorem force_xy (B x y : ℝ) : lorentzForce 1 1 ⟨x, y, 0⟩ ⟨0, 0, 0⟩ ⟨0, 0, B⟩ =
    ⟨y * B / Real.sqrt (1 + (x * x + y * y)), -(x * B) / Real.sqrt (1 + (x * x + y * y)), 0⟩ := by
  simp only [lorentzForce, V3.smul, V3.add, V3.divs, V3.cross, pushGamma, V3.mag2, V3.dot, real_add,
    real_mul, real_div, real_sub, real_sqrt, real_lit]
  simp

/-- The full property is false: one step in a uniform magnetic field can change the energy. The
particle has mass and charge 1 and momentum 3/4 across a field of 50/9; the step is 1. -/
theorem C112_refuted : ∃ (b : V3 ℝ) (p : Particle ℝ), p.isAlive = true ∧ p.mass = 1 ∧
    p.charge = 1 ∧ p.kind = .positron ∧
    p.energy < (pushParticle lorentzForce (staticField ⟨0, 0, 0⟩ b) 1 p).energy := by
  obtain ⟨p, hp⟩ : ∃ p : Particle ℝ, p = .newLepton 1 1 ⟨0, 0, 0⟩ ⟨3 / 4, 0, 0⟩ 1 0 false 0 := ⟨_, rfl⟩
  have hkind : p.kind = .positron := by
    rw [hp]
    simp [Particle.newLepton, Particle.new, Particle.leptonKind]
    norm_num
  have hmass : p.mass = 1 := by rw [hp]; rfl
  have hcharge : p.charge = 1 := by rw [hp]; rfl
  have halive : p.isAlive = true := by rw [hp]; rfl
  have hmom : p.momentum = ⟨3 / 4, 0, 0⟩ := by rw [hp]; rfl
  refine ⟨⟨0, 0, 50 / 9⟩, p, halive, hmass, hcharge, hkind, ?_⟩
  obtain ⟨r, hr⟩ : ∃ r, r = pushParticle lorentzForce (staticField ⟨0, 0, 0⟩ ⟨0, 0, 50 / 9⟩) 1 p :=
    ⟨_, rfl⟩
  rw [← hr]
  have hrmass : r.mass = 1 := by rw [hr, (push_identity _ _ _ _).2.1, hmass]
  have hrk : r.kind = .positron := by rw [hr, (push_identity _ _ _ _).1, hkind]
  have sq : ∀ a : ℝ, 0 ≤ a → Real.sqrt (a * a) = a := fun a h => Real.sqrt_mul_self h
  have s1 : Real.sqrt (1 + (3 / 4 * (3 / 4) + 0 * 0)) = 5 / 4 := by
    rw [show (1 + (3 / 4 * (3 / 4) + 0 * 0) : ℝ) = 5 / 4 * (5 / 4) by norm_num]
    exact sq _ (by norm_num)
  have s2 : Real.sqrt (1 + (3 / 4 * (3 / 4) + -5 / 3 * (-5 / 3))) = 25 / 12 := by
    rw [show (1 + (3 / 4 * (3 / 4) + -5 / 3 * (-5 / 3)) : ℝ) = 25 / 12 * (25 / 12) by norm_num]
    exact sq _ (by norm_num)
  obtain ⟨g3, hg3⟩ : ∃ g3, g3 = Real.sqrt (1 + (-53 / 36 * (-53 / 36) + -1 * -1)) := ⟨_, rfl⟩
  have g3pos : 0 < g3 := by rw [hg3]; exact Real.sqrt_pos.mpr (by norm_num)
  have g3le : g3 ≤ 37 / 18 := by
    rw [hg3, Real.sqrt_le_left (by norm_num)]; norm_num
  obtain ⟨u, hu⟩ : ∃ u, u = 50 / 9 / g3 := ⟨_, rfl⟩
  have hu27 : 27 / 10 ≤ u := by
    rw [hu, le_div_iff₀ g3pos]; linarith
  obtain ⟨g4, hg4⟩ : ∃ g4, g4 = Real.sqrt
      (1 + ((3 / 4 - u) * (3 / 4 - u) + 53 / 36 * u * (53 / 36 * u))) := ⟨_, rfl⟩
  have g4ge : 43 / 10 ≤ g4 := by
    rw [hg4]
    refine Real.le_sqrt_of_sq_le ?_
    nlinarith
  obtain ⟨w, hw⟩ : ∃ w, w = 50 / 9 / g4 := ⟨_, rfl⟩
  have hw13 : w ≤ 13 / 10 := by
    rw [hw, div_le_iff₀ (by linarith)]; linarith
  have hmomr : r.momentum.x = 3 / 4 + (0 + 2 * (-40 / 9) + 2 * (-u) + 53 / 36 * u * w) / 6 := by
    have f1 : lorentzForce 1 1 ⟨3 / 4, 0, 0⟩ ⟨0, 0, 0⟩ ⟨0, 0, 50 / 9⟩ = (⟨0, -10 / 3, 0⟩ : V3 ℝ) := by
      rw [force_xy, s1]; norm_num
    have f2 : lorentzForce 1 1 ⟨3 / 4, -5 / 3, 0⟩ ⟨0, 0, 0⟩ ⟨0, 0, 50 / 9⟩ =
        (⟨-40 / 9, -2, 0⟩ : V3 ℝ) := by
      rw [force_xy, s2]; norm_num
    have f3 : lorentzForce 1 1 ⟨-53 / 36, -1, 0⟩ ⟨0, 0, 0⟩ ⟨0, 0, 50 / 9⟩ =
        (⟨-u, 53 / 36 * u, 0⟩ : V3 ℝ) := by
      rw [force_xy, ← hg3, hu]
      simp only [V3.mk.injEq, and_true]
      constructor <;> ring
    have f4 : lorentzForce 1 1 ⟨3 / 4 - u, 53 / 36 * u, 0⟩ ⟨0, 0, 0⟩ ⟨0, 0, 50 / 9⟩ =
        (⟨53 / 36 * u * w, -(3 / 4 - u) * w, 0⟩ : V3 ℝ) := by
      rw [force_xy, ← hg4, hw]
      simp only [V3.mk.injEq, and_true]
      constructor <;> ring
    have m2 : (⟨3 / 4, 0, 0⟩ : V3 ℝ).add (((⟨0, -10 / 3, 0⟩ : V3 ℝ).muls 1).divs (lit 2)) =
        ⟨3 / 4, -5 / 3, 0⟩ := by
      simp [V3.add, V3.muls, V3.divs]; norm_num
    have m3 : (⟨3 / 4, 0, 0⟩ : V3 ℝ).add (((⟨-40 / 9, -2, 0⟩ : V3 ℝ).muls 1).divs (lit 2)) =
        ⟨-53 / 36, -1, 0⟩ := by
      simp [V3.add, V3.muls, V3.divs]; norm_num
    have m4 : (⟨3 / 4, 0, 0⟩ : V3 ℝ).add ((⟨-u, 53 / 36 * u, 0⟩ : V3 ℝ).muls 1) =
        ⟨3 / 4 - u, 53 / 36 * u, 0⟩ := by
      simp [V3.add, V3.muls]; ring
    have hmom' : r.momentum = (rk4 lorentzForce (staticField ⟨0, 0, 0⟩ ⟨0, 0, 50 / 9⟩) 1 1 1 p.time
        p.position ⟨3 / 4, 0, 0⟩).2 := by
      rw [hr]
      unfold pushParticle
      rw [if_neg (by rw [halive]; simp), if_neg (by rw [hmass]; simp)]
      simp only [Particle.updateTime, Particle.updateTrack, hmass, hcharge, hmom]
      split <;> rfl
    rw [hmom']
    simp only [rk4, staticField, f1, m2, f2, m3, f3, m4, f4]
    simp only [V3.add, V3.smul, real_add, real_mul, real_div, real_lit]
    norm_num
    ring
  have hx : r.momentum.x < -(3 / 4) := by
    rw [hmomr]
    nlinarith
  rw [energy_eq (by rw [hmass]; norm_num) (by rw [hkind]; decide),
    energy_eq (by rw [hrmass]; norm_num) (by rw [hrk]; decide), hmass, hrmass, hmom]
  refine Real.sqrt_lt_sqrt (by simp [V3.toVec, dotProduct, Fin.sum_univ_three]; norm_num) ?_
  simp only [V3.toVec, dotProduct, Fin.sum_univ_three, Matrix.cons_val_zero, Matrix.cons_val_one,
    Matrix.cons_val]
  nlinarith [mul_self_nonneg r.momentum.y, mul_self_nonneg r.momentum.z]

/-- A positron with momentum in a magnetic field meets the hypotheses of the bounds. -/
example : ∃ (F : ℝ) (p : Particle ℝ), SmoothField (staticField ⟨0, 0, 0⟩ ⟨0, 0, 50 / 9⟩) F 0 ∧
    (∀ t x, (staticField (⟨0, 0, 0⟩ : V3 ℝ) ⟨0, 0, 50 / 9⟩ t x).1 = ⟨0, 0, 0⟩) ∧
    p.isAlive = true ∧ 0 < p.mass ∧ p.charge = 1 ∧ p.kind ≠ .photon ∧ p.momentum.x = 3 / 4 := by
  obtain ⟨F, hF⟩ := C104_static ⟨0, 0, 0⟩ ⟨0, 0, 50 / 9⟩
  refine ⟨F, .newLepton 1 1 ⟨0, 0, 0⟩ ⟨3 / 4, 0, 0⟩ 1 0 false 0, hF, fun _ _ => rfl, rfl,
    by simp [Particle.newLepton, Particle.new], rfl, ?_, rfl⟩
  simp [Particle.newLepton, Particle.new, Particle.leptonKind]
  split <;> simp

end QED
