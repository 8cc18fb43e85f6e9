import Verif.Lemmas.PlaneWave

set_option autoImplicit false

/-!
# C112 to fourth order: fields change the energy of a particle by the work they do
-/

namespace QED

open Dbl Matrix Set

/-- In fields with a potential and four continuous derivatives, the energy gained up to any time differs from the work
done by the electric field by at most a constant times the fourth power of the time step. -/
theorem C112_fourth_partial {field : Field ℝ} {F K : ℝ} (hf : SmoothField field F K) (h4 : FieldC4 field univ)
    {φ : (Fin 3 → ℝ) → ℝ} (hφ : HasPotential field φ) (p : Particle ℝ) (ha : p.isAlive = true) (hm : 0 < p.mass)
    (hk : p.kind ≠ .photon) {T : ℝ} (hT : 0 ≤ T) :
    ∃ C δ, 0 < δ ∧ ∀ dt, 0 ≤ dt → dt ≤ δ → ∀ n : Nat, n * dt ≤ T →
      let r := (pushParticle lorentzForce field dt)^[n] p
      |r.energy - p.energy - p.charge * (φ p.position.toVec - φ r.position.toVec)| ≤ C * dt ^ 4 := by
  have hF := (smooth_nonneg hf).1
  obtain ⟨y, hy0, hy⟩ := motion_solution hf hm p.charge p.time (p.position.toVec, p.momentum.toVec) hT
  have hfo := C121_lorentz isOpen_univ h4 p ha hm hy0 hy (fun _ _ => mem_univ _)
  obtain ⟨C, δ, hδ, h⟩ := conserved_fourth hfo hy0
    (fun _ z => Real.sqrt (p.mass ^ 2 + z.2 ⬝ᵥ z.2) + p.charge * φ z.1) (K := 3 + |p.charge| * (3 * F))
    (by positivity) (by
      intro s a b
      have l1 := sqrt_energy_lip hm a.2 b.2
      have l2 := potential_lip hf hφ a.1 b.1
      have l3 : ‖a.2 - b.2‖ ≤ ‖a - b‖ := norm_snd_le (a - b)
      have l4 : ‖a.1 - b.1‖ ≤ ‖a - b‖ := norm_fst_le (a - b)
      rw [show ∀ P Q R S q : ℝ, P + q * Q - (R + q * S) = (P - R) + q * (Q - S) by intros; ring]
      refine (abs_add_le _ _).trans ?_
      rw [abs_mul, add_mul, mul_assoc |p.charge|]
      refine add_le_add (l1.trans (mul_le_mul_of_nonneg_left l3 (by norm_num)))
        (mul_le_mul_of_nonneg_left (l2.trans (mul_le_mul_of_nonneg_left l4 (by positivity))) (abs_nonneg _)))
    (energy_constant hφ hm p.charge hy)
  refine ⟨C, δ, hδ, fun dt d0 d1 n hn => ?_⟩
  intro r
  have b := h dt d0 d1 n hn
  obtain ⟨-, -, -, h5, -⟩ := C103_pushes lorentzForce field dt p ha hm n
  have er : r.energy = Real.sqrt (p.mass ^ 2 + r.momentum.toVec ⬝ᵥ r.momentum.toVec) := by
    rw [energy_eq (by rw [h5]; exact hm) (by rw [iterate_kind]; exact hk), h5]
  rw [er, energy_eq hm hk]
  refine le_trans (le_of_eq ?_) b
  congr 1
  ring

/-- A positron in static fields meets the hypotheses. -/
example (e b : V3 ℝ) : ∃ (F : ℝ) (φ : (Fin 3 → ℝ) → ℝ) (p : Particle ℝ), SmoothField (staticField e b) F 0 ∧
    FieldC4 (staticField e b) univ ∧ HasPotential (staticField e b) φ ∧ p.isAlive = true ∧ 0 < p.mass ∧
    p.charge = 1 ∧ p.kind ≠ .photon := by
  obtain ⟨F, hF⟩ := C104_static e b
  refine ⟨F, fun x => -(e.toVec ⬝ᵥ x), .newLepton 1 1 ⟨0, 0, 0⟩ ⟨3 / 4, 0, 0⟩ 1 0 false 0, hF, C121_static e b, ?_, rfl,
    one_pos, rfl, ?_⟩
  · intro t x
    let M : (Fin 3 → ℝ) →L[ℝ] ℝ := LinearMap.toContinuousLinearMap
      { toFun := fun v => -(e.toVec ⬝ᵥ v)
        map_add' := fun v w => by rw [dotProduct_add]; ring
        map_smul' := fun c v => by rw [dotProduct_smul]; simp }
    exact ⟨M, M.hasFDerivAt, fun v => rfl⟩
  · simp [Particle.newLepton, Particle.new, Particle.leptonKind]
    norm_num
    decide

end QED
