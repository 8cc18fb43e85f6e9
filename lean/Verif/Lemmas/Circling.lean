import Verif.Lemmas.PlaneWave
import Mathlib.LinearAlgebra.Matrix.DotProduct

set_option autoImplicit false

/-! Helper lemmas for C139: the motion of a radiating charge across a uniform magnetic field. -/

namespace QED

open Matrix Set

namespace Circling

/-- How fast the inverse of the momentum grows. -/
noncomputable def lossRate (m : ℝ) (b : Fin 3 → ℝ) : ℝ := 2 / 3 * (Units.alpha : ℝ) * ((b ⬝ᵥ b) / m ^ 2)

theorem lossRate_nonneg (m : ℝ) (b : Fin 3 → ℝ) : 0 ≤ lossRate m b := by
  have h1 : (0 : ℝ) ≤ Units.alpha := by rw [OrderWitness.alpha_eq]; norm_num
  have h2 := dot_self_nonneg b
  unfold lossRate
  positivity

/-- The part of the momentum that is left after a time, in either direction of time. -/
noncomputable def left (κ P s : ℝ) : ℝ := (1 + κ * P * |s|)⁻¹

theorem left_continuous {κ P : ℝ} (hκ : 0 ≤ κ) (hP : 0 ≤ P) : Continuous (left κ P) := by
  unfold left
  refine Continuous.inv₀ (by fun_prop) fun s => ?_
  have : 0 ≤ κ * P * |s| := by positivity
  linarith

theorem left_pos {κ P : ℝ} (hκ : 0 ≤ κ) (hP : 0 ≤ P) (s : ℝ) : 0 < left κ P s := by
  unfold left
  positivity

theorem left_deriv {κ P : ℝ} (hκ : 0 ≤ κ) (hP : 0 ≤ P) {T s : ℝ} (hs : s ∈ Icc 0 T) :
    HasDerivWithinAt (left κ P) (-(κ * P) * left κ P s ^ 2) (Icc 0 T) s := by
  have hpos : (1 + κ * P * s) ≠ 0 := by
    have := mul_nonneg (mul_nonneg hκ hP) hs.1
    linarith
  have h : HasDerivWithinAt (fun s => (1 + κ * P * s)⁻¹) (-(κ * P) / (1 + κ * P * s) ^ 2) (Icc 0 T) s := by
    have := (((hasDerivAt_id s).const_mul (κ * P)).const_add 1).inv hpos
    exact this.hasDerivWithinAt.congr_deriv (by simp)
  refine (h.congr (fun u hu => ?_) ?_).congr_deriv ?_
  · unfold left; rw [abs_of_nonneg hu.1]
  · unfold left; rw [abs_of_nonneg hs.1]
  · unfold left; rw [abs_of_nonneg hs.1, inv_pow, div_eq_mul_inv]

theorem turn {n p : Fin 3 → ℝ} {B c σ : ℝ} (h1 : n ⬝ᵥ p = 0) (h2 : σ * (n ⬝ᵥ n) = σ) :
    (c • p + σ • (n ⨯₃ p)) ⨯₃ (B • n) = B • (σ • p - c • (n ⨯₃ p)) := by
  simp only [dotProduct, Fin.sum_univ_three] at h1 h2
  ext i
  fin_cases i
  · simp only [cross_apply, Pi.smul_apply, Pi.add_apply, Pi.sub_apply, smul_eq_mul, Matrix.cons_val_zero,
      Matrix.cons_val_one, Matrix.cons_val, Fin.zero_eta]
    linear_combination B * p 0 * h2 - B * σ * n 0 * h1
  · simp only [cross_apply, Pi.smul_apply, Pi.add_apply, Pi.sub_apply, smul_eq_mul, Matrix.cons_val_zero,
      Matrix.cons_val_one, Matrix.cons_val, Fin.mk_one]
    linear_combination B * p 1 * h2 - B * σ * n 1 * h1
  · simp only [cross_apply, Pi.smul_apply, Pi.add_apply, Pi.sub_apply, smul_eq_mul, Matrix.cons_val_zero,
      Matrix.cons_val_one, Matrix.cons_val, Fin.reduceFinMk]
    linear_combination B * p 2 * h2 - B * σ * n 2 * h1

section
variable (m q : ℝ) (b p0 : Fin 3 → ℝ)

/-- The unit vector along the field. -/
noncomputable def along : Fin 3 → ℝ := (Real.sqrt (b ⬝ᵥ b))⁻¹ • b

/-- The length of the momentum at the start. -/
noncomputable def start : ℝ := Real.sqrt (p0 ⬝ᵥ p0)

/-- The energy after a time. -/
noncomputable def energyAfter (s : ℝ) : ℝ :=
  Real.sqrt (m ^ 2 + (start p0 * left (lossRate m b) (start p0) s) ^ 2)

/-- The angle through which the momentum has turned. -/
noncomputable def angle (s : ℝ) : ℝ := -(q * Real.sqrt (b ⬝ᵥ b)) * ∫ u in (0 : ℝ)..s, (energyAfter m b p0 u)⁻¹

/-- The momentum after a time. -/
noncomputable def mom (s : ℝ) : Fin 3 → ℝ := left (lossRate m b) (start p0) s •
  (Real.cos (angle m q b p0 s) • p0 + Real.sin (angle m q b p0 s) • (along b ⨯₃ p0))

/-- The motion that starts at `x0` at the time `t0`. -/
noncomputable def track (x0 : Fin 3 → ℝ) (t0 s : ℝ) : Phase :=
  (x0 + ∫ u in (0 : ℝ)..(s - t0), velocity m (mom m q b p0 u), mom m q b p0 (s - t0))

variable {m} (hm : 0 < m)
include hm

theorem energy_pos (s : ℝ) : 0 < energyAfter m b p0 s := Real.sqrt_pos.mpr (by positivity)

omit hm in
theorem energy_continuous : Continuous (energyAfter m b p0) := by
  have := left_continuous (lossRate_nonneg m b) (Real.sqrt_nonneg (p0 ⬝ᵥ p0))
  unfold energyAfter start
  fun_prop

theorem angle_deriv (s : ℝ) :
    HasDerivAt (angle m q b p0) (-(q * Real.sqrt (b ⬝ᵥ b)) * (energyAfter m b p0 s)⁻¹) s := by
  have hc : Continuous fun u => (energyAfter m b p0 u)⁻¹ :=
    (energy_continuous b p0).inv₀ fun u => (energy_pos b p0 hm u).ne'
  exact ((hc.integral_hasStrictDerivAt 0 s).hasDerivAt).const_mul _

theorem mom_continuous : Continuous (mom m q b p0) := by
  have h1 := left_continuous (lossRate_nonneg m b) (Real.sqrt_nonneg (p0 ⬝ᵥ p0))
  have h2 : Continuous (angle m q b p0) :=
    continuous_iff_continuousAt.2 fun s => (angle_deriv q b p0 hm s).continuousAt
  unfold mom start
  fun_prop

theorem velocity_continuous : Continuous fun s => velocity m (mom m q b p0 s) := by
  exact ((velocity_contDiff hm).continuous.comp
    (show Continuous fun s => ((0 : ℝ), ((0 : Fin 3 → ℝ), mom m q b p0 s)) by
      have := mom_continuous q b p0 hm
      fun_prop))

omit hm in
theorem sin_along (s : ℝ) :
    Real.sin (angle m q b p0 s) * (along b ⬝ᵥ along b) = Real.sin (angle m q b p0 s) := by
  by_cases hb : b ⬝ᵥ b = 0
  · unfold angle
    simp [hb]
  · have h0 : 0 < b ⬝ᵥ b := lt_of_le_of_ne (dot_self_nonneg b) (Ne.symm hb)
    have : along b ⬝ᵥ along b = 1 := by
      unfold along
      rw [smul_dotProduct, dotProduct_smul, smul_eq_mul, smul_eq_mul, ← mul_assoc, ← mul_inv,
        Real.mul_self_sqrt h0.le, inv_mul_cancel₀ hb]
    rw [this, mul_one]

omit hm in
theorem along_eq : b = Real.sqrt (b ⬝ᵥ b) • along b := by
  by_cases hb : b ⬝ᵥ b = 0
  · have : b = 0 := dotProduct_self_eq_zero.mp hb
    rw [this]; simp [along]
  · have h0 : 0 < b ⬝ᵥ b := lt_of_le_of_ne (dot_self_nonneg b) (Ne.symm hb)
    unfold along
    rw [smul_smul, mul_inv_cancel₀ (Real.sqrt_pos.mpr h0).ne', one_smul]

variable (hperp : p0 ⬝ᵥ b = 0)
include hperp

omit hm in
theorem along_perp : along b ⬝ᵥ p0 = 0 := by
  unfold along
  rw [smul_dotProduct, dotProduct_comm b p0, hperp, smul_zero]

omit hm in
/-- The length of the momentum. -/
theorem mom_len (s : ℝ) :
    mom m q b p0 s ⬝ᵥ mom m q b p0 s = (start p0 * left (lossRate m b) (start p0) s) ^ 2 := by
  have h1 := along_perp b p0 hperp
  have h2 := sin_along q b p0 (m := m) s
  have h3 : start p0 ^ 2 = p0 ⬝ᵥ p0 := Real.sq_sqrt (dot_self_nonneg p0)
  have h4 := Real.sin_sq_add_cos_sq (angle m q b p0 s)
  rw [mul_pow, h3]
  unfold mom
  generalize along b = n at *
  generalize angle m q b p0 s = θ at *
  generalize left (lossRate m b) (start p0) s = ρ
  simp only [cross_apply, dotProduct, Fin.sum_univ_three, Pi.smul_apply, Pi.add_apply, smul_eq_mul,
    Matrix.cons_val_zero, Matrix.cons_val_one, Matrix.cons_val] at *
  linear_combination ρ ^ 2 * (p0 0 * p0 0 + p0 1 * p0 1 + p0 2 * p0 2) * h4 +
    ρ ^ 2 * Real.sin θ * (p0 0 * p0 0 + p0 1 * p0 1 + p0 2 * p0 2) * h2 -
    ρ ^ 2 * Real.sin θ ^ 2 * (n 0 * p0 0 + n 1 * p0 1 + n 2 * p0 2) * h1

omit hm in
theorem mom_perp (s : ℝ) : mom m q b p0 s ⬝ᵥ b = 0 := by
  have h1 := along_perp b p0 hperp
  have h2 : b ⬝ᵥ (along b ⨯₃ p0) = 0 := by
    unfold along
    rw [LinearMap.map_smul₂, dotProduct_smul, dot_self_cross, smul_zero]
  unfold mom
  rw [smul_dotProduct, add_dotProduct, smul_dotProduct, smul_dotProduct, hperp, dotProduct_comm _ b, h2]
  simp

/-- The force on the momentum. -/
theorem force_eq (hp : p0 ≠ 0) (s t : ℝ) (x : Fin 3 → ℝ) :
    reactionForce (fun _ => 1) m q (staticField ⟨0, 0, 0⟩ (V3.ofVec b)) t x (mom m q b p0 s) =
      (q / energyAfter m b p0 s) • (mom m q b p0 s ⨯₃ b) -
        (lossRate m b * (start p0 * left (lossRate m b) (start p0) s)) • mom m q b p0 s := by
  have hE : electric (staticField ⟨0, 0, 0⟩ (V3.ofVec b)) t x = 0 := by
    ext i; fin_cases i <;> rfl
  have hB : magnetic (staticField ⟨0, 0, 0⟩ (V3.ofVec b)) t x = b := by
    ext i; fin_cases i <;> rfl
  have hperp' := mom_perp q b p0 (m := m) hperp s
  have hl := mom_len q b p0 (m := m) hperp s
  have hP : 0 < start p0 := by
    refine Real.sqrt_pos.mpr (lt_of_le_of_ne (dot_self_nonneg p0) fun h => hp ?_)
    exact dotProduct_self_eq_zero.mp h.symm
  have hρ := left_pos (lossRate_nonneg m b) hP.le s
  have heta : etaAt m (staticField ⟨0, 0, 0⟩ (V3.ofVec b)) t x (mom m q b p0 s) ^ 2 =
      (mom m q b p0 s ⬝ᵥ mom m q b p0 s) * (b ⬝ᵥ b) / m ^ 2 := by
    rw [etaAt_eq, Real.sq_sqrt (etaSq_nonneg hm _ _ _ _), etaSq, hE, hB]
    generalize mom m q b p0 s = k at *
    simp only [dotProduct, Fin.sum_univ_three, Pi.zero_apply, mul_zero, zero_add, add_zero] at *
    field_simp
    linear_combination -(k 0 * b 0 + k 1 * b 1 + k 2 * b 2) * hperp'
  unfold reactionForce
  rw [heta, lorentz, hE, hB, hl, Real.sqrt_sq (by positivity), velocity, hl]
  congr 1
  · rw [zero_add, LinearMap.map_smul₂, smul_smul, div_eq_mul_inv]
    rfl
  · congr 1
    unfold lossRate
    field_simp

/-- The derivative of the momentum is the force. -/
theorem mom_deriv (hp : p0 ≠ 0) {T s : ℝ} (hs : s ∈ Icc 0 T) (t : ℝ) (x : Fin 3 → ℝ) :
    HasDerivWithinAt (mom m q b p0)
      (reactionForce (fun _ => 1) m q (staticField ⟨0, 0, 0⟩ (V3.ofVec b)) t x (mom m q b p0 s)) (Icc 0 T) s := by
  have h1 := left_deriv (lossRate_nonneg m b) (Real.sqrt_nonneg (p0 ⬝ᵥ p0)) hs
  have h2 := (angle_deriv q b p0 hm s).hasDerivWithinAt (s := Icc 0 T)
  have h3 := h1.smul ((h2.cos.smul_const p0).add (h2.sin.smul_const (along b ⨯₃ p0)))
  refine h3.congr_deriv ?_
  rw [force_eq q b p0 hm hperp hp]
  have e1 := along_perp b p0 hperp
  have e2 := sin_along q b p0 (m := m) s
  have e3 := along_eq b
  have e4 : (Real.cos (angle m q b p0 s) • p0 + Real.sin (angle m q b p0 s) • (along b ⨯₃ p0)) ⨯₃ b =
      Real.sqrt (b ⬝ᵥ b) • (Real.sin (angle m q b p0 s) • p0 - Real.cos (angle m q b p0 s) • (along b ⨯₃ p0)) := by
    exact (congrArg _ e3).trans (turn e1 e2)
  rw [show mom m q b p0 s ⨯₃ b = left (lossRate m b) (start p0) s • ((Real.cos (angle m q b p0 s) • p0 +
    Real.sin (angle m q b p0 s) • (along b ⨯₃ p0)) ⨯₃ b) by unfold mom; rw [LinearMap.map_smul₂], e4]
  unfold mom
  change _ • _ + _ = _
  rw [show Real.sqrt (p0 ⬝ᵥ p0) = start p0 from rfl]
  generalize along b ⨯₃ p0 = w
  ext i
  simp only [Pi.smul_apply, Pi.add_apply, Pi.sub_apply, smul_eq_mul]
  ring

/-- The motion solves the equations with radiation reaction. -/
theorem track_solves (hp : p0 ≠ 0) (x0 : Fin 3 → ℝ) (t0 T : ℝ) : ∀ s ∈ Icc t0 (t0 + T),
    HasDerivWithinAt (track m q b p0 x0 t0)
      (motion m (reactionForce (fun _ => 1) m q (staticField ⟨0, 0, 0⟩ (V3.ofVec b))) s (track m q b p0 x0 t0 s))
      (Icc t0 (t0 + T)) s := by
  intro s hs
  have hshift : HasDerivWithinAt (fun s => s - t0) 1 (Icc t0 (t0 + T)) s :=
    (hasDerivWithinAt_id s _).sub_const t0
  have hs' : s - t0 ∈ Icc 0 T := ⟨by linarith [hs.1], by linarith [hs.2]⟩
  have hmaps : MapsTo (fun s => s - t0) (Icc t0 (t0 + T)) (Icc 0 T) :=
    fun u hu => ⟨by linarith [hu.1], by linarith [hu.2]⟩
  refine HasDerivWithinAt.prodMk ?_ ?_
  · have h := ((velocity_continuous q b p0 hm).integral_hasStrictDerivAt 0 (s - t0)).hasDerivAt
    have := (h.scomp_hasDerivWithinAt s hshift).const_add x0
    rw [one_smul] at this
    exact this
  · have := (mom_deriv q b p0 hm hperp hp hs' s (track m q b p0 x0 t0 s).1).scomp s hshift hmaps
    rw [one_smul] at this
    exact this

omit hm hperp in
theorem track_start (x0 : Fin 3 → ℝ) (t0 : ℝ) : track m q b p0 x0 t0 t0 = (x0, p0) := by
  unfold track mom left angle
  simp

end

end Circling

end QED
