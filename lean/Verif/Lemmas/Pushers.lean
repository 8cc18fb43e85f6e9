import Verif.Model.Pushers
import Verif.Lemmas.Processes
import Mathlib.Analysis.InnerProductSpace.PiL2

set_option autoImplicit false

/-! # Helper lemmas for the pushers, over the reals -/

namespace QED

theorem len_eq_norm (v : Fin 3 → ℝ) : len v = ‖(WithLp.toLp 2 v : EuclideanSpace ℝ (Fin 3))‖ := by
  rw [EuclideanSpace.norm_eq, len]
  simp [Fin.sum_univ_three]

theorem len_add_le (u v : Fin 3 → ℝ) : len (u + v) ≤ len u + len v := by
  simp only [len_eq_norm, WithLp.toLp_add]
  exact norm_add_le _ _

theorem len_smul (c : ℝ) (v : Fin 3 → ℝ) : len (c • v) = |c| * len v := by
  simp only [len_eq_norm, WithLp.toLp_smul]
  rw [norm_smul, Real.norm_eq_abs]

theorem len_nonneg (v : Fin 3 → ℝ) : 0 ≤ len v := Real.sqrt_nonneg _

theorem pushGamma_sq (m : ℝ) (p : V3 ℝ) : pushGamma m p ^ 2 = 1 + p.dot p / (m * m) := by
  have : 0 ≤ 1 + p.dot p / (m * m) := by
    have := div_nonneg p.dot_self_nonneg (mul_self_nonneg m)
    linarith
  simp only [pushGamma, V3.mag2, real_sqrt, real_add, real_div, real_mul, real_lit, Rat.cast_one]
  rw [Real.sq_sqrt this]

theorem pushGamma_pos (m : ℝ) (p : V3 ℝ) : 0 < pushGamma m p := by
  have : 0 < 1 + p.dot p / (m * m) := by
    have := div_nonneg p.dot_self_nonneg (mul_self_nonneg m)
    linarith
  simp only [pushGamma, V3.mag2, real_sqrt, real_add, real_div, real_mul, real_lit, Rat.cast_one]
  exact Real.sqrt_pos.mpr this

/-- The velocity used by the pushers is below one. -/
theorem len_pushPosition (m : ℝ) (hm : 0 < m) (p : V3 ℝ) : len (pushPosition m p).toVec < 1 := by
  have hg := pushGamma_pos m p
  have hmg : 0 < m * pushGamma m p := mul_pos hm hg
  rw [pushPosition, toVec_divs, len_smul, real_mul, abs_of_pos (inv_pos.mpr hmg), ← mag_eq,
    inv_mul_lt_iff₀ hmg, mul_one]
  apply lt_of_pow_lt_pow_left₀ 2 hmg.le
  rw [V3.mag_sq, mul_pow, pushGamma_sq]
  have : m ^ 2 * (1 + p.dot p / (m * m)) = m ^ 2 + p.dot p := by
    field_simp
  rw [this]
  have : 0 < m ^ 2 := by positivity
  linarith

/-- One Runge-Kutta step with any force moves a massive particle by less than `dt`. -/
theorem rk4_displacement (push : PushMom ℝ) (field : Field ℝ) (dt m q t : ℝ) (hm : 0 < m)
    (hdt : 0 < dt) (pos mom : V3 ℝ) :
    len ((rk4 push field dt m q t pos mom).1.toVec - pos.toVec) < dt := by
  unfold rk4
  dsimp only
  generalize h1 : pushPosition m mom = k1
  generalize h2 : pushPosition m _ = k2
  generalize h3 : pushPosition m _ = k3
  generalize h4 : pushPosition m _ = k4
  have l1 : len k1.toVec < 1 := by rw [← h1]; exact len_pushPosition m hm _
  have l2 : len k2.toVec < 1 := by rw [← h2]; exact len_pushPosition m hm _
  have l3 : len k3.toVec < 1 := by rw [← h3]; exact len_pushPosition m hm _
  have l4 : len k4.toVec < 1 := by rw [← h4]; exact len_pushPosition m hm _
  rw [toVec_add, add_sub_cancel_left, toVec_smul, toVec_add, toVec_add, toVec_add, toVec_smul,
    toVec_smul, len_smul]
  simp only [real_div, real_lit]
  push_cast
  rw [abs_of_pos (by positivity : 0 < dt / 6)]
  have a1 := len_add_le (k1.toVec + (2 : ℝ) • k2.toVec + (2 : ℝ) • k3.toVec) k4.toVec
  have a2 := len_add_le (k1.toVec + (2 : ℝ) • k2.toVec) ((2 : ℝ) • k3.toVec)
  have a3 := len_add_le k1.toVec ((2 : ℝ) • k2.toVec)
  rw [len_smul, abs_of_pos (by norm_num : (0 : ℝ) < 2)] at a2 a3
  have : len (k1.toVec + (2 : ℝ) • k2.toVec + (2 : ℝ) • k3.toVec + k4.toVec) < 6 := by linarith
  nlinarith

/-- Momentum after a step with a force that is the same at all four stages. -/
theorem rk4_const_force (push : PushMom ℝ) (field : Field ℝ) (dt m q t : ℝ) (F : V3 ℝ)
    (h : ∀ (p : V3 ℝ) (t : ℝ) (x : V3 ℝ), push m q p (field t x).1 (field t x).2 = F)
    (pos mom : V3 ℝ) :
    (rk4 push field dt m q t pos mom).2 = mom.add (F.smul dt) := by
  unfold rk4
  dsimp only
  simp only [h]
  ext <;> simp [V3.add, V3.smul] <;> ring

/-- Position after a step without force. -/
theorem rk4_no_force (push : PushMom ℝ) (field : Field ℝ) (dt m q t : ℝ)
    (h : ∀ (p : V3 ℝ) (t : ℝ) (x : V3 ℝ), push m q p (field t x).1 (field t x).2 = ⟨0, 0, 0⟩)
    (pos mom : V3 ℝ) :
    (rk4 push field dt m q t pos mom).1 = pos.add ((pushPosition m mom).smul dt) := by
  unfold rk4
  dsimp only
  simp only [h]
  have h0 : ∀ c : ℝ, mom.add ((V3.muls (⟨0, 0, 0⟩ : V3 ℝ) c)) = mom := by
    intro c; ext <;> simp [V3.add, V3.muls]
  have h1 : ∀ c e : ℝ, mom.add (((V3.muls (⟨0, 0, 0⟩ : V3 ℝ) c)).divs e) = mom := by
    intro c e; ext <;> simp [V3.add, V3.muls, V3.divs]
  simp only [h0, h1]
  ext <;> simp [V3.add, V3.smul] <;> ring

theorem lorentz_no_B (m q : ℝ) (p e : V3 ℝ) :
    lorentzForce m q p e ⟨0, 0, 0⟩ = e.smul q := by
  ext <;> simp [lorentzForce, V3.cross, V3.divs, V3.add, V3.smul]

end QED
