import Verif.Spec.Geometry
import Mathlib.Tactic.LinearCombination
import Mathlib.Tactic.FieldSimp
import Mathlib.Tactic.Positivity

set_option autoImplicit false

/-! # Helper lemmas for vectors and matrices -/

namespace QED

theorem toVec_injective : Function.Injective V3.toVec := by
  intro a b h
  have h0 := congrFun h 0
  have h1 := congrFun h 1
  have h2 := congrFun h 2
  simp [V3.toVec] at h0 h1 h2
  exact V3.ext h0 h1 h2

theorem toMat_injective : Function.Injective M3.toMat := by
  intro a b h
  have e := fun i j => congrFun (congrFun h i) j
  have e00 := e 0 0
  have e01 := e 0 1
  have e02 := e 0 2
  have e10 := e 1 0
  have e11 := e 1 1
  have e12 := e 1 2
  have e20 := e 2 0
  have e21 := e 2 1
  have e22 := e 2 2
  simp [M3.toMat] at e00 e01 e02 e10 e11 e12 e20 e21 e22
  exact M3.ext e00 e01 e02 e10 e11 e12 e20 e21 e22

section ops
variable (a b : V3 ℝ) (s : ℝ)

@[simp] theorem V3.zero_real : (V3.zero : V3 ℝ) = ⟨0, 0, 0⟩ := by simp [V3.zero]
@[simp] theorem V3.ez_real : (V3.ez : V3 ℝ) = ⟨0, 0, 1⟩ := by simp [V3.ez]

theorem toVec_add : (a.add b).toVec = a.toVec + b.toVec := by
  ext i; fin_cases i <;> simp [V3.toVec, V3.add]
theorem toVec_sub : (a.sub b).toVec = a.toVec - b.toVec := by
  ext i; fin_cases i <;> simp [V3.toVec, V3.sub]
theorem toVec_smul : (a.smul s).toVec = s • a.toVec := by
  ext i; fin_cases i <;> simp [V3.toVec, V3.smul]
theorem toVec_muls : (a.muls s).toVec = s • a.toVec := by
  ext i; fin_cases i <;> simp [V3.toVec, V3.muls, mul_comm]
theorem toVec_divs : (a.divs s).toVec = s⁻¹ • a.toVec := by
  ext i; fin_cases i <;> simp [V3.toVec, V3.divs, div_eq_inv_mul]
theorem toVec_cross : (a.cross b).toVec = crossProduct a.toVec b.toVec := by
  ext i; fin_cases i <;> simp [V3.toVec, V3.cross, cross_apply]
theorem dot_eq : a.dot b = a.toVec ⬝ᵥ b.toVec := by
  simp [V3.toVec, V3.dot, dotProduct, Fin.sum_univ_three]
theorem mag_eq : a.mag = len a.toVec := by
  simp [V3.mag, V3.dot, len, V3.toVec, pow_two]
theorem mag2_eq : a.mag2 = len a.toVec ^ 2 := by
  rw [len, Real.sq_sqrt (by positivity)]
  simp [V3.mag2, V3.dot, V3.toVec, pow_two]
end ops

theorem V3.dot_self_nonneg (a : V3 ℝ) : 0 ≤ a.dot a := by
  simp only [V3.dot, real_add, real_mul]; nlinarith [sq_nonneg a.x, sq_nonneg a.y, sq_nonneg a.z]

theorem V3.dot_self_pos {a : V3 ℝ} (h : a ≠ ⟨0, 0, 0⟩) : 0 < a.dot a := by
  rcases (a.dot_self_nonneg).lt_or_eq with h' | h'
  · exact h'
  · exfalso; apply h
    simp only [V3.dot, real_add, real_mul] at h'
    have hx : a.x = 0 := by nlinarith [sq_nonneg a.x, sq_nonneg a.y, sq_nonneg a.z]
    have hy : a.y = 0 := by nlinarith [sq_nonneg a.x, sq_nonneg a.y, sq_nonneg a.z]
    have hz : a.z = 0 := by nlinarith [sq_nonneg a.x, sq_nonneg a.y, sq_nonneg a.z]
    exact V3.ext hx hy hz

theorem V3.mag_pos {a : V3 ℝ} (h : a ≠ ⟨0, 0, 0⟩) : 0 < a.mag := by
  simpa [V3.mag] using V3.dot_self_pos h

theorem V3.mag_sq (a : V3 ℝ) : a.mag ^ 2 = a.dot a := by
  simp [V3.mag, Real.sq_sqrt a.dot_self_nonneg]

theorem V3.norm_real (a : V3 ℝ) : a.norm = ⟨a.x / a.mag, a.y / a.mag, a.z / a.mag⟩ := by
  simp [V3.norm, V3.divs]

theorem V3.norm_dot_self {a : V3 ℝ} (h : a ≠ ⟨0, 0, 0⟩) : a.norm.dot a.norm = 1 := by
  have hm := V3.mag_pos h
  have hs := a.mag_sq
  simp only [V3.norm_real, V3.dot, real_add, real_mul] at hs ⊢
  field_simp
  linarith

theorem V3.norm_smul_mag {a : V3 ℝ} (h : a ≠ ⟨0, 0, 0⟩) : a.norm.smul a.mag = a := by
  have hm := (V3.mag_pos h).ne'
  simp only [V3.norm_real, V3.smul, real_mul]
  ext <;> simp only <;> field_simp

theorem toMat_mul (a b : M3 ℝ) : (a.mul b).toMat = a.toMat * b.toMat := by
  ext i j; fin_cases i <;> fin_cases j <;>
    simp [M3.toMat, M3.mul, M3.acc3, Matrix.mul_apply, Fin.sum_univ_three]

theorem toMat_add (a b : M3 ℝ) : (a.add b).toMat = a.toMat + b.toMat := by
  ext i j; fin_cases i <;> fin_cases j <;> simp [M3.toMat, M3.add]

theorem toMat_muls (a : M3 ℝ) (s : ℝ) : (a.muls s).toMat = s • a.toMat := by
  ext i j; fin_cases i <;> fin_cases j <;> simp [M3.toMat, M3.muls, mul_comm]

theorem det_eq (a : M3 ℝ) : a.det = a.toMat.det := by
  simp [M3.det, M3.toMat, Matrix.det_fin_three]; ring

theorem toVec_mulVec (a : M3 ℝ) (v : V3 ℝ) :
    (a.mulVec v).toVec = a.toMat.mulVec v.toVec := by
  ext i; fin_cases i <;>
    simp [V3.toVec, M3.mulVec, M3.acc3, M3.toMat, Matrix.mulVec, dotProduct, Fin.sum_univ_three]

theorem toMat_inverse_mul (a : M3 ℝ) (h : a.det ≠ 0) : a.inverse.toMat * a.toMat = 1 := by
  obtain ⟨d, hd⟩ : ∃ d : ℝ, d = 1 / a.det := ⟨_, rfl⟩
  have hd1 : d * a.det = 1 := by rw [hd]; field_simp
  simp only [M3.det, real_add, real_sub, real_mul] at hd1
  ext i j
  fin_cases i <;> fin_cases j <;>
    simp [M3.toMat, M3.inverse, M3.muls, ← hd, Matrix.mul_apply, Fin.sum_univ_three, -one_div]
  any_goals ring1
  all_goals linear_combination hd1

/-- A matrix `I + K + K²/(1+t)` with `K` the skew matrix of `c` and
`|c|² = 1 - t²`. -/
noncomputable def rodrigues (c : V3 ℝ) (t : ℝ) : M3 ℝ :=
  (((M3.zeros : M3 ℝ).ideneity).add (skewMat c)).add
    (((skewMat c).mul (skewMat c)).muls (1 / (1 + t)))

theorem rodrigues_isRotation (c : V3 ℝ) (t : ℝ) (h : c.dot c = 1 - t ^ 2) (ht : 1 + t ≠ 0) :
    IsRotation (rodrigues c t).toMat := by
  obtain ⟨s, hs⟩ : ∃ s, s = 1 / (1 + t) := ⟨_, rfl⟩
  have hs1 : s * (1 + t) = 1 := by rw [hs]; field_simp
  simp only [V3.dot, real_add, real_mul] at h
  have key : ∀ k : ℝ, k * (2 * s - 1 - s ^ 2 * (c.x * c.x + c.y * c.y + c.z * c.z)) = 0 := by
    intro k
    linear_combination (-s ^ 2 * k) * h + k * (1 - s * (1 - t)) * hs1
  constructor
  · ext i j
    fin_cases i <;> fin_cases j <;>
      simp [rodrigues, ← hs, M3.toMat, M3.add, M3.mul, M3.muls, M3.acc3, skewMat, M3.ideneity,
        M3.zeros, Matrix.mul_apply, Fin.sum_univ_three, -one_div]
    · linear_combination key (-(c.z * c.z) - c.y * c.y)
    · linear_combination key (c.x * c.y)
    · linear_combination key (c.x * c.z)
    · linear_combination key (c.x * c.y)
    · linear_combination key (-(c.z * c.z) - c.x * c.x)
    · linear_combination key (c.y * c.z)
    · linear_combination key (c.x * c.z)
    · linear_combination key (c.y * c.z)
    · linear_combination key (-(c.y * c.y) - c.x * c.x)
  · rw [← det_eq]
    simp [rodrigues, ← hs, M3.det, M3.add, M3.mul, M3.muls, M3.acc3, skewMat, M3.ideneity,
        M3.zeros, -one_div]
    linear_combination key (-(c.x * c.x + c.y * c.y + c.z * c.z))

/-- `I + K + K²/(1+n₁·n₂)` with `K` the skew matrix of `n₁ × n₂` takes `n₁` to `n₂`. -/
theorem rodrigues_mulVec (n1 n2 : V3 ℝ) (h1 : n1.dot n1 = 1) (h2 : n2.dot n2 = 1)
    (ht : 1 + n1.dot n2 ≠ 0) :
    (rodrigues (n1.cross n2) (n1.dot n2)).mulVec n1 = n2 := by
  obtain ⟨s, hs⟩ : ∃ s, s = 1 / (1 + n1.dot n2) := ⟨_, rfl⟩
  have hs1 : s * (1 + n1.dot n2) = 1 := by rw [hs]; field_simp
  simp only [V3.dot, real_add, real_mul] at h1 h2 hs1
  ext <;>
  simp [rodrigues, ← hs, M3.mulVec, M3.add, M3.mul, M3.muls, M3.acc3, skewMat, M3.ideneity,
        M3.zeros, V3.cross, -one_div]
  · linear_combination n2.x * h1
      - s * n1.x * (n2.x * n2.x + n2.y * n2.y + n2.z * n2.z) * h1 - s * n1.x * h2
      + (n1.x * n2.x + n1.y * n2.y + n1.z * n2.z - 1) * n1.x * hs1
  · linear_combination n2.y * h1
      - s * n1.y * (n2.x * n2.x + n2.y * n2.y + n2.z * n2.z) * h1 - s * n1.y * h2
      + (n1.x * n2.x + n1.y * n2.y + n1.z * n2.z - 1) * n1.y * hs1
  · linear_combination n2.z * h1
      - s * n1.z * (n2.x * n2.x + n2.y * n2.y + n2.z * n2.z) * h1 - s * n1.z * h2
      + (n1.x * n2.x + n1.y * n2.y + n1.z * n2.z - 1) * n1.z * hs1

theorem rotateToAxis_eq_rodrigues {v axis : V3 ℝ}
    (h : ¬ (v.norm.add axis.norm).mag2 ≤ 1e-10) :
    v.rotateToAxis axis = rodrigues (v.norm.cross axis.norm) (v.norm.dot axis.norm) := by
  simp [V3.rotateToAxis, rodrigues]
  intro hh
  exact absurd hh h

theorem rotateToAxis_eq_diag {v axis : V3 ℝ} (h : (v.norm.add axis.norm).mag2 ≤ 1e-10) :
    v.rotateToAxis axis = ⟨-1, 0, 0, 0, 1, 0, 0, 0, -1⟩ := by
  simp [V3.rotateToAxis, M3.zeros]
  intro hh
  exact absurd h (not_le.mpr hh)

theorem diag_isRotation :
    IsRotation (M3.toMat ⟨-1, 0, 0, 0, 1, 0, 0, 0, -1⟩) := by
  constructor
  · ext i j
    fin_cases i <;> fin_cases j <;> simp [M3.toMat, Matrix.mul_apply, Fin.sum_univ_three]
  · simp [M3.toMat, Matrix.det_fin_three]

/-- Lagrange's identity for the model's products. -/
theorem V3.lagrange (a b : V3 ℝ) :
    (a.cross b).dot (a.cross b) = a.dot a * b.dot b - a.dot b ^ 2 := by
  simp only [V3.cross, V3.dot, real_add, real_mul, real_sub]; ring

theorem one_add_dot_pos {n1 n2 : V3 ℝ} (h1 : n1.dot n1 = 1) (h2 : n2.dot n2 = 1)
    (h : ¬ (n1.add n2).mag2 ≤ 1e-10) : 0 < 1 + n1.dot n2 := by
  have e : (n1.add n2).mag2 = n1.dot n1 + n2.dot n2 + 2 * n1.dot n2 := by
    simp only [V3.add, V3.mag2, V3.dot, real_add, real_mul]; ring
  rw [e, h1, h2] at h
  norm_num at h ⊢
  linarith

/-- Whatever the axis and vector (non-zero), `RotateToAxis` returns a rotation. -/
theorem rotateToAxis_isRotation {v axis : V3 ℝ} (hv : v ≠ ⟨0, 0, 0⟩) (ha : axis ≠ ⟨0, 0, 0⟩) :
    IsRotation (v.rotateToAxis axis).toMat := by
  by_cases h : (v.norm.add axis.norm).mag2 ≤ 1e-10
  · rw [rotateToAxis_eq_diag h]; exact diag_isRotation
  · rw [rotateToAxis_eq_rodrigues h]
    have h1 := V3.norm_dot_self hv
    have h2 := V3.norm_dot_self ha
    apply rodrigues_isRotation
    · rw [V3.lagrange, h1, h2]; ring
    · exact (one_add_dot_pos h1 h2 h).ne'

theorem rotateToAxis_mulVec {v axis : V3 ℝ} (hv : v ≠ ⟨0, 0, 0⟩) (ha : axis ≠ ⟨0, 0, 0⟩)
    (h : ¬ (v.norm.add axis.norm).mag2 ≤ 1e-10) :
    (v.rotateToAxis axis).mulVec v.norm = axis.norm := by
  rw [rotateToAxis_eq_rodrigues h]
  have h1 := V3.norm_dot_self hv
  have h2 := V3.norm_dot_self ha
  exact rodrigues_mulVec _ _ h1 h2 (one_add_dot_pos h1 h2 h).ne'

/-- The inverse of a rotation is its transpose. -/
theorem IsRotation.inverse_eq_transpose {m : M3 ℝ} (h : IsRotation m.toMat) :
    m.inverse.toMat = m.toMat.transpose := by
  have hd : m.det ≠ 0 := by rw [det_eq, h.2]; exact one_ne_zero
  have h1 := toMat_inverse_mul m hd
  have h2 : m.toMat * m.toMat.transpose = 1 := mul_eq_one_comm.mp h.1
  calc m.inverse.toMat = m.inverse.toMat * (m.toMat * m.toMat.transpose) := by rw [h2, mul_one]
    _ = m.toMat.transpose := by rw [← mul_assoc, h1, one_mul]

end QED
