import Verif.Model.Fields
import Verif.Lemmas.Processes

set_option autoImplicit false

/-! # Helper lemmas for the laser fields, over the reals -/

namespace QED

/-- The inverse of a rotation keeps dot products. -/
theorem inverse_dot {m : M3 ℝ} (h : IsRotation m.toMat) (a b : V3 ℝ) :
    (m.inverse.mulVec a).dot (m.inverse.mulVec b) = a.dot b := by
  have h2 : m.toMat * m.toMat.transpose = 1 := mul_eq_one_comm.mp h.1
  rw [dot_eq, toVec_mulVec, toVec_mulVec, h.inverse_eq_transpose, Matrix.dotProduct_mulVec,
    ← Matrix.mulVec_transpose, Matrix.mulVec_mulVec, Matrix.transpose_transpose, h2,
    Matrix.one_mulVec, ← dot_eq]

theorem inverse_mag {m : M3 ℝ} (h : IsRotation m.toMat) (a : V3 ℝ) :
    (m.inverse.mulVec a).mag = a.mag := by
  simp only [V3.mag, inverse_dot h]

/-- The inverse of a rotation undoes it. -/
theorem inverse_mulVec {m : M3 ℝ} (h : IsRotation m.toMat) (a : V3 ℝ) :
    m.inverse.mulVec (m.mulVec a) = a := by
  apply toVec_injective
  rw [toVec_mulVec, toVec_mulVec, Matrix.mulVec_mulVec, h.inverse_eq_transpose, h.1,
    Matrix.one_mulVec]

/-- Dot product with the preimage of `z` is the third component in the rotated frame. -/
theorem mulVec_z {m : M3 ℝ} (h : IsRotation m.toMat) (a : V3 ℝ) :
    (m.mulVec a).z = (m.inverse.mulVec V3.ez).dot a := by
  have := inverse_dot h V3.ez (m.mulVec a)
  rw [inverse_mulVec h] at this
  rw [this]; simp [V3.dot]

theorem mulVec_add (m : M3 ℝ) (a b : V3 ℝ) :
    m.mulVec (a.add b) = (m.mulVec a).add (m.mulVec b) := by
  ext <;> simp [M3.mulVec, M3.acc3, V3.add] <;> ring

theorem mulVec_smul (m : M3 ℝ) (a : V3 ℝ) (s : ℝ) :
    m.mulVec (a.smul s) = (m.mulVec a).smul s := by
  ext <;> simp [M3.mulVec, M3.acc3, V3.smul] <;> ring

/-- The inverse of a rotation keeps cross products. -/
theorem inverse_cross {m : M3 ℝ} (h : IsRotation m.toMat) (a b : V3 ℝ) :
    (m.inverse.mulVec a).cross (m.inverse.mulVec b) = m.inverse.mulVec (a.cross b) := by
  have hT := h.inverse_eq_transpose
  have h2 : m.toMat * m.toMat.transpose = 1 := mul_eq_one_comm.mp h.1
  -- the adjugate of a rotation is its transpose
  have hadj : m.toMat.adjugate = m.toMat.transpose := by
    have e := Matrix.adjugate_mul m.toMat
    rw [h.2, one_smul] at e
    calc m.toMat.adjugate = m.toMat.adjugate * (m.toMat * m.toMat.transpose) := by rw [h2, mul_one]
      _ = m.toMat.transpose := by rw [← mul_assoc, e, one_mul]
  have hinv : m.inverse = ⟨m.m00, m.m10, m.m20, m.m01, m.m11, m.m21, m.m02, m.m12, m.m22⟩ := by
    apply toMat_injective
    rw [hT]
    ext i j; fin_cases i <;> fin_cases j <;> simp [M3.toMat, Matrix.transpose]
  have e := fun i j => congrFun (congrFun hadj i) j
  have e00 := e 0 0
  have e01 := e 0 1
  have e02 := e 0 2
  have e10 := e 1 0
  have e11 := e 1 1
  have e12 := e 1 2
  have e20 := e 2 0
  have e21 := e 2 1
  have e22 := e 2 2
  rw [Matrix.adjugate_fin_three] at e00 e01 e02 e10 e11 e12 e20 e21 e22
  simp [M3.toMat, Matrix.transpose] at e00 e01 e02 e10 e11 e12 e20 e21 e22
  rw [hinv]
  ext <;> simp only [M3.mulVec, M3.acc3, V3.cross, real_add, real_mul, real_sub, real_lit,
    Rat.cast_zero, zero_add]
  · linear_combination (a.y * b.z - a.z * b.y) * e00 + (a.z * b.x - a.x * b.z) * e01 +
      (a.x * b.y - a.y * b.x) * e02
  · linear_combination (a.y * b.z - a.z * b.y) * e10 + (a.z * b.x - a.x * b.z) * e11 +
      (a.x * b.y - a.y * b.x) * e12
  · linear_combination (a.y * b.z - a.z * b.y) * e20 + (a.z * b.x - a.x * b.z) * e21 +
      (a.x * b.y - a.y * b.x) * e22

/-- The preimage of `z` is the configured direction, unless the latter is within `1e-5` of
`-z` without being `-z` itself. -/
theorem inverse_ez {d : V3 ℝ} (hd : d ≠ ⟨0, 0, 0⟩)
    (h : 1e-10 < (d.norm.add V3.ez).mag2 ∨ d.norm = ⟨0, 0, -1⟩) :
    (d.rotateToAxis V3.ez).inverse.mulVec V3.ez = d.norm := by
  have hR := rotateToAxis_isRotation (v := d) (axis := V3.ez) hd (by simp)
  have hez : (V3.ez : V3 ℝ).norm = V3.ez := V3.norm_of_unit (by simp [V3.dot])
  rcases h with h | h
  · have := rotateToAxis_mulVec (v := d) (axis := V3.ez) hd (by simp)
      (by rw [hez]; exact not_le.mpr h)
    rw [hez] at this
    have e := inverse_mulVec hR d.norm
    rwa [this] at e
  · have hz : (d.rotateToAxis V3.ez).mulVec d.norm = V3.ez := by
      rw [rotateToAxis_eq_diag (by rw [hez, h]; simp [V3.add, V3.mag2, V3.dot]; norm_num), h]
      ext <;> simp [M3.mulVec, M3.acc3]
    have e := inverse_mulVec hR d.norm
    rwa [hz] at e

/-- The field vectors built by the plane and the Gaussian laser from an amplitude. -/
noncomputable def waveE (m : M3 ℝ) (e0 phi : ℝ) : V3 ℝ :=
  m.inverse.mulVec ⟨e0 * Real.cos phi, e0 * Real.sin phi, 0⟩
noncomputable def waveB (m : M3 ℝ) (e0 phi : ℝ) : V3 ℝ :=
  m.inverse.mulVec ⟨e0 * Real.sin phi, e0 * Real.cos phi, 0⟩

section wave
variable {m : M3 ℝ} (h : IsRotation m.toMat) (e0 phi : ℝ)
include h

theorem waveE_dot_k : (waveE m e0 phi).dot (m.inverse.mulVec V3.ez) = 0 := by
  rw [waveE, inverse_dot h]; simp [V3.dot]

theorem waveB_dot_k : (waveB m e0 phi).dot (m.inverse.mulVec V3.ez) = 0 := by
  rw [waveB, inverse_dot h]; simp [V3.dot]

theorem waveE_mag : (waveE m e0 phi).mag = |e0| := by
  rw [waveE, inverse_mag h]
  simp only [V3.mag, V3.dot, real_add, real_mul, real_sqrt]
  rw [← Real.sqrt_sq_eq_abs]
  congr 1
  linear_combination e0 ^ 2 * Real.sin_sq_add_cos_sq phi

theorem waveB_mag : (waveB m e0 phi).mag = |e0| := by
  rw [waveB, inverse_mag h]
  simp only [V3.mag, V3.dot, real_add, real_mul, real_sqrt]
  rw [← Real.sqrt_sq_eq_abs]
  congr 1
  linear_combination e0 ^ 2 * Real.sin_sq_add_cos_sq phi

theorem wave_dot : (waveE m e0 phi).dot (waveB m e0 phi) = e0 ^ 2 * Real.sin (2 * phi) := by
  rw [waveE, waveB, inverse_dot h, Real.sin_two_mul]
  simp only [V3.dot, real_add, real_mul]; ring

theorem wave_cross : (waveE m e0 phi).cross (waveB m e0 phi) =
    (m.inverse.mulVec V3.ez).smul (e0 ^ 2 * Real.cos (2 * phi)) := by
  rw [waveE, waveB, inverse_cross h, ← mulVec_smul, Real.cos_two_mul']
  congr 1
  ext <;> simp [V3.cross, V3.smul]
  ring

end wave

theorem PlaneField.getField_eq (maxE wl phi : ℝ) (d : V3 ℝ) (t : ℝ) (x : V3 ℝ) :
    (PlaneField.new maxE wl phi d).getField t x =
      (waveE (d.rotateToAxis V3.ez) ((PlaneField.new maxE wl phi d).amplitude t x) phi,
       waveB (d.rotateToAxis V3.ez) ((PlaneField.new maxE wl phi d).amplitude t x) phi) := by
  simp [PlaneField.getField, PlaneField.new, waveE, waveB]

theorem GaussField.getField_eq (maxE wl tau w phi : ℝ) (s f : V3 ℝ) (t : ℝ) (x : V3 ℝ) :
    (GaussField.new maxE wl tau w phi s f).getField t x =
      (waveE ((s.direction f).rotateToAxis V3.ez)
        ((GaussField.new maxE wl tau w phi s f).amplitude t x) phi,
       waveB ((s.direction f).rotateToAxis V3.ez)
        ((GaussField.new maxE wl tau w phi s f).amplitude t x) phi) := by
  simp [GaussField.getField, GaussField.new, waveE, waveB]

end QED
