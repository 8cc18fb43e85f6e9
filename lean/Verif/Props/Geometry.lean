import Verif.Lemmas.Geometry

set_option autoImplicit false

/-!
# Properties C01 to C04: vectors, matrices, rotations

All statements are about real components (`ℝ`), read through
`Spec/Geometry.lean` as Mathlib vectors and matrices, except
`C01_norm_zero_is_nan`, which uses the extended scalars `XR`.
-/

namespace QED

/-! ## C01 Vector algebra laws -/

/-- Cross products are Mathlib's: orthogonal to both operands, antisymmetric, and
Lagrange's identity holds, for all vectors. -/
theorem C01_cross_laws (a b : V3 ℝ) :
    (a.cross b).toVec ⬝ᵥ a.toVec = 0 ∧
    (a.cross b).toVec ⬝ᵥ b.toVec = 0 ∧
    (b.cross a).toVec = -(a.cross b).toVec ∧
    len (a.cross b).toVec ^ 2 + (a.toVec ⬝ᵥ b.toVec) ^ 2 = len a.toVec ^ 2 * len b.toVec ^ 2 := by
  refine ⟨?_, ?_, ?_, ?_⟩
  · rw [toVec_cross, dotProduct_comm]; simp
  · rw [toVec_cross, dotProduct_comm]; simp
  · rw [toVec_cross, toVec_cross, ← cross_anticomm]
  · rw [← mag2_eq, ← mag2_eq, ← mag2_eq, ← dot_eq]
    simp only [V3.mag2]
    rw [V3.lagrange]; ring

/-- The model's products are the usual ones, so the laws above are about the
vectors the user sees. -/
theorem C01_products_are_standard (a b : V3 ℝ) :
    (a.cross b).toVec = crossProduct a.toVec b.toVec ∧ a.dot b = a.toVec ⬝ᵥ b.toVec ∧
      a.mag = len a.toVec ∧ a.mag2 = len a.toVec ^ 2 :=
  ⟨toVec_cross a b, dot_eq a b, mag_eq a, mag2_eq a⟩

/-- Normalising a non-zero vector gives the unit vector in its direction. -/
theorem C01_norm_is_unit (v : V3 ℝ) (h : v.toVec ≠ 0) : IsUnitAlong v.norm.toVec v.toVec := by
  have h' : v ≠ ⟨0, 0, 0⟩ := by
    rintro rfl; apply h; ext i; fin_cases i <;> simp [V3.toVec]
  constructor
  · rw [← mag_eq]; simp [V3.mag, V3.norm_dot_self h']
  · exact ⟨v.mag, V3.mag_pos h', by rw [← toVec_smul, V3.norm_smul_mag h']⟩

example : (⟨3, 0, 4⟩ : V3 ℝ).toVec ≠ 0 := by
  intro h; simpa [V3.toVec] using congrFun h 0

/-- Normalising the zero vector gives NaN in every component, not a direction. -/
theorem C01_norm_zero_is_nan :
    (⟨.fin 0, .fin 0, .fin 0⟩ : V3 XR).norm = ⟨.nan, .nan, .nan⟩ := by
  have hm : (⟨.fin 0, .fin 0, .fin 0⟩ : V3 XR).mag = .fin 0 := by
    simp [V3.mag, V3.dot, XR.sqrt_fin]
  simp [V3.norm, V3.divs, hm, XR.div_zero, XR.infSign]

/-! ## C02 Matrix inverse -/

/-- `Inverse` is a two-sided inverse of every matrix of non-zero determinant, and it
is Mathlib's matrix inverse. -/
theorem C02_inverse (m : M3 ℝ) (h : m.det ≠ 0) :
    (m.inverse.mul m).toMat = 1 ∧ (m.mul m.inverse).toMat = 1 ∧ m.inverse.toMat = m.toMat⁻¹ := by
  have h1 := toMat_inverse_mul m h
  refine ⟨by rw [toMat_mul]; exact h1, by rw [toMat_mul]; exact mul_eq_one_comm.mp h1, ?_⟩
  exact (Matrix.inv_eq_left_inv h1).symm

example : (⟨1, 2, 0, 0, 1, 3, 4, 0, 1⟩ : M3 ℝ).det ≠ 0 := by norm_num [M3.det]

/-- Determinant, matrix product and application to a vector are the standard ones;
applying a product is applying one factor after the other. -/
theorem C02_product (a b : M3 ℝ) (v : V3 ℝ) :
    a.det = a.toMat.det ∧ (a.mul b).toMat = a.toMat * b.toMat ∧
      (a.mulVec v).toVec = a.toMat.mulVec v.toVec ∧
      (a.mul b).mulVec v = a.mulVec (b.mulVec v) := by
  refine ⟨det_eq a, toMat_mul a b, toVec_mulVec a v, ?_⟩
  apply toVec_injective
  rw [toVec_mulVec, toVec_mulVec, toVec_mulVec, toMat_mul, Matrix.mulVec_mulVec]

/-! ## C03 RotateToAxis -/

/-- Full statement of C03. -/
def RotatesOnto (v axis : V3 ℝ) : Prop :=
  IsRotation (v.rotateToAxis axis).toMat ∧
    (v.rotateToAxis axis).toMat.mulVec v.norm.toVec = axis.norm.toVec

/-- The full statement is false: turning `-y` onto `y` leaves it at `-y`. -/
theorem C03_refuted :
    ¬ ∀ v axis : V3 ℝ, v.toVec ≠ 0 → axis.toVec ≠ 0 → RotatesOnto v axis := by
  intro h
  have hv : (⟨0, -1, 0⟩ : V3 ℝ).toVec ≠ 0 := by
    intro h; simpa [V3.toVec] using congrFun h 1
  have ha : (⟨0, 1, 0⟩ : V3 ℝ).toVec ≠ 0 := by
    intro h; simpa [V3.toVec] using congrFun h 1
  have h2 := (h _ _ hv ha).2
  have n1 : (⟨0, -1, 0⟩ : V3 ℝ).norm = ⟨0, -1, 0⟩ := by simp [V3.norm_real, V3.mag, V3.dot]
  have n2 : (⟨0, 1, 0⟩ : V3 ℝ).norm = ⟨0, 1, 0⟩ := by simp [V3.norm_real, V3.mag, V3.dot]
  have hd := rotateToAxis_eq_diag (v := ⟨0, -1, 0⟩) (axis := ⟨0, 1, 0⟩)
    (by rw [n1, n2]; simp [V3.add, V3.mag2, V3.dot]; norm_num)
  rw [hd, n1, n2] at h2
  have := congrFun h2 1
  simp [M3.toMat, V3.toVec, Matrix.mulVec, dotProduct, Fin.sum_univ_three] at this
  norm_num at this

/-- What holds for every axis: the result is always a rotation, and it takes the
direction of `v` to the direction of the axis unless the two are within
`1e-5` of antiparallel. Missing from C03: nearly antiparallel pairs. -/
theorem C03_rotateToAxis_partial (v axis : V3 ℝ) (hv : v.toVec ≠ 0) (ha : axis.toVec ≠ 0) :
    IsRotation (v.rotateToAxis axis).toMat ∧
    (1e-10 < len (v.norm.toVec + axis.norm.toVec) ^ 2 → RotatesOnto v axis) := by
  have hv' : v ≠ ⟨0, 0, 0⟩ := by
    rintro rfl; apply hv; ext i; fin_cases i <;> simp [V3.toVec]
  have ha' : axis ≠ ⟨0, 0, 0⟩ := by
    rintro rfl; apply ha; ext i; fin_cases i <;> simp [V3.toVec]
  refine ⟨rotateToAxis_isRotation hv' ha', fun h => ⟨rotateToAxis_isRotation hv' ha', ?_⟩⟩
  rw [← toVec_mulVec, rotateToAxis_mulVec hv' ha']
  rw [mag2_eq, toVec_add]
  exact not_le.mpr h

example : (1e-10 : ℝ) < len ((⟨3, 0, 4⟩ : V3 ℝ).norm.toVec + (⟨0, 0, 1⟩ : V3 ℝ).norm.toVec) ^ 2 := by
  rw [← toVec_add, ← mag2_eq]
  have : Real.sqrt (3 * 3 + 4 * 4) = 5 := by
    rw [show (3 * 3 + 4 * 4 : ℝ) = 5 ^ 2 by norm_num, Real.sqrt_sq (by norm_num)]
  simp [V3.norm_real, V3.mag, V3.dot, V3.add, V3.mag2, this]
  norm_num

/-- For the axis `z`, the only one the program uses, there is no exception: the
result is a rotation that takes the direction of `v` to within `1e-5` of `z`
for every non-zero `v`, and exactly to `z` when `v` is exactly antiparallel or
more than `1e-5` away from it. -/
theorem C03_rotateToAxis_z (v : V3 ℝ) (hv : v.toVec ≠ 0) :
    let z : V3 ℝ := ⟨0, 0, 1⟩
    IsRotation (v.rotateToAxis z).toMat ∧
    len ((v.rotateToAxis z).toMat.mulVec v.norm.toVec - z.toVec) ^ 2 ≤ 1e-10 ∧
    (1e-10 < len (v.norm.toVec + z.toVec) ^ 2 ∨ v.norm.toVec = -z.toVec →
      (v.rotateToAxis z).toMat.mulVec v.norm.toVec = z.toVec) := by
  intro z
  have hv' : v ≠ ⟨0, 0, 0⟩ := by
    rintro rfl; apply hv; ext i; fin_cases i <;> simp [V3.toVec]
  have hz' : z ≠ ⟨0, 0, 0⟩ := by simp [z]
  have hzn : z.norm = z := by simp [z, V3.norm_real, V3.mag, V3.dot]
  refine ⟨rotateToAxis_isRotation hv' hz', ?_, ?_⟩
  · by_cases h : (v.norm.add z.norm).mag2 ≤ 1e-10
    · rw [← toVec_mulVec, ← toVec_sub, ← mag2_eq, rotateToAxis_eq_diag h]
      refine le_trans (le_of_eq ?_) h
      rw [hzn]
      simp only [z, M3.mulVec, M3.acc3, V3.sub, V3.mag2, V3.dot, V3.add, real_add, real_mul,
        real_sub, real_lit]
      push_cast; ring
    · rw [← toVec_mulVec, rotateToAxis_mulVec hv' hz' h, hzn, sub_self]
      simp [len]; norm_num
  · rintro (h | h)
    · rw [← toVec_mulVec, rotateToAxis_mulVec hv' hz', hzn]
      rw [mag2_eq, toVec_add, hzn]
      exact not_le.mpr h
    · have hneg : v.norm = ⟨0, 0, -1⟩ := by
        apply toVec_injective; rw [h]; ext i; fin_cases i <;> simp [z, V3.toVec]
      have hle : (v.norm.add z.norm).mag2 ≤ 1e-10 := by
        rw [hneg, hzn]; simp [z, V3.add, V3.mag2, V3.dot]; norm_num
      rw [rotateToAxis_eq_diag hle, hneg]
      ext i; fin_cases i <;>
        simp [z, M3.toMat, V3.toVec, Matrix.mulVec, dotProduct, Fin.sum_univ_three]

/-! ## C04 Direction -/

/-- C04 is false: the result is not normalised. -/
theorem C04_refuted :
    ¬ ∀ a b : V3 ℝ, a.toVec ≠ b.toVec → IsUnitAlong (a.direction b).toVec (b.toVec - a.toVec) := by
  intro h
  have hne : (⟨0, 0, 0⟩ : V3 ℝ).toVec ≠ (⟨0, 0, 2⟩ : V3 ℝ).toVec := by
    intro h; simpa [V3.toVec] using congrFun h 2
  have := (h _ _ hne).1
  rw [← mag_eq] at this
  have h2 : Real.sqrt (2 * 2) = 2 := Real.sqrt_mul_self (by norm_num)
  simp [V3.direction, V3.mag, V3.dot, h2] at this

/-- What holds: the result is the difference vector, which has the right direction,
and is a unit vector exactly when the points are one unit apart. -/
theorem C04_direction_partial (a b : V3 ℝ) :
    (a.direction b).toVec = b.toVec - a.toVec ∧
    (a.toVec ≠ b.toVec →
      (IsUnitAlong (a.direction b).toVec (b.toVec - a.toVec) ↔ len (b.toVec - a.toVec) = 1)) := by
  have e : (a.direction b).toVec = b.toVec - a.toVec := by
    rw [← toVec_sub]; rfl
  refine ⟨e, fun _ => ?_⟩
  rw [e]
  exact ⟨fun h => h.1, fun h => ⟨h, 1, one_pos, (one_smul _ _).symm⟩⟩

example : (⟨0, 0, 0⟩ : V3 ℝ).toVec ≠ (⟨1, 2, 2⟩ : V3 ℝ).toVec := by
  intro h; simpa [V3.toVec] using congrFun h 0

end QED
