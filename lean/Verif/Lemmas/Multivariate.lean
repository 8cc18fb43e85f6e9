import Verif.Model.Multivariate
import Mathlib.Analysis.Matrix.LDL
import Mathlib.Analysis.Matrix.Spectrum
import Mathlib.Analysis.Matrix.PosDef
import Mathlib.Probability.Distributions.Gaussian.Multivariate

set_option autoImplicit false

/-!
# Lemmas about multivariate draws
-/

namespace QED
namespace MCTools

open MeasureTheory ProbabilityTheory WithLp Complex
open scoped Matrix RealInnerProductSpace

variable {n : ℕ}

theorem lowerPart_symm {A : Matrix (Fin n) (Fin n) ℝ} (h : A.IsSymm) : lowerPart A = A := by
  ext i j
  unfold lowerPart
  rcases le_total i j with hij | hij
  · rw [max_eq_right hij, min_eq_left hij]; exact h.apply i j
  · rw [max_eq_left hij, min_eq_right hij]

theorem lowerPart_isSymm (A : Matrix (Fin n) (Fin n) ℝ) : (lowerPart A).IsSymm := by
  ext i j
  simp only [Matrix.transpose_apply, lowerPart, max_comm, min_comm]

theorem isSymm_hermitian {A : Matrix (Fin n) (Fin n) ℝ} (h : A.IsSymm) : A.IsHermitian := by
  rw [Matrix.IsHermitian, Matrix.conjTranspose_eq_transpose_of_trivial]; exact h

/-- Every symmetric matrix has eigenvectors and eigenvalues. -/
theorem exists_eigen {A : Matrix (Fin n) (Fin n) ℝ} (h : A.IsSymm) : ∃ V w, Eigen A V w := by
  have hA := isSymm_hermitian h
  refine ⟨hA.eigenvectorUnitary, hA.eigenvalues, ?_, ?_⟩
  · have := (Matrix.mem_unitaryGroup_iff).1 hA.eigenvectorUnitary.2
    rwa [Matrix.star_eq_conjTranspose, Matrix.conjTranspose_eq_transpose_of_trivial] at this
  · have := hA.spectral_theorem
    rw [Unitary.conjStarAlgAut_apply] at this
    rw [← Matrix.conjTranspose_eq_transpose_of_trivial, ← Matrix.star_eq_conjTranspose]
    exact this

/-- The eigenvalues are those of the quadratic form. -/
theorem eigen_posSemidef {A V : Matrix (Fin n) (Fin n) ℝ} {w : Fin n → ℝ} (h : Eigen A V w) :
    A.PosSemidef ↔ ∀ i, 0 ≤ w i := by
  obtain ⟨h1, rfl⟩ := h
  have hu : IsUnit V := IsUnit.of_mul_eq_one _ h1
  have := Matrix.IsUnit.posSemidef_star_right_conjugate_iff (x := Matrix.diagonal w) hu
  rw [Matrix.star_eq_conjTranspose, Matrix.conjTranspose_eq_transpose_of_trivial] at this
  rw [this, Matrix.posSemidef_diagonal_iff]

theorem cholesky_posSemidef {A L : Matrix (Fin n) (Fin n) ℝ} (h : Cholesky A L) : A.PosSemidef := by
  obtain ⟨-, -, rfl⟩ := h
  have := Matrix.posSemidef_self_mul_conjTranspose L
  rwa [Matrix.conjTranspose_eq_transpose_of_trivial] at this

/-- The factor of the eigenvector branch. -/
theorem eigen_factor {A V : Matrix (Fin n) (Fin n) ℝ} {w : Fin n → ℝ} (h : Eigen A V w) (hw : ∀ i, 0 ≤ w i) :
    (V * Matrix.diagonal fun i => Real.sqrt (w i)) *
      (V * Matrix.diagonal fun i => Real.sqrt (w i)).transpose = A := by
  rw [h.2, Matrix.transpose_mul, Matrix.diagonal_transpose, Matrix.mul_assoc, ← Matrix.mul_assoc (Matrix.diagonal _),
    Matrix.diagonal_mul_diagonal, ← Matrix.mul_assoc]
  simp only [Real.mul_self_sqrt (hw _)]

/-- The law of `μ + L z` for independent standard normal `z`. -/
theorem law_affine (mean : Fin n → ℝ) (L : Matrix (Fin n) (Fin n) ℝ) :
    (Measure.pi fun _ : Fin n => gaussianReal 0 1).map (fun z => toLp 2 (mean + L.mulVec z)) =
      multivariateGaussian (toLp 2 mean) (L * L.transpose) := by
  have hS : (L * L.transpose).PosSemidef := by
    have := Matrix.posSemidef_self_mul_conjTranspose L
    rwa [Matrix.conjTranspose_eq_transpose_of_trivial] at this
  have hm : Measurable fun z : Fin n → ℝ => toLp 2 (mean + L.mulVec z) := by
    have : Continuous fun z : Fin n → ℝ => toLp 2 (mean + L.mulVec z) :=
      (PiLp.continuous_toLp 2 _).comp (continuous_const.add (continuous_const.matrix_mulVec continuous_id))
    exact this.measurable
  have : IsProbabilityMeasure
      ((Measure.pi fun _ : Fin n => gaussianReal 0 1).map fun z => toLp 2 (mean + L.mulVec z)) :=
    Measure.isProbabilityMeasure_map hm.aemeasurable
  apply Measure.ext_of_charFun (E := EuclideanSpace ℝ (Fin n))
  ext t
  rw [charFun_multivariateGaussian hS, charFun_apply, integral_map hm.aemeasurable (by fun_prop)]
  have e1 : ∀ z : Fin n → ℝ, ⟪(toLp 2 (mean + L.mulVec z) : EuclideanSpace ℝ (Fin n)), t⟫ =
      ⟪t, toLp 2 mean⟫ + ⟪(toLp 2 z : EuclideanSpace ℝ (Fin n)), toLp 2 (L.transpose.mulVec t.ofLp)⟫ := by
    intro z
    simp only [EuclideanSpace.inner_eq_star_dotProduct, star_trivial]
    rw [dotProduct_add, dotProduct_comm, Matrix.dotProduct_mulVec, ← Matrix.mulVec_transpose, dotProduct_comm mean]
  simp only [e1, ofReal_add, add_mul, Complex.exp_add]
  rw [integral_const_mul]
  have e2 := charFun_stdGaussian (E := EuclideanSpace ℝ (Fin n)) (toLp 2 (L.transpose.mulVec t.ofLp))
  rw [charFun_apply, ← map_pi_eq_stdGaussian, integral_map (by fun_prop) (by fun_prop)] at e2
  rw [e2, ← Complex.exp_add, ← ofReal_pow, EuclideanSpace.real_norm_sq_eq]
  congr 1
  have e3 : ∑ i, (toLp 2 (L.transpose.mulVec t.ofLp) : EuclideanSpace ℝ (Fin n)).ofLp i ^ 2 =
      t.ofLp ⬝ᵥ (L * L.transpose) *ᵥ t.ofLp := by
    rw [← Matrix.mulVec_mulVec, Matrix.dotProduct_mulVec, ← Matrix.mulVec_transpose]
    simp only [dotProduct, sq]
  rw [e3]
  push_cast
  ring

/-- A factor of a positive semidefinite matrix, whichever branch made it. -/
theorem lMatrix_factor {A : Matrix (Fin n) (Fin n) ℝ} (hA : A.PosSemidef)
    {o : Option (Matrix (Fin n) (Fin n) ℝ)} (h : LMatrix A o) : ∃ L, o = some L ∧ L * L.transpose = A := by
  have hs : A.IsSymm := by
    have := hA.isHermitian
    rwa [Matrix.IsHermitian, Matrix.conjTranspose_eq_transpose_of_trivial] at this
  cases h with
  | cholesky h => exact ⟨_, rfl, by rw [← lowerPart_symm hs]; exact h.2.2⟩
  | eigen h1 h2 h3 => exact ⟨_, rfl, by rw [eigen_factor h2 h3, lowerPart_symm hs]⟩
  | nan h1 h2 h3 =>
    rw [lowerPart_symm hs] at h2
    obtain ⟨i, hi⟩ := h3
    exact absurd ((eigen_posSemidef h2).1 hA i) (not_le.2 hi)

/-- Increasing functions of a normal variable with the same law are the same. -/
theorem law_injective {f g : ℝ → ℝ} (hf : StrictMono f) (hg : StrictMono g) (cf : Continuous f)
    (cg : Continuous g) (h : (gaussianReal 0 1).map f = (gaussianReal 0 1).map g) : f = g := by
  have key : ∀ {f g : ℝ → ℝ}, StrictMono f → StrictMono g → Continuous f → Continuous g →
      (gaussianReal 0 1).map f = (gaussianReal 0 1).map g → ∀ x, ¬ f x < g x := by
    intro f g hf hg cf cg h x hx
    obtain ⟨y, hy, hlt⟩ : ∃ y, y < x ∧ f x < g y := by
      have := (cg.tendsto x).eventually (lt_mem_nhds hx)
      obtain ⟨y, hy⟩ := ((this.filter_mono nhdsWithin_le_nhds).and
        (self_mem_nhdsWithin : Set.Iio x ∈ nhdsWithin x (Set.Iio x))).exists
      exact ⟨y, hy.2, hy.1⟩
    have e1 : f ⁻¹' Set.Iic (f x) = Set.Iic x := by
      ext z; simp only [Set.mem_preimage, Set.mem_Iic, hf.le_iff_le]
    have e2 : g ⁻¹' Set.Iic (f x) ⊆ Set.Iic y := by
      intro z hz
      have : g z < g y := lt_of_le_of_lt hz hlt
      exact (hg.lt_iff_lt.1 this).le
    have e3 : gaussianReal 0 1 (Set.Iic x) ≤ gaussianReal 0 1 (Set.Iic y) := by
      rw [← e1, ← Measure.map_apply cf.measurable measurableSet_Iic, h,
        Measure.map_apply cg.measurable measurableSet_Iic]
      exact measure_mono e2
    have e4 : gaussianReal 0 1 (Set.Ioc y x) ≠ 0 := by
      intro h0
      have := gaussianReal_absolutelyContinuous' 0 (v := 1) one_ne_zero h0
      rw [Real.volume_Ioc, ENNReal.ofReal_eq_zero] at this
      linarith
    have e5 : gaussianReal 0 1 (Set.Iic x) = gaussianReal 0 1 (Set.Iic y) + gaussianReal 0 1 (Set.Ioc y x) := by
      rw [← measure_union _ measurableSet_Ioc, Set.Iic_union_Ioc_eq_Iic hy.le]
      rw [Set.disjoint_left]
      intro z hz hz'
      exact absurd hz'.1 (not_lt.2 hz)
    rw [e5] at e3
    exact e4 (nonpos_iff_eq_zero.1
      ((ENNReal.add_le_add_iff_left (measure_ne_top _ _)).1 (by rwa [add_zero])))
  funext x
  exact le_antisymm (not_lt.1 (key hg hf cg cf h.symm x)) (not_lt.1 (key hf hg cf cg h x))

/-- A multivariate normal vector with a diagonal covariance has independent components. -/
theorem law_diagonal (mean covar : Fin n → ℝ) (L : Matrix (Fin n) (Fin n) ℝ) (h0 : ∀ i, 0 ≤ covar i)
    (hL : L * L.transpose = Matrix.diagonal covar) :
    (Measure.pi fun _ : Fin n => gaussianReal 0 1).map (fun z => mean + L.mulVec z) =
      Measure.pi fun i => (gaussianReal 0 1).map fun z => mean i + Real.sqrt (covar i) * z := by
  have hd : Matrix.diagonal (fun i => Real.sqrt (covar i)) *
      (Matrix.diagonal fun i => Real.sqrt (covar i)).transpose = Matrix.diagonal covar := by
    rw [Matrix.diagonal_transpose, Matrix.diagonal_mul_diagonal]
    simp only [Real.mul_self_sqrt (h0 _)]
  have h1 := law_affine mean L
  rw [hL, ← hd, ← law_affine] at h1
  have hc : ∀ M : Matrix (Fin n) (Fin n) ℝ, Measurable fun z : Fin n → ℝ => mean + M.mulVec z := fun M =>
    (continuous_const.add (continuous_const.matrix_mulVec continuous_id)).measurable
  have ht : Measurable (toLp 2 : (Fin n → ℝ) → EuclideanSpace ℝ (Fin n)) := by fun_prop
  have ho : Measurable (ofLp : EuclideanSpace ℝ (Fin n) → (Fin n → ℝ)) := by fun_prop
  have hm : ∀ M : Matrix (Fin n) (Fin n) ℝ, Measurable fun z : Fin n → ℝ =>
      (toLp 2 (mean + M.mulVec z) : EuclideanSpace ℝ (Fin n)) := fun M => ht.comp (hc M)
  have h2 := congrArg (Measure.map (ofLp : EuclideanSpace ℝ (Fin n) → (Fin n → ℝ))) h1
  rw [Measure.map_map ho (hm _), Measure.map_map ho (hm _)] at h2
  refine Eq.trans ?_ (h2.trans ?_)
  · rfl
  · rw [← Measure.pi_map_pi fun i => by fun_prop]
    congr 1
    funext z i
    simp only [Function.comp_apply, Pi.add_apply, Matrix.mulVec_diagonal]

end MCTools
end QED
