import Verif.Lemmas.Multivariate
import Verif.Spec.Multivariate

set_option autoImplicit false

/-!
# Properties C113 and C114: the multivariate draws
-/

namespace QED

open MeasureTheory ProbabilityTheory MCTools WithLp
open scoped Matrix

variable {n : ℕ}

/-- The law of `n` independent standard normal draws. -/
local notation "normals" => Measure.pi fun _ : Fin n => gaussianReal 0 1

/-! ## C113 Multivariate normal samples have the requested mean and covariance -/

/-- C113: for every mean and every covariance matrix, the samples are vectors of numbers and follow the
multivariate normal distribution with this mean and this covariance, whichever decomposition is used. -/
theorem C113_law (mean : Fin n → ℝ) {A : Matrix (Fin n) (Fin n) ℝ} (hA : A.PosSemidef)
    {l : Option (Matrix (Fin n) (Fin n) ℝ)} (hl : LMatrix A l) :
    ∃ f : (Fin n → ℝ) → Fin n → ℝ, (∀ z, randNormNd mean l z = some (f z)) ∧
      (normals).map (fun z => toLp 2 (f z)) = multivariateGaussian (toLp 2 mean) A := by
  obtain ⟨L, rfl, h⟩ := lMatrix_factor hA hl
  refine ⟨fun z => mean + L.mulVec z, fun z => rfl, ?_⟩
  rw [law_affine, h]

/-- In particular mean and covariance are the requested ones. -/
theorem C113_moments (mean : Fin n → ℝ) {A : Matrix (Fin n) (Fin n) ℝ} (hA : A.PosSemidef)
    {l : Option (Matrix (Fin n) (Fin n) ℝ)} (hl : LMatrix A l) :
    ∃ f : (Fin n → ℝ) → Fin n → ℝ, (∀ z, randNormNd mean l z = some (f z)) ∧
      (∀ i, ∫ z, f z i ∂normals = mean i) ∧
      ∀ i j, cov[fun z => f z i, fun z => f z j; normals] = A i j := by
  obtain ⟨L, rfl, h⟩ := lMatrix_factor hA hl
  have hm : Measurable fun z : Fin n → ℝ => (toLp 2 (mean + L.mulVec z) : EuclideanSpace ℝ (Fin n)) := by
    have : Continuous fun z : Fin n → ℝ => (toLp 2 (mean + L.mulVec z) : EuclideanSpace ℝ (Fin n)) :=
      (PiLp.continuous_toLp 2 _).comp (continuous_const.add (continuous_const.matrix_mulVec continuous_id))
    exact this.measurable
  have hlaw := law_affine mean L
  rw [h] at hlaw
  refine ⟨fun z => mean + L.mulVec z, fun z => rfl, fun i => ?_, fun i j => ?_⟩
  · have h1 := (measurePreserving_eval_multivariateGaussian (μ := toLp 2 mean) hA (i := i)).map_eq
    have h2 := integral_id_gaussianReal (μ := mean i) (v := (A i i).toNNReal)
    rw [show gaussianReal (mean i) (A i i).toNNReal =
        (multivariateGaussian (toLp 2 mean) A).map (fun x => x i) from h1.symm, ← hlaw,
      Measure.map_map (by fun_prop) hm, integral_map (by fun_prop) (by fun_prop)] at h2
    exact h2
  · have h1 := covariance_eval_multivariateGaussian (μ := toLp 2 mean) hA i j
    rw [← hlaw, covariance_map (by fun_prop) (by fun_prop) hm.aemeasurable] at h1
    exact h1

/-- C113: the draw has a result for every matrix. -/
theorem C113_total (A : Matrix (Fin n) (Fin n) ℝ) : ∃ l, LMatrix A l := by
  by_cases h : ∃ L, Cholesky (lowerPart A) L
  · obtain ⟨L, h⟩ := h
    exact ⟨_, .cholesky h⟩
  · obtain ⟨V, w, hw⟩ := exists_eigen (lowerPart_isSymm A)
    by_cases h0 : ∀ i, 0 ≤ w i
    · exact ⟨_, .eigen h hw h0⟩
    · push Not at h0
      exact ⟨_, .nan h hw h0⟩

/-- C113: the samples are not numbers exactly for the symmetric matrices that are no covariance. -/
theorem C113_nan_iff (mean : Fin n → ℝ) {A : Matrix (Fin n) (Fin n) ℝ} (hs : A.IsSymm)
    {l : Option (Matrix (Fin n) (Fin n) ℝ)} (hl : LMatrix A l) (z : Fin n → ℝ) :
    randNormNd mean l z = none ↔ ¬ A.PosSemidef := by
  constructor
  · intro h hA
    obtain ⟨L, rfl, -⟩ := lMatrix_factor hA hl
    cases h
  · intro h
    cases hl with
    | cholesky h1 => exact absurd (lowerPart_symm hs ▸ cholesky_posSemidef h1) h
    | eigen h1 h2 h3 =>
      rw [lowerPart_symm hs] at h2
      exact absurd ((eigen_posSemidef h2).2 h3) h
    | nan h1 h2 h3 => rfl

/-- Correlated components: the decomposition succeeds. -/
example : LMatrix !![4, 2; 2, (5 : ℝ)] (some !![2, 0; 1, 2]) ∧ (!![4, 2; 2, (5 : ℝ)]).PosSemidef := by
  have h : Cholesky (lowerPart !![4, 2; 2, (5 : ℝ)]) !![2, 0; 1, 2] := by
    refine ⟨?_, ?_, ?_⟩
    · intro i j h; fin_cases i <;> fin_cases j <;> simp_all
    · intro i; fin_cases i <;> simp
    · ext i j
      fin_cases i <;> fin_cases j <;> simp [lowerPart, Matrix.mul_apply, Fin.sum_univ_two] <;> norm_num
  refine ⟨.cholesky h, ?_⟩
  have hs : (!![4, 2; 2, (5 : ℝ)]).IsSymm := by
    ext i j; fin_cases i <;> fin_cases j <;> rfl
  exact lowerPart_symm hs ▸ cholesky_posSemidef h

/-! ## C114 The surrogate samples the distribution that its model describes -/

/-- What `RandSinhArcsinhNd` makes of the draw of a component. -/
theorem sinhArcsinh_comp (mean covar skew : Fin n → ℝ) (L : Matrix (Fin n) (Fin n) ℝ) (z : Fin n → ℝ) :
    randSinhArcsinhNd mean covar skew (some L) z = some fun i =>
      mean i + covar i * Real.sinh (Real.arsinh ((mean + L.mulVec z) i) + skew i) := by
  simp only [randSinhArcsinhNd, randNormNd, Option.map_some, Option.some.injEq]
  funext i
  simp only [Real.sinh_arsinh, div_self (two_ne_zero' ℝ), one_smul, Pi.add_apply, Matrix.mulVec_diagonal]

theorem continuous_skewed (m c e a b : ℝ) :
    Continuous fun z => m + c * Real.sinh (Real.arsinh (a + b * z) + e) :=
  continuous_const.add (continuous_const.mul (Real.continuous_sinh.comp ((Real.continuous_arsinh.comp
    (continuous_const.add (continuous_const.mul continuous_id))).add continuous_const)))

theorem continuous_skew (m c e : ℝ) : Continuous fun z => m + c * Real.sinh (Real.arsinh z + e) :=
  continuous_const.add (continuous_const.mul (Real.continuous_sinh.comp
    (Real.continuous_arsinh.add continuous_const)))

/-- What the samples follow: the components are independent, and each is the skewed, stretched and shifted
form of a variable that already has the mean of the component and the square root of its width. -/
theorem C114_law (mean covar skew : Fin n → ℝ) (h0 : ∀ i, 0 ≤ covar i)
    {l : Option (Matrix (Fin n) (Fin n) ℝ)} (hl : LMatrix (Matrix.diagonal covar) l) :
    ∃ f : (Fin n → ℝ) → Fin n → ℝ, (∀ z, randSinhArcsinhNd mean covar skew l z = some (f z)) ∧
      (normals).map f = Measure.pi fun i => (gaussianReal 0 1).map fun z =>
        mean i + covar i * Real.sinh (Real.arsinh (mean i + Real.sqrt (covar i) * z) + skew i) := by
  obtain ⟨L, rfl, h⟩ := lMatrix_factor (Matrix.posSemidef_diagonal_iff.2 h0) hl
  refine ⟨_, sinhArcsinh_comp mean covar skew L, ?_⟩
  have hc : Measurable fun z : Fin n → ℝ => mean + L.mulVec z :=
    (continuous_const.add (continuous_const.matrix_mulVec continuous_id)).measurable
  have hg : ∀ i, Measurable fun x : ℝ => mean i + covar i * Real.sinh (Real.arsinh x + skew i) := fun i =>
    (continuous_skew _ _ _).measurable
  have hg' : Measurable fun (x : Fin n → ℝ) i => mean i + covar i * Real.sinh (Real.arsinh (x i) + skew i) :=
    measurable_pi_iff.2 fun i => (hg i).comp (measurable_pi_apply i)
  rw [show (fun (z : Fin n → ℝ) i => mean i + covar i * Real.sinh (Real.arsinh ((mean + L.mulVec z) i) + skew i)) =
      (fun (x : Fin n → ℝ) i => mean i + covar i * Real.sinh (Real.arsinh (x i) + skew i)) ∘
        fun z => mean + L.mulVec z from rfl, ← Measure.map_map hg' hc, law_diagonal mean covar L h0 h,
    Measure.pi_map_pi fun i => (hg i).aemeasurable]
  congr 1
  funext i
  rw [Measure.map_map (hg i) (by fun_prop)]
  rfl

/-- The distributions of one component agree only if it has no width, or is the standard one. -/
theorem component_iff (m c e : ℝ) (h0 : 0 ≤ c) :
    ((gaussianReal 0 1).map fun z => m + c * Real.sinh (Real.arsinh (m + Real.sqrt c * z) + e)) =
      sinhArcsinhLaw m c e ↔ c = 0 ∨ m = 0 ∧ c = 1 := by
  constructor
  · intro h
    by_cases hc : c = 0
    · exact .inl hc
    have hpos : 0 < c := lt_of_le_of_ne h0 (Ne.symm hc)
    have hs : 0 < Real.sqrt c := Real.sqrt_pos.2 hpos
    have hfg := law_injective
      (f := fun z => m + c * Real.sinh (Real.arsinh (m + Real.sqrt c * z) + e))
      (g := fun z => m + c * Real.sinh (Real.arsinh z + e))
      (fun a b hab => by
        have : m + Real.sqrt c * a < m + Real.sqrt c * b := by nlinarith
        have := Real.sinh_strictMono (add_lt_add_left (Real.arsinh_strictMono this) e)
        dsimp only
        nlinarith)
      (fun a b hab => by
        have := Real.sinh_strictMono (add_lt_add_left (Real.arsinh_strictMono hab) e)
        dsimp only
        nlinarith)
      (continuous_skewed _ _ _ _ _) (continuous_skew _ _ _) h
    have key : ∀ z, m + Real.sqrt c * z = z := fun z => by
      have h1 := congrFun hfg z
      have h2 := mul_left_cancel₀ hc (add_left_cancel h1)
      exact Real.arsinh_injective (add_right_cancel (Real.sinh_injective h2))
    have k0 := key 0
    have k1 := key 1
    have hm : m = 0 := by simpa using k0
    refine .inr ⟨hm, ?_⟩
    rw [hm, zero_add, mul_one] at k1
    rw [← Real.sq_sqrt h0, k1, one_pow]
  · rintro (rfl | ⟨rfl, rfl⟩)
    · simp [sinhArcsinhLaw]
    · simp [sinhArcsinhLaw]

/-- C114 holds exactly for the models whose components each have no width, or mean zero and width one:
everything else is sampled from another distribution. -/
theorem C114_iff_partial (mean covar skew : Fin n → ℝ) (h0 : ∀ i, 0 ≤ covar i)
    {l : Option (Matrix (Fin n) (Fin n) ℝ)} (hl : LMatrix (Matrix.diagonal covar) l) :
    ∃ f : (Fin n → ℝ) → Fin n → ℝ, (∀ z, randSinhArcsinhNd mean covar skew l z = some (f z)) ∧
      ((normals).map f = (Measure.pi fun i => sinhArcsinhLaw (mean i) (covar i) (skew i)) ↔
        ∀ i, covar i = 0 ∨ mean i = 0 ∧ covar i = 1) := by
  obtain ⟨f, h1, h2⟩ := C114_law mean covar skew h0 hl
  refine ⟨f, h1, ?_⟩
  have i1 : ∀ i, IsProbabilityMeasure ((gaussianReal 0 1).map fun z =>
        mean i + covar i * Real.sinh (Real.arsinh (mean i + Real.sqrt (covar i) * z) + skew i)) := fun i =>
    Measure.isProbabilityMeasure_map (continuous_skewed _ _ _ _ _).measurable.aemeasurable
  have i2 : ∀ i, IsProbabilityMeasure (sinhArcsinhLaw (mean i) (covar i) (skew i)) := fun i =>
    Measure.isProbabilityMeasure_map (continuous_skew _ _ _).measurable.aemeasurable
  rw [h2]
  constructor
  · intro h i
    refine (component_iff (mean i) (covar i) (skew i) (h0 i)).1 ?_
    have := congrArg (Measure.map (Function.eval i)) h
    rwa [(measurePreserving_eval _ i).map_eq, (measurePreserving_eval _ i).map_eq] at this
  · intro h
    congr 1
    funext i
    exact (component_iff (mean i) (covar i) (skew i) (h0 i)).2 (h i)

/-- C114 is false. Without skew the model describes a normal variable with mean `mean` and standard deviation
`covar`, but the samples have the mean `mean (1 + covar)` and the variance `covar ^ 3`. -/
theorem C114_refuted (mean covar skew : Fin n → ℝ) (h0 : ∀ i, 0 ≤ covar i)
    {l : Option (Matrix (Fin n) (Fin n) ℝ)} (hl : LMatrix (Matrix.diagonal covar) l) (i : Fin n)
    (hi : skew i = 0) :
    sinhArcsinhLaw (mean i) (covar i) (skew i) = gaussianReal (mean i) (covar i ^ 2).toNNReal ∧
    ∃ f : (Fin n → ℝ) → Fin n → ℝ, (∀ z, randSinhArcsinhNd mean covar skew l z = some (f z)) ∧
      (normals).map (fun z => f z i) = gaussianReal (mean i * (1 + covar i)) (covar i ^ 3).toNNReal := by
  have affine : ∀ a b : ℝ, (gaussianReal 0 1).map (fun z => a + b * z) = gaussianReal a (b ^ 2).toNNReal := by
    intro a b
    rw [show (fun z : ℝ => a + b * z) = (fun x => a + x) ∘ fun z => b * z from rfl,
      ← Measure.map_map (by fun_prop) (by fun_prop), gaussianReal_map_const_mul, gaussianReal_map_const_add]
    congr 1
    · ring
    · ext; simp [Real.coe_toNNReal _ (sq_nonneg b)]
  constructor
  · unfold sinhArcsinhLaw
    simp only [hi, add_zero, Real.sinh_arsinh]
    exact affine _ _
  · obtain ⟨f, h1, h2⟩ := C114_law mean covar skew h0 hl
    refine ⟨f, h1, ?_⟩
    have i1 : ∀ i, IsProbabilityMeasure ((gaussianReal 0 1).map fun z =>
        mean i + covar i * Real.sinh (Real.arsinh (mean i + Real.sqrt (covar i) * z) + skew i)) := fun i =>
      Measure.isProbabilityMeasure_map (continuous_skewed _ _ _ _ _).measurable.aemeasurable
    have hf : Measurable f := by
      obtain ⟨L, rfl, -⟩ := lMatrix_factor (Matrix.posSemidef_diagonal_iff.2 h0) hl
      have hf : f = fun z i => mean i + covar i * Real.sinh (Real.arsinh ((mean + L.mulVec z) i) + skew i) := by
        funext z
        have := h1 z
        rw [sinhArcsinh_comp] at this
        exact (Option.some.inj this).symm
      rw [hf]
      have hc : Continuous fun z : Fin n → ℝ => mean + L.mulVec z :=
        continuous_const.add (continuous_const.matrix_mulVec continuous_id)
      refine measurable_pi_iff.2 fun j => ?_
      have hj : Continuous fun z : Fin n → ℝ => (mean + L.mulVec z) j := (continuous_apply j).comp hc
      exact (continuous_const.add (continuous_const.mul (Real.continuous_sinh.comp
        ((Real.continuous_arsinh.comp hj).add continuous_const)))).measurable
    have h3 := congrArg (Measure.map (Function.eval i)) h2
    rw [(measurePreserving_eval _ i).map_eq, Measure.map_map (measurable_pi_apply i) hf] at h3
    refine Eq.trans h3 ?_
    simp only [hi, add_zero, Real.sinh_arsinh]
    rw [show (fun z => mean i + covar i * (mean i + Real.sqrt (covar i) * z)) =
      fun z => mean i * (1 + covar i) + (covar i * Real.sqrt (covar i)) * z from by funext z; ring, affine]
    congr 2
    rw [mul_pow, Real.sq_sqrt (h0 i)]
    ring

/-- Three components of width two around one: the model describes the mean one and the variance four, the
samples have the mean three and the variance eight. -/
example : ∃ l, LMatrix (Matrix.diagonal fun _ : Fin 3 => (2 : ℝ)) l ∧
    gaussianReal (1 * (1 + 2)) ((2 : ℝ) ^ 3).toNNReal ≠ gaussianReal 1 ((2 : ℝ) ^ 2).toNNReal := by
  obtain ⟨l, hl⟩ := C113_total (Matrix.diagonal fun _ : Fin 3 => (2 : ℝ))
  refine ⟨l, hl, fun h => ?_⟩
  have := (gaussianReal_ext_iff.1 h).1
  norm_num at this

end QED
