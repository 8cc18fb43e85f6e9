import Verif.Spec.Bunch
import Verif.Lemmas.Multivariate

set_option autoImplicit false

/-!
# Laws of the samples behind a bunch
-/

namespace QED.Bunch

open MeasureTheory ProbabilityTheory WithLp
open scoped Matrix

theorem turn_nonneg : 0 ≤ turn := by unfold turn; norm_num

instance uniform_prob (a b : ℝ) : IsProbabilityMeasure (uniform a b) := by
  unfold uniform
  split
  · next h =>
    apply cond_isProbabilityMeasure_of_finite
    · simpa using h
    · simp
  · infer_instance

/-- Shifting and stretching the uniform distribution. -/
theorem uniform_map {a b : ℝ} (h : a ≤ b) : (uniform 0 1).map (fun u => u * (b - a) + a) = uniform a b := by
  rcases h.eq_or_lt with rfl | h
  · simp only [sub_self, mul_zero, zero_add]
    rw [Measure.map_const, measure_univ, one_smul]
    simp [uniform]
  · have hc : 0 < b - a := by linarith
    unfold uniform
    rw [if_pos one_pos, if_pos h]
    ext t ht
    have hf : Measurable fun u : ℝ => u * (b - a) + a := by fun_prop
    rw [Measure.map_apply hf ht, cond_apply measurableSet_Ico, cond_apply measurableSet_Ico]
    have e : Set.Ico (0 : ℝ) 1 ∩ (fun u : ℝ => u * (b - a) + a) ⁻¹' t =
        (fun u : ℝ => u * (b - a)) ⁻¹' ((fun x : ℝ => x + a) ⁻¹' (Set.Ico a b ∩ t)) := by
      ext u
      simp only [Set.mem_inter_iff, Set.mem_Ico, Set.mem_preimage]
      constructor
      · rintro ⟨⟨h1, h2⟩, h3⟩
        exact ⟨⟨by nlinarith, by nlinarith⟩, h3⟩
      · rintro ⟨⟨h1, h2⟩, h3⟩
        refine ⟨⟨?_, ?_⟩, h3⟩
        · by_contra hu; nlinarith
        · by_contra hu; nlinarith
    rw [e, Real.volume_preimage_mul_right hc.ne', measure_preimage_add_right]
    rw [Real.volume_Ico, Real.volume_Ico, abs_of_pos (inv_pos.mpr hc), ENNReal.ofReal_inv_of_pos hc]
    simp

/-- Shifting and stretching the standard normal distribution. -/
theorem normal_map (m s : ℝ) :
    (gaussianReal 0 1).map (fun z => z * s + m) = gaussianReal m (Real.toNNReal (s ^ 2)) := by
  have e : (fun z : ℝ => z * s + m) = (fun x => x + m) ∘ fun z => z * s := rfl
  rw [e, ← Measure.map_map (by fun_prop) (by fun_prop), gaussianReal_map_mul_const,
    gaussianReal_map_add_const]
  congr 1
  · simp
  · ext; simp [sq_nonneg]

instance rawLaw_prob (g : Prop) [Decidable g] : IsProbabilityMeasure (rawLaw g) := by
  unfold rawLaw
  split <;> infer_instance

instance energyLaw_prob (g : Prop) [Decidable g] (a b : ℝ) : IsProbabilityMeasure (energyLaw g a b) := by
  unfold energyLaw
  split <;> infer_instance

/-- The energy drawn from a raw number. -/
noncomputable def energyOf (g : Prop) [Decidable g] (a b u : ℝ) : ℝ :=
  if g then u * b + a else u * (b - a) + a

theorem energy_map (g : Prop) [Decidable g] {a b : ℝ} (h : g ∨ a ≤ b) :
    (if g then gaussianReal 0 1 else uniform 0 1 : Measure ℝ).map (energyOf g a b) = energyLaw g a b := by
  unfold energyLaw
  by_cases hg : g
  · have : energyOf g a b = fun u => u * b + a := by funext u; simp [energyOf, hg]
    rw [if_pos hg, if_pos hg, this, normal_map]
  · have : energyOf g a b = fun u => u * (b - a) + a := by funext u; simp [energyOf, hg]
    rw [if_neg hg, if_neg hg, this, uniform_map (h.resolve_left hg)]

theorem measurable_energyOf (g : Prop) [Decidable g] (a b : ℝ) : Measurable (energyOf g a b) := by
  unfold energyOf
  split <;> fun_prop

/-- The covariance of a rotated cloud. -/
theorem rotated_covariance (R : Matrix (Fin 3) (Fin 3) ℝ) (hR : IsRotation R) (r t : ℝ) :
    (R * Matrix.diagonal ![r, r, t]) * (R * Matrix.diagonal ![r, r, t]).transpose =
      covariance r t (fun i => R i 2) := by
  have hRR : R * R.transpose = 1 := mul_eq_one_comm.mp hR.1
  rw [Matrix.transpose_mul, Matrix.diagonal_transpose, Matrix.mul_assoc, ← Matrix.mul_assoc (Matrix.diagonal _),
    Matrix.diagonal_mul_diagonal]
  ext i j
  have hij := congrFun (congrFun hRR i) j
  simp only [Matrix.mul_apply, Matrix.transpose_apply, Fin.sum_univ_three, Matrix.diagonal_apply] at hij ⊢
  simp [covariance, Matrix.vecMulVec_apply, ← hij]
  ring

/-- The law of the places of a rotated cloud. -/
theorem place_law (R : Matrix (Fin 3) (Fin 3) ℝ) (hR : IsRotation R) (x : Fin 3 → ℝ) (r t : ℝ) :
    (Measure.pi fun _ : Fin 3 => gaussianReal 0 1).map
        (fun z => (toLp 2 (x + (R * Matrix.diagonal ![r, r, t]).mulVec z) : Space)) =
      multivariateGaussian (toLp 2 x) (covariance r t (fun i => R i 2)) := by
  rw [MCTools.law_affine, rotated_covariance R hR]

/-- What one particle is made of, from its raw numbers. -/
noncomputable def madeOf (R : Matrix (Fin 3) (Fin 3) ℝ) (x : Fin 3 → ℝ) (r t d : ℝ) (g : Prop) [Decidable g]
    (a b : ℝ) : Raw → Space × ℝ × ℝ × ℝ :=
  Prod.map (fun z => (toLp 2 (x + (R * Matrix.diagonal ![r, r, t]).mulVec z) : Space))
    (Prod.map (fun z => z * d + 0) (Prod.map (fun u => u * (turn - 0) + 0) (energyOf g a b)))

theorem measurable_place (L : Matrix (Fin 3) (Fin 3) ℝ) (x : Fin 3 → ℝ) :
    Measurable fun z : Fin 3 → ℝ => (toLp 2 (x + L.mulVec z) : Space) := by
  have : Continuous fun z : Fin 3 → ℝ => (toLp 2 (x + L.mulVec z) : Space) :=
    (PiLp.continuous_toLp 2 _).comp (continuous_const.add (continuous_const.matrix_mulVec continuous_id))
  exact this.measurable

theorem measurable_madeOf (R : Matrix (Fin 3) (Fin 3) ℝ) (x : Fin 3 → ℝ) (r t d : ℝ) (g : Prop) [Decidable g]
    (a b : ℝ) : Measurable (madeOf R x r t d g a b) :=
  (measurable_place _ _).prodMap (Measurable.prodMap (by fun_prop)
    (Measurable.prodMap (by fun_prop) (measurable_energyOf g a b)))

theorem madeOf_law (R : Matrix (Fin 3) (Fin 3) ℝ) (hR : IsRotation R) (x : Fin 3 → ℝ) (r t d : ℝ) (g : Prop)
    [Decidable g] {a b : ℝ} (h : g ∨ a ≤ b) :
    (rawLaw g).map (madeOf R x r t d g a b) = particleLaw x r t d (fun i => R i 2) (energyLaw g a b) := by
  have : IsProbabilityMeasure (if g then gaussianReal 0 1 else uniform 0 1 : Measure ℝ) := by
    split <;> infer_instance
  unfold rawLaw madeOf particleLaw
  rw [← Measure.map_prod_map _ _ (measurable_place _ _) (Measurable.prodMap (by fun_prop)
      (Measurable.prodMap (by fun_prop) (measurable_energyOf g a b))), place_law R hR,
    ← Measure.map_prod_map _ _ (by fun_prop) (Measurable.prodMap (by fun_prop) (measurable_energyOf g a b)),
    normal_map, ← Measure.map_prod_map _ _ (by fun_prop) (measurable_energyOf g a b),
    uniform_map turn_nonneg, energy_map g h]

instance particleLaw_prob (x : Fin 3 → ℝ) (r t d : ℝ) (n : Fin 3 → ℝ) (μ : Measure ℝ) [IsProbabilityMeasure μ] :
    IsProbabilityMeasure (particleLaw x r t d n μ) := by
  unfold particleLaw
  infer_instance

/-! ## Mean momentum -/

theorem mean_cos_sin (v : NNReal) : (∫ θ, Real.cos θ ∂gaussianReal 0 v) = Real.exp (-v / 2) ∧
    (∫ θ, Real.sin θ ∂gaussianReal 0 v) = 0 := by
  have h := charFun_gaussianReal (μ := 0) (v := v) 1
  rw [charFun_apply_real] at h
  have hi : Integrable (fun x : ℝ => Complex.exp ((1 : ℝ) * x * Complex.I)) (gaussianReal 0 v) := by
    apply Integrable.of_bound (C := 1) (by fun_prop)
    refine Filter.Eventually.of_forall fun x => ?_
    rw [show ((1 : ℝ) : ℂ) * x * Complex.I = (x : ℂ) * Complex.I by simp, Complex.norm_exp_ofReal_mul_I]
  have hre := congrArg Complex.re h
  have him := congrArg Complex.im h
  rw [← RCLike.re_eq_complex_re, ← integral_re hi] at hre
  rw [← RCLike.im_eq_complex_im, ← integral_im hi] at him
  have ec : Complex.exp ((1 : ℝ) * ((0 : ℝ) : ℂ) * Complex.I - (v : ℝ) * ((1 : ℝ) : ℂ) ^ 2 / 2) =
      ((Real.exp (-v / 2) : ℝ) : ℂ) := by
    rw [Complex.ofReal_exp]
    congr 1
    push_cast
    ring
  rw [ec, RCLike.re_eq_complex_re, Complex.ofReal_re] at hre
  rw [ec, RCLike.im_eq_complex_im, Complex.ofReal_im] at him
  constructor
  · rw [← hre]; simp [Complex.exp_ofReal_mul_I_re]
  · simpa [Complex.exp_ofReal_mul_I_im] using him

theorem mean_aimed (x : Fin 3 → ℝ) (r t d : ℝ) (n e₁ e₂ : Fin 3 → ℝ) (μ : Measure ℝ) [IsProbabilityMeasure μ]
    (hμ : Integrable (fun e => e) μ) (k : Fin 3) :
    ∫ q, aimed e₁ e₂ n q.2.1 q.2.2.1 q.2.2.2 k ∂particleLaw x r t d n μ =
      (∫ e, e ∂μ) * Real.exp (-(Real.toNNReal (d ^ 2) : ℝ) / 2) * n k := by
  obtain ⟨hc, hs⟩ := mean_cos_sin (Real.toNNReal (d ^ 2))
  have ic : Integrable Real.cos (gaussianReal 0 (Real.toNNReal (d ^ 2))) :=
    Integrable.of_bound (C := 1) (by fun_prop) (Filter.Eventually.of_forall fun x => by
      simpa using Real.abs_cos_le_one x)
  have is : Integrable Real.sin (gaussianReal 0 (Real.toNNReal (d ^ 2))) :=
    Integrable.of_bound (C := 1) (by fun_prop) (Filter.Eventually.of_forall fun x => by
      simpa using Real.abs_sin_le_one x)
  have ip : Integrable (fun φ => Real.cos φ * e₁ k + Real.sin φ * e₂ k) (uniform 0 turn) := by
    apply Integrable.of_bound (C := |e₁ k| + |e₂ k|) (by fun_prop)
    refine Filter.Eventually.of_forall fun φ => ?_
    rw [Real.norm_eq_abs]
    refine (abs_add_le _ _).trans (add_le_add ?_ ?_) <;> rw [abs_mul]
    · exact mul_le_of_le_one_left (abs_nonneg _) (Real.abs_cos_le_one _)
    · exact mul_le_of_le_one_left (abs_nonneg _) (Real.abs_sin_le_one _)
  have i1 : Integrable (fun q : ℝ × ℝ × ℝ => Real.cos q.1 * (n k * q.2.2))
      ((gaussianReal 0 (Real.toNNReal (d ^ 2))).prod ((uniform 0 turn).prod μ)) :=
    ic.mul_prod ((hμ.comp_snd _).const_mul _)
  have i2 : Integrable (fun q : ℝ × ℝ × ℝ => Real.sin q.1 *
        ((Real.cos q.2.1 * e₁ k + Real.sin q.2.1 * e₂ k) * q.2.2))
      ((gaussianReal 0 (Real.toNNReal (d ^ 2))).prod ((uniform 0 turn).prod μ)) :=
    is.mul_prod (ip.mul_prod hμ)
  have e : ∀ q : Space × ℝ × ℝ × ℝ, aimed e₁ e₂ n q.2.1 q.2.2.1 q.2.2.2 k =
      (fun p : ℝ × ℝ × ℝ => Real.cos p.1 * (n k * p.2.2) +
        Real.sin p.1 * ((Real.cos p.2.1 * e₁ k + Real.sin p.2.1 * e₂ k) * p.2.2)) q.2 := by
    intro q
    simp [aimed]
    ring
  simp only [e]
  unfold particleLaw
  rw [integral_fun_snd (fun p : ℝ × ℝ × ℝ => Real.cos p.1 * (n k * p.2.2) +
        Real.sin p.1 * ((Real.cos p.2.1 * e₁ k + Real.sin p.2.1 * e₂ k) * p.2.2)), integral_add i1 i2,
    integral_prod_mul (fun θ => Real.cos θ) (fun p : ℝ × ℝ => n k * p.2),
    integral_prod_mul (fun θ => Real.sin θ)
      (fun p : ℝ × ℝ => (Real.cos p.1 * e₁ k + Real.sin p.1 * e₂ k) * p.2), hc, hs,
    integral_fun_snd (fun e : ℝ => n k * e), integral_const_mul]
  simp
  ring

theorem energyLaw_mean (g : Prop) [Decidable g] {a b : ℝ} (ha : 0 < a) :
    Integrable (fun e => e) (energyLaw g a b) ∧ 0 < ∫ e, e ∂energyLaw g a b := by
  unfold energyLaw
  split
  · refine ⟨?_, ?_⟩
    · exact IsGaussian.integrable_id
    · rw [integral_id_gaussianReal]; exact ha
  · unfold uniform
    split
    · next h =>
      have hab : 0 < b - a := by linarith
      have ii : IntegrableOn (fun e : ℝ => e) (Set.Ico a b) volume :=
        (continuous_id.integrableOn_Icc (a := a) (b := b)).mono_set Set.Ico_subset_Icc_self
      refine ⟨?_, ?_⟩
      · unfold ProbabilityTheory.cond
        refine Integrable.smul_measure ii ?_
        simp [h]
      · unfold ProbabilityTheory.cond
        rw [integral_smul_measure]
        apply smul_pos
        · rw [ENNReal.toReal_inv]
          apply inv_pos.mpr
          rw [Real.volume_Ico, ENNReal.toReal_ofReal hab.le]
          exact hab
        · refine (setIntegral_pos_iff_support_of_nonneg_ae ?_ ii).mpr ?_
          · refine (ae_restrict_iff' measurableSet_Ico).mpr (Filter.Eventually.of_forall fun x hx => ?_)
            exact ha.le.trans hx.1
          · refine lt_of_lt_of_le ?_ (measure_mono (s := Set.Ico a b) ?_)
            · simpa using h
            · intro x hx
              exact ⟨(ha.trans_le hx.1).ne', hx⟩
    · refine ⟨integrable_dirac (by simp), ?_⟩
      rw [integral_dirac]; exact ha

end QED.Bunch
