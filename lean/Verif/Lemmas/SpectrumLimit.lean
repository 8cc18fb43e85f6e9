import Verif.Spec.SpectrumLimit
import Verif.Spec.Reaction
import Verif.Lemmas.Rates
import Mathlib.MeasureTheory.Integral.DominatedConvergence

set_option autoImplicit false

/-!
# The radiated spectrum depends continuously on time, place and momentum
-/

namespace QED

open Filter Topology MeasureTheory

theorem continuousAt_quantumParameter {X : Type} [TopologicalSpace X] {e b p : X → Fin 3 → ℝ} {t : X → ℝ} {x : X}
    (he : ContinuousAt e x) (hb : ContinuousAt b x) (hp : ContinuousAt p x) (ht : ContinuousAt t x) :
    ContinuousAt (fun x => quantumParameter (fieldTensor (V3.ofVec (e x)) (V3.ofVec (b x)))
      (fourVector (t x) (V3.ofVec (p x)))) x := by
  have key := continuous_quantumParameter (X := (Fin 3 → ℝ) × (Fin 3 → ℝ) × (Fin 3 → ℝ) × ℝ)
    (e := fun y => y.1) (b := fun y => y.2.1) (p := fun y => y.2.2.1) (t := fun y => y.2.2.2)
    (by fun_prop) (by fun_prop) (by fun_prop) (by fun_prop)
  exact key.continuousAt.comp (f := fun x => (e x, b x, p x, t x)) (he.prodMk (hb.prodMk (hp.prodMk ht)))

variable {field : Field ℝ} {U : Set (ℝ × (Fin 3 → ℝ))}

theorem FieldC4.eta_at (hf : FieldC4 field U) (hU : IsOpen U) (m : ℝ) {w : ℝ × Phase} (hw : (w.1, w.2.1) ∈ U) :
    ContinuousAt (fun w : ℝ × Phase => etaOf m field w.1 w.2) w := by
  have hn := hU.mem_nhds hw
  have hmap : ContinuousAt (fun w : ℝ × Phase => (w.1, w.2.1)) w := by fun_prop
  have he := ((hf.1.continuousOn).continuousAt hn).comp (f := fun w : ℝ × Phase => (w.1, w.2.1)) hmap
  have hb := ((hf.2.continuousOn).continuousAt hn).comp (f := fun w : ℝ × Phase => (w.1, w.2.1)) hmap
  unfold etaOf
  exact continuousAt_quantumParameter he hb
    (continuous_pi fun i => ((continuous_apply i).comp (continuous_snd.comp continuous_snd)).div_const _).continuousAt
    ((continuous_gammaOf m).comp (continuous_snd.comp continuous_snd)).continuousAt

theorem len_nonneg' (v : Fin 3 → ℝ) : 0 ≤ len v := Real.sqrt_nonneg _

theorem abs_le_len (v : Fin 3 → ℝ) (i : Fin 3) : |v i| ≤ len v := by
  unfold len
  rw [← Real.sqrt_sq_eq_abs]
  apply Real.sqrt_le_sqrt
  fin_cases i <;> simp <;> nlinarith [sq_nonneg (v 0), sq_nonneg (v 1), sq_nonneg (v 2)]

theorem norm_le_len (v : Fin 3 → ℝ) : ‖v‖ ≤ len v :=
  (pi_norm_le_iff_of_nonneg (len_nonneg' v)).2 fun i => by rw [Real.norm_eq_abs]; exact abs_le_len v i

theorem continuous_len : Continuous len := by
  unfold len
  fun_prop

theorem len_ne {v : Fin 3 → ℝ} (h : v ≠ 0) : len v ≠ 0 := by
  intro h0
  apply h
  ext i
  have := abs_le_len v i
  rw [h0] at this
  simpa using abs_nonpos_iff.1 this

theorem norm_direction (v : Fin 3 → ℝ) : ‖(len v)⁻¹ • v‖ ≤ 1 := by
  rw [norm_smul, Real.norm_eq_abs, abs_inv, abs_of_nonneg (len_nonneg' v)]
  exact inv_mul_le_one_of_le₀ (norm_le_len v) (len_nonneg' v)

/-- The mean over the spectrum is continuous. -/
theorem spectrum_continuousAt {O : Set ℝ} {logh : ℝ → ℝ} {chi : ℝ → ℝ → ℝ} (ht : ContinuousTables O logh chi)
    {φ : (Fin 3 → ℝ) → ℝ} (hφ : Continuous φ) (m : ℝ) (hf : FieldC4 field U) (hU : IsOpen U) {w : ℝ × Phase}
    (hw : (w.1, w.2.1) ∈ U) (hp : w.2.2 ≠ 0) (hO : etaOf m field w.1 w.2 ∈ O) :
    ContinuousAt (fun w : ℝ × Phase => ∫ v in Set.Ico (0 : ℝ) 1, φ (radiatedMomentum chi m field w.1 w.2 v)) w := by
  have hη := hf.eta_at hU m hw
  have hη0 := ht.pos _ hO
  have hγ : ContinuousAt (fun w : ℝ × Phase => gammaOf m w.2.2) w :=
    ((continuous_gammaOf m).comp (continuous_snd.comp continuous_snd)).continuousAt
  have hevO : ∀ᶠ x : ℝ × Phase in 𝓝 w, etaOf m field x.1 x.2 ∈ O := hη.eventually_mem (ht.opens.mem_nhds hO)
  have hratio : ContinuousAt (fun w : ℝ × Phase => gammaOf m w.2.2 / etaOf m field w.1 w.2) w := hγ.div hη hη0.ne'
  obtain ⟨B, hB⟩ := ht.bound _ hO
  have hevB := hη.eventually hB
  obtain ⟨M, hM⟩ : ∃ M, M = gammaOf m w.2.2 / etaOf m field w.1 w.2 + 1 := ⟨_, rfl⟩
  have hevM : ∀ᶠ x : ℝ × Phase in 𝓝 w, gammaOf m x.2.2 / etaOf m field x.1 x.2 < M :=
    hratio.eventually_lt continuousAt_const (by rw [hM]; linarith)
  obtain ⟨C, hC⟩ := (isCompact_closedBall (0 : Fin 3 → ℝ) (2 * B * M)).exists_bound_of_continuousOn hφ.continuousOn
  refine continuousAt_of_dominated (bound := fun _ => C) ?_ ?_ (integrable_const _) ?_
  · filter_upwards [hevO] with x hx
    refine (Measurable.aestronglyMeasurable ?_)
    unfold radiatedMomentum
    refine hφ.measurable.comp (measurable_pi_iff.2 fun i => ?_)
    simp only [Pi.smul_apply, smul_eq_mul]
    exact ((((ht.measurable _ hx).const_mul 2).mul_const _).div_const _).mul_const _
  · filter_upwards [hevO, hevB, hevM] with x h1 h2 h3
    refine (ae_restrict_iff' measurableSet_Ico).2 (ae_of_all _ fun v hv => hC _ ?_)
    rw [mem_closedBall_zero_iff]
    unfold radiatedMomentum
    rw [norm_smul, Real.norm_eq_abs]
    have hs := ht.sign _ h1 v hv
    have h0 := ht.pos _ h1
    have hg := gammaOf_pos m x.2.2
    have hchi := h2 v hv
    have e1 : |2 * chi (etaOf m field x.1 x.2) v * gammaOf m x.2.2 / etaOf m field x.1 x.2| =
        2 * chi (etaOf m field x.1 x.2) v * (gammaOf m x.2.2 / etaOf m field x.1 x.2) := by
      rw [abs_of_nonneg (by positivity), mul_div_assoc]
    rw [e1]
    have hr : 0 ≤ gammaOf m x.2.2 / etaOf m field x.1 x.2 := by positivity
    have a1 : 2 * chi (etaOf m field x.1 x.2) v * (gammaOf m x.2.2 / etaOf m field x.1 x.2) ≤ 2 * B * M :=
      mul_le_mul (by linarith) h3.le hr (by linarith)
    calc _ ≤ 2 * chi (etaOf m field x.1 x.2) v * (gammaOf m x.2.2 / etaOf m field x.1 x.2) * 1 :=
          mul_le_mul_of_nonneg_left (norm_direction _) (by positivity)
      _ ≤ _ := by linarith
  · refine (ae_restrict_iff' measurableSet_Ico).2 (ae_of_all _ fun v hv => hφ.continuousAt.comp ?_)
    unfold radiatedMomentum
    have hc : ContinuousAt (fun x : ℝ × Phase => chi (etaOf m field x.1 x.2) v) w :=
      ((ht.photon v hv).continuousAt (ht.opens.mem_nhds hO)).comp
        (f := fun x : ℝ × Phase => etaOf m field x.1 x.2) hη
    have hl : ContinuousAt (fun x : ℝ × Phase => (len x.2.2)⁻¹ • x.2.2) w :=
      ((continuous_len.comp (continuous_snd.comp continuous_snd)).continuousAt.inv₀ (len_ne hp)).smul
        (continuous_snd.comp continuous_snd).continuousAt
    exact (((continuousAt_const.mul hc).mul hγ).div hη hη0.ne').smul hl

theorem spectralRate_continuousAt {O : Set ℝ} {logh : ℝ → ℝ} {chi : ℝ → ℝ → ℝ} (ht : ContinuousTables O logh chi)
    {φ : (Fin 3 → ℝ) → ℝ} (hφ : Continuous φ) (m : ℝ) (hf : FieldC4 field U) (hU : IsOpen U) {w : ℝ × Phase}
    (hw : (w.1, w.2.1) ∈ U) (hp : w.2.2 ≠ 0) (hO : etaOf m field w.1 w.2 ∈ O) :
    ContinuousAt (fun w : ℝ × Phase => spectralRate logh chi φ m field w.1 w.2) w := by
  have hη := hf.eta_at hU m hw
  have hl : ContinuousAt (fun w : ℝ × Phase => logh (etaOf m field w.1 w.2)) w :=
    (ht.rate.continuousAt (ht.opens.mem_nhds hO)).comp (f := fun x : ℝ × Phase => etaOf m field x.1 x.2) hη
  have hg : ContinuousAt (fun z : ℝ × Phase => gammaOf m z.2.2 * 2 * Units.pi) w :=
    (((continuous_gammaOf m).comp (continuous_snd.comp continuous_snd)).mul_const 2 |>.mul_const _).continuousAt
  unfold spectralRate
  refine (((continuousAt_const.mul hη).mul (continuousAt_const.rpow hl (Or.inl (by norm_num)))).div hg ?_).mul
    (spectrum_continuousAt ht hφ m hf hU hw hp hO)
  have := gammaOf_pos m w.2.2
  have hp : (0:ℝ) < Units.pi := by simp only [Units.pi, real_lit]; norm_num
  positivity

end QED
