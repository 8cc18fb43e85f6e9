import Verif.Props.OrderFields
import Mathlib.Analysis.ODE.ExistUnique

set_option autoImplicit false

/-!
# Motions exist for some time in smooth fields
-/

namespace QED

open Dbl Set Matrix

/-- In a smooth field every particle with mass has a motion for some time. -/
theorem local_motion {field : Field ℝ} {U : Set (ℝ × (Fin 3 → ℝ))} (hU : IsOpen U) (hf : FieldC4 field U) {m : ℝ}
    (hm : 0 < m) (q t : ℝ) (y0 : Phase) (h0 : (t, y0.1) ∈ U) :
    ∃ (T : ℝ) (y : ℝ → Phase), 0 < T ∧ y t = y0 ∧
      (∀ s ∈ Icc t (t + T), HasDerivWithinAt y (motion m (lorentz m q field) s (y s)) (Icc t (t + T)) s) ∧
      ∀ s ∈ Icc t (t + T), (s, (y s).1) ∈ U := by
  have hc : ContDiffAt ℝ 1 (fun z : ℝ × Phase => ((1 : ℝ), motion m (lorentz m q field) z.1 z.2)) (t, y0) := by
    refine contDiffAt_const.prodMk ?_
    exact ((velocity_contDiff hm).contDiffAt.prodMk (lorentz_at hU hf hm q (z := (t, y0)) h0)).of_le (by norm_num)
  obtain ⟨a, ha, ε, hε, hd⟩ := hc.exists_forall_mem_closedBall_exists_eq_forall_mem_Ioo_hasDerivAt₀ t
  have htime : ∀ s ∈ Ioo (t - ε) (t + ε), (a s).1 = s := by
    have hz : ∀ s ∈ Ioo (t - ε) (t + ε), HasDerivAt (fun s => (a s).1 - s) 0 s := by
      intro s hs
      have h1 : HasDerivAt (fun s => (a s).1) 1 s := by
        refine HasDerivAt.congr_deriv (hd s hs).hasFDerivAt.fst.hasDerivAt ?_
        simp
      exact HasDerivAt.congr_deriv (h1.fun_sub (hasDerivAt_id s)) (by simp)
    intro s hs
    have := (isOpen_Ioo (a := t - ε) (b := t + ε)).is_const_of_deriv_eq_zero isPreconnected_Ioo
      (fun s hs => (hz s hs).differentiableAt.differentiableWithinAt) (fun s hs => (hz s hs).deriv) hs
      (⟨by linarith, by linarith⟩ : t ∈ Ioo (t - ε) (t + ε))
    simp only [ha, sub_self] at this
    linarith
  have hy : ∀ s ∈ Ioo (t - ε) (t + ε), HasDerivAt (fun s => (a s).2) (motion m (lorentz m q field) s (a s).2) s := by
    intro s hs
    have h1 : HasDerivAt (fun s => (a s).2) (motion m (lorentz m q field) (a s).1 (a s).2) s :=
      HasDerivAt.congr_deriv (hd s hs).hasFDerivAt.snd.hasDerivAt (by simp)
    rwa [htime s hs] at h1
  have hcont : ContinuousAt (fun s => (s, ((a s).2).1)) t :=
    continuousAt_id.prodMk (continuous_fst.continuousAt.comp (hy t ⟨by linarith, by linarith⟩).continuousAt)
  have hmem : ∀ᶠ s in nhds t, (s, ((a s).2).1) ∈ U := by
    refine hcont.eventually_mem (hU.mem_nhds ?_)
    rw [ha]
    exact h0
  obtain ⟨η, hη, hball⟩ := Metric.eventually_nhds_iff.1 hmem
  refine ⟨min ε η / 2, fun s => (a s).2, by positivity, congrArg Prod.snd ha, fun s hs => ?_, fun s hs => ?_⟩
  · refine (hy s ⟨by linarith [hs.1], ?_⟩).hasDerivWithinAt
    have := min_le_left ε η
    linarith [hs.2]
  · refine hball ?_
    rw [Real.dist_eq, abs_of_nonneg (by linarith [hs.1])]
    have := min_le_right ε η
    linarith [hs.2]

end QED
