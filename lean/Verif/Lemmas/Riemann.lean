import Mathlib.MeasureTheory.Integral.IntervalIntegral.Basic
import Mathlib.MeasureTheory.Integral.IntervalIntegral.FundThmCalculus
import Mathlib.Topology.UniformSpace.HeineCantor

set_option autoImplicit false

/-!
# Sums along an approximate path
-/

namespace QED

open Filter Topology

theorem sum_to_integral {f : ℝ → ℝ} {a T : ℝ} (hT : 0 ≤ T) (hf : ContinuousOn f (Set.Icc a (a + T)))
    {v : Nat → Nat → ℝ} (hv : ∀ ε > 0, ∃ N, ∀ n ≥ N, ∀ k < n + 1,
      |v n k - f (a + ((k + 1 : Nat) : ℝ) * (T / (n + 1)))| ≤ ε) :
    Tendsto (fun n : Nat => ∑ k ∈ Finset.range (n + 1), T / (n + 1) * v n k) atTop
      (𝓝 (∫ x in a..a + T, f x)) := by
  rw [Metric.tendsto_atTop]
  intro ε hε
  obtain ⟨η, hη⟩ : ∃ η, η = ε / (4 * (T + 1)) := ⟨_, rfl⟩
  have hη0 : 0 < η := by rw [hη]; positivity
  have hu := isCompact_Icc.uniformContinuousOn_of_continuous hf
  obtain ⟨δ, hδ0, hδ⟩ := Metric.uniformContinuousOn_iff.mp hu η hη0
  obtain ⟨N1, h1⟩ := hv η hη0
  obtain ⟨N2, h2⟩ := exists_nat_gt (T / δ)
  refine ⟨max N1 N2, fun n hn => ?_⟩
  have hn1 : N1 ≤ n := le_trans (le_max_left _ _) hn
  have hn2 : N2 ≤ n := le_trans (le_max_right _ _) hn
  set h : ℝ := T / (n + 1) with hh
  have hpos : (0:ℝ) < n + 1 := by positivity
  have hh0 : 0 ≤ h := div_nonneg hT hpos.le
  have hhT : (n + 1) * h = T := by rw [hh]; field_simp
  have hhd : h < δ := by
    rw [hh, div_lt_iff₀ hpos]
    rw [div_lt_iff₀ hδ0] at h2
    have : (N2 : ℝ) ≤ n := by exact_mod_cast hn2
    nlinarith
  have hmem : ∀ k ≤ n + 1, a + (k : ℝ) * h ∈ Set.Icc a (a + T) := by
    intro k hk
    have hk' : (k : ℝ) ≤ n + 1 := by exact_mod_cast hk
    have : (k : ℝ) * h ≤ (n + 1) * h := mul_le_mul_of_nonneg_right hk' hh0
    constructor
    · have : 0 ≤ (k : ℝ) * h := by positivity
      linarith
    · linarith
  have hint : ∀ k < n + 1, IntervalIntegrable f MeasureTheory.volume (a + (k : ℝ) * h)
      (a + ((k + 1 : Nat) : ℝ) * h) := by
    intro k hk
    refine ContinuousOn.intervalIntegrable (hf.mono ?_)
    rw [Set.uIcc_of_le (by push_cast; linarith)]
    exact Set.Icc_subset_Icc (hmem k (by omega)).1 (hmem (k + 1) (by omega)).2
  have hsum := intervalIntegral.sum_integral_adjacent_intervals (f := f) (μ := MeasureTheory.volume)
    (a := fun k : Nat => a + (k : ℝ) * h) (n := n + 1) hint
  have hends : a + ((0 : Nat) : ℝ) * h = a ∧ a + ((n + 1 : Nat) : ℝ) * h = a + T := by
    constructor
    · simp
    · push_cast; linarith
  rw [hends.1, hends.2] at hsum
  rw [← hsum, Real.dist_eq, ← Finset.sum_sub_distrib]
  have hterm : ∀ k ∈ Finset.range (n + 1),
      |h * v n k - ∫ x in (a + (k : ℝ) * h)..(a + ((k + 1 : Nat) : ℝ) * h), f x| ≤ 2 * η * h := by
    intro k hk
    have hk := Finset.mem_range.mp hk
    have hlen : (a + ((k + 1 : Nat) : ℝ) * h) - (a + (k : ℝ) * h) = h := by push_cast; ring
    have hc : h * v n k = ∫ _ in (a + (k : ℝ) * h)..(a + ((k + 1 : Nat) : ℝ) * h), v n k := by
      rw [intervalIntegral.integral_const, hlen, smul_eq_mul]
    rw [hc, ← intervalIntegral.integral_sub (intervalIntegrable_const) (hint k hk), ← Real.norm_eq_abs]
    refine (intervalIntegral.norm_integral_le_of_norm_le_const (C := 2 * η) ?_).trans ?_
    · intro x hx
      rw [Set.uIoc_of_le (by linarith)] at hx
      have hx' : x ∈ Set.Icc a (a + T) :=
        ⟨(hmem k (by omega)).1.trans hx.1.le, hx.2.trans (hmem (k + 1) (by omega)).2⟩
      have hd := hδ _ (hmem (k + 1) (by omega)) x hx' (by
        rw [Real.dist_eq, abs_of_nonneg (by linarith [hx.2])]
        linarith [hx.1])
      rw [Real.dist_eq] at hd
      have hv' := h1 n hn1 k hk
      rw [Real.norm_eq_abs]
      calc |v n k - f x| = |(v n k - f (a + ((k + 1 : Nat) : ℝ) * h)) +
            (f (a + ((k + 1 : Nat) : ℝ) * h) - f x)| := by ring_nf
        _ ≤ _ := abs_add_le _ _
        _ ≤ 2 * η := by linarith
    · rw [hlen, abs_of_nonneg hh0]
  calc _ ≤ ∑ k ∈ Finset.range (n + 1),
        |h * v n k - ∫ x in (a + (k : ℝ) * h)..(a + ((k + 1 : Nat) : ℝ) * h), f x| :=
        Finset.abs_sum_le_sum_abs _ _
    _ ≤ ∑ _k ∈ Finset.range (n + 1), 2 * η * h := Finset.sum_le_sum hterm
    _ = 2 * η * T := by
      rw [Finset.sum_const, Finset.card_range, nsmul_eq_mul]; push_cast; rw [← hhT]; ring
    _ < ε := by
      rw [hη]
      have : 2 * (ε / (4 * (T + 1))) * T = ε * (T / (2 * (T + 1))) := by field_simp; ring
      rw [this]
      have : T / (2 * (T + 1)) < 1 := by rw [div_lt_one (by positivity)]; linarith
      nlinarith

/-- A function that is continuous at all points of a path varies little near the path, uniformly. -/
theorem near_path {E : Type} [PseudoMetricSpace E] {g : E → ℝ} {c : ℝ → E} {a b : ℝ}
    (hc : ContinuousOn c (Set.Icc a b)) (hg : ∀ s ∈ Set.Icc a b, ContinuousAt g (c s)) {ε : ℝ} (hε : 0 < ε) :
    ∃ δ > 0, ∀ s ∈ Set.Icc a b, ∀ z, dist z (c s) < δ → |g z - g (c s)| < ε := by
  have hk : IsCompact (c '' Set.Icc a b) := isCompact_Icc.image_of_continuousOn hc
  have := hk.uniformContinuousAt_of_continuousAt g (by
    rintro _ ⟨s, hs, rfl⟩
    exact hg s hs) (Metric.dist_mem_uniformity hε)
  obtain ⟨δ, h0, h⟩ := Metric.mem_uniformity_dist.mp this
  refine ⟨δ, h0, fun s hs z hz => ?_⟩
  have := h (show dist (c s) z < δ by rwa [dist_comm]) ⟨s, hs, rfl⟩
  rw [← Real.dist_eq, dist_comm]
  exact this

end QED
