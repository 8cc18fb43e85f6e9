import Verif.Spec.Maxwell
import Verif.Lemmas.Fields
import Mathlib.Analysis.Calculus.Deriv.Pi
import Mathlib.Analysis.Calculus.Deriv.Slope
import Mathlib.Analysis.Calculus.Deriv.Mul
import Mathlib.Analysis.Calculus.Deriv.Comp
import Mathlib.Analysis.SpecialFunctions.Trigonometric.Deriv
import Mathlib.Analysis.SpecialFunctions.ExpDeriv
import Mathlib.Analysis.Calculus.FDeriv.Pi

set_option autoImplicit false

/-!
# Plane waves and Maxwell's equations (for C120)
-/

namespace QED

open Matrix

/-- A product whose second factor vanishes has a derivative as soon as the first factor is continuous. -/
theorem hasDerivAt_mul_zero {f g : ℝ → ℝ} {x g' : ℝ} (hf : ContinuousAt f x) (hg : HasDerivAt g g' x)
    (h0 : g x = 0) : HasDerivAt (fun y => f y * g y) (f x * g') x := by
  rw [hasDerivAt_iff_tendsto_slope] at hg ⊢
  have h1 := (hf.tendsto.mono_left (nhdsWithin_le_nhds (s := {x}ᶜ))).mul hg
  refine h1.congr fun y => ?_
  simp only [slope, vsub_eq_sub, h0, mul_zero, sub_zero, smul_eq_mul]
  ring

/-- The wave `g (n · x - t) • a`. -/
def planeWave (g : ℝ → ℝ) (n a : Fin 3 → ℝ) (t : ℝ) (x : Fin 3 → ℝ) : Fin 3 → ℝ := g (n ⬝ᵥ x - t) • a

section wave
variable {g : ℝ → ℝ} {n a : Fin 3 → ℝ} {t : ℝ} {x : Fin 3 → ℝ} {g' : ℝ}

theorem dot_update (n x : Fin 3 → ℝ) (i : Fin 3) (s : ℝ) :
    n ⬝ᵥ Function.update x i s = n ⬝ᵥ x + n i * (s - x i) := by
  fin_cases i <;> simp [dotProduct, Fin.sum_univ_three, Function.update] <;> ring

theorem planeWave_partial (hg : HasDerivAt g g' (n ⬝ᵥ x - t)) (i j : Fin 3) :
    partialDeriv i (fun y => planeWave g n a t y j) x = g' * n i * a j := by
  unfold partialDeriv planeWave
  have h1 : HasDerivAt (fun s => n ⬝ᵥ Function.update x i s - t) (n i) (x i) := by
    simp only [dot_update]
    have := ((((hasDerivAt_id (x i)).sub_const (x i)).const_mul (n i)).const_add (n ⬝ᵥ x)).sub_const t
    simpa using this
  have hx : n ⬝ᵥ Function.update x i (x i) - t = n ⬝ᵥ x - t := by simp
  have h2 : HasDerivAt (fun s => g (n ⬝ᵥ Function.update x i s - t)) (g' * n i) (x i) :=
    HasDerivAt.comp (x i) (h₂ := g) (by rw [hx]; exact hg) h1
  have h3 := h2.mul_const (a j)
  simpa using h3.deriv

theorem planeWave_time (hg : HasDerivAt g g' (n ⬝ᵥ x - t)) :
    deriv (fun s => planeWave g n a s x) t = -(g' • a) := by
  have h1 : HasDerivAt (fun s => n ⬝ᵥ x - s) (-1) t := by
    simpa using (hasDerivAt_id t).const_sub (n ⬝ᵥ x)
  have h2 : HasDerivAt (fun s => g (n ⬝ᵥ x - s)) (g' * -1) t := HasDerivAt.comp t (h₂ := g) hg h1
  have h3 : HasDerivAt (fun s => planeWave g n a s x) ((g' * -1) • a) t := h2.smul_const a
  rw [h3.deriv]
  simp

theorem planeWave_differentiable (hg : HasDerivAt g g' (n ⬝ᵥ x - t)) :
    DifferentiableAt ℝ (fun p : ℝ × (Fin 3 → ℝ) => planeWave g n a p.1 p.2) (t, x) := by
  unfold planeWave
  have h1 : DifferentiableAt ℝ (fun p : ℝ × (Fin 3 → ℝ) => n ⬝ᵥ p.2 - p.1) (t, x) := by
    unfold dotProduct
    fun_prop
  exact (DifferentiableAt.comp (t, x) (g := g) hg.differentiableAt h1).smul_const a

theorem planeWave_divergence (hg : HasDerivAt g g' (n ⬝ᵥ x - t)) :
    divergence (planeWave g n a t) x = g' * (n ⬝ᵥ a) := by
  unfold divergence
  rw [planeWave_partial hg, planeWave_partial hg, planeWave_partial hg]
  simp [dotProduct, Fin.sum_univ_three]
  ring

theorem planeWave_curl (hg : HasDerivAt g g' (n ⬝ᵥ x - t)) :
    curl (planeWave g n a t) x = g' • (n ⨯₃ a) := by
  unfold curl
  simp only [planeWave_partial hg]
  rw [cross_apply]
  ext i
  fin_cases i <;> simp <;> ring

/-- When a pair of plane waves satisfies Maxwell's equations. -/
theorem planeWave_maxwell {b : Fin 3 → ℝ} (hg : HasDerivAt g g' (n ⬝ᵥ x - t)) :
    MaxwellAt (planeWave g n a) (planeWave g n b) t x ↔
      g' = 0 ∨ (n ⬝ᵥ a = 0 ∧ n ⬝ᵥ b = 0 ∧ n ⨯₃ a = b ∧ n ⨯₃ b = -a) := by
  constructor
  · intro h
    by_cases h0 : g' = 0
    · exact Or.inl h0
    · refine Or.inr ⟨?_, ?_, ?_, ?_⟩
      · have := h.gauss
        rw [planeWave_divergence hg] at this
        exact (mul_eq_zero.mp this).resolve_left h0
      · have := h.no_monopoles
        rw [planeWave_divergence hg] at this
        exact (mul_eq_zero.mp this).resolve_left h0
      · have := h.faraday
        rw [planeWave_curl hg, planeWave_time hg, neg_neg] at this
        exact smul_right_injective _ h0 this
      · have := h.ampere
        rw [planeWave_curl hg, planeWave_time hg, ← smul_neg] at this
        exact smul_right_injective _ h0 this
  · intro h
    refine ⟨planeWave_differentiable hg, planeWave_differentiable hg, ?_, ?_, ?_, ?_⟩
    · rw [planeWave_divergence hg]
      rcases h with h | h
      · rw [h, zero_mul]
      · rw [h.1, mul_zero]
    · rw [planeWave_divergence hg]
      rcases h with h | h
      · rw [h, zero_mul]
      · rw [h.2.1, mul_zero]
    · rw [planeWave_curl hg, planeWave_time hg, neg_neg]
      rcases h with h | h
      · rw [h, zero_smul, zero_smul]
      · rw [h.2.2.1]
    · rw [planeWave_curl hg, planeWave_time hg, ← smul_neg]
      rcases h with h | h
      · rw [h, zero_smul, zero_smul]
      · rw [h.2.2.2]

end wave

end QED
