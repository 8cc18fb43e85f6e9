import Verif.Lemmas.Near
import Verif.Props.Convergence

set_option autoImplicit false

/-!
# From the error analysis to the equations of motion
-/

namespace QED

open Dbl F64

theorem Near.smooth {g : Field ℝ} {F Λ : ℝ} (hΛ : 0 ≤ Λ) (hF : ∀ s y, Bounded (g s y).1 F ∧ Bounded (g s y).2 F)
    (hs : g.Slowly Λ) : SmoothField g F Λ := by
  have F0 : 0 ≤ F := (abs_nonneg _).trans (hF 0 ⟨0, 0, 0⟩).1.1
  have norm : ∀ {v : V3 ℝ} {F : ℝ}, 0 ≤ F → Bounded v F → ‖v.toVec‖ ≤ F := by
    intro v F h hv
    rw [pi_norm_le_iff_of_nonneg h]
    intro i
    fin_cases i
    · exact hv.1
    · exact hv.2.1
    · exact hv.2.2
  have sub : ∀ v w : V3 ℝ, (v.sub w).toVec = v.toVec - w.toVec := by
    intro v w
    funext i
    fin_cases i <;> rfl
  have dist : ∀ (t s : ℝ) (x y : Fin 3 → ℝ), |t - s| ≤ |t - s| + ‖x - y‖ ∧
      Bounded ((V3.ofVec x).sub (V3.ofVec y)) (|t - s| + ‖x - y‖) := by
    intro t s x y
    have h0 := norm_nonneg (x - y)
    have h1 := abs_nonneg (t - s)
    have c : ∀ i, |x i - y i| ≤ |t - s| + ‖x - y‖ := fun i => (norm_le_pi_norm (x - y) i).trans (by linarith)
    exact ⟨by linarith, c 0, c 1, c 2⟩
  refine ⟨fun t x => norm F0 (hF _ _).1, fun t x => norm F0 (hF _ _).2, fun t s x y => ?_, fun t s x y => ?_⟩
  · obtain ⟨d1, d2⟩ := dist t s x y
    have := norm (by positivity) (hs t s _ _ _ d1 d2).1
    rwa [sub] at this
  · obtain ⟨d1, d2⟩ := dist t s x y
    have := norm (by positivity) (hs t s _ _ _ d1 d2).2
    rwa [sub] at this

theorem Near.at_vec {v : V3 F64} {w : V3 ℝ} {e : ℝ} (h : v.Close w e) :
    ∃ z, v.At z ∧ ∀ i, |z i - w.toVec i| ≤ e := by
  obtain ⟨⟨a, ha, ka⟩, ⟨b, hb, kb⟩, c, hc, kc⟩ := h
  refine ⟨![a, b, c], ⟨ha, hb, hc⟩, ?_⟩
  intro i
  fin_cases i
  · exact ka
  · exact kb
  · exact kc

end QED
