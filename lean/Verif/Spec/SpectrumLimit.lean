import Verif.Spec.Rates
import Verif.Spec.Geometry
import Mathlib.MeasureTheory.Integral.Bochner.Set
import Mathlib.MeasureTheory.Measure.Lebesgue.Basic

set_option autoImplicit false

/-!
# The spectrum radiated along a path

Used by C147: how much of an observable of photons a lepton radiates per unit of time.
-/

namespace QED

/-- The momentum of the photon that the number `v` selects: `2 χ γ / η` in the direction of flight. -/
noncomputable def radiatedMomentum (chi : ℝ → ℝ → ℝ) (m : ℝ) (field : Field ℝ) (t : ℝ) (z : Phase) (v : ℝ) :
    Fin 3 → ℝ :=
  (2 * chi (etaOf m field t z) v * gammaOf m z.2 / etaOf m field t z) • ((len z.2)⁻¹ • z.2)

/-- The mean of `φ` over the spectrum at time `t` times the rate of emission. -/
noncomputable def spectralRate (logh : ℝ → ℝ) (chi : ℝ → ℝ → ℝ) (φ : (Fin 3 → ℝ) → ℝ) (m : ℝ) (field : Field ℝ)
    (t : ℝ) (z : Phase) : ℝ :=
  √3 * Units.alpha * etaOf m field t z * (10 : ℝ) ^ logh (etaOf m field t z) / (gammaOf m z.2 * 2 * Units.pi) *
    ∫ v in Set.Ico (0 : ℝ) 1, φ (radiatedMomentum chi m field t z v)

/-- Tables that depend continuously on the quantum parameter, for the values in `O`: `logh` for the rate and, for the
draw `v`, the quantum parameter `chi` of the photon. -/
structure ContinuousTables (O : Set ℝ) (logh : ℝ → ℝ) (chi : ℝ → ℝ → ℝ) : Prop where
  opens : IsOpen O
  pos : ∀ η ∈ O, 0 < η
  rate : ContinuousOn logh O
  photon : ∀ v ∈ Set.Ico (0 : ℝ) 1, ContinuousOn (fun η => chi η v) O
  measurable : ∀ η ∈ O, Measurable (chi η)
  sign : ∀ η ∈ O, ∀ v ∈ Set.Ico (0 : ℝ) 1, 0 < chi η v
  bound : ∀ η ∈ O, ∃ B, ∀ᶠ x in nhds η, ∀ v ∈ Set.Ico (0 : ℝ) 1, chi x v ≤ B

end QED
