import Verif.Spec.Motion
import Mathlib.Analysis.Calculus.FDeriv.Basic

set_option autoImplicit false

/-! # Potentials, for C112 -/

namespace QED

open Matrix

/-- The electric field is minus the gradient of `φ` at all times. -/
def HasPotential (field : Field ℝ) (φ : (Fin 3 → ℝ) → ℝ) : Prop :=
  ∀ t x, ∃ L : (Fin 3 → ℝ) →L[ℝ] ℝ, HasFDerivAt φ L x ∧ ∀ v, L v = -(electric field t x ⬝ᵥ v)

end QED
