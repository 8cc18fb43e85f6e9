import Verif.Spec.Reaction

set_option autoImplicit false

/-!
# Specification for C139: classical radiation of a charge in a magnetic field

In the code's units a charge with the mass `m` and the momentum `p` across the magnetic field `b` has the quantum
parameter `η = |p| |b| / m` and radiates the power `(2/3) α η²`.
-/

namespace QED

open Matrix

/-- The length of a vector. -/
noncomputable def lengthOf (v : Fin 3 → ℝ) : ℝ := Real.sqrt (v ⬝ᵥ v)

/-- The power that a charge radiates when it moves across a magnetic field. -/
noncomputable def radiatedPower (m : ℝ) (p b : Fin 3 → ℝ) : ℝ :=
  2 / 3 * (Units.alpha : ℝ) * (lengthOf p * lengthOf b / m) ^ 2

end QED
