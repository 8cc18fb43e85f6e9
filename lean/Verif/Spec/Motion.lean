import Verif.Spec.Geometry
import Verif.Model.Fields
import Mathlib.LinearAlgebra.CrossProduct
import Mathlib.Analysis.SpecialFunctions.Pow.Real

set_option autoImplicit false

/-!
# The equations of motion of a charged particle

Position and momentum as pairs of Mathlib vectors, in units with `c = 1`.
-/

namespace QED

open Matrix

/-- Position and momentum. -/
abbrev Phase := (Fin 3 → ℝ) × (Fin 3 → ℝ)

/-- The vector of the model with the given components. -/
def V3.ofVec (v : Fin 3 → ℝ) : V3 ℝ := ⟨v 0, v 1, v 2⟩

/-- The electric field at a time and place. -/
def electric (field : Field ℝ) (t : ℝ) (x : Fin 3 → ℝ) : Fin 3 → ℝ := (field t (V3.ofVec x)).1.toVec

/-- The magnetic field at a time and place. -/
def magnetic (field : Field ℝ) (t : ℝ) (x : Fin 3 → ℝ) : Fin 3 → ℝ := (field t (V3.ofVec x)).2.toVec

/-- The velocity `p / sqrt (m² + p²)` of a particle of mass `m`. -/
noncomputable def velocity (m : ℝ) (p : Fin 3 → ℝ) : Fin 3 → ℝ := (Real.sqrt (m ^ 2 + p ⬝ᵥ p))⁻¹ • p

/-- `x' = v` and `p' = F t x p`. -/
noncomputable def motion (m : ℝ) (F : ℝ → (Fin 3 → ℝ) → (Fin 3 → ℝ) → Fin 3 → ℝ) (t : ℝ) (y : Phase) : Phase :=
  (velocity m y.2, F t y.1 y.2)

/-- The Lorentz force `q (E + v × B)`. -/
noncomputable def lorentz (m q : ℝ) (field : Field ℝ) (t : ℝ) (x p : Fin 3 → ℝ) : Fin 3 → ℝ :=
  q • (electric field t x + velocity m p ⨯₃ magnetic field t x)

end QED
