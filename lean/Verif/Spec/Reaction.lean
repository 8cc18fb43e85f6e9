import Verif.Spec.Motion
import Verif.Spec.Invariant
import Verif.Model.Units
import Mathlib.Analysis.SpecialFunctions.Log.Basic
import Mathlib.Analysis.Calculus.ContDiff.Defs

set_option autoImplicit false

/-!
# Radiation reaction, and fields with four continuous derivatives
-/

namespace QED

open Matrix

/-- The quantum parameter of a particle of mass `m` and momentum `p`: that of its four-velocity. -/
noncomputable def etaAt (m : ℝ) (field : Field ℝ) (t : ℝ) (x p : Fin 3 → ℝ) : ℝ :=
  quantumParameter (fieldTensor (field t (V3.ofVec x)).1 (field t (V3.ofVec x)).2)
    (fourVector (Real.sqrt (1 + p ⬝ᵥ p / m ^ 2)) (V3.ofVec (m⁻¹ • p)))

/-- The Lorentz force and, against the motion, a force of size `2/3 alpha eta² g(eta)`. -/
noncomputable def reactionForce (g : ℝ → ℝ) (m q : ℝ) (field : Field ℝ) (t : ℝ) (x p : Fin 3 → ℝ) : Fin 3 → ℝ :=
  lorentz m q field t x p -
    (2 / 3 * (Units.alpha : ℝ) * etaAt m field t x p ^ 2 * g (etaAt m field t x p) / Real.sqrt (p ⬝ᵥ p)) • p

/-- The Gaunt factor that weakens the reaction at large eta. -/
noncomputable def gauntFactor (η : ℝ) : ℝ :=
  (1 + 4.8 * (1 + η) * Real.log (1 + 1.7 * η) + 2.44 * η ^ 2) ^ (-2 / 3 : ℝ)

/-- The fields have four continuous derivatives in time and place on `U`. -/
def FieldC4 (field : Field ℝ) (U : Set (ℝ × (Fin 3 → ℝ))) : Prop :=
  ContDiffOn ℝ 4 (fun z => electric field z.1 z.2) U ∧ ContDiffOn ℝ 4 (fun z => magnetic field z.1 z.2) U

end QED
