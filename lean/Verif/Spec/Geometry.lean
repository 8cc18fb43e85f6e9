import Verif.Model.ThreeVector
import Mathlib.LinearAlgebra.CrossProduct
import Mathlib.LinearAlgebra.Matrix.NonsingularInverse
import Mathlib.LinearAlgebra.UnitaryGroup

set_option autoImplicit false

/-!
# Reading vectors and matrices of the model as Mathlib objects

The specification side of the geometry properties is Mathlib's own linear
algebra; these two maps only list the components.
-/

namespace QED

/-- The components of a vector. -/
def V3.toVec (v : V3 ℝ) : Fin 3 → ℝ := ![v.x, v.y, v.z]

/-- The entries of a matrix. -/
def M3.toMat (m : M3 ℝ) : Matrix (Fin 3) (Fin 3) ℝ :=
  !![m.m00, m.m01, m.m02; m.m10, m.m11, m.m12; m.m20, m.m21, m.m22]

/-- Euclidean length of a triple of reals. -/
noncomputable def len (v : Fin 3 → ℝ) : ℝ := Real.sqrt (v 0 ^ 2 + v 1 ^ 2 + v 2 ^ 2)

/-- `u` is the unit vector in the direction of `v`: length one and a positive
multiple of `v`. -/
def IsUnitAlong (u v : Fin 3 → ℝ) : Prop := len u = 1 ∧ ∃ c : ℝ, 0 < c ∧ v = c • u

/-- Proper rotations of space. -/
def IsRotation (R : Matrix (Fin 3) (Fin 3) ℝ) : Prop :=
  R.transpose * R = 1 ∧ R.det = 1

end QED
