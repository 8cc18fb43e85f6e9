import Verif.Model.ThreeVector
import Mathlib.LinearAlgebra.Matrix.Notation
import Mathlib.Analysis.SpecialFunctions.Pow.Real

set_option autoImplicit false

/-!
# The quantum parameter of special relativity

Textbook definitions, in units with `c = 1` and fields in units of the critical field: the field tensor, the
Minkowski metric and the Lorentz-invariant quantum parameter `|F^{μν} p_ν|`.
-/

namespace QED

/-- The Minkowski metric with signature (+, -, -, -). -/
def metric : Matrix (Fin 4) (Fin 4) ℝ := !![1, 0, 0, 0; 0, -1, 0, 0; 0, 0, -1, 0; 0, 0, 0, -1]

/-- The electromagnetic field tensor `F^{μν}` of an electric field `e` and a magnetic field `b`. -/
def fieldTensor (e b : V3 ℝ) : Matrix (Fin 4) (Fin 4) ℝ :=
  !![0, -e.x, -e.y, -e.z; e.x, 0, -b.z, b.y; e.y, b.z, 0, -b.x; e.z, -b.y, b.x, 0]

/-- The four-vector with the given time and space components. -/
def fourVector (t : ℝ) (v : V3 ℝ) : Fin 4 → ℝ := ![t, v.x, v.y, v.z]

/-- The Minkowski square of a four-vector. -/
def minkowski (a : Fin 4 → ℝ) : ℝ := a ⬝ᵥ metric.mulVec a

/-- The quantum parameter `sqrt (-(F^{μν} p_ν)²)`. -/
noncomputable def quantumParameter (F : Matrix (Fin 4) (Fin 4) ℝ) (p : Fin 4 → ℝ) : ℝ :=
  Real.sqrt (-minkowski (F.mulVec (metric.mulVec p)))

/-- A change of inertial frame. -/
def IsLorentz (L : Matrix (Fin 4) (Fin 4) ℝ) : Prop := L.transpose * metric * L = metric

end QED
