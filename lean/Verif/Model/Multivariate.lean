import Mathlib.Analysis.SpecialFunctions.Arsinh
import Mathlib.LinearAlgebra.UnitaryGroup
import Mathlib.Analysis.Real.Sqrt

set_option autoImplicit false

/-!
# `Source/Tools/MCTools.cpp`: `RandNormNd` and `RandSinhArcsinhNd`

The multivariate draws of the Geant4 builds, over the real numbers. Mean, covariance and skew have matching
sizes, as they do in the code. Eigen is modelled by what its documentation says of a decomposition, not by
its algorithm, and rounding is left out.
-/

namespace QED
namespace MCTools

variable {n : ℕ}

/-- The symmetric matrix with the lower triangle of `A`: the solvers at `MCTools.cpp:63` and
`MCTools.cpp:71` read nothing else. -/
def lowerPart (A : Matrix (Fin n) (Fin n) ℝ) : Matrix (Fin n) (Fin n) ℝ := fun i j => A (max i j) (min i j)

/-- The result of `Eigen::LLT` when it succeeds (`MCTools.cpp:63-67`). -/
def Cholesky (A L : Matrix (Fin n) (Fin n) ℝ) : Prop :=
  (∀ i j, i < j → L i j = 0) ∧ (∀ i, 0 < L i i) ∧ L * L.transpose = A

/-- Results of `Eigen::SelfAdjointEigenSolver` (`MCTools.cpp:71`): orthonormal columns of eigenvectors with
their eigenvalues. The order of the eigenvalues is left open. -/
def Eigen (A V : Matrix (Fin n) (Fin n) ℝ) (w : Fin n → ℝ) : Prop :=
  V * V.transpose = 1 ∧ A = V * Matrix.diagonal w * V.transpose

/-- The matrix `lMatrix` (`MCTools.cpp:61-74`); `none` is a matrix of NaNs. The decomposition succeeds if there
is one. A negative eigenvalue has the square root NaN, which the product with the eigenvectors spreads to
every entry of its column, and the product with the draws to every component of the sample. -/
inductive LMatrix (A : Matrix (Fin n) (Fin n) ℝ) : Option (Matrix (Fin n) (Fin n) ℝ) → Prop
  | cholesky {L} : Cholesky (lowerPart A) L → LMatrix A (some L)
  | eigen {V w} : (¬ ∃ L, Cholesky (lowerPart A) L) → Eigen (lowerPart A) V w → (∀ i, 0 ≤ w i) →
      LMatrix A (some (V * Matrix.diagonal fun i => Real.sqrt (w i)))
  | nan {V w} : (¬ ∃ L, Cholesky (lowerPart A) L) → Eigen (lowerPart A) V w → (∃ i, w i < 0) → LMatrix A none

/-- `RandNormNd` (`MCTools.cpp:51-77`) with the standard normal draws `z`. -/
def randNormNd (mean : Fin n → ℝ) (l : Option (Matrix (Fin n) (Fin n) ℝ)) (z : Fin n → ℝ) :
    Option (Fin n → ℝ) :=
  l.map fun L => mean + L.mulVec z

/-- `RandSinhArcsinhNd` (`MCTools.cpp:79-93`) with the standard normal draws `z`; `l` is the matrix that
`RandNormNd` makes of `covar.asDiagonal()`. -/
noncomputable def randSinhArcsinhNd (mean covar skew : Fin n → ℝ)
    (l : Option (Matrix (Fin n) (Fin n) ℝ)) (z : Fin n → ℝ) : Option (Fin n → ℝ) :=
  (randNormNd mean l z).map fun sample =>
    let norm := 2 / Real.sinh (Real.arsinh 2)
    mean + norm • (Matrix.diagonal covar).mulVec fun i => Real.sinh (Real.arsinh (sample i) + skew i)

end MCTools
end QED
