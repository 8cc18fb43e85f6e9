import Mathlib.Analysis.SpecialFunctions.Arsinh
import Mathlib.Probability.Distributions.Gaussian.Real

set_option autoImplicit false

/-!
# The sinh-arcsinh distribution

The distribution of Jones and Pewsey with tail weight one, as in TensorFlow Probability's `SinhArcsinh`: a
standard normal variable is made skew and then stretched and shifted. With no skew it is the normal
distribution with mean `loc` and standard deviation `scale`.
-/

namespace QED

open MeasureTheory ProbabilityTheory

/-- The sinh-arcsinh distribution. -/
noncomputable def sinhArcsinhLaw (loc scale skew : ℝ) : Measure ℝ :=
  (gaussianReal 0 1).map fun z => loc + scale * Real.sinh (Real.arsinh z + skew)

end QED
