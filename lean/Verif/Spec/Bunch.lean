import Mathlib.Probability.ConditionalProbability
import Mathlib.Probability.Distributions.Gaussian.Multivariate
import Verif.Spec.Geometry

set_option autoImplicit false

/-!
# What a bunch of particles looks like

A bunch is round: its places scatter normally, with one width across its axis and another along it. The
flight directions scatter about the axis with a normally distributed angle and every azimuth alike.
-/

namespace QED.Bunch

open MeasureTheory ProbabilityTheory WithLp

/-- Physical space with its Euclidean structure. -/
abbrev Space := EuclideanSpace ℝ (Fin 3)

/-- The random numbers behind one particle: three for its place, one for its angle to the axis, one for its
azimuth and one for its energy. -/
abbrev Raw := (Fin 3 → ℝ) × ℝ × ℝ × ℝ

/-- The uniform distribution between two numbers, which always gives the first one if they coincide. -/
noncomputable def uniform (a b : ℝ) : Measure ℝ :=
  if a < b then volume[|Set.Ico a b] else Measure.dirac a

/-- The random numbers behind one particle are independent. The azimuth comes from a number between zero and
one, the energy from a normal number for a Gaussian spectrum and otherwise from a number between zero and one;
the others are standard normal. -/
noncomputable def rawLaw (gaussian : Prop) [Decidable gaussian] : Measure Raw :=
  (Measure.pi fun _ : Fin 3 => gaussianReal 0 1).prod ((gaussianReal 0 1).prod
    ((uniform 0 1).prod (if gaussian then gaussianReal 0 1 else uniform 0 1)))

/-- The covariance of a cloud with standard deviation `width` across the unit vector `n` and `length` along
it. -/
def covariance (width length : ℝ) (n : Fin 3 → ℝ) : Matrix (Fin 3) (Fin 3) ℝ :=
  width ^ 2 • 1 + (length ^ 2 - width ^ 2) • Matrix.vecMulVec n n

/-- The energies asked for: normally distributed about the first number with the second one as standard
deviation, or uniform between the two. -/
noncomputable def energyLaw (gaussian : Prop) [Decidable gaussian] (e1 e2 : ℝ) : Measure ℝ :=
  if gaussian then gaussianReal e1 (Real.toNNReal (e2 ^ 2)) else uniform e1 e2

/-- A full turn to the twelve digits of the program's constants. -/
noncomputable def turn : ℝ := 2 * 3.14159265359

/-- The distribution of place, angle to the axis, azimuth and energy of one particle. The four are
independent. -/
noncomputable def particleLaw (centre : Fin 3 → ℝ) (width length divergence : ℝ) (n : Fin 3 → ℝ)
    (energies : Measure ℝ) : Measure (Space × ℝ × ℝ × ℝ) :=
  (multivariateGaussian (toLp 2 centre) (covariance width length n)).prod
    ((gaussianReal 0 (Real.toNNReal (divergence ^ 2))).prod
      ((uniform 0 turn).prod energies))

/-- Three unit vectors at right angles, like the fingers of a right hand. -/
def Frame (e₁ e₂ n : Fin 3 → ℝ) : Prop :=
  IsRotation (Matrix.of fun i j => ![e₁ i, e₂ i, n i] j)

/-- A momentum of the given size at the angle `θ` to the axis `n` and at the azimuth `φ`, which is counted
from `e₁` towards `e₂`. -/
noncomputable def aimed (e₁ e₂ n : Fin 3 → ℝ) (θ φ size : ℝ) : Fin 3 → ℝ :=
  size • (Real.cos θ • n + Real.sin θ • (Real.cos φ • e₁ + Real.sin φ • e₂))

end QED.Bunch
