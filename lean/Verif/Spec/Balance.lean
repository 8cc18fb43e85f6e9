import Verif.Spec.Spectrum
import Verif.Spec.Geometry
import Verif.Model.Pushers

set_option autoImplicit false

/-!
# What radiation takes and what photons carry

Used by C145.
-/

namespace QED

open MeasureTheory

/-- The momentum that a pusher takes from the particle `q` per unit of time, compared with the Lorentz force. -/
noncomputable def reactionLoss (push : PushMom ℝ) (field : Field ℝ) (q : Particle ℝ) : ℝ :=
  len ((lorentzForce q.mass q.charge q.momentum (field q.time q.position).1 (field q.time q.position).2).sub
    (push q.mass q.charge q.momentum (field q.time q.position).1 (field q.time q.position).2)).toVec

/-- The momentum of the photons that a lepton radiates on average per unit of time at the quantum parameter
`eta`, by the tables: `√3 α / π` times `10 ^ logh` times the mean of `chi`. -/
noncomputable def meanRadiated (logh : ℝ → ℝ) (chi : ℝ → ℝ → ℝ) (eta : ℝ) : ENNReal :=
  ENNReal.ofReal (√3 * Units.alpha * (10 : ℝ) ^ logh eta / Units.pi) *
    ∫⁻ v in Set.Ico (0 : ℝ) 1, ENNReal.ofReal (chi eta v)

end QED
