import Verif.Spec.Motion
import Verif.Model.Particle

set_option autoImplicit false

/-! # Plane waves, for C138 -/

namespace QED

open Matrix

/-- A plane electromagnetic wave that travels along the unit vector `k` with the speed of light: the electric field
is across `k` and depends on `t - k x` only, and the magnetic field is `k × E`. -/
structure IsPlaneWave (field : Field ℝ) (k : Fin 3 → ℝ) : Prop where
  unit : k ⬝ᵥ k = 1
  across : ∀ t x, electric field t x ⬝ᵥ k = 0
  travels : ∀ t x, electric field t x = electric field (t - k ⬝ᵥ x) 0
  magnetic : ∀ t x, magnetic field t x = k ⨯₃ electric field t x

/-- The phase of the wave, as a time, at the particle: when the part of the wave that is now at the particle passed
the origin. -/
noncomputable def phaseAt (k : Fin 3 → ℝ) (p : Particle ℝ) : ℝ := p.time - k ⬝ᵥ p.position.toVec

/-- The light-front momentum: the energy less the momentum along the wave. -/
noncomputable def lightFront (k : Fin 3 → ℝ) (p : Particle ℝ) : ℝ := p.energy - k ⬝ᵥ p.momentum.toVec

end QED
