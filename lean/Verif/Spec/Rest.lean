import Verif.Spec.Speed
import Verif.Model.Particle

set_option autoImplicit false

/-! # Particles at rest, in double precision -/

namespace QED

/-- The double that is not a number. -/
def F64.nan : F64 := ⟨.nan, fun _ h => by cases h⟩

/-- No component is a number. -/
def V3.Lost (v : V3 F64) : Prop := v.x = F64.nan ∧ v.y = F64.nan ∧ v.z = F64.nan

/-- Nothing is known of the particle any more: neither position nor momentum nor energy is a number. -/
def Particle.Lost (p : Particle F64) : Prop := p.position.Lost ∧ p.momentum.Lost ∧ p.energy = F64.nan

/-- A lepton at rest or as good as at rest: its speed is below 2⁻⁵⁵⁰ of the speed of light. -/
def Resting (p : Particle F64) : Prop :=
  p.isAlive = true ∧ p.kind ≠ .photon ∧ p.mass = Dbl.lit 1 ∧ ∃ a, p.momentum.At a ∧ ∀ i, |a i| ≤ (1 / 2) ^ 550

end QED
