import Verif.Spec.Gain
import Verif.Model.Sim

set_option autoImplicit false

/-!
# The energy of an event (C127)
-/

namespace QED

open MCTools

/-- The energy of all particles. -/
noncomputable def totalEnergy (l : List (Particle ℝ)) : ℝ := (l.map fun p => p.energy).sum

/-- What fields of strength `F` can have given to the particles since the time `t0`: the largest force on each
times the time that has passed for it. -/
noncomputable def workAtMost (F t0 : ℝ) (l : List (Particle ℝ)) : ℝ :=
  (l.map fun p => |p.charge| * F * (p.time - t0)).sum

/-- A photon without mass, or a lepton of mass one. -/
def Ordinary (p : Particle ℝ) : Prop := (p.kind = .photon → p.mass = 0) ∧ (p.kind ≠ .photon → p.mass = 1)

/-- No lepton emits a photon of more energy than it has. -/
def NeverOverdraws (em : EmissionCfg ℝ) : Prop := ∀ (p : Particle ℝ) (l : PList ℝ) (r : Rng ℝ) (p' : Particle ℝ)
  (l' : PList ℝ) (r' : Rng ℝ), r.Valid → p.kind ≠ .photon → p.mass = 1 → p.momentum ≠ ⟨0, 0, 0⟩ →
    stochasticInteract em p l r = .ok (p', l', r') → len (p.momentum.sub p'.momentum).toVec ≤ p.energy

end QED
