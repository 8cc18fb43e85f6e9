import Verif.Spec.Motion
import Verif.Spec.Invariant
import Verif.Model.Particle

set_option autoImplicit false

/-!
# Specification for C140: the same particle and the same field in two inertial frames

A change of frame is a Lorentz matrix `L` that keeps the direction of time.
-/

namespace QED

open Matrix

/-- The time and place of a particle. -/
def fourPosition (p : Particle ℝ) : Fin 4 → ℝ := fourVector p.time p.position

/-- The energy and momentum of a particle. -/
noncomputable def fourMomentum (p : Particle ℝ) : Fin 4 → ℝ := fourVector p.energy p.momentum

/-- `L` is a change of inertial frame that keeps the direction of time. -/
structure IsFrameChange (L : Matrix (Fin 4) (Fin 4) ℝ) : Prop where
  lorentz : IsLorentz L
  forward : 0 < L 0 0

/-- `field'` is the same electromagnetic field as `field`, seen from the other frame. -/
def SameField (L : Matrix (Fin 4) (Fin 4) ℝ) (field field' : Field ℝ) : Prop :=
  ∀ t x t' x', fourVector t' x' = L.mulVec (fourVector t x) →
    fieldTensor (field' t' x').1 (field' t' x').2 =
      L * fieldTensor (field t x).1 (field t x).2 * L.transpose

/-- `p'` is the same particle as `p`, seen from the other frame. -/
structure SameParticle (L : Matrix (Fin 4) (Fin 4) ℝ) (p p' : Particle ℝ) : Prop where
  kind : p'.kind = p.kind
  mass : p'.mass = p.mass
  charge : p'.charge = p.charge
  alive : p'.isAlive = p.isAlive
  position : fourPosition p' = L.mulVec (fourPosition p)
  momentum : fourMomentum p' = L.mulVec (fourMomentum p)

end QED
