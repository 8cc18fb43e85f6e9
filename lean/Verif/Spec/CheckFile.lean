import Verif.Model.FileParser

set_option autoImplicit false

/-!
# Which parameters the check file tells

Used by C146.
-/

namespace QED

variable {D : Type}

/-- Fields that differ at most in the amplitude of a plane wave or in the polarisation of a pulse. -/
def FieldParams.Alike : FieldParams D → FieldParams D → Prop
  | .unset, .unset => True
  | .static e b, .static e' b' => e = e' ∧ b = b'
  | .plane _ l p d, .plane _ l' p' d' => l = l' ∧ p = p' ∧ d = d'
  | .gaussian a l t w _ s f, .gaussian a' l' t' w' _ s' f' =>
    a = a' ∧ l = l' ∧ t = t' ∧ w = w' ∧ s = s' ∧ f = f'
  | .focusing a l t w _ s f, .focusing a' l' t' w' _ s' f' =>
    a = a' ∧ l = l' ∧ t = t' ∧ w = w' ∧ s = s' ∧ f = f'
  | _, _ => False

/-- Sources that differ at most in the distribution of the energies. -/
def ParticleParams.Alike (a b : ParticleParams D) : Prop := { a with distro := b.distro } = b

/-- Histograms that differ at most in the quantity they count. -/
def HistogramParams.Alike (a b : HistogramParams D) : Prop := { a with type := b.type } = b

/-- Inputs that differ at most in the amplitude of a plane wave, the polarisation of a pulse, the energy distribution
of sources and the quantity of histograms. -/
structure Input.Alike (a b : Input D) : Prop where
  general : a.general = b.general
  field : a.field.Alike b.field
  particles : List.Forall₂ ParticleParams.Alike a.particles b.particles
  physics : a.physics = b.physics
  histograms : List.Forall₂ HistogramParams.Alike a.histograms b.histograms

end QED
