import Verif.Spec.Geometry
import Verif.Model.Fields

set_option autoImplicit false

/-!
# Fields of bounded strength
-/

namespace QED

/-- The strengths of the electric and the magnetic field add up to at most `F`, everywhere and always. -/
def FieldsAtMost (field : Field ℝ) (F : ℝ) : Prop :=
  ∀ t x, len (field t x).1.toVec + len (field t x).2.toVec ≤ F

end QED
