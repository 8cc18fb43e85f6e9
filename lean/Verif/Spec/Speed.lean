import Verif.Base.F64
import Verif.Model.ThreeVector

set_option autoImplicit false

/-! # Vectors of doubles -/

namespace QED

/-- The components of the vector are finite doubles, with these values. -/
def V3.At (v : V3 F64) (w : Fin 3 → ℝ) : Prop := v.x.1 = .fin (w 0) ∧ v.y.1 = .fin (w 1) ∧ v.z.1 = .fin (w 2)

end QED
