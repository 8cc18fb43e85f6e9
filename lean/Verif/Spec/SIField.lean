import Verif.Model.Geant
import Verif.Spec.Geometry

set_option autoImplicit false

/-!
# A field in SI units

The code evaluates its fields in internal units. What an SI observer measures at a time in seconds and a
place in metres is the value in internal units times the reference fields, in volts per metre and tesla.
-/

namespace QED

open Units

/-- Electric field in V/m at `T` seconds and `X` metres. -/
noncomputable def electricSI (f : Field ℝ) (T : ℝ) (X : V3 ℝ) : Fin 3 → ℝ :=
  (unitsSI : UnitsSystem ℝ).refEField •
    (f (T / (unitsSI : UnitsSystem ℝ).refTime) (X.divs (unitsSI : UnitsSystem ℝ).refLength)).1.toVec

/-- Magnetic field in tesla at `T` seconds and `X` metres. -/
noncomputable def magneticSI (f : Field ℝ) (T : ℝ) (X : V3 ℝ) : Fin 3 → ℝ :=
  (unitsSI : UnitsSystem ℝ).refBField •
    (f (T / (unitsSI : UnitsSystem ℝ).refTime) (X.divs (unitsSI : UnitsSystem ℝ).refLength)).2.toVec

end QED
