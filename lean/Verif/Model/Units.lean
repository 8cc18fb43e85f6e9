import Verif.Base.Dbl
import Verif.Base.Res

set_option autoImplicit false

/-!
# `Source/Tools/UnitsSystem.cpp` and `UnitsSystem.hh`
-/

namespace QED
namespace Units

open Dbl

variable {D : Type} [Dbl D]

/-- `UnitsSystem::pi` (`UnitsSystem.hh:75`). -/
def pi : D := lit 3.14159265359
/-- `UnitsSystem::alpha` (`UnitsSystem.hh:77`). -/
def alpha : D := lit 0.0072973525664
/-- `SI_c` (`UnitsSystem.hh:80`). -/
def SI_c : D := lit 2.99792458e8
/-- `SI_me` (`UnitsSystem.hh:81`). -/
def SI_me : D := lit 9.10938356e-31
/-- `SI_qe` (`UnitsSystem.hh:82`). -/
def SI_qe : D := lit 1.60217662e-19
/-- `SI_hBar` (`UnitsSystem.hh:83`). -/
def SI_hBar : D := lit 1.05457180e-34
/-- `SI_eSchw` (`UnitsSystem.hh:86`). -/
def SI_eSchw : D := lit 1.3232855e18

/-- The reference values of a `UnitsSystem` (`UnitsSystem.hh:53-59,68-70`). -/
structure UnitsSystem (D : Type) where
  refFreq : D
  refTime : D
  refLength : D
  refEField : D
  refBField : D
  refMomentum : D
  refEnergy : D
  g4Time : D
  g4Length : D
  g4Energy : D

/-- `SetUnitsSI` then `SetG4Units` (`UnitsSystem.cpp:22-45`). -/
def unitsSI : UnitsSystem D :=
  let refFreq := (SI_eSchw *. SI_qe : D) /. (SI_me *. SI_c)
  let refTime := lit 1 /. refFreq
  let refLength := SI_c /. refFreq
  let refEnergy := (SI_me *. SI_c : D) *. SI_c
  { refFreq, refTime, refLength
    refEField := SI_eSchw
    refBField := SI_eSchw /. SI_c
    refMomentum := SI_me *. SI_c
    refEnergy
    g4Time := lit 1e-9 /. refTime
    g4Length := lit 1e-3 /. refLength
    g4Energy := lit 1e6 *. SI_qe /. refEnergy }

/-- Constructor (`UnitsSystem.cpp:4-16`). -/
def UnitsSystem.new (units : String) : Res (UnitsSystem D) :=
  if units = "SI" ∨ units = "si" then .ok unitsSI else .exit 1

end Units
end QED
