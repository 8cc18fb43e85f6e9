import Verif.Model.Particle
import Verif.Model.Units

set_option autoImplicit false

/-!
# What the arrays of the Python interface should hold

A primary is a row of six numbers, momentum and position in SI units. A final particle is a row of seven,
with its weight at the end.
-/

namespace QED.PythonRows

open QED Dbl

variable {D : Type} [Dbl D]

/-- The three components of the momentum in SI units. -/
def momentumCells (p : Particle D) : List D :=
  [p.momentum.x, p.momentum.y, p.momentum.z].map (· *. (Units.unitsSI : Units.UnitsSystem D).refMomentum)

/-- The three coordinates in metres. -/
def positionCells (p : Particle D) : List D :=
  [p.position.x, p.position.y, p.position.z].map (· *. (Units.unitsSI : Units.UnitsSystem D).refLength)

/-- The row of a primary. -/
def primaryCells (p : Particle D) : List D := momentumCells p ++ positionCells p

/-- The row of a final particle. -/
def finalCells (p : Particle D) : List D := momentumCells p ++ positionCells p ++ [p.weight]

end QED.PythonRows
