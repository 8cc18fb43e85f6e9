import Verif.Model.RunManager

set_option autoImplicit false

/-!
# What the calls of a run manager ask for
-/

namespace QED

open RunMgr

variable {D : Type} [Dbl D]

/-- The last of the calls that `f` picks out. -/
def lastOf {α : Type} (f : Call D → Option α) (h : List (Call D × Outcome D)) : Option α :=
  (h.filterMap fun x => f x.1).getLast?

/-- The type of a field. -/
def asField : Call D → Option String
  | .setField t _ => some t
  | _ => none

/-- The type and the parameters of a field. -/
def asPulse : Call D → Option (String × FieldArgs D)
  | .setField t a => some (t, a)
  | _ => none

/-- A radiation model. -/
def asPhysics : Call D → Option String
  | .setPhysics p => some p
  | _ => none

/-- A beam. -/
def asBeam : Call D → Option (GenArgs D)
  | .setGenerator a => some a
  | _ => none

/-- Time step and end time. -/
def asTime : Call D → Option (D × D)
  | .setTime a b => some (a, b)
  | _ => none

/-- A sample fraction. -/
def asSample : Call D → Option D
  | .setSampleFraction x => some x
  | _ => none

/-- Pair production, on or off. -/
def asPairs : Call D → Option Bool
  | .usePairProduction b => some b
  | _ => none

end QED
