import Verif.Model.Particle

set_option autoImplicit false

/-!
# What the output tables should contain
-/

namespace QED.OutSpec

open QED Dbl

variable {D : Type} [Dbl D]

/-- The row of a particle: event id, energy, momentum, position. -/
def particleRow (id : Nat) (p : Particle D) : List D :=
  [lit id, p.energy, p.momentum.x, p.momentum.y, p.momentum.z, p.position.x, p.position.y,
    p.position.z]

/-- The rows of one species in one event, in list order. -/
def speciesRows (k : Kind) (id : Nat) (l : List (Particle D)) : List (List D) :=
  (l.filter fun p => p.kind = k).map (particleRow id)

/-- The table of a species: event after event. -/
def table (k : Kind) (events : List (List (Particle D))) : List (List D) :=
  (events.zipIdx.map fun e => speciesRows k e.2 e.1).flatten

/-- The table of the primaries: the first particle of each event. -/
def primaryTable (firsts : List (Particle D)) : List (List D) :=
  firsts.zipIdx.map fun e => particleRow e.2 e.1

end QED.OutSpec
