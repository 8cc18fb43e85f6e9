import Verif.Model.Sim

set_option autoImplicit false

/-! # What the Geant4 generator should feed to Geant4 -/

namespace QED

open Dbl MCTools

variable {D : Type} [Dbl D]

/-- The events the cascade code makes from a source, one after the other: each starts from the next list of
the source and is followed to the end time. -/
inductive Cascade (cfg : SimCfg D) (s : Source D) (r : Rng D) : List (PList D) → Source D → Rng D → Prop
  | nil : Cascade cfg s r [] s r
  | snoc {events s' r' l s'' r'' n e} : Cascade cfg s r events s' r' →
      s'.generateList r' = .ok (l, s'', r'') → Run cfg (.init l r'' []) n (.ok e) →
      Cascade cfg s r (events ++ [e.list]) s'' e.rng

/-- The particles of the events, event by event, the newest of each event first. -/
def newestFirst (events : List (PList D)) : List (Particle D) := events.flatMap fun l => l.items.reverse

end QED
