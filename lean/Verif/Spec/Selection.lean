import Verif.Model.Sim

set_option autoImplicit false

/-!
# What is kept of the photons

Used by C162: the same simulation with another choice of the photons that are kept, and where the first particle of an
event is.
-/

namespace QED

variable {D : Type}

/-- The emission process with the energy threshold `least`, the sampling fraction `frac` and the tracking `track` of the
photons; field, time step and tables are those of `e`. -/
def EmissionCfg.keeping (e : EmissionCfg D) (least frac : D) (track : Bool) : EmissionCfg D :=
  { e with eMin := least, sampleFrac := frac, track := track }

/-- The simulation with the processes `procs` in place of its own; pusher, field and times are those of `cfg`. -/
def SimCfg.having (cfg : SimCfg D) (procs : List (Proc D)) : SimCfg D := { cfg with procs := procs }

/-- The first particle of the event has a position and a momentum in `A`. -/
def FirstIn (A : V3 D → V3 D → Prop) (s : EvState D) : Prop :=
  ∃ q, s.list.items.head? = some q ∧ A q.position q.momentum

end QED
