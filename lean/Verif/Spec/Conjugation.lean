import Verif.Model.Sim

set_option autoImplicit false

/-!
# Exchange of electrons and positrons

Electrons become positrons and positrons electrons, with the sign of the charge,
and all fields are reversed. Everything else stays.
-/

namespace QED

open Dbl

variable {D : Type} [Dbl D]

/-- Electrons for positrons. -/
def Kind.conj : Kind → Kind
  | .photon => .photon
  | .electron => .positron
  | .positron => .electron

/-- The name of a species, exchanged. -/
def conjName (s : String) : String :=
  if s = "Electron" then "Positron" else if s = "Positron" then "Electron" else s

/-- The vector reversed. -/
def V3.opp (a : V3 D) : V3 D := ⟨-. a.x, -. a.y, -. a.z⟩

/-- The field with `E` and `B` reversed. -/
def Field.conj (f : Field D) : Field D := fun t x => ((f t x).1.opp, (f t x).2.opp)

/-- A particle of the other species with the opposite charge. -/
def Particle.conj (p : Particle D) : Particle D :=
  { p with kind := p.kind.conj, charge := -. p.charge }

/-- All particles of an event exchanged. -/
def PList.conj (l : PList D) : PList D :=
  { l with items := l.items.map Particle.conj }

/-- A histogram of the other species, with the same bins and counts. -/
def Hist.conj (h : Hist D) : Hist D := { h with particle := conjName h.particle }

/-- A process in the reversed field. -/
def Proc.conj : Proc D → Proc D
  | .stochastic cfg => .stochastic { cfg with field := cfg.field.conj }
  | .continuous cfg classical => .continuous { cfg with field := cfg.field.conj } classical
  | .breitWheeler cfg => .breitWheeler { cfg with field := cfg.field.conj }

/-- The simulation in the reversed field. -/
def SimCfg.conj (cfg : SimCfg D) : SimCfg D :=
  { cfg with field := cfg.field.conj, procs := cfg.procs.map Proc.conj }

/-- The state of an event, exchanged. -/
def EvState.conj (s : EvState D) : EvState D :=
  { s with list := s.list.conj, hists := s.hists.map Hist.conj }

/-- Processes that radiate photons but create no pairs. -/
def Proc.Radiates : Proc D → Prop
  | .breitWheeler _ => False
  | _ => True

end QED
