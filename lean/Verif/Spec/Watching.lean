import Verif.Model.Program

set_option autoImplicit false

/-!
# An event without the records kept of it

What is only recorded of an event: the tracks of its particles, and histograms. Without them an event
is a list of particles where and when they are, as seen by someone who keeps no record.
-/

namespace QED

variable {D : Type}

/-- A particle that keeps no record of its track. -/
def Particle.bare (p : Particle D) : Particle D :=
  { p with tracking := false, posHistory := [], momHistory := [], timeHistory := [], gammaHistory := [] }

/-- All particles of an event. -/
def PList.bare (l : PList D) : PList D := { l with items := l.items.map Particle.bare }

/-- A process whose photons or leptons are not tracked. -/
def Proc.bare : Proc D → Proc D
  | .stochastic cfg => .stochastic { cfg with track := false }
  | .continuous cfg classical => .continuous { cfg with track := false } classical
  | .breitWheeler cfg => .breitWheeler { cfg with track := false }

/-- A simulation without tracking. -/
def SimCfg.bare (cfg : SimCfg D) : SimCfg D := { cfg with procs := cfg.procs.map Proc.bare }

/-- A source of particles that are not tracked. -/
def Source.bare (s : Source D) : Source D := { s with track := false }

/-- What has been stored of the events, without the tracks. -/
def OutMgr.bare (m : OutMgr D) : OutMgr D := { m with tracks := [] }

/-- A histogram that can be filled: it has bins, with as many centres and counts. -/
structure Hist.Usable (h : Hist D) : Prop where
  bins : 0 < h.nBins
  small : h.nBins < 2 ^ 32
  centres : h.centres.length = h.nBins
  values : h.values.length = h.nBins

end QED
