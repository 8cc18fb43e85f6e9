import Verif.Model.Sim
import Verif.Base.F64

set_option autoImplicit false

/-!
# Mirrors

An experiment seen in mirrors: each of the coordinates x, y and z may be reversed, independently of
the others. Reversing a coordinate is a change of the sign bit of a number, so it can be asked for in any
arithmetic.
-/

namespace QED

open Dbl

/-- Which coordinates are reversed. -/
structure Mirror where
  x : Bool
  y : Bool
  z : Bool

namespace Mirror

variable {D : Type} [Dbl D]

/-- A number, reversed or not. -/
def flip (s : Bool) (a : D) : D := if s then -. a else a

/-- A point, a momentum or an electric field in the mirrors. -/
def vec (m : Mirror) (v : V3 D) : V3 D := ⟨flip m.x v.x, flip m.y v.y, flip m.z v.z⟩

/-- A magnetic field in the mirrors. Its component along an axis is reversed by the mirrors of the two
other axes. -/
def axial (m : Mirror) (v : V3 D) : V3 D :=
  ⟨flip (m.y ^^ m.z) v.x, flip (m.z ^^ m.x) v.y, flip (m.x ^^ m.y) v.z⟩

/-- `f'` is the field `f` seen in the mirrors. -/
def Fields (m : Mirror) (f f' : Field D) : Prop :=
  ∀ t x, f' t (m.vec x) = (m.vec (f t x).1, m.axial (f t x).2)

/-- A particle with its recorded history. -/
def part (m : Mirror) (p : Particle D) : Particle D :=
  { p with
    position := m.vec p.position
    momentum := m.vec p.momentum
    posHistory := p.posHistory.map m.vec
    momHistory := p.momHistory.map m.vec }

/-- All particles of an event. -/
def list (m : Mirror) (l : PList D) : PList D := { l with items := l.items.map m.part }

/-- The state of an event: the draws, the clock and the histograms stay. -/
def state (m : Mirror) (s : EvState D) : EvState D := { s with list := m.list s.list }

/-- A process with the same settings in the mirrored field. -/
inductive Procs (m : Mirror) : Proc D → Proc D → Prop
  | stochastic (cfg : EmissionCfg D) (f' : Field D) : m.Fields cfg.field f' →
      Procs m (.stochastic cfg) (.stochastic { cfg with field := f' })
  | continuous (cfg : EmissionCfg D) (f' : Field D) (classical : Bool) :
      m.Fields cfg.field f' →
      Procs m (.continuous cfg classical) (.continuous { cfg with field := f' } classical)
  | breitWheeler (cfg : BWCfg D) (f' : Field D) : m.Fields cfg.field f' →
      Procs m (.breitWheeler cfg) (.breitWheeler { cfg with field := f' })

/-- A simulation: same pusher, step, duration and process settings, mirrored fields. -/
structure Sims (m : Mirror) (cfg cfg' : SimCfg D) : Prop where
  push : cfg'.push = cfg.push
  pusher : cfg.push = lorentzForce ∨ cfg.push = landauForce ∨ cfg.push = modLandauForce
  field : m.Fields cfg.field cfg'.field
  dt : cfg'.dt = cfg.dt
  timeEnd : cfg'.timeEnd = cfg.timeEnd
  procs : List.Forall₂ m.Procs cfg.procs cfg'.procs

end Mirror

/-! ## The plane `z = 0` -/

/-- A number that rounding cannot move off the plane: zero, or not a number. -/
def Flat (a : F64) : Prop := a.1 = .fin 0 ∨ a.1 = .nan

/-- A particle that is, moves and has always been in the plane `z = 0`. -/
structure InPlane (p : Particle F64) : Prop where
  position : Flat p.position.z
  momentum : Flat p.momentum.z
  posHistory : ∀ v ∈ p.posHistory, Flat v.z
  momHistory : ∀ v ∈ p.momHistory, Flat v.z

end QED
