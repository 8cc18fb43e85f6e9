import Verif.Model.Sim
import Verif.Spec.Geometry

set_option autoImplicit false

/-!
# Change of axes, origin and clock

What it means to describe the same experiment with other axes, another origin
and another zero of time. `Motion` is an isometry of space together with a
shift of the clock. Positions are moved, momenta and electric fields are turned,
magnetic fields are turned and, by a reflection, reversed.
-/

namespace QED

/-- A rotation or reflection `lin` of the axes, a displacement `shift` of the
origin and a shift `delay` of the clock. `parity` is `1` for a rotation and `-1`
for a reflection. -/
structure Motion where
  lin : V3 ℝ → V3 ℝ
  shift : V3 ℝ
  delay : ℝ
  parity : ℝ
  lin_add : ∀ a b, lin (a.add b) = (lin a).add (lin b)
  lin_smul : ∀ (s : ℝ) a, lin (a.smul s) = (lin a).smul s
  lin_dot : ∀ a b, (lin a).dot (lin b) = a.dot b
  lin_cross : ∀ a b, lin (a.cross b) = ((lin a).cross (lin b)).smul parity
  parity_sq : parity * parity = 1

namespace Motion

/-- A point of space. -/
noncomputable def point (m : Motion) (x : V3 ℝ) : V3 ℝ := (m.lin x).add m.shift

/-- `f'` is the field `f` seen with the new axes, origin and clock. -/
def Fields (m : Motion) (f f' : Field ℝ) : Prop :=
  ∀ t x, f' (t + m.delay) (m.point x) = (m.lin (f t x).1, (m.lin (f t x).2).smul m.parity)

/-- A particle with its recorded history. -/
noncomputable def part (m : Motion) (p : Particle ℝ) : Particle ℝ :=
  { p with
    time := p.time + m.delay
    position := m.point p.position
    momentum := m.lin p.momentum
    posHistory := p.posHistory.map m.point
    momHistory := p.momHistory.map m.lin
    timeHistory := p.timeHistory.map (· + m.delay) }

/-- All particles of an event. -/
noncomputable def list (m : Motion) (l : PList ℝ) : PList ℝ := { l with items := l.items.map m.part }

/-- The state of an event: the particles are moved, the draws, the loop's own
clock and the histograms stay. -/
noncomputable def state (m : Motion) (s : EvState ℝ) : EvState ℝ := { s with list := m.list s.list }

/-- A process: same tables and settings, moved field. -/
inductive Procs (m : Motion) : Proc ℝ → Proc ℝ → Prop
  | stochastic (cfg : EmissionCfg ℝ) (f' : Field ℝ) : m.Fields cfg.field f' →
      Procs m (.stochastic cfg) (.stochastic { cfg with field := f' })
  | continuous (cfg : EmissionCfg ℝ) (f' : Field ℝ) (classical : Bool) :
      m.Fields cfg.field f' →
      Procs m (.continuous cfg classical) (.continuous { cfg with field := f' } classical)
  | breitWheeler (cfg : BWCfg ℝ) (f' : Field ℝ) : m.Fields cfg.field f' →
      Procs m (.breitWheeler cfg) (.breitWheeler { cfg with field := f' })

/-- A simulation: same pusher, step, duration and process settings, moved fields. -/
structure Sims (m : Motion) (cfg cfg' : SimCfg ℝ) : Prop where
  push : cfg'.push = cfg.push
  pusher : cfg.push = lorentzForce ∨ cfg.push = landauForce ∨ cfg.push = modLandauForce
  field : m.Fields cfg.field cfg'.field
  dt : cfg'.dt = cfg.dt
  timeEnd : cfg'.timeEnd = cfg.timeEnd
  procs : List.Forall₂ m.Procs cfg.procs cfg'.procs

end Motion

end QED
