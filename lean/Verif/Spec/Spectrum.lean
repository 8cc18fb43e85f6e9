import Verif.Spec.Radiation
import Verif.Spec.Survival

set_option autoImplicit false

/-!
# Sampling a spectrum

Used by C125: in every time step, with a fixed probability and independently of everything else, one photon
of the spectrum of that step is stored.
-/

namespace QED

open MeasureTheory

/-- `n` independent choices. Each is, with probability `f`, a number uniform in `[0, 1)`, and otherwise
nothing. The value is the mean of `G` over the lists of the choices. -/
noncomputable def sampled (f : ℝ) : Nat → (List (Option ℝ) → ENNReal) → ENNReal
  | 0, G => G []
  | n + 1, G =>
    ENNReal.ofReal (1 - f) * sampled f n (fun h => G (none :: h)) +
      ENNReal.ofReal f * ∫⁻ v in Set.Ico (0 : ℝ) 1, sampled f n (fun h => G (some v :: h))

/-- The photon that the number `v` selects from the spectrum of the lepton `q`: it starts where the lepton
is and flies along with it, and it stands for the photons of one step divided by the sample fraction. -/
noncomputable def spectrumPhoton (e : EmissionCfg ℝ) (logh : ℝ → ℝ) (chi : ℝ → ℝ → ℝ) (q : Particle ℝ) (v : ℝ) :
    Particle ℝ :=
  { kind := .photon, mass := 0, charge := 0, weight := q.weight * emissionRate e logh q / e.sampleFrac
    position := q.position, momentum := q.direction.norm.smul (photonEnergy e chi q v), time := q.time
    opticalDepth := 0, isAlive := true, tracking := e.track, posHistory := [], momHistory := []
    timeHistory := [], gammaHistory := [] }

open Classical in
/-- The photons that are there after the choices `h`, one for every step, by a lepton that is pushed and
otherwise not disturbed. Photons of at most the energy `eMin` are left out. A photon is pushed in all steps
from the one in which it is emitted. -/
noncomputable def photonsAfter (cfg : SimCfg ℝ) (e : EmissionCfg ℝ) (logh : ℝ → ℝ) (chi : ℝ → ℝ → ℝ) :
    List (Option ℝ) → Particle ℝ → List (Particle ℝ)
  | [], _ => []
  | none :: h, q => photonsAfter cfg e logh chi h (pushParticle cfg.push cfg.field cfg.dt q)
  | some v :: h, q =>
    let q' := pushParticle cfg.push cfg.field cfg.dt q
    (if e.eMin < photonEnergy e chi q' v then [pushes cfg (spectrumPhoton e logh chi q' v) (h.length + 1)]
      else []) ++ photonsAfter cfg e logh chi h q'

/-- The photons of an event whose first particle is the lepton. What is left of their optical depths is
not looked at. -/
noncomputable def photonsIn (t : EvState ℝ) : List (Particle ℝ) :=
  t.list.items.tail.map fun x => { x with opticalDepth := 0 }

end QED
