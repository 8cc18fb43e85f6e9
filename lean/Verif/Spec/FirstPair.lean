import Verif.Spec.Survival
import Verif.Spec.Radiation
import Verif.Spec.Rates

set_option autoImplicit false

/-!
# The conversion of a photon

Used by C149: the step in which a photon turns into a pair, and the pair.
-/

namespace QED

/-- An event that starts with the photon `p` alone: after `n` steps it is still there, alone. -/
def NoPair (cfg : SimCfg ℝ) (p : Particle ℝ) (nm : String) (mx : Nat) (us : List ℝ) (n : Nat) : Prop :=
  ∃ t q, Steps cfg (lonely p nm mx us) n t ∧ t.list.items = [q] ∧ q.isAlive = true

/-- For `k` steps the photon is alone; after the next step it is dead and there are the particles `a` and `b`. -/
def FirstPair (cfg : SimCfg ℝ) (p : Particle ℝ) (nm : String) (mx : Nat) (us : List ℝ) (k : Nat) (a b : Particle ℝ) :
    Prop :=
  NoPair cfg p nm mx us k ∧
    ∃ t q, Steps cfg (lonely p nm mx us) (k + 1) t ∧ t.list.items = [q, a, b] ∧ q.isAlive = false

/-- The expected number of conversions of the photon `q` in a step: `dt α χ T / ε`, `logt` being the decimal logarithm
of `T`. -/
noncomputable def conversions (b : BWCfg ℝ) (logt : ℝ → ℝ) (q : Particle ℝ) : ℝ :=
  b.dt * Units.alpha * bwChi b.field q * (10 : ℝ) ^ logt (bwChi b.field q) / q.energy

/-- The momentum of a particle of mass 1 and energy `ε` that flies along `u`. -/
noncomputable def momentumAlong (u : Fin 3 → ℝ) (ε : ℝ) : Fin 3 → ℝ := √(ε ^ 2 - 1) • u

/-- A particle of mass 1, charge `c` and energy `ε` where the photon `q` is and in its direction. -/
noncomputable def madeBy (b : BWCfg ℝ) (q : Particle ℝ) (c ε : ℝ) : Particle ℝ :=
  { kind := if c = -1 then .electron else .positron
    mass := 1
    charge := c
    weight := q.weight
    time := q.time
    opticalDepth := 0
    tracking := b.track
    isAlive := true
    position := q.position
    momentum := q.direction.smul √(ε ^ 2 - 1)
    posHistory := []
    momHistory := []
    timeHistory := []
    gammaHistory := [] }

/-- The positron of the pair that the photon makes in step `k` for the random number `v`: it has the share of the energy
and is pushed once. -/
noncomputable def positronOf (cfg : SimCfg ℝ) (b : BWCfg ℝ) (share : ℝ → ℝ → ℝ) (p : Particle ℝ) (k : Nat) (v : ℝ) :
    Particle ℝ :=
  pushParticle cfg.push cfg.field cfg.dt (madeBy b (pushes cfg p (k + 1)) 1
    (share (bwChi b.field (pushes cfg p (k + 1))) v * (pushes cfg p (k + 1)).energy))

/-- The electron: it has the rest. -/
noncomputable def electronOf (cfg : SimCfg ℝ) (b : BWCfg ℝ) (share : ℝ → ℝ → ℝ) (p : Particle ℝ) (k : Nat) (v : ℝ) :
    Particle ℝ :=
  pushParticle cfg.push cfg.field cfg.dt (madeBy b (pushes cfg p (k + 1)) (-1)
    ((1 - share (bwChi b.field (pushes cfg p (k + 1))) v) * (pushes cfg p (k + 1)).energy))

/-- What the tables say about the energy of the positron, as a share of that of the photon: a function that is
continuous in the quantum parameter on the set `O`, and measurable in the random number. -/
structure ContinuousSplit (O : Set ℝ) (share : ℝ → ℝ → ℝ) : Prop where
  continuous : ∀ v ∈ Set.Ico (0 : ℝ) 1, ContinuousOn (fun χ => share χ v) O
  measurable : ∀ χ ∈ O, Measurable (share χ)

end QED
