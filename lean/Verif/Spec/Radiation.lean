import Verif.Lemmas.Loop
import Mathlib.MeasureTheory.Measure.Lebesgue.Basic
import Mathlib.MeasureTheory.Integral.Lebesgue.Basic

set_option autoImplicit false

/-!
# The law of a random process

Used by C118: averages over independent uniform draws, the record of what happened in an
event, and the ideal process that radiates without memory.
-/

namespace QED

open MCTools MeasureTheory

open Classical in
/-- 1 if `P` holds, 0 otherwise. -/
noncomputable def indic (P : Prop) : ENNReal := if P then 1 else 0

/-- The mean of `F` over `N` independent draws, each uniform in `[0, 1)`. -/
noncomputable def average : Nat → (List ℝ → ENNReal) → ENNReal
  | 0, F => F []
  | N + 1, F => ∫⁻ u in Set.Ico (0 : ℝ) 1, average N fun us => F (u :: us)

/-- The probability of `A` over `N` independent draws, each uniform in `[0, 1)`. -/
noncomputable def likelihood (N : Nat) (A : List ℝ → Prop) : ENNReal :=
  average N fun us => indic (A us)

/-- `Lived cfg s h t`: time steps lead from `s` to `t`, and `h` records for each of them
whether it used random numbers and, if so, the first one. -/
inductive Lived (cfg : SimCfg ℝ) : EvState ℝ → List (Option ℝ) → EvState ℝ → Prop
  | nil {s} : Lived cfg s [] s
  | quiet {s s' t h} : (s.time <. cfg.timeEnd) = true → timeStep cfg s = .ok s' →
      s'.rng.pos = s.rng.pos → Lived cfg s' h t → Lived cfg s (none :: h) t
  | drawn {s s' t h} : (s.time <. cfg.timeEnd) = true → timeStep cfg s = .ok s' →
      s.rng.pos < s'.rng.pos → Lived cfg s' h t → Lived cfg s (some s.rng.next.1 :: h) t

/-- A process without memory. In every step the state `q` first becomes `q' = push q`; then,
with probability `1 - exp (-rate q')` and independently of the past, there is an emission,
in which a number `v` uniform in `[0, 1)` turns the state into `kick q' v`. The value is the
mean of `G` over the records of the first `n` steps; for `G = indic ∘ A` it is the
probability that the record is in `A`. -/
noncomputable def memoryless {α : Type} (push : α → α) (rate : α → ℝ) (kick : α → ℝ → α) :
    Nat → α → (List (Option ℝ) → ENNReal) → ENNReal
  | 0, _, G => G []
  | n + 1, q, G =>
    ENNReal.ofReal (Real.exp (-rate (push q))) *
        memoryless push rate kick n (push q) (fun h => G (none :: h)) +
      ENNReal.ofReal (1 - Real.exp (-rate (push q))) *
        ∫⁻ v in Set.Ico (0 : ℝ) 1,
          memoryless push rate kick n (kick (push q) v) (fun h => G (some v :: h))

/-- The state that the record `h` leads to. -/
def following {α : Type} (push : α → α) (kick : α → ℝ → α) : List (Option ℝ) → α → α
  | [], q => q
  | none :: h, q => following push kick h (push q)
  | some v :: h, q => following push kick h (kick (push q) v)

/-! ## The lepton -/

/-- The expected number of emissions in a step: `dt √3 α η h / (2π γ)`, `logh` being the
decimal logarithm of `h`. -/
noncomputable def emissionRate (e : EmissionCfg ℝ) (logh : ℝ → ℝ) (q : Particle ℝ) : ℝ :=
  e.dt * √3 * Units.alpha * calculateEta e.field q * (10 : ℝ) ^ logh (calculateEta e.field q) /
    (q.gamma * 2 * Units.pi)

/-- The energy `2 χ γ / η` of the photon that the draw `v` selects. -/
noncomputable def photonEnergy (e : EmissionCfg ℝ) (chi : ℝ → ℝ → ℝ) (q : Particle ℝ) (v : ℝ) : ℝ :=
  2 * chi (calculateEta e.field q) v * q.gamma / calculateEta e.field q

/-- The lepton after that emission: it has lost this energy times its direction. -/
noncomputable def kicked (e : EmissionCfg ℝ) (chi : ℝ → ℝ → ℝ) (q : Particle ℝ) (v : ℝ) :
    Particle ℝ :=
  q.updateTrack q.position (q.momentum.sub (q.direction.smul (photonEnergy e chi q v)))

/-- A lepton in `Q` stays in `Q`, and the tables cover it: looking up the emission rate
succeeds and, where it can emit, looking up the photon succeeds for every draw. -/
structure Lookups (cfg : SimCfg ℝ) (e : EmissionCfg ℝ) (logh : ℝ → ℝ) (chi : ℝ → ℝ → ℝ)
    (Q : Particle ℝ → Prop) : Prop where
  pushed : ∀ q, Q q → Q (pushParticle cfg.push cfg.field cfg.dt q)
  rate : ∀ q, Q q → emissionLogh e (calculateEta e.field (pushParticle cfg.push cfg.field cfg.dt q)) =
    .ok (logh (calculateEta e.field (pushParticle cfg.push cfg.field cfg.dt q)))
  photon : ∀ q, Q q → 0 < emissionRate e logh (pushParticle cfg.push cfg.field cfg.dt q) →
    ∀ v, 0 ≤ v → v < 1 →
    calculateChi e (calculateEta e.field (pushParticle cfg.push cfg.field cfg.dt q)) v =
      .ok (chi (calculateEta e.field (pushParticle cfg.push cfg.field cfg.dt q)) v)
  recoil : ∀ q, Q q → 0 < emissionRate e logh (pushParticle cfg.push cfg.field cfg.dt q) →
    ∀ v, 0 ≤ v → v < 1 → Q (kicked e chi (pushParticle cfg.push cfg.field cfg.dt q) v)

/-- An event with the single lepton `p`. The first of the draws `us` sets its optical depth,
the others are available to the event. -/
noncomputable def lonely (p : Particle ℝ) (nm : String) (mx : Nat) (us : List ℝ) : EvState ℝ :=
  .init ⟨nm, mx, [p.initOpticalDepth (us.headD 0)]⟩ ⟨fun i => us.getD i 0, 1⟩ []

end QED
