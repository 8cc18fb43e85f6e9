import Verif.Lemmas.Loop
import Mathlib.MeasureTheory.Measure.Lebesgue.Basic

set_option autoImplicit false

/-!
# A single particle that has not interacted yet
-/

namespace QED

open MCTools

/-- The particle after `k` pushes and nothing else. -/
noncomputable def pushes (cfg : SimCfg ℝ) (p : Particle ℝ) (k : Nat) : Particle ℝ :=
  (pushParticle cfg.push cfg.field cfg.dt)^[k] p

/-- An event whose only particle is `p`, created with the raw draw `u` for its optical
depth, makes `n` time steps without using any further random number: nothing has been
emitted and nothing has converted. -/
def Untouched (cfg : SimCfg ℝ) (p : Particle ℝ) (nm : String) (mx : Nat) (r : Rng ℝ) (n : Nat)
    (u : ℝ) : Prop :=
  ∃ t, Steps cfg (.init ⟨nm, mx, [p.initOpticalDepth u]⟩ r []) n t ∧ t.rng = r

/-- The probability, over a raw draw uniform in `[0, 1)`, of an event. -/
noncomputable def chance (A : ℝ → Prop) : ENNReal :=
  MeasureTheory.volume {u : ℝ | 0 ≤ u ∧ u < 1 ∧ A u}

end QED
