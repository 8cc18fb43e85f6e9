import Verif.Model.Sim

set_option autoImplicit false

/-!
# Generations

Used by C155.
-/

namespace QED

open MCTools

/-- The settings of a run with quantum emission and pair production (`QEDCASC.cpp:132-150`): one field and one time step
for the pusher and both processes. -/
structure QuantumPairs {D : Type} [Dbl D] (cfg : SimCfg D) (e : EmissionCfg D) (w : BWCfg D) : Prop where
  push : cfg.push = lorentzForce
  procs : cfg.procs = [.stochastic e, .breitWheeler w]
  fields : e.field = cfg.field ∧ w.field = cfg.field
  steps : e.dt = cfg.dt ∧ w.dt = cfg.dt

/-- The next `n` draws of `r` lie between `f` and `U`. -/
def Between (f U : ℝ) (r : Rng ℝ) (n : Nat) : Prop := ∀ i, r.pos ≤ i → i < r.pos + n → f < r.draw i ∧ r.draw i < U

end QED
