import Verif.Spec.Survival
import Verif.Spec.Radiation
import Verif.Spec.Rates

set_option autoImplicit false

/-!
# The first emission of a lepton
-/

namespace QED

/-- An event that starts with the lepton `p` alone: for `k` steps no random number is used, the next step uses some and
leaves the lepton as `q`. -/
def FirstEmission (cfg : SimCfg ℝ) (p : Particle ℝ) (nm : String) (mx : Nat) (us : List ℝ) (k : Nat) (q : Particle ℝ) :
    Prop :=
  ∃ s t, Steps cfg (lonely p nm mx us) k s ∧ s.rng.pos = 1 ∧ Steps cfg (lonely p nm mx us) (k + 1) t ∧ 1 < t.rng.pos ∧
    t.list.items.head? = some q

/-- No random number is used in `n` steps. -/
def NoEmission (cfg : SimCfg ℝ) (p : Particle ℝ) (nm : String) (mx : Nat) (us : List ℝ) (n : Nat) : Prop :=
  ∃ t, Steps cfg (lonely p nm mx us) n t ∧ t.rng.pos = 1

/-- The rate of emission: emissions per unit of time. -/
noncomputable def rateAt (logh : ℝ → ℝ) (m : ℝ) (field : Field ℝ) (t : ℝ) (z : Phase) : ℝ :=
  √3 * Units.alpha * etaOf m field t z * (10 : ℝ) ^ logh (etaOf m field t z) / (gammaOf m z.2 * 2 * Units.pi)

end QED
