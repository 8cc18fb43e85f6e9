import Verif.Spec.Independence
import Mathlib.Algebra.BigOperators.Fin

set_option autoImplicit false

/-!
# Many events

`Finals` lists what a number of events of a source leave. `fraction` is the part of them that has a property,
`eventMean` the mean of a number, `eventExpected` what a number is on average in one event.
-/

namespace QED

open MCTools

/-- The next events of the source `s` end, one after another, with the particle lists `ls`. -/
def Finals (cfg : SimCfg ℝ) (fuel : Nat) (ls : List (PList ℝ)) (s : Source ℝ) (r : Rng ℝ) : Prop :=
  NextAre cfg fuel (ls.map fun l l' => l' = l) s r

open Classical in
/-- The part of the events `ls` whose particles have the property `C`. -/
noncomputable def fraction (C : List (Particle ℝ) → Prop) (ls : List (PList ℝ)) : ℝ :=
  (ls.countP fun l => decide (C l.items)) / ls.length

/-- The mean over the events `ls` of a number that depends on their particles. -/
noncomputable def eventMean (f : List (Particle ℝ) → ℕ) (ls : List (PList ℝ)) : ℝ :=
  (ls.map fun l => f l.items).sum / ls.length

/-- The probability that the number `f` is `j` at the end of the next event. -/
noncomputable def valueChance (cfg : SimCfg ℝ) (fuel M : Nat) (s : Source ℝ) (f : List (Particle ℝ) → ℕ) (j : Nat) : ENNReal :=
  likelihood M fun us => NextIs cfg fuel (fun l => f l.items = j) s (fresh us)

/-- The expectation of a number of at most `B`. -/
noncomputable def eventExpected (cfg : SimCfg ℝ) (fuel M : Nat) (s : Source ℝ) (f : List (Particle ℝ) → ℕ) (B : Nat) : ℝ :=
  ∑ j ∈ Finset.range (B + 1), (valueChance cfg fuel M s f j).toReal * j

end QED
