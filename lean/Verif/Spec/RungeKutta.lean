import Mathlib.Analysis.Normed.Module.Basic

set_option autoImplicit false

/-!
# The classical fourth-order Runge-Kutta method

The textbook method for `y' = f t y`, on any real vector space.
-/

namespace QED

variable {V : Type} [AddCommGroup V] [Module ℝ V]

/-- One step of size `h` from `y` at time `t`. -/
noncomputable def rungeKutta (f : ℝ → V → V) (h t : ℝ) (y : V) : V :=
  let k1 := f t y
  let k2 := f (t + h / 2) (y + (h / 2) • k1)
  let k3 := f (t + h / 2) (y + (h / 2) • k2)
  let k4 := f (t + h) (y + h • k3)
  y + (h / 6) • (k1 + (2 : ℝ) • k2 + (2 : ℝ) • k3 + k4)

/-- `n` steps of size `h`. -/
noncomputable def rungeKuttaSteps (f : ℝ → V → V) (h t : ℝ) (y : V) : Nat → V
  | 0 => y
  | n + 1 => rungeKutta f h (t + n * h) (rungeKuttaSteps f h t y n)

end QED
