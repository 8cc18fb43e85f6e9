import Verif.Spec.Motion
import Mathlib.Analysis.Calculus.Deriv.Basic
import Mathlib.Analysis.Calculus.FDeriv.Prod

set_option autoImplicit false

/-!
# Maxwell's equations in vacuum

In units with `c = 1`, without charges and currents.
-/

namespace QED

/-- The partial derivative by the `i`-th coordinate. -/
noncomputable def partialDeriv (i : Fin 3) (f : (Fin 3 → ℝ) → ℝ) (x : Fin 3 → ℝ) : ℝ :=
  deriv (fun s => f (Function.update x i s)) (x i)

/-- `∇ · F`. -/
noncomputable def divergence (F : (Fin 3 → ℝ) → Fin 3 → ℝ) (x : Fin 3 → ℝ) : ℝ :=
  partialDeriv 0 (fun y => F y 0) x + partialDeriv 1 (fun y => F y 1) x + partialDeriv 2 (fun y => F y 2) x

/-- `∇ × F`. -/
noncomputable def curl (F : (Fin 3 → ℝ) → Fin 3 → ℝ) (x : Fin 3 → ℝ) : Fin 3 → ℝ :=
  ![partialDeriv 1 (fun y => F y 2) x - partialDeriv 2 (fun y => F y 1) x,
    partialDeriv 2 (fun y => F y 0) x - partialDeriv 0 (fun y => F y 2) x,
    partialDeriv 0 (fun y => F y 1) x - partialDeriv 1 (fun y => F y 0) x]

/-- The four equations at one time and place, for fields that have derivatives there. -/
structure MaxwellAt (E B : ℝ → (Fin 3 → ℝ) → Fin 3 → ℝ) (t : ℝ) (x : Fin 3 → ℝ) : Prop where
  electric_smooth : DifferentiableAt ℝ (fun p : ℝ × (Fin 3 → ℝ) => E p.1 p.2) (t, x)
  magnetic_smooth : DifferentiableAt ℝ (fun p : ℝ × (Fin 3 → ℝ) => B p.1 p.2) (t, x)
  gauss : divergence (E t) x = 0
  no_monopoles : divergence (B t) x = 0
  faraday : curl (E t) x = -deriv (fun s => B s x) t
  ampere : curl (B t) x = deriv (fun s => E s x) t

/-- A vacuum solution: the equations hold at all times and places. -/
def Maxwell (field : Field ℝ) : Prop := ∀ t x, MaxwellAt (electric field) (magnetic field) t x

end QED
