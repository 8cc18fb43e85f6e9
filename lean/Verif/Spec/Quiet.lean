import Verif.Spec.Rest
import Verif.Spec.Geometry
import Verif.Model.Processes

set_option autoImplicit false
set_option exponentiation.threshold 2000

/-! # Leptons outside a laser pulse, in double precision -/

namespace QED

open Dbl

/-- The field is exactly zero where the particle is. -/
def NoField (field : Field F64) (p : Particle F64) : Prop :=
  (field p.time p.position).1.At (fun _ => 0) ∧ (field p.time p.position).2.At (fun _ => 0)

/-- A lepton that moves, and that has not yet used up its optical depth. -/
structure Travelling (p : Particle F64) : Prop where
  kind : p.kind ≠ .photon
  mass : p.mass = lit 1
  momentum : ∃ a : Fin 3 → ℝ, p.momentum.At a ∧ (1 / 2) ^ 400 ≤ len a ∧ len a ≤ 2 ^ 200
  depth : (p.opticalDepth <. lit 0) = false

/-- The process finds no field where the particle is. Pair production does not look. -/
def Proc.NoField (p : Particle F64) : Proc F64 → Prop
  | .stochastic e => QED.NoField e.field p ∧ ∃ τ, e.dt.1 = .fin τ ∧ |τ| ≤ 2 ^ 50
  | .continuous e _ => QED.NoField e.field p
  | .breitWheeler _ => True

/-- Emission, if it is one, by quantum sampling. -/
def Proc.Sampled : Proc F64 → Prop
  | .stochastic _ | .breitWheeler _ => True
  | .continuous _ _ => False

end QED
