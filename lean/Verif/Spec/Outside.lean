import Verif.Spec.Rest
import Verif.Model.Processes

set_option autoImplicit false

/-! # Photons outside a laser pulse, in double precision -/

namespace QED

open Dbl

/-- Zero, or not a number. -/
def Void (a : F64) : Prop := a.1 = .fin 0 ∨ a = F64.nan

/-- Every component is zero or not a number. -/
def V3.Dark (v : V3 F64) : Prop := Void v.x ∧ Void v.y ∧ Void v.z

/-- There is no field where the particle is. -/
def InDark (field : Field F64) (p : Particle F64) : Prop :=
  (field p.time p.position).1.Dark ∧ (field p.time p.position).2.Dark

/-- A table of the pair rate that starts with two equal entries. -/
structure FlatStart (b : BWCfg F64) : Prop where
  length : b.tAxis.length = b.tData.length ∧ b.tAxis.length < 2 ^ 32
  axis : ∃ x y s t, b.tAxis[0]? = some x ∧ b.tAxis[1]? = some y ∧ x.1 = .fin s ∧ y.1 = .fin t ∧ s < t ∧ |s| ≤ 1000 ∧ |t| ≤ 1000
  data : ∃ x d, b.tData[0]? = some x ∧ b.tData[1]? = some x ∧ x.1 = .fin d

/-- Emission of photons, by whatever model. -/
def Proc.IsEmission : Proc F64 → Prop
  | .stochastic _ | .continuous _ _ => True
  | .breitWheeler _ => False

/-- The place is at least 30 pulse lengths before or behind the centre of the Gaussian pulse, as the program computes
it. -/
def GaussField.Far (f : GaussField F64) (time : F64) (position : V3 F64) : Prop :=
  ∃ u t : ℝ, (time -. (f.startPos.sub f.focusPos).mag -. (f.rotation.mulVec position).z).1 = .fin u ∧ f.tau.1 = .fin t ∧
    (1 / 2) ^ 200 ≤ t ∧ 30 * t ≤ |u| ∧ |u| ≤ 2 ^ 300

/-- The place is beyond the limit at which the program cuts off a focusing pulse. -/
def FocusField.Beyond (f : FocusField F64) (time : F64) (position : V3 F64) : Prop :=
  (f.envelope time (f.rotation.mulVec position) <. lit 1e-15) = true

end QED
