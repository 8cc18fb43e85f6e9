import Verif.Model.Geant
import Verif.Spec.Geometry

set_option autoImplicit false

/-!
# Where Geant4 should continue after a crossing
-/

namespace QED.G4

open Dbl

/-- A place in millimetres is the place `x` of the simulation. -/
def At (g x : V3 ℝ) : Prop := g.smul (Units.unitsSI : Units.UnitsSystem ℝ).g4Length = x

/-- The track and the secondaries continue where the simulation of the crossing, which began at the time `clock` (in
nanoseconds) and ended in the state `s`, has left the lepton and the photons, after the time that it took. -/
structure Continues (clock : ℝ) (s : StepState ℝ) (pl : Placed ℝ) : Prop where
  place : At pl.position s.part.position
  time : (pl.time - clock) * (Units.unitsSI : Units.UnitsSystem ℝ).g4Time = s.time
  photons : List.Forall₂ (fun g p => At g.1 p.position ∧
    (g.2 - clock) * (Units.unitsSI : Units.UnitsSystem ℝ).g4Time = s.time) pl.secondaries s.list.items

/-- The state at the beginning of `PostStepDoIt`. -/
noncomputable def begin (t : Track ℝ) (r : MCTools.Rng ℝ) : StepState ℝ :=
  ⟨leptonOf t r.next.1, PList.new "Photons" PList.defaultMax, r.next.2, lit 0⟩

end QED.G4
