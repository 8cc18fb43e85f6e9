import Verif.Spec.Input
import Verif.Spec.Parallel
import Verif.Spec.RunCalls

set_option autoImplicit false

/-!
# The same simulation, ordered in an input file and from Python

An order is a list of settings as a user writes them down, in SI units. It can be written into an input
file or asked for with the calls of a run manager. From the model only the record types of the calls are
used.
-/

namespace QED

open Ini RunMgr

/-- Three numbers as they are written. -/
structure Triple where
  x : Numeral
  y : Numeral
  z : Numeral

namespace Triple

/-- The three are numbers. -/
def WF (v : Triple) : Prop := v.x.WF ∧ v.y.WF ∧ v.z.WF

/-- The vector they stand for. -/
noncomputable def value (v : Triple) : V3 ℝ := ⟨(v.x.value : ℝ), (v.y.value : ℝ), (v.z.value : ℝ)⟩

/-- How they are written into an input file. -/
def text (v : Triple) : List Char := v.x.text ++ ' ' :: v.y.text ++ ' ' :: v.z.text

end Triple

/-- What a user wants to simulate: a laser pulse and one beam, without tracking and histograms. -/
structure RunOrder where
  timeStep : Numeral
  timeEnd : Numeral
  focusing : Bool
  maxField : Numeral
  wavelength : Numeral
  pulse : Numeral
  waist : Numeral
  polarisation : Numeral
  start : Triple
  focus : Triple
  physics : String
  sample : Numeral
  pairs : Bool
  particle : String
  dist : String
  number : ℕ
  energy1 : Numeral
  energy2 : Numeral
  radius : Numeral
  duration : Numeral
  divergence : Numeral
  position : Triple
  direction : Triple

namespace RunOrder

/-- The name of the field. -/
def fieldName (o : RunOrder) : String := if o.focusing then "focusing" else "gaussian"

/-- The settings are numbers where numbers are needed, no name is empty, the time step is not zero and the
number of particles fits into an `int`. -/
structure Sound (o : RunOrder) : Prop where
  timeStep : o.timeStep.WF
  timeEnd : o.timeEnd.WF
  maxField : o.maxField.WF
  wavelength : o.wavelength.WF
  pulse : o.pulse.WF
  waist : o.waist.WF
  polarisation : o.polarisation.WF
  start : o.start.WF
  focus : o.focus.WF
  sample : o.sample.WF
  energy1 : o.energy1.WF
  energy2 : o.energy2.WF
  radius : o.radius.WF
  duration : o.duration.WF
  divergence : o.divergence.WF
  position : o.position.WF
  direction : o.direction.WF
  step : o.timeStep.value ≠ 0
  physics : o.physics ≠ ""
  particle : o.particle ≠ ""
  dist : o.dist ≠ ""
  number : o.number < 2 ^ 31

/-- The settings are among those both sides know: the name of the radiation model, and a sample fraction
between zero and one. -/
structure Common (o : RunOrder) : Prop where
  physics : o.physics ∈ ["Classical", "Semiclassical", "semiclassical", "Quantum", "quantum"]
  fraction : 0 ≤ o.sample.value ∧ o.sample.value ≤ 1

/-- The configuration has the order's settings, and none that Python does not have. -/
structure Written (o : RunOrder) (c : Config) : Prop where
  general : c.HasEntries "General".toList
  units : c.Says "General".toList "units".toList "SI".toList
  timeStep : c.Says "General".toList "time_step".toList o.timeStep.text
  timeEnd : c.Says "General".toList "time_end".toList o.timeEnd.text
  tracking : c.Silent "General".toList "tracking".toList
  field : c.HasEntries "Field".toList
  fieldType : c.Says "Field".toList "field_type".toList o.fieldName.toList
  maxField : c.Says "Field".toList "e_max".toList o.maxField.text
  wavelength : c.Says "Field".toList "wavelength".toList o.wavelength.text
  pulse : c.Says "Field".toList "duration".toList o.pulse.text
  waist : c.Says "Field".toList "waist".toList o.waist.text
  polarisation : c.Says "Field".toList "polerisation".toList o.polarisation.text
  start : c.Says "Field".toList "start".toList o.start.text
  focus : c.Says "Field".toList "focus".toList o.focus.text
  physics : c.Says "Physics".toList "radiation_model".toList o.physics.toList
  sample : c.Says "Physics".toList "sample_fraction".toList o.sample.text
  pairs : c.Says "Physics".toList "pair_production".toList
    (if o.pairs then "true".toList else "false".toList)
  minEnergy : c.Silent "Physics".toList "min_energy".toList
  beam : c.HasEntries "Particle1".toList
  particle : c.Says "Particle1".toList "particle_type".toList o.particle.toList
  dist : c.Says "Particle1".toList "energy_distribution".toList o.dist.toList
  number : c.Says "Particle1".toList "number_particles".toList (Nat.toDigits 10 o.number)
  energy1 : c.Says "Particle1".toList "energy_mean".toList o.energy1.text
  energy2 : c.Says "Particle1".toList "energy_sig".toList o.energy2.text
  radius : c.Says "Particle1".toList "radius".toList o.radius.text
  duration : c.Says "Particle1".toList "duration".toList o.duration.text
  divergence : c.Says "Particle1".toList "divergence".toList o.divergence.text
  position : c.Says "Particle1".toList "position".toList o.position.text
  direction : c.Says "Particle1".toList "direction".toList o.direction.text
  output : c.Silent "Particle1".toList "output".toList
  only : ¬ c.HasEntries "Particle2".toList
  histograms : ¬ c.HasEntries "Histogram1".toList

end RunOrder

/-- Of each kind of setting, the last one made in this history is the order's. -/
structure RunOrder.Asked (o : RunOrder) (h : List (Call ℝ × Outcome ℝ)) : Prop where
  time : lastOf asTime h = some ((o.timeStep.value : ℝ), (o.timeEnd.value : ℝ))
  field : lastOf asPulse h = some (o.fieldName,
    { maxField := (o.maxField.value : ℝ), wavelength := (o.wavelength.value : ℝ)
      duration := (o.pulse.value : ℝ), waist := (o.waist.value : ℝ)
      polarisation := (o.polarisation.value : ℝ), start := o.start.value, focus := o.focus.value })
  physics : lastOf asPhysics h = some o.physics
  sample : lastOf asSample h = some (o.sample.value : ℝ)
  pairs : lastOf asPairs h = some o.pairs
  beam : lastOf asBeam h = some
    { particleType := o.particle, energyDist := o.dist, energyParam1 := (o.energy1.value : ℝ)
      energyParam2 := (o.energy2.value : ℝ), radius := (o.radius.value : ℝ)
      duration := (o.duration.value : ℝ), divergence := (o.divergence.value : ℝ)
      position := o.position.value, direction := o.direction.value }

end QED
