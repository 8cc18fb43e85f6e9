import Verif.Spec.Ini
import Verif.Spec.Numeral
import Verif.Model.FileParser
import Verif.Base.Dbl

set_option autoImplicit false

/-!
# What the entries of a configuration mean

How single values are to be understood, and which parameters a section describes. From the model only
the records of parameters are used, and the reference values of the unit system.
-/

namespace QED
namespace Ini

/-- The configuration has this value under this section and name, in any case. -/
def Config.Says (c : Config) (sect name v : List Char) : Prop :=
  ∃ s ∈ c, ∃ e ∈ s.2, SameName sect s.1 ∧ SameName name e.1 ∧ e.2 = v

/-- The configuration has no value under this section and name. -/
def Config.Silent (c : Config) (sect name : List Char) : Prop := ∀ v, ¬ c.Says sect name v

/-- The configuration has a section of exactly this name with at least one entry. -/
def Config.HasEntries (c : Config) (sect : List Char) : Prop := ∃ es, (sect, es) ∈ c ∧ es ≠ []

/-- `x` is the number given, or the default. -/
def RealIs (c : Config) (sect : List Char) (name : String) (dflt : ℚ) (x : ℝ) : Prop :=
  (c.Silent sect name.toList → x = dflt) ∧
  ∀ m : Numeral, m.WF → c.Says sect name.toList m.text → x = m.value

/-- `x` is the text given, or the default. -/
def TextIs (c : Config) (sect : List Char) (name : String) (dflt : List Char) (x : String) : Prop :=
  (c.Silent sect name.toList → x.toList = dflt) ∧
  ∀ v, v ≠ [] → c.Says sect name.toList v → x.toList = v

/-- `x` is the natural number given, if it fits into 32 bits, or the default. -/
def NatIs (c : Config) (sect : List Char) (name : String) (dflt x : ℕ) : Prop :=
  (c.Silent sect name.toList → x = dflt) ∧
  ∀ n < 2 ^ 32, c.Says sect name.toList (Nat.toDigits 10 n) → x = n

/-- `x` is the truth value given, false if there is none. -/
def FlagIs (c : Config) (sect : List Char) (name : String) (x : Bool) : Prop :=
  (c.Silent sect name.toList → x = false) ∧
  (∀ v, c.Says sect name.toList v → (SameName v "true".toList ∨ SameName v "yes".toList ∨
    SameName v "on".toList ∨ SameName v "1".toList) → x = true) ∧
  (∀ v, c.Says sect name.toList v → (SameName v "false".toList ∨ SameName v "no".toList ∨
    SameName v "off".toList ∨ SameName v "0".toList) → x = false)

/-- `x` is the vector given as three numbers separated by single spaces; zero if there is none. -/
def VecIs (c : Config) (sect : List Char) (name : String) (x : V3 ℝ) : Prop :=
  (c.Silent sect name.toList → x = ⟨0, 0, 0⟩) ∧
  ∀ l m n : Numeral, l.WF → m.WF → n.WF →
    c.Says sect name.toList (l.text ++ ' ' :: m.text ++ ' ' :: n.text) →
    x = ⟨(l.value : ℝ), (m.value : ℝ), (n.value : ℝ)⟩

/-- A vector in internal units times the unit. -/
def inUnits (v : V3 ℝ) (unit : ℝ) : V3 ℝ := ⟨v.x * unit, v.y * unit, v.z * unit⟩

/-- The section describes this source. The left of each product is in internal units, the product in
SI units. -/
structure SourceIs (u : Units.UnitsSystem ℝ) (c : Config) (sect : List Char) (p : ParticleParams ℝ) :
    Prop where
  number : NatIs c sect "number_particles" 1 p.number
  name : TextIs c sect "name" sect p.name
  type : TextIs c sect "particle_type" "Electron".toList p.type
  distro : TextIs c sect "energy_distribution" "mono".toList p.distro
  position : VecIs c sect "position" (inUnits p.position u.refLength)
  direction : VecIs c sect "direction" p.direction
  energy1 : RealIs c sect "energy_mean" 0 (p.energy1 * u.refEnergy)
  energy2 : RealIs c sect "energy_sig" 0 (p.energy2 * u.refEnergy)
  radius : RealIs c sect "radius" 0 (p.radius * u.refLength)
  divergence : RealIs c sect "divergence" 0 p.divergence
  duration : RealIs c sect "duration" 0 (p.duration * u.refTime)
  output : FlagIs c sect "output" p.output

/-- The section describes this histogram. The limits are in internal units in the file already. -/
structure HistogramIs (u : Units.UnitsSystem ℝ) (c : Config) (sect : List Char)
    (h : HistogramParams ℝ) : Prop where
  name : TextIs c sect "name" sect h.name
  particle : TextIs c sect "particle" [] h.particle
  type : TextIs c sect "type" [] h.type
  time : RealIs c sect "time" 0 (h.time * u.refTime)
  bins : NatIs c sect "bins" 1 h.bins
  minBin : RealIs c sect "min_bin" 0 h.minBin
  maxBin : RealIs c sect "max_bin" 1 h.maxBin

/-- The section `General` describes these parameters. -/
structure GeneralIs (u : Units.UnitsSystem ℝ) (c : Config) (g : GeneralParams ℝ) : Prop where
  timeStep : RealIs c "General".toList "time_step" 0 (g.timeStep * u.refTime)
  timeEnd : RealIs c "General".toList "time_end" 0 (g.timeEnd * u.refTime)
  fileName : TextIs c "General".toList "file_name" "out.h5".toList g.fileName
  tracking : FlagIs c "General".toList "tracking" g.tracking

/-- The section `Physics` describes these parameters. -/
structure PhysicsIs (u : Units.UnitsSystem ℝ) (c : Config) (p : PhysicsParams ℝ) : Prop where
  physics : TextIs c "Physics".toList "radiation_model" [] p.physics
  minEnergy : RealIs c "Physics".toList "min_energy" 0 (p.minEnergy * u.refEnergy)
  sampleFraction : RealIs c "Physics".toList "sample_fraction" 1 p.sampleFraction
  pairProduction : FlagIs c "Physics".toList "pair_production" p.pairProduction

/-- The parameters of a laser pulse. -/
structure PulseIs (u : Units.UnitsSystem ℝ) (c : Config)
    (maxE wavelength duration waist pol : ℝ) (start focus : V3 ℝ) : Prop where
  maxE : RealIs c "Field".toList "e_max" 0 (maxE * u.refEField)
  wavelength : RealIs c "Field".toList "wavelength" 1 (wavelength * u.refLength)
  duration : RealIs c "Field".toList "duration" 1 (duration * u.refTime)
  waist : RealIs c "Field".toList "waist" 1 (waist * u.refLength)
  pol : RealIs c "Field".toList "polerisation" 0 pol
  start : VecIs c "Field".toList "start" (inUnits start u.refLength)
  focus : VecIs c "Field".toList "focus" (inUnits focus u.refLength)

/-- The section `Field` describes this field. -/
def FieldIs (u : Units.UnitsSystem ℝ) (c : Config) : FieldParams ℝ → Prop
  | .unset => ¬ c.HasEntries "Field".toList
  | .static e b => c.Says "Field".toList "field_type".toList "static".toList ∧
      VecIs c "Field".toList "e_field" (inUnits e u.refEField) ∧
      VecIs c "Field".toList "b_field" (inUnits b u.refBField)
  | .plane maxE wavelength pol direction =>
      c.Says "Field".toList "field_type".toList "plane".toList ∧
      RealIs c "Field".toList "e_max" 0 (maxE * u.refEField) ∧
      RealIs c "Field".toList "wavelength" 1 (wavelength * u.refLength) ∧
      RealIs c "Field".toList "polerisation" 0 pol ∧
      VecIs c "Field".toList "direction" direction
  | .gaussian maxE wavelength duration waist pol start focus =>
      c.Says "Field".toList "field_type".toList "gaussian".toList ∧
      PulseIs u c maxE wavelength duration waist pol start focus
  | .focusing maxE wavelength duration waist pol start focus =>
      c.Says "Field".toList "field_type".toList "focusing".toList ∧
      PulseIs u c maxE wavelength duration waist pol start focus

end Ini
end QED
