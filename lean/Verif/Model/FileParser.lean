import Verif.Model.Ini
import Verif.Model.Units

set_option autoImplicit false

/-!
# `Source/IO/Input/FileParser.cpp`

The log `./input-check.txt` is in `Model/CheckFile`. Simplified: parameters the C++ leaves
uninitialised are not given a value: the field parameters are a sum type with one case per field type.
-/

namespace QED

open Dbl _root_.QED.Units

variable {D : Type} [Dbl D]

/-- `struct GeneralParameters` (`FileParser.hh:8-16`). -/
structure GeneralParams (D : Type) where
  units : String
  timeStep : D
  timeEnd : D
  fileName : String
  tracking : Bool

/-- `struct FieldParameters` (`FileParser.hh:18-31`): the members set for each value of `Type`. `unset`
is the state without a field section, in which `Type` is empty. -/
inductive FieldParams (D : Type) where
  | unset
  | static (e b : V3 D)
  | plane (maxE wavelength polerisation : D) (direction : V3 D)
  | gaussian (maxE wavelength duration waist polerisation : D) (start focus : V3 D)
  | focusing (maxE wavelength duration waist polerisation : D) (start focus : V3 D)

/-- `struct ParticleParameters` (`FileParser.hh:33-47`). -/
structure ParticleParams (D : Type) where
  number : Nat
  name : String
  type : String
  distro : String
  position : V3 D
  direction : V3 D
  energy1 : D
  energy2 : D
  radius : D
  divergence : D
  duration : D
  output : Bool

/-- `struct PhysicsParameters` (`FileParser.hh:49-55`). -/
structure PhysicsParams (D : Type) where
  physics : String
  minEnergy : D
  sampleFraction : D
  pairProduction : Bool

/-- `struct HistogramParameters` (`FileParser.hh:57-66`). -/
structure HistogramParams (D : Type) where
  name : String
  particle : String
  type : String
  time : D
  bins : Nat
  minBin : D
  maxBin : D

/-- Everything a `FileParser` holds after construction (`FileParser.hh:106-110`). -/
structure Input (D : Type) where
  general : GeneralParams D
  field : FieldParams D
  particles : List (ParticleParams D)
  physics : PhysicsParams D
  histograms : List (HistogramParams D)

namespace FileParser

/-- A value of type `long` stored in an `unsigned int`. -/
def toU32 (n : Int) : Nat := (n % 2 ^ 32).toNat

/-- `GetString` with literals. -/
def str (r : Reader) (sect : List Char) (name dflt : String) : String :=
  String.ofList (r.getString sect name.toList dflt.toList)

/-- `GetReal` with a literal name. -/
def real (r : Reader) (sect : List Char) (name : String) (dflt : D) : D :=
  r.getReal sect name.toList dflt

/-- `GetThreeVector` with a literal name. -/
def vec (r : Reader) (sect : List Char) (name : String) (dflt : V3 D) : Res (V3 D) :=
  r.getThreeVector sect name.toList dflt

/-- `CheckVitals` (`FileParser.cpp:38-61`). -/
def checkVitals (r : Reader) : Res Unit :=
  if "General".toList ∉ r.sections then .exit 1
  else if r.hasValue "General".toList "time_step".toList = false then .exit 1
  else if r.hasValue "General".toList "time_end".toList = false then .exit 1
  else if r.hasValue "General".toList "units".toList = false then .exit 1
  else .ok ()

/-- `ReadGeneral` (`FileParser.cpp:63-82`). -/
def readGeneral (r : Reader) : Res (UnitsSystem D × GeneralParams D) := do
  let sect := "General".toList
  let units := str r sect "units" "None"
  let u : UnitsSystem D ← UnitsSystem.new units
  .ok (u, { units
            timeStep := real r sect "time_step" (lit 0) /. u.refTime
            timeEnd := real r sect "time_end" (lit 0) /. u.refTime
            fileName := str r sect "file_name" "out.h5"
            tracking := r.getBoolean sect "tracking".toList false })

/-- `ReadField` (`FileParser.cpp:84-180`). -/
def readField (r : Reader) (u : UnitsSystem D) : Res (FieldParams D) :=
  let sect := "Field".toList
  if sect ∈ r.sections then
    let type := str r sect "field_type" ""
    if type ≠ "gaussian" ∧ type ≠ "plane" ∧ type ≠ "static" ∧ type ≠ "focusing" then .exit 1
    else if type = "static" then do
      let e ← vec r sect "e_field" V3.zero
      let b ← vec r sect "b_field" V3.zero
      .ok (.static (e.divs u.refEField) (b.divs u.refBField))
    else if type = "plane" then do
      let direction ← vec r sect "direction" V3.ez
      .ok (.plane (real r sect "e_max" (lit 0) /. u.refEField)
        (real r sect "wavelength" (lit 1) /. u.refLength)
        (real r sect "polerisation" (lit 0)) direction)
    else do
      let start ← vec r sect "start" V3.zero
      let focus ← vec r sect "focus" V3.zero
      let maxE := real r sect "e_max" (lit 0) /. u.refEField
      let wavelength := real r sect "wavelength" (lit 1) /. u.refLength
      let duration := real r sect "duration" (lit 1) /. u.refTime
      let waist := real r sect "waist" (lit 1) /. u.refLength
      let polerisation := real r sect "polerisation" (lit 0)
      if type = "gaussian" then
        .ok (.gaussian maxE wavelength duration waist polerisation (start.divs u.refLength)
          (focus.divs u.refLength))
      else
        .ok (.focusing maxE wavelength duration waist polerisation (start.divs u.refLength)
          (focus.divs u.refLength))
  else .ok .unset

/-- `ReadPhysics` (`FileParser.cpp:182-199`). -/
def readPhysics (r : Reader) (u : UnitsSystem D) : PhysicsParams D :=
  let sect := "Physics".toList
  { physics := str r sect "radiation_model" ""
    minEnergy := real r sect "min_energy" (lit 0) /. u.refEnergy
    sampleFraction := real r sect "sample_fraction" (lit 1)
    pairProduction := r.getBoolean sect "pair_production".toList false }

/-- One source of `ReadParticles` (`FileParser.cpp:210-223`). -/
def readParticle (r : Reader) (u : UnitsSystem D) (sect : List Char) : Res (ParticleParams D) := do
  let position ← vec r sect "position" V3.zero
  let direction ← vec r sect "direction" V3.ez
  .ok { number := toU32 (r.getInteger sect "number_particles".toList 1)
        name := String.ofList (r.getString sect "name".toList sect)
        type := str r sect "particle_type" "Electron"
        distro := str r sect "energy_distribution" "mono"
        position := position.divs u.refLength
        direction
        energy1 := real r sect "energy_mean" (lit 0) /. u.refEnergy
        energy2 := real r sect "energy_sig" (lit 0) /. u.refEnergy
        radius := real r sect "radius" (lit 0) /. u.refLength
        divergence := real r sect "divergence" (lit 0)
        duration := real r sect "duration" (lit 0) /. u.refTime
        output := r.getBoolean sect "output".toList false }

/-- One histogram of `ReadHistograms` (`FileParser.cpp:265-272`). -/
def readHistogram (r : Reader) (u : UnitsSystem D) (sect : List Char) : Res (HistogramParams D) :=
  .ok { name := String.ofList (r.getString sect "name".toList sect)
        particle := str r sect "particle" ""
        type := str r sect "type" ""
        time := real r sect "time" (lit 0) /. u.refTime
        bins := toU32 (r.getInteger sect "bins".toList 1)
        minBin := real r sect "min_bin" (lit 0)
        maxBin := real r sect "max_bin" (lit 1) }

/-- The name of a numbered section, e.g. `"Particle" + std::to_string(i)` (`FileParser.cpp:206,261`). -/
def numbered (pre : String) (i : Nat) : List Char := pre.toList ++ Nat.toDigits 10 i

/-- The loops of `ReadParticles` and `ReadHistograms` from number `i` on (`FileParser.cpp:203-253`,
`258-291`). The first argument is fuel. Simplified: the counter does not wrap around at 2^32. -/
def readNumbered {α : Type} (sections : List (List Char)) (pre : String)
    (read : List Char → Res α) : Nat → Nat → Res (List α)
  | 0, _ => .ok []
  | fuel + 1, i =>
    if numbered pre i ∈ sections then do
      let a ← read (numbered pre i)
      let rest ← readNumbered sections pre read fuel (i + 1)
      .ok (a :: rest)
    else .ok []

/-- The constructor of `FileParser` after the file has been read (`FileParser.cpp:10-25`). -/
def parse (r : Reader) : Res (Input D) := do
  checkVitals r
  let (u, general) ← readGeneral r
  let field ← readField r u
  let particles ← readNumbered r.sections "Particle" (readParticle r u) (r.sections.length + 1) 1
  let physics := readPhysics r u
  let histograms ← readNumbered r.sections "Histogram" (readHistogram r u) (r.sections.length + 1) 1
  .ok { general, field, particles, physics, histograms }

end FileParser

end QED
