import Verif.Model.FileParser

set_option autoImplicit false

/-!
# The check file `./input-check.txt` of `Source/IO/Input/FileParser.cpp`

The program asks the parser for a log of what it has read. A log is a list of lines; a line is a text or a label with
the value that is printed after it. Simplified: values stand for what `operator<<` prints of them (it prints `double`
with six digits, so the real file tells less). The file can always be opened, and the log of a rejected input is
shorter than the buffer of the stream.
-/

namespace QED

variable {D : Type}

/-- What is printed after a label. -/
inductive CheckVal (D : Type) where
  | str (s : String)
  | num (x : D)
  | nat (n : Nat)
  | flag (b : Bool)
  | vec (v : V3 D)

/-- A line of the check file. -/
inductive CheckLine (D : Type) where
  | text (s : String)
  | entry (label : String) (v : CheckVal D)

namespace FileParser

/-- The log of `ReadGeneral` (`FileParser.cpp:72-81`). -/
def checkGeneral (g : GeneralParams D) : List (CheckLine D) :=
  [.text "General input parameters ", .entry "Units       = " (.str g.units), .entry "Time step   = " (.num g.timeStep),
    .entry "Time end    = " (.num g.timeEnd), .entry "Output file = " (.str g.fileName),
    .entry "Tracking    = " (.flag g.tracking), .text "", .text ""]

/-- The log of a pulse (`FileParser.cpp:139-152,164-177`): the polarisation is not written. -/
def checkPulse (type : String) (maxE wavelength duration waist : D) (start focus : V3 D) : List (CheckLine D) :=
  [.text "Field input parameters ", .entry "Field type  = " (.str type), .entry "Max E       = " (.num maxE),
    .entry "Duration    = " (.num duration), .entry "Waist       = " (.num waist),
    .entry "Wavelength  = " (.num wavelength), .entry "Start       = " (.vec start), .entry "Focus       = " (.vec focus),
    .text "", .text ""]

/-- The log of `ReadField` (`FileParser.cpp:102-111,118-127,139-152,164-177`). The amplitude of a plane wave is not
written; nothing is without a field section. -/
def checkField : FieldParams D → List (CheckLine D)
  | .unset => []
  | .static e b => [.text "Field input parameters ", .entry "Field type = " (.str "static"),
      .entry "E strength = " (.vec e), .entry "B strength = " (.vec b), .text "", .text ""]
  | .plane _ wavelength polerisation direction => [.text "Field input parameters ",
      .entry "Field type  = " (.str "plane"), .entry "Wavelength  = " (.num wavelength),
      .entry "Direction   = " (.vec direction), .entry "Polerisation = " (.num polerisation), .text "", .text ""]
  | .gaussian maxE wavelength duration waist _ start focus =>
    checkPulse "gaussian" maxE wavelength duration waist start focus
  | .focusing maxE wavelength duration waist _ start focus =>
    checkPulse "focusing" maxE wavelength duration waist start focus

/-- The log of a source (`FileParser.cpp:226-243`): the energy distribution is not written. -/
def checkParticle (i : Nat) (p : ParticleParams D) : List (CheckLine D) :=
  [.entry "Particle " (.nat i), .entry "Name       = " (.str p.name), .entry "Number     = " (.nat p.number),
    .entry "Type       = " (.str p.type), .entry "Energy1    = " (.num p.energy1), .entry "Energy2    = " (.num p.energy2),
    .entry "Radius     = " (.num p.radius), .entry "Divergence     = " (.num p.divergence),
    .entry "Duration   = " (.num p.duration), .entry "Output     = " (.flag p.output),
    .entry "Direction  = " (.vec p.direction), .entry "Position   = " (.vec p.position), .text "", .text ""]

/-- The log of `ReadPhysics` (`FileParser.cpp:190-198`). -/
def checkPhysics (p : PhysicsParams D) : List (CheckLine D) :=
  [.text "Physics parameters ", .entry "Physics module used   = " (.str p.physics),
    .entry "Pair production       = " (.flag p.pairProduction), .entry "Sample fraction       = " (.num p.sampleFraction),
    .entry "Minimum photon energy = " (.num p.minEnergy), .text "", .text ""]

/-- The log of a histogram (`FileParser.cpp:276-286`): the quantity that is counted is not written. -/
def checkHistogram (i : Nat) (h : HistogramParams D) : List (CheckLine D) :=
  [.entry "Histogram " (.nat i), .entry "Name     = " (.str h.name), .entry "Particle = " (.str h.particle),
    .entry "Time     = " (.num h.time), .entry "Bins     = " (.nat h.bins), .entry "Min Bin  = " (.num h.minBin),
    .entry "Max Bin  = " (.num h.maxBin), .text "", .text ""]

/-- The logs of numbered sections from number `i` on (`FileParser.cpp:203-253,258-291`). -/
def checkNumbered {α : Type} (log : Nat → α → List (CheckLine D)) : Nat → List α → List (CheckLine D)
  | _, [] => []
  | i, a :: as => log i a ++ checkNumbered log (i + 1) as

/-- The log of an input that was read to the end (`FileParser.cpp:21-25`). -/
def checkLines (i : Input D) : List (CheckLine D) :=
  checkGeneral i.general ++ (checkField i.field ++ (checkNumbered checkParticle 1 i.particles ++
    (checkPhysics i.physics ++ checkNumbered checkHistogram 1 i.histograms)))

/-- The check file after the constructor and, if it got so far, the destructor of `FileParser` (`FileParser.cpp:6-36`),
when `old` was there before. `CheckVitals` ends the program before the file is opened; a later `exit` ends it with the
log still in the buffer of the stream, which belongs to an object on the heap and is not flushed. -/
def checkFile [Dbl D] (old : Option (List (CheckLine D))) (r : Reader) : Option (List (CheckLine D)) :=
  match checkVitals r with
  | .ok _ =>
    match parse r with
    | .ok i => some (checkLines i)
    | _ => some []
  | _ => old

end FileParser

end QED
