import Verif.Model.FileParser
import Verif.Model.Sim

set_option autoImplicit false

/-!
# The set-up part of `main` in `Source/Exec/QEDCASC.cpp`

`return 1` from `main` and `exit(1)` are both written `.exit 1`.
-/

namespace QED

open Dbl

variable {D : Type} [Dbl D]

namespace Main

/-- The command line (`QEDCASC.cpp:36-67`); `args` is `argv[1]`, `argv[2]`, ... The result is the name
of the file to run. `substr` with a position beyond the end throws. -/
def commandLine (args : List (List Char)) : Res (List Char) :=
  match args with
  | [] => .exit 1
  | [a] =>
    if a = "-h".toList then .exit 1
    else if a.length < 4 then .throw "std::out_of_range"
    else if a.drop (a.length - 4) = ".ini".toList then .ok a
    else .exit 1
  | _ => .exit 1

/-- The field (`QEDCASC.cpp:88-111`). -/
def makeField (f : FieldParams D) : Res (Field D) :=
  match f with
  | .static e b => .ok (staticField e b)
  | .plane maxE wavelength pol direction =>
    .ok (PlaneField.new maxE wavelength pol direction).getField
  | .gaussian maxE wavelength duration waist pol start focus =>
    .ok (GaussField.new maxE wavelength duration waist pol start focus).getField
  | .focusing maxE wavelength duration waist pol start focus =>
    .ok (FocusField.new maxE wavelength duration waist pol start focus).getField
  | .unset => .exit 1

/-- The tables the processes load from files in their constructors. -/
structure Tables (D : Type) where
  hAxis : List D
  hData : List D
  etaAxis : List D
  chiAxis : List (List D)
  phEnTable : List (List D)
  tAxis : List D
  tData : List D
  bwChiAxis : List D
  bwFractAxis : List D
  bwFractTable : List (List D)

/-- The parameters of an emission process (`QEDCASC.cpp:119-121,126-128,133-135`). -/
def emissionCfg (t : Tables D) (field : Field D) (dt sampleFrac eMin : D) (track : Bool) :
    EmissionCfg D :=
  { field, dt, track, sampleFrac, eMin
    hAxis := t.hAxis, hData := t.hData, etaAxis := t.etaAxis
    chiAxis := t.chiAxis, phEnTable := t.phEnTable }

/-- The parameters of pair production (`QEDCASC.cpp:146-147`): tracking is off. -/
def bwCfg (t : Tables D) (field : Field D) (dt : D) : BWCfg D :=
  { field, dt, track := false
    tAxis := t.tAxis, tData := t.tData, chiAxis := t.bwChiAxis, fractAxis := t.bwFractAxis
    fractTable := t.bwFractTable }

/-- Pusher and emission process (`QEDCASC.cpp:113-142`). -/
def makeEmission (cfg : EmissionCfg D) (physics : String) : Res (PushMom D × Proc D) :=
  if physics = "Classical" ∨ physics = "classical" then
    .ok (landauForce, .continuous cfg true)
  else if physics = "Semiclassical" ∨ physics = "semiclassical" then
    .ok (modLandauForce, .continuous cfg false)
  else if physics = "Quantum" ∨ physics = "quantum" then
    .ok (lorentzForce, .stochastic cfg)
  else .exit 1

/-- Pusher and processes (`QEDCASC.cpp:113-149`). -/
def makePhysics (t : Tables D) (g : GeneralParams D) (p : PhysicsParams D) (field : Field D) :
    Res (PushMom D × List (Proc D)) := do
  let (push, emission) ← makeEmission
    (emissionCfg t field g.timeStep p.sampleFraction p.minEnergy g.tracking) p.physics
  if p.pairProduction = true then
    .ok (push, [emission, .breitWheeler (bwCfg t field g.timeStep)])
  else .ok (push, [emission])

/-- Everything the event loop needs (`QEDCASC.cpp:88-149`). -/
def setup (t : Tables D) (i : Input D) : Res (SimCfg D) := do
  let field ← makeField i.field
  let (push, procs) ← makePhysics t i.general i.physics field
  .ok { push, field, dt := i.general.timeStep, timeEnd := i.general.timeEnd, procs }

/-- One source (`QEDCASC.cpp:155-160`): radius, duration and divergence in this order. -/
def makeSource (g : GeneralParams D) (p : ParticleParams D) (raw : RawDraws D) : Res (Source D) :=
  Source.new p.type p.distro p.number p.energy1 p.energy2 p.radius p.duration p.divergence p.position
    p.direction g.tracking raw

/-- One histogram (`QEDCASC.cpp:168-170`). -/
def makeHist (h : HistogramParams D) (garbage : Nat) : Hist D :=
  Hist.new h.name h.particle h.type h.time h.minBin h.maxBin h.bins garbage

/-- `main` up to the event loop, given the file system: the command line, the file and the set-up. -/
def start (t : Tables D) (files : List Char → Option (List Char)) (args : List (List Char)) :
    Res (Input D × SimCfg D) := do
  let path ← commandLine args
  let r ← Reader.new (files path)
  let input ← FileParser.parse r
  let cfg ← setup t input
  .ok (input, cfg)

end Main
end QED
