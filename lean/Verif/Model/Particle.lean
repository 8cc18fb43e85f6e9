import Verif.Model.ThreeVector
import Verif.Model.MCTools
import Verif.Model.Units

set_option autoImplicit false

/-!
# `Source/Particles/{Particle,Lepton,Photon,ParticleList}.cpp`

The class hierarchy `Particle` / `Lepton` / `Photon` becomes one structure with
a `kind`. Objects are values; a method that mutates an object returns the new
object. `ParticleList` owns its particles, so the list holds the values.
-/

namespace QED

open Dbl MCTools

/-- The dynamic class of a particle and, for a lepton, the name chosen by its
constructor (`Lepton.cpp:7-13,22-28`). -/
inductive Kind where
  | photon
  | electron
  | positron
  deriving DecidableEq, Repr

/-- `class Particle` (`Particle.hh:71-84`). -/
structure Particle (D : Type) where
  kind : Kind
  mass : D
  charge : D
  weight : D
  time : D
  opticalDepth : D
  tracking : Bool
  isAlive : Bool
  position : V3 D
  momentum : V3 D
  posHistory : List (V3 D)
  momHistory : List (V3 D)
  timeHistory : List D
  gammaHistory : List D

variable {D : Type} [Dbl D]

/-- The value set by `InitOpticalDepth` for the raw draw `u` (`Particle.cpp:61-64`). -/
def initDepth (u : D) : D := lit (-1) *. log (lit 1 -. u)

namespace Particle

/-- `Particle::InitOpticalDepth` (`Particle.cpp:61-64`). -/
def initOpticalDepth (p : Particle D) (u : D) : Particle D :=
  { p with opticalDepth := initDepth u }

/-- Base constructor (`Particle.cpp:18-27`); `u` is the draw of
`InitOpticalDepth`. Histories start empty (default-constructed vectors). -/
def new (kind : Kind) (mass charge : D) (position momentum : V3 D) (weight time : D)
    (tracking : Bool) (u : D) : Particle D :=
  { kind, mass, charge, weight, time, opticalDepth := initDepth u, tracking, isAlive := true
    position, momentum, posHistory := [], momHistory := [], timeHistory := []
    gammaHistory := [] }

/-- The name chosen by the `Lepton` constructors (`Lepton.cpp:7-13,22-28`). -/
def leptonKind (charge : D) : Kind :=
  if charge ==. lit (-1) then .electron else .positron

/-- `Lepton(mass, charge, position, momentum, ...)` (`Lepton.cpp:3-14`). -/
def newLepton (mass charge : D) (position momentum : V3 D) (weight time : D)
    (tracking : Bool) (u : D) : Particle D :=
  new (leptonKind charge) mass charge position momentum weight time tracking u

/-- `Lepton(mass, charge, energy, position, direction, ...)` (`Lepton.cpp:16-29`). -/
def newLeptonE (mass charge energy : D) (position direction : V3 D) (weight time : D)
    (tracking : Bool) (u : D) : Particle D :=
  new (leptonKind charge) mass charge position (direction.norm.smul energy) weight time
    tracking u

/-- `Photon(position, momentum, ...)` (`Photon.cpp:3-7`). -/
def newPhoton (position momentum : V3 D) (weight time : D) (tracking : Bool) (u : D) :
    Particle D :=
  new .photon (lit 0) (lit 0) position momentum weight time tracking u

/-- `Photon(energy, position, direction, ...)` (`Photon.cpp:9-13`). -/
def newPhotonE (energy : D) (position direction : V3 D) (weight time : D) (tracking : Bool)
    (u : D) : Particle D :=
  new .photon (lit 0) (lit 0) position (direction.norm.smul energy) weight time tracking u

/-- `GetGamma` (`Lepton.cpp:35-38`, `Photon.cpp:25-28`). -/
def gamma (p : Particle D) : D :=
  match p.kind with
  | .photon => p.momentum.mag
  | _ => sqrt (lit 1 +. p.momentum.mag2 /. (p.mass *. p.mass))

/-- `GetEnergy` (`Lepton.cpp:40-43`, `Photon.cpp:20-23`). -/
def energy (p : Particle D) : D :=
  match p.kind with
  | .photon => p.momentum.mag
  | _ => p.mass *. p.gamma

/-- `GetBeta` (`Lepton.cpp:45-48`, `Photon.cpp:30-33`). -/
def beta (p : Particle D) : D :=
  match p.kind with
  | .photon => lit 1
  | _ => sqrt (lit 1 -. lit 1 /. (p.gamma *. p.gamma))

/-- `GetType` (`Lepton.hh:24`, `Photon.hh:24`). -/
def typeName (p : Particle D) : String :=
  match p.kind with
  | .photon => "Photon"
  | _ => "Lepton"

/-- `GetName` (`Lepton.hh:26`, `Photon.hh:26`). -/
def name (p : Particle D) : String :=
  match p.kind with
  | .photon => "Photon"
  | .electron => "Electron"
  | .positron => "Positron"

/-- `GetDirection` (`Particle.cpp:56-59`). -/
def direction (p : Particle D) : V3 D := p.momentum.norm

/-- `UpdateTrack` (`Particle.cpp:33-44`): `GetGamma()` at line 42 sees the new
momentum. -/
def updateTrack (p : Particle D) (position momentum : V3 D) : Particle D :=
  let p' := { p with position := position, momentum := momentum }
  if p.tracking then
    { p' with
      posHistory := p.posHistory ++ [position]
      momHistory := p.momHistory ++ [momentum]
      timeHistory := p.timeHistory ++ [p.time]
      gammaHistory := p.gammaHistory ++ [p'.gamma] }
  else p'

/-- `UpdateTime` (`Particle.cpp:46-49`). -/
def updateTime (p : Particle D) (dt : D) : Particle D := { p with time := p.time +. dt }

/-- `UpdateOpticalDepth` (`Particle.cpp:51-54`). -/
def updateOpticalDepth (p : Particle D) (dtau : D) : Particle D :=
  { p with opticalDepth := p.opticalDepth -. dtau }

/-- `Kill` (`Particle.hh:28`). -/
def kill (p : Particle D) : Particle D := { p with isAlive := false }

end Particle

/-- `class ParticleList` (`ParticleList.hh:28-33`). The vector of `m_maxParticles`
pointers, of which the first `m_particleNumber` are set, is modelled by the
list of the set ones. -/
structure PList (D : Type) where
  name : String
  maxParticles : Nat
  items : List (Particle D)

namespace PList

/-- Constructor (`ParticleList.cpp:8-12`). -/
def new (name : String) (maxParticles : Nat) : PList D := ⟨name, maxParticles, []⟩

/-- Default capacity (`ParticleList.hh:15`). -/
def defaultMax : Nat := 1000000

/-- `GetNPart` (`ParticleList.hh:21`). -/
def nPart (l : PList D) : Nat := l.items.length

/-- `AddParticle` (`ParticleList.cpp:22-33`): when the list is full the particle
is dropped (and its memory leaked) with a message on `stderr`. -/
def add (l : PList D) (p : Particle D) : PList D :=
  if l.items.length < l.maxParticles then { l with items := l.items ++ [p] } else l

/-- `GetParticle` (`ParticleList.hh:23`) and use of the returned pointer: beyond
`maxParticles` the read is out of bounds, between `GetNPart` and
`maxParticles` the pointer is null. Either way using it is undefined. -/
def get (l : PList D) (i : Nat) : Res (Particle D) :=
  match l.items[i]? with
  | some p => .ok p
  | none => if i < l.maxParticles then .ub "null particle" else .ub "out-of-bounds read"

/-- Mutation of the `i`-th particle through its pointer. -/
def set (l : PList D) (i : Nat) (p : Particle D) : PList D := { l with items := l.items.set i p }

end PList

end QED
