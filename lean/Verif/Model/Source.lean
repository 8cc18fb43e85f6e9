import Verif.Model.Particle

set_option autoImplicit false

/-!
# `Source/Particles/SourceGenerator.cpp`
-/

namespace QED

open Dbl MCTools

variable {D : Type} [Dbl D]

/-- `class SourceGenerator` (`SourceGenerator.hh:29-41`). -/
structure Source (D : Type) where
  type : String
  nPart : Nat
  position : V3 D
  direction : V3 D
  xPos : List D
  yPos : List D
  zPos : List D
  thetaDir : List D
  phiDir : List D
  energy : List D
  partCount : Nat
  rotation : M3 D
  track : Bool

/-- The raw random numbers behind one `SourceGenerator`: standard normal draws
for positions and polar angle, uniform draws for the azimuth, and normal or
uniform draws (depending on the distribution) for the energy. Each list has
`nPart` entries. -/
structure RawDraws (D : Type) where
  zx : List D
  zy : List D
  zz : List D
  zTheta : List D
  uPhi : List D
  rawE : List D

/-- Each raw list has one entry per particle. -/
def RawDraws.Sized (d : RawDraws D) (n : Nat) : Prop :=
  d.zx.length = n ∧ d.zy.length = n ∧ d.zz.length = n ∧ d.zTheta.length = n ∧
    d.uPhi.length = n ∧ d.rawE.length = n

namespace Source

/-- The energy samples (`SourceGenerator.cpp:23-32`); the last two branches are
the same. -/
def sampleEnergy (distro : String) (energy1 energy2 : D) (raw : List D) : Res (List D) :=
  if distro = "gaussian" ∨ distro = "Gaussian" then .ok (sampleNorm energy1 energy2 raw)
  else if distro = "linear" ∨ distro = "Linear" then sampleUniform energy1 energy2 raw
  else sampleUniform energy1 energy2 raw

/-- Constructor (`SourceGenerator.cpp:7-35`). -/
def new (type distro : String) (nPart : Nat) (energy1 energy2 deltaPos deltaTau deltaDir : D)
    (position direction : V3 D) (track : Bool) (raw : RawDraws D) : Res (Source D) := do
  let dir := direction.norm
  let phi ← sampleUniform (lit 0) (lit 2 *. Units.pi) raw.uPhi
  let energy ← sampleEnergy distro energy1 energy2 raw.rawE
  .ok { type, nPart, position, direction := dir
        xPos := sampleNorm (lit 0) deltaPos raw.zx
        yPos := sampleNorm (lit 0) deltaPos raw.zy
        zPos := sampleNorm (lit 0) deltaTau raw.zz
        thetaDir := sampleNorm (lit 0) deltaDir raw.zTheta
        phiDir := phi
        energy, partCount := 0
        rotation := dir.rotateToAxis V3.ez
        track }

/-- The unit vector of `SourceGenerator.cpp:55-59`. -/
def sphere (theta phi : D) : V3 D :=
  ⟨sin theta *. cos phi, sin theta *. sin phi, cos theta⟩

/-- The particle built at `SourceGenerator.cpp:62-82`; `u` is the raw draw of its
optical depth. -/
def mkParticle (s : Source D) (energy : D) (pos dir : V3 D) (u : D) : Res (Particle D) :=
  if s.type = "Photon" ∨ s.type = "photon" then
    .ok (.newPhotonE energy pos dir (lit 1) (lit 0) s.track u)
  else if s.type = "Electron" ∨ s.type = "electron" then
    .ok (.newLeptonE (lit 1) (lit (-1)) energy pos dir (lit 1) (lit 0) s.track u)
  else if s.type = "Positron" ∨ s.type = "positron" then
    .ok (.newLeptonE (lit 1) (lit 1) energy pos dir (lit 1) (lit 0) s.track u)
  else .exit (-1)

/-- `GenerateList` (`SourceGenerator.cpp:41-85`). -/
def generateList (s : Source D) (r : Rng D) : Res (PList D × Source D × Rng D) := do
  if s.partCount = s.nPart then .exit 1
  else
    let list : PList D := PList.new (toString s.partCount) PList.defaultMax
    let px ← rd s.xPos s.partCount
    let py ← rd s.yPos s.partCount
    let pz ← rd s.zPos s.partCount
    let partPosition := (s.rotation.mulVec ⟨px, py, pz⟩).add s.position
    let theta ← rd s.thetaDir s.partCount
    let phi ← rd s.phiDir s.partCount
    let partDirection := s.rotation.mulVec (sphere theta phi)
    let energy ← rd s.energy s.partCount
    let (u, r') := r.next
    let part ← mkParticle s energy partPosition partDirection u
    .ok (list.add part, { s with partCount := s.partCount + 1 }, r')

end Source

end QED
