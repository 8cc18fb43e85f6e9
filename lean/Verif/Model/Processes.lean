import Verif.Model.Particle
import Verif.Model.Fields
import Verif.Model.Numerics

set_option autoImplicit false

/-!
# `Source/Physics/Processes`

A process is modelled by its parameters (field, time step, tables, ...) and its
`Interact` function. `Interact` gets the particle, the list and the random
draws and returns their new values; the particle is an entry of the list, but
`AddParticle` only appends, so the two can be updated separately.
-/

namespace QED

open Dbl MCTools Numerics

variable {D : Type} [Dbl D]

/-- Data members of `PhotonEmission` (`PhotonEmission.hh:32-47`) and `Process`
(`Process.hh:18-20`). The 2D tables are lists of rows. `m_phEn_chiMinAxis` is
only used while loading. -/
structure EmissionCfg (D : Type) where
  field : Field D
  dt : D
  track : Bool
  sampleFrac : D
  eMin : D
  hAxis : List D
  hData : List D
  etaAxis : List D
  /-- `m_phEn_chiAxis`, one row per eta -/
  chiAxis : List (List D)
  /-- `m_phEn_dataTable`, one row per eta -/
  phEnTable : List (List D)

/-- `PhotonEmission::CalculateEta` (`PhotonEmission.cpp:23-34`). -/
def calculateEta (field : Field D) (part : Particle D) : D :=
  let dir := part.direction
  let f := field part.time part.position
  let ePara := dir.smul (f.1.dot dir)
  let ePerp := f.1.sub ePara
  sqrt ((ePerp.add ((dir.cross f.2).smul part.beta)).mag2
    +. pow (dir.dot f.1) (lit 2) /. (part.gamma *. part.gamma)) *. part.gamma

/-- `PhotonEmission::CalculateChi` (`PhotonEmission.cpp:36-48`) with raw draw
`rand`. -/
def calculateChi (cfg : EmissionCfg D) (eta rand : D) : Res D := do
  let (low, frac) ← closestPoints cfg.etaAxis (log10 eta)
  let tl ← rd cfg.phEnTable low
  let cl ← rd cfg.chiAxis low
  let lowValue ← interpolate1D tl cl rand
  let th ← rd cfg.phEnTable (low + 1)
  let ch ← rd cfg.chiAxis (low + 1)
  let highValue ← interpolate1D th ch rand
  .ok (pow (lit 10) ((lit 1 -. frac) *. lowValue +. frac *. highValue))

/-- The increment `deltaOD` (`StochasticEmission.cpp:32-34`,
`ContinuousEmission.cpp:48-50`). -/
def emissionDelta (dt eta logh gamma : D) : D :=
  dt *. sqrt (lit 3) *. Units.alpha *. eta *. pow (lit 10) logh
    /. (gamma *. lit 2 *. Units.pi)

/-- The factor `logh` (`StochasticEmission.cpp:22-31`). -/
def emissionLogh (cfg : EmissionCfg D) (eta : D) : Res D :=
  if eta <. lit 1e-12 then .ok (lit 0.7193)
  else interpolate1D cfg.hAxis cfg.hData (log10 eta)

/-- The sampling decision of `StochasticEmission::Interact`
(`StochasticEmission.cpp:44-50`): `gammaE > m_eMin && m_sampleFrac <
RandDouble(0, 1)`. The draw is only made if the first test succeeds. `part` is
the lepton after the recoil. -/
def storePhoton (cfg : EmissionCfg D) (part : Particle D) (gammaE : D) (list : PList D)
    (r : Rng D) : PList D × Rng D :=
  if cfg.eMin <. gammaE then
    if cfg.sampleFrac <. r.next.1 then
      (list.add (Particle.newPhotonE gammaE part.position part.direction
        (part.weight /. cfg.sampleFrac) part.time cfg.track r.next.2.next.1), r.next.2.next.2)
    else (list, r.next.2)
  else (list, r)

/-- `StochasticEmission::Interact` (`StochasticEmission.cpp:16-53`). -/
def stochasticInteract (cfg : EmissionCfg D) (part : Particle D) (list : PList D) (r : Rng D) :
    Res (Particle D × PList D × Rng D) := do
  if (part.mass ==. lit 0) || !part.isAlive then .ok (part, list, r)
  else
    let eta := calculateEta cfg.field part
    let logh ← emissionLogh cfg eta
    let deltaOD := emissionDelta cfg.dt eta logh part.gamma
    let part := part.updateOpticalDepth deltaOD
    if part.opticalDepth <. lit 0 then
      let chi ← calculateChi cfg eta r.next.1
      let gammaE := lit 2 *. chi *. part.gamma /. eta
      let gammaP := part.direction.smul gammaE
      let part := part.updateTrack part.position (part.momentum.sub gammaP)
      let stored := storePhoton cfg part gammaE list r.next.2
      .ok (part.initOpticalDepth stored.2.next.1, stored.1, stored.2.next.2)
    else .ok (part, list, r)

/-- The pair `(logh, chi)` of continuous emission (`ContinuousEmission.cpp:31-45`)
with raw draw `rand` for `CalculateChi`. -/
def continuousLoghChi (cfg : EmissionCfg D) (classical : Bool) (eta rand : D) :
    Res (D × D) := do
  if (eta <. lit 1e-12) || classical then
    let a0 ← rd cfg.hAxis 0
    let chiMin := exp a0
    let c ← calculateChi cfg chiMin rand
    .ok (lit 0.7193, c *. (eta /. chiMin) *. (eta /. chiMin))
  else
    let logh ← interpolate1D cfg.hAxis cfg.hData (log10 eta)
    let chi ← calculateChi cfg eta rand
    .ok (logh, chi)

/-- `ContinuousEmission::Interact` (`ContinuousEmission.cpp:21-64`). -/
def continuousInteract (cfg : EmissionCfg D) (classical : Bool) (part : Particle D)
    (list : PList D) (r : Rng D) : Res (Particle D × PList D × Rng D) := do
  if (part.mass ==. lit 0) || !part.isAlive then .ok (part, list, r)
  else
    let r1 := r.next
    if cfg.sampleFrac <. r1.1 then .ok (part, list, r1.2)
    else
      let eta := calculateEta cfg.field part
      let r2 := r1.2.next
      let lc ← continuousLoghChi cfg classical eta r2.1
      let deltaOD := emissionDelta cfg.dt eta lc.1 part.gamma
      let weight := part.weight *. deltaOD /. cfg.sampleFrac
      let gammaE := lit 2 *. lc.2 *. part.gamma /. eta
      if cfg.eMin <. gammaE then
        let r3 := r2.2.next
        let photon := Particle.newPhotonE gammaE part.position part.direction weight part.time
          cfg.track r3.1
        .ok (part, list.add photon, r3.2)
      else .ok (part, list, r2.2)

/-- Data members of `NonLinearBreitWheeler` (`NonLinearBreitWheeler.hh:27-35`) and
`Process` (`Process.hh:18-20`). -/
structure BWCfg (D : Type) where
  field : Field D
  dt : D
  track : Bool
  tAxis : List D
  tData : List D
  chiAxis : List D
  fractAxis : List D
  /-- `m_eFract_dataTable`, one row per chi -/
  fractTable : List (List D)

/-- `NonLinearBreitWheeler::CalculateChi` (`NonLinearBreitWheeler.cpp:63-71`). -/
def bwChi (field : Field D) (part : Particle D) : D :=
  let dir := part.direction
  let f := field part.time part.position
  let ePara := dir.smul (f.1.dot dir)
  let ePerp := f.1.sub ePara
  lit 0.5 *. part.energy *. (ePerp.add (dir.cross f.2)).mag

/-- `NonLinearBreitWheeler::CalculateSplit` (`NonLinearBreitWheeler.cpp:49-61`). -/
def bwSplit (cfg : BWCfg D) (chi rand : D) : Res D := do
  let (low, frac) ← closestPoints cfg.chiAxis (log10 chi)
  let tl ← rd cfg.fractTable low
  let lowValue ← interpolate1D tl cfg.fractAxis rand
  let th ← rd cfg.fractTable (low + 1)
  let highValue ← interpolate1D th cfg.fractAxis rand
  .ok ((lit 1 -. frac) *. lowValue +. frac *. highValue)

/-- The increment `deltaOD` (`NonLinearBreitWheeler.cpp:27-28`). -/
def bwDelta (dt chi logt energy : D) : D :=
  dt *. Units.alpha *. chi *. pow (lit 10) logt /. energy

/-- A lepton of a pair (`NonLinearBreitWheeler.cpp:37-42`). -/
def pairLepton (charge energy : D) (part : Particle D) (track : Bool) (u : D) : Particle D :=
  Particle.newLepton (lit 1) charge part.position
    (part.direction.smul (sqrt (energy *. energy -. lit 1))) part.weight part.time track u

/-- `NonLinearBreitWheeler::Interact` (`NonLinearBreitWheeler.cpp:20-47`). -/
def bwInteract (cfg : BWCfg D) (part : Particle D) (list : PList D) (r : Rng D) :
    Res (Particle D × PList D × Rng D) := do
  if part.typeName ≠ "Photon" ∨ part.isAlive = false then .ok (part, list, r)
  else
    let chi := bwChi cfg.field part
    let logt ← interpolate1D cfg.tAxis cfg.tData (log10 chi)
    let deltaOD := bwDelta cfg.dt chi logt part.energy
    let part := part.updateOpticalDepth deltaOD
    if part.opticalDepth <. lit 0 then
      let r1 := r.next
      let split ← bwSplit cfg chi r1.1
      let pEnergy := split *. part.energy
      let eEnergy := (lit 1 -. split) *. part.energy
      let r2 := r1.2.next
      let positron := pairLepton (lit 1) pEnergy part cfg.track r2.1
      let r3 := r2.2.next
      let electron := pairLepton (lit (-1)) eEnergy part cfg.track r3.1
      .ok (part.kill, (list.add positron).add electron, r3.2)
    else .ok (part, list, r)

/-- The processes that can be in the process list (`QEDCASC.cpp:113-150`,
`RunManager.cpp:155-190`). -/
inductive Proc (D : Type) where
  | stochastic (cfg : EmissionCfg D)
  | continuous (cfg : EmissionCfg D) (classical : Bool)
  | breitWheeler (cfg : BWCfg D)

/-- `Process::Interact`, dispatched (`Process.hh:15`). -/
def Proc.interact (proc : Proc D) (part : Particle D) (list : PList D) (r : Rng D) :
    Res (Particle D × PList D × Rng D) :=
  match proc with
  | .stochastic cfg => stochasticInteract cfg part list r
  | .continuous cfg classical => continuousInteract cfg classical part list r
  | .breitWheeler cfg => bwInteract cfg part list r

end QED
