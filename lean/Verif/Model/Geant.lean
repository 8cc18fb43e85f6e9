import Verif.Model.RunManager

set_option autoImplicit false

/-!
# The Geant4 adaptors in `Source/Geant`

`G4CascadeGenerator` feeds the particles of simulated events to a Geant4 particle gun, one per call.
`G4StochasticEmission` is a Geant4 process that hands a lepton to the cascade code and returns what is left
of it with its photons. `G4CascadeTF` does the same with a trained surrogate instead of the simulation.

Not modelled: Geant4 itself. What the adaptors hand to Geant4 (particle definition, energy, direction,
secondaries) is the observable output. The constructor of the generator reads the input file through an
interface of `FileParser` that no longer exists, so the generator is modelled from its finished members on.
-/

namespace QED
namespace G4

open Dbl MCTools

variable {D : Type} [Dbl D]

/-! ## `G4CascadeGenerator` -/

/-- The particle definitions the generator uses (`G4CascadeGenerator.cpp:29-31`). -/
inductive Def where
  | electron
  | positron
  | gamma
  deriving DecidableEq, Repr

/-- What is set on the particle gun before `GeneratePrimaryVertex` (`G4CascadeGenerator.cpp:157-181`). The
gun takes `SetParticleEnergy` as the kinetic energy, in MeV. -/
structure Shot (D : Type) where
  definition : Def
  energy : D
  direction : V3 D

/-- The gun parameters for a particle (`G4CascadeGenerator.cpp:157-178`). -/
def shotOf (p : Particle D) : Shot D where
  definition := if p.name = "Electron" then .electron else if p.name = "Positron" then .positron else .gamma
  energy := p.energy /. (Units.unitsSI : Units.UnitsSystem D).g4Energy
  direction := p.direction

/-- The members of `G4CascadeGenerator` that change or matter after construction
(`G4CascadeGenerator.hh:29-43`). `m_event` is indeterminate until the first event: `none`. -/
structure Gen (D : Type) where
  sim : SimCfg D
  source : Source D
  rng : Rng D
  event : Option (PList D)
  currentEvent : Nat
  currentSecondary : Int

/-- The generator at the end of its constructor (`G4CascadeGenerator.cpp:20-22`). -/
def Gen.new (sim : SimCfg D) (source : Source D) (rng : Rng D) : Gen D :=
  ⟨sim, source, rng, none, 0, -1⟩

/-- `m_currentSecondary = m_event->GetNPart() - 1`: unsigned arithmetic, then conversion to `int`
(`G4CascadeGenerator.cpp:138`). -/
def lastIndex (n : Nat) : Int := Mpi.i32 (RunMgr.u32 ((n : Int) - 1))

/-- The generator after an event (`G4CascadeGenerator.cpp:122-139`). -/
def Gen.withEvent (g : Gen D) (source : Source D) (es : EvState D) : Gen D :=
  { g with
    source := source
    rng := es.rng
    event := some es.list
    currentSecondary := lastIndex es.list.nPart
    currentEvent := RunMgr.u32 (g.currentEvent + 1) }

/-- `SimulateEvent` (`G4CascadeGenerator.cpp:115-140`): the old event is freed, the source makes a list, and
the list is followed to the end time without histograms. -/
inductive Simulate (g : Gen D) : Res (Gen D) → Prop
  | stale : g.currentEvent ≠ 0 → g.event = none → Simulate g (.ub "delete of an indeterminate pointer")
  | source {o} : (g.currentEvent = 0 ∨ g.event ≠ none) → g.source.generateList g.rng = o →
      (∀ x, o ≠ .ok x) → Simulate g (o >>= fun _ => .ok g)
  | loop {l s r n o} : (g.currentEvent = 0 ∨ g.event ≠ none) →
      g.source.generateList g.rng = .ok (l, s, r) → Run g.sim (.init l r []) n o →
      Simulate g (o >>= fun es => .ok (g.withEvent s es))

/-- Loading the gun with the current particle and moving on (`G4CascadeGenerator.cpp:157-179`). The index is
an `int` converted to `unsigned int`. -/
def fire (g : Gen D) : Res (Option (Shot D) × Gen D) :=
  match g.event with
  | none => .ub "use of an indeterminate pointer"
  | some l => do
    let p ← l.get (RunMgr.u32 g.currentSecondary)
    .ok (some (shotOf p), { g with currentSecondary := g.currentSecondary - 1 })

/-- `GeneratePrimaries` (`G4CascadeGenerator.cpp:142-183`). The first component of the result is the shot,
or `none` if the run is aborted instead. -/
inductive Generate (g : Gen D) : Res (Option (Shot D) × Gen D) → Prop
  | abort : g.currentEvent = g.source.nPart → g.currentSecondary = -1 → Generate g (.ok (none, g))
  | next : g.currentSecondary ≠ -1 → Generate g (fire g)
  | simulate {o} : g.currentEvent ≠ g.source.nPart → g.currentSecondary = -1 → Simulate g o →
      Generate g (o >>= fire)

/-- Successive successful calls of `GeneratePrimaries` and what each of them did. -/
inductive Calls : Gen D → List (Option (Shot D)) → Gen D → Prop
  | nil {g} : Calls g [] g
  | snoc {g g' g'' out x} : Calls g out g' → Generate g' (.ok (x, g'')) → Calls g (out ++ [x]) g''

/-! ## `G4StochasticEmission` -/

/-- A raw pointer member: before its first assignment its value is indeterminate. -/
inductive Member where
  | indeterminate
  | is (p : Ptr)
  deriving DecidableEq, Repr

/-- `delete m`: evaluating an indeterminate pointer is undefined. -/
def Member.delete (m : Member) (h : Heap) : Res Heap :=
  match m with
  | .indeterminate => .ub "delete of an indeterminate pointer"
  | .is p => h.free p

/-- The pointer members of `G4StochasticEmission` (`G4StochasticEmission.hh:41-52`), the switch of
`GetMeanFreePath`, whether `0 < m_tEnd`, and the secondaries owned by Geant4. -/
structure Emitter where
  heap : Heap
  units : Member
  part : Member
  photonList : Member
  field : Member
  process : Member
  pusher : Member
  g4Part : Member
  switch : Bool
  steps : Bool
  handed : List Nat

/-- `new` into a member. -/
def newInto (h : Heap) : Member × Heap := (.is h.alloc.1, h.alloc.2)

/-- The constructor (`G4StochasticEmission.cpp:10-18`); `steps` says whether the end time is positive. -/
def Emitter.new (steps : Bool) : Emitter :=
  let h : Heap := ⟨1, [0]⟩
  { heap := h, units := .is (some 0), part := .indeterminate, photonList := .indeterminate
    field := .indeterminate, process := .is none, pusher := .is none, g4Part := .indeterminate
    switch := false, steps := steps, handed := [] }

/-- `SetStaticField`, `SetPlaneField`, `SetGaussianField` (`G4StochasticEmission.cpp:100-132`): old objects
are not freed. -/
def Emitter.setField (e : Emitter) : Emitter :=
  let f := newInto e.heap
  let p := newInto f.2
  let q := newInto p.2
  { e with field := f.1, process := p.1, pusher := q.1, heap := q.2 }

/-- One photon handed to Geant4 (`G4StochasticEmission.cpp:65-66`). -/
def Emitter.handOne (e : Emitter) : Emitter :=
  { e with g4Part := (newInto e.heap).1, heap := (newInto e.heap).2, handed := e.heap.next :: e.handed }

/-- The photons handed to Geant4 (`G4StochasticEmission.cpp:58-67`). -/
def Emitter.hand : Nat → Emitter → Emitter
  | 0, e => e
  | n + 1, e => Emitter.hand n e.handOne

/-- The pointers of `PostStepDoIt` (`G4StochasticEmission.cpp:44-75`) when `n` photons are made. The time
loop uses the pusher and the process. -/
def Emitter.postStep (n : Nat) (e : Emitter) : Res Emitter :=
  let p := newInto e.heap
  let l := newInto p.2
  let e1 : Emitter := { e with part := p.1, photonList := l.1, heap := l.2 }
  if e.steps = true ∧ (e.pusher = .is none ∨ e.process = .is none) then .ub "null pusher"
  else do
    let e2 := e1.hand n
    let h1 ← e2.part.delete e2.heap
    let h2 ← e2.photonList.delete h1
    .ok { e2 with heap := h2 }

/-- Geant4 deletes a secondary it was handed. -/
def Emitter.kernelDelete (a : Nat) (e : Emitter) : Res Emitter :=
  if a ∈ e.handed then do
    let h ← e.heap.free (some a)
    .ok { e with heap := h, handed := e.handed.erase a }
  else .ok e

/-- `GetMeanFreePath` (`G4StochasticEmission.cpp:79-98`; the same in `G4CascadeTF.cpp:63-82`). The result
says whether the process is made to happen at once (`1e-99`) or not at all (`1e99`). -/
def meanFreePath (inField : D) (switch : Bool) : Bool × Bool :=
  if inField <. lit 1 then (false, switch)
  else if switch = false then (true, true)
  else (false, false)

/-- The destructor (`G4StochasticEmission.cpp:20-27`). -/
def Emitter.destroy (e : Emitter) : Res Heap := do
  let h ← e.field.delete e.heap
  let h ← e.part.delete h
  let h ← e.g4Part.delete h
  let h ← e.process.delete h
  e.pusher.delete h

/-- What Geant4 and the user can do with the process between its construction and its destruction. -/
inductive Act where
  | setField
  | postStep (photons : Nat)
  | meanFreePath (inField : Bool)
  | kernelDelete (a : Nat)

/-- One action. Without time steps there are no photons. -/
def Emitter.act (e : Emitter) : Act → Res Emitter
  | .setField => .ok e.setField
  | .postStep n => e.postStep (if e.steps then n else 0)
  | .meanFreePath true => .ok { e with switch := !e.switch }
  | .meanFreePath false => .ok e
  | .kernelDelete a => e.kernelDelete a

/-- A history of actions. -/
def Emitter.acts : List Act → Emitter → Res Emitter
  | [], e => .ok e
  | a :: as, e => do
    let e ← e.act a
    Emitter.acts as e

/-- What the process reads from a Geant4 track, in Geant4 units (`G4StochasticEmission.cpp:32-42`). -/
structure Track (D : Type) where
  mass : D
  charge : D
  kinetic : D
  position : V3 D
  direction : V3 D

/-- The lepton built from a track (`G4StochasticEmission.cpp:31-44`); `u` is the draw of its optical depth. -/
def leptonOf (t : Track D) (u : D) : Particle D :=
  let us : Units.UnitsSystem D := Units.unitsSI
  .newLeptonE (t.mass *. us.g4Energy) t.charge (t.kinetic *. us.g4Energy)
    (t.position.smul us.g4Length) t.direction (lit 1) (lit 0) false u

/-- The state of the loop of `PostStepDoIt`. -/
structure StepState (D : Type) where
  part : Particle D
  list : PList D
  rng : Rng D
  time : D

/-- The field made by `SetStaticField` (`G4StochasticEmission.cpp:100-103`). -/
def setStaticField (e b : V3 D) : Field D := staticField e b

/-- The field made by `SetPlaneField` (`G4StochasticEmission.cpp:108-114`). -/
def setPlaneField (maxE waveLength polarisation : D) (direction : V3 D) : Field D :=
  let u : Units.UnitsSystem D := Units.unitsSI
  (PlaneField.new (maxE /. u.refEField) (waveLength /. u.refLength) polarisation direction).getField

/-- The field made by `SetGaussianField` (`G4StochasticEmission.cpp:119-129`). -/
def setGaussianField (maxE waveLength tau waist polarisation : D) (start focus : V3 D) : Field D :=
  let u : Units.UnitsSystem D := Units.unitsSI
  (GaussField.new (maxE /. u.refEField) (waveLength /. u.refLength) (tau /. u.refTime)
    (waist /. u.refLength) polarisation start focus).getField

/-- The process and pusher made by `SetStaticField` and the others (`G4StochasticEmission.cpp:100-132`):
the third argument `false` is the sample fraction, so it is zero; photons are not tracked. -/
structure StepCfg (D : Type) where
  emission : EmissionCfg D
  dt : D
  tEnd : D

/-- One turn of the loop (`G4StochasticEmission.cpp:50-53`). -/
def stepOnce (c : StepCfg D) (s : StepState D) : Res (StepState D) := do
  let p := pushParticle lorentzForce c.emission.field c.dt s.part
  let l := pushParticleList lorentzForce c.emission.field c.dt s.list
  let (p, l, r) ← stochasticInteract c.emission p l s.rng
  .ok ⟨p, l, r, s.time +. c.dt⟩

/-- `while (time < m_tEnd)` (`G4StochasticEmission.cpp:48-54`), when it ends normally after `n` turns. -/
inductive Steps (c : StepCfg D) : StepState D → Nat → StepState D → Prop
  | done {s} : (s.time <. c.tEnd) = false → Steps c s 0 s
  | step {s s' s'' n} : (s.time <. c.tEnd) = true → stepOnce c s = .ok s' → Steps c s' n s'' →
      Steps c s (n + 1) s''

/-- What is proposed to Geant4 at the end of `PostStepDoIt` (`G4StochasticEmission.cpp:56-72`): the new
kinetic energy and direction of the track and the energy and direction of each secondary. -/
structure Change (D : Type) where
  energy : D
  direction : V3 D
  secondaries : List (D × V3 D)

/-- The proposal made from the final state of the loop (`G4StochasticEmission.cpp:56-72`). -/
def changeOf (s : StepState D) : Change D :=
  let e : D := (Units.unitsSI : Units.UnitsSystem D).g4Energy
  { energy := s.part.energy /. e
    direction := s.part.direction
    secondaries := s.list.items.map fun p => (p.energy /. e, p.direction) }

/-- Where and when Geant4 continues with the track and its secondaries, in its units. -/
structure Placed (D : Type) where
  position : V3 D
  time : D
  secondaries : List (V3 D × D)

/-- The places after `PostStepDoIt` (`G4StochasticEmission.cpp:56-76`) of a track with global time `clock`:
`aParticleChange.Initialize` takes the place and time of the track, nothing proposes others, and `AddSecondary` of a
`G4DynamicParticle` puts it at the place and time of the track. -/
def placedOf (t : Track D) (clock : D) (s : StepState D) : Placed D :=
  { position := t.position
    time := clock
    secondaries := s.list.items.map fun _ => (t.position, clock) }

/-- `PostStepDoIt` as far as its values are concerned (`G4StochasticEmission.cpp:29-77`). -/
inductive PostStep (c : StepCfg D) (t : Track D) (r : Rng D) : Change D → Prop
  | mk {n s} : Steps c ⟨leptonOf t r.next.1, PList.new "Photons" PList.defaultMax, r.next.2, lit 0⟩ n s →
      PostStep c t r (changeOf s)

/-! ## `G4CascadeTF` -/

/-- The output of a mixture graph: component fractions and, per component, mean, width and skew of the
three momentum components (`G4CascadeTF.cpp:111-131`). -/
structure Mixture (D : Type) where
  frac : List D
  mean : List (V3 D)
  sigma : List (V3 D)
  skew : List (V3 D)

/-- Sampling one component (`G4CascadeTF.cpp:117-131`). `sampler` stands for `RandSinhArcsinhNd` with a
given normal draw. Choosing a component beyond the tensor is an Eigen index error, counted as undefined. -/
def Mixture.sample (sampler : V3 D → V3 D → V3 D → V3 D) (m : Mixture D) (i : Nat) : Res (V3 D) := do
  let a ← rd m.mean i
  let b ← rd m.sigma i
  let c ← rd m.skew i
  .ok (sampler a b c)

/-- Component-wise product. -/
def scale (a b : V3 D) : V3 D := ⟨a.x *. b.x, a.y *. b.y, a.z *. b.z⟩

/-- `G4ThreeVector::unit` (CLHEP `Hep3Vector::unit`), used in `G4CascadeTF.cpp:161,171`: a vector without length is
returned as it is. -/
def unit (v : V3 D) : V3 D := if lit 0 <. v.mag2 then v.smul (lit 1 /. sqrt v.mag2) else v

/-- The photon loop (`G4CascadeTF.cpp:139-166`): `electron` is `tf_elecP`; `us` are the draws of
`RandDiscrete` and `samplers` the draws behind `RandSinhArcsinhNd`, one of each per photon. The photon's own
sample `tf_photMomentum` is not used. -/
def tfPhotons (elec phot : Mixture D) (photParams electron : V3 D) :
    List (D × (V3 D → V3 D → V3 D → V3 D)) → Res (List (D × V3 D))
  | [] => .ok []
  | (u, sampler) :: rest => do
    let i ← randDiscrete elec.frac u
    let _ ← phot.sample sampler i
    let p := scale electron photParams
    let ps ← tfPhotons elec phot photParams electron rest
    .ok ((p.mag2 /. (Units.unitsSI : Units.UnitsSystem D).g4Energy, unit p) :: ps)

/-- `PostStepDoIt` of the surrogate after the graphs have been run (`G4CascadeTF.cpp:111-173`). -/
def tfPostStep (elec phot : Mixture D) (elecParams photParams : V3 D) (u : D)
    (sampler : V3 D → V3 D → V3 D → V3 D) (draws : List (D × (V3 D → V3 D → V3 D → V3 D))) :
    Res (Change D) := do
  let i ← randDiscrete elec.frac u
  let electron ← elec.sample sampler i
  let photons ← tfPhotons elec phot photParams electron draws
  let p := scale electron elecParams
  .ok { energy := sqrt (p.mag2 +. lit 1) /. (Units.unitsSI : Units.UnitsSystem D).g4Energy
        direction := unit p
        secondaries := photons }

end G4
end QED
