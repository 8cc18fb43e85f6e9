import Verif.Model.Main
import Verif.Model.OutputMpi

set_option autoImplicit false

/-!
# `Source/Python/RunManager.cpp`

A run manager owns four objects through raw pointers: the unit system, the field, the pusher and the
source generator. The heap is modelled by the set of live addresses, so that freeing an object twice is
visible. The objects behind the pointers are only used inside `beamOn`, between their creation and the
end of the call, so their contents are local to `beamOn` in the model.

A C++ exception that leaves a member function reaches Python, where it can be caught; the run manager
lives on. `Outcome.raised` therefore carries the state in which the exception left it.

Simplifications: memory never runs out; the tables are read successfully; messages on `stderr` are left
out. The time loop is the relation `Run` of `Model/Sim.lean`, without histograms. The events are run one
after the other, on arbitrary threads; `Model/Threads.lean` is about events that run at the same time.
-/

namespace QED

open Dbl MCTools

/-- The heap: addresses in use and the next fresh address. -/
structure Heap where
  next : Nat
  live : List Nat

/-- A raw pointer; `none` is `nullptr`. -/
abbrev Ptr := Option Nat

namespace Heap

/-- `new`. -/
def alloc (h : Heap) : Ptr × Heap := (some h.next, ⟨h.next + 1, h.next :: h.live⟩)

/-- `delete p`: nothing happens for a null pointer; deleting an object that is not alive is undefined. -/
def free (h : Heap) (p : Ptr) : Res Heap :=
  match p with
  | none => .ok h
  | some a => if a ∈ h.live then .ok { h with live := h.live.erase a } else .ub "double free"

end Heap

namespace RunMgr

variable {D : Type} [Dbl D]

/-- The field parameters (`RunManager.hh:76-83`). -/
structure FieldArgs (D : Type) where
  maxField : D
  wavelength : D
  duration : D
  waist : D
  polarisation : D
  start : V3 D
  focus : V3 D

/-- The source parameters (`RunManager.hh:95-103`). -/
structure GenArgs (D : Type) where
  particleType : String
  energyDist : String
  energyParam1 : D
  energyParam2 : D
  radius : D
  duration : D
  divergence : D
  position : V3 D
  direction : V3 D

/-- What `getInput`, `getElectrons`, `getPositrons` and `getPhotons` return: one vector per thread
(`RunManager.hh:65-68`). -/
structure Results (D : Type) where
  input : List (List D)
  electrons : List (List D)
  positrons : List (List D)
  photons : List (List D)

/-- `class RunManager` (`RunManager.hh:58-103`). `procs` are the addresses in `m_processList`. -/
structure Mgr (D : Type) where
  heap : Heap
  units : Ptr
  field : Ptr
  pusher : Ptr
  generator : Ptr
  procs : List Ptr
  results : Results D
  timeStep : D
  timeEnd : D
  fieldSet : Bool
  fieldType : String
  fieldArgs : FieldArgs D
  physSet : Bool
  physics : String
  sampleFrac : D
  useBW : Bool
  genSet : Bool
  genArgs : GenArgs D

/-- The unit system, always SI (`RunManager.cpp:23`). -/
def u : Units.UnitsSystem D := Units.unitsSI

/-- Constructor (`RunManager.cpp:17-24`). The field and source parameters are not initialised: `fa` and
`ga` stand for whatever is found there. -/
def new (fa : FieldArgs D) (ga : GenArgs D) : Mgr D :=
  { heap := ⟨1, [0]⟩, units := some 0, field := none, pusher := none, generator := none, procs := []
    results := ⟨[], [], [], []⟩
    timeStep := lit 0, timeEnd := lit 0
    fieldSet := false, fieldType := "", fieldArgs := fa
    physSet := false, physics := "", sampleFrac := lit 1, useBW := false
    genSet := false, genArgs := ga }

/-- Destructor (`RunManager.cpp:26-33`): the processes are not deleted. -/
def destroy (m : Mgr D) : Res Heap := do
  let h ← m.heap.free m.units
  let h ← h.free m.field
  let h ← h.free m.generator
  h.free m.pusher

/-- `setTime` (`RunManager.cpp:35-39`). -/
def setTime (timeStep timeEnd : D) (m : Mgr D) : Mgr D :=
  { m with timeStep := timeStep /. u.refTime, timeEnd := timeEnd /. u.refTime }

/-- The conversion at `RunManager.cpp:57-63`. -/
def FieldArgs.convert (a : FieldArgs D) : FieldArgs D :=
  { maxField := a.maxField /. u.refEField
    wavelength := a.wavelength /. u.refLength
    duration := a.duration /. u.refTime
    waist := a.waist /. u.refLength
    polarisation := a.polarisation
    start := a.start.divs u.refLength
    focus := a.focus.divs u.refLength }

/-- `setField` (`RunManager.cpp:41-64`). -/
def setField (fieldType : String) (a : FieldArgs D) (m : Mgr D) : Mgr D :=
  if fieldType = "gaussian" ∨ fieldType = "Gaussian" ∨ fieldType = "focusing" ∨
      fieldType = "Focusing" then
    { m with fieldSet := true, fieldType, fieldArgs := a.convert }
  else { m with fieldSet := false }

/-- `setPhysics` (`RunManager.cpp:66-81`), with the literal `"clasical"` of line 68. -/
def setPhysics (physics : String) (m : Mgr D) : Mgr D :=
  if physics = "Classical" ∨ physics = "clasical" ∨ physics = "Semiclassical" ∨
      physics = "semiclassical" ∨ physics = "Quantum" ∨ physics = "quantum" then
    { m with physSet := true, physics }
  else { m with physSet := false }

/-- The conversion at `RunManager.cpp:89-97`. -/
def GenArgs.convert (a : GenArgs D) : GenArgs D :=
  { a with
    energyParam1 := a.energyParam1 /. u.refEnergy
    energyParam2 := a.energyParam2 /. u.refEnergy
    radius := a.radius /. u.refLength
    duration := a.duration /. u.refTime
    position := a.position.divs u.refLength }

/-- `setGenerator` (`RunManager.cpp:83-98`). -/
def setGenerator (a : GenArgs D) (m : Mgr D) : Mgr D :=
  { m with genSet := true, genArgs := a.convert }

/-- `setSampleFraction` (`RunManager.cpp:100-110`). -/
def setSampleFraction (x : D) (m : Mgr D) : Mgr D :=
  if (lit 0 <=. x) && (x <=. lit 1) then { m with sampleFrac := x } else m

/-- `usePairProduction` (`RunManager.cpp:113-116`). -/
def usePairProduction (b : Bool) (m : Mgr D) : Mgr D := { m with useBW := b }

/-- `delete m_pusher; delete m_generator; delete m_field; m_processList.clear();`
(`RunManager.cpp:132-135`). The pointers keep their values. -/
def freeOld (m : Mgr D) : Res (Mgr D) := do
  let h ← m.heap.free m.pusher
  let h ← h.free m.generator
  let h ← h.free m.field
  .ok { m with heap := h, procs := [] }

/-- The test at `RunManager.cpp:138`. -/
def incomplete (m : Mgr D) : Bool :=
  (m.timeStep ==. lit 0) || !m.fieldSet || !m.physSet || !m.genSet

/-- The field (`RunManager.cpp:148-156`). -/
def fieldOf (m : Mgr D) : Field D :=
  let a := m.fieldArgs
  if m.fieldType = "gaussian" ∨ m.fieldType = "Gaussian" then
    (GaussField.new a.maxField a.wavelength a.duration a.waist a.polarisation a.start a.focus).getField
  else
    (FocusField.new a.maxField a.wavelength a.duration a.waist a.polarisation a.start a.focus).getField

/-- The parameters of the emission process (`RunManager.cpp:162-163,168-169,174-175`): no threshold
(`false` is passed for `eMin`) and no tracking (`0` for `track`). -/
def emissionOf (t : Main.Tables D) (m : Mgr D) : EmissionCfg D :=
  Main.emissionCfg t (fieldOf m) m.timeStep m.sampleFrac (lit 0) false

/-- Pusher and emission process (`RunManager.cpp:159-177`). -/
def physicsOf (t : Main.Tables D) (m : Mgr D) : PushMom D × Proc D :=
  if m.physics = "Classical" ∨ m.physics = "classical" then
    (landauForce, .continuous (emissionOf t m) true)
  else if m.physics = "Semiclassical" ∨ m.physics = "semiclassical" then
    (modLandauForce, .continuous (emissionOf t m) false)
  else (lorentzForce, .stochastic (emissionOf t m))

/-- What the event loop uses (`RunManager.cpp:148-184`). -/
def simOf (t : Main.Tables D) (m : Mgr D) : SimCfg D :=
  { push := (physicsOf t m).1, field := fieldOf m, dt := m.timeStep, timeEnd := m.timeEnd
    procs := (physicsOf t m).2 ::
      (if m.useBW then [.breitWheeler (Main.bwCfg t (fieldOf m) m.timeStep)] else []) }

/-- Field, pusher, emission and pair production are created (`RunManager.cpp:148-184`). -/
def makeObjects (m : Mgr D) : Mgr D :=
  let (pf, h) := m.heap.alloc
  let (pp, h) := h.alloc
  let (pe, h) := h.alloc
  if m.useBW then
    let (pb, h) := h.alloc
    { m with heap := h, field := pf, pusher := pp, procs := [pe, pb] }
  else { m with heap := h, field := pf, pusher := pp, procs := [pe] }

/-- Conversion from `int` to `unsigned int` (`RunManager.cpp:187`). -/
def u32 (n : Int) : Nat := (n % 2 ^ 32).toNat

/-- The source (`RunManager.cpp:187-189`): no tracking. -/
def sourceOf (events : Int) (raw : RawDraws D) (m : Mgr D) : Res (Source D) :=
  let a := m.genArgs
  Source.new a.particleType a.energyDist (u32 events) a.energyParam1 a.energyParam2 a.radius a.duration
    a.divergence a.position a.direction false raw

/-- `m_generator = new SourceGenerator(...)` as far as the heap is concerned. -/
def allocGenerator (m : Mgr D) : Mgr D :=
  let (pg, h) := m.heap.alloc
  { m with heap := h, generator := pg }

/-- Empty result vectors, one per thread (`RunManager.cpp:191-194`). -/
def Results.empty (threads : Nat) : Results D :=
  ⟨List.replicate threads [], List.replicate threads [], List.replicate threads [],
    List.replicate threads []⟩

/-- How far `beamOn` comes before the event loop. -/
inductive Prepared (D : Type) where
  /-- it returns without running -/
  | rejected (m : Mgr D)
  /-- an exception -/
  | raised (m : Mgr D) (what : String)
  /-- it goes on with the event loop -/
  | go (m : Mgr D) (s : Source D)

/-- `beamOn` up to the event loop (`RunManager.cpp:118-196`); `omp` says whether OpenMP was built in. A
negative `threads` becomes a huge `size_t`, and the vector constructor throws. -/
def prepare (omp : Bool) (raw : RawDraws D) (events threads : Int) (m : Mgr D) : Res (Prepared D) :=
  if omp = false ∧ threads ≠ 1 then .ok (.rejected m)
  else do
    let m ← freeOld m
    if incomplete m then .ok (.rejected m)
    else
      let m := makeObjects m
      let s ← sourceOf events raw m
      let m := allocGenerator m
      if threads < 0 then .ok (.raised m "std::length_error")
      else .ok (.go { m with results := .empty threads.toNat } s)

/-- `v[tid].push_back(...)` for the values of a row; `v[tid]` beyond the end is undefined. -/
def pushRow (v : List (List D)) (tid : Nat) (row : List D) : Res (List (List D)) :=
  match v[tid]? with
  | some old => .ok (v.set tid (old ++ row))
  | none => .ub "out-of-bounds write"

/-- The six values stored for a primary (`RunManager.cpp:213-224`). -/
def inputRow (p : Particle D) : List D :=
  [p.momentum.x *. u.refMomentum, p.momentum.y *. u.refMomentum, p.momentum.z *. u.refMomentum,
    p.position.x *. u.refLength, p.position.y *. u.refLength, p.position.z *. u.refLength]

/-- The seven values stored for a final particle (`RunManager.cpp:247-259`, `262-274`, `277-289`). -/
def finalRow (p : Particle D) : List D :=
  [p.momentum.x *. u.refMomentum, p.momentum.y *. u.refMomentum, p.momentum.z *. u.refMomentum,
    p.position.x *. u.refLength, p.position.y *. u.refLength, p.position.z *. u.refLength, p.weight]

/-- The loop over the primaries (`RunManager.cpp:211-225`). -/
def storeInput (tid : Nat) : List (Particle D) → Results D → Res (Results D)
  | [], rs => .ok rs
  | p :: ps, rs => do
    let v ← pushRow rs.input tid (inputRow p)
    storeInput tid ps { rs with input := v }

/-- One particle of the final loop (`RunManager.cpp:245-290`). -/
def storeFinal (tid : Nat) (p : Particle D) (rs : Results D) : Res (Results D) :=
  if p.charge ==. lit (-1) then do
    let v ← pushRow rs.electrons tid (finalRow p)
    .ok { rs with electrons := v }
  else if p.charge ==. lit 0 then do
    let v ← pushRow rs.photons tid (finalRow p)
    .ok { rs with photons := v }
  else if p.charge ==. lit 1 then do
    let v ← pushRow rs.positrons tid (finalRow p)
    .ok { rs with positrons := v }
  else .ok rs

/-- The final loop (`RunManager.cpp:243-291`). -/
def storeFinals (tid : Nat) : List (Particle D) → Results D → Res (Results D)
  | [], rs => .ok rs
  | p :: ps, rs => do
    let rs ← storeFinal tid p rs
    storeFinals tid ps rs

/-- The events from number `i` on (`RunManager.cpp:202-293`). `Events cfg tid i s rs r o` says that the
loop ends with outcome `o`: the primary and the final list of every event, the results and the state of
the random numbers. `tid i` is the thread that runs event `i`. -/
inductive Events (cfg : SimCfg D) (tid : Nat → Nat) :
    Nat → Source D → Results D → Rng D → Res (List (PList D × PList D) × Results D × Rng D) → Prop
  | done {i s rs r} : ¬ i < s.nPart → Events cfg tid i s rs r (.ok ([], rs, r))
  | event {i s rs r l s' r' rs1 n es rs2 ls rs3 r3} : i < s.nPart →
      s.generateList r = .ok (l, s', r') →
      storeInput (tid i) l.items rs = .ok rs1 →
      Run cfg (.init l r' []) n (.ok es) →
      storeFinals (tid i) es.list.items rs1 = .ok rs2 →
      Events cfg tid (i + 1) s' rs2 es.rng (.ok (ls, rs3, r3)) →
      Events cfg tid i s rs r (.ok ((l, es.list) :: ls, rs3, r3))
  | later {i s rs r l s' r' rs1 n es rs2 o} : i < s.nPart →
      s.generateList r = .ok (l, s', r') →
      storeInput (tid i) l.items rs = .ok rs1 →
      Run cfg (.init l r' []) n (.ok es) →
      storeFinals (tid i) es.list.items rs1 = .ok rs2 →
      Events cfg tid (i + 1) s' rs2 es.rng o → (∀ x, o ≠ .ok x) →
      Events cfg tid i s rs r o
  | source {i s rs r c} : i < s.nPart → s.generateList r = .exit c →
      Events cfg tid i s rs r (.exit c)
  | sourceUb {i s rs r w} : i < s.nPart → s.generateList r = .ub w →
      Events cfg tid i s rs r (.ub w)
  | inputUb {i s rs r l s' r' w} : i < s.nPart → s.generateList r = .ok (l, s', r') →
      storeInput (tid i) l.items rs = .ub w → Events cfg tid i s rs r (.ub w)
  | runUb {i s rs r l s' r' rs1 n w} : i < s.nPart → s.generateList r = .ok (l, s', r') →
      storeInput (tid i) l.items rs = .ok rs1 → Run cfg (.init l r' []) n (.ub w) →
      Events cfg tid i s rs r (.ub w)
  | runExit {i s rs r l s' r' rs1 n c} : i < s.nPart → s.generateList r = .ok (l, s', r') →
      storeInput (tid i) l.items rs = .ok rs1 → Run cfg (.init l r' []) n (.exit c) →
      Events cfg tid i s rs r (.exit c)
  | finalUb {i s rs r l s' r' rs1 n es w} : i < s.nPart → s.generateList r = .ok (l, s', r') →
      storeInput (tid i) l.items rs = .ok rs1 → Run cfg (.init l r' []) n (.ok es) →
      storeFinals (tid i) es.list.items rs1 = .ub w → Events cfg tid i s rs r (.ub w)

/-- What a `beamOn` call needs from outside: whether OpenMP is built in, the tables, the random samples
of the source and the thread that runs each event. -/
structure Env (D : Type) where
  omp : Bool
  tables : Main.Tables D
  raw : RawDraws D
  tid : Nat → Nat
  rng : Rng D

/-- How a call returns to Python. -/
inductive Outcome (D : Type) where
  /-- a setter -/
  | set (m : Mgr D)
  /-- without running anything -/
  | rejected (m : Mgr D)
  /-- with an exception -/
  | raised (m : Mgr D) (what : String)
  /-- after a run with these primaries and final lists -/
  | ran (m : Mgr D) (events : List (PList D × PList D))

/-- The run manager after a call. -/
def Outcome.mgr : Outcome D → Mgr D
  | .set m => m
  | .rejected m => m
  | .raised m _ => m
  | .ran m _ => m

/-- `beamOn(events, threads)` (`RunManager.cpp:118-294`). Without OpenMP the thread number is 0
(`:207`). -/
inductive BeamOn (e : Env D) (events threads : Int) (m : Mgr D) : Res (Outcome D) → Prop
  | rejected {m'} : prepare e.omp e.raw events threads m = .ok (.rejected m') →
      BeamOn e events threads m (.ok (.rejected m'))
  | raised {m' w} : prepare e.omp e.raw events threads m = .ok (.raised m' w) →
      BeamOn e events threads m (.ok (.raised m' w))
  | ran {m' s ls rs r} : prepare e.omp e.raw events threads m = .ok (.go m' s) →
      Events (simOf e.tables m') (if e.omp then e.tid else fun _ => 0) 0 s m'.results e.rng
        (.ok (ls, rs, r)) →
      BeamOn e events threads m (.ok (.ran { m' with results := rs } ls))
  | ub {w} : prepare e.omp e.raw events threads m = .ub w → BeamOn e events threads m (.ub w)
  | loopUb {m' s w} : prepare e.omp e.raw events threads m = .ok (.go m' s) →
      Events (simOf e.tables m') (if e.omp then e.tid else fun _ => 0) 0 s m'.results e.rng (.ub w) →
      BeamOn e events threads m (.ub w)
  | loopExit {m' s c} : prepare e.omp e.raw events threads m = .ok (.go m' s) →
      Events (simOf e.tables m') (if e.omp then e.tid else fun _ => 0) 0 s m'.results e.rng (.exit c) →
      BeamOn e events threads m (.exit c)

/-- The calls that change a run manager. -/
inductive Call (D : Type) where
  | setTime (timeStep timeEnd : D)
  | setField (fieldType : String) (a : FieldArgs D)
  | setPhysics (physics : String)
  | setGenerator (a : GenArgs D)
  | setSampleFraction (x : D)
  | usePairProduction (b : Bool)
  | beamOn (e : Env D) (events threads : Int)

/-- One call that returns to Python. -/
inductive Does : Mgr D → Call D → Outcome D → Prop
  | setTime {m a b} : Does m (.setTime a b) (.set (RunMgr.setTime a b m))
  | setField {m t a} : Does m (.setField t a) (.set (RunMgr.setField t a m))
  | setPhysics {m p} : Does m (.setPhysics p) (.set (RunMgr.setPhysics p m))
  | setGenerator {m a} : Does m (.setGenerator a) (.set (RunMgr.setGenerator a m))
  | setSampleFraction {m x} : Does m (.setSampleFraction x) (.set (RunMgr.setSampleFraction x m))
  | usePairProduction {m b} : Does m (.usePairProduction b) (.set (RunMgr.usePairProduction b m))
  | beamOn {m e n t o} : BeamOn e n t m (.ok o) → Does m (.beamOn e n t) o

/-- A history of calls, each with the state before it and its outcome. The last run manager is `m'`. -/
inductive History : Mgr D → List (Call D × Outcome D) → Mgr D → Prop
  | nil {m} : History m [] m
  | cons {m c o h m'} : Does m c o → History o.mgr h m' → History m ((c, o) :: h) m'

/-- The result of a getter: `accum` reshaped to `rows × columns` (`RunManager.cpp:296-346`). -/
structure Array2 (D : Type) where
  rows : Int
  columns : Nat
  data : List D

/-- `getInput` (`RunManager.cpp:296-307`). -/
def getInput (rs : Results D) : Array2 D :=
  ⟨Mpi.i32 (rs.input.flatten.length / 6 : Nat), 6, rs.input.flatten⟩

/-- `getElectrons` (`RunManager.cpp:309-320`). -/
def getElectrons (rs : Results D) : Array2 D :=
  ⟨Mpi.i32 (rs.electrons.flatten.length / 7 : Nat), 7, rs.electrons.flatten⟩

/-- `getPositrons` (`RunManager.cpp:322-333`). -/
def getPositrons (rs : Results D) : Array2 D :=
  ⟨Mpi.i32 (rs.positrons.flatten.length / 7 : Nat), 7, rs.positrons.flatten⟩

/-- `getPhotons` (`RunManager.cpp:335-346`). -/
def getPhotons (rs : Results D) : Array2 D :=
  ⟨Mpi.i32 (rs.photons.flatten.length / 7 : Nat), 7, rs.photons.flatten⟩

end RunMgr
end QED
