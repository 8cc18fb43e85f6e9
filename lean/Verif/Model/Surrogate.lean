import Verif.Model.Geant
import Verif.Model.TableFiles

set_option autoImplicit false

/-!
# `Source/Geant/TensorflowGraph.cpp` and the rest of `Source/Geant/G4CascadeTF.cpp`

Loading the trained models, handing them an electron, and the pointers of the process. Sampling from what the
models predict is in `Model/Geant.lean`. TensorFlow is modelled by the function that a graph computes; a
session can always be created.
-/

namespace QED
namespace G4

open Dbl MCTools TableFile

variable {D : Type} [Dbl D]

/-- `TensorflowGraph` (`TensorflowGraph.hh:26-29`): the number of inputs and the session, which computes the
requested outputs or fails. -/
structure Graph (D α : Type) where
  shape : Nat
  net : List D → Option α

/-- The constructor (`TensorflowGraph.cpp:7-40`); `stored` is the model that the file holds, if it holds one
that TensorFlow accepts. -/
def Graph.load {α : Type} (stored : Option (List D → Option α)) (shape : Nat) : Res (Graph D α) :=
  match stored with
  | none => .throw "Error reading graph definition"
  | some net => .ok ⟨shape, net⟩

/-- `input[i]` for the `n` inputs of the graph (`TensorflowGraph.cpp:53-56`). -/
def inputs (xs : List D) : Nat → Res (List D)
  | 0 => .ok []
  | n + 1 => do
    let ys ← inputs xs n
    let y ← rd xs n
    .ok (ys ++ [y])

/-- `runGraph` (`TensorflowGraph.cpp:46-67`). -/
def Graph.run {α : Type} (g : Graph D α) (input : List D) : Res α := do
  let xs ← inputs input g.shape
  match g.net xs with
  | none => .throw "Error running graph!"
  | some out => .ok out

/-- The files that `LoadGraphs` looks for: the models and the texts, by their path. -/
structure Disk (D : Type) where
  mixture : List Char → Option (List D → Option (Mixture D))
  count : List Char → Option (List D → Option D)
  text : List Char → Option (List Char)

/-- The members of `G4CascadeTF` that its values depend on (`G4CascadeTF.hh:40-54`). What has not been set is
`none`. -/
structure Surrogate (D : Type) where
  elec : Option (Graph D (Mixture D))
  phot : Option (Graph D (Mixture D))
  photCount : Option (Graph D D)
  inParams : List (Option D)
  elecParams : List (Option D)
  photParams : List (Option D)
  timeLag : D

/-- The constructor (`G4CascadeTF.cpp:12-17`). -/
def Surrogate.new : Surrogate D :=
  ⟨none, none, none, List.replicate 6 none, List.replicate 3 none, List.replicate 3 none, lit 0⟩

/-- `SetTimeLag` (`G4CascadeTF.hh:34`). -/
def Surrogate.setTimeLag (s : Surrogate D) (t : D) : Surrogate D := { s with timeLag := t }

/-- Opening a file of numbers (`G4CascadeTF.cpp:43-45`); the stream has failed if there is no file. -/
def openText (d : Disk D) (path : List Char) : IStream :=
  match d.text path with
  | none => ⟨[], false⟩
  | some t => .new t

/-- Reading into the elements of a member array (`G4CascadeTF.cpp:47-55`). The electron's and the photon's
file are read in the same loop; here one after the other. -/
def readInto : List (Option D) → IStream → List (Option D)
  | [], _ => []
  | x :: xs, s => (s.double x).1 :: readInto xs (s.double x).2

/-- `LoadGraphs` (`G4CascadeTF.cpp:28-56`). -/
def Surrogate.loadGraphs (s : Surrogate D) (d : Disk D) (seed elec phot : List Char) : Res (Surrogate D) := do
  let e ← Graph.load (d.mixture (elec ++ "/param_graph.pb".toList)) 6
  let p ← Graph.load (d.mixture (phot ++ "/param_graph.pb".toList)) 6
  let c ← Graph.load (d.count (phot ++ "/count_graph.pb".toList)) 6
  .ok { s with
    elec := some e
    phot := some p
    photCount := some c
    inParams := readInto s.inParams (openText d (seed ++ "/in_meta.dat".toList))
    elecParams := readInto s.elecParams (openText d (elec ++ "/meta.dat".toList))
    photParams := readInto s.photParams (openText d (phot ++ "/meta.dat".toList)) }

/-- What `PostStepDoIt` reads from the electron's track, in Geant4 units (`G4CascadeTF.cpp:88-90`). -/
structure Crossing (D : Type) where
  momentum : V3 D
  position : V3 D
  properTime : D

/-- The input of the models (`G4CascadeTF.cpp:88-100`). -/
def Surrogate.input (s : Surrogate D) (t : Crossing D) : Res (List D) := do
  let p := t.momentum.smul (Units.unitsSI : Units.UnitsSystem D).g4Energy
  let m ← useAll s.inParams
  let m0 ← rd m 0
  let m1 ← rd m 1
  let m2 ← rd m 2
  let m3 ← rd m 3
  let m4 ← rd m 4
  let m5 ← rd m 5
  .ok [p.x /. (m0 +. lit 1), p.y /. (m1 +. lit 1), p.z /. m2, t.position.x /. m3, t.position.y /. m4,
    (t.properTime -. s.timeLag) /. m5]

/-- The three elements of an array as a vector (`G4CascadeTF.cpp:158-160,167-169`). -/
def scales (xs : List (Option D)) : Res (V3 D) := do
  let m ← useAll xs
  let x ← rd m 0
  let y ← rd m 1
  let z ← rd m 2
  .ok ⟨x, y, z⟩

/-- The random draws of a crossing: for the electron's component and sample, for the number of photons, and
for the component and sample of each photon. `poisson` is what `RandPoisson` draws for a mean (`MCTools.cpp:22-26`).
Simplified: means that are not positive, for which `std::poisson_distribution` is not defined, are not told apart. -/
structure Draws (D : Type) where
  u : D
  sampler : V3 D → V3 D → V3 D → V3 D
  poisson : D → Nat
  photon : Nat → D × (V3 D → V3 D → V3 D → V3 D)

/-- The draws of the photons. -/
def Draws.photons (r : Draws D) (n : Nat) : List (D × (V3 D → V3 D → V3 D → V3 D)) :=
  (List.range n).map r.photon

/-- `PostStepDoIt` (`G4CascadeTF.cpp:84-176`). The scales of the photons, used for each photon, are read
once, if there are photons. -/
def Surrogate.postStep (s : Surrogate D) (t : Crossing D) (r : Draws D) : Res (Change D) := do
  let input ← s.input t
  let ge ← use s.elec
  let gp ← use s.phot
  let gc ← use s.photCount
  let elec ← ge.run input
  let phot ← gp.run input
  let mean ← gc.run input
  let n := r.poisson mean
  let pp ← if n = 0 then .ok ⟨lit 0, lit 0, lit 0⟩ else scales s.photParams
  let ep ← scales s.elecParams
  tfPostStep elec phot ep pp r.u r.sampler (r.photons n)

/-! ## Pointers -/

/-- The pointer members of `G4CascadeTF` (`G4CascadeTF.hh:40-54`) and the secondaries owned by Geant4. -/
structure TfHeap where
  heap : Heap
  units : Member
  elec : Member
  posi : Member
  phot : Member
  photCount : Member
  g4Part : Member
  handed : List Nat

/-- The constructor (`G4CascadeTF.cpp:12-17`). -/
def TfHeap.new : TfHeap :=
  { heap := ⟨1, [0]⟩, units := .is (some 0), elec := .indeterminate, posi := .indeterminate
    phot := .indeterminate, photCount := .indeterminate, g4Part := .indeterminate, handed := [] }

/-- `new TensorflowGraph` with its session (`G4CascadeTF.cpp:36-41`, `TensorflowGraph.cpp:17`). -/
def newGraph (h : Heap) : Member × Heap := newInto h.alloc.2

/-- `LoadGraphs` when all models are found (`G4CascadeTF.cpp:36-41`): what was loaded before is not freed. -/
def TfHeap.load (t : TfHeap) : TfHeap :=
  let e := newGraph t.heap
  let p := newGraph e.2
  let c := newGraph p.2
  { t with elec := e.1, phot := p.1, photCount := c.1, heap := c.2 }

/-- One photon handed to Geant4 (`G4CascadeTF.cpp:161-163`). -/
def TfHeap.handOne (t : TfHeap) : TfHeap :=
  { t with g4Part := (newInto t.heap).1, heap := (newInto t.heap).2, handed := t.heap.next :: t.handed }

/-- The photons of a crossing (`G4CascadeTF.cpp:139-164`). -/
def TfHeap.hand : Nat → TfHeap → TfHeap
  | 0, t => t
  | n + 1, t => TfHeap.hand n t.handOne

/-- What Geant4 and the user can do with the process between its construction and its destruction. -/
inductive TfAct where
  | load
  | postStep (photons : Nat)
  | kernelDelete (a : Nat)

/-- One action. A crossing uses the three models (`G4CascadeTF.cpp:106-109`). -/
def TfHeap.act (t : TfHeap) : TfAct → Res TfHeap
  | .load => .ok t.load
  | .postStep n =>
    if t.elec = .indeterminate ∨ t.phot = .indeterminate ∨ t.photCount = .indeterminate then
      .ub "use of an indeterminate pointer"
    else .ok (t.hand n)
  | .kernelDelete a =>
    if a ∈ t.handed then do
      let h ← t.heap.free (some a)
      .ok { t with heap := h, handed := t.handed.erase a }
    else .ok t

/-- A history of actions. -/
def TfHeap.acts : List TfAct → TfHeap → Res TfHeap
  | [], t => .ok t
  | a :: as, t => do
    let t ← t.act a
    TfHeap.acts as t

/-- The destructor (`G4CascadeTF.cpp:19-26`). -/
def TfHeap.destroy (t : TfHeap) : Res Heap := do
  let h ← t.elec.delete t.heap
  let h ← t.posi.delete h
  let h ← t.phot.delete h
  let h ← t.photCount.delete h
  t.g4Part.delete h

end G4
end QED
