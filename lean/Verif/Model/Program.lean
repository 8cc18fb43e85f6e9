import Verif.Model.Main
import Verif.Model.Output

set_option autoImplicit false

/-!
# `main` of `Source/Exec/QEDCASC.cpp` from end to end

Built without OpenMP and MPI: one thread, one process. The time loop may run for ever, so the model
carries fuel, the largest number of time steps of any one event, and has no outcome when the fuel is
not enough.

Simplified: what is printed (see `Model/Console`), the freeing of memory (`QEDCASC.cpp:257,291-296`) and the
sum `nEvents`, which is only printed, are left out. The random numbers of the constructors of the sources are given
apart from those of the event loop.
-/

namespace QED

open Dbl MCTools

universe u

/-- An outcome, or none if the fuel is not enough. -/
def Timed (α : Type u) : Type u := Option (Res α)

namespace Timed

/-- A step without loops. -/
def lift {α : Type u} (x : Res α) : Timed α := some x

/-- Sequencing. -/
def bind {α β : Type u} (x : Timed α) (f : α → Timed β) : Timed β :=
  match x with
  | none => none
  | some (.ok a) => f a
  | some (.exit c) => some (.exit c)
  | some (.throw w) => some (.throw w)
  | some (.ub w) => some (.ub w)

instance : Monad Timed where
  pure a := some (.ok a)
  bind := Timed.bind

end Timed

variable {D : Type} [Dbl D]

namespace Main

/-- What the loop over sources changes: random numbers, histograms and output. -/
structure World (D : Type) where
  rng : Rng D
  hists : List (Hist D)
  out : OutMgr D

/-- `StoreSource` of the primary, if asked for (`QEDCASC.cpp:205`). -/
def storePrimaryIf (output : Bool) (m : OutMgr D) (l : PList D) (j : Nat) : Res (OutMgr D) :=
  if output = true then m.storePrimary l j else .ok m

/-- `StoreSource` of the event, if asked for (`QEDCASC.cpp:253`). -/
def storeFinalIf (output : Bool) (m : OutMgr D) (l : PList D) (j : Nat) : Res (OutMgr D) :=
  if output = true then m.storeFinal l j else .ok m

/-- `StoreTrack`, if asked for (`QEDCASC.cpp:254`). -/
def storeTrackIf (tracking : Bool) (m : OutMgr D) (l : PList D) (j : Nat) : OutMgr D :=
  if tracking = true then m.storeTrack l j else m

/-- Event `j` of a source (`QEDCASC.cpp:201-257`). -/
def runEvent (cfg : SimCfg D) (fuel : Nat) (output tracking : Bool) (j : Nat)
    (s : Source D × World D) : Timed (Source D × World D) := do
  let (l, source, rng) ← Timed.lift (s.1.generateList s.2.rng)
  let out ← Timed.lift (storePrimaryIf output s.2.out l j)
  let e ← (timeLoop cfg fuel (.init l rng s.2.hists) : Timed (EvState D))
  let hists ← Timed.lift (fillRest e.list e.histCount e.hists)
  let out ← Timed.lift (storeFinalIf output out e.list j)
  pure (source, ⟨e.rng, hists, storeTrackIf tracking out e.list j⟩)

/-- `k` more events, from number `j` on (`QEDCASC.cpp:199-269`). -/
def runEvents (cfg : SimCfg D) (fuel : Nat) (output tracking : Bool) :
    Nat → Nat → Source D × World D → Timed (Source D × World D)
  | 0, _, s => pure s
  | k + 1, j, s => do
    let s ← runEvent cfg fuel output tracking j s
    runEvents cfg fuel output tracking k (j + 1) s

/-- `InitSource`, if asked for (`QEDCASC.cpp:193`). -/
def initSourceIf (output : Bool) (m : OutMgr D) (n : Nat) : OutMgr D :=
  if output = true then m.initSource n else m

/-- One source with its output flag (`QEDCASC.cpp:192-274`). -/
def runSource (cfg : SimCfg D) (fuel : Nat) (tracking : Bool) (s : Source D × Bool) (w : World D) :
    Timed (World D) := do
  let (_, w) ← runEvents cfg fuel s.2 tracking s.1.nPart 0
    (s.1, { w with out := initSourceIf s.2 w.out s.1.nPart })
  let out ← Timed.lift (w.out.outputEvents s.2 tracking)
  pure { w with out }

/-- The loop over sources (`QEDCASC.cpp:190-275`). -/
def runSources (cfg : SimCfg D) (fuel : Nat) (tracking : Bool) :
    List (Source D × Bool) → World D → Timed (World D)
  | [], w => pure w
  | s :: ss, w => do
    let w ← runSource cfg fuel tracking s w
    runSources cfg fuel tracking ss w

/-- The histograms at the end (`QEDCASC.cpp:284-292`). -/
def outputHists (m : OutMgr D) : List (Hist D) → Res (OutMgr D)
  | [] => .ok m
  | h :: hs => do
    let m ← m.outputHist h
    outputHists m hs

/-- The sources with their output flags, source `i` made with the random numbers `raws i n` for `n`
particles (`QEDCASC.cpp:152-162`). -/
def makeSources (g : GeneralParams D) (raws : Nat → Nat → RawDraws D) :
    Nat → List (ParticleParams D) → Res (List (Source D × Bool))
  | _, [] => .ok []
  | i, p :: ps => do
    let s ← makeSource g p (raws i p.number)
    let ss ← makeSources g raws (i + 1) ps
    .ok ((s, p.output) :: ss)

/-- The histograms; `garbage i` is the value of the uninitialised counter of number `i`
(`QEDCASC.cpp:165-171`). -/
def makeHists (garbage : Nat → Nat) : Nat → List (HistogramParams D) → List (Hist D)
  | _, [] => []
  | i, h :: hs => makeHist h (garbage i) :: makeHists garbage (i + 1) hs

/-- `main` from the set-up of the sources on (`QEDCASC.cpp:151-303`). The result is the file at the
normal end. -/
def run (input : Input D) (cfg : SimCfg D) (raws : Nat → Nat → RawDraws D) (garbage : Nat → Nat)
    (rng : Rng D) (fuel : Nat) : Timed (H5 D) := do
  let sources ← Timed.lift (makeSources input.general raws 0 input.particles)
  let out ← Timed.lift (OutMgr.new none)
  let w ← runSources cfg fuel input.general.tracking sources
    ⟨rng, makeHists garbage 0 input.histograms, out⟩
  let out ← Timed.lift (outputHists w.out w.hists)
  pure out.file

/-- The whole program. -/
def program (t : Tables D) (files : List Char → Option (List Char)) (args : List (List Char))
    (raws : Nat → Nat → RawDraws D) (garbage : Nat → Nat) (rng : Rng D) (fuel : Nat) :
    Timed (H5 D) := do
  let (input, cfg) ← Timed.lift (start t files args)
  run input cfg raws garbage rng fuel

end Main
end QED
