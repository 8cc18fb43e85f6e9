import Verif.Model.Program
import Verif.Model.OutputMpi

set_option autoImplicit false

/-!
# `main` of `Source/Exec/QEDCASC.cpp` built with MPI

Every rank runs the whole of `main`: it reads the same file and simulates all events of all sources with
its own random numbers. What differs between ranks is the output.

Simplified: the local computations of a rank, which use no messages, are all done before its first
message. The output file belongs to rank 0 alone (`OutputManager.cpp:7-19`) and is not part of the local
state.
-/

namespace QED.Mpi

open QED Dbl MCTools OutMgr

variable {D L : Type} [Dbl D]

/-- The local computations of one rank in the loop over sources: for each source its output flag and the
manager at the time of its output (`QEDCASC.cpp:190-275`). -/
def localSources (cfg : SimCfg D) (fuel : Nat) (tracking : Bool) :
    List (QED.Source D × Bool) → Main.World D → Timed (List (Bool × OutMgr D) × Main.World D)
  | [], w => pure ([], w)
  | s :: ss, w => do
    let (_, w) ← Main.runEvents cfg fuel s.2 tracking s.1.nPart 0
      (s.1, { w with out := Main.initSourceIf s.2 w.out s.1.nPart })
    let (rest, w') ← localSources cfg fuel tracking ss w
    pure ((s.2, w.out) :: rest, w')

/-- The local computations of one rank (`QEDCASC.cpp:151-275`): what it has to send or write. -/
def localRun (input : Input D) (cfg : SimCfg D) (raws : Nat → Nat → RawDraws D) (garbage : Nat → Nat)
    (rng : Rng D) (fuel : Nat) : Timed (List (Bool × OutMgr D) × List (Hist D)) := do
  let sources ← Timed.lift (Main.makeSources input.general raws 0 input.particles)
  let out ← Timed.lift (OutMgr.new none)
  let (sent, w) ← localSources cfg fuel input.general.tracking sources
    ⟨rng, Main.makeHists garbage 0 input.histograms, out⟩
  pure (sent, w.hists)

/-- The messages of one rank after its local computations (`QEDCASC.cpp:190-292`). -/
def rankProgram (S : Sink D L) (nProc id : Nat) (x : List (Bool × OutMgr D) × List (Hist D)) (l : L) :
    Prog D L :=
  runRank S nProc id x.1 x.2 l

end QED.Mpi
