import Verif.Spec.Mpi
import Verif.Model.Program

set_option autoImplicit false

/-!
# What a process simulates, apart from output
-/

namespace QED.MpiSpec

open QED Dbl MCTools

variable {D L : Type} [Dbl D]

/-- `k` events of a source, one after the other: what they start and end with, and the random numbers and
histograms afterwards. -/
def simEvents (cfg : SimCfg D) (fuel : Nat) : Nat → Source D → Rng D → List (Hist D) →
    Timed (RankEvents D × Rng D × List (Hist D))
  | 0, _, r, hs => pure (⟨[], []⟩, r, hs)
  | k + 1, s, r, hs => do
    let (l, s, r) ← Timed.lift (s.generateList r)
    let e ← (timeLoop cfg fuel (.init l r hs) : Timed (EvState D))
    let hs ← Timed.lift (fillRest e.list e.histCount e.hists)
    let (ev, r, hs) ← simEvents cfg fuel k s e.rng hs
    pure (⟨l.items.take 1 ++ ev.firsts, e.list.items :: ev.finals⟩, r, hs)

/-- All events of all sources. -/
def simSources (cfg : SimCfg D) (fuel : Nat) : List (Source D) → Rng D → List (Hist D) →
    Timed (List (RankEvents D) × List (Hist D))
  | [], _, hs => pure ([], hs)
  | s :: ss, r, hs => do
    let (ev, r, hs) ← simEvents cfg fuel s.nPart s r hs
    let (evs, hs) ← simSources cfg fuel ss r hs
    pure (ev :: evs, hs)

/-- The events of the sources of an input file and the histograms filled with them: what one process
simulates with its random numbers. -/
def simRun (input : Input D) (cfg : SimCfg D) (raws : Nat → Nat → RawDraws D) (garbage : Nat → Nat)
    (rng : Rng D) (fuel : Nat) : Timed (List (RankEvents D) × List (Hist D)) := do
  let sources ← Timed.lift (Main.makeSources input.general raws 0 input.particles)
  simSources cfg fuel (sources.map (·.1)) rng (Main.makeHists garbage 0 input.histograms)

/-- The tables of the sources with output, with the rows of all ranks in rank order. `evs r` are the events
of the sources on rank `r`. -/
def putRun (n : Nat) (group : L → L) (put : L → String → Nat → List (Option D) → L) :
    List Bool → (Nat → List (RankEvents D)) → L → L
  | [], _, l => l
  | b :: bs, evs, l => putRun n group put bs (fun r => (evs r).tail)
      (if b = true then putSource n group put (fun r => (evs r).headD ⟨[], []⟩) l else l)

/-- Histogram number `k` on each rank. -/
def histOf (hists : Nat → List (Hist D)) (k r : Nat) : Hist D := (hists r).getD k (Hist.empty (lit 0))

end QED.MpiSpec
