import Verif.Spec.Output
import Verif.Model.Histogram
import Mathlib.Algebra.BigOperators.Group.Finset.Basic

set_option autoImplicit false

/-!
# What the master should write in a run with several ranks
-/

namespace QED.MpiSpec

open QED Dbl OutSpec

variable {D L : Type} [Dbl D]

/-- The events of one source on one rank: the first particle of each event at its start, and all
particles of each event at its end. -/
structure RankEvents (D : Type) where
  firsts : List (Particle D)
  finals : List (List (Particle D))

/-- The rows of rank 0, followed by those of rank 1, and so on. -/
def gather (n : Nat) (rows : Nat → List (List D)) : List (List D) := (List.range n).flatMap rows

/-- A table that is left out if it has no rows. -/
def putTable (put : L → String → Nat → List (Option D) → L) (l : L) (name : String)
    (rows : List (List D)) : L :=
  if rows = [] then l else put l name rows.length (rows.flatten.map some)

/-- The group and the four tables. -/
def putEvents (group : L → L) (put : L → String → Nat → List (Option D) → L)
    (prim e p g : List (List D)) (l : L) : L :=
  putTable put (putTable put (putTable put
    (put (group l) "Primary" prim.length (prim.flatten.map some)) "Electrons" e) "Positrons" p)
    "Photons" g

/-- The tables of a source, with the rows of all ranks in rank order. -/
def putSource (n : Nat) (group : L → L) (put : L → String → Nat → List (Option D) → L)
    (ev : Nat → RankEvents D) (l : L) : L :=
  putEvents group put (gather n fun r => primaryTable (ev r).firsts)
    (gather n fun r => table .electron (ev r).finals)
    (gather n fun r => table .positron (ev r).finals)
    (gather n fun r => table .photon (ev r).finals) l

/-- No table of the source has as many as `2 ^ 28` rows, all ranks together. -/
def Fits (n : Nat) (ev : Nat → RankEvents D) : Prop :=
  (gather n fun r => primaryTable (ev r).firsts).length < 2 ^ 28 ∧
  ∀ k, (gather n fun r => table k (ev r).finals).length < 2 ^ 28

/-- The bin-wise sum of a histogram over all ranks. -/
noncomputable def binSums (n : Nat) (h : Nat → Hist ℝ) : List ℝ :=
  (List.range (h 0).nBins).map fun b => ∑ r ∈ Finset.range n, (h r).values.getD b 0

end QED.MpiSpec
