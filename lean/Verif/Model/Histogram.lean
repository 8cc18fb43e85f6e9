import Verif.Model.Particle
import Verif.Model.Numerics

set_option autoImplicit false

/-!
# `Source/IO/Output/Histogram.cpp`
-/

namespace QED

open Dbl Numerics

variable {D : Type} [Dbl D]

/-- `class Histogram` (`Histogram.hh:44-52`). The two arrays of length `m_nBins`
are lists of that length. -/
structure Hist (D : Type) where
  name : String
  type : String
  particle : String
  nBins : Nat
  entries : Nat
  time : D
  centres : List D
  values : List D

namespace Hist

/-- Default constructor (`Histogram.cpp:4-7`). -/
def empty (time : D) : Hist D := ⟨"", "", "", 0, 0, time, [], []⟩

/-- The bin centres (`Histogram.cpp:31-34`). -/
def binCentres (minBin maxBin : D) (nBins : Nat) : List D :=
  let delta := (maxBin -. minBin) /. (lit nBins -. lit 1)
  (List.range nBins).map fun (i : Nat) => minBin +. lit (i : ℚ) *. delta

/-- Seven-argument constructor and `Initialise` (`Histogram.cpp:9-13,21-37`). This
constructor does not initialise `m_entries`: `garbage` is whatever value the
member happens to have. -/
def new (name particle type : String) (time minBin maxBin : D) (nBins : Nat) (garbage : Nat) :
    Hist D :=
  { name, particle, type, time, nBins, entries := garbage
    centres := binCentres minBin maxBin nBins
    values := List.replicate nBins (lit 0) }

/-- `m_entries++` on an `unsigned int`. -/
def incr (n : Nat) : Nat := (n + 1) % 2 ^ 32

/-- One particle with value `x` of the binned quantity (`Histogram.cpp:49-55`):
strictly inside the range of the bin centres it adds one to the nearest bin. -/
def count (h : Hist D) (x : D) : Res (Hist D) := do
  let h := { h with entries := incr h.entries }
  let first ← rd h.centres 0
  let last ← rd h.centres (usub h.nBins 1)
  if (first <. x) && (x <. last) then
    let index ← arrayIndex h.centres x
    let v ← rd h.values index
    .ok { h with values := h.values.set index (v +. lit 1) }
  else .ok h

/-- `AppParticle` (`Histogram.cpp:39-116`). The condition at line 47 is
`m_type == "Energy" || "energy"`; a string literal converts to `true`, so the
first branch is always taken and the others are unreachable. -/
def appParticle (h : Hist D) (p : Particle D) : Res (Hist D) :=
  if h.nBins = 0 then .exit 1 else h.count p.energy

/-- The first loop of `Normalise` (`Histogram.cpp:208-212`). -/
def total (h : Hist D) : D := h.values.foldl (· +. ·) (lit 0)

/-- `Normalise` (`Histogram.cpp:204-218`). -/
def normalise (h : Hist D) : Hist D :=
  if 0 < h.entries then { h with values := h.values.map (· /. h.total) } else h

/-- The loop of `Fill` (`Histogram.cpp:128-137`). -/
def countAll (h : Hist D) : List (Particle D) → Res (Hist D)
  | [] => .ok h
  | p :: ps => do let h ← h.count p.energy; countAll h ps

/-- `Fill` (`Histogram.cpp:118-182`), with the same always-true test as above. -/
def fill (h : Hist D) (l : PList D) : Res (Hist D) :=
  if h.nBins = 0 then .exit 1 else do
    let h ← h.countAll l.items
    .ok h.normalise

/-- Addition of two arrays of the same length (`Histogram.cpp:191-194`). -/
def addBins : List D → List D → List D
  | a :: as, b :: bs => (a +. b) :: addBins as bs
  | _, _ => []

/-- `Merge` (`Histogram.cpp:184-202`); the argument is deleted afterwards. The
reads of the first and last centre are out of bounds when both histograms have
zero bins. -/
def merge (h g : Hist D) : Res (Hist D) :=
  if h.nBins = g.nBins then do
    let h0 ← rd h.centres 0
    let g0 ← rd g.centres 0
    if h0 ==. g0 then
      let h1 ← rd h.centres (usub h.nBins 1)
      let g1 ← rd g.centres (usub h.nBins 1)
      if h1 ==. g1 then
        .ok { h with entries := (h.entries + g.entries) % 2 ^ 32
                     values := addBins h.values g.values }
      else .ok h
    else .ok h
  else .ok h

end Hist

end QED
