import Verif.Base.Dbl
import Verif.Base.Res

set_option autoImplicit false

/-!
# `Source/Tools/MCTools.cpp`

A call that needs random numbers takes its raw draws as arguments. A raw
uniform draw is a value `u` of `std::generate_canonical`, in `[0, 1)`;
`RandDouble(low, high)` is `u * (high - low) + low` (libstdc++), so
`RandDouble(0, 1)` is the draw itself. `RandNormNd` and `RandSinhArcsinhNd`
(Eigen, Geant4 builds only) are in `Model/Multivariate.lean`.
-/

namespace QED
namespace MCTools

open Dbl

variable {D : Type} [Dbl D]

/-- A source of raw uniform draws, consumed one after the other. -/
structure Rng (D : Type) where
  /-- the `i`-th raw draw of the run -/
  draw : Nat → D
  /-- number of draws used so far -/
  pos : Nat

/-- Take the next raw draw: `RandDouble(0.0, 1.0)` (`MCTools.cpp:10-14`). -/
def Rng.next (r : Rng D) : D × Rng D := (r.draw r.pos, { r with pos := r.pos + 1 })

/-- Every raw draw lies in `[0, 1)`: the contract of `std::generate_canonical`. -/
def Rng.Valid (r : Rng D) : Prop := ∀ i, (lit 0 <=. r.draw i) = true ∧ (r.draw i <. lit 1) = true

/-- `RandDouble` (`MCTools.cpp:10-14`). `std::uniform_real_distribution`
requires `low <= high`; violating a library precondition is undefined
behaviour. -/
def randDouble (low high u : D) : Res D :=
  if low <=. high then .ok (u *. (high -. low) +. low)
  else .ub "uniform_real_distribution: requires a <= b"

/-- `SampleUniform` (`MCTools.cpp:108-119`): the distribution object is built
first, even for zero samples. -/
def sampleUniform (low high : D) (us : List D) : Res (List D) :=
  if low <=. high then .ok (us.map fun u => u *. (high -. low) +. low)
  else .ub "uniform_real_distribution: requires a <= b"

/-- `SampleNorm` (`MCTools.cpp:95-106`) with standard normal draws `zs`
(libstdc++ returns `z * sigma + mean`). `std::normal_distribution` requires
`sigma > 0`; libstdc++ evaluates the formula for `sigma = 0` as well, which is
how the code uses it, so the precondition is not enforced here. -/
def sampleNorm (mean sig : D) (zs : List D) : List D := zs.map fun z => z *. sig +. mean

/-- The cumulative sums at `MCTools.cpp:31-37`. -/
def cumul : D → List D → List D
  | _, [] => []
  | acc, w :: ws => (acc +. w) :: cumul (acc +. w) ws

/-- `RandDiscrete` (`MCTools.cpp:28-49`) with raw draw `u`. `cdf[0]` on an empty
vector is undefined behaviour. The search at lines 40-47 starts at index 1. -/
def randDiscrete (distro : List D) (u : D) : Res Nat :=
  match distro with
  | [] => .ub "RandDiscrete: cdf[0] of an empty vector"
  | w0 :: ws =>
    let tail := cumul w0 ws            -- cdf[1], cdf[2], ...
    let last := tail.getLast?.getD w0  -- *(cdf.end() - 1)
    match randDouble (lit 0) last u with
    | .ok rand =>
      -- first i >= 1 with rand < cdf[i], otherwise 0
      .ok (match tail.findIdx? (fun c => rand <. c) with
        | some k => k + 1
        | none => 0)
    | .exit c => .exit c
    | .throw w => .throw w
    | .ub w => .ub w

/-- The process-wide random state: the `std::mt19937` object of
`MCTools.hh:36-37`, seeded from `std::random_device`, and the hidden state of
the C library's `rand`. The types of both states are abstract. -/
structure GlobalRng (G C : Type) where
  generator : G
  crand : C

/-- `SetSeed` (`MCTools.cpp:5-8`) calls `std::srand`, which re-seeds the C
library's generator only. -/
def setSeed {G C : Type} (srand : Int → C) (seed : Int) (s : GlobalRng G C) : GlobalRng G C :=
  { s with crand := srand seed }

/-- The next `n` values returned by the sampling functions: all of them draw
from `generator` (`MCTools.cpp:10-26,95-119`). -/
def draws {G C X : Type} (step : G → X × G) : Nat → GlobalRng G C → List X
  | 0, _ => []
  | n + 1, s =>
    let (x, g) := step s.generator
    x :: draws step n { s with generator := g }

end MCTools
end QED
