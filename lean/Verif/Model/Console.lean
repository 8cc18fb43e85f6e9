import Verif.Model.Main
import Verif.Model.OutputMpi
import Mathlib.Data.Int.Log
import Mathlib.Algebra.Order.Round

set_option autoImplicit false

/-!
# What `main` prints about a run, when built with OpenMP

Simplified: the percentages are modelled as numbers, and what is left of them after `std::cout.precision(2)` by
`shown`; the wall clock, the name of the file and the number of threads, which is printed as it is, are left out. Only
thread 0 prints, so its lines are in the order in which it runs its events.
-/

namespace QED
namespace Main

open Dbl

variable {D : Type} [Dbl D]

/-- The sum `nEvents`, an `unsigned int`, of the message "events will be simulated" (`QEDCASC.cpp:176-184`). -/
def announced (ps : List (ParticleParams D)) : Nat :=
  ps.foldl (fun n p => u32 (n + p.number)) 0

/-- The percentage printed after event `j` of a source of `n` events (`QEDCASC.cpp:264-266`). The product is one of
`unsigned int`s, as `j` is one. The divisor is the `int` of `QEDCASC.cpp:196`. -/
def progress (threads n j : Nat) : D :=
  (lit ((u32 (j * threads) : Nat) : ℚ) /. lit ((Mpi.i32 n : Int) : ℚ)) *. lit 100

/-- What thread 0 prints about one source, `share` being the events it is given, in its order (`QEDCASC.cpp:259-268`). -/
def reports (threads n : Nat) (share : List Nat) : List D :=
  (share.filter fun j => j % 5 == 0).map (progress threads n)

/-- What is printed in the whole run, `share n` being the events of thread 0 of a source of `n` events
(`QEDCASC.cpp:190-275`). -/
def console (threads : Nat) (share : Nat → List Nat) (sources : List Nat) : List D :=
  sources.flatMap fun n => reports threads n (share n)

/-- What `std::cout` shows of a percentage after `precision(2)`: two significant decimal digits (`QEDCASC.cpp:183`,
`264-266`). Simplified: halves are rounded up. -/
noncomputable def shown (x : ℝ) : ℝ :=
  if x = 0 then 0 else round (x / 10 ^ (Int.log 10 |x| - 1)) * 10 ^ (Int.log 10 |x| - 1)

end Main
end QED
