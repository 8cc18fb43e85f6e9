import Verif.Model.Source

set_option autoImplicit false

/-!
# The event loop run by several threads

`#pragma omp parallel for` (`QEDCASC.cpp:195-199`, `RunManager.cpp:198-202`) lets each thread run its
share of the events. All threads call `GenerateList` on the same `SourceGenerator`, whose
`m_partCount` is an ordinary `unsigned int` that is read twelve times and written once per call without
any lock. By the C++ memory model this is a data race, so undefined. `Racing` below says when that
happens. To see what goes wrong in practice, the model also runs the micro-steps of the calls one after
the other in an arbitrary order (sequential consistency, the most favourable reading): a schedule is the
list of the threads that take the next step.

Simplifications: the evaluation order of the arguments of `ThreeVector(...)` at lines 50-59 is
unspecified in C++, the model uses the textual order; the steps of a thread that do not touch
`m_partCount` (the time loop, output) are not shown, nor are the other objects shared without a lock (the
random number generator, the histograms, the list of tracks). OpenMP hands the events to the threads in
any way it likes, so the shares are arbitrary.
-/

namespace QED

open Dbl MCTools

namespace Threads

/-- Where a thread is: the events it has still to start and, inside `GenerateList`, the event it works
on with the values of `m_partCount` read so far. -/
structure Local where
  todo : List Nat
  call : Option (Nat × List Nat)

/-- `m_partCount`, the threads and the finished calls of `GenerateList`: the event and the values of
`m_partCount` used for it (all but the last one, which belongs to `m_partCount++`). -/
structure State where
  count : Nat
  threads : List Local
  made : List (Nat × List Nat)

/-- The start of the parallel loop: `shares` says which events each thread runs. -/
def State.init (shares : List (List Nat)) : State :=
  ⟨0, shares.map fun todo => ⟨todo, none⟩, []⟩

/-- Thread `t` reads `m_partCount` once more. -/
def see (t : Nat) (todo : List Nat) (j : Nat) (seen : List Nat) (s : State) : State :=
  { s with threads := s.threads.set t ⟨todo, some (j, seen ++ [s.count])⟩ }

/-- The next step of thread `t`, for a source of `n` samples. A call reads `m_partCount`
* first to see whether the source is depleted (`SourceGenerator.cpp:43`),
* then for the name of the list (`:48`),
* then nine times as the index of a sample: `x`, `y`, `z` (`:50-52`), theta, phi, theta, phi, theta
  (`:55-59`) and the energy (`:64`, `:69` or `:74`),
* and last in `m_partCount++` (`:83`), which then writes it. -/
def step (n t : Nat) (s : State) : Res State :=
  match s.threads[t]? with
  | none => .ok s
  | some ⟨todo, none⟩ =>
    match todo with
    | [] => .ok s
    | j :: js => .ok { s with threads := s.threads.set t ⟨js, some (j, [])⟩ }
  | some ⟨todo, some (j, seen)⟩ =>
    if seen.length = 0 then
      if s.count = n then .exit 1 else .ok (see t todo j seen s)
    else if seen.length = 1 then .ok (see t todo j seen s)
    else if seen.length < 11 then
      if s.count < n then .ok (see t todo j seen s) else .ub "out-of-bounds read"
    else if seen.length = 11 then .ok (see t todo j seen s)
    else
      .ok { count := seen.getLastD 0 + 1
            threads := s.threads.set t ⟨todo, none⟩
            made := s.made ++ [(j, seen.take 11)] }

/-- The steps of a schedule. -/
def exec (n : Nat) : List Nat → State → Res State
  | [], s => .ok s
  | t :: ts, s => do
    let s' ← step n t s
    exec n ts s'

/-- No thread has anything left to do: the implicit barrier at the end of the loop. -/
def State.Finished (s : State) : Prop := ∀ l ∈ s.threads, l.todo = [] ∧ l.call = none

/-- The access to `m_partCount` a thread makes in its next step: `some true` is a write, `some false` a
read. -/
def nextAccess (l : Local) : Option Bool :=
  match l.call with
  | none => none
  | some (_, seen) => some (decide (12 ≤ seen.length))

/-- Two threads are about to access `m_partCount`, at least one of them to write it. Nothing in the loop
orders the two accesses, so this is a data race. -/
def State.Racing (s : State) : Prop :=
  ∃ (a b : Nat) (la lb : Local) (wa wb : Bool), a ≠ b ∧ s.threads[a]? = some la ∧ s.threads[b]? = some lb ∧
    nextAccess la = some wa ∧ nextAccess lb = some wb ∧ (wa = true ∨ wb = true)

end Threads

variable {D : Type} [Dbl D]

/-- The list `GenerateList` builds when its eleven reads of `m_partCount` give the values `seen`
(`SourceGenerator.cpp:48-82`); the first one only serves the test at line 43. -/
def Source.listFrom (s : Source D) (seen : List Nat) (r : Rng D) : Res (PList D × Rng D) := do
  let list : PList D := PList.new (toString (seen.getD 1 0)) PList.defaultMax
  let px ← rd s.xPos (seen.getD 2 0)
  let py ← rd s.yPos (seen.getD 3 0)
  let pz ← rd s.zPos (seen.getD 4 0)
  let partPosition := (s.rotation.mulVec ⟨px, py, pz⟩).add s.position
  let theta1 ← rd s.thetaDir (seen.getD 5 0)
  let phi1 ← rd s.phiDir (seen.getD 6 0)
  let theta2 ← rd s.thetaDir (seen.getD 7 0)
  let phi2 ← rd s.phiDir (seen.getD 8 0)
  let theta3 ← rd s.thetaDir (seen.getD 9 0)
  let partDirection := s.rotation.mulVec
    ⟨sin theta1 *. cos phi1, sin theta2 *. sin phi2, cos theta3⟩
  let energy ← rd s.energy (seen.getD 10 0)
  let (u, r') := r.next
  let part ← s.mkParticle energy partPosition partDirection u
  .ok (list.add part, r')

end QED
