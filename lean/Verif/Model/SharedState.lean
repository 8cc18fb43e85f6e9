import Verif.Model.Histogram
import Verif.Base.Res

set_option autoImplicit false

/-!
# Histograms and random numbers shared by the threads of the event loop

Like `m_partCount` (`Model/Threads.lean`), the histograms and the random number generator are ordinary
objects used by all threads of `#pragma omp parallel for` (`QEDCASC.cpp:195-199`,
`RunManager.cpp:198-202`) without a lock. As there, the model runs the micro-steps of the threads in an
arbitrary order (sequential consistency) and says when two of them form a data race.

Simplifications: which values a thread adds, and how many numbers it draws, is given beforehand as its
share; steps that touch neither object are not shown. The state of `std::mt19937` is represented by the
number of values drawn so far, as in `Rng`; a draw reads it and writes it back increased by one.
-/

namespace QED

open Dbl Numerics

namespace SharedHist

variable {D : Type} [Dbl D]

/-- Where a thread is inside `AppParticle` (`Histogram.cpp:39-56`). -/
inductive Pc (D : Type) where
  /-- outside -/
  | idle
  /-- has read `m_entries` in `m_entries++` (`:49`) for a particle of energy `x` -/
  | sawEntries (x : D) (entries : Nat)
  /-- has written `m_entries` -/
  | counted (x : D)
  /-- has read `m_binValues[index]` in `m_binValues[index]++` (`:54`) -/
  | sawBin (index : Nat) (value : D)

/-- A thread: the energies of the particles it has still to add, and where it is. -/
structure Local (D : Type) where
  todo : List D
  pc : Pc D

/-- The shared histogram and the threads. -/
structure State (D : Type) where
  hist : Hist D
  threads : List (Local D)

/-- The start: thread `t` adds particles of the energies `shares[t]`. -/
def State.init (h : Hist D) (shares : List (List D)) : State D :=
  ⟨h, shares.map fun todo => ⟨todo, .idle⟩⟩

/-- Thread `t` moves on. -/
def State.put (s : State D) (t : Nat) (todo : List D) (pc : Pc D) : State D :=
  { s with threads := s.threads.set t ⟨todo, pc⟩ }

/-- The next step of thread `t` (`Histogram.cpp:39-56`); the bin centres never change. -/
def step (t : Nat) (s : State D) : Res (State D) :=
  match s.threads[t]? with
  | none => .ok s
  | some ⟨todo, .idle⟩ =>
    match todo with
    | [] => .ok s
    | x :: xs => if s.hist.nBins = 0 then .exit 1 else .ok (s.put t xs (.sawEntries x s.hist.entries))
  | some ⟨todo, .sawEntries x n⟩ =>
    .ok ({ s with hist := { s.hist with entries := Hist.incr n } }.put t todo (.counted x))
  | some ⟨todo, .counted x⟩ => do
    let first ← rd s.hist.centres 0
    let last ← rd s.hist.centres (usub s.hist.nBins 1)
    if (first <. x) && (x <. last) then
      let index ← arrayIndex s.hist.centres x
      let v ← rd s.hist.values index
      .ok (s.put t todo (.sawBin index v))
    else .ok (s.put t todo .idle)
  | some ⟨todo, .sawBin index v⟩ =>
    .ok ({ s with hist := { s.hist with values := s.hist.values.set index (v +. lit 1) } }.put t todo .idle)

/-- The steps of a schedule. -/
def exec : List Nat → State D → Res (State D)
  | [], s => .ok s
  | t :: ts, s => do
    let s' ← step t s
    exec ts s'

/-- No thread has anything left to do. -/
def State.Finished (s : State D) : Prop := ∀ l ∈ s.threads, l.todo = [] ∧ l.pc = .idle

/-- At most one thread is inside `AppParticle`. -/
def State.AtMostOne (s : State D) : Prop :=
  ∀ (a b : Nat) (la lb : Local D), s.threads[a]? = some la → s.threads[b]? = some lb →
    la.pc ≠ .idle → lb.pc ≠ .idle → a = b

end SharedHist

namespace SharedRng

/-- A thread: how many numbers it has still to draw and, inside a draw, the state it has read. -/
structure Local where
  todo : Nat
  seen : Option Nat

/-- The generator (the number of values drawn so far), the threads, and which thread has got which
value of the sequence. -/
structure State where
  pos : Nat
  threads : List Local
  used : List (Nat × Nat)

/-- The start: thread `t` draws `shares[t]` numbers. -/
def State.init (shares : List Nat) : State := ⟨0, shares.map fun k => ⟨k, none⟩, []⟩

/-- The next step of thread `t`: a draw from `generator` (`MCTools.cpp:10-26`) reads its state, and then
writes the next one. -/
def step (t : Nat) (s : State) : State :=
  match s.threads[t]? with
  | none => s
  | some l =>
    match l.seen with
    | some p => { pos := p + 1, threads := s.threads.set t ⟨l.todo, none⟩, used := s.used ++ [(t, p)] }
    | none =>
      match l.todo with
      | 0 => s
      | k + 1 => { s with threads := s.threads.set t ⟨k, some s.pos⟩ }

/-- The steps of a schedule. -/
def exec : List Nat → State → State
  | [], s => s
  | t :: ts, s => exec ts (step t s)

/-- No thread has anything left to draw. -/
def State.Finished (s : State) : Prop := ∀ l ∈ s.threads, l.todo = 0 ∧ l.seen = none

/-- Two threads are in the middle of a draw: nothing orders the read or write of one and the write of
the other, so this is a data race. -/
def State.Racing (s : State) : Prop :=
  ∃ (a b : Nat) (la lb : Local), a ≠ b ∧ s.threads[a]? = some la ∧ s.threads[b]? = some lb ∧
    la.seen.isSome ∧ (lb.seen.isSome ∨ 0 < lb.todo)

end SharedRng

end QED
