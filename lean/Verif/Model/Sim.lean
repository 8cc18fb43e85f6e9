import Verif.Model.Pushers
import Verif.Model.Processes
import Verif.Model.Histogram
import Verif.Model.Source

set_option autoImplicit false

/-!
# The event loop of `Source/Exec/QEDCASC.cpp`

The particle loop re-reads `GetNPart()` every time round. Its model carries
fuel; `Lemmas/Sim.lean` shows that the fuel supplied never runs out. The time
loop may run forever, so it is described by the relation `Run`; `timeLoop` is
the executable version with fuel.
-/

namespace QED

open Dbl MCTools

variable {D : Type} [Dbl D]

/-- What one event needs: pusher, field, time step, end time and processes
(`QEDCASC.cpp:88-150`). -/
structure SimCfg (D : Type) where
  push : PushMom D
  field : Field D
  dt : D
  timeEnd : D
  procs : List (Proc D)

/-- One call `processList[proc]->Interact(event->GetParticle(k), event)`
(`QEDCASC.cpp:234`). -/
def interactAt (proc : Proc D) (k : Nat) (l : PList D) (r : Rng D) : Res (PList D × Rng D) := do
  let p ← l.get k
  let (p', l', r') ← proc.interact p l r
  .ok (l'.set k p', r')

/-- The process loop for particle `k` (`QEDCASC.cpp:232-235`). -/
def interactAll (procs : List (Proc D)) (k : Nat) (l : PList D) (r : Rng D) :
    Res (PList D × Rng D) :=
  match procs with
  | [] => .ok (l, r)
  | proc :: rest => do
    let (l', r') ← interactAt proc k l r
    interactAll rest k l' r'

/-- One turn of the particle loop (`QEDCASC.cpp:231-235`). -/
def visit (cfg : SimCfg D) (k : Nat) (l : PList D) (r : Rng D) : Res (PList D × Rng D) := do
  let p ← l.get k
  interactAll cfg.procs k (l.set k (pushParticle cfg.push cfg.field cfg.dt p)) r

/-- The particle loop from index `k` (`QEDCASC.cpp:229-236`). -/
def particleLoop (cfg : SimCfg D) : Nat → Nat → PList D → Rng D → Res (PList D × Rng D)
  | 0, _, l, r => .ok (l, r)
  | fuel + 1, k, l, r =>
    if k < l.nPart then do
      let (l', r') ← visit cfg k l r
      particleLoop cfg fuel (k + 1) l' r'
    else .ok (l, r)

/-- All particles pushed and processed once (`QEDCASC.cpp:229-236`). The list never
outgrows `maxParticles`, which bounds the number of turns. -/
def advance (cfg : SimCfg D) (l : PList D) (r : Rng D) : Res (PList D × Rng D) :=
  particleLoop cfg l.maxParticles 0 l r

/-- Filling one histogram from an event (`QEDCASC.cpp:217-224`, `242-249`). -/
def fillHist (h : Hist D) : List (Particle D) → Res (Hist D)
  | [] => .ok h
  | p :: ps => do
    let h ← if h.particle = p.name then h.appParticle p else .ok h
    fillHist h ps

/-- The state of the time loop. -/
structure EvState (D : Type) where
  list : PList D
  rng : Rng D
  time : D
  histCount : Nat
  hists : List (Hist D)

/-- The histogram check at the start of a time step (`QEDCASC.cpp:212-227`): at most
one histogram per step. -/
def histStep (s : EvState D) : Res (EvState D) :=
  match s.hists[s.histCount]? with
  | none => .ok s
  | some h =>
    if h.time <=. s.time then do
      let h' ← fillHist h s.list.items
      .ok { s with hists := s.hists.set s.histCount h', histCount := s.histCount + 1 }
    else .ok s

/-- One time step (`QEDCASC.cpp:211-237`). -/
def timeStep (cfg : SimCfg D) (s : EvState D) : Res (EvState D) := do
  let s ← histStep s
  let (l, r) ← advance cfg s.list s.rng
  .ok { s with list := l, rng := r, time := s.time +. cfg.dt }

/-- `while (time < timeEnd)` (`QEDCASC.cpp:209-238`) as a relation: `Run cfg s n o`
says that the loop started in `s` ends with outcome `o` after `n` time steps. -/
inductive Run (cfg : SimCfg D) : EvState D → Nat → Res (EvState D) → Prop
  | done {s} : (s.time <. cfg.timeEnd) = false → Run cfg s 0 (.ok s)
  | step {s s' n o} : (s.time <. cfg.timeEnd) = true → timeStep cfg s = .ok s' →
      Run cfg s' n o → Run cfg s (n + 1) o
  | abort {s o} : (s.time <. cfg.timeEnd) = true → timeStep cfg s = o →
      (∀ s', o ≠ .ok s') → Run cfg s 1 o

/-- The time loop with fuel; `none` when the fuel runs out. -/
def timeLoop (cfg : SimCfg D) : Nat → EvState D → Option (Res (EvState D))
  | 0, s => if s.time <. cfg.timeEnd then none else some (.ok s)
  | fuel + 1, s =>
    if s.time <. cfg.timeEnd then
      match timeStep cfg s with
      | .ok s' => timeLoop cfg fuel s'
      | .exit c => some (.exit c)
      | .throw w => some (.throw w)
      | .ub w => some (.ub w)
    else some (.ok s)

/-- The histograms left over after the loop (`QEDCASC.cpp:240-250`). -/
def fillRest (l : PList D) (histCount : Nat) (hists : List (Hist D)) : Res (List (Hist D)) :=
  match hists, histCount with
  | [], _ => .ok []
  | h :: hs, c + 1 => do let hs' ← fillRest l c hs; .ok (h :: hs')
  | h :: hs, 0 => do
    let h' ← fillHist h l.items
    let hs' ← fillRest l 0 hs
    .ok (h' :: hs')

/-- The state at the start of the time loop (`QEDCASC.cpp:207-208`). -/
def EvState.init (l : PList D) (r : Rng D) (hists : List (Hist D)) : EvState D :=
  ⟨l, r, lit 0, 0, hists⟩

/-- One event from the generated list to the filled histograms
(`QEDCASC.cpp:207-250`). -/
inductive Event (cfg : SimCfg D) (l : PList D) (r : Rng D) (hists : List (Hist D)) :
    Nat → PList D → Rng D → List (Hist D) → Prop
  | mk {n s hists'} : Run cfg (.init l r hists) n (.ok s) →
      fillRest s.list s.histCount s.hists = .ok hists' →
      Event cfg l r hists n s.list s.rng hists'

end QED
