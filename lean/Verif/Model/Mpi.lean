import Verif.Base.Res
import Mathlib.Logic.Function.Basic
import Mathlib.Logic.Relation

set_option autoImplicit false

/-!
# Message passing

The part of MPI that the code uses: blocking point-to-point messages in one communicator and
barriers. Of the MPI standard the following is assumed. Messages from one rank to another that match
the same receive arrive in the order in which they were sent. `MPI_Send` posts its message and then
blocks; it may return at once, if the library buffers the message, and must return when the message
has been received. `MPI_Probe` waits for a message and does not take it. `MPI_Recv` takes the first
message with the given source and tag; with `MPI_ANY_SOURCE` it takes the first one with that tag from
any rank. `MPI_Barrier` returns when all ranks have called it.
-/

namespace QED.Mpi

open QED

variable {D α β : Type}

/-- The data of a message: one `MPI_INT` or an array of `MPI_DOUBLE`. -/
inductive Msg (D : Type) where
  | int (z : Int)
  | doubles (xs : List D)

/-- `MPI_Get_count` of a message. -/
def Msg.count : Msg D → Nat
  | int _ => 1
  | doubles xs => xs.length

/-- The program of one rank. -/
inductive Prog (D : Type) (α : Type) where
  /-- the program has ended -/
  | ret (r : Res α)
  /-- `MPI_Send` -/
  | send (dst tag : Nat) (m : Msg D) (k : Prog D α)
  /-- `MPI_Probe` followed by `MPI_Get_count` -/
  | probe (src tag : Nat) (k : Nat → Prog D α)
  /-- `MPI_Recv` -/
  | recv (src tag : Nat) (k : Msg D → Prog D α)
  /-- `MPI_Recv` with `MPI_ANY_SOURCE` -/
  | recvAny (tag : Nat) (k : Msg D → Prog D α)
  /-- `MPI_Barrier` -/
  | barrier (k : Prog D α)

namespace Prog

/-- Sequencing. -/
def bind (p : Prog D α) (f : α → Prog D β) : Prog D β :=
  match p with
  | ret (.ok a) => f a
  | ret (.exit c) => ret (.exit c)
  | ret (.throw w) => ret (.throw w)
  | ret (.ub w) => ret (.ub w)
  | send dst tag m k => send dst tag m (k.bind f)
  | probe src tag k => probe src tag fun n => (k n).bind f
  | recv src tag k => recv src tag fun m => (k m).bind f
  | recvAny tag k => recvAny tag fun m => (k m).bind f
  | barrier k => barrier (k.bind f)

instance : Monad (Prog D) where
  pure a := ret (.ok a)
  bind := bind

end Prog

/-- A computation without communication. -/
def lift (r : Res α) : Prog D α := .ret r

/-- A rank: its program and, while it is blocked in `MPI_Send`, the rank it sends to. -/
structure Proc (D α : Type) where
  prog : Prog D α
  sending : Option Nat

/-- The ranks and the messages that are under way, by source and destination, in the order of
sending. -/
structure State (D α : Type) where
  procs : Nat → Proc D α
  net : Nat → Nat → List (Nat × Msg D)

namespace State

/-- The state in which all ranks are at the start of their programs. -/
def start (progs : Nat → Prog D α) : State D α := ⟨fun r => ⟨progs r, none⟩, fun _ _ => []⟩

/-- Change of one rank. -/
def setProc (s : State D α) (r : Nat) (p : Proc D α) : State D α :=
  { s with procs := Function.update s.procs r p }

/-- Change of the messages from `src` to `dst`. -/
def setNet (s : State D α) (src dst : Nat) (l : List (Nat × Msg D)) : State D α :=
  { s with net := Function.update s.net src (Function.update (s.net src) dst l) }

/-- The sender of the last message from `src` to `dst` is released when that message has been
received. -/
def release (s : State D α) (src dst : Nat) (last : Bool) : State D α :=
  if last = true ∧ (s.procs src).sending = some dst then
    s.setProc src { s.procs src with sending := none }
  else s

/-- Rank `r` goes on with `k` after it has received from `src` the message between `pre` and
`post`. -/
def received (s : State D α) (r src : Nat) (pre post : List (Nat × Msg D)) (k : Prog D α) :
    State D α :=
  ((s.setNet src r (pre ++ post)).release src r post.isEmpty).setProc r ⟨k, none⟩

end State

/-- `m` is the first message with this tag. -/
def First (l : List (Nat × Msg D)) (tag : Nat) (m : Msg D) (pre post : List (Nat × Msg D)) : Prop :=
  l = pre ++ (tag, m) :: post ∧ ∀ x ∈ pre, x.1 ≠ tag

/-- One step of `n` ranks. `buffered` says whether the library may let `MPI_Send` return before the
message is received. -/
inductive Step (buffered : Bool) (n : Nat) : State D α → State D α → Prop
  | send {s : State D α} {r dst tag : Nat} {m : Msg D} {k : Prog D α} : r < n →
      s.procs r = ⟨.send dst tag m k, none⟩ →
      Step buffered n s ((s.setProc r ⟨k, some dst⟩).setNet r dst (s.net r dst ++ [(tag, m)]))
  | buffer {s : State D α} {r dst : Nat} : buffered = true → r < n →
      (s.procs r).sending = some dst →
      Step buffered n s (s.setProc r { s.procs r with sending := none })
  | probe {s : State D α} {r src tag : Nat} {k : Nat → Prog D α} {m : Msg D}
      {pre post : List (Nat × Msg D)} : r < n → s.procs r = ⟨.probe src tag k, none⟩ → src < n →
      First (s.net src r) tag m pre post → Step buffered n s (s.setProc r ⟨k m.count, none⟩)
  | recv {s : State D α} {r src tag : Nat} {k : Msg D → Prog D α} {m : Msg D}
      {pre post : List (Nat × Msg D)} : r < n → s.procs r = ⟨.recv src tag k, none⟩ → src < n →
      First (s.net src r) tag m pre post → Step buffered n s (s.received r src pre post (k m))
  | recvAny {s : State D α} {r src tag : Nat} {k : Msg D → Prog D α} {m : Msg D}
      {pre post : List (Nat × Msg D)} : r < n → s.procs r = ⟨.recvAny tag k, none⟩ → src < n →
      First (s.net src r) tag m pre post → Step buffered n s (s.received r src pre post (k m))
  | barrier {s : State D α} {ks : Nat → Prog D α} :
      (∀ r < n, s.procs r = ⟨.barrier (ks r), none⟩) →
      Step buffered n s
        { s with procs := fun r => if r < n then ⟨ks r, none⟩ else s.procs r }

/-- An execution of a given number of steps. -/
inductive Exec (buffered : Bool) (n : Nat) : Nat → State D α → State D α → Prop
  | nil (s : State D α) : Exec buffered n 0 s s
  | snoc {i : Nat} {s t u : State D α} :
      Exec buffered n i s t → Step buffered n t u → Exec buffered n (i + 1) s u

/-- All ranks have ended normally, rank `r` with the result `out r`. -/
def Finished (n : Nat) (s : State D α) (out : Nat → α) : Prop :=
  ∀ r < n, s.procs r = ⟨.ret (.ok (out r)), none⟩

end QED.Mpi
