set_option autoImplicit false

universe u v

/-!
# Outcomes of C++ computations

`Res α` is the result of running a piece of the C++ program. Besides a normal
value there are the three ways the code can end otherwise: `std::exit`, an
uncaught exception, and undefined behaviour. Undefined behaviour is a distinct
outcome and is never given a value.
-/

namespace QED

/-- Outcome of a C++ computation. -/
inductive Res (α : Type u) : Type u where
  /-- normal result -/
  | ok (a : α)
  /-- `exit(code)` / `std::exit(code)` -/
  | exit (code : Int)
  /-- an uncaught C++ exception -/
  | throw (what : String)
  /-- undefined behaviour -/
  | ub (what : String)
  deriving Repr, DecidableEq

namespace Res

variable {α β : Type u}

/-- Sequencing: anything but `ok` ends the computation. -/
def bind (x : Res α) (f : α → Res β) : Res β :=
  match x with
  | ok a => f a
  | exit c => exit c
  | throw w => throw w
  | ub w => ub w

instance : Monad Res where
  pure := Res.ok
  bind := Res.bind

@[simp] theorem pure_eq (a : α) : (pure a : Res α) = ok a := rfl
@[simp] theorem ok_bind (a : α) (f : α → Res β) : (ok a >>= f) = f a := rfl
@[simp] theorem exit_bind (c : Int) (f : α → Res β) : ((exit c : Res α) >>= f) = exit c := rfl
@[simp] theorem throw_bind (w : String) (f : α → Res β) :
    ((throw w : Res α) >>= f) = throw w := rfl
@[simp] theorem ub_bind (w : String) (f : α → Res β) : ((ub w : Res α) >>= f) = ub w := rfl

/-- The computation does not run into undefined behaviour. -/
def NoUB : Res α → Prop
  | ub _ => False
  | _ => True

@[simp] theorem noUB_ok (a : α) : NoUB (ok a) := trivial
@[simp] theorem noUB_exit (c : Int) : NoUB (exit c : Res α) := trivial
@[simp] theorem noUB_throw (w : String) : NoUB (throw w : Res α) := trivial
@[simp] theorem not_noUB_ub (w : String) : ¬ NoUB (ub w : Res α) := fun h => h

theorem NoUB.bind {x : Res α} {f : α → Res β} (hx : x.NoUB)
    (hf : ∀ a, x = ok a → (f a).NoUB) : (x >>= f).NoUB := by
  cases x with
  | ok a => exact hf a rfl
  | exit c => trivial
  | throw w => trivial
  | ub w => exact hx.elim

end Res

/-- A checked read `v[i]`: reading outside a vector or array is undefined
behaviour. -/
def rd {α : Type u} (xs : List α) (i : Nat) : Res α :=
  match xs[i]? with
  | some a => .ok a
  | none => .ub "out-of-bounds read"

theorem rd_ok {α : Type u} {xs : List α} {i : Nat} (h : i < xs.length) :
    rd xs i = .ok xs[i] := by
  simp [rd, h]

theorem rd_ub {α : Type u} {xs : List α} {i : Nat} (h : xs.length ≤ i) :
    rd xs i = .ub "out-of-bounds read" := by
  simp [rd, h]

theorem rd_eq_ok {α : Type u} {xs : List α} {i : Nat} {a : α} :
    rd xs i = .ok a ↔ xs[i]? = some a := by
  unfold rd; split <;> simp_all

end QED
