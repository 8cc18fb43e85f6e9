import Verif.Model.MCTools
import Verif.Model.Particle

set_option autoImplicit false

/-!
# Sharing out particles and random numbers

Used by C111: every particle and every random number carries a tag that says to which
family it belongs.
-/

namespace QED

/-- The entries of a list with tag `b`, in their order. -/
def select {τ α : Type} [DecidableEq τ] (b : τ) : List τ → List α → List α
  | c :: m, x :: xs => if c = b then x :: select b m xs else select b m xs
  | _, _ => []

/-- The next draws will be `ds`. -/
def MCTools.Rng.Begins {D : Type} (r : MCTools.Rng D) (ds : List D) : Prop :=
  ∀ i d, ds[i]? = some d → r.draw (r.pos + i) = d

/-- The generator after `n` draws. -/
def MCTools.Rng.skip {D : Type} (r : MCTools.Rng D) (n : Nat) : MCTools.Rng D :=
  { r with pos := r.pos + n }

/-- The particles with tag `b`, as a list of the same capacity. -/
def PList.family {τ D : Type} [DecidableEq τ] (b : τ) (m : List τ) (l : PList D) : PList D :=
  { l with items := select b m l.items }

end QED
