import Verif.Base.Dbl

set_option autoImplicit false

/-!
# Signs

What reversing the sign of a number does in an arithmetic. Real numbers, real numbers with infinities and
double precision all have these laws (`Lemmas/Signs.lean`); there is one zero.
-/

namespace QED

open Dbl

/-- What reversing the sign does in an arithmetic: it is exact. -/
class SignLaws (D : Type) [Dbl D] : Prop where
  neg_neg : ∀ a : D, -. (-. a) = a
  add_neg : ∀ a b : D, (-. a) +. (-. b) = -. (a +. b)
  sub_neg : ∀ a b : D, (-. a) -. (-. b) = -. (a -. b)
  neg_mul : ∀ a b : D, (-. a) *. b = -. (a *. b)
  mul_neg : ∀ a b : D, a *. (-. b) = -. (a *. b)
  neg_div : ∀ a b : D, (-. a) /. b = -. (a /. b)
  sq_neg : ∀ a : D, pow (-. a) (lit 2) = pow a (lit 2)
  neg_zero : -. (lit 0 : D) = lit 0

end QED
