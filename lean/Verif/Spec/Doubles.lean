import Verif.Base.F64

set_option autoImplicit false

/-! # Which bin a number belongs to when distances are rounded to doubles -/

namespace QED

/-- `x` lies strictly between the first and the last of the `n` bin centres `c`, and `i` is the one
of its two neighbouring centres with the smaller distance, distances being rounded to doubles; the
upper one if the rounded distances are equal. -/
def RoundedBin (c : Nat → ℝ) (n i : Nat) (x : ℝ) : Prop :=
  c 0 < x ∧ x < c (n - 1) ∧ ∃ k, k + 1 < n ∧ c k < x ∧ x ≤ c (k + 1) ∧
    (i = k ∧ F64.round (x - c k) < F64.round (c (k + 1) - x) ∨
      i = k + 1 ∧ F64.round (c (k + 1) - x) ≤ F64.round (x - c k))

/-- The double `a` is a finite number that belongs to bin `i`. -/
def FallsIn (c : Nat → ℝ) (n i : Nat) (a : F64) : Prop :=
  ∃ x, a.1 = .fin x ∧ RoundedBin c n i x

end QED
