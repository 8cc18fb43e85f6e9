import Mathlib.Data.List.Range

set_option autoImplicit false

/-!
# The events of the first thread

OpenMP leaves the schedule of `#pragma omp parallel for` without a `schedule` clause to the implementation. Usually every
thread gets one block of about the same size, and the first thread the first one.
-/

namespace QED

/-- The first of `threads` blocks of about the same size of `n` events: `n / threads` of them, rounded up. -/
def firstBlock (threads n : Nat) : List Nat := List.range ((n + (threads - 1)) / threads)

end QED
