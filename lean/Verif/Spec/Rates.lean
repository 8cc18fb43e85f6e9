import Verif.Spec.Motion
import Verif.Spec.Invariant
import Verif.Model.Units

set_option autoImplicit false

/-!
# Rates of emission and pair production

The rates of photon emission and of pair production as functions of time, place and momentum, from a table of
their logarithms that is read as a continuous curve of straight pieces.
-/

namespace QED

/-- The curve of straight pieces through the points of a table: from the first value on, every segment adds its
share. -/
noncomputable def polyline (s d : List ℝ) (q : ℝ) : ℝ :=
  d.getD 0 0 + ∑ i ∈ Finset.range (s.length - 1), (d.getD (i + 1) 0 - d.getD i 0) *
    ((max (s.getD i 0) (min q (s.getD (i + 1) 0)) - s.getD i 0) / (s.getD (i + 1) 0 - s.getD i 0))

/-- The Lorentz factor of a particle of mass `m`. -/
noncomputable def gammaOf (m : ℝ) (p : Fin 3 → ℝ) : ℝ := Real.sqrt (1 + (p 0 ^ 2 + p 1 ^ 2 + p 2 ^ 2) / m ^ 2)

/-- The quantum parameter of a lepton: that of its four-velocity in the field where it is. -/
noncomputable def etaOf (m : ℝ) (field : Field ℝ) (t : ℝ) (z : Phase) : ℝ :=
  quantumParameter (fieldTensor (V3.ofVec (electric field t z.1)) (V3.ofVec (magnetic field t z.1)))
    (fourVector (gammaOf m z.2) (V3.ofVec fun i => z.2 i / m))

/-- The rate at which a lepton emits, with `s` and `d` the table of the logarithm of `h`. -/
noncomputable def rateOfEmission (s d : List ℝ) (m : ℝ) (field : Field ℝ) (t : ℝ) (z : Phase) : ℝ :=
  √3 * Units.alpha * etaOf m field t z * (10 : ℝ) ^ polyline s d (Real.logb 10 (etaOf m field t z)) /
    (gammaOf m z.2 * 2 * Units.pi)

/-- The quantum parameter of a photon with momentum `p`. -/
noncomputable def chiOf (field : Field ℝ) (t : ℝ) (x p : Fin 3 → ℝ) : ℝ :=
  quantumParameter (fieldTensor (V3.ofVec (electric field t x)) (V3.ofVec (magnetic field t x)))
    (fourVector (Real.sqrt (p 0 ^ 2 + p 1 ^ 2 + p 2 ^ 2)) (V3.ofVec p)) / 2

/-- The rate at which a photon converts, with `s` and `d` the table of the logarithm of `T`. -/
noncomputable def pairRate (s d : List ℝ) (field : Field ℝ) (t : ℝ) (x p : Fin 3 → ℝ) : ℝ :=
  Units.alpha * chiOf field t x p * (10 : ℝ) ^ polyline s d (Real.logb 10 (chiOf field t x p)) /
    Real.sqrt (p 0 ^ 2 + p 1 ^ 2 + p 2 ^ 2)

end QED
