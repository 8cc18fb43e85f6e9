import Verif.Base.F64
import Verif.Model.Fields
import Verif.Model.Particle
import Mathlib.Analysis.SpecialFunctions.Exp

set_option autoImplicit false

/-! # Doubles close to real numbers -/

namespace QED

/-- The double is a finite number within `e` of the real number `x`. -/
def Near (a : F64) (x e : ℝ) : Prop := ∃ v, a.1 = .fin v ∧ |v - x| ≤ e

/-- The coordinates of the vector of doubles are within `e` of those of the vector of reals. -/
def V3.Close (v : V3 F64) (w : V3 ℝ) (e : ℝ) : Prop := Near v.x w.x e ∧ Near v.y w.y e ∧ Near v.z w.z e

/-- No coordinate of the vector is larger than `F`. -/
def Bounded (w : V3 ℝ) (F : ℝ) : Prop := |w.x| ≤ F ∧ |w.y| ≤ F ∧ |w.z| ≤ F

/-- The Lorentz factor of a momentum (in units of `m c`). -/
noncomputable def gam (p : V3 ℝ) : ℝ := Real.sqrt (1 + (p.x ^ 2 + p.y ^ 2 + p.z ^ 2))

/-- The field as computed follows the field of real numbers at times and coordinates up to `X`: where these differ by
no more than `δ` the coordinates of the fields differ by no more than `κ`. -/
def Field.Follows (g' : Field F64) (g : Field ℝ) (X δ κ : ℝ) : Prop :=
  ∀ (t' : F64) (x' : V3 F64) (t : ℝ) (x : V3 ℝ), |t| ≤ X → Bounded x X → Near t' t δ → x'.Close x δ →
    (g' t' x').1.Close (g t x).1 κ ∧ (g' t' x').2.Close (g t x).2 κ

/-- The coordinates of the field change by no more than `Λ` per unit of length or time. -/
def Field.Slowly (g : Field ℝ) (Λ : ℝ) : Prop :=
  ∀ (s t d : ℝ) (x y : V3 ℝ), |s - t| ≤ d → Bounded (x.sub y) d →
    Bounded ((g s x).1.sub (g t y).1) (Λ * d) ∧ Bounded ((g s x).2.sub (g t y).2) (Λ * d)

/-- The entries of the matrix of doubles are these real numbers. -/
def M3.Same (m' : M3 F64) (m : M3 ℝ) : Prop :=
  (m'.m00.1 = .fin m.m00 ∧ m'.m01.1 = .fin m.m01 ∧ m'.m02.1 = .fin m.m02) ∧
  (m'.m10.1 = .fin m.m10 ∧ m'.m11.1 = .fin m.m11 ∧ m'.m12.1 = .fin m.m12) ∧
  m'.m20.1 = .fin m.m20 ∧ m'.m21.1 = .fin m.m21 ∧ m'.m22.1 = .fin m.m22

/-- No entry of the matrix is larger than one, as in a matrix of rotation. -/
def M3.Unit (m : M3 ℝ) : Prop :=
  (|m.m00| ≤ 1 ∧ |m.m01| ≤ 1 ∧ |m.m02| ≤ 1) ∧ (|m.m10| ≤ 1 ∧ |m.m11| ≤ 1 ∧ |m.m12| ≤ 1) ∧
  |m.m20| ≤ 1 ∧ |m.m21| ≤ 1 ∧ |m.m22| ≤ 1

/-- The plane wave of doubles and that of real numbers have the same parameters. -/
structure PlaneField.Same (f' : PlaneField F64) (f : PlaneField ℝ) : Prop where
  maxE : f'.maxE.1 = .fin f.maxE
  waveNum : f'.waveNum.1 = .fin f.waveNum
  polAngle : f'.polAngle.1 = .fin f.polAngle
  rotation : f'.rotation.Same f.rotation
  rotationInv : f'.rotationInv.Same f.rotationInv

/-- An electron or a positron as computed, next to one whose coordinates are real numbers: time and place differ by
no more than `e`, the momentum by no more than `f`. -/
structure Particle.Beside (p' : Particle F64) (p : Particle ℝ) (e f : ℝ) : Prop where
  alive : p'.isAlive = true ∧ p.isAlive = true
  mass : p'.mass = Dbl.lit 1 ∧ p.mass = 1
  charge : (p'.charge = Dbl.lit 1 ∧ p.charge = 1) ∨ (p'.charge = Dbl.lit (-1) ∧ p.charge = -1)
  time : Near p'.time p.time e
  place : p'.position.Close p.position e
  momentum : p'.momentum.Close p.momentum f

/-- Sizes for which no operation overflows or loses bits to underflow, and a step of time short enough for the field:
`F` bounds the coordinates of the field, `G` and `Γ` the Lorentz factor, `X` the coordinates and times. -/
structure Tame (F τ G Γ X : ℝ) : Prop where
  field : (1 / 2) ^ 190 ≤ F ∧ F ≤ 2 ^ 190
  step : (1 / 2) ^ 190 ≤ τ ∧ τ ≤ 2 ^ 190
  resolved : 16 * (F * τ) ≤ 1
  slow : 0 < G
  fast : Γ ≤ 2 ^ 189
  far : X ≤ 2 ^ 189

/-- What rounding adds to the error of the place in each step; `κ` is the error of the field. -/
noncomputable def errorPerStep (F τ G Γ X κ : ℝ) : ℝ :=
  10 * (1 / 2 ^ 53 * Γ + τ * κ) / F + 2 / 2 ^ 53 * X + 40 * (1 / 2 ^ 53 + τ * κ / G) * τ

/-- How far the rounding errors can have grown after `k` steps, when each adds `ε` and `L` is the rate at which
neighbouring trajectories part. -/
noncomputable def errorAfter (ε L τ : ℝ) (k : ℕ) : ℝ := k * Real.exp (k * (L * τ)) * ε

end QED
