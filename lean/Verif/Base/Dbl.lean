import Mathlib.Analysis.SpecialFunctions.Pow.Real
import Mathlib.Analysis.SpecialFunctions.Trigonometric.Arctan
import Mathlib.Analysis.SpecialFunctions.Log.Base

set_option autoImplicit false

/-!
# Scalars

`Dbl D` lists the operations that the C++ code performs on `double`. It has no
laws: a theorem proved for every `Dbl D` holds for IEEE doubles too.

Instances:
* `ℝ`: exact real arithmetic;
* `XR`: reals extended with `+inf`, `-inf` and `NaN`, following IEEE rules for
  the exceptional values, without rounding, overflow or signed zeros (`x / 0`
  has the sign of `x`).
-/

namespace QED

/-- The operations on `double` used by the C++ sources. Comparisons are
booleans, as in C++; `a > b` is modelled as `lt b a`. -/
class Dbl (D : Type) where
  lit : ℚ → D
  add : D → D → D
  sub : D → D → D
  mul : D → D → D
  div : D → D → D
  neg : D → D
  sqrt : D → D
  exp : D → D
  log : D → D
  log10 : D → D
  pow : D → D → D
  sin : D → D
  cos : D → D
  atan : D → D
  lt : D → D → Bool
  le : D → D → Bool
  eq : D → D → Bool

/-! OCaml style notation for the double operations. -/
scoped infixl:65 " +. " => Dbl.add
scoped infixl:65 " -. " => Dbl.sub
scoped infixl:70 " *. " => Dbl.mul
scoped infixl:70 " /. " => Dbl.div
scoped infix:50 " <. " => Dbl.lt
scoped infix:50 " <=. " => Dbl.le
scoped infix:50 " ==. " => Dbl.eq
scoped prefix:75 "-. " => Dbl.neg

/-! ## Real numbers -/

open Classical in
noncomputable instance instDblReal : Dbl ℝ where
  lit q := (q : ℝ)
  add a b := a + b
  sub a b := a - b
  mul a b := a * b
  div a b := a / b
  neg a := -a
  sqrt := Real.sqrt
  exp := Real.exp
  log := Real.log
  log10 x := Real.logb 10 x
  pow x y := x ^ y
  sin := Real.sin
  cos := Real.cos
  atan := Real.arctan
  lt a b := decide (a < b)
  le a b := decide (a ≤ b)
  eq a b := decide (a = b)

section real
variable (a b : ℝ)
@[simp] theorem real_lit (q : ℚ) : (Dbl.lit q : ℝ) = (q : ℝ) := rfl
@[simp] theorem real_add : a +. b = a + b := rfl
@[simp] theorem real_sub : a -. b = a - b := rfl
@[simp] theorem real_mul : a *. b = a * b := rfl
@[simp] theorem real_div : a /. b = a / b := rfl
@[simp] theorem real_neg : -. a = -a := rfl
@[simp] theorem real_sqrt : Dbl.sqrt a = Real.sqrt a := rfl
@[simp] theorem real_exp : Dbl.exp a = Real.exp a := rfl
@[simp] theorem real_log : Dbl.log a = Real.log a := rfl
@[simp] theorem real_log10 : Dbl.log10 a = Real.logb 10 a := rfl
@[simp] theorem real_pow : Dbl.pow a b = a ^ b := rfl
@[simp] theorem real_sin : Dbl.sin a = Real.sin a := rfl
@[simp] theorem real_cos : Dbl.cos a = Real.cos a := rfl
@[simp] theorem real_atan : Dbl.atan a = Real.arctan a := rfl
@[simp] theorem real_lt : (a <. b) = decide (a < b) := by simp [Dbl.lt]
@[simp] theorem real_le : (a <=. b) = decide (a ≤ b) := by simp [Dbl.le]
@[simp] theorem real_eq : (a ==. b) = decide (a = b) := by simp [Dbl.eq]
end real

/-! ## Extended reals with NaN -/

/-- Exact reals with the IEEE exceptional values. -/
inductive XR where
  | fin (r : ℝ)
  | pinf
  | ninf
  | nan

namespace XR

/-- Infinity with the sign of `x` (NaN for zero). -/
noncomputable def infSign (x : ℝ) : XR :=
  open Classical in if 0 < x then pinf else if x < 0 then ninf else nan

noncomputable def neg : XR → XR
  | fin a => fin (-a)
  | pinf => ninf
  | ninf => pinf
  | nan => nan

noncomputable def add : XR → XR → XR
  | fin a, fin b => fin (a + b)
  | nan, _ => nan
  | _, nan => nan
  | pinf, ninf => nan
  | ninf, pinf => nan
  | pinf, _ => pinf
  | _, pinf => pinf
  | ninf, _ => ninf
  | _, ninf => ninf

noncomputable def mul : XR → XR → XR
  | fin a, fin b => fin (a * b)
  | nan, _ => nan
  | _, nan => nan
  | fin a, pinf => infSign a
  | pinf, fin a => infSign a
  | fin a, ninf => infSign (-a)
  | ninf, fin a => infSign (-a)
  | pinf, pinf => pinf
  | pinf, ninf => ninf
  | ninf, pinf => ninf
  | ninf, ninf => pinf

/-- Zero is treated as `+0`. -/
noncomputable def div : XR → XR → XR
  | fin a, fin b => open Classical in if b = 0 then infSign a else fin (a / b)
  | nan, _ => nan
  | _, nan => nan
  | fin _, pinf => fin 0
  | fin _, ninf => fin 0
  | pinf, fin b => open Classical in if b < 0 then ninf else pinf
  | ninf, fin b => open Classical in if b < 0 then pinf else ninf
  | _, _ => nan

noncomputable def sqrt : XR → XR
  | fin a => open Classical in if a < 0 then nan else fin (Real.sqrt a)
  | pinf => pinf
  | _ => nan

noncomputable def exp : XR → XR
  | fin a => fin (Real.exp a)
  | pinf => pinf
  | ninf => fin 0
  | nan => nan

/-- Logarithm to base `b > 1`. -/
noncomputable def logBase (b : ℝ) : XR → XR
  | fin a => open Classical in
      if a < 0 then nan else if a = 0 then ninf else fin (Real.logb b a)
  | pinf => pinf
  | _ => nan

/-- `std::pow`. -/
noncomputable def pow : XR → XR → XR
  | fin a, fin b => open Classical in
      if 0 < a then fin (a ^ b)
      else if a = 0 then (if 0 < b then fin 0 else if b = 0 then fin 1 else pinf)
      else if ∃ n : ℤ, b = n then fin (a ^ b) else nan
  | fin a, pinf => open Classical in
      if 1 < |a| then pinf else if |a| < 1 then fin 0 else fin 1
  | fin a, ninf => open Classical in
      if 1 < |a| then fin 0 else if |a| < 1 then pinf else fin 1
  | fin a, nan => open Classical in if a = 1 then fin 1 else nan
  | pinf, fin b => open Classical in
      if 0 < b then pinf else if b = 0 then fin 1 else fin 0
  | pinf, pinf => pinf
  | pinf, ninf => fin 0
  | ninf, fin b => open Classical in
      if b = 0 then fin 1 else if b < 0 then fin 0
      else if ∃ n : ℤ, Odd n ∧ b = n then ninf else pinf
  | ninf, pinf => pinf
  | ninf, ninf => fin 0
  | nan, fin b => open Classical in if b = 0 then fin 1 else nan
  | _, nan => nan
  | nan, _ => nan

noncomputable def trig (f : ℝ → ℝ) : XR → XR
  | fin a => fin (f a)
  | _ => nan

noncomputable def atan : XR → XR
  | fin a => fin (Real.arctan a)
  | pinf => fin (Real.pi / 2)
  | ninf => fin (-(Real.pi / 2))
  | nan => nan

/-- IEEE `<`: false whenever an operand is NaN. -/
noncomputable def lt : XR → XR → Bool
  | fin a, fin b => open Classical in decide (a < b)
  | fin _, pinf => true
  | ninf, fin _ => true
  | ninf, pinf => true
  | _, _ => false

/-- IEEE `==`: false whenever an operand is NaN. -/
noncomputable def eq : XR → XR → Bool
  | fin a, fin b => open Classical in decide (a = b)
  | pinf, pinf => true
  | ninf, ninf => true
  | _, _ => false

end XR

noncomputable instance instDblXR : Dbl XR where
  lit q := .fin (q : ℝ)
  add := XR.add
  sub a b := XR.add a (XR.neg b)
  mul := XR.mul
  div := XR.div
  neg := XR.neg
  sqrt := XR.sqrt
  exp := XR.exp
  log := XR.logBase (Real.exp 1)
  log10 := XR.logBase 10
  pow := XR.pow
  sin := XR.trig Real.sin
  cos := XR.trig Real.cos
  atan := XR.atan
  lt := XR.lt
  le a b := XR.lt a b || XR.eq a b
  eq := XR.eq

namespace XR
variable (a b : ℝ) (x : XR)

@[simp] theorem lit_eq (q : ℚ) : (Dbl.lit q : XR) = fin (q : ℝ) := rfl
@[simp] theorem add_fin : fin a +. fin b = fin (a + b) := rfl
@[simp] theorem sub_fin : fin a -. fin b = fin (a - b) := by
  simp [Dbl.sub, neg, add, sub_eq_add_neg]
@[simp] theorem mul_fin : fin a *. fin b = fin (a * b) := rfl
@[simp] theorem neg_fin : -. fin a = fin (-a) := rfl
@[simp] theorem exp_fin : Dbl.exp (fin a) = fin (Real.exp a) := rfl
@[simp] theorem sin_fin : Dbl.sin (fin a) = fin (Real.sin a) := rfl
@[simp] theorem cos_fin : Dbl.cos (fin a) = fin (Real.cos a) := rfl
@[simp] theorem atan_fin : Dbl.atan (fin a) = fin (Real.arctan a) := rfl
@[simp] theorem lt_fin : (fin a <. fin b) = decide (a < b) := by simp [Dbl.lt, lt]
@[simp] theorem eq_fin : (fin a ==. fin b) = decide (a = b) := by simp [Dbl.eq, eq]
@[simp] theorem le_fin : (fin a <=. fin b) = decide (a ≤ b) := by
  simp only [Dbl.le, lt, eq]
  by_cases h : a ≤ b
  · rcases h.lt_or_eq with h' | h' <;> simp [h', h]
  · simp [h, not_lt.mpr (not_le.mp h).le, (not_le.mp h).ne']

theorem div_fin (hb : b ≠ 0) : fin a /. fin b = fin (a / b) := by simp [Dbl.div, div, hb]
theorem div_zero : fin a /. fin 0 = infSign a := by simp [Dbl.div, div]
theorem sqrt_fin (ha : 0 ≤ a) : Dbl.sqrt (fin a) = fin (Real.sqrt a) := by
  simp [Dbl.sqrt, sqrt, not_lt.mpr ha]
theorem sqrt_neg (ha : a < 0) : Dbl.sqrt (fin a) = nan := by simp [Dbl.sqrt, sqrt, ha]
theorem log10_fin (ha : 0 < a) : Dbl.log10 (fin a) = fin (Real.logb 10 a) := by
  simp [Dbl.log10, logBase, not_lt.mpr ha.le, ha.ne']
@[simp] theorem log10_zero : Dbl.log10 (fin 0) = ninf := by simp [Dbl.log10, logBase]
theorem pow_fin (ha : 0 < a) : Dbl.pow (fin a) (fin b) = fin (a ^ b) := by
  simp [Dbl.pow, pow, ha]

@[simp] theorem nan_add : nan +. x = nan := by cases x <;> rfl
@[simp] theorem add_nan : x +. nan = nan := by cases x <;> rfl
@[simp] theorem nan_sub : nan -. x = nan := by cases x <;> rfl
@[simp] theorem sub_nan : x -. nan = nan := by cases x <;> rfl
@[simp] theorem nan_mul : nan *. x = nan := by cases x <;> rfl
@[simp] theorem mul_nan : x *. nan = nan := by cases x <;> rfl
@[simp] theorem nan_div : nan /. x = nan := by cases x <;> rfl
@[simp] theorem div_nan : x /. nan = nan := by cases x <;> rfl
@[simp] theorem nan_lt : (nan <. x) = false := by cases x <;> rfl
@[simp] theorem lt_nan : (x <. nan) = false := by cases x <;> rfl
@[simp] theorem nan_le : (nan <=. x) = false := by cases x <;> rfl
@[simp] theorem le_nan : (x <=. nan) = false := by cases x <;> rfl

end XR

end QED
