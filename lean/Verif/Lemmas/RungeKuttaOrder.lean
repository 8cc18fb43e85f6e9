import Verif.Lemmas.RungeKutta
import Mathlib.Analysis.Asymptotics.Lemmas
import Mathlib.Analysis.Calculus.ContDiff.RCLike
import Mathlib.Tactic.NormNum

set_option autoImplicit false
set_option linter.unusedSectionVars false

/-!
# The local error of the Runge-Kutta method is of fifth order

Quantities depend on an index `i`, a time and a step, and are compared with powers of the step `h i`.
-/

namespace QED

open Asymptotics Filter

section Orders

variable {V W I : Type} [NormedAddCommGroup V] [NormedSpace ℝ V] [NormedAddCommGroup W] [NormedSpace ℝ W]

/-- At most a constant times the `k`-th power of the step, for all indices in `S`. -/
def Order (S : Set I) (h : I → ℝ) (k : Nat) (u : I → V) : Prop := u =O[𝓟 S] fun i => h i ^ k

variable {S : Set I} {h : I → ℝ} {k : Nat} {u v : I → V}

theorem Order.of_le {C : ℝ} (hb : ∀ i ∈ S, ‖u i‖ ≤ C * |h i| ^ k) : Order S h k u := by
  refine isBigO_principal.2 ⟨C, fun i hi => ?_⟩
  rw [norm_pow, Real.norm_eq_abs]
  exact hb i hi

theorem Order.bound (hu : Order S h k u) : ∃ C, 0 ≤ C ∧ ∀ i ∈ S, ‖u i‖ ≤ C * |h i| ^ k := by
  obtain ⟨C, hC⟩ := isBigO_principal.1 hu
  refine ⟨|C|, abs_nonneg _, fun i hi => (hC i hi).trans ?_⟩
  rw [norm_pow, Real.norm_eq_abs]
  gcongr
  exact le_abs_self C

theorem Order.add (hu : Order S h k u) (hv : Order S h k v) : Order S h k fun i => u i + v i :=
  IsBigO.add hu hv

theorem Order.sub (hu : Order S h k u) (hv : Order S h k v) : Order S h k fun i => u i - v i :=
  IsBigO.sub hu hv

theorem Order.smul (c : ℝ) (hu : Order S h k u) : Order S h k fun i => c • u i :=
  IsBigO.const_smul_left hu c

theorem Order.step (j : Nat) (hu : Order S h k u) : Order S h (k + j) fun i => h i ^ j • u i := by
  have := (isBigO_refl (fun i => h i ^ j) (𝓟 S)).smul hu
  refine this.congr_right fun i => ?_
  rw [smul_eq_mul, ← pow_add, add_comm]

theorem Order.mono {j : Nat} (hjk : j ≤ k) (hh : ∀ i ∈ S, |h i| ≤ 1) (hu : Order S h k u) : Order S h j u := by
  obtain ⟨C, hC, hb⟩ := hu.bound
  refine Order.of_le (C := C) fun i hi => (hb i hi).trans ?_
  have := pow_le_pow_of_le_one (abs_nonneg _) (hh i hi) hjk
  gcongr

theorem Order.map {A : I → V →L[ℝ] W} {j : Nat} (hA : Order S h j A) (hu : Order S h k u) :
    Order S h (j + k) fun i => A i (u i) := by
  obtain ⟨C, hC, hb⟩ := hA.bound
  obtain ⟨D, hD, hc⟩ := hu.bound
  refine Order.of_le (C := C * D) fun i hi => ?_
  have h1 := hb i hi
  have h2 := hc i hi
  have h3 := (A i).le_opNorm (u i)
  have h4 : ‖A i‖ * ‖u i‖ ≤ (C * |h i| ^ j) * (D * |h i| ^ k) :=
    mul_le_mul h1 h2 (norm_nonneg _) (by positivity)
  rw [pow_add]
  linarith

theorem Order.map' {A : I → V →L[ℝ] W} (hA : Order S h 0 A) (hu : Order S h k u) :
    Order S h k fun i => A i (u i) := by
  have := hA.map hu
  rwa [zero_add] at this

theorem Order.congr (hu : Order S h k u) (he : ∀ i, u i = v i) : Order S h k v := by
  rwa [← funext he]

end Orders

section Local

variable {V I : Type} [NormedAddCommGroup V] [NormedSpace ℝ V]

/-- The right-hand side near the states of interest: `A` is its derivative in the state. -/
structure SmoothRHS (f : ℝ → V → V) (A : ℝ → V → V →L[ℝ] V) (L : ℝ) : Prop where
  lip : LipschitzRHS f L
  lin : ∀ t y z, ‖f t z - f t y - A t y (z - y)‖ ≤ L * ‖z - y‖ ^ 2
  bound : ∀ t y, ‖A t y‖ ≤ L
  move : ∀ t s y z, ‖A t y - A s z‖ ≤ L * (|t - s| + ‖y - z‖)

/-- One step of the method, from data that agree with a smooth curve through fourth order.
`y0` is the state and `Y1` to `Y4` its derivatives at time `t i`; `m`, `e` are the states at the middle and the
end and `fm`, `fe` their slopes. -/
theorem rk_order {f : ℝ → V → V} {A : ℝ → V → V →L[ℝ] V} {L : ℝ} (hf : SmoothRHS f A L) {S : Set I}
    {t h : I → ℝ} (hh : ∀ i ∈ S, |h i| ≤ 1) {y0 Y1 Y2 Y3 Y4 m e : I → V}
    (o1 : Order S h 0 Y1) (o2 : Order S h 0 Y2) (o3 : Order S h 0 Y3) (o4 : Order S h 0 Y4)
    (hY1 : ∀ i, f (t i) (y0 i) = Y1 i)
    (hm : Order S h 5 fun i => m i - (y0 i + (1 / 2 * h i) • Y1 i + (1 / 8 * h i ^ 2) • Y2 i +
      (1 / 48 * h i ^ 3) • Y3 i + (1 / 384 * h i ^ 4) • Y4 i))
    (hfm : Order S h 4 fun i => f (t i + h i / 2) (m i) - (Y1 i + (1 / 2 * h i) • Y2 i + (1 / 8 * h i ^ 2) • Y3 i +
      (1 / 48 * h i ^ 3) • Y4 i))
    (he : Order S h 5 fun i => e i - (y0 i + h i • Y1 i + (1 / 2 * h i ^ 2) • Y2 i +
      (1 / 6 * h i ^ 3) • Y3 i + (1 / 24 * h i ^ 4) • Y4 i))
    (hfe : Order S h 4 fun i => f (t i + h i) (e i) - (Y1 i + h i • Y2 i + (1 / 2 * h i ^ 2) • Y3 i +
      (1 / 6 * h i ^ 3) • Y4 i)) :
    Order S h 5 fun i => rungeKutta f (h i) (t i) (y0 i) - e i := by
  have lin : ∀ {s : I → ℝ} {y d : I → V}, Order S h 2 d →
      Order S h 4 fun i => f (s i) (y i + d i) - f (s i) (y i) - A (s i) (y i) (d i) := by
    intro s y d hd
    obtain ⟨C, hC, hb⟩ := hd.bound
    refine Order.of_le (C := |L| * C ^ 2) fun i hi => ?_
    have h1 := hf.lin (s i) (y i) (y i + d i)
    rw [add_sub_cancel_left] at h1
    have h2 := hb i hi
    have h3 : ‖d i‖ ^ 2 ≤ (C * |h i| ^ 2) ^ 2 := pow_le_pow_left₀ (norm_nonneg _) h2 2
    calc _ ≤ L * ‖d i‖ ^ 2 := h1
      _ ≤ |L| * (C * |h i| ^ 2) ^ 2 := by
        refine mul_le_mul (le_abs_self L) h3 (by positivity) (abs_nonneg _)
      _ = _ := by ring
  obtain ⟨B, hB⟩ : ∃ B : I → V →L[ℝ] V, B = fun i => A (t i + h i / 2) (m i) := ⟨_, rfl⟩
  have oB : Order S h 0 B := by
    refine Order.of_le (C := L) fun i _ => ?_
    rw [hB, pow_zero, mul_one]
    exact hf.bound _ _
  -- the second slope
  obtain ⟨k2, e2⟩ : ∃ k : I → V, k = fun i => f (t i + h i / 2) (y0 i + (h i / 2) • Y1 i) := ⟨_, rfl⟩
  have oBY2 : Order S h 0 fun i => B i (Y2 i) := oB.map' o2
  have oBY3 : Order S h 0 fun i => B i (Y3 i) := oB.map' o3
  have oBBY2 : Order S h 0 fun i => B i (B i (Y2 i)) := oB.map' oBY2
  have d2 : Order S h 4 fun i => (y0 i + (h i / 2) • Y1 i - m i) -
      ((-1 / 8 * h i ^ 2) • Y2 i + (-1 / 48 * h i ^ 3) • Y3 i) := by
    refine (((hm.mono (by norm_num) hh).smul (-1)).add ((o4.step 4).smul (-1 / 384))).congr fun i => ?_
    module
  have d2' : Order S h 2 fun i => y0 i + (h i / 2) • Y1 i - m i := by
    refine ((d2.mono (by norm_num) hh).add (((o2.step 2).smul (-1 / 8)).add
      (((o3.step 3).mono (by norm_num) hh).smul (-1 / 48)))).congr fun i => ?_
    module
  have s2 : Order S h 4 fun i => k2 i - f (t i + h i / 2) (m i) -
      ((-1 / 8 * h i ^ 2) • B i (Y2 i) + (-1 / 48 * h i ^ 3) • B i (Y3 i)) := by
    refine ((lin (s := fun i => t i + h i / 2) (y := m) d2').add (oB.map' d2)).congr fun i => ?_
    simp only [e2, hB, map_sub, map_add, map_smul, add_sub_cancel]
    module
  -- the third slope
  obtain ⟨k3, e3⟩ : ∃ k : I → V, k = fun i => f (t i + h i / 2) (y0 i + (h i / 2) • k2 i) := ⟨_, rfl⟩
  have d3 : Order S h 4 fun i => (y0 i + (h i / 2) • k2 i - m i) -
      ((1 / 8 * h i ^ 2) • Y2 i + (1 / 24 * h i ^ 3) • Y3 i + (-1 / 16 * h i ^ 3) • B i (Y2 i)) := by
    refine (((((s2.step 1).smul (1 / 2)).mono (by norm_num : 4 ≤ 5) hh).add
      (((hfm.step 1).smul (1 / 2)).mono (by norm_num : 4 ≤ 5) hh)).add
      ((((hm.mono (by norm_num : 4 ≤ 5) hh).smul (-1)).add ((o4.step 4).smul (1 / 128))).add
      ((oBY3.step 4).smul (-1 / 96)))).congr fun i => ?_
    module
  have d3' : Order S h 2 fun i => y0 i + (h i / 2) • k2 i - m i := by
    refine ((d3.mono (by norm_num) hh).add (((o2.step 2).smul (1 / 8)).add
      ((((o3.step 3).mono (by norm_num) hh).smul (1 / 24)).add
      (((oBY2.step 3).mono (by norm_num) hh).smul (-1 / 16))))).congr fun i => ?_
    module
  have s3 : Order S h 4 fun i => k3 i - f (t i + h i / 2) (m i) -
      ((1 / 8 * h i ^ 2) • B i (Y2 i) + (1 / 24 * h i ^ 3) • B i (Y3 i) + (-1 / 16 * h i ^ 3) • B i (B i (Y2 i))) := by
    refine ((lin (s := fun i => t i + h i / 2) (y := m) d3').add (oB.map' d3)).congr fun i => ?_
    simp only [e3, hB, map_sub, map_add, map_smul, add_sub_cancel]
    module
  -- the fourth slope
  obtain ⟨k4, e4⟩ : ∃ k : I → V, k = fun i => f (t i + h i) (y0 i + h i • k3 i) := ⟨_, rfl⟩
  have d4 : Order S h 4 fun i => (y0 i + h i • k3 i - e i) -
      ((-1 / 24 * h i ^ 3) • Y3 i + (1 / 8 * h i ^ 3) • B i (Y2 i)) := by
    refine ((((s3.step 1).mono (by norm_num : 4 ≤ 5) hh).add ((hfm.step 1).mono (by norm_num : 4 ≤ 5) hh)).add
      ((((he.mono (by norm_num : 4 ≤ 5) hh).smul (-1)).add ((o4.step 4).smul (-1 / 48))).add
      (((oBY3.step 4).smul (1 / 24)).add ((oBBY2.step 4).smul (-1 / 16))))).congr fun i => ?_
    module
  have oe : Order S h 3 fun i => (-1 / 24 * h i ^ 3) • Y3 i + (1 / 8 * h i ^ 3) • B i (Y2 i) := by
    refine (((o3.step 3).smul (-1 / 24)).add ((oBY2.step 3).smul (1 / 8))).congr fun i => ?_
    module
  have d4' : Order S h 3 fun i => y0 i + h i • k3 i - e i := by
    refine ((d4.mono (by norm_num) hh).add oe).congr fun i => ?_
    module
  have oE : Order S h 1 fun i => A (t i + h i) (e i) - B i := by
    have hem : Order S h 1 fun i => e i - m i := by
      refine (((he.mono (by norm_num : 1 ≤ 5) hh).sub (hm.mono (by norm_num : 1 ≤ 5) hh)).add
        (((o1.step 1).smul (1 / 2)).add ((((o2.step 2).mono (by norm_num) hh).smul (3 / 8)).add
        ((((o3.step 3).mono (by norm_num) hh).smul (7 / 48)).add
        (((o4.step 4).mono (by norm_num) hh).smul (5 / 128)))))).congr fun i => ?_
      module
    obtain ⟨C, hC, hb⟩ := hem.bound
    refine Order.of_le (C := |L| * (1 / 2 + C)) fun i hi => ?_
    have h1 := hf.move (t i + h i) (t i + h i / 2) (e i) (m i)
    have h2 := hb i hi
    rw [show t i + h i - (t i + h i / 2) = h i / 2 by ring, abs_div, abs_two] at h1
    rw [hB]
    rw [pow_one] at h2 ⊢
    have h3 : |h i| / 2 + ‖e i - m i‖ ≤ (1 / 2 + C) * |h i| := by linarith
    calc _ ≤ L * (|h i| / 2 + ‖e i - m i‖) := h1
      _ ≤ |L| * ((1 / 2 + C) * |h i|) := mul_le_mul (le_abs_self L) h3 (by positivity) (abs_nonneg _)
      _ = _ := by ring
  have s4 : Order S h 4 fun i => k4 i - f (t i + h i) (e i) -
      ((-1 / 24 * h i ^ 3) • B i (Y3 i) + (1 / 8 * h i ^ 3) • B i (B i (Y2 i))) := by
    have oA : Order S h 0 fun i => A (t i + h i) (e i) := by
      refine Order.of_le (C := L) fun i _ => ?_
      rw [pow_zero, mul_one]
      exact hf.bound _ _
    refine (((lin (s := fun i => t i + h i) (y := e) (d4'.mono (by norm_num) hh)).add (oA.map' d4)).add
      ((oE.map oe).mono (by norm_num) hh)).congr fun i => ?_
    simp only [e4, map_sub, map_add, map_smul, add_sub_cancel, sub_apply]
    module
  -- the sum
  refine ((((((s2.smul 2).add (s3.smul 2)).add s4).add ((hfm.smul 4).add hfe)).step 1).smul (1 / 6) |>.sub he).congr
    fun i => ?_
  have hr : rungeKutta f (h i) (t i) (y0 i) =
      y0 i + (h i / 6) • (Y1 i + (2 : ℝ) • k2 i + (2 : ℝ) • k3 i + k4 i) := by
    simp only [e4, e3, e2, ← hY1]
    rfl
  rw [hr]
  module

end Local

end QED
