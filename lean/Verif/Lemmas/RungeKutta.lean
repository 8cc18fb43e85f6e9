import Verif.Spec.RungeKutta
import Mathlib.Analysis.Calculus.MeanValue
import Mathlib.Analysis.SpecialFunctions.Exp
import Mathlib.Analysis.Complex.Exponential
import Mathlib.Tactic.Linarith
import Mathlib.Tactic.Positivity
import Mathlib.Tactic.Module

set_option autoImplicit false

/-!
# Convergence of the Runge-Kutta method for a Lipschitz right-hand side
-/

namespace QED

variable {V : Type} [NormedAddCommGroup V] [NormedSpace ℝ V]

/-- Lipschitz in time and state together. -/
def LipschitzRHS (f : ℝ → V → V) (L : ℝ) : Prop := ∀ t s y z, ‖f t y - f s z‖ ≤ L * (|t - s| + ‖y - z‖)

theorem taylor_le_exp {a : ℝ} (h : 0 ≤ a) : 1 + a + a ^ 2 / 2 + a ^ 3 / 6 + a ^ 4 / 24 ≤ Real.exp a := by
  have := Real.sum_le_exp_of_nonneg h 5
  simp [Finset.sum_range_succ, Nat.factorial] at this
  linarith

/-- Two neighbouring starts stay close over a step. -/
theorem rk_stable {f : ℝ → V → V} {L : ℝ} (hL : 0 ≤ L) (hf : LipschitzRHS f L) {h : ℝ} (hh : 0 ≤ h) (t : ℝ)
    (y z : V) : ‖rungeKutta f h t y - rungeKutta f h t z‖ ≤ Real.exp (h * L) * ‖y - z‖ := by
  unfold rungeKutta
  dsimp only
  obtain ⟨k1, e1⟩ : ∃ k, k = f t y := ⟨_, rfl⟩
  obtain ⟨l1, g1⟩ : ∃ k, k = f t z := ⟨_, rfl⟩
  rw [← e1, ← g1]
  obtain ⟨k2, e2⟩ : ∃ k, k = f (t + h / 2) (y + (h / 2) • k1) := ⟨_, rfl⟩
  obtain ⟨l2, g2⟩ : ∃ k, k = f (t + h / 2) (z + (h / 2) • l1) := ⟨_, rfl⟩
  rw [← e2, ← g2]
  obtain ⟨k3, e3⟩ : ∃ k, k = f (t + h / 2) (y + (h / 2) • k2) := ⟨_, rfl⟩
  obtain ⟨l3, g3⟩ : ∃ k, k = f (t + h / 2) (z + (h / 2) • l2) := ⟨_, rfl⟩
  rw [← e3, ← g3]
  obtain ⟨k4, e4⟩ : ∃ k, k = f (t + h) (y + h • k3) := ⟨_, rfl⟩
  obtain ⟨l4, g4⟩ : ∃ k, k = f (t + h) (z + h • l3) := ⟨_, rfl⟩
  rw [← e4, ← g4]
  have d0 : 0 ≤ ‖y - z‖ := norm_nonneg _
  have stage : ∀ (s c : ℝ) (k l : V), 0 ≤ c →
      ‖f s (y + c • k) - f s (z + c • l)‖ ≤ L * (‖y - z‖ + c * ‖k - l‖) := by
    intro s c k l hc
    refine (hf s s _ _).trans ?_
    have : ‖y + c • k - (z + c • l)‖ ≤ ‖y - z‖ + c * ‖k - l‖ := by
      rw [show y + c • k - (z + c • l) = (y - z) + c • (k - l) by module]
      refine (norm_add_le _ _).trans ?_
      rw [norm_smul, Real.norm_eq_abs, abs_of_nonneg hc]
    rw [sub_self, abs_zero, zero_add]
    exact mul_le_mul_of_nonneg_left this hL
  have b1 : ‖k1 - l1‖ ≤ L * ‖y - z‖ := by
    rw [e1, g1]
    refine (hf t t y z).trans ?_
    rw [sub_self, abs_zero, zero_add]
  have b2 : ‖k2 - l2‖ ≤ L * (‖y - z‖ + h / 2 * ‖k1 - l1‖) := by
    rw [e2, g2]; exact stage _ _ _ _ (by positivity)
  have b3 : ‖k3 - l3‖ ≤ L * (‖y - z‖ + h / 2 * ‖k2 - l2‖) := by
    rw [e3, g3]; exact stage _ _ _ _ (by positivity)
  have b4 : ‖k4 - l4‖ ≤ L * (‖y - z‖ + h * ‖k3 - l3‖) := by
    rw [e4, g4]; exact stage _ _ _ _ hh
  clear e1 e2 e3 e4 g1 g2 g3 g4 stage
  have hsum : ‖(y + (h / 6) • (k1 + (2 : ℝ) • k2 + (2 : ℝ) • k3 + k4)) -
      (z + (h / 6) • (l1 + (2 : ℝ) • l2 + (2 : ℝ) • l3 + l4))‖ ≤
      ‖y - z‖ + h / 6 * (‖k1 - l1‖ + 2 * ‖k2 - l2‖ + 2 * ‖k3 - l3‖ + ‖k4 - l4‖) := by
    rw [show (y + (h / 6) • (k1 + (2 : ℝ) • k2 + (2 : ℝ) • k3 + k4)) -
      (z + (h / 6) • (l1 + (2 : ℝ) • l2 + (2 : ℝ) • l3 + l4)) =
      (y - z) + (h / 6) • ((k1 - l1) + (2 : ℝ) • (k2 - l2) + (2 : ℝ) • (k3 - l3) + (k4 - l4)) by module]
    refine (norm_add_le _ _).trans ?_
    rw [norm_smul, Real.norm_eq_abs, abs_of_nonneg (by positivity)]
    have n2 : ∀ v : V, ‖(2 : ℝ) • v‖ = 2 * ‖v‖ := fun v => by rw [norm_smul]; norm_num
    have := norm_add_le (k1 - l1 + (2 : ℝ) • (k2 - l2) + (2 : ℝ) • (k3 - l3)) (k4 - l4)
    have := norm_add_le (k1 - l1 + (2 : ℝ) • (k2 - l2)) ((2 : ℝ) • (k3 - l3))
    have := norm_add_le (k1 - l1) ((2 : ℝ) • (k2 - l2))
    rw [n2] at *
    gcongr
    linarith
  refine hsum.trans ?_
  generalize ‖k1 - l1‖ = x1 at *
  generalize ‖k2 - l2‖ = x2 at *
  generalize ‖k3 - l3‖ = x3 at *
  generalize ‖k4 - l4‖ = x4 at *
  generalize ‖y - z‖ = d at *
  have ha : 0 ≤ h * L := mul_nonneg hh hL
  have m1 : h * x1 ≤ h * L * d := by nlinarith
  have m2 : h * x2 ≤ h * L * (d + h * x1 / 2) := by nlinarith
  have m3 : h * x3 ≤ h * L * (d + h * x2 / 2) := by nlinarith
  have m4 : h * x4 ≤ h * L * (d + h * x3) := by nlinarith
  generalize h * L = a at *
  have r2 : h * x2 ≤ a * (d + a * d / 2) := m2.trans (by gcongr)
  have r3 : h * x3 ≤ a * (d + a * (d + a * d / 2) / 2) := m3.trans (by gcongr)
  have r4 : h * x4 ≤ a * (d + a * (d + a * (d + a * d / 2) / 2)) := m4.trans (by gcongr)
  have := mul_le_mul_of_nonneg_right (taylor_le_exp ha) d0
  nlinarith

/-- A step from a point of size-`M` slope is an Euler step up to second order. -/
theorem rk_euler {f : ℝ → V → V} {L : ℝ} (hL : 0 ≤ L) (hf : LipschitzRHS f L) {h : ℝ} (hh : 0 ≤ h) (t : ℝ)
    (y : V) {M : ℝ} (hM : ‖f t y‖ ≤ M) :
    ‖rungeKutta f h t y - (y + h • f t y)‖ ≤ L * (1 + M) * h ^ 2 / 2 * Real.exp (h * L) := by
  unfold rungeKutta
  dsimp only
  obtain ⟨k1, e1⟩ : ∃ k, k = f t y := ⟨_, rfl⟩
  rw [← e1] at hM ⊢
  obtain ⟨k2, e2⟩ : ∃ k, k = f (t + h / 2) (y + (h / 2) • k1) := ⟨_, rfl⟩
  rw [← e2]
  obtain ⟨k3, e3⟩ : ∃ k, k = f (t + h / 2) (y + (h / 2) • k2) := ⟨_, rfl⟩
  rw [← e3]
  obtain ⟨k4, e4⟩ : ∃ k, k = f (t + h) (y + h • k3) := ⟨_, rfl⟩
  rw [← e4]
  have stage : ∀ (c : ℝ) (k : V), 0 ≤ c → ‖f (t + c) (y + c • k) - k1‖ ≤ L * (c + c * ‖k‖) := by
    intro c k hc
    rw [e1]
    refine (hf _ _ _ _).trans ?_
    rw [add_sub_cancel_left, add_sub_cancel_left, norm_smul, Real.norm_eq_abs, abs_of_nonneg hc]
  have tri : ∀ k : V, ‖k‖ ≤ ‖k - k1‖ + M := by
    intro k
    have := norm_add_le (k - k1) k1
    rw [sub_add_cancel] at this
    linarith
  have b2 : ‖k2 - k1‖ ≤ L * (h / 2 + h / 2 * ‖k1‖) := by rw [e2]; exact stage _ _ (by positivity)
  have b3 : ‖k3 - k1‖ ≤ L * (h / 2 + h / 2 * ‖k2‖) := by rw [e3]; exact stage _ _ (by positivity)
  have b4 : ‖k4 - k1‖ ≤ L * (h + h * ‖k3‖) := by rw [e4]; exact stage _ _ hh
  have t2 := tri k2
  have t3 := tri k3
  clear e1 e2 e3 e4 stage tri
  have hsum : ‖(y + (h / 6) • (k1 + (2 : ℝ) • k2 + (2 : ℝ) • k3 + k4)) - (y + h • k1)‖ ≤
      h / 6 * (2 * ‖k2 - k1‖ + 2 * ‖k3 - k1‖ + ‖k4 - k1‖) := by
    rw [show (y + (h / 6) • (k1 + (2 : ℝ) • k2 + (2 : ℝ) • k3 + k4)) - (y + h • k1) =
      (h / 6) • ((2 : ℝ) • (k2 - k1) + (2 : ℝ) • (k3 - k1) + (k4 - k1)) by module]
    rw [norm_smul, Real.norm_eq_abs, abs_of_nonneg (by positivity)]
    have n2 : ∀ v : V, ‖(2 : ℝ) • v‖ = 2 * ‖v‖ := fun v => by rw [norm_smul]; norm_num
    have := norm_add_le ((2 : ℝ) • (k2 - k1) + (2 : ℝ) • (k3 - k1)) (k4 - k1)
    have := norm_add_le ((2 : ℝ) • (k2 - k1)) ((2 : ℝ) • (k3 - k1))
    rw [n2] at *
    gcongr
    linarith [n2 (k2 - k1), n2 (k3 - k1)]
  refine hsum.trans ?_
  have hM0 : 0 ≤ M := (norm_nonneg _).trans hM
  generalize ‖k2 - k1‖ = x2 at *
  generalize ‖k3 - k1‖ = x3 at *
  generalize ‖k4 - k1‖ = x4 at *
  generalize ‖k1‖ = n1 at *
  generalize ‖k2‖ = n2 at *
  generalize ‖k3‖ = n3 at *
  have ha : 0 ≤ h * L := mul_nonneg hh hL
  obtain ⟨a, hae⟩ : ∃ a, a = h * L := ⟨_, rfl⟩
  rw [← hae] at ha ⊢
  have w2 : x2 ≤ a / 2 * (1 + M) := by
    refine b2.trans ?_
    rw [show L * (h / 2 + h / 2 * n1) = a / 2 * (1 + n1) by rw [hae]; ring]
    gcongr
  have w3 : x3 ≤ a / 2 * (1 + (a / 2 * (1 + M) + M)) := by
    refine b3.trans ?_
    rw [show L * (h / 2 + h / 2 * n2) = a / 2 * (1 + n2) by rw [hae]; ring]
    gcongr
    linarith
  have w4 : x4 ≤ a * (1 + (a / 2 * (1 + (a / 2 * (1 + M) + M)) + M)) := by
    refine b4.trans ?_
    rw [show L * (h + h * n3) = a * (1 + n3) by rw [hae]; ring]
    gcongr
    linarith
  have he := taylor_le_exp ha
  have he' : 1 + a / 3 + a ^ 2 / 12 ≤ Real.exp a := by
    refine le_trans ?_ he
    have := pow_nonneg ha 2
    have := pow_nonneg ha 3
    have := pow_nonneg ha 4
    linarith
  calc h / 6 * (2 * x2 + 2 * x3 + x4)
      ≤ h / 6 * (2 * (a / 2 * (1 + M)) + 2 * (a / 2 * (1 + (a / 2 * (1 + M) + M))) +
          a * (1 + (a / 2 * (1 + (a / 2 * (1 + M) + M)) + M))) := by gcongr
    _ = h * (a / 2) * (1 + M) * (1 + a / 3 + a ^ 2 / 12) := by ring
    _ ≤ h * (a / 2) * (1 + M) * Real.exp a := by gcongr
    _ = L * (1 + M) * h ^ 2 / 2 * Real.exp a := by rw [hae]; ring

/-- The solution makes an Euler step up to second order. -/
theorem solution_euler {f : ℝ → V → V} {L : ℝ} (hL : 0 ≤ L) (hf : LipschitzRHS f L) {a b M : ℝ} {y : ℝ → V}
    (hy : ∀ s ∈ Set.Icc a b, HasDerivWithinAt y (f s (y s)) (Set.Icc a b) s)
    (hM : ∀ s ∈ Set.Icc a b, ‖f s (y s)‖ ≤ M) {t h : ℝ} (hh : 0 ≤ h) (h0 : a ≤ t) (h1 : t + h ≤ b) :
    ‖y (t + h) - (y t + h • f t (y t))‖ ≤ L * (1 + M) * h ^ 2 := by
  have hsub : Set.Icc t (t + h) ⊆ Set.Icc a b := Set.Icc_subset_Icc h0 h1
  have ht : t ∈ Set.Icc t (t + h) := ⟨le_rfl, by linarith⟩
  have hth : t + h ∈ Set.Icc t (t + h) := ⟨by linarith, le_rfl⟩
  have hM0 : 0 ≤ M := (norm_nonneg _).trans (hM t (hsub ht))
  have hlip : ∀ s ∈ Set.Icc t (t + h), ‖y s - y t‖ ≤ M * (s - t) := by
    intro s hs
    have := (convex_Icc t (t + h)).norm_image_sub_le_of_norm_hasDerivWithin_le
      (fun x hx => (hy x (hsub hx)).mono hsub) (fun x hx => hM x (hsub hx)) ht hs
    rwa [Real.norm_eq_abs, abs_of_nonneg (by linarith [hs.1])] at this
  have hg : ∀ s ∈ Set.Icc t (t + h), HasDerivWithinAt (fun s => y s - s • f t (y t))
      (f s (y s) - f t (y t)) (Set.Icc t (t + h)) s := by
    intro s hs
    have h2 := ((hasDerivAt_id s).smul_const (f t (y t))).hasDerivWithinAt (s := Set.Icc t (t + h))
    rw [one_smul] at h2
    exact ((hy s (hsub hs)).mono hsub).sub h2
  have hb : ∀ s ∈ Set.Icc t (t + h), ‖f s (y s) - f t (y t)‖ ≤ L * (1 + M) * h := by
    intro s hs
    refine (hf _ _ _ _).trans ?_
    have h3 := hlip s hs
    rw [abs_of_nonneg (by linarith [hs.1])]
    have h4 : s - t ≤ h := by linarith [hs.2]
    have h5 : M * (s - t) ≤ M * h := by gcongr
    calc L * (s - t + ‖y s - y t‖) ≤ L * (h + M * h) := by gcongr; linarith
      _ = L * (1 + M) * h := by ring
  have := (convex_Icc t (t + h)).norm_image_sub_le_of_norm_hasDerivWithin_le hg hb ht hth
  rw [add_sub_cancel_left, Real.norm_eq_abs, abs_of_nonneg hh] at this
  rw [show y (t + h) - (y t + h • f t (y t)) =
    y (t + h) - (t + h) • f t (y t) - (y t - t • f t (y t)) by module]
  calc _ ≤ L * (1 + M) * h * h := this
    _ = _ := by ring

/-- The error after `n` steps. -/
theorem rk_error {f : ℝ → V → V} {L : ℝ} (hL : 0 ≤ L) (hf : LipschitzRHS f L) {t T M : ℝ} {y : ℝ → V}
    (hy : ∀ s ∈ Set.Icc t (t + T), HasDerivWithinAt y (f s (y s)) (Set.Icc t (t + T)) s)
    (hM : ∀ s ∈ Set.Icc t (t + T), ‖f s (y s)‖ ≤ M) {h : ℝ} (hh : 0 ≤ h) (n : Nat) (hn : n * h ≤ T) :
    ‖rungeKuttaSteps f h t (y t) n - y (t + n * h)‖ ≤
      n * (L * (1 + M) * h ^ 2 * (1 + Real.exp (h * L) / 2)) * Real.exp (n * (h * L)) := by
  have hT : 0 ≤ T := le_trans (by positivity) hn
  have hM0 : 0 ≤ M := (norm_nonneg _).trans (hM t ⟨le_rfl, by linarith⟩)
  induction n with
  | zero => simp [rungeKuttaSteps]
  | succ n ih =>
    push_cast at hn ⊢
    have hn' : n * h ≤ T := by linarith
    have hnn : 0 ≤ n * h := by positivity
    have ih := ih hn'
    have hs : t + n * h ∈ Set.Icc t (t + T) := ⟨by linarith, by linarith⟩
    rw [rungeKuttaSteps]
    have a1 := rk_stable hL hf hh (t + n * h) (rungeKuttaSteps f h t (y t) n) (y (t + n * h))
    have a2 := rk_euler hL hf hh (t + n * h) (y (t + n * h)) (hM _ hs)
    have a3 := solution_euler hL hf hy hM hh (t := t + n * h) hs.1 (by linarith)
    rw [show t + n * h + h = t + (n + 1) * h by ring] at a3
    have tri : ‖rungeKutta f h (t + n * h) (rungeKuttaSteps f h t (y t) n) - y (t + (n + 1) * h)‖ ≤
        Real.exp (h * L) * ‖rungeKuttaSteps f h t (y t) n - y (t + n * h)‖ +
          L * (1 + M) * h ^ 2 / 2 * Real.exp (h * L) + L * (1 + M) * h ^ 2 := by
      rw [norm_sub_rev] at a3
      rw [show rungeKutta f h (t + n * h) (rungeKuttaSteps f h t (y t) n) - y (t + (n + 1) * h) =
        (rungeKutta f h (t + n * h) (rungeKuttaSteps f h t (y t) n) -
          rungeKutta f h (t + n * h) (y (t + n * h))) +
        (rungeKutta f h (t + n * h) (y (t + n * h)) -
          (y (t + n * h) + h • f (t + n * h) (y (t + n * h)))) +
        ((y (t + n * h) + h • f (t + n * h) (y (t + n * h))) - y (t + (n + 1) * h)) by abel]
      refine (norm_add_le _ _).trans (add_le_add ((norm_add_le _ _).trans (add_le_add a1 a2)) a3)
    refine tri.trans ?_
    have x1 : 1 ≤ Real.exp (h * L) := Real.one_le_exp (mul_nonneg hh hL)
    have x2 : 1 ≤ Real.exp (n * (h * L)) := Real.one_le_exp (by positivity)
    rw [show (n + 1 : ℝ) * (h * L) = h * L + n * (h * L) by ring, Real.exp_add]
    have c0 : 0 ≤ L * (1 + M) * h ^ 2 * (1 + Real.exp (h * L) / 2) := by positivity
    have e1 : L * (1 + M) * h ^ 2 / 2 * Real.exp (h * L) + L * (1 + M) * h ^ 2 =
        L * (1 + M) * h ^ 2 * (1 + Real.exp (h * L) / 2) := by ring
    have e2 := mul_le_mul_of_nonneg_left ih (Real.exp_nonneg (h * L))
    have e3 : L * (1 + M) * h ^ 2 * (1 + Real.exp (h * L) / 2) * 1 ≤
        L * (1 + M) * h ^ 2 * (1 + Real.exp (h * L) / 2) * (Real.exp (h * L) * Real.exp (n * (h * L))) :=
      mul_le_mul_of_nonneg_left (by nlinarith) c0
    nlinarith

/-- The error at the end of a run is at most proportional to the step. -/
theorem rk_converges {f : ℝ → V → V} {L : ℝ} (hL : 0 ≤ L) (hf : LipschitzRHS f L) {t T M : ℝ} {y : ℝ → V}
    (hy : ∀ s ∈ Set.Icc t (t + T), HasDerivWithinAt y (f s (y s)) (Set.Icc t (t + T)) s)
    (hM : ∀ s ∈ Set.Icc t (t + T), ‖f s (y s)‖ ≤ M) {h : ℝ} (hh : 0 ≤ h) (n : Nat) (hn : n * h ≤ T) :
    ‖rungeKuttaSteps f h t (y t) n - y (t + n * h)‖ ≤
      3 / 2 * L * (1 + M) * T * Real.exp (2 * L * T) * h := by
  have hT : 0 ≤ T := le_trans (by positivity) hn
  have hM0 : 0 ≤ M := (norm_nonneg _).trans (hM t ⟨le_rfl, by linarith⟩)
  rcases Nat.eq_zero_or_pos n with rfl | hpos
  · simp only [rungeKuttaSteps, Nat.cast_zero, zero_mul, add_zero, sub_self, norm_zero]
    positivity
  refine (rk_error hL hf hy hM hh n hn).trans ?_
  have hn1 : (1 : ℝ) ≤ n := by exact_mod_cast hpos
  have hhT : h ≤ T := by nlinarith
  have x1 : Real.exp (h * L) ≤ Real.exp (L * T) := Real.exp_le_exp.2 (by nlinarith)
  have x2 : Real.exp (n * (h * L)) ≤ Real.exp (L * T) := Real.exp_le_exp.2 (by nlinarith)
  have x3 : 1 ≤ Real.exp (L * T) := Real.one_le_exp (by positivity)
  calc n * (L * (1 + M) * h ^ 2 * (1 + Real.exp (h * L) / 2)) * Real.exp (n * (h * L))
      = (n * h) * (L * (1 + M)) * h * (1 + Real.exp (h * L) / 2) * Real.exp (n * (h * L)) := by ring
    _ ≤ T * (L * (1 + M)) * h * (Real.exp (L * T) + Real.exp (L * T) / 2) * Real.exp (L * T) := by gcongr
    _ = 3 / 2 * L * (1 + M) * T * (Real.exp (L * T) * Real.exp (L * T)) * h := by ring
    _ = _ := by rw [← Real.exp_add]; ring_nf

end QED
