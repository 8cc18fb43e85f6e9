import Verif.Lemmas.RungeKuttaOrder
import Mathlib.Geometry.Manifold.PartitionOfUnity
import Mathlib.Geometry.Manifold.ContMDiff.NormedSpace

set_option autoImplicit false

/-!
# The global error of the Runge-Kutta method is of fourth order
-/

namespace QED

open Set Filter Topology

section Curve

variable {V : Type} [NormedAddCommGroup V] [NormedSpace ℝ V]

/-- From a bound on the derivative of `u` by a power, a bound on `u` by the next power. -/
theorem power_step {u u' : ℝ → V} {a b t : ℝ} (ht : t ∈ Icc a b) (k : Nat) {M : ℝ} (hM : 0 ≤ M)
    (hu : ∀ s ∈ Icc a b, HasDerivWithinAt u (u' s) (Icc a b) s) (h0 : u t = 0)
    (hb : ∀ s ∈ Icc t b, ‖u' s‖ ≤ M * (s - t) ^ k) : ∀ s ∈ Icc t b, ‖u s‖ ≤ M * (s - t) ^ (k + 1) := by
  intro s hs
  have hsub : Icc t s ⊆ Icc a b := Icc_subset_Icc ht.1 hs.2
  have := (convex_Icc t s).norm_image_sub_le_of_norm_hasDerivWithin_le (f := u) (f' := u')
    (C := M * (s - t) ^ k)
    (fun x hx => (hu x (hsub hx)).mono hsub) (fun x hx => (hb x ⟨hx.1, hx.2.trans hs.2⟩).trans ?_)
    ⟨le_rfl, hs.1⟩ ⟨hs.1, le_rfl⟩
  · rw [h0, sub_zero, Real.norm_eq_abs, abs_of_nonneg (by linarith [hs.1])] at this
    rw [pow_succ]
    linarith
  · have h1 : x - t ≤ s - t := by linarith [hx.2]
    have h2 : 0 ≤ x - t := by linarith [hx.1]
    gcongr

theorem polyDeriv (c : V) (t s : ℝ) (k : Nat) (q : ℝ) (S : Set ℝ) :
    HasDerivWithinAt (fun s : ℝ => (q * (s - t) ^ (k + 1)) • c) ((q * (k + 1) * (s - t) ^ k) • c) S s := by
  have h1 : HasDerivAt (fun s : ℝ => q * (s - t) ^ (k + 1)) (q * (k + 1) * (s - t) ^ k) s := by
    have := ((((hasDerivAt_id s).sub_const t).pow (k + 1)).const_mul q)
    have e : q * (k + 1) * (s - t) ^ k = q * (((k + 1 : Nat) : ℝ) * (id s - t) ^ (k + 1 - 1) * 1) := by
      push_cast
      rw [id]
      ring
    rw [e]
    exact this
  exact (h1.smul_const c).hasDerivWithinAt

/-- Taylor's formula for a curve with five derivatives, and for its slope. -/
theorem taylor_curve {a b M : ℝ} {y y1 y2 y3 y4 y5 : ℝ → V} (hM : 0 ≤ M)
    (d1 : ∀ s ∈ Icc a b, HasDerivWithinAt y (y1 s) (Icc a b) s)
    (d2 : ∀ s ∈ Icc a b, HasDerivWithinAt y1 (y2 s) (Icc a b) s)
    (d3 : ∀ s ∈ Icc a b, HasDerivWithinAt y2 (y3 s) (Icc a b) s)
    (d4 : ∀ s ∈ Icc a b, HasDerivWithinAt y3 (y4 s) (Icc a b) s)
    (d5 : ∀ s ∈ Icc a b, HasDerivWithinAt y4 (y5 s) (Icc a b) s)
    (hb : ∀ s ∈ Icc a b, ‖y5 s‖ ≤ M) {t : ℝ} (ht : t ∈ Icc a b) : ∀ s ∈ Icc t b,
    ‖y s - (y t + (s - t) • y1 t + (1 / 2 * (s - t) ^ 2) • y2 t + (1 / 6 * (s - t) ^ 3) • y3 t +
      (1 / 24 * (s - t) ^ 4) • y4 t)‖ ≤ M * (s - t) ^ 5 ∧
    ‖y1 s - (y1 t + (s - t) • y2 t + (1 / 2 * (s - t) ^ 2) • y3 t + (1 / 6 * (s - t) ^ 3) • y4 t)‖ ≤
      M * (s - t) ^ 4 := by
  have c1 : ∀ (u : ℝ → V) (s : ℝ), HasDerivWithinAt (fun _ : ℝ => u t) 0 (Icc a b) s := fun u s =>
    hasDerivWithinAt_const _ _ _
  have r4 := power_step (u := fun s => y4 s - y4 t) (u' := y5) ht 0 hM
    (fun s hs => by
      have := (d5 s hs).fun_sub (c1 y4 s)
      rwa [sub_zero] at this) (sub_self _)
    (fun s hs => by simpa using hb s ⟨ht.1.trans hs.1, hs.2⟩)
  have r3 := power_step (u := fun s => y3 s - (y3 t + (1 * (s - t) ^ (0 + 1)) • y4 t)) (u' := fun s => y4 s - y4 t)
    ht 1 hM
    (fun s hs => by
      have := (d4 s hs).fun_sub ((c1 y3 s).fun_add (polyDeriv (y4 t) t s 0 1 (Icc a b)))
      simpa using this) (by simp) r4
  have r2 := power_step
    (u := fun s => y2 s - (y2 t + (1 * (s - t) ^ (0 + 1)) • y3 t + (1 / 2 * (s - t) ^ (1 + 1)) • y4 t))
    (u' := fun s => y3 s - (y3 t + (1 * (s - t) ^ (0 + 1)) • y4 t)) ht 2 hM
    (fun s hs => by
      have := (d3 s hs).fun_sub (((c1 y2 s).fun_add (polyDeriv (y3 t) t s 0 1 (Icc a b))).fun_add
        (polyDeriv (y4 t) t s 1 (1 / 2) (Icc a b)))
      convert this using 1
      norm_num) (by simp) r3
  have r1 := power_step
    (u := fun s => y1 s - (y1 t + (1 * (s - t) ^ (0 + 1)) • y2 t + (1 / 2 * (s - t) ^ (1 + 1)) • y3 t +
      (1 / 6 * (s - t) ^ (2 + 1)) • y4 t))
    (u' := fun s => y2 s - (y2 t + (1 * (s - t) ^ (0 + 1)) • y3 t + (1 / 2 * (s - t) ^ (1 + 1)) • y4 t)) ht 3 hM
    (fun s hs => by
      have := (d2 s hs).fun_sub ((((c1 y1 s).fun_add (polyDeriv (y2 t) t s 0 1 (Icc a b))).fun_add
        (polyDeriv (y3 t) t s 1 (1 / 2) (Icc a b))).fun_add (polyDeriv (y4 t) t s 2 (1 / 6) (Icc a b)))
      convert this using 1
      norm_num) (by simp) r2
  have r0 := power_step
    (u := fun s => y s - (y t + (1 * (s - t) ^ (0 + 1)) • y1 t + (1 / 2 * (s - t) ^ (1 + 1)) • y2 t +
      (1 / 6 * (s - t) ^ (2 + 1)) • y3 t + (1 / 24 * (s - t) ^ (3 + 1)) • y4 t))
    (u' := fun s => y1 s - (y1 t + (1 * (s - t) ^ (0 + 1)) • y2 t + (1 / 2 * (s - t) ^ (1 + 1)) • y3 t +
      (1 / 6 * (s - t) ^ (2 + 1)) • y4 t)) ht 4 hM
    (fun s hs => by
      have := (d1 s hs).fun_sub (((((c1 y s).fun_add (polyDeriv (y1 t) t s 0 1 (Icc a b))).fun_add
        (polyDeriv (y2 t) t s 1 (1 / 2) (Icc a b))).fun_add (polyDeriv (y3 t) t s 2 (1 / 6) (Icc a b))).fun_add
        (polyDeriv (y4 t) t s 3 (1 / 24) (Icc a b)))
      convert this using 1
      norm_num) (by simp) r1
  intro s hs
  refine ⟨?_, ?_⟩
  · have := r0 s hs
    simpa using this
  · have := r1 s hs
    simpa using this

end Curve

section Global

variable {V : Type} [NormedAddCommGroup V] [NormedSpace ℝ V]

/-- The derivative along the solutions of `y' = g t y`. -/
noncomputable def along (g u : ℝ × V → V) (z : ℝ × V) : V := fderiv ℝ u z (1, g z)

theorem along_contDiff {g u : ℝ × V → V} {n : Nat} (hg : ContDiff ℝ n g) (hu : ContDiff ℝ (n + 1) u) :
    ContDiff ℝ n (along g u) :=
  (hu.fderiv_right le_rfl).clm_apply (contDiff_const.prodMk hg)

theorem along_deriv {g u : ℝ × V → V} (hu : ContDiff ℝ 1 u) {y : ℝ → V} {S : Set ℝ} {s : ℝ}
    (hy : HasDerivWithinAt y (g (s, y s)) S s) :
    HasDerivWithinAt (fun s => u (s, y s)) (along g u (s, y s)) S s := by
  have h1 : HasDerivWithinAt (fun s : ℝ => (s, y s)) (1, g (s, y s)) S s := (hasDerivWithinAt_id s S).prodMk hy
  have h2 := (hu.differentiable one_ne_zero (s, y s)).hasFDerivAt
  exact h2.comp_hasDerivWithinAt s h1

/-- The local error along a solution is of fifth order. -/
theorem rk_local {g : ℝ × V → V} (hg : ContDiff ℝ 4 g) {A : ℝ → V → V →L[ℝ] V} {L : ℝ}
    (hs : SmoothRHS (fun t y => g (t, y)) A L) {a b : ℝ} {y : ℝ → V}
    (hy : ∀ s ∈ Icc a b, HasDerivWithinAt y (g (s, y s)) (Icc a b) s) :
    ∃ C, 0 ≤ C ∧ ∀ t h, a ≤ t → 0 ≤ h → h ≤ 1 → t + h ≤ b →
      ‖rungeKutta (fun t y => g (t, y)) h t (y t) - y (t + h)‖ ≤ C * h ^ 5 := by
  have hyc : ContinuousOn y (Icc a b) := fun s hs => (hy s hs).continuousWithinAt
  have hg3 : ContDiff ℝ (3 : Nat) (along g g) := along_contDiff (hg.of_le (by norm_cast)) hg
  have hg2 : ContDiff ℝ (2 : Nat) (along g (along g g)) := along_contDiff (hg.of_le (by norm_cast)) hg3
  have hg1 : ContDiff ℝ (1 : Nat) (along g (along g (along g g))) := along_contDiff (hg.of_le (by norm_cast)) hg2
  have hg0 : ContDiff ℝ (0 : Nat) (along g (along g (along g (along g g)))) :=
    along_contDiff (hg.of_le (by norm_cast)) hg1
  have bnd : ∀ u : ℝ × V → V, Continuous u → ∃ M, 0 ≤ M ∧ ∀ s ∈ Icc a b, ‖u (s, y s)‖ ≤ M := by
    intro u hu
    obtain ⟨M, hM⟩ := isCompact_Icc.exists_bound_of_continuousOn
      (hu.comp_continuousOn (continuousOn_id.prodMk hyc))
    exact ⟨max M 0, le_max_right _ _, fun s hs => (hM s hs).trans (le_max_left _ _)⟩
  obtain ⟨M1, p1, b1⟩ := bnd _ hg.continuous
  obtain ⟨M2, p2, b2⟩ := bnd _ hg3.continuous
  obtain ⟨M3, p3, b3⟩ := bnd _ hg2.continuous
  obtain ⟨M4, p4, b4⟩ := bnd _ hg1.continuous
  obtain ⟨M5, p5, b5⟩ := bnd _ hg0.continuous
  have tay := fun (t : ℝ) (ht : t ∈ Icc a b) => taylor_curve p5 hy
    (fun s hs => along_deriv (hg.of_le (by norm_cast)) (hy s hs))
    (fun s hs => along_deriv (hg3.of_le (by norm_cast)) (hy s hs))
    (fun s hs => along_deriv (hg2.of_le (by norm_cast)) (hy s hs))
    (fun s hs => along_deriv (hg1.of_le (by norm_cast)) (hy s hs)) b5 ht
  obtain ⟨S, hS⟩ : ∃ S : Set (ℝ × ℝ), S = {i | a ≤ i.1 ∧ 0 ≤ i.2 ∧ i.2 ≤ 1 ∧ i.1 + i.2 ≤ b} := ⟨_, rfl⟩
  have mem : ∀ i ∈ S, i.1 ∈ Icc a b ∧ |i.2| = i.2 ∧ i.1 + i.2 / 2 ∈ Icc i.1 b ∧ i.1 + i.2 ∈ Icc i.1 b := by
    intro i hi
    rw [hS] at hi
    obtain ⟨h1, h2, h3, h4⟩ := hi
    exact ⟨⟨h1, by linarith⟩, abs_of_nonneg h2, ⟨by linarith, by linarith⟩, by linarith, h4⟩
  have bd : ∀ (u : ℝ × V → V) (M : ℝ), (∀ s ∈ Icc a b, ‖u (s, y s)‖ ≤ M) →
      Order S Prod.snd 0 fun i => u (i.1, y i.1) := by
    intro u M hb
    refine Order.of_le (C := M) fun i hi => ?_
    rw [pow_zero, mul_one]
    exact hb _ (mem i hi).1
  have key := rk_order (I := ℝ × ℝ) hs (S := S) (t := Prod.fst) (h := Prod.snd)
    (fun i hi => by
      rw [(mem i hi).2.1]
      rw [hS] at hi
      exact hi.2.2.1)
    (y0 := fun i => y i.1) (Y1 := fun i => g (i.1, y i.1)) (m := fun i => y (i.1 + i.2 / 2))
    (e := fun i => y (i.1 + i.2))
    (bd _ _ b1) (bd _ _ b2) (bd _ _ b3) (bd _ _ b4) (fun i => rfl)
    (Order.of_le (C := M5) fun i hi => by
      obtain ⟨m1, m2, m3, m4⟩ := mem i hi
      have := (tay i.1 m1 _ m3).1
      rw [add_sub_cancel_left] at this
      rw [m2]
      have e5 : M5 * (i.2 / 2) ^ 5 ≤ M5 * i.2 ^ 5 := by
        have : 0 ≤ i.2 := m2 ▸ abs_nonneg _
        gcongr
        linarith
      refine le_trans (le_of_eq ?_) (this.trans e5)
      congr 1
      module)
    (Order.of_le (C := M5) fun i hi => by
      obtain ⟨m1, m2, m3, m4⟩ := mem i hi
      have := (tay i.1 m1 _ m3).2
      rw [add_sub_cancel_left] at this
      rw [m2]
      have e5 : M5 * (i.2 / 2) ^ 4 ≤ M5 * i.2 ^ 4 := by
        have : 0 ≤ i.2 := m2 ▸ abs_nonneg _
        gcongr
        linarith
      refine le_trans (le_of_eq ?_) (this.trans e5)
      congr 1
      module)
    (Order.of_le (C := M5) fun i hi => by
      obtain ⟨m1, m2, m3, m4⟩ := mem i hi
      have := (tay i.1 m1 _ m4).1
      rw [add_sub_cancel_left] at this
      rw [m2]
      exact this)
    (Order.of_le (C := M5) fun i hi => by
      obtain ⟨m1, m2, m3, m4⟩ := mem i hi
      have := (tay i.1 m1 _ m4).2
      rw [add_sub_cancel_left] at this
      rw [m2]
      exact this)
  obtain ⟨C, hC, hb⟩ := key.bound
  refine ⟨C, hC, fun t h h1 h2 h3 h4 => ?_⟩
  have := hb (t, h) (by rw [hS]; exact ⟨h1, h2, h3, h4⟩)
  rwa [abs_of_nonneg h2] at this

/-- From a local error of fifth order to a global error of fourth order. -/
theorem rk_global {f : ℝ → V → V} {L : ℝ} (hL : 0 ≤ L) (hf : LipschitzRHS f L) {a T C : ℝ} (hC : 0 ≤ C) {y : ℝ → V}
    {h : ℝ} (hh : 0 ≤ h) (hloc : ∀ t, a ≤ t → t + h ≤ a + T → ‖rungeKutta f h t (y t) - y (t + h)‖ ≤ C * h ^ 5)
    (n : Nat) (hn : n * h ≤ T) :
    ‖rungeKuttaSteps f h a (y a) n - y (a + n * h)‖ ≤ n * (C * h ^ 5) * Real.exp (n * (h * L)) := by
  induction n with
  | zero => simp [rungeKuttaSteps]
  | succ n ih =>
    push_cast at hn ⊢
    have hnn : 0 ≤ n * h := by positivity
    have ih := ih (by linarith)
    rw [rungeKuttaSteps]
    have a1 := rk_stable hL hf hh (a + n * h) (rungeKuttaSteps f h a (y a) n) (y (a + n * h))
    have a2 := hloc (a + n * h) (by linarith) (by linarith)
    rw [show a + n * h + h = a + (n + 1) * h by ring] at a2
    have tri := norm_add_le (rungeKutta f h (a + n * h) (rungeKuttaSteps f h a (y a) n) -
      rungeKutta f h (a + n * h) (y (a + n * h))) (rungeKutta f h (a + n * h) (y (a + n * h)) - y (a + (n + 1) * h))
    rw [sub_add_sub_cancel] at tri
    have x1 : 1 ≤ Real.exp (h * L) := Real.one_le_exp (mul_nonneg hh hL)
    have x2 : 1 ≤ Real.exp (n * (h * L)) := Real.one_le_exp (by positivity)
    rw [show (n + 1 : ℝ) * (h * L) = h * L + n * (h * L) by ring, Real.exp_add]
    have e2 := mul_le_mul_of_nonneg_left ih (Real.exp_nonneg (h * L))
    have c0 : 0 ≤ C * h ^ 5 := by positivity
    have e3 : C * h ^ 5 * 1 ≤ C * h ^ 5 * (Real.exp (h * L) * Real.exp (n * (h * L))) :=
      mul_le_mul_of_nonneg_left (by nlinarith) c0
    nlinarith

/-- A smooth right-hand side of compact support meets the bounds of `SmoothRHS`. -/
theorem smoothRHS_of_compact {g : ℝ × V → V} (hg : ContDiff ℝ 2 g) (hc : HasCompactSupport g) :
    ∃ A L, 0 ≤ L ∧ SmoothRHS (fun t y => g (t, y)) A L := by
  have hg1 : ContDiff ℝ 1 (fderiv ℝ g) := hg.fderiv_right (by norm_num)
  obtain ⟨C0, h0⟩ := hg.lipschitzWith_of_hasCompactSupport hc (by norm_num)
  obtain ⟨C1, h1⟩ := hg1.lipschitzWith_of_hasCompactSupport (hc.fderiv ℝ) one_ne_zero
  have hbase : ∀ (t s : ℝ) (y z : V), ‖((t, y) : ℝ × V) - (s, z)‖ ≤ |t - s| + ‖y - z‖ := by
    intro t s y z
    rw [Prod.mk_sub_mk, Prod.norm_mk, Real.norm_eq_abs]
    exact max_le_add_of_nonneg (abs_nonneg _) (norm_nonneg _)
  have hinr : ‖ContinuousLinearMap.inr ℝ ℝ V‖ ≤ 1 := by
    refine ContinuousLinearMap.opNorm_le_bound _ zero_le_one fun v => ?_
    rw [ContinuousLinearMap.inr_apply, Prod.norm_mk, norm_zero, one_mul, max_eq_right (norm_nonneg _)]
  refine ⟨fun t y => (fderiv ℝ g (t, y)).comp (ContinuousLinearMap.inr ℝ ℝ V), C0 + C1, by positivity, ?_, ?_, ?_, ?_⟩
  · intro t s y z
    refine (h0.norm_sub_le _ _).trans ?_
    have := hbase t s y z
    have p := norm_nonneg (((t, y) : ℝ × V) - (s, z))
    have q : 0 ≤ |t - s| + ‖y - z‖ := by positivity
    have c1 : (0 : ℝ) ≤ C1 := C1.2
    have c0 : (0 : ℝ) ≤ C0 := C0.2
    calc (C0 : ℝ) * _ ≤ C0 * (|t - s| + ‖y - z‖) := by gcongr
      _ ≤ _ := by nlinarith
  · intro t y z
    have hd : ∀ x ∈ segment ℝ y z, HasFDerivWithinAt (fun y => g (t, y))
        ((fderiv ℝ g (t, x)).comp (ContinuousLinearMap.inr ℝ ℝ V)) (segment ℝ y z) x := by
      intro x _
      have e1 := (hg.differentiable (by norm_num) (t, x)).hasFDerivAt
      have e2 : HasFDerivAt (fun y : V => ((t, y) : ℝ × V)) (ContinuousLinearMap.inr ℝ ℝ V) x :=
        hasFDerivAt_prodMk_right t x
      exact (e1.comp x e2).hasFDerivWithinAt
    have hb : ∀ x ∈ segment ℝ y z, ‖(fderiv ℝ g (t, x)).comp (ContinuousLinearMap.inr ℝ ℝ V) -
        (fderiv ℝ g (t, y)).comp (ContinuousLinearMap.inr ℝ ℝ V)‖ ≤ C1 * ‖z - y‖ := by
      intro x hx
      rw [← ContinuousLinearMap.sub_comp]
      refine (ContinuousLinearMap.opNorm_comp_le _ _).trans ?_
      have e1 := h1.norm_sub_le (t, x) (t, y)
      have e2 : ‖((t, x) : ℝ × V) - (t, y)‖ ≤ ‖z - y‖ := by
        rw [Prod.mk_sub_mk, sub_self, Prod.norm_mk, norm_zero, max_eq_right (norm_nonneg _)]
        exact norm_sub_le_of_mem_segment hx
      have c1 : (0 : ℝ) ≤ C1 := C1.2
      calc _ ≤ ‖fderiv ℝ g (t, x) - fderiv ℝ g (t, y)‖ * 1 :=
            mul_le_mul_of_nonneg_left hinr (norm_nonneg _)
        _ = ‖fderiv ℝ g (t, x) - fderiv ℝ g (t, y)‖ := mul_one _
        _ ≤ C1 * ‖((t, x) : ℝ × V) - (t, y)‖ := e1
        _ ≤ _ := by gcongr
    have := (convex_segment y z).norm_image_sub_le_of_norm_hasFDerivWithin_le' hd hb
      (left_mem_segment ℝ y z) (right_mem_segment ℝ y z)
    refine this.trans ?_
    have c0 : (0 : ℝ) ≤ C0 := C0.2
    have p := norm_nonneg (z - y)
    nlinarith [mul_nonneg c0 (mul_nonneg p p)]
  · intro t y
    refine (ContinuousLinearMap.opNorm_comp_le _ _).trans ?_
    have e1 : ‖fderiv ℝ g (t, y)‖ ≤ C0 := norm_fderiv_le_of_lipschitz ℝ h0
    have c1 : (0 : ℝ) ≤ C1 := C1.2
    calc _ ≤ ‖fderiv ℝ g (t, y)‖ * 1 := mul_le_mul_of_nonneg_left hinr (norm_nonneg _)
      _ ≤ _ := by linarith
  · intro t s y z
    rw [← ContinuousLinearMap.sub_comp]
    refine (ContinuousLinearMap.opNorm_comp_le _ _).trans ?_
    have e1 := h1.norm_sub_le (t, y) (s, z)
    have := hbase t s y z
    have q : 0 ≤ |t - s| + ‖y - z‖ := by positivity
    have c1 : (0 : ℝ) ≤ C1 := C1.2
    have c0 : (0 : ℝ) ≤ C0 := C0.2
    calc _ ≤ ‖fderiv ℝ g (t, y) - fderiv ℝ g (s, z)‖ * 1 := mul_le_mul_of_nonneg_left hinr (norm_nonneg _)
      _ = ‖fderiv ℝ g (t, y) - fderiv ℝ g (s, z)‖ := mul_one _
      _ ≤ C1 * ‖((t, y) : ℝ × V) - (s, z)‖ := e1
      _ ≤ C1 * (|t - s| + ‖y - z‖) := by gcongr
      _ ≤ _ := by nlinarith

/-- A step whose stages stay where two right-hand sides agree. -/
theorem rk_congr {f g : ℝ → V → V} {P : ℝ → V → Prop} (hfg : ∀ t y, P t y → f t y = g t y) {h t : ℝ} {z : V} {G : ℝ}
    (hG : ∀ t y, ‖g t y‖ ≤ G) (hP : ∀ c k, 0 ≤ c → c ≤ h → ‖k‖ ≤ G → P (t + c) (z + c • k)) (hh : 0 ≤ h) :
    rungeKutta f h t z = rungeKutta g h t z := by
  have hG0 : 0 ≤ G := (norm_nonneg _).trans (hG 0 0)
  have k1 : f t z = g t z := hfg _ _ (by simpa using hP 0 0 le_rfl hh (by simpa using hG0))
  have k2 : f (t + h / 2) (z + (h / 2) • g t z) = g (t + h / 2) (z + (h / 2) • g t z) :=
    hfg _ _ (hP _ _ (by linarith) (by linarith) (hG _ _))
  have k3 : f (t + h / 2) (z + (h / 2) • g (t + h / 2) (z + (h / 2) • g t z)) =
      g (t + h / 2) (z + (h / 2) • g (t + h / 2) (z + (h / 2) • g t z)) :=
    hfg _ _ (hP _ _ (by linarith) (by linarith) (hG _ _))
  have k4 := hfg _ _ (hP h (g (t + h / 2) (z + (h / 2) • g (t + h / 2) (z + (h / 2) • g t z))) hh le_rfl (hG _ _))
  unfold rungeKutta
  dsimp only
  rw [k1, k2, k3, k4]

/-- The method is of fourth order along a solution near which the right-hand side has four continuous
derivatives. -/
theorem rk_fourth [FiniteDimensional ℝ V] {f : ℝ → V → V} {U : Set (ℝ × V)} (hU : IsOpen U)
    (hf : ContDiffOn ℝ 4 (fun z : ℝ × V => f z.1 z.2) U) {a T : ℝ} {y : ℝ → V}
    (hy : ∀ s ∈ Icc a (a + T), HasDerivWithinAt y (f s (y s)) (Icc a (a + T)) s)
    (hmem : ∀ s ∈ Icc a (a + T), (s, y s) ∈ U) :
    ∃ C δ, 0 < δ ∧ ∀ h, 0 ≤ h → h ≤ δ → ∀ n : Nat, n * h ≤ T →
      ‖rungeKuttaSteps f h a (y a) n - y (a + n * h)‖ ≤ C * h ^ 4 := by
  rcases lt_or_ge T 0 with hT | hT
  · refine ⟨0, 1, one_pos, fun h hh _ n hn => ?_⟩
    have : 0 ≤ n * h := by positivity
    linarith
  have hyc : ContinuousOn y (Icc a (a + T)) := fun s hs => (hy s hs).continuousWithinAt
  obtain ⟨Γ, hΓ⟩ : ∃ Γ : Set (ℝ × V), Γ = (fun s => (s, y s)) '' Icc a (a + T) := ⟨_, rfl⟩
  have cΓ : IsCompact Γ := by
    rw [hΓ]
    exact isCompact_Icc.image_of_continuousOn (continuousOn_id.prodMk hyc)
  have sΓ : Γ ⊆ U := by
    rw [hΓ]
    rintro _ ⟨s, hs, rfl⟩
    exact hmem s hs
  obtain ⟨K, cK, hΓK, hKU⟩ := exists_compact_between cΓ hU sΓ
  obtain ⟨χ, h1, h0, -⟩ := exists_contMDiffMap_one_nhds_of_subset_interior (n := 4)
    (modelWithCornersSelf ℝ (ℝ × V)) cΓ.isClosed hΓK
  have cχ : ContDiff ℝ 4 χ := χ.contMDiff.contDiff
  have supp : tsupport (χ : ℝ × V → ℝ) ⊆ K := by
    refine closure_minimal (fun x hx => ?_) cK.isClosed
    by_contra hxK
    exact hx (h0 x hxK)
  obtain ⟨g, hgdef⟩ : ∃ g : ℝ × V → V, g = fun z => χ z • f z.1 z.2 := ⟨_, rfl⟩
  have hsuppg : tsupport g ⊆ K := by
    refine (closure_mono fun x hx => ?_).trans supp
    intro hx0
    apply hx
    rw [hgdef]
    simp [hx0]
  have hg : ContDiff ℝ 4 g := by
    refine contDiff_iff_contDiffAt.2 fun x => ?_
    by_cases hx : x ∈ tsupport g
    swap
    · exact contDiffAt_const.congr_of_eventuallyEq (notMem_tsupport_iff_eventuallyEq.1 hx)
    have hxU := hKU (hsuppg hx)
    rw [hgdef]
    exact cχ.contDiffAt.smul (hf.contDiffAt (hU.mem_nhds hxU))
  have hgc : HasCompactSupport g := cK.of_isClosed_subset (isClosed_tsupport g) hsuppg
  obtain ⟨A, L, hL, hs⟩ := smoothRHS_of_compact (hg.of_le (by norm_cast)) hgc
  -- where the two right-hand sides agree
  obtain ⟨ρ, hρ, hthick⟩ : ∃ ρ > 0, ∀ z, (∃ s ∈ Icc a (a + T), ‖z - (s, y s)‖ < ρ) → f z.1 z.2 = g z := by
    rw [eventually_nhdsSet_iff_exists] at h1
    obtain ⟨W, oW, hW, hχ⟩ := h1
    obtain ⟨ρ, hρ, hsub⟩ := cΓ.exists_thickening_subset_open oW hW
    refine ⟨ρ, hρ, fun z ⟨s, hs, hz⟩ => ?_⟩
    have : z ∈ W := hsub (Metric.mem_thickening_iff.2 ⟨(s, y s), by rw [hΓ]; exact ⟨s, hs, rfl⟩, by
      rwa [dist_eq_norm]⟩)
    rw [hgdef]
    simp only
    rw [hχ z this, one_smul]
  have hyg : ∀ s ∈ Icc a (a + T), HasDerivWithinAt y (g (s, y s)) (Icc a (a + T)) s := by
    intro s hs
    rw [← hthick (s, y s) ⟨s, hs, by simpa using hρ⟩]
    exact hy s hs
  obtain ⟨C, hC, hloc⟩ := rk_local hg hs hyg
  obtain ⟨G, hG⟩ := hgc.exists_bound_of_continuous hg.continuous
  have hG0 : 0 ≤ G := (norm_nonneg _).trans (hG 0)
  obtain ⟨E, hE⟩ : ∃ E, E = T * C * Real.exp (T * L) := ⟨_, rfl⟩
  have hE0 : 0 ≤ E := by rw [hE]; positivity
  have glob : ∀ h, 0 ≤ h → h ≤ 1 → ∀ n : Nat, n * h ≤ T →
      ‖rungeKuttaSteps (fun t y => g (t, y)) h a (y a) n - y (a + n * h)‖ ≤ E * h ^ 4 := by
    intro h hh hh1 n hn
    have := rk_global hL hs.lip hC hh (T := T) (y := y) (fun t ht hth => hloc t h ht hh hh1 hth) n hn
    refine this.trans ?_
    have x2 : Real.exp (n * (h * L)) ≤ Real.exp (T * L) := Real.exp_le_exp.2 (by nlinarith)
    calc n * (C * h ^ 5) * Real.exp (n * (h * L)) = (n * h) * (C * h ^ 4) * Real.exp (n * (h * L)) := by ring
      _ ≤ T * (C * h ^ 4) * Real.exp (T * L) := by gcongr
      _ = _ := by rw [hE]; ring
  refine ⟨E, min 1 (ρ / (2 * (1 + G + E))), by positivity, fun h hh hhd n hn => ?_⟩
  have hh1 : h ≤ 1 := hhd.trans (min_le_left _ _)
  have hhρ : h * (1 + G + E) < ρ := by
    have := hhd.trans (min_le_right _ _)
    rw [le_div_iff₀ (by positivity)] at this
    nlinarith
  have agree : ∀ n : Nat, n * h ≤ T →
      rungeKuttaSteps f h a (y a) n = rungeKuttaSteps (fun t y => g (t, y)) h a (y a) n := by
    intro n
    induction n with
    | zero => intro _; rfl
    | succ n ih =>
      intro hn
      push_cast at hn
      have hn' : n * h ≤ T := by linarith
      have hnn : 0 ≤ n * h := by positivity
      rw [rungeKuttaSteps, rungeKuttaSteps, ih hn']
      have hz := glob h hh hh1 n hn'
      refine rk_congr (P := fun t y => ∃ s ∈ Icc a (a + T), ‖((t, y) : ℝ × V) - (s, _)‖ < ρ)
        (fun t y => hthick (t, y)) (fun t y => hG (t, y)) ?_ hh
      intro c k hc hch hk
      refine ⟨a + n * h, ⟨by linarith, by linarith⟩, ?_⟩
      rw [Prod.mk_sub_mk, Prod.norm_mk, max_lt_iff]
      have hh4 : E * h ^ 4 ≤ E * h := by
        have : h ^ 4 ≤ h ^ 1 := pow_le_pow_of_le_one hh hh1 (by norm_num)
        rw [pow_one] at this
        gcongr
      constructor
      · rw [add_sub_cancel_left, Real.norm_eq_abs, abs_of_nonneg hc]
        nlinarith [mul_nonneg hh hG0, mul_nonneg hh hE0]
      · rw [add_sub_right_comm]
        refine (norm_add_le _ _).trans_lt ?_
        rw [norm_smul, Real.norm_eq_abs, abs_of_nonneg hc]
        have : c * ‖k‖ ≤ h * G := mul_le_mul hch hk (norm_nonneg _) hh
        nlinarith
  rw [agree n hn]
  exact glob h hh hh1 n hn

end Global

end QED
