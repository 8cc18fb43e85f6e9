import Verif.Lemmas.F64Stuck

set_option autoImplicit false

/-!
# Property C136: the optical depth in double precision
-/

namespace QED

open Dbl

/-- C136, error: as long as the optical depth, computed in doubles, has not become negative, it differs after `n`
steps from its first value less the amounts of the steps by at most `n * 2 ^ -53` times the first value. -/
theorem C136_error_partial (p : Particle F64) (amounts : List F64) (d : ℝ) (ys : List ℝ)
    (hd : p.opticalDepth.1 = .fin d) (h0 : 0 ≤ d) (hs : d ≤ 2 ^ 1000)
    (hy : List.Forall₂ (fun (a : F64) (y : ℝ) => a.1 = .fin y ∧ 0 ≤ y ∧ y ≤ 2 ^ 1000) amounts ys)
    (hn : ∀ k ≤ amounts.length,
      (((amounts.take k).foldl Particle.updateOpticalDepth p).opticalDepth <. lit 0) = false) :
    ∃ D, (amounts.foldl Particle.updateOpticalDepth p).opticalDepth.1 = .fin D ∧ 0 ≤ D ∧ D ≤ d ∧
      |D - (d - ys.sum)| ≤ amounts.length * (d / 2 ^ 53) := by
  induction hy generalizing p d with
  | nil => exact ⟨d, hd, h0, le_rfl, by simp⟩
  | @cons a y as ys hay hys ih =>
    obtain ⟨ha, hy0, hy1⟩ := hay
    have fd : F64.Form d := F64.form_of_val hd
    have fy : F64.Form y := F64.form_of_val ha
    have hbig : (2 : ℝ) ^ 1000 < 2 ^ 1023 := pow_lt_pow_right₀ (by norm_num) (by norm_num)
    have hv : (p.updateOpticalDepth a).opticalDepth.1 = .fin (F64.round (d - y)) := by
      refine F64.sub_at hd ha ?_ rfl
      refine lt_of_le_of_lt ?_ hbig
      exact abs_le.mpr ⟨neg_le_sub_iff_le_add.mpr (hy1.trans (le_add_of_nonneg_left h0)),
        (sub_le_self _ hy0).trans hs⟩
    have hnn : 0 ≤ F64.round (d - y) := by
      have := hn 1 (by simp)
      have h2 : ((p.updateOpticalDepth a).opticalDepth <. lit 0) = false := this
      change Dbl.lt (p.updateOpticalDepth a).opticalDepth.1 (lit 0 : F64).1 = false at h2
      rw [hv, F64.zero_val] at h2
      simpa using h2
    have hyd : y ≤ d := by
      by_contra hc
      push Not at hc
      have := (F64.round_sub_neg fd fy).mpr hc
      linarith
    have hle : F64.round (d - y) ≤ d := F64.round_le fd (by linarith)
    obtain ⟨D, hD, hD0, hD1, hD2⟩ := ih (p.updateOpticalDepth a) (F64.round (d - y)) hv hnn (hle.trans hs)
      (fun k hk => hn (k + 1) (by simpa using hk))
    refine ⟨D, hD, hD0, hD1.trans hle, ?_⟩
    have he := F64.round_sub fd fy
    rw [abs_of_nonneg (sub_nonneg.mpr hyd)] at he
    have hp : (0 : ℝ) < 1 / 2 ^ 53 := by positivity
    have h3 : (d - y) / 2 ^ 53 ≤ d / 2 ^ 53 := div_le_div_of_nonneg_right (by linarith) (by positivity)
    have h4 : (as.length : ℝ) * (F64.round (d - y) / 2 ^ 53) ≤ as.length * (d / 2 ^ 53) :=
      mul_le_mul_of_nonneg_left (div_le_div_of_nonneg_right hle (by positivity)) (Nat.cast_nonneg _)
    have h5 : D - (d - (y :: ys).sum) =
        (D - (F64.round (d - y) - ys.sum)) + (F64.round (d - y) - (d - y)) := by
      rw [List.sum_cons]; ring
    rw [h5]
    refine (abs_add_le _ _).trans ?_
    rw [List.length_cons]
    push_cast
    linarith

/-- C136, moment: the depth becomes negative with the step `a` only if the amounts, with that of this step, come to
more than the first value less `n * 2 ^ -53` times it, and always if they come to more than the first value and
`n * 2 ^ -53` times it. -/
theorem C136_moment_partial (p : Particle F64) (amounts : List F64) (a : F64) (d y : ℝ) (ys : List ℝ)
    (hd : p.opticalDepth.1 = .fin d) (h0 : 0 ≤ d) (hs : d ≤ 2 ^ 1000)
    (hy : List.Forall₂ (fun (a : F64) (y : ℝ) => a.1 = .fin y ∧ 0 ≤ y ∧ y ≤ 2 ^ 1000) amounts ys)
    (hn : ∀ k ≤ amounts.length,
      (((amounts.take k).foldl Particle.updateOpticalDepth p).opticalDepth <. lit 0) = false)
    (ha : a.1 = .fin y) (hy0 : 0 ≤ y) (hy1 : y ≤ 2 ^ 1000) :
    ((((amounts ++ [a]).foldl Particle.updateOpticalDepth p).opticalDepth <. lit 0) = true →
      d - amounts.length * (d / 2 ^ 53) < ys.sum + y) ∧
    (d + amounts.length * (d / 2 ^ 53) < ys.sum + y →
      (((amounts ++ [a]).foldl Particle.updateOpticalDepth p).opticalDepth <. lit 0) = true) := by
  obtain ⟨D, hD, hD0, hD1, hD2⟩ := C136_error_partial p amounts d ys hd h0 hs hy hn
  have fD : F64.Form D := F64.form_of_val hD
  have fy : F64.Form y := F64.form_of_val ha
  have hbig : (2 : ℝ) ^ 1000 < 2 ^ 1023 := pow_lt_pow_right₀ (by norm_num) (by norm_num)
  have hv : ((amounts ++ [a]).foldl Particle.updateOpticalDepth p).opticalDepth.1 =
      .fin (F64.round (D - y)) := by
    rw [List.foldl_append]
    refine F64.sub_at hD ha ?_ rfl
    refine lt_of_le_of_lt ?_ hbig
    exact abs_le.mpr ⟨neg_le_sub_iff_le_add.mpr (hy1.trans (le_add_of_nonneg_left hD0)),
      (sub_le_self _ hy0).trans (hD1.trans hs)⟩
  have hlt : (((amounts ++ [a]).foldl Particle.updateOpticalDepth p).opticalDepth <. lit 0) = true ↔ D < y := by
    change Dbl.lt ((amounts ++ [a]).foldl Particle.updateOpticalDepth p).opticalDepth.1 (lit 0 : F64).1 = true ↔ _
    rw [hv, F64.zero_val, ← F64.round_sub_neg fD fy]
    simp
  rw [hlt]
  obtain ⟨h1, h2⟩ := abs_le.mp hD2
  exact ⟨fun h => by linarith, fun h => by linarith⟩

/-- C136, loss: a step that uses up a positive amount below `2 ^ -54` of the optical depth changes nothing: neither
the lepton, nor the list, nor the generator. -/
theorem C136_lost {cfg : EmissionCfg F64} {p : Particle F64} (l : PList F64) (r : MCTools.Rng F64) {logh : F64}
    {d x : ℝ} (hd : p.opticalDepth.1 = .fin d) (hlo : 2 ^ (-1000 : ℤ) ≤ d) (hs : d ≤ 2 ^ 1000)
    (hl : emissionLogh cfg (calculateEta cfg.field p) = .ok logh)
    (hx : (emissionDelta cfg.dt (calculateEta cfg.field p) logh p.gamma).1 = .fin x) (h0 : 0 ≤ x)
    (hx1 : x < d / 2 ^ 54) : stochasticInteract cfg p l r = .ok (p, l, r) := by
  have fd : F64.Form d := F64.form_of_val hd
  have hpos : 0 < d := lt_of_lt_of_le (F64.two_zpow_pos _) hlo
  have hv : p.opticalDepth -. emissionDelta cfg.dt (calculateEta cfg.field p) logh p.gamma = p.opticalDepth := by
    refine SpeedWitness.eq_of_val (F64.sub_at hd hx ?_ (F64.round_stuck fd hlo h0 hx1)) hd
    have h2 : d / 2 ^ 54 ≤ d := div_le_self hpos.le (one_le_pow₀ (by norm_num))
    rw [abs_of_nonneg (sub_nonneg.mpr (hx1.le.trans h2))]
    exact ((sub_le_self _ h0).trans hs).trans_lt (pow_lt_pow_right₀ (by norm_num) (by norm_num))
  have hp : p.updateOpticalDepth (emissionDelta cfg.dt (calculateEta cfg.field p) logh p.gamma) = p := by
    show ({ p with opticalDepth := _ } : Particle F64) = p
    rw [hv]
  have hneg : (p.opticalDepth <. lit 0) = false := by
    change Dbl.lt p.opticalDepth.1 (lit 0 : F64).1 = false
    rw [hd, F64.zero_val]
    simpa using hpos.le
  unfold stochasticInteract
  split
  · rfl
  · dsimp only
    rw [hl, Res.ok_bind, hp, hneg]
    rfl

/-- C136 is false of the program: an electron in a field has an optical depth `d` and a positive amount `x` per step.
After `N` steps the amounts are more than the depth, but no number of steps ever changes anything. -/
theorem C136_refuted : ∃ (cfg : EmissionCfg F64) (u : F64) (d x : ℝ) (N : ℕ), u.1 = .fin (1 / 2) ∧
    let p : Particle F64 := .newLepton (lit 1) (lit (-1)) ⟨lit 0, lit 0, lit 0⟩ ⟨lit 0, lit 0, lit (3 / 4)⟩
      (lit 1) (lit 0) false u
    p.opticalDepth.1 = .fin d ∧ 0 < x ∧
    (∃ logh, emissionLogh cfg (calculateEta cfg.field p) = .ok logh ∧
      (emissionDelta cfg.dt (calculateEta cfg.field p) logh p.gamma).1 = .fin x) ∧
    d < N * x ∧ ∀ l r, stochasticInteract cfg p l r = .ok (p, l, r) := by
  obtain ⟨d, hd, hd1, hd2⟩ := depth_half
  obtain ⟨x, hx, hx1, hx2⟩ := Stuck.amount
  have hx0 : 0 < x := lt_of_lt_of_le (by norm_num) hx1
  obtain ⟨N, hN⟩ := exists_nat_gt (d / x)
  refine ⟨Stuck.cfg, lit (1 / 2), d, x, N, ?_, hd, hx0, ⟨lit 0.7193, Stuck.logh_val, hx⟩, ?_, ?_⟩
  · exact F64.val_frac 1 1 (by norm_num) (by norm_num) (by norm_num) (by norm_num) (by norm_num [abs_of_pos])
  · exact (div_lt_iff₀ hx0).mp hN
  · intro l r
    refine C136_lost (p := Stuck.electron) l r hd (le_trans ?_ hd1) (hd2.trans (one_le_pow₀ (by norm_num)))
      Stuck.logh_val hx hx0.le (lt_of_le_of_lt hx2 ?_)
    · rw [show (1 / 2 : ℝ) = 2 ^ (-1 : ℤ) by norm_num]
      exact zpow_le_zpow_right₀ (by norm_num) (by norm_num)
    · refine lt_of_lt_of_le ?_ (div_le_div_of_nonneg_right hd1 (by positivity))
      norm_num

/-- The premises of the bound hold for two steps of an electron with depth one. -/
example : ∃ (p : Particle F64) (D : ℝ),
    ([lit (1 / 4), lit (1 / 2)].foldl Particle.updateOpticalDepth p).opticalDepth.1 = .fin D ∧
      |D - 1 / 4| ≤ 2 * (1 / 2 ^ 53) := by
  have q : (lit (1 / 4) : F64).1 = .fin (1 / 4) :=
    F64.val_frac 1 2 (by norm_num) (by norm_num) (by norm_num) (by norm_num) (by norm_num [abs_of_pos])
  have hh : (lit (1 / 2) : F64).1 = .fin (1 / 2) :=
    F64.val_frac 1 1 (by norm_num) (by norm_num) (by norm_num) (by norm_num) (by norm_num [abs_of_pos])
  have s1 : (lit 1 -. lit (1 / 4) : F64).1 = .fin (3 / 4) := by
    refine F64.sub_at F64.one_val q (F64.lt_big (by norm_num [abs_of_pos])) ?_
    rw [show (1 : ℝ) - 1 / 4 = 3 / 4 by norm_num]
    exact F64.round_form_eq (F64.form_frac 3 2 (by norm_num) (by norm_num) (by norm_num))
  have s2 : (lit 1 -. lit (1 / 4) -. lit (1 / 2) : F64).1 = .fin (1 / 4) := by
    refine F64.sub_at s1 hh (F64.lt_big (by norm_num [abs_of_pos])) ?_
    rw [show (3 / 4 : ℝ) - 1 / 2 = 1 / 4 by norm_num]
    exact F64.round_form_eq (F64.form_frac 1 2 (by norm_num) (by norm_num) (by norm_num))
  have big : ∀ x : ℝ, x ≤ 1 → x ≤ 2 ^ 1000 := fun x h => h.trans (one_le_pow₀ (by norm_num))
  have ok : ∀ {a : F64} {z : ℝ}, a.1 = .fin z → 0 ≤ z → (a <. lit 0) = false := by
    intro a z ha hz
    change Dbl.lt a.1 (lit 0 : F64).1 = false
    rw [ha, F64.zero_val]
    simpa using hz
  let p : Particle F64 := { Stuck.electron with opticalDepth := lit 1 }
  obtain ⟨D, hD, -, -, h⟩ := C136_error_partial p [lit (1 / 4), lit (1 / 2)] 1 [1 / 4, 1 / 2] F64.one_val (by norm_num)
    (big _ le_rfl)
    (.cons ⟨q, by norm_num, big _ (by norm_num)⟩ (.cons ⟨hh, by norm_num, big _ (by norm_num)⟩ .nil)) (by
      intro k hk
      have : k = 0 ∨ k = 1 ∨ k = 2 := by simp at hk; omega
      rcases this with rfl | rfl | rfl
      · exact ok F64.one_val (by norm_num)
      · exact ok s1 (by norm_num)
      · exact ok s2 (by norm_num))
  refine ⟨p, D, hD, ?_⟩
  norm_num at h ⊢
  exact h

end QED
