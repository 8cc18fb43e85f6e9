import Verif.Spec.Frames
import Verif.Lemmas.PlaneWave
import Verif.Props.Invariants
import Mathlib.Analysis.ODE.ExistUnique

set_option autoImplicit false

/-! Helper lemmas for C140: motions in two inertial frames. -/

namespace QED

open Matrix Set

namespace Frames

/-- Time and space together. -/
def four (t : ℝ) (x : Fin 3 → ℝ) : Fin 4 → ℝ := fourVector t (V3.ofVec x)

/-- The part in space. -/
def space (a : Fin 4 → ℝ) : Fin 3 → ℝ := ![a 1, a 2, a 3]

theorem four_space (a : Fin 4 → ℝ) : four (a 0) (space a) = a := by
  ext i; fin_cases i <;> rfl

theorem four_inj {t t' : ℝ} {x x' : Fin 3 → ℝ} (h : four t x = four t' x') : t = t' ∧ x = x' := by
  refine ⟨congrFun h 0, ?_⟩
  ext i
  fin_cases i
  · exact congrFun h 1
  · exact congrFun h 2
  · exact congrFun h 3

theorem ofVec_toVec (v : V3 ℝ) : V3.ofVec v.toVec = v := rfl

/-- The energy of a mass and a momentum. -/
noncomputable def energyOf (m : ℝ) (p : Fin 3 → ℝ) : ℝ := Real.sqrt (m ^ 2 + p ⬝ᵥ p)

theorem energyOf_pos {m : ℝ} (hm : 0 < m) (p : Fin 3 → ℝ) : 0 < energyOf m p :=
  Real.sqrt_pos.mpr (add_pos_of_pos_of_nonneg (pow_pos hm 2) (dot_self_nonneg p))

theorem energyOf_sq (m : ℝ) (p : Fin 3 → ℝ) : energyOf m p ^ 2 = m ^ 2 + p ⬝ᵥ p :=
  Real.sq_sqrt (add_nonneg (sq_nonneg m) (dot_self_nonneg p))

theorem minkowski_four (t : ℝ) (p : Fin 3 → ℝ) : minkowski (four t p) = t ^ 2 - p ⬝ᵥ p := by
  simp [minkowski, four, fourVector, V3.ofVec, metric, Matrix.mulVec, dotProduct, Fin.sum_univ_succ]
  ring

section
variable {L : Matrix (Fin 4) (Fin 4) ℝ} (hL : IsFrameChange L)
include hL

theorem minkowski_frame (a : Fin 4 → ℝ) : minkowski (L.mulVec a) = minkowski a := by
  unfold minkowski
  rw [Matrix.mulVec_mulVec, Matrix.dotProduct_mulVec, Matrix.vecMul_mulVec, ← Matrix.dotProduct_mulVec,
    ← Matrix.mul_assoc, hL.lorentz]

omit hL in
theorem metric_sq : metric * metric = 1 := by
  ext i j
  fin_cases i <;> fin_cases j <;> simp [metric, Matrix.mul_apply, Fin.sum_univ_succ]

/-- The transposed change of frame is one as well. -/
theorem lorentz_transpose : L * metric * L.transpose = metric := by
  have h1 : metric * L.transpose * metric * L = 1 := by
    rw [Matrix.mul_assoc metric, Matrix.mul_assoc metric, hL.lorentz, metric_sq]
  have h2 : L * (metric * L.transpose * metric) = 1 := mul_eq_one_comm.mp h1
  have h3 : L * metric * L.transpose * metric = 1 := by simpa only [Matrix.mul_assoc] using h2
  calc L * metric * L.transpose = L * metric * L.transpose * (metric * metric) := by rw [metric_sq, Matrix.mul_one]
    _ = metric := by rw [← Matrix.mul_assoc, h3, Matrix.one_mul]

theorem row_sq : L 0 0 ^ 2 = 1 + (L 0 1 ^ 2 + L 0 2 ^ 2 + L 0 3 ^ 2) := by
  have := congrFun (congrFun (lorentz_transpose hL) 0) 0
  simp [metric, Matrix.mul_apply, Fin.sum_univ_succ] at this
  linarith

omit hL in
theorem mulVec_zero_entry (L : Matrix (Fin 4) (Fin 4) ℝ) (t : ℝ) (p : Fin 3 → ℝ) :
    L.mulVec (four t p) 0 = L 0 0 * t + (L 0 1 * p 0 + L 0 2 * p 1 + L 0 3 * p 2) := by
  simp [four, fourVector, V3.ofVec, Matrix.mulVec, dotProduct, Fin.sum_univ_succ]
  ring

/-- The energy is positive in all frames. -/
theorem energy_forward {t : ℝ} {p : Fin 3 → ℝ} (ht : 0 < t) (h : p ⬝ᵥ p ≤ t ^ 2) :
    0 < L.mulVec (four t p) 0 := by
  rw [mulVec_zero_entry]
  have h1 := row_sq hL
  have hf := hL.forward
  rw [dotProduct, Fin.sum_univ_three] at h
  have h2 : (L 0 1 * p 0 + L 0 2 * p 1 + L 0 3 * p 2) ^ 2 < (L 0 0 * t) ^ 2 := by
    have cs : (L 0 1 * p 0 + L 0 2 * p 1 + L 0 3 * p 2) ^ 2 ≤
        (L 0 1 ^ 2 + L 0 2 ^ 2 + L 0 3 ^ 2) * (p 0 * p 0 + p 1 * p 1 + p 2 * p 2) := by
      nlinarith [sq_nonneg (L 0 1 * p 1 - L 0 2 * p 0), sq_nonneg (L 0 1 * p 2 - L 0 3 * p 0),
        sq_nonneg (L 0 2 * p 2 - L 0 3 * p 1)]
    have h3 : (L 0 1 ^ 2 + L 0 2 ^ 2 + L 0 3 ^ 2) * (p 0 * p 0 + p 1 * p 1 + p 2 * p 2) ≤
        (L 0 1 ^ 2 + L 0 2 ^ 2 + L 0 3 ^ 2) * t ^ 2 := mul_le_mul_of_nonneg_left h (by positivity)
    have h4 : 0 < t ^ 2 := by positivity
    rw [mul_pow, h1]
    linarith
  have h5 := abs_lt_of_sq_lt_sq h2 (by positivity)
  have := (abs_lt.mp h5).1
  linarith

/-- Four-momenta stay on the mass shell. -/
theorem four_momentum {m : ℝ} (hm : 0 < m) (p : Fin 3 → ℝ) :
    L.mulVec (four (energyOf m p) p) =
      four (energyOf m (space (L.mulVec (four (energyOf m p) p)))) (space (L.mulVec (four (energyOf m p) p))) := by
  have h1 := minkowski_frame hL (four (energyOf m p) p)
  have h2 : 0 < L.mulVec (four (energyOf m p) p) 0 := by
    refine energy_forward hL (energyOf_pos hm p) ?_
    rw [energyOf_sq]
    have := sq_nonneg m
    linarith
  obtain ⟨a, ha⟩ : ∃ a, a = L.mulVec (four (energyOf m p) p) := ⟨_, rfl⟩
  rw [← ha] at h1 h2 ⊢
  rw [← four_space a, minkowski_four, minkowski_four, energyOf_sq] at h1
  have : energyOf m (space a) = a 0 := by
    unfold energyOf
    rw [show m ^ 2 + space a ⬝ᵥ space a = a 0 ^ 2 by linarith, Real.sqrt_sq h2.le]
  rw [this, four_space]

/-- How fast time passes in the other frame. -/
noncomputable def pace (L : Matrix (Fin 4) (Fin 4) ℝ) (m : ℝ) (p : Fin 3 → ℝ) : ℝ :=
  L.mulVec (four (energyOf m p) p) 0 / energyOf m p

theorem pace_pos {m : ℝ} (hm : 0 < m) (p : Fin 3 → ℝ) : 0 < pace L m p := by
  refine div_pos (energy_forward hL (energyOf_pos hm p) ?_) (energyOf_pos hm p)
  rw [energyOf_sq]
  have := sq_nonneg m
  linarith

omit hL in
theorem pace_le (L : Matrix (Fin 4) (Fin 4) ℝ) {m : ℝ} (hm : 0 < m) (p : Fin 3 → ℝ) :
    pace L m p ≤ |L 0 0| + |L 0 1| + |L 0 2| + |L 0 3| := by
  unfold pace
  rw [mulVec_zero_entry, div_le_iff₀ (energyOf_pos hm p)]
  have key : ∀ i j, L 0 j * p i ≤ |L 0 j| * energyOf m p := fun i j =>
    (le_abs_self _).trans (by
      rw [abs_mul]; exact mul_le_mul_of_nonneg_left (comp_le_root m p i) (abs_nonneg _))
  have h0 : L 0 0 * energyOf m p ≤ |L 0 0| * energyOf m p :=
    mul_le_mul_of_nonneg_right (le_abs_self _) (energyOf_pos hm p).le
  have := key 0 1
  have := key 1 2
  have := key 2 3
  linarith

end

/-- The motion of the other frame, with the time of this one. -/
noncomputable def seen (L : Matrix (Fin 4) (Fin 4) ℝ) (m : ℝ) (y : ℝ → Phase) (s : ℝ) : Phase :=
  (space (L.mulVec (four s (y s).1)), space (L.mulVec (four (energyOf m (y s).2) (y s).2)))

/-- The time of the other frame. -/
noncomputable def clock (L : Matrix (Fin 4) (Fin 4) ℝ) (y : ℝ → Phase) (s : ℝ) : ℝ :=
  L.mulVec (four s (y s).1) 0

theorem four_deriv {t : ℝ → ℝ} {x : ℝ → Fin 3 → ℝ} {t' : ℝ} {x' : Fin 3 → ℝ} {S : Set ℝ} {s : ℝ}
    (ht : HasDerivWithinAt t t' S s) (hx : HasDerivWithinAt x x' S s) (L : Matrix (Fin 4) (Fin 4) ℝ) (i : Fin 4) :
    HasDerivWithinAt (fun s => L.mulVec (four (t s) (x s)) i) (L.mulVec (four t' x') i) S s := by
  have hi := hasDerivWithinAt_pi.mp hx
  have key : ∀ (t : ℝ) (x : Fin 3 → ℝ), L.mulVec (four t x) i = L i 0 * t + L i 1 * x 0 + L i 2 * x 1 + L i 3 * x 2 := by
    intro t x
    simp [four, fourVector, V3.ofVec, Matrix.mulVec, dotProduct, Fin.sum_univ_succ]
    ring
  simp only [key]
  exact (((ht.const_mul _).add ((hi 0).const_mul _)).add ((hi 1).const_mul _)).add ((hi 2).const_mul _)

theorem space_deriv {f : ℝ → Fin 4 → ℝ} {f' : Fin 4 → ℝ} {S : Set ℝ} {s : ℝ}
    (h : ∀ i, HasDerivWithinAt (fun s => f s i) (f' i) S s) :
    HasDerivWithinAt (fun s => space (f s)) (space f') S s := by
  rw [hasDerivWithinAt_pi]
  intro i
  fin_cases i
  · exact h 1
  · exact h 2
  · exact h 3

/-- The Lorentz force is the field tensor times the four-momentum. -/
theorem tensor_force (field : Field ℝ) {m : ℝ} (hm : 0 < m) (q t : ℝ) (x p : Fin 3 → ℝ) :
    four (q * (electric field t x ⬝ᵥ velocity m p)) (lorentz m q field t x p) =
      (q / energyOf m p) • (fieldTensor (field t (V3.ofVec x)).1 (field t (V3.ofVec x)).2).mulVec
        (metric.mulVec (four (energyOf m p) p)) := by
  have h0 := (energyOf_pos hm p).ne'
  unfold lorentz velocity electric magnetic
  rw [show Real.sqrt (m ^ 2 + p ⬝ᵥ p) = energyOf m p from rfl]
  generalize energyOf m p = e at *
  ext i
  fin_cases i <;>
    simp [four, fourVector, V3.ofVec, V3.toVec, dotProduct, Fin.sum_univ_succ, metric, fieldTensor,
      cross_apply] <;>
    field_simp <;> ring

theorem four_velocity {m : ℝ} (hm : 0 < m) (p : Fin 3 → ℝ) :
    four 1 (velocity m p) = (energyOf m p)⁻¹ • four (energyOf m p) p := by
  have h0 := (energyOf_pos hm p).ne'
  unfold velocity
  rw [show Real.sqrt (m ^ 2 + p ⬝ᵥ p) = energyOf m p from rfl]
  ext i
  fin_cases i <;> simp [four, fourVector, V3.ofVec, h0]

section
variable {L : Matrix (Fin 4) (Fin 4) ℝ} (hL : IsFrameChange L) {field field' : Field ℝ} (hs : SameField L field field')
  {m : ℝ} (hm : 0 < m) {q : ℝ} {y : ℝ → Phase} {S : Set ℝ} {s : ℝ}
  (hy : HasDerivWithinAt y (motion m (lorentz m q field) s (y s)) S s)
include hm hy

/-- The clocks of the two frames. -/
theorem clock_deriv : HasDerivWithinAt (clock L y) (pace L m (y s).2) S s := by
  have h1 : HasDerivWithinAt (fun s => (y s).1) (velocity m (y s).2) S s :=
    (hasFDerivAt_fst (𝕜 := ℝ) (E := Fin 3 → ℝ) (F := Fin 3 → ℝ)).comp_hasDerivWithinAt s hy
  refine (four_deriv (hasDerivWithinAt_id s S) h1 L 0).congr_deriv ?_
  rw [four_velocity hm, Matrix.mulVec_smul, Pi.smul_apply, smul_eq_mul, pace, div_eq_inv_mul]

include hL hs

/-- The motion seen from the other frame solves the equations of motion of that frame. -/
theorem seen_deriv : HasDerivWithinAt (seen L m y)
    (pace L m (y s).2 • motion m (lorentz m q field') (clock L y s) (seen L m y s)) S s := by
  have h1 : HasDerivWithinAt (fun s => (y s).1) (velocity m (y s).2) S s :=
    (hasFDerivAt_fst (𝕜 := ℝ) (E := Fin 3 → ℝ) (F := Fin 3 → ℝ)).comp_hasDerivWithinAt s hy
  have h2 : HasDerivWithinAt (fun s => (y s).2) (lorentz m q field s (y s).1 (y s).2) S s :=
    (hasFDerivAt_snd (𝕜 := ℝ) (E := Fin 3 → ℝ) (F := Fin 3 → ℝ)).comp_hasDerivWithinAt s hy
  have h3 := energy_moves hm q hy
  have d1 := space_deriv (four_deriv (hasDerivWithinAt_id s S) h1 L)
  have d2 := space_deriv (four_deriv h3 h2 L)
  refine (d1.prodMk d2).congr_deriv ?_
  have hshell := four_momentum hL hm (y s).2
  have hE := energyOf_pos hm (y s).2
  have hE' := energyOf_pos hm (seen L m y s).2
  have hpace : pace L m (y s).2 = energyOf m (seen L m y s).2 / energyOf m (y s).2 := by
    unfold pace
    rw [hshell]
    rfl
  have hscale : ∀ (c : ℝ) (a : Fin 4 → ℝ), space (c • a) = c • space a := by
    intro c a; ext i; fin_cases i <;> rfl
  have hspace : ∀ t x, space (four t x) = x := by
    intro t x; ext i; fin_cases i <;> rfl
  rw [four_velocity hm, tensor_force field hm, Matrix.mulVec_smul, Matrix.mulVec_smul, hscale, hscale, hpace]
  unfold motion
  rw [Prod.smul_mk]
  congr 1
  · rw [hshell, hspace]
    unfold velocity
    rw [show Real.sqrt (m ^ 2 + (seen L m y s).2 ⬝ᵥ (seen L m y s).2) = energyOf m (seen L m y s).2 from rfl, smul_smul]
    congr 1
    field_simp
  · have hF := hs s (V3.ofVec (y s).1) (clock L y s) (V3.ofVec (seen L m y s).1)
      (four_space (L.mulVec (four s (y s).1)))
    have hmove : L.mulVec ((fieldTensor (field s (V3.ofVec (y s).1)).1 (field s (V3.ofVec (y s).1)).2).mulVec
        (metric.mulVec (four (energyOf m (y s).2) (y s).2))) =
        (fieldTensor (field' (clock L y s) (V3.ofVec (seen L m y s).1)).1
          (field' (clock L y s) (V3.ofVec (seen L m y s).1)).2).mulVec
          (metric.mulVec (four (energyOf m (seen L m y s).2) (seen L m y s).2)) := by
      rw [hF, show four (energyOf m (seen L m y s).2) (seen L m y s).2 = L.mulVec (four (energyOf m (y s).2) (y s).2)
        from hshell.symm]
      simp only [Matrix.mulVec_mulVec]
      rw [show ∀ F : Matrix (Fin 4) (Fin 4) ℝ, L * F * L.transpose * (metric * L) = L * F * (L.transpose * metric * L) by
        intro F; simp only [Matrix.mul_assoc], hL.lorentz, Matrix.mul_assoc]
    have hforce := tensor_force field' hm q (clock L y s) (seen L m y s).1 (seen L m y s).2
    rw [hmove]
    have := congrArg space hforce
    rw [hspace, hscale] at this
    rw [this, smul_smul]
    congr 1
    field_simp

end

/-- The bound on the pace. -/
def paceBound (L : Matrix (Fin 4) (Fin 4) ℝ) : ℝ := |L 0 0| + |L 0 1| + |L 0 2| + |L 0 3|

theorem paceBound_nonneg (L : Matrix (Fin 4) (Fin 4) ℝ) : 0 ≤ paceBound L := by
  unfold paceBound; positivity

section
variable {L : Matrix (Fin 4) (Fin 4) ℝ} (hL : IsFrameChange L) {field field' : Field ℝ} (hs : SameField L field field')
  {m : ℝ} (hm : 0 < m) {q : ℝ} {y : ℝ → Phase} {a b : ℝ}
  (hy : ∀ s ∈ Icc a b, HasDerivWithinAt y (motion m (lorentz m q field) s (y s)) (Icc a b) s)
include hm hy

theorem clock_continuous : ContinuousOn (clock L y) (Icc a b) :=
  fun s h => (clock_deriv hm (hy s h)).continuousWithinAt

/-- The other clock runs at a bounded pace. -/
theorem clock_le : ∀ s ∈ Icc a b, clock L y s ≤ clock L y a + paceBound L * (s - a) := by
  have h := image_le_of_deriv_right_le_deriv_boundary (f := clock L y) (f' := fun s => pace L m (y s).2) (a := a) (b := b)
    (B := fun s => clock L y a + paceBound L * (s - a)) (B' := fun _ => paceBound L)
    (clock_continuous hm hy)
    (fun s hs' => (clock_deriv hm (hy s (Ico_subset_Icc_self hs'))).mono_of_mem_nhdsWithin (Icc_mem_nhdsGE_of_mem hs'))
    (by simp)
    (by fun_prop)
    (fun s _ => by
      have := ((hasDerivAt_id s).sub_const a).const_mul (paceBound L)
      rw [mul_one] at this
      exact (this.const_add _).hasDerivWithinAt)
    (fun s _ => pace_le L hm _)
  exact fun s hs' => h hs'

include hL in
/-- The other clock never goes back. -/
theorem clock_strictMono : StrictMonoOn (clock L y) (Icc a b) := by
  refine strictMonoOn_of_deriv_pos (convex_Icc a b) (clock_continuous hm hy) fun s hs' => ?_
  rw [interior_Icc] at hs'
  have := (clock_deriv (L := L) hm (hy s (Ioo_subset_Icc_self hs'))).hasDerivAt (Icc_mem_nhds hs'.1 hs'.2)
  rw [this.deriv]
  exact pace_pos hL hm _

include hL hs in
/-- The motion in the other frame is the motion in this frame, seen from there. -/
theorem agree {F' K' : ℝ} (hf' : SmoothField field' F' K') {y' : ℝ → Phase} {a' b' : ℝ}
    (hy' : ∀ s ∈ Icc a' b', HasDerivWithinAt y' (motion m (lorentz m q field') s (y' s)) (Icc a' b') s)
    (hmaps : MapsTo (clock L y) (Icc a b) (Icc a' b')) (h0 : y' (clock L y a) = seen L m y a) :
    ∀ s ∈ Icc a b, y' (clock L y s) = seen L m y s := by
  obtain ⟨hF, hK⟩ := smooth_nonneg hf'
  have hc : 0 ≤ motionConst m q F' K' := by unfold motionConst; positivity
  have hlip := motion_lipschitz hf' hm q
  have hd1 : ∀ s ∈ Icc a b, HasDerivWithinAt (fun s => y' (clock L y s))
      (pace L m (y s).2 • motion m (lorentz m q field') (clock L y s) (y' (clock L y s))) (Icc a b) s :=
    fun s h => (hy' _ (hmaps h)).scomp s (clock_deriv hm (hy s h)) hmaps
  have hd2 : ∀ s ∈ Icc a b, HasDerivWithinAt (seen L m y)
      (pace L m (y s).2 • motion m (lorentz m q field') (clock L y s) (seen L m y s)) (Icc a b) s :=
    fun s h => seen_deriv hL hs hm (hy s h)
  refine ODE_solution_unique_of_mem_Icc_right (K := ⟨paceBound L * motionConst m q F' K', mul_nonneg (paceBound_nonneg L) hc⟩)
    (v := fun s z => pace L m (y s).2 • motion m (lorentz m q field') (clock L y s) z) (s := fun _ => univ)
    (fun s _ => (LipschitzWith.of_dist_le_mul fun u v => ?_).lipschitzOnWith)
    (fun s h => (hd1 s h).continuousWithinAt)
    (fun s h => (hd1 s (Ico_subset_Icc_self h)).mono_of_mem_nhdsWithin (Icc_mem_nhdsGE_of_mem h))
    (fun _ _ => mem_univ _)
    (fun s h => (hd2 s h).continuousWithinAt)
    (fun s h => (hd2 s (Ico_subset_Icc_self h)).mono_of_mem_nhdsWithin (Icc_mem_nhdsGE_of_mem h))
    (fun _ _ => mem_univ _) h0
  rw [dist_eq_norm, dist_eq_norm, ← smul_sub, norm_smul, Real.norm_eq_abs, abs_of_pos (pace_pos hL hm _)]
  have := hlip (clock L y s) (clock L y s) u v
  rw [sub_self, abs_zero, zero_add] at this
  change _ ≤ paceBound L * motionConst m q F' K' * ‖u - v‖
  rw [mul_assoc]
  exact mul_le_mul (pace_le L hm _) this (norm_nonneg _) (paceBound_nonneg L)

end

end Frames

end QED
