import Verif.Props.Work
import Verif.Props.OrderFields
import Verif.Props.Fields
import Verif.Spec.PlaneWave
import Mathlib.MeasureTheory.Integral.IntervalIntegral.FundThmCalculus

set_option autoImplicit false

/-! Helper lemmas for C138: the motion of a charge in a plane wave. -/

namespace QED

open Matrix Set

/-- What is constant along a motion is constant along the track computed to fourth order, up to `dt⁴`. -/
theorem conserved_fourth {push : PushMom ℝ} {field : Field ℝ} {p : Particle ℝ} {T : ℝ} {y : ℝ → Phase}
    (h : FourthOrder push field p T y) (hy0 : y p.time = (p.position.toVec, p.momentum.toVec))
    (G : ℝ → Phase → ℝ) {K : ℝ} (hK : 0 ≤ K) (hG : ∀ s a b, |G s a - G s b| ≤ K * ‖a - b‖)
    (hc : ∀ s ∈ Icc p.time (p.time + T), G s (y s) = G p.time (y p.time)) :
    ∃ C δ, 0 < δ ∧ ∀ dt, 0 ≤ dt → dt ≤ δ → ∀ n : Nat, n * dt ≤ T →
      let r := (pushParticle push field dt)^[n] p
      |G r.time (r.position.toVec, r.momentum.toVec) - G p.time (p.position.toVec, p.momentum.toVec)| ≤
        C * dt ^ 4 := by
  obtain ⟨C, δ, hδ, h⟩ := h
  refine ⟨K * C, δ, hδ, fun dt h0 h1 n hn => ?_⟩
  obtain ⟨ht, hi⟩ := h dt h0 h1 n hn
  intro r
  have hmem : r.time ∈ Icc p.time (p.time + T) := by
    have e : r.time = p.time + n * dt := ht
    have : 0 ≤ (n : ℝ) * dt := by positivity
    rw [e]
    exact ⟨by linarith, by linarith⟩
  rw [← hy0, ← hc _ hmem, mul_assoc]
  refine (hG _ _ _).trans (mul_le_mul_of_nonneg_left ?_ hK)
  have hC : 0 ≤ C * dt ^ 4 := (abs_nonneg _).trans (hi 0).1
  rw [Prod.norm_def]
  refine max_le ((pi_norm_le_iff_of_nonneg hC).mpr fun i => (hi i).1)
    ((pi_norm_le_iff_of_nonneg hC).mpr fun i => (hi i).2)

/-- What the computed tracks give up to the time step, the motion gives exactly. -/
theorem conserved_limit {push : PushMom ℝ} {field : Field ℝ} {p : Particle ℝ} {T : ℝ} {y : ℝ → Phase}
    (h : FourthOrder push field p T y) (G : Phase → ℝ) (f : ℝ → ℝ) {K : ℝ} (hK : 0 ≤ K) (hG : ∀ a b, |G a - G b| ≤ K * ‖a - b‖) {C δ : ℝ} (hδ : 0 < δ)
    (hb : ∀ dt, 0 ≤ dt → dt ≤ δ → ∀ n : Nat, n * dt ≤ T →
      let r := (pushParticle push field dt)^[n] p
      |G (r.position.toVec, r.momentum.toVec) - f (n * dt)| ≤ C * dt) :
    ∀ s, 0 ≤ s → s ≤ T → G (y (p.time + s)) = f s := by
  intro s s0 sT
  obtain ⟨C', δ', hδ', h⟩ := h
  have hlim : Filter.Tendsto (fun n : ℕ => s / ((n : ℝ) + 1)) Filter.atTop (nhds 0) := by
    have := (tendsto_one_div_add_atTop_nhds_zero_nat (𝕜 := ℝ)).const_mul s
    rw [mul_zero] at this
    refine this.congr fun n => ?_
    rw [mul_one_div]
  have hrhs : Filter.Tendsto (fun n : ℕ => K * (C' * (s / ((n : ℝ) + 1)) ^ 4) + C * (s / ((n : ℝ) + 1)))
      Filter.atTop (nhds 0) := by
    have := (((hlim.pow 4).const_mul C').const_mul K).add (hlim.const_mul C)
    simpa using this
  have hev : ∀ᶠ n : ℕ in Filter.atTop, |G (y (p.time + s)) - f s| ≤
      K * (C' * (s / ((n : ℝ) + 1)) ^ 4) + C * (s / ((n : ℝ) + 1)) := by
    filter_upwards [hlim.eventually_le_const hδ, hlim.eventually_le_const hδ'] with n h1 h2
    have d0 : 0 ≤ s / ((n : ℝ) + 1) := by positivity
    have e : ((n + 1 : ℕ) : ℝ) * (s / ((n : ℝ) + 1)) = s := by push_cast; field_simp
    obtain ⟨ht, hi⟩ := h _ d0 h2 (n + 1) (by rw [e]; exact sT)
    have hB := hb _ d0 h1 (n + 1) (by rw [e]; exact sT)
    rw [e] at ht
    rw [ht] at hi
    have hC : 0 ≤ C' * (s / ((n : ℝ) + 1)) ^ 4 := (abs_nonneg _).trans (hi 0).1
    rw [e] at hB
    refine (abs_sub_le _ _ _).trans (add_le_add ((hG _ _).trans (mul_le_mul_of_nonneg_left ?_ hK)) hB)
    rw [norm_sub_rev, Prod.norm_def]
    exact max_le ((pi_norm_le_iff_of_nonneg hC).mpr fun i => (hi i).1)
      ((pi_norm_le_iff_of_nonneg hC).mpr fun i => (hi i).2)
  have := ge_of_tendsto hrhs hev
  exact sub_eq_zero.mp (abs_eq_zero.mp (le_antisymm this (abs_nonneg _)))

/-- Derivatives of linear functions of position and momentum along a motion. -/
theorem dot_moves {m : ℝ} {F : ℝ → (Fin 3 → ℝ) → (Fin 3 → ℝ) → Fin 3 → ℝ} {S : Set ℝ} {s : ℝ} {y : ℝ → Phase}
    (h : HasDerivWithinAt y (motion m F s (y s)) S s) (e : Fin 3 → ℝ) :
    HasDerivWithinAt (fun s => e ⬝ᵥ (y s).1) (e ⬝ᵥ velocity m (y s).2) S s ∧
    HasDerivWithinAt (fun s => e ⬝ᵥ (y s).2) (e ⬝ᵥ F s (y s).1 (y s).2) S s := by
  have key : ∀ {f : ℝ → Fin 3 → ℝ} {f' : Fin 3 → ℝ}, HasDerivWithinAt f f' S s →
      HasDerivWithinAt (fun s => e ⬝ᵥ f s) (e ⬝ᵥ f') S s := by
    intro f f' hf
    have hi := hasDerivWithinAt_pi.mp hf
    simp only [dotProduct, Fin.sum_univ_three]
    exact (((hi 0).const_mul _).add ((hi 1).const_mul _)).add ((hi 2).const_mul _)
  constructor
  · exact key ((hasFDerivAt_fst (𝕜 := ℝ) (E := Fin 3 → ℝ) (F := Fin 3 → ℝ)).comp_hasDerivWithinAt s h)
  · exact key ((hasFDerivAt_snd (𝕜 := ℝ) (E := Fin 3 → ℝ) (F := Fin 3 → ℝ)).comp_hasDerivWithinAt s h)

/-- The force of a plane wave along the wave and across it. -/
theorem wave_force {field : Field ℝ} {k : Fin 3 → ℝ} (hw : IsPlaneWave field k) (m q t : ℝ) (x p : Fin 3 → ℝ) :
    k ⬝ᵥ lorentz m q field t x p = q * (electric field t x ⬝ᵥ velocity m p) ∧
    ∀ e, e ⬝ᵥ k = 0 → e ⬝ᵥ lorentz m q field t x p =
      q * ((e ⬝ᵥ electric field t x) * (1 - k ⬝ᵥ velocity m p)) := by
  have h1 := hw.across t x
  have h2 := hw.unit
  unfold lorentz
  rw [hw.magnetic]
  generalize electric field t x = E at *
  generalize velocity m p = v
  simp only [cross_apply, dotProduct, Fin.sum_univ_three, Pi.smul_apply, Pi.add_apply, smul_eq_mul,
    Matrix.cons_val_zero, Matrix.cons_val_one, Matrix.cons_val] at *
  constructor
  · linear_combination (q - q * (v 0 * k 0 + v 1 * k 1 + v 2 * k 2)) * h1 +
      q * (E 0 * v 0 + E 1 * v 1 + E 2 * v 2) * h2
  · intro e he
    linear_combination q * (E 0 * v 0 + E 1 * v 1 + E 2 * v 2) * he

/-- In a plane wave the energy less the momentum along the wave stays as it is. -/
theorem front_constant {field : Field ℝ} {k : Fin 3 → ℝ} (hw : IsPlaneWave field k) {m : ℝ} (hm : 0 < m) (q : ℝ)
    {a b : ℝ} {y : ℝ → Phase}
    (hy : ∀ s ∈ Icc a b, HasDerivWithinAt y (motion m (lorentz m q field) s (y s)) (Icc a b) s) :
    ∀ s ∈ Icc a b, Real.sqrt (m ^ 2 + (y s).2 ⬝ᵥ (y s).2) - k ⬝ᵥ (y s).2 =
      Real.sqrt (m ^ 2 + (y a).2 ⬝ᵥ (y a).2) - k ⬝ᵥ (y a).2 := by
  refine constant_on (f := fun s => Real.sqrt (m ^ 2 + (y s).2 ⬝ᵥ (y s).2) - k ⬝ᵥ (y s).2) fun s hs => ?_
  refine ((energy_moves hm q (hy s hs)).sub (dot_moves (hy s hs) k).2).congr_deriv ?_
  rw [(wave_force hw _ _ _ _ _).1, sub_self]

theorem front_lip {m : ℝ} (hm : 0 < m) (k : Fin 3 → ℝ) (a b : Phase) :
    |Real.sqrt (m ^ 2 + a.2 ⬝ᵥ a.2) - k ⬝ᵥ a.2 - (Real.sqrt (m ^ 2 + b.2 ⬝ᵥ b.2) - k ⬝ᵥ b.2)| ≤
      (3 + 3 * ‖k‖) * ‖a - b‖ := by
  have l1 := sqrt_energy_lip hm a.2 b.2
  have l2 := dot_le k (a.2 - b.2)
  rw [dotProduct_sub] at l2
  have l3 : ‖a.2 - b.2‖ ≤ ‖a - b‖ := norm_snd_le (a - b)
  have l4 : ‖k‖ * ‖a.2 - b.2‖ ≤ ‖k‖ * ‖a - b‖ := mul_le_mul_of_nonneg_left l3 (norm_nonneg _)
  rw [show ∀ P Q R S : ℝ, P - Q - (R - S) = (P - R) - (Q - S) by intros; ring]
  refine (abs_sub _ _).trans ?_
  linarith

/-- The electric field of a plane wave at the origin is continuous. -/
theorem wave_continuous {field : Field ℝ} {F K : ℝ} (hf : SmoothField field F K) (e : Fin 3 → ℝ) :
    Continuous fun u => e ⬝ᵥ electric field u 0 := by
  have hc : Continuous fun u => electric field u 0 := by
    refine (LipschitzWith.of_dist_le_mul (K := ⟨K, (smooth_nonneg hf).2⟩) fun u v => ?_).continuous
    rw [dist_eq_norm, Real.dist_eq]
    change _ ≤ K * |u - v|
    simpa using hf.electric_lip u v 0 0
  simp only [dotProduct, Fin.sum_univ_three]
  have hi := fun i => (continuous_apply i).comp hc
  exact (((hi 0).const_mul _).add ((hi 1).const_mul _)).add ((hi 2).const_mul _)

/-- In a plane wave the momentum across it changes by the charge times the integral of the field over the phase. -/
theorem across_constant {field : Field ℝ} {F K : ℝ} (hf : SmoothField field F K) {k : Fin 3 → ℝ}
    (hw : IsPlaneWave field k) (m q : ℝ) {e : Fin 3 → ℝ} (he : e ⬝ᵥ k = 0) {a b : ℝ} {y : ℝ → Phase}
    (hy : ∀ s ∈ Icc a b, HasDerivWithinAt y (motion m (lorentz m q field) s (y s)) (Icc a b) s) :
    ∀ s ∈ Icc a b, e ⬝ᵥ (y s).2 - q * ∫ u in (0 : ℝ)..(s - k ⬝ᵥ (y s).1), e ⬝ᵥ electric field u 0 =
      e ⬝ᵥ (y a).2 - q * ∫ u in (0 : ℝ)..(a - k ⬝ᵥ (y a).1), e ⬝ᵥ electric field u 0 := by
  refine constant_on (f := fun s => e ⬝ᵥ (y s).2 -
    q * ∫ u in (0 : ℝ)..(s - k ⬝ᵥ (y s).1), e ⬝ᵥ electric field u 0) fun s hs => ?_
  have h1 : HasDerivWithinAt (fun s => s - k ⬝ᵥ (y s).1) (1 - k ⬝ᵥ velocity m (y s).2) (Icc a b) s :=
    (hasDerivWithinAt_id s _).sub (dot_moves (hy s hs) k).1
  have h2 : HasDerivAt (fun w => ∫ u in (0 : ℝ)..w, e ⬝ᵥ electric field u 0)
      (e ⬝ᵥ electric field (s - k ⬝ᵥ (y s).1) 0) (s - k ⬝ᵥ (y s).1) :=
    ((wave_continuous hf e).integral_hasStrictDerivAt 0 _).hasDerivAt
  have h3 := (h2.comp_hasDerivWithinAt s h1).const_mul q
  refine ((dot_moves (hy s hs) e).2.sub h3).congr_deriv ?_
  rw [(wave_force hw _ _ _ _ _).2 e he, hw.travels s (y s).1]
  ring

/-- The code's plane laser, for polarisation angles that are multiples of π, is a plane wave along its direction. -/
theorem plane_isWave (maxE wl phi : ℝ) (hp : Real.sin phi = 0) (d : V3 ℝ) (hd : d.toVec ≠ 0)
    (hc : ClearOfMinusZ d) : IsPlaneWave (PlaneField.new maxE wl phi d).getField d.norm.toVec := by
  have hd' := V3.ne_zero_of_toVec hd
  have hR := rotateToAxis_isRotation (v := d) (axis := V3.ez) hd' (by simp)
  have hk := inverse_ez hd' hc.iff
  refine ⟨?_, ?_, ?_, ?_⟩
  · rw [← dot_eq, V3.norm_dot_self hd']
  · intro t x
    unfold electric
    rw [PlaneField.getField_eq, ← dot_eq, ← hk, waveE_dot_k hR]
  · intro t x
    have ht := C25_plane_partial maxE wl phi d hd hc
    have e := ht.2 (t - d.norm.toVec ⬝ᵥ x) (V3.ofVec 0) ((V3.ofVec x).add (d.norm.smul (-(d.norm.toVec ⬝ᵥ x)))) (by
      rw [toVec_add, toVec_smul, dotProduct_add, dotProduct_smul, ← dot_eq d.norm d.norm, V3.norm_dot_self hd']
      simp [V3.ofVec, V3.toVec, dotProduct, Fin.sum_univ_three])
    have e2 := ht.1 t (-(d.norm.toVec ⬝ᵥ x)) (V3.ofVec x)
    unfold electric
    rw [e, ← e2, sub_eq_add_neg]
  · intro t x
    unfold electric magnetic
    rw [PlaneField.getField_eq, ← hk, ← toVec_cross]
    unfold waveE waveB
    rw [inverse_cross hR]
    congr 2
    ext <;> simp [V3.cross, hp]

end QED
