import Verif.Props.Convergence
import Verif.Spec.Work
import Mathlib.Analysis.Calculus.MeanValue
import Mathlib.Analysis.SpecialFunctions.Sqrt

set_option autoImplicit false

/-! Helper lemmas for C112: the energy along a solution of the equations of motion. -/

namespace QED

open Matrix

theorem dot_cross_self' (v b : Fin 3 → ℝ) : v ⬝ᵥ (v ⨯₃ b) = 0 := by
  rw [cross_apply, dotProduct, Fin.sum_univ_three]
  simp
  ring

theorem dot_le (a b : Fin 3 → ℝ) : |a ⬝ᵥ b| ≤ 3 * ‖a‖ * ‖b‖ := by
  rw [dotProduct, Fin.sum_univ_three]
  have h : ∀ i, |a i * b i| ≤ ‖a‖ * ‖b‖ := fun i => by
    rw [abs_mul]
    exact mul_le_mul (norm_le_pi_norm a i) (norm_le_pi_norm b i) (abs_nonneg _) (norm_nonneg _)
  have h1 := abs_add_three (a 0 * b 0) (a 1 * b 1) (a 2 * b 2)
  have := h 0
  have := h 1
  have := h 2
  linarith

/-- Along a solution the energy grows by the work of the electric field. -/
theorem energy_moves {field : Field ℝ} {m : ℝ} (hm : 0 < m) (q : ℝ) {S : Set ℝ} {s : ℝ} {y : ℝ → Phase}
    (h : HasDerivWithinAt y (motion m (lorentz m q field) s (y s)) S s) :
    HasDerivWithinAt (fun s => Real.sqrt (m ^ 2 + (y s).2 ⬝ᵥ (y s).2))
      (q * (electric field s (y s).1 ⬝ᵥ velocity m (y s).2)) S s := by
  have h2 : HasDerivWithinAt (fun s => (y s).2) (lorentz m q field s (y s).1 (y s).2) S s :=
    (hasFDerivAt_snd (𝕜 := ℝ) (E := Fin 3 → ℝ) (F := Fin 3 → ℝ)).comp_hasDerivWithinAt s h
  have h2i := hasDerivWithinAt_pi.mp h2
  generalize hp' : lorentz m q field s (y s).1 (y s).2 = p' at h2i
  have hpos : 0 < m ^ 2 + (y s).2 ⬝ᵥ (y s).2 := by
    have : 0 ≤ (y s).2 ⬝ᵥ (y s).2 := by
      rw [dotProduct, Fin.sum_univ_three]
      have := mul_self_nonneg ((y s).2 0)
      have := mul_self_nonneg ((y s).2 1)
      have := mul_self_nonneg ((y s).2 2)
      linarith
    positivity
  have hdot : HasDerivWithinAt (fun s => m ^ 2 + (y s).2 ⬝ᵥ (y s).2) (2 * ((y s).2 ⬝ᵥ p')) S s := by
    have := (((h2i 0).mul (h2i 0)).add ((h2i 1).mul (h2i 1))).add ((h2i 2).mul (h2i 2))
    have := this.const_add (m ^ 2)
    refine (this.congr_deriv ?_).congr_of_eventuallyEq ?_ ?_
    · rw [dotProduct, Fin.sum_univ_three]; ring
    · refine Filter.Eventually.of_forall fun u => ?_
      simp only [dotProduct, Fin.sum_univ_three]; rfl
    · simp only [dotProduct, Fin.sum_univ_three]; rfl
  refine (hdot.sqrt hpos.ne').congr_deriv ?_
  rw [← hp']
  have hw : (y s).2 ⬝ᵥ lorentz m q field s (y s).1 (y s).2 =
      q * ((y s).2 ⬝ᵥ electric field s (y s).1) := by
    unfold lorentz velocity
    rw [dotProduct_smul, dotProduct_add, LinearMap.map_smul₂, dotProduct_smul, dot_cross_self',
      smul_zero, add_zero, smul_eq_mul]
  rw [hw, velocity, dotProduct_smul, dotProduct_comm (electric field s (y s).1), smul_eq_mul]
  have := (Real.sqrt_pos.mpr hpos).ne'
  field_simp

/-- What does not change along a solution stays what it was. -/
theorem constant_on {a b : ℝ} {f : ℝ → ℝ} (hd : ∀ s ∈ Set.Icc a b, HasDerivWithinAt f 0 (Set.Icc a b) s) :
    ∀ s ∈ Set.Icc a b, f s = f a := by
  intro s hs
  refine constant_of_has_deriv_right_zero (fun u hu => (hd u hu).continuousWithinAt) (fun u hu => ?_) s hs
  exact (hd u ⟨hu.1, hu.2.le⟩).mono_of_mem_nhdsWithin (Icc_mem_nhdsGE_of_mem hu)

/-- Total energy is constant along solutions. -/
theorem energy_constant {field : Field ℝ} {φ : (Fin 3 → ℝ) → ℝ} (hφ : HasPotential field φ) {m : ℝ}
    (hm : 0 < m) (q : ℝ) {a b : ℝ} {y : ℝ → Phase}
    (hy : ∀ s ∈ Set.Icc a b,
      HasDerivWithinAt y (motion m (lorentz m q field) s (y s)) (Set.Icc a b) s) :
    ∀ s ∈ Set.Icc a b, Real.sqrt (m ^ 2 + (y s).2 ⬝ᵥ (y s).2) + q * φ (y s).1 =
      Real.sqrt (m ^ 2 + (y a).2 ⬝ᵥ (y a).2) + q * φ (y a).1 := by
  refine constant_on (f := fun s => Real.sqrt (m ^ 2 + (y s).2 ⬝ᵥ (y s).2) + q * φ (y s).1) fun s hs => ?_
  have h := hy s hs
  have h1 : HasDerivWithinAt (fun s => (y s).1) (velocity m (y s).2) (Set.Icc a b) s :=
    (hasFDerivAt_fst (𝕜 := ℝ) (E := Fin 3 → ℝ) (F := Fin 3 → ℝ)).comp_hasDerivWithinAt s h
  obtain ⟨L, hL, hLv⟩ := hφ s (y s).1
  have hpot : HasDerivWithinAt (fun s => q * φ (y s).1) (q * L (velocity m (y s).2))
      (Set.Icc a b) s := (hL.comp_hasDerivWithinAt s h1).const_mul q
  refine ((energy_moves hm q h).add hpot).congr_deriv ?_
  rw [hLv]
  ring

/-- Energies of nearby momenta are near. -/
theorem sqrt_energy_lip {m : ℝ} (hm : 0 < m) (p r : Fin 3 → ℝ) :
    |Real.sqrt (m ^ 2 + p ⬝ᵥ p) - Real.sqrt (m ^ 2 + r ⬝ᵥ r)| ≤ 3 * ‖p - r‖ := by
  have pp : ∀ v : Fin 3 → ℝ, 0 ≤ v ⬝ᵥ v := fun v => by
    rw [dotProduct, Fin.sum_univ_three]
    have := mul_self_nonneg (v 0)
    have := mul_self_nonneg (v 1)
    have := mul_self_nonneg (v 2)
    linarith
  have a0 : 0 < m ^ 2 + p ⬝ᵥ p := by have := pp p; positivity
  have b0 : 0 < m ^ 2 + r ⬝ᵥ r := by have := pp r; positivity
  have comp : ∀ (v : Fin 3 → ℝ) i, |v i| ≤ Real.sqrt (m ^ 2 + v ⬝ᵥ v) := fun v i => by
    refine Real.abs_le_sqrt ?_
    have e : v ⬝ᵥ v = v 0 * v 0 + v 1 * v 1 + v 2 * v 2 := by rw [dotProduct, Fin.sum_univ_three]
    rw [e]
    fin_cases i <;> simp <;> nlinarith [mul_self_nonneg (v 0), mul_self_nonneg (v 1),
      mul_self_nonneg (v 2), sq_nonneg m]
  obtain ⟨A, hA⟩ : ∃ A, A = Real.sqrt (m ^ 2 + p ⬝ᵥ p) := ⟨_, rfl⟩
  obtain ⟨B, hB⟩ : ∃ B, B = Real.sqrt (m ^ 2 + r ⬝ᵥ r) := ⟨_, rfl⟩
  have hA2 : A * A = m ^ 2 + p ⬝ᵥ p := by rw [hA]; exact Real.mul_self_sqrt a0.le
  have hB2 : B * B = m ^ 2 + r ⬝ᵥ r := by rw [hB]; exact Real.mul_self_sqrt b0.le
  have hA0 : 0 < A := by rw [hA]; exact Real.sqrt_pos.mpr a0
  have hB0 : 0 < B := by rw [hB]; exact Real.sqrt_pos.mpr b0
  rw [← hA, ← hB]
  have hdiff : (A - B) * (A + B) = ∑ i, (p i - r i) * (p i + r i) := by
    have : (A - B) * (A + B) = p ⬝ᵥ p - r ⬝ᵥ r := by linarith
    rw [this, dotProduct, dotProduct, Fin.sum_univ_three, Fin.sum_univ_three, Fin.sum_univ_three]
    ring
  have hb : |(A - B) * (A + B)| ≤ 3 * ‖p - r‖ * (A + B) := by
    rw [hdiff]
    refine (Finset.abs_sum_le_sum_abs _ _).trans ?_
    have each : ∀ i, |(p i - r i) * (p i + r i)| ≤ ‖p - r‖ * (A + B) := fun i => by
      rw [abs_mul]
      refine mul_le_mul ?_ ?_ (abs_nonneg _) (norm_nonneg _)
      · exact norm_le_pi_norm (p - r) i
      · refine (abs_add_le _ _).trans ?_
        rw [hA, hB]
        exact add_le_add (comp p i) (comp r i)
    rw [Fin.sum_univ_three]
    have := each 0
    have := each 1
    have := each 2
    linarith
  rw [abs_mul, abs_of_pos (a := A + B) (by linarith)] at hb
  exact le_of_mul_le_mul_right hb (by linarith)

/-- Potentials of nearby places are near. -/
theorem potential_lip {field : Field ℝ} {F K : ℝ} (hf : SmoothField field F K)
    {φ : (Fin 3 → ℝ) → ℝ} (hφ : HasPotential field φ) (x z : Fin 3 → ℝ) :
    |φ x - φ z| ≤ 3 * F * ‖x - z‖ := by
  choose L hL hLv using fun x => hφ 0 x
  have hn : ∀ x, ‖L x‖ ≤ 3 * F := fun x => by
    refine ContinuousLinearMap.opNorm_le_bound _ (by have := (smooth_nonneg hf).1; positivity)
      fun v => ?_
    rw [hLv, norm_neg, Real.norm_eq_abs]
    refine (dot_le _ _).trans ?_
    have := hf.electric_le 0 x
    have := norm_nonneg v
    nlinarith
  have := Convex.norm_image_sub_le_of_norm_hasFDerivWithin_le (f := φ) (f' := L) (s := Set.univ)
    (C := 3 * F) (x := z) (y := x) (fun x _ => (hL x).hasFDerivWithinAt) (fun x _ => hn x)
    convex_univ (Set.mem_univ _) (Set.mem_univ _)
  rwa [Real.norm_eq_abs] at this

end QED
