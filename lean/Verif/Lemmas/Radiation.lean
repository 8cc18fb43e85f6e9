import Verif.Spec.Radiation
import Verif.Lemmas.Survival
import Mathlib.MeasureTheory.Function.JacobianOneDim
import Mathlib.MeasureTheory.Measure.Prod
import Mathlib.MeasureTheory.Constructions.Pi

set_option autoImplicit false

/-!
# The law of the emissions of a lepton: the probability

`depths` is a process that keeps a drawn optical depth; its records have the law of the
process without memory.
-/

namespace QED

open MCTools MeasureTheory

/-! ## Averages -/

theorem volume_unit : (volume.restrict (Set.Ico (0 : ℝ) 1)) Set.univ = 1 := by
  rw [Measure.restrict_apply_univ, Real.volume_Ico]; simp

theorem lintegral_unit (c : ENNReal) : ∫⁻ _ in Set.Ico (0 : ℝ) 1, c = c := by
  rw [lintegral_const, volume_unit, mul_one]

theorem average_succ (N : Nat) (F : List ℝ → ENNReal) :
    average (N + 1) F = ∫⁻ u in Set.Ico (0 : ℝ) 1, average N fun us => F (u :: us) := rfl

theorem average_congr {N : Nat} {F G : List ℝ → ENNReal}
    (h : ∀ us, us.length = N → (∀ u ∈ us, 0 ≤ u ∧ u < 1) → F us = G us) :
    average N F = average N G := by
  induction N generalizing F G with
  | zero => exact h [] rfl (by simp)
  | succ N ih =>
    rw [average_succ, average_succ]
    refine setLIntegral_congr_fun measurableSet_Ico fun u hu => ih fun us hus hv => ?_
    exact h (u :: us) (by simp [hus]) (by
      intro v hv'
      rcases List.mem_cons.mp hv' with rfl | h'
      · exact hu
      · exact hv v h')

theorem average_const (N : Nat) (c : ENNReal) : (average N fun _ => c) = c := by
  induction N with
  | zero => rfl
  | succ N ih => rw [average_succ, ih, lintegral_unit]

/-- For events that a measure can be assigned to, this is the product measure. -/
theorem average_eq_pi (N : Nat) (F : List ℝ → ENNReal)
    (hF : Measurable fun u : Fin N → ℝ => F (List.ofFn u)) :
    average N F =
      ∫⁻ u, F (List.ofFn u) ∂Measure.pi fun _ : Fin N => volume.restrict (Set.Ico (0 : ℝ) 1) := by
  induction N generalizing F with
  | zero =>
    rw [Measure.pi_of_empty, lintegral_dirac' _ hF]
    simp [average]
  | succ N ih =>
    have e := measurePreserving_piFinSuccAbove
      (fun _ : Fin (N + 1) => volume.restrict (Set.Ico (0 : ℝ) 1)) 0
    have hcons : ∀ (u : ℝ) (us : Fin N → ℝ), List.ofFn (Fin.cons u us : Fin (N + 1) → ℝ) =
        u :: List.ofFn us := by
      intro u us; rw [List.ofFn_succ]; simp
    have hval : ∀ x : ℝ × (Fin N → ℝ),
        F (List.ofFn ((MeasurableEquiv.piFinSuccAbove (fun _ : Fin (N + 1) => ℝ) 0).symm x)) =
          F (x.1 :: List.ofFn x.2) := by
      intro x
      congr 1
      rw [← hcons]
      congr 1
      ext i
      refine Fin.cases ?_ (fun j => ?_) i <;> simp [MeasurableEquiv.piFinSuccAbove]
    have hm : Measurable fun x : ℝ × (Fin N → ℝ) => F (x.1 :: List.ofFn x.2) := by
      have := hF.comp (MeasurableEquiv.piFinSuccAbove (fun _ : Fin (N + 1) => ℝ) 0).symm.measurable
      simpa only [Function.comp_def, hval] using this
    have e' := e.symm
    rw [← e'.lintegral_comp hF]
    simp only [hval]
    rw [lintegral_prod _ hm.aemeasurable, average_succ]
    refine lintegral_congr fun u => ?_
    exact ih _ (hm.comp measurable_prodMk_left)

/-! ## The exponential law forgets -/

theorem initDepth_shift {s u : ℝ} (hu : u < 1) :
    initDepth (1 - Real.exp (-s) + Real.exp (-s) * u) - s = initDepth u := by
  simp only [initDepth, real_mul, real_lit, real_log, real_sub]
  push_cast
  have : 1 - (1 - Real.exp (-s) + Real.exp (-s) * u) = Real.exp (-s) * (1 - u) := by ring
  rw [this, Real.log_mul (Real.exp_pos _).ne' (by linarith), Real.log_exp]
  ring

/-- Given that the drawn depth is at least `s`, what is left of it has the law of a drawn
depth. -/
theorem lintegral_depth {s : ℝ} (hs : 0 ≤ s) (f : ℝ → ENNReal) (c : ENNReal) :
    (∫⁻ u in Set.Ico (0 : ℝ) 1, if s ≤ initDepth u then f (initDepth u - s) else c) =
      ENNReal.ofReal (Real.exp (-s)) * (∫⁻ u in Set.Ico (0 : ℝ) 1, f (initDepth u)) +
        ENNReal.ofReal (1 - Real.exp (-s)) * c := by
  have h0 : 0 < Real.exp (-s) := Real.exp_pos _
  have h1 : Real.exp (-s) ≤ 1 := Real.exp_le_one_iff.mpr (by linarith)
  have hU : Set.Ico (0 : ℝ) 1 = Set.Ico (1 - Real.exp (-s)) 1 ∪ Set.Ico 0 (1 - Real.exp (-s)) := by
    rw [Set.union_comm, Set.Ico_union_Ico_eq_Ico (by linarith) (by linarith)]
  have hD : Disjoint (Set.Ico (1 - Real.exp (-s)) 1) (Set.Ico 0 (1 - Real.exp (-s))) := by
    rw [Set.disjoint_left]
    intro x hx hx'
    exact absurd hx'.2 (not_lt.mpr hx.1)
  conv_lhs => rw [hU]
  rw [lintegral_union measurableSet_Ico hD]
  congr 1
  · have himg : (fun u => 1 - Real.exp (-s) + Real.exp (-s) * u) '' Set.Ico (0 : ℝ) 1 =
        Set.Ico (1 - Real.exp (-s)) 1 := by
      ext x
      simp only [Set.mem_image, Set.mem_Ico]
      constructor
      · rintro ⟨u, ⟨a, b⟩, rfl⟩
        exact ⟨by nlinarith, by nlinarith⟩
      · rintro ⟨a, b⟩
        refine ⟨(x - (1 - Real.exp (-s))) / Real.exp (-s), ⟨?_, ?_⟩, ?_⟩
        · exact div_nonneg (by linarith) h0.le
        · rw [div_lt_one h0]; linarith
        · field_simp; ring
    rw [← himg, lintegral_image_eq_lintegral_abs_deriv_mul (f' := fun _ => Real.exp (-s))
      measurableSet_Ico]
    · rw [← lintegral_const_mul' _ _ ENNReal.ofReal_ne_top]
      refine setLIntegral_congr_fun measurableSet_Ico fun u hu => ?_
      rw [abs_of_pos h0, initDepth_shift hu.2, if_pos]
      rw [initDepth_ge (by have := hu.2; nlinarith)]
      have := hu.1; nlinarith
    · intro x _
      have := ((hasDerivAt_id x).const_mul (Real.exp (-s))).const_add (1 - Real.exp (-s))
      simpa using this.hasDerivWithinAt
    · intro a _ b _ hab
      simpa [h0.ne'] using hab
  · have : ∀ u ∈ Set.Ico 0 (1 - Real.exp (-s)),
        (if s ≤ initDepth u then f (initDepth u - s) else c) = c := by
      intro u hu
      rw [if_neg]
      rw [initDepth_ge (by linarith [hu.2])]
      exact not_le.mpr hu.2
    rw [setLIntegral_congr_fun measurableSet_Ico this, lintegral_const,
      Measure.restrict_apply_univ, Real.volume_Ico, sub_zero, mul_comm]

/-! ## The process that keeps a depth -/

section depths

variable {α : Type} (push : α → α) (rate : α → ℝ) (kick : α → ℝ → α) (extra : α → ℝ → ℝ → Nat)

/-- The record of the process that keeps an optical depth. An emission uses one number for
the energy, then `extra` others, then one for the new depth. -/
noncomputable def depths : Nat → α → ℝ → List ℝ → List (Option ℝ)
  | 0, _, _, _ => []
  | n + 1, q, d, us =>
    if rate (push q) ≤ d then none :: depths n (push q) (d - rate (push q)) us
    else
      let v := us.headD 0
      let k := extra (push q) v (us.tail.headD 0)
      some v :: depths n (kick (push q) v) (initDepth (us.tail.getD k 0)) (us.tail.drop (k + 1))

/-- At most two other numbers are used; whether any are is decided by the first. -/
def Modest : Prop := ∀ q v, (∀ x, extra q v x = 0) ∨ ∀ x, extra q v x = 1 ∨ extra q v x = 2

variable {push rate kick extra}

/-- What follows an emission. -/
theorem average_after (he : Modest extra) (q : α) (v : ℝ) (n N : Nat) (hN : 4 * n + 3 ≤ N)
    (G : ℝ → List ℝ → ENNReal) (c : ENNReal)
    (hG : ∀ M, 4 * n ≤ M → ∫⁻ u in Set.Ico (0 : ℝ) 1, average M (G u) = c) :
    (average N fun us => G (us.getD (extra q v (us.headD 0)) 0)
      (us.drop (extra q v (us.headD 0) + 1))) = c := by
  obtain ⟨N, rfl⟩ : ∃ M, N = M + 3 := ⟨N - 3, by omega⟩
  rcases he q v with h | h
  · simp only [h]
    rw [average_succ]
    exact hG (N + 2) (by omega)
  · rw [average_succ]
    rw [← lintegral_unit c]
    refine lintegral_congr fun x => ?_
    rcases h x with hx | hx
    · simp only [List.headD_cons, hx]
      rw [average_succ]
      exact hG (N + 1) (by omega)
    · simp only [List.headD_cons, hx]
      rw [average_succ, ← lintegral_unit c]
      refine lintegral_congr fun y => ?_
      rw [average_succ]
      exact hG N (by omega)

/-- The records have the law of the process without memory. -/
theorem depths_law (hr : ∀ q, 0 ≤ rate q) (he : Modest extra) (n N : Nat) (hN : 4 * n ≤ N) (q : α)
    (G : List (Option ℝ) → ENNReal) :
    (∫⁻ u in Set.Ico (0 : ℝ) 1,
      average N fun us => G (depths push rate kick extra n q (initDepth u) us)) =
    memoryless push rate kick n q G := by
  induction n generalizing N q G with
  | zero =>
    simp only [depths, memoryless]
    simp only [average_const, lintegral_unit]
  | succ n ih =>
    rw [memoryless, ← ih N (by omega), ← lintegral_depth (hr _) (fun d => average N fun us =>
      G (none :: depths push rate kick extra n (push q) d us))]
    refine lintegral_congr fun u => ?_
    split_ifs with hd
    · simp only [depths, if_pos hd]
    · simp only [depths, if_neg hd]
      obtain ⟨N, rfl⟩ : ∃ M, N = M + 1 := ⟨N - 1, by omega⟩
      rw [average_succ]
      refine lintegral_congr fun v => ?_
      exact average_after he (push q) v n N (by omega)
        (fun w us => G (some v :: depths push rate kick extra n (kick (push q) v)
          (initDepth w) us)) _ fun M hM =>
          ih M hM (kick (push q) v) fun h => G (some v :: h)

end depths

/-! ## The process without memory -/

section memoryless

variable {α : Type} (push : α → α) (rate : α → ℝ) (kick : α → ℝ → α)

/-- It always does something. -/
theorem memoryless_const (hr : ∀ q, 0 ≤ rate q) (n : Nat) (q : α) (c : ENNReal) :
    memoryless push rate kick n q (fun _ => c) = c := by
  induction n generalizing q with
  | zero => rfl
  | succ n ih =>
    simp only [memoryless, ih, lintegral_unit]
    rw [← add_mul, ← ENNReal.ofReal_add (Real.exp_pos _).le (by
      have := Real.exp_le_one_iff.mpr (neg_nonpos.mpr (hr (push q)))
      linarith)]
    simp

/-- Whatever the record of `n` steps, the next step is quiet with probability `exp (-rate)`. -/
theorem memoryless_next (hr : ∀ q, 0 ≤ rate q) (n : Nat) (q : α) (G : List (Option ℝ) → ENNReal) :
    memoryless push rate kick (n + 1) q (fun h => G (h.take n) * indic (h[n]? = some none)) =
      memoryless push rate kick n q (fun h => G h *
        ENNReal.ofReal (Real.exp (-rate (push (following push kick h q))))) := by
  induction n generalizing q G with
  | zero =>
    simp [memoryless, indic, following, mul_comm]
  | succ n ih =>
    rw [memoryless]
    conv_rhs => rw [memoryless]
    simp only [List.take_succ_cons, List.getElem?_cons_succ]
    rw [ih (push q) fun h => G (none :: h)]
    congr 2
    refine lintegral_congr fun v => ?_
    exact ih (kick (push q) v) fun h => G (some v :: h)

/-- It emits nothing with the exponential probability. -/
theorem memoryless_none (hr : ∀ q, 0 ≤ rate q) (n : Nat) (q : α) :
    memoryless push rate kick n q (fun h => indic (∀ x ∈ h, x = none)) =
      ENNReal.ofReal (Real.exp (-∑ k ∈ Finset.range n, rate (push^[k + 1] q))) := by
  induction n generalizing q with
  | zero => simp [memoryless, indic]
  | succ n ih =>
    have e1 : (fun h : List (Option ℝ) => indic (∀ x ∈ none :: h, x = none)) =
        fun h => indic (∀ x ∈ h, x = none) := by
      funext h; simp
    have e2 : ∀ v : ℝ, (fun h : List (Option ℝ) => indic (∀ x ∈ some v :: h, x = none)) =
        fun _ => 0 := by
      intro v; funext h; simp [indic]
    simp only [memoryless, e1, e2, ih, memoryless_const push rate kick hr]
    simp only [lintegral_zero, mul_zero, add_zero]
    rw [← ENNReal.ofReal_mul (Real.exp_pos _).le, ← Real.exp_add, Finset.sum_range_succ']
    congr 2
    simp only [Function.iterate_succ_apply, Function.iterate_zero, id]
    ring

end memoryless

end QED
