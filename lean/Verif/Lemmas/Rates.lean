import Verif.Spec.Rates
import Verif.Props.Numerics
import Verif.Props.Invariants
import Verif.Props.Convergence

set_option autoImplicit false

/-!
# Continuity of the rates
-/

namespace QED

open Numerics

theorem getD_at {l : List ℝ} {i : Nat} (h : i < l.length) : l.getD i 0 = l[i] := by
  simp [List.getD, h]

theorem continuous_polyline (s d : List ℝ) : Continuous (polyline s d) := by
  unfold polyline
  refine continuous_const.add (continuous_finsetSum _ fun i _ => continuous_const.mul ?_)
  exact ((continuous_const.max (continuous_id.min continuous_const)).sub continuous_const).div_const _

/-- Inside a table the interpolated value is on the curve of straight pieces through its points. -/
theorem interpolate_polyline {s d : List ℝ} (t : IsTable s d) (q : ℝ)
    (h0 : s[0]'(by have := t.two; omega) ≤ q) (h1 : q < s[s.length - 1]'(by have := t.two; omega)) :
    interpolate1D s d q = .ok (polyline s d q) := by
  have hn := t.two
  have hlen := t.len
  obtain ⟨j, hj, g0, g1⟩ := exists_segment (by omega) h0 h1
  rw [C05_on_segment t q j hj g0 g1]
  congr 1
  have hterm : ∀ i ∈ Finset.range (s.length - 1), (d.getD (i + 1) 0 - d.getD i 0) *
      ((max (s.getD i 0) (min q (s.getD (i + 1) 0)) - s.getD i 0) / (s.getD (i + 1) 0 - s.getD i 0)) =
      (d.getD (min (i + 1) j) 0 - d.getD (min i j) 0) + if i = j then
        (d.getD (j + 1) 0 - d.getD j 0) * ((q - s.getD j 0) / (s.getD (j + 1) 0 - s.getD j 0)) else 0 := by
    intro i hi
    have hi : i + 1 < s.length := by have := Finset.mem_range.mp hi; omega
    have e0 : s.getD i 0 = s[i] := by rw [getD_at (by omega)]
    have e1 : s.getD (i + 1) 0 = s[i + 1] := by rw [getD_at hi]
    have hlt : s[i] < s[i + 1] := sorted_lt t.sorted (Nat.lt_succ_self i) hi
    rcases Nat.lt_trichotomy i j with hij | hij | hij
    · have : s[i + 1] ≤ s[j] := sorted_le t.sorted hij (by omega)
      rw [e0, e1, min_eq_right (by linarith), max_eq_right hlt.le, div_self (by linarith), if_neg (by omega),
        min_eq_left (by omega), min_eq_left (by omega)]
      ring
    · subst hij
      rw [e0, e1, min_eq_left g1.le, max_eq_right g0, if_pos rfl, min_eq_right (by omega), min_self]
      ring
    · have : s[j + 1] ≤ s[i] := sorted_le t.sorted hij (by omega)
      rw [e0, e1, min_eq_left (by linarith), max_eq_left (by linarith), if_neg (by omega),
        min_eq_right (by omega), min_eq_right (by omega)]
      ring
  unfold polyline
  rw [Finset.sum_congr rfl hterm, Finset.sum_add_distrib,
    Finset.sum_range_sub (fun i => d.getD (min i j) 0), Finset.sum_ite_eq' (Finset.range (s.length - 1)) j,
    if_pos (Finset.mem_range.mpr (by omega)), min_eq_right (by omega), Nat.zero_min]
  rw [getD_at (show j < s.length by omega), getD_at hj,
    getD_at (show j < d.length by omega), getD_at (show j + 1 < d.length by omega)]
  unfold lineThrough
  ring

theorem continuous_gammaOf (m : ℝ) : Continuous (gammaOf m) := by
  unfold gammaOf
  fun_prop

theorem gammaOf_pos (m : ℝ) (p : Fin 3 → ℝ) : 0 < gammaOf m p := Real.sqrt_pos.2 (by positivity)

theorem SmoothField.continuous_electric {field : Field ℝ} {F K : ℝ} (h : SmoothField field F K) :
    Continuous fun z : ℝ × (Fin 3 → ℝ) => electric field z.1 z.2 := by
  rw [continuous_iff_continuousAt]
  intro z
  rw [ContinuousAt, tendsto_iff_norm_sub_tendsto_zero]
  refine squeeze_zero (fun _ => norm_nonneg _) (fun w => h.electric_lip w.1 z.1 w.2 z.2) ?_
  have : Continuous fun w : ℝ × (Fin 3 → ℝ) => K * (|w.1 - z.1| + ‖w.2 - z.2‖) := by fun_prop
  have := this.tendsto z
  simpa using this

theorem SmoothField.continuous_magnetic {field : Field ℝ} {F K : ℝ} (h : SmoothField field F K) :
    Continuous fun z : ℝ × (Fin 3 → ℝ) => magnetic field z.1 z.2 := by
  rw [continuous_iff_continuousAt]
  intro z
  rw [ContinuousAt, tendsto_iff_norm_sub_tendsto_zero]
  refine squeeze_zero (fun _ => norm_nonneg _) (fun w => h.magnetic_lip w.1 z.1 w.2 z.2) ?_
  have : Continuous fun w : ℝ × (Fin 3 → ℝ) => K * (|w.1 - z.1| + ‖w.2 - z.2‖) := by fun_prop
  have := this.tendsto z
  simpa using this

/-- The quantum parameter is continuous in fields and four-momentum. -/
theorem continuous_quantumParameter {X : Type} [TopologicalSpace X] {e b p : X → Fin 3 → ℝ} {t : X → ℝ}
    (he : Continuous e) (hb : Continuous b) (hp : Continuous p) (ht : Continuous t) :
    Continuous fun x => quantumParameter (fieldTensor (V3.ofVec (e x)) (V3.ofVec (b x)))
      (fourVector (t x) (V3.ofVec (p x))) := by
  simp only [quantumParameter_eq, V3.ofVec]
  have c : ∀ {f : X → Fin 3 → ℝ}, Continuous f → ∀ i, Continuous fun x => f x i :=
    fun h i => (continuous_apply i).comp h
  have e0 := c he 0
  have e1 := c he 1
  have e2 := c he 2
  have b0 := c hb 0
  have b1 := c hb 1
  have b2 := c hb 2
  have p0 := c hp 0
  have p1 := c hp 1
  have p2 := c hp 2
  fun_prop

theorem SmoothField.continuous_eta {field : Field ℝ} {F K : ℝ} (h : SmoothField field F K) (m : ℝ) :
    Continuous fun z : ℝ × Phase => etaOf m field z.1 z.2 := by
  unfold etaOf
  refine continuous_quantumParameter (h.continuous_electric.comp (continuous_fst.prodMk
    (continuous_fst.comp continuous_snd))) (h.continuous_magnetic.comp (continuous_fst.prodMk
    (continuous_fst.comp continuous_snd))) ?_ ((continuous_gammaOf m).comp (continuous_snd.comp continuous_snd))
  exact continuous_pi fun i => ((continuous_apply i).comp (continuous_snd.comp continuous_snd)).div_const _

theorem continuousAt_rateOfEmission {field : Field ℝ} {F K : ℝ} (h : SmoothField field F K) (s d : List ℝ) (m : ℝ)
    {z : ℝ × Phase} (hz : etaOf m field z.1 z.2 ≠ 0) :
    ContinuousAt (fun z : ℝ × Phase => rateOfEmission s d m field z.1 z.2) z := by
  have he := (h.continuous_eta m).continuousAt (x := z)
  have hl : ContinuousAt (fun z : ℝ × Phase => polyline s d (Real.logb 10 (etaOf m field z.1 z.2))) z := by
    refine (continuous_polyline s d).continuousAt.comp ?_
    unfold Real.logb
    exact (he.log hz).div_const _
  have hg : ContinuousAt (fun z : ℝ × Phase => gammaOf m z.2.2 * 2 * Units.pi) z :=
    (((continuous_gammaOf m).comp (continuous_snd.comp continuous_snd)).mul_const 2 |>.mul_const _).continuousAt
  unfold rateOfEmission
  refine ((continuousAt_const.mul he).mul (continuousAt_const.rpow hl (Or.inl (by norm_num)))).div hg ?_
  have := gammaOf_pos m z.2.2
  have hp : (0:ℝ) < Units.pi := by simp only [Units.pi, real_lit]; norm_num
  positivity

end QED
