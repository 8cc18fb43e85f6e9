import Verif.Props.Sampling
import Mathlib.MeasureTheory.Integral.IntervalIntegral.Basic
import Mathlib.Analysis.SpecialFunctions.Integrals.Basic
import Mathlib.Analysis.MeanInequalities

set_option autoImplicit false

/-!
# The mean of a sampled value

Helper lemmas for C145: bounds on the mean of `10 ^ y u` over `u` in `[0, 1)`, where `y` is what the lookup of
`u` in a row of cumulative probabilities gives.
-/

namespace QED
namespace Shipped

open MeasureTheory Numerics

/-- The straight line from `P` at `a` to `Q` at `b`. -/
noncomputable def chord (a b P Q u : ℝ) : ℝ := (1 - (u - a) / (b - a)) * P + (u - a) / (b - a) * Q

theorem chord_eq (a b P Q u : ℝ) : chord a b P Q u = (P - a * ((Q - P) / (b - a))) + (Q - P) / (b - a) * u := by
  unfold chord
  ring

theorem measurable_chord (a b P Q : ℝ) : Measurable (chord a b P Q) := by
  unfold chord
  fun_prop

theorem continuous_chord (a b P Q : ℝ) : Continuous (chord a b P Q) := by
  have : chord a b P Q = fun u => (P - a * ((Q - P) / (b - a))) + (Q - P) / (b - a) * u :=
    funext fun u => chord_eq a b P Q u
  rw [this]
  fun_prop

theorem lintegral_chord {a b P Q : ℝ} (hab : a < b) (hP : 0 ≤ P) (hQ : 0 ≤ Q) :
    ∫⁻ u in Set.Ico a b, ENNReal.ofReal (chord a b P Q u) = ENNReal.ofReal ((b - a) * ((P + Q) / 2)) := by
  have hpos : 0 < b - a := by linarith
  have hint : IntegrableOn (chord a b P Q) (Set.Ico a b) :=
    ((continuous_chord a b P Q).integrableOn_Icc).mono_set Set.Ico_subset_Icc_self
  rw [← ofReal_integral_eq_lintegral_ofReal hint]
  · congr 1
    rw [integral_Ico_eq_integral_Ioc, ← intervalIntegral.integral_of_le hab.le]
    simp only [chord_eq]
    rw [intervalIntegral.integral_add (f := fun _ => P - a * ((Q - P) / (b - a)))
      (g := fun u => (Q - P) / (b - a) * u) (continuous_const.intervalIntegrable _ _)
      (Continuous.intervalIntegrable (by fun_prop) _ _), intervalIntegral.integral_const, intervalIntegral.integral_const_mul, integral_id]
    simp only [smul_eq_mul]
    field_simp
    ring
  · refine (ae_restrict_mem measurableSet_Ico).mono fun u hu => ?_
    have h0 : 0 ≤ (u - a) / (b - a) := div_nonneg (by linarith [hu.1]) hpos.le
    have h1 : (u - a) / (b - a) ≤ 1 := by rw [div_le_one hpos]; linarith [hu.2]
    show 0 ≤ chord a b P Q u
    unfold chord
    exact add_nonneg (mul_nonneg (by linarith) hP) (mul_nonneg h0 hQ)

/-- A row of cumulative probabilities over values on a straight line. -/
structure Row (s c : List ℝ) (a w : ℝ) : Prop where
  straight : Straight c a w
  table : MonoTable s c
  top : s[99]? = some 1
  pos : ∀ x, s[0]? = some x → 0 ≤ x
  first : ∀ x y, s[0]? = some x → s[1]? = some y → x = 0 ∨ x < y
  up : 0 ≤ w

namespace Row

variable {s c : List ℝ} {a w : ℝ}

theorem length (h : Row s c a w) : s.length = 100 := by
  have := h.table.len
  have := h.straight.1
  omega

/-- What a draw gives: in the interval `j` a value on the straight line, below the first one at most the first. -/
theorem lookup (h : Row s c a w) {u : ℝ} (h0 : 0 ≤ u) (h1 : u < 1) :
    (u < s.getD 0 0 ∧ ∃ y ≤ a, interpolate1D s c u = .ok y) ∨
    ∃ j < 99, s.getD j 0 ≤ u ∧ u < s.getD (j + 1) 0 ∧ interpolate1D s c u =
      .ok (a + w * ((j + (u - s.getD j 0) / (s.getD (j + 1) 0 - s.getD j 0)) / 99)) := by
  have hl := h.length
  have get : ∀ j (hj : j < s.length), s.getD j 0 = s[j] := fun j hj => by
    rw [List.getD_eq_getElem?_getD, List.getElem?_eq_getElem hj]; rfl
  by_cases hu : s[0] ≤ u
  · right
    have et : s[99] = 1 := by
      have := h.top
      rw [List.getElem?_eq_getElem (by omega)] at this; exact Option.some.inj this
    obtain ⟨i, hi, g0, g1⟩ := exists_segment (by omega) hu (by simpa [hl, et] using h1)
    refine ⟨i, by omega, ?_, ?_, ?_⟩
    · rw [get i (by omega)]; exact g0
    · rw [get (i + 1) hi]; exact g1
    · rw [get i (by omega), get (i + 1) hi]
      exact straight_segment h.straight h.table hi g0 g1
  · left
    have hu := not_le.1 hu
    refine ⟨by rw [get 0 (by omega)]; exact hu, _, ?_, straight_first h.straight h.table hu⟩
    have h01 : s[0] < s[1] := by
      rcases h.first _ _ (List.getElem?_eq_getElem (by omega)) (List.getElem?_eq_getElem (by omega)) with h | h
      · linarith
      · exact h
    have : (u - s[0]) / (s[1] - s[0]) ≤ 0 := div_nonpos_of_nonpos_of_nonneg (by linarith) (by linarith)
    have := mul_nonpos_of_nonneg_of_nonpos h.up (div_nonpos_of_nonpos_of_nonneg this (by norm_num : (0:ℝ) ≤ 99))
    linarith

theorem value (h : Row s c a w) {u : ℝ} (h0 : 0 ≤ u) (h1 : u < 1) : ∃ y, interpolate1D s c u = .ok y := by
  rcases h.lookup h0 h1 with ⟨-, y, -, hy⟩ | ⟨j, -, -, -, hy⟩
  · exact ⟨y, hy⟩
  · exact ⟨_, hy⟩

end Row

/-! ## From above -/

/-- The chords over the intervals of a row. -/
noncomputable def chords (s : List ℝ) (P : Nat → ℝ) (u : ℝ) : ENNReal :=
  (Set.Iio (s.getD 0 0)).indicator (fun _ => ENNReal.ofReal (P 0)) u +
    ∑ j ∈ Finset.range 99, (Set.Ico (s.getD j 0) (s.getD (j + 1) 0)).indicator
      (fun u => ENNReal.ofReal (chord (s.getD j 0) (s.getD (j + 1) 0) (P j) (P (j + 1)) u)) u

theorem measurable_chords (s : List ℝ) (P : Nat → ℝ) : Measurable (chords s P) := by
  unfold chords
  refine (measurable_const.indicator measurableSet_Iio).add (Finset.measurable_sum _ fun j _ => ?_)
  exact (measurable_chord _ _ _ _).ennreal_ofReal.indicator measurableSet_Ico

theorem chords_lintegral (s : List ℝ) (hs : ∀ j < 99, s.getD j 0 ≤ s.getD (j + 1) 0) (h0 : 0 ≤ s.getD 0 0)
    (P : Nat → ℝ) (hP : ∀ j, 0 ≤ P j) :
    ∫⁻ u in Set.Ico (0 : ℝ) 1, chords s P u ≤ ENNReal.ofReal (s.getD 0 0 * P 0 +
      ∑ j ∈ Finset.range 99, (s.getD (j + 1) 0 - s.getD j 0) * ((P j + P (j + 1)) / 2)) := by
  unfold chords
  rw [lintegral_add_left (measurable_const.indicator measurableSet_Iio), lintegral_finsetSum _ fun j _ =>
    (measurable_chord _ _ _ _).ennreal_ofReal.indicator measurableSet_Ico,
    ENNReal.ofReal_add (mul_nonneg h0 (hP 0)) (Finset.sum_nonneg fun j hj =>
      mul_nonneg (by linarith [hs j (Finset.mem_range.1 hj)]) (by linarith [hP j, hP (j + 1)])),
    ENNReal.ofReal_sum_of_nonneg fun j hj =>
      mul_nonneg (by linarith [hs j (Finset.mem_range.1 hj)]) (by linarith [hP j, hP (j + 1)])]
  refine add_le_add ?_ (Finset.sum_le_sum fun j hj => ?_)
  · rw [lintegral_indicator measurableSet_Iio, Measure.restrict_restrict measurableSet_Iio]
    refine (lintegral_mono_set (t := Set.Ico 0 (s.getD 0 0)) fun u hu => ⟨hu.2.1, hu.1⟩).trans ?_
    rw [setLIntegral_const, Real.volume_Ico, sub_zero, ← ENNReal.ofReal_mul (hP 0), mul_comm]
  · rw [lintegral_indicator measurableSet_Ico, Measure.restrict_restrict measurableSet_Ico]
    refine (lintegral_mono_set Set.inter_subset_left).trans ?_
    rcases (hs j (Finset.mem_range.1 hj)).lt_or_eq with h | h
    · exact (lintegral_chord h (hP _) (hP _)).le
    · rw [h, Set.Ico_self]
      simp

theorem Row.le_chords {s c : List ℝ} {a w : ℝ} (h : Row s c a w) {u y : ℝ} (h0 : 0 ≤ u) (h1 : u < 1)
    (hy : interpolate1D s c u = .ok y) :
    ENNReal.ofReal ((10 : ℝ) ^ y) ≤ chords s (fun j => (10 : ℝ) ^ (a + w * (j / 99))) u := by
  unfold chords
  rcases h.lookup h0 h1 with ⟨hu, z, hz, hl⟩ | ⟨j, hj, g0, g1, hl⟩
  · rw [hy] at hl
    obtain rfl := Res.ok.inj hl
    refine le_trans ?_ (le_add_of_nonneg_right zero_le)
    rw [Set.indicator_of_mem (show u ∈ Set.Iio _ from hu)]
    refine ENNReal.ofReal_le_ofReal (Real.rpow_le_rpow_of_exponent_le (by norm_num) ?_)
    simpa using hz
  · rw [hy] at hl
    obtain rfl := Res.ok.inj hl
    refine le_trans ?_ (le_add_of_nonneg_left zero_le)
    refine le_trans ?_ (Finset.single_le_sum (fun _ _ => zero_le) (Finset.mem_range.2 hj))
    rw [Set.indicator_of_mem (show u ∈ Set.Ico _ _ from ⟨g0, g1⟩)]
    refine ENNReal.ofReal_le_ofReal ?_
    unfold chord
    generalize ht : (u - s.getD j 0) / (s.getD (j + 1) 0 - s.getD j 0) = t
    have hpos : 0 < s.getD (j + 1) 0 - s.getD j 0 := by linarith
    have t0 : 0 ≤ t := by rw [← ht]; exact div_nonneg (by linarith) hpos.le
    have t1 : t ≤ 1 := by rw [← ht, div_le_one hpos]; linarith
    have key := Real.geom_mean_le_arith_mean2_weighted (by linarith : (0 : ℝ) ≤ 1 - t) t0
      (by positivity : (0 : ℝ) ≤ (10 : ℝ) ^ (a + w * ((j : ℝ) / 99)))
      (by positivity : (0 : ℝ) ≤ (10 : ℝ) ^ (a + w * (((j + 1 : Nat) : ℝ) / 99))) (by ring)
    refine le_trans (le_of_eq ?_) key
    rw [← Real.rpow_mul (by norm_num), ← Real.rpow_mul (by norm_num), ← Real.rpow_add (by norm_num)]
    congr 1
    push_cast
    ring

theorem Row.getD_mono {s c : List ℝ} {a w : ℝ} (h : Row s c a w) (j : Nat) (hj : j < 99) :
    s.getD j 0 ≤ s.getD (j + 1) 0 := by
  have hl := h.length
  rw [List.getD_eq_getElem?_getD, List.getD_eq_getElem?_getD, List.getElem?_eq_getElem (by omega),
    List.getElem?_eq_getElem (by omega)]
  exact mono_le h.table.mono (by omega) (by omega)

theorem Row.getD_zero {s c : List ℝ} {a w : ℝ} (h : Row s c a w) : 0 ≤ s.getD 0 0 := by
  have hl := h.length
  rw [List.getD_eq_getElem?_getD, List.getElem?_eq_getElem (by omega)]
  exact h.pos _ (List.getElem?_eq_getElem (by omega))

/-! ## From below -/

theorem Row.ge_tangents {s c : List ℝ} {a w : ℝ} (h : Row s c a w) (hw : w ≤ 40) (y : ℝ → ℝ)
    (hy : ∀ u, 0 ≤ u → u < 1 → interpolate1D s c u = .ok (y u)) :
    ENNReal.ofReal (∑ j ∈ Finset.range 99, (s.getD (j + 1) 0 - s.getD j 0) *
        (10 : ℝ) ^ (a + w * ((j + 1 / 2) / 99))) ≤
      ∫⁻ u in Set.Ico (0 : ℝ) 1, ENNReal.ofReal ((10 : ℝ) ^ y u) := by
  have hl := h.length
  have hmono : ∀ i j, i ≤ j → j ≤ 99 → s.getD i 0 ≤ s.getD j 0 := by
    intro i j hij hj
    rw [List.getD_eq_getElem?_getD, List.getD_eq_getElem?_getD, List.getElem?_eq_getElem (by omega),
      List.getElem?_eq_getElem (by omega)]
    exact mono_le h.table.mono hij (by omega)
  have htop : s.getD 99 0 = 1 := by
    rw [List.getD_eq_getElem?_getD, h.top]; rfl
  have hsub : (⋃ j ∈ Finset.range 99, Set.Ico (s.getD j 0) (s.getD (j + 1) 0)) ⊆ Set.Ico (0 : ℝ) 1 := by
    refine Set.iUnion₂_subset fun j hj u hu => ?_
    have hj := Finset.mem_range.1 hj
    refine ⟨?_, ?_⟩
    · have := hmono 0 j (by omega) (by omega)
      have := h.getD_zero
      linarith [hu.1]
    · have := hmono (j + 1) 99 (by omega) (by omega)
      linarith [hu.2]
  refine le_trans ?_ (lintegral_mono_set hsub)
  rw [lintegral_biUnion_finset ?_ (fun _ _ => measurableSet_Ico)]
  · rw [ENNReal.ofReal_sum_of_nonneg fun j hj => mul_nonneg
      (by linarith [h.getD_mono j (Finset.mem_range.1 hj)]) (by positivity)]
    refine Finset.sum_le_sum fun j hj => ?_
    have hj := Finset.mem_range.1 hj
    rcases (h.getD_mono j hj).lt_or_eq with hlt | heq
    · have hlog0 : 0 ≤ Real.log 10 := Real.log_nonneg (by norm_num)
      have hlog : Real.log 10 ≤ 3.5 := by
        rw [Real.log_le_iff_le_exp (by norm_num)]
        have := Real.quadratic_le_exp_of_nonneg (by norm_num : (0 : ℝ) ≤ 3.5)
        linarith
      have hup := h.up
      obtain ⟨L, hL⟩ : ∃ L, L = w * Real.log 10 / 99 := ⟨_, rfl⟩
      have L0 : 0 ≤ L := by rw [hL]; positivity
      have L2 : L ≤ 2 := by
        rw [hL, div_le_iff₀ (by norm_num)]
        nlinarith
      obtain ⟨M, hM⟩ : ∃ M, M = (10 : ℝ) ^ (a + w * ((j + 1 / 2) / 99)) := ⟨_, rfl⟩
      have M0 : 0 ≤ M := by rw [hM]; positivity
      have e := lintegral_chord hlt (P := M * (1 - L / 2)) (Q := M * (1 + L / 2))
        (mul_nonneg M0 (by linarith)) (mul_nonneg M0 (by linarith))
      rw [show (M * (1 - L / 2) + M * (1 + L / 2)) / 2 = M by ring] at e
      rw [← hM, ← e]
      refine setLIntegral_mono' measurableSet_Ico fun u hu => ENNReal.ofReal_le_ofReal ?_
      obtain ⟨u0, u1⟩ := hsub (Set.mem_biUnion (Finset.mem_range.2 hj) hu)
      have hs0 : s.getD j 0 = s[j] := by
        rw [List.getD_eq_getElem?_getD, List.getElem?_eq_getElem (by omega)]; rfl
      have hs1 : s.getD (j + 1) 0 = s[j + 1] := by
        rw [List.getD_eq_getElem?_getD, List.getElem?_eq_getElem (by omega)]; rfl
      have hseg := straight_segment h.straight h.table (show j + 1 < s.length by omega) (u := u)
        (by rw [← hs0]; exact hu.1) (by rw [← hs1]; exact hu.2)
      rw [hy u u0 u1, ← hs0, ← hs1] at hseg
      rw [Res.ok.inj hseg]
      unfold chord
      generalize (u - s.getD j 0) / (s.getD (j + 1) 0 - s.getD j 0) = t
      have e1 : (10 : ℝ) ^ (a + w * ((j + t) / 99)) = M * Real.exp (L * (t - 1 / 2)) := by
        rw [hM, Real.rpow_def_of_pos (by norm_num), Real.rpow_def_of_pos (by norm_num), ← Real.exp_add, hL]
        congr 1
        ring
      rw [e1]
      have := mul_le_mul_of_nonneg_left (Real.add_one_le_exp (L * (t - 1 / 2))) M0
      linarith
    · rw [heq]
      simp
  · intro i hi j hj hij
    have hi : i < 99 := Finset.mem_range.1 hi
    have hj : j < 99 := Finset.mem_range.1 hj
    refine Set.disjoint_left.2 fun u hu hv => ?_
    rcases lt_or_gt_of_ne hij with hlt | hlt
    · have := hmono (i + 1) j hlt (by omega)
      linarith [hu.2, hv.1]
    · have := hmono (j + 1) i hlt (by omega)
      linarith [hv.2, hu.1]

end Shipped
end QED
