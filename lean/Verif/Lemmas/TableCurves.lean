import Verif.Spec.SpectrumLimit
import Verif.Lemmas.Rates
import Verif.Lemmas.Covered
import Verif.Props.Sampling

set_option autoImplicit false

/-!
# The tables of emission as functions
-/

namespace QED

open Numerics Dbl

/-- The straight line that is used when the scan finds `o`. -/
noncomputable def pieceOf (s d : List ℝ) : Option Nat → ℝ → ℝ
  | some 0, _ => 0
  | some (l + 1), v => d.getD l 0 + (v - s.getD l 0) * (d.getD (l + 1) 0 - d.getD l 0) / (s.getD (l + 1) 0 - s.getD l 0)
  | none, v => d.getD 0 0 + (v - s.getD 0 0) * (d.getD 1 0 - d.getD 0 0) / (s.getD 1 0 - s.getD 0 0)

theorem measurable_pieceOf (s d : List ℝ) (o : Option Nat) : Measurable (pieceOf s d o) := by
  rcases o with _ | _ | l
  · show Measurable fun v : ℝ => d.getD 0 0 + (v - s.getD 0 0) * (d.getD 1 0 - d.getD 0 0) / (s.getD 1 0 - s.getD 0 0)
    fun_prop
  · exact measurable_const
  · show Measurable fun v : ℝ => d.getD l 0 + (v - s.getD l 0) * (d.getD (l + 1) 0 - d.getD l 0) /
      (s.getD (l + 1) 0 - s.getD l 0)
    fun_prop

theorem continuous_pieceOf (s d : List ℝ) (o : Option Nat) : Continuous (pieceOf s d o) := by
  rcases o with _ | _ | l
  · show Continuous fun v : ℝ => d.getD 0 0 + (v - s.getD 0 0) * (d.getD 1 0 - d.getD 0 0) / (s.getD 1 0 - s.getD 0 0)
    fun_prop
  · exact continuous_const
  · show Continuous fun v : ℝ => d.getD l 0 + (v - s.getD l 0) * (d.getD (l + 1) 0 - d.getD l 0) /
      (s.getD (l + 1) 0 - s.getD l 0)
    fun_prop

theorem bounded_unit {f : ℝ → ℝ} (hf : Continuous f) : ∃ B, ∀ v ∈ Set.Icc (0 : ℝ) 1, |f v| ≤ B := by
  obtain ⟨B, hB⟩ := isCompact_Icc.exists_bound_of_continuousOn (s := Set.Icc (0 : ℝ) 1) hf.continuousOn
  exact ⟨B, hB⟩

theorem scan_pieces (s d : List ℝ) (l : List ℝ) : ∀ i, Measurable (fun v => pieceOf s d (firstAbove v l i) v) ∧
    ∃ B, ∀ v ∈ Set.Icc (0 : ℝ) 1, |pieceOf s d (firstAbove v l i) v| ≤ B := by
  induction l with
  | nil => exact fun i => ⟨measurable_pieceOf s d none, bounded_unit (continuous_pieceOf s d none)⟩
  | cons a l ih =>
    intro i
    obtain ⟨h1, B, hB⟩ := ih (i + 1)
    obtain ⟨C, hC⟩ := bounded_unit (continuous_pieceOf s d (some i))
    have e : ∀ v : ℝ, pieceOf s d (firstAbove v (a :: l) i) v =
        if v < a then pieceOf s d (some i) v else pieceOf s d (firstAbove v l (i + 1)) v := by
      intro v
      rw [firstAbove]
      simp only [real_lt, decide_eq_true_eq]
      split <;> rfl
    constructor
    · simp only [e]
      exact Measurable.ite measurableSet_Iio (measurable_pieceOf s d _) h1
    · refine ⟨max B C, fun v hv => ?_⟩
      rw [e]
      split
      · exact (hC v hv).trans (le_max_right _ _)
      · exact (hB v hv).trans (le_max_left _ _)

/-- A lookup in one table is a measurable function of the query, and bounded for queries from 0 to 1. -/
theorem interpolate_curve {s d : List ℝ} (hg : GoodAxis s d) : ∃ f : ℝ → ℝ, Measurable f ∧
    (∃ B, ∀ v ∈ Set.Icc (0 : ℝ) 1, |f v| ≤ B) ∧ ∀ v, interpolate1D s d v = .ok (f v) := by
  obtain ⟨hlen, hn, hl⟩ := hg
  obtain ⟨A, hA⟩ : ∃ A : ℝ → ℝ, A = fun v => d.getD 0 0 + (d.getD 1 0 - d.getD 0 0) *
    ((v - s.getD 0 0) / (s.getD 1 0 - s.getD 0 0)) := ⟨_, rfl⟩
  obtain ⟨Z, hZ⟩ : ∃ Z : ℝ → ℝ, Z = fun v => d.getD (s.length - 1) 0 + (d.getD (s.length - 1) 0 -
    d.getD (s.length - 2) 0) * ((v - s.getD (s.length - 2) 0) / (s.getD (s.length - 1) 0 - s.getD (s.length - 2) 0)) :=
    ⟨_, rfl⟩
  have cA : Continuous A := by rw [hA]; fun_prop
  have cZ : Continuous Z := by rw [hZ]; fun_prop
  obtain ⟨m1, B, hB⟩ := scan_pieces s d s 0
  obtain ⟨B1, hB1⟩ := bounded_unit cA
  obtain ⟨B2, hB2⟩ := bounded_unit cZ
  refine ⟨fun v => if v < s.getD 0 0 then A v else if s.getD (s.length - 1) 0 < v then Z v else
    pieceOf s d (firstAbove v s 0) v, ?_, ⟨max B (max B1 B2), fun v hv => ?_⟩, fun v => ?_⟩
  · exact Measurable.ite measurableSet_Iio cA.measurable (Measurable.ite measurableSet_Ioi cZ.measurable m1)
  · dsimp only
    split
    · exact (hB1 v hv).trans ((le_max_left _ _).trans (le_max_right _ _))
    · split
      · exact (hB2 v hv).trans ((le_max_right _ _).trans (le_max_right _ _))
      · exact (hB v hv).trans (le_max_left _ _)
  · have g : ∀ {l : List ℝ} {i : Nat} (h : i < l.length), l[i] = l.getD i 0 := fun h => (getD_at h).symm
    unfold interpolate1D
    dsimp only
    rw [rd_ok (by omega : 0 < s.length)]
    simp only [Res.ok_bind, real_lt, decide_eq_true_eq]
    rw [g (by omega : 0 < s.length)]
    by_cases h0 : v < s.getD 0 0
    · rw [if_pos h0, if_pos h0, rd_ok (by omega : 0 < d.length), rd_ok (by omega : 1 < d.length),
        rd_ok (by omega : 1 < s.length)]
      simp only [Res.ok_bind]
      rw [g, g, g, hA]
      rfl
    · rw [if_neg h0, if_neg h0, usub_of_le (by omega) hl, rd_ok (by omega : s.length - 1 < s.length)]
      simp only [Res.ok_bind]
      rw [g (by omega : s.length - 1 < s.length)]
      by_cases h1 : s.getD (s.length - 1) 0 < v
      · rw [if_pos h1, if_pos h1, if_neg (by omega), rd_ok (by omega : s.length - 1 < d.length),
          rd_ok (by omega : s.length - 2 < d.length), rd_ok (by omega : s.length - 2 < s.length)]
        simp only [Res.ok_bind]
        rw [g, g, g, hZ]
        rfl
      · rw [if_neg h1, if_neg h1]
        have hcases : firstAbove v s 0 = none ∨ ∃ l, firstAbove v s 0 = some (l + 1) ∧ l + 1 < s.length := by
          rcases hf : firstAbove v s 0 with _ | i
          · exact Or.inl rfl
          · right
            have hi := firstAbove_spec v s 0 i hf
            cases s with
            | nil => simp at hn
            | cons a s =>
              have := firstAbove_pos v a s (by
                simp only [List.getD_cons_zero] at h0
                simpa using h0)
              rw [hf] at this
              obtain ⟨l, rfl⟩ : ∃ l, i = l + 1 := ⟨i - 1, by
                have : i ≠ 0 := fun h => this (by rw [h])
                omega⟩
              exact ⟨l, rfl, by omega⟩
        rcases hcases with hf | ⟨l, hf, hl⟩
        · rw [hf]
          dsimp only
          rw [rd_ok (by omega : 0 < d.length), rd_ok (by omega : 1 < d.length), rd_ok (by omega : 1 < s.length)]
          simp only [Res.ok_bind]
          rw [g, g, g]
          rfl
        · rw [hf]
          dsimp only
          rw [rd_ok (by omega : l < d.length), rd_ok (by omega : l < s.length), rd_ok (by omega : l + 1 < d.length),
            rd_ok (by omega : l + 1 < s.length)]
          simp only [Res.ok_bind]
          rw [g, g, g, g]
          rfl

theorem polyline_abs (s d : List ℝ) (hs : s.Pairwise (· < ·)) {B : ℝ} (hB : ∀ i, |d.getD i 0| ≤ B) (q : ℝ) :
    |polyline s d q| ≤ B + (s.length - 1 : Nat) * (2 * B) := by
  unfold polyline
  refine (abs_add_le _ _).trans (add_le_add (hB 0) ?_)
  refine (Finset.abs_sum_le_sum_abs _ _).trans ?_
  rw [← nsmul_eq_mul]
  conv_rhs => rw [← Finset.card_range (s.length - 1)]
  refine Finset.sum_le_card_nsmul _ _ _ fun i hi => ?_
  have hi : i + 1 < s.length := by have := Finset.mem_range.mp hi; omega
  have e0 : s.getD i 0 = s[i] := by rw [getD_at (by omega)]
  have e1 : s.getD (i + 1) 0 = s[i + 1] := by rw [getD_at hi]
  have hlt : s[i] < s[i + 1] := sorted_lt hs (Nat.lt_succ_self i) hi
  rw [abs_mul, e0, e1]
  have h1 : |d.getD (i + 1) 0 - d.getD i 0| ≤ 2 * B := by
    have := abs_sub (d.getD (i + 1) 0) (d.getD i 0)
    linarith [hB i, hB (i + 1)]
  have hpos : 0 < s[i + 1] - s[i] := by linarith
  have h2 : |(max s[i] (min q s[i + 1]) - s[i]) / (s[i + 1] - s[i])| ≤ 1 := by
    have a0 : s[i] ≤ max s[i] (min q s[i + 1]) := le_max_left _ _
    have a1 : max s[i] (min q s[i + 1]) ≤ s[i + 1] := max_le hlt.le (min_le_right _ _)
    rw [abs_of_nonneg (div_nonneg (by linarith) hpos.le), div_le_one hpos]
    linarith
  have hB0 := (abs_nonneg _).trans h1
  calc _ ≤ 2 * B * 1 := mul_le_mul h1 h2 (abs_nonneg _) hB0
    _ = _ := mul_one _

section

variable {e : EmissionCfg ℝ}

/-- The rows of the table of photons as functions of the draw. -/
theorem rows_curves (hg : e.GoodTables) : ∃ V : Nat → ℝ → ℝ, (∀ i, Measurable (V i)) ∧
    (∃ B, ∀ i, ∀ v ∈ Set.Icc (0 : ℝ) 1, |V i v| ≤ B) ∧
    ∀ (i : Nat) (t c : List ℝ), e.phEnTable[i]? = some t → e.chiAxis[i]? = some c →
      ∀ v, interpolate1D t c v = .ok (V i v) := by
  obtain ⟨r1, r2⟩ := hg.rows
  have hrow : ∀ k : Nat, ∃ V : ℝ → ℝ, Measurable V ∧ (∃ B, ∀ v ∈ Set.Icc (0 : ℝ) 1, |V v| ≤ B) ∧
      (e.etaAxis.length ≤ k → V = fun _ => 0) ∧
      ∀ (t c : List ℝ), e.phEnTable[k]? = some t → e.chiAxis[k]? = some c → ∀ v, interpolate1D t c v = .ok (V v) := by
    intro k
    by_cases hk : k < e.etaAxis.length
    · have e1 := List.getElem?_eq_getElem (l := e.phEnTable) (i := k) (by omega)
      have e2 := List.getElem?_eq_getElem (l := e.chiAxis) (i := k) (by omega)
      obtain ⟨f, h1, h2, h3⟩ := interpolate_curve (hg.row k _ _ e1 e2)
      refine ⟨f, h1, h2, fun h => absurd h (by omega), fun t c ht hc => ?_⟩
      rw [e1] at ht
      rw [e2] at hc
      rw [← Option.some.inj ht, ← Option.some.inj hc]
      exact h3
    · refine ⟨fun _ => 0, measurable_const, ⟨0, fun v _ => by simp⟩, fun _ => rfl, fun t c ht _ => ?_⟩
      rw [List.getElem?_eq_none (by omega)] at ht
      cases ht
  choose V h1 h2 h3 h4 using hrow
  choose B hB using h2
  refine ⟨V, h1, ⟨∑ i ∈ Finset.range e.etaAxis.length, |B i|, fun i v hv => ?_⟩, h4⟩
  by_cases hi : i < e.etaAxis.length
  · exact ((hB i v hv).trans (le_abs_self _)).trans
      (Finset.single_le_sum (f := fun i => |B i|) (fun _ _ => abs_nonneg _) (Finset.mem_range.2 hi))
  · rw [h3 i (by omega)]
    simpa using Finset.sum_nonneg fun i _ => abs_nonneg (B i)

/-- For a given quantum parameter. -/
theorem chi_lookup {V : Nat → ℝ → ℝ} (hg : e.GoodTables)
    (hV : ∀ (i : Nat) (t c : List ℝ), e.phEnTable[i]? = some t → e.chiAxis[i]? = some c →
      ∀ v, interpolate1D t c v = .ok (V i v)) {eta : ℝ} {low : Nat} {f : ℝ}
    (hc : closestPoints e.etaAxis (log10 eta) = .ok (low, f)) (hlow : low + 1 < e.etaAxis.length) (v : ℝ) :
    calculateChi e eta v = .ok (10 ^ ((1 - f) * V low v + f * V (low + 1) v)) := by
  obtain ⟨r1, r2⟩ := hg.rows
  have l0 : low < e.phEnTable.length := by omega
  have l1 : low + 1 < e.phEnTable.length := by omega
  have m0 : low < e.chiAxis.length := by omega
  have m1 : low + 1 < e.chiAxis.length := by omega
  unfold calculateChi
  rw [hc]
  simp only [Res.ok_bind, rd_ok l0, rd_ok l1, rd_ok m0, rd_ok m1,
    hV low _ _ (List.getElem?_eq_getElem l0) (List.getElem?_eq_getElem m0),
    hV (low + 1) _ _ (List.getElem?_eq_getElem l1) (List.getElem?_eq_getElem m1)]
  simp

/-- Between the first and the last but one row the logarithm of the photon's quantum parameter lies on the curve of
straight pieces through what the rows give. -/
theorem chi_polyline {V : Nat → ℝ → ℝ} (hg : e.GoodTables) (hs : e.etaAxis.Pairwise (· < ·))
    (hV : ∀ (i : Nat) (t c : List ℝ), e.phEnTable[i]? = some t → e.chiAxis[i]? = some c →
      ∀ v, interpolate1D t c v = .ok (V i v)) (h3 : 3 ≤ e.etaAxis.length) {eta : ℝ}
    (h0 : e.etaAxis[0] < Real.logb 10 eta) (h1 : Real.logb 10 eta < e.etaAxis[e.etaAxis.length - 2]) (v : ℝ) :
    calculateChi e eta v = .ok (10 ^ polyline e.etaAxis ((List.range e.etaAxis.length).map fun i => V i v)
      (Real.logb 10 eta)) := by
  obtain ⟨s, hs'⟩ : ∃ s, s = e.etaAxis := ⟨_, rfl⟩
  obtain ⟨q, hq⟩ : ∃ q, q = Real.logb 10 eta := ⟨_, rfl⟩
  have hl : (log10 eta : ℝ) = q := by rw [hq]; simp [Real.logb]
  have hsmall := hg.eta.2
  have key : ∀ (low : Nat) (f : ℝ), closestPoints e.etaAxis (log10 eta) = .ok (low, f) → low + 1 < e.etaAxis.length →
      calculateChi e eta v = .ok (10 ^ ((1 - f) * V low v + f * V (low + 1) v)) :=
    fun low f hc hlow => chi_lookup hg hV hc hlow v
  rw [hl] at key
  rw [← hq] at h0 h1 ⊢
  simp only [← hs'] at h0 h1 h3 hs key hsmall ⊢
  have hlast : s[s.length - 2] < s[s.length - 1] := sorted_lt hs (by omega) (by omega)
  have ht : IsTable s ((List.range s.length).map fun i => V i v) := ⟨by simp, by omega, hsmall, hs⟩
  obtain ⟨j, hj, g0, g1⟩ := exists_segment (by omega) h0.le (h1.trans hlast)
  have hj2 : j + 2 < s.length := by
    by_contra hn
    have : s[s.length - 2] ≤ s[j] := sorted_le hs (by omega) (by omega)
    linarith
  have hpos : 0 < s[j + 1] - s[j] := by linarith
  obtain ⟨low, f, hlow, hc, hval⟩ := closest_between (w := (q - s[j]) / (s[j + 1] - s[j])) hs hsmall h3 j hj2
    (div_nonneg (by linarith) hpos.le) (by rw [div_le_one hpos]; linarith)
  have e1 : (1 - (q - s[j]) / (s[j + 1] - s[j])) * s[j] + (q - s[j]) / (s[j + 1] - s[j]) * s[j + 1] = q := by
    field_simp
    ring
  rw [e1] at hc
  rw [key low f hc hlow, hval (fun i => V i v)]
  have := (interpolate_polyline ht q h0.le (h1.trans hlast)).symm.trans (C05_on_segment ht q j hj g0 g1)
  rw [Res.ok.inj this]
  unfold lineThrough
  simp only [List.getElem_map, List.getElem_range]
  refine congrArg (fun x : ℝ => Res.ok ((10 : ℝ) ^ x)) ?_
  field_simp
  ring

end

end QED
