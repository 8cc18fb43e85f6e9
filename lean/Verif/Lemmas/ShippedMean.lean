import Verif.Lemmas.RowMean
import Mathlib.Analysis.Complex.ExponentialBounds

set_option autoImplicit false
set_option maxRecDepth 100000
set_option exponentiation.threshold 2000

/-!
# The mean of chi in rows of the shipped energy table

Helper lemmas for C145. The kernel does the arithmetic, on whole numbers.
-/

namespace QED
namespace Shipped

open Dbl TableFile MeasureTheory Numerics

/-- A row of the energy tables of photon emission. -/
theorem shippedRow (dir : List Char) (t : Emission ℝ) (hl : loadEmission (some dir) (tables dir) = .ok t)
    (cfg : EmissionCfg ℝ) (hg : t.Gives cfg) {i : Nat} {ts : List Tok} {m : ℤ} (hi : i < 100)
    (hts : ksiRows[i]? = some ts) (hm : chiMin[i]?.map Tok.units = some m) :
    cfg.etaAxis[i]? = some (-5 + 2 * i / 33 : ℝ) ∧ cfg.phEnTable[i]? = some (ts.map val) ∧
    ∃ c, cfg.chiAxis[i]? = some c ∧ Row (ts.map val) c (Real.logb 10 ((m : ℝ) / 10 ^ 40))
      (-5 + 2 * i / 33 - Real.logb 10 2 - Real.logb 10 ((m : ℝ) / 10 ^ 40)) := by
  have hd := (chiDistributions dir t hl cfg hg).1
  rw [C86_emission dir _ _ _ _ _ _ _ _ _ _ (files_h dir) (files_ksi dir) (files_chiMin dir) h_file
    ksi_file] at hl
  have hlen : (rowNums ksiRows).length = 100 := by rw [rowNums, List.length_map, ksi_length]
  rw [hlen] at hl
  obtain rfl := Res.ok.inj hl
  obtain ⟨-, -, g3, g4, g5⟩ := hg
  dsimp only at g3 g4 g5
  have em : (lit logMin.numeral.value : ℝ) = -5 := by rw [logMin_value]; norm_num
  have eM : (lit logMax.numeral.value : ℝ) = 1 := by rw [logMax_value]; norm_num
  rw [em, eM] at g3 g4
  have ex : (etaAxisOf 100 (-5 : ℝ) 1)[i]? = some (-5 + 2 * i / 33 : ℝ) := by
    rw [C87_eta 100 (by norm_num) _ _ i hi]
    congr 1
    push_cast
    ring
  have hmin : ((nums chiMin).map fun c => (lit c.value : ℝ)) = chiMin.map val := by
    rw [nums, List.map_map]
    exact map_val (lines_ok chiMin_checked)
  rw [hmin] at g4
  have hdata : cfg.phEnTable = ksiRows.map fun r => r.map val := by
    apply map_map_some_inj
    rw [← g5, rowNums, List.map_map, List.map_map]
    refine List.map_congr_left fun r hr => ?_
    have h := (cdf_spec (List.all_eq_true.1 ksi_cdf r hr)).2.1
    show (nums r).map (fun x => some (lit x.value)) = (r.map val).map some
    rw [← map_val h, nums, List.map_map, List.map_map]
    rfl
  have hm' := val_at hm
  have hrow : cfg.phEnTable[i]? = some (ts.map val) := by rw [hdata, List.getElem?_map, hts]; rfl
  have hchi : cfg.chiAxis[i]? = some (chiRow 100 100 (-5 + 2 * i / 33 : ℝ) ((m : ℝ) / 10 ^ 40)) := by
    rw [g4, List.getElem?_zipWith, ex, hm']
  refine ⟨by rw [g3, ex], hrow, _, hchi, ?_⟩
  have hdist := hd.row i _ _ hrow hchi
  have hcdf := List.all_eq_true.1 ksi_cdf ts (List.mem_of_getElem? hts)
  obtain ⟨l0, -, mono0, top0, first0⟩ := cdf_spec hcdf
  have hstraight : Straight (chiRow 100 100 (-5 + 2 * i / 33 : ℝ) ((m : ℝ) / 10 ^ 40))
      (Real.logb 10 ((m : ℝ) / 10 ^ 40)) (-5 + 2 * i / 33 - Real.logb 10 2 - Real.logb 10 ((m : ℝ) / 10 ^ 40)) := by
    refine ⟨by simp [chiRow], fun j hj => ?_⟩
    rw [C87_row 100 100 (by norm_num) _ _ j hj]
    norm_num
  have hfirst : ∀ x y, (ts.map val)[0]? = some x → (ts.map val)[1]? = some y → 0 ≤ x ∧ (x = 0 ∨ x < y) := by
    intro x y hx hy
    match ts, l0, first0, hx, hy with
    | p :: q :: rest, _, first0, hx, hy =>
      simp only [List.map_cons, List.getElem?_cons_zero, List.getElem?_cons_succ, Option.some.injEq] at hx hy
      rw [← hx, ← hy]
      rcases first0 p q rest rfl with h | h
      · simp [val, h]
      · refine ⟨?_, Or.inr (val_lt h.2)⟩
        have : (0 : ℝ) < p.units := by exact_mod_cast h.1
        unfold val
        positivity
  refine ⟨hstraight, ⟨hdist.len, hdist.two, hdist.small, hdist.mono⟩, top0, ?_, ?_, ?_⟩
  · intro x hx
    refine (hfirst x _ hx (List.getElem?_eq_getElem (by rw [List.length_map]; omega))).1
  · intro x y hx hy
    exact (hfirst x y hx hy).2
  · have hv := hdist.values
    have h0 := hstraight.2 0 (by norm_num)
    have h1 := hstraight.2 1 (by norm_num)
    obtain ⟨p0, q0⟩ := List.getElem?_eq_some_iff.1 h0
    obtain ⟨p1, q1⟩ := List.getElem?_eq_some_iff.1 h1
    have := sorted_lt hv Nat.zero_lt_one p1
    rw [q0, q1] at this
    push_cast at this
    linarith

theorem ten_pow_width {x m : ℝ} (hm : 0 < m) :
    (10 : ℝ) ^ (x - Real.logb 10 2 - Real.logb 10 m) = (10 : ℝ) ^ x / (2 * m) := by
  rw [Real.rpow_sub (by norm_num), Real.rpow_sub (by norm_num), Real.rpow_logb (by norm_num) (by norm_num) hm,
    Real.rpow_logb (by norm_num) (by norm_num) (by norm_num)]
  field_simp

/-- The sum of the trapezoids of a row, with a rational bound on the ratio of neighbouring values. -/
theorem Row.upper {s c : List ℝ} {m w r : ℝ} (h : Row s c (Real.logb 10 m) w) (hm : 0 < m) (hr0 : 0 ≤ r)
    (hr : (10 : ℝ) ^ w ≤ r ^ 99) :
    ∫⁻ u in Set.Ico (0 : ℝ) 1, chords s (fun j => (10 : ℝ) ^ (Real.logb 10 m + w * (j / 99))) u ≤
      ENNReal.ofReal (m * (s.getD 0 0 + ∑ j ∈ Finset.range 99, (s.getD (j + 1) 0 - s.getD j 0) *
        ((r ^ j + r ^ (j + 1)) / 2))) := by
  refine (chords_lintegral s h.getD_mono h.getD_zero _ fun j => by positivity).trans
    (ENNReal.ofReal_le_ofReal ?_)
  have hρ : (10 : ℝ) ^ (w / 99) ≤ r := by
    refine le_of_pow_le_pow_left₀ (by norm_num : (99 : Nat) ≠ 0) hr0 ?_
    rw [← Real.rpow_natCast ((10 : ℝ) ^ (w / 99)), ← Real.rpow_mul (by norm_num)]
    refine le_trans (le_of_eq ?_) hr
    congr 1
    push_cast
    ring
  have hP : ∀ j : Nat, (10 : ℝ) ^ (Real.logb 10 m + w * (j / 99)) ≤ m * r ^ j := by
    intro j
    rw [Real.rpow_add (by norm_num), Real.rpow_logb (by norm_num) (by norm_num) hm,
      show w * ((j : ℝ) / 99) = w / 99 * j by ring, Real.rpow_mul (by norm_num), Real.rpow_natCast]
    gcongr
  rw [mul_add, Finset.mul_sum]
  refine add_le_add ?_ (Finset.sum_le_sum fun j hj => ?_)
  · have h0 := hP 0
    simp only [pow_zero, mul_one] at h0
    rw [mul_comm m]
    exact mul_le_mul_of_nonneg_left h0 h.getD_zero
  · have hd := h.getD_mono j (Finset.mem_range.1 hj)
    have h0 := hP j
    have h1 := hP (j + 1)
    calc _ ≤ (s.getD (j + 1) 0 - s.getD j 0) * ((m * r ^ j + m * r ^ (j + 1)) / 2) :=
          mul_le_mul_of_nonneg_left (by linarith) (by linarith)
      _ = _ := by ring

/-- The sum of the tangents of a row, with a rational bound on the ratio of neighbouring values. -/
theorem Row.lower {s c : List ℝ} {m w q : ℝ} (h : Row s c (Real.logb 10 m) w) (hm : 0 < m) (hq0 : 0 ≤ q)
    (hq : q ^ 198 ≤ (10 : ℝ) ^ w) (hw : w ≤ 40) (y : ℝ → ℝ)
    (hy : ∀ u, 0 ≤ u → u < 1 → interpolate1D s c u = .ok (y u)) :
    ENNReal.ofReal (m * ∑ j ∈ Finset.range 99, (s.getD (j + 1) 0 - s.getD j 0) * q ^ (2 * j + 1)) ≤
      ∫⁻ u in Set.Ico (0 : ℝ) 1, ENNReal.ofReal ((10 : ℝ) ^ y u) := by
  refine le_trans (ENNReal.ofReal_le_ofReal ?_) (h.ge_tangents hw y hy)
  have hρ : q ≤ (10 : ℝ) ^ (w / 198) := by
    refine le_of_pow_le_pow_left₀ (by norm_num : (198 : Nat) ≠ 0) (by positivity) ?_
    rw [← Real.rpow_natCast ((10 : ℝ) ^ (w / 198)), ← Real.rpow_mul (by norm_num)]
    refine le_trans hq (le_of_eq ?_)
    congr 1
    push_cast
    ring
  rw [Finset.mul_sum]
  refine Finset.sum_le_sum fun j hj => ?_
  have hd := h.getD_mono j (Finset.mem_range.1 hj)
  rw [Real.rpow_add (by norm_num), Real.rpow_logb (by norm_num) (by norm_num) hm,
    show w * (((j : ℝ) + 1 / 2) / 99) = w / 198 * ((2 * j + 1 : Nat) : ℝ) by push_cast; ring,
    Real.rpow_mul (by norm_num), Real.rpow_natCast, mul_left_comm]
  exact mul_le_mul_of_nonneg_left (mul_le_mul_of_nonneg_left (by gcongr) hm.le) (by linarith)

/-! ## Whole numbers -/

/-- Twice the sum of the trapezoids with the ratio `R / Q`, times `10^40 Q^99`. -/
def upSum (u : Nat → ℤ) (R Q : ℤ) : ℤ :=
  2 * u 0 * Q ^ 99 + ∑ j ∈ Finset.range 99, (u (j + 1) - u j) * (R ^ j * Q ^ (99 - j) + R ^ (j + 1) * Q ^ (98 - j))

/-- The sum of the tangents with the square root `R / Q` of the ratio, times `10^40 Q^197`. -/
def lowSum (u : Nat → ℤ) (R Q : ℤ) : ℤ :=
  ∑ j ∈ Finset.range 99, (u (j + 1) - u j) * (R ^ (2 * j + 1) * Q ^ (196 - 2 * j))

/-- The size of the entry `j`. -/
def unitAt (ts : List Tok) (j : Nat) : ℤ := (ts.map Tok.units).getD j 0

theorem getD_val (ts : List Tok) (j : Nat) : (ts.map val).getD j 0 = (unitAt ts j : ℝ) / 10 ^ 40 := by
  unfold unitAt
  rw [List.getD_eq_getElem?_getD, List.getD_eq_getElem?_getD, List.getElem?_map, List.getElem?_map]
  cases ts[j]? with
  | none => simp
  | some t => rfl

theorem upSum_eq (ts : List Tok) (R Q : ℤ) (hQ : Q ≠ 0) :
    (ts.map val).getD 0 0 + ∑ j ∈ Finset.range 99, ((ts.map val).getD (j + 1) 0 - (ts.map val).getD j 0) *
      ((((R : ℝ) / Q) ^ j + ((R : ℝ) / Q) ^ (j + 1)) / 2) =
    (upSum (unitAt ts) R Q : ℝ) / (2 * 10 ^ 40 * (Q : ℝ) ^ 99) := by
  have hQ' : (Q : ℝ) ≠ 0 := by exact_mod_cast hQ
  unfold upSum
  push_cast
  rw [add_div, Finset.sum_div]
  congr 1
  · rw [getD_val]
    field_simp
  · refine Finset.sum_congr rfl fun j hj => ?_
    have hj := Finset.mem_range.1 hj
    rw [getD_val, getD_val]
    obtain ⟨k, hk⟩ : ∃ k, k = 98 - j := ⟨_, rfl⟩
    have e1 : 99 - j = k + 1 := by omega
    have e2 : (99 : Nat) = j + 1 + k := by omega
    rw [e1, ← hk, div_pow, div_pow]
    rw [show (Q : ℝ) ^ 99 = Q ^ j * Q * Q ^ k by rw [← pow_succ, ← pow_add, ← e2], pow_succ (Q : ℝ) j,
      pow_succ (Q : ℝ) k]
    field_simp

theorem lowSum_eq (ts : List Tok) (R Q : ℤ) (hQ : Q ≠ 0) :
    ∑ j ∈ Finset.range 99, ((ts.map val).getD (j + 1) 0 - (ts.map val).getD j 0) * ((R : ℝ) / Q) ^ (2 * j + 1) =
    (lowSum (unitAt ts) R Q : ℝ) / (10 ^ 40 * (Q : ℝ) ^ 197) := by
  have hQ' : (Q : ℝ) ≠ 0 := by exact_mod_cast hQ
  unfold lowSum
  push_cast
  rw [Finset.sum_div]
  refine Finset.sum_congr rfl fun j hj => ?_
  have hj := Finset.mem_range.1 hj
  rw [getD_val, getD_val]
  obtain ⟨k, hk⟩ : ∃ k, k = 196 - 2 * j := ⟨_, rfl⟩
  have e2 : (197 : Nat) = 2 * j + 1 + k := by omega
  rw [← hk, div_pow, show (Q : ℝ) ^ 197 = Q ^ (2 * j + 1) * Q ^ k by rw [← pow_add, ← e2]]
  field_simp

theorem rows_units : (chiMin[1]?.map Tok.units, chiMin[46]?.map Tok.units, chiMin[47]?.map Tok.units) =
    (some (5748784976988682 * 10 ^ 7), some (30679536367065898 * 10 ^ 12), some (35274011553593237 * 10 ^ 12)) := by
  decide +kernel

theorem up46 : upSum (unitAt ksi46) 12328468 (10 ^ 7) ≤ 2770800 * (2 * 10 ^ 40 * (10 ^ 7) ^ 99) := by decide +kernel

theorem up47 : upSum (unitAt ksi47) 12328468 (10 ^ 7) ≤ 3172000 * (2 * 10 ^ 40 * (10 ^ 7) ^ 99) := by decide +kernel

theorem low1 : 5327000 * (10 ^ 40 * (10 ^ 7) ^ 197) ≤ lowSum (unitAt ksi1) 11497569 (10 ^ 7) := by decide +kernel

end Shipped
end QED
