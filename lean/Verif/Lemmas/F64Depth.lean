import Verif.Lemmas.F64Witness
import Verif.Model.Processes

set_option autoImplicit false

/-!
# Differences in double precision
-/

namespace QED

open Dbl

namespace F64

theorem form_of_val {a : F64} {x : ℝ} (h : a.1 = .fin x) : Form x := (a.2 x h).1

theorem form_multiple {x : ℝ} (h : Form x) : ∃ k : ℤ, x = k * 2 ^ (-1074 : ℤ) := by
  obtain ⟨m, e, -, he, rfl⟩ := h
  obtain ⟨j, hj⟩ := Int.eq_ofNat_of_zero_le (show 0 ≤ e + 1074 by omega)
  refine ⟨m * 2 ^ j, ?_⟩
  rw [show e = (j : ℤ) + (-1074) by omega, zpow_add₀ (by norm_num), zpow_natCast]
  push_cast
  ring

/-- The error of a difference is relative: small differences are exact. -/
theorem round_sub {x y : ℝ} (hx : Form x) (hy : Form y) :
    |F64.round (x - y) - (x - y)| ≤ |x - y| / 2 ^ 53 := by
  by_cases hz : |x - y| < 2 ^ (-1021 : ℤ)
  · obtain ⟨j, hj⟩ := form_multiple hx
    obtain ⟨k, hk⟩ := form_multiple hy
    have e : x - y = ((j - k : ℤ) : ℝ) * 2 ^ (-1074 : ℤ) := by rw [hj, hk]; push_cast; ring
    have hb : |j - k| ≤ 2 ^ 53 := by
      have h1 : |((j - k : ℤ) : ℝ)| * 2 ^ (-1074 : ℤ) < 2 ^ (53 : ℤ) * 2 ^ (-1074 : ℤ) := by
        rw [← zpow_add₀ (by norm_num)]
        calc |((j - k : ℤ) : ℝ)| * 2 ^ (-1074 : ℤ) = |x - y| := by
              rw [e, abs_mul, abs_of_pos (two_zpow_pos _)]
          _ < _ := hz
          _ = _ := by norm_num
      have h2 := lt_of_mul_lt_mul_right h1 (two_zpow_pos _).le
      have h3 : |((j - k : ℤ) : ℝ)| ≤ ((2 ^ 53 : ℤ) : ℝ) := by
        refine h2.le.trans (le_of_eq ?_)
        norm_num
      exact_mod_cast h3
    have : F64.round (x - y) = x - y := round_form_eq (e ▸ form_mul hb (by norm_num))
    rw [this, sub_self, abs_zero]
    positivity
  · push Not at hz
    set z := x - y
    have hpos : 0 < |z| := lt_of_lt_of_le (two_zpow_pos _) hz
    have hlog : (-1021 : ℤ) ≤ Int.log 2 |z| := by
      rw [← Int.zpow_le_iff_le_log (by norm_num) hpos]
      exact_mod_cast hz
    have hexp : expo z = Int.log 2 |z| - 52 := by unfold expo; omega
    have h1 := round_error z
    have h2 : (2 : ℝ) ^ Int.log 2 |z| ≤ |z| := by
      exact_mod_cast Int.zpow_log_le_self (b := 2) (by norm_num) hpos
    have h3 : (2 : ℝ) ^ expo z = 2 ^ Int.log 2 |z| / 2 ^ 52 := by
      rw [hexp, zpow_sub₀ (by norm_num)]; norm_num
    rw [h3] at h1
    refine h1.trans ?_
    rw [div_div, show (2 : ℝ) ^ 52 * 2 = 2 ^ 53 by norm_num]
    exact div_le_div_of_nonneg_right h2 (by positivity)

/-- A difference has the right sign. -/
theorem round_sub_neg {x y : ℝ} (hx : Form x) (hy : Form y) : F64.round (x - y) < 0 ↔ x < y := by
  constructor
  · intro h
    by_contra hn
    push Not at hn
    have := le_round form_zero (sub_nonneg.mpr hn)
    linarith
  · intro h
    have h1 := round_sub hx hy
    rw [abs_of_neg (sub_neg.mpr h)] at h1
    have h2 := (abs_le.mp h1).2
    have h3 : -(x - y) / 2 ^ 53 < -(x - y) := by
      rw [div_lt_iff₀ (by positivity)]
      nlinarith [show (1:ℝ) < 2 ^ 53 by norm_num, sub_neg.mpr h]
    linarith

/-- Less than a quarter of the spacing is lost. -/
theorem round_stuck {d x : ℝ} (hd : Form d) (hlo : 2 ^ (-1000 : ℤ) ≤ d) (h0 : 0 ≤ x) (h1 : x < d / 2 ^ 54) :
    F64.round (d - x) = d := by
  rcases h0.eq_or_lt with h0 | h0
  · rw [← h0, sub_zero, round_form_eq hd]
  have hpos : 0 < d := lt_of_lt_of_le (two_zpow_pos _) hlo
  have hlog : (-1000 : ℤ) ≤ Int.log 2 d := by
    rw [← Int.zpow_le_iff_le_log (by norm_num) hpos]
    exact_mod_cast hlo
  obtain ⟨e, he⟩ : ∃ e, e = Int.log 2 d - 52 := ⟨_, rfl⟩
  have hexp : expo d = e := by unfold expo; rw [abs_of_pos hpos]; omega
  have hp := two_zpow_pos e
  have hlow : 2 ^ 52 * 2 ^ e ≤ d := by
    have := Int.zpow_log_le_self (b := 2) (by norm_num) hpos
    calc (2 : ℝ) ^ 52 * 2 ^ e = 2 ^ (52 + e) := by rw [zpow_add₀ (by norm_num)]; norm_num
      _ = 2 ^ Int.log 2 d := by congr 1; omega
      _ ≤ d := by exact_mod_cast this
  have hm : d = roundEven (d / 2 ^ e) * 2 ^ e := by
    have := round_form_eq hd
    unfold F64.round at this
    rw [hexp] at this
    exact this.symm
  obtain ⟨m, hm'⟩ : ∃ m, m = roundEven (d / 2 ^ e) := ⟨_, rfl⟩
  rw [← hm'] at hm
  have hup : d < 2 ^ 53 * 2 ^ e := by
    have := abs_lt_expo d
    rwa [hexp, abs_of_pos hpos, div_lt_iff₀ hp] at this
  have hx : x / 2 ^ e < 1 / 2 := by
    rw [div_lt_iff₀ hp]
    have : d / 2 ^ 54 < 1 / 2 * 2 ^ e := by
      rw [div_lt_iff₀ (by positivity)]
      calc d < _ := hup
        _ = _ := by ring
    linarith
  have hmlo : (2 ^ 52 : ℤ) ≤ m := by
    rw [hm] at hlow
    have := le_of_mul_le_mul_right hlow hp
    exact_mod_cast this
  rcases hmlo.eq_or_lt with hmeq | hmlt
  · -- a power of two: the spacing below is half of that above
    have hd2 : d = 2 ^ 53 * 2 ^ (e - 1) := by
      rw [hm, ← hmeq, zpow_sub_one₀ (by norm_num)]
      push_cast
      ring
    have hp1 := two_zpow_pos (e - 1)
    have hx1 : x < 1 / 2 * 2 ^ (e - 1) := by
      rw [hd2] at h1
      refine h1.trans_le (le_of_eq ?_)
      ring
    rw [round_normal (m := 2 ^ 53) (e := e - 1) (by omega) ?_ ?_ ?_]
    · rw [hd2]; norm_num
    · rw [hd2]
      have : (1 / 2 : ℝ) * 2 ^ (e - 1) ≤ 2 ^ 52 * 2 ^ (e - 1) := by
        apply mul_le_mul_of_nonneg_right _ hp1.le
        norm_num
      have h3 : (2 : ℝ) ^ 53 * 2 ^ (e - 1) = 2 ^ 52 * 2 ^ (e - 1) + 2 ^ 52 * 2 ^ (e - 1) := by ring
      linarith
    · rw [← hd2]; linarith
    · left
      rw [hd2, sub_div, mul_div_assoc, div_self hp1.ne', mul_one]
      rw [show ((2 ^ 53 : ℤ) : ℝ) = 2 ^ 53 by norm_num, sub_sub_cancel, abs_of_nonneg (by positivity),
        div_lt_iff₀ hp1]
      exact hx1
  · rw [round_normal (m := m) (e := e) (by omega) ?_ ?_ ?_]
    · exact hm.symm
    · have h2 : ((2 ^ 52 : ℤ) : ℝ) + 1 ≤ m := by exact_mod_cast hmlt
      have h3 : x < 1 / 2 * 2 ^ e := by rwa [div_lt_iff₀ hp] at hx
      rw [hm]
      push_cast at h2
      nlinarith
    · linarith
    · left
      rw [sub_div]
      nth_rewrite 1 [hm]
      rw [mul_div_assoc, div_self hp.ne', mul_one, sub_sub_cancel, abs_of_nonneg (by positivity)]
      exact hx

end F64
end QED
