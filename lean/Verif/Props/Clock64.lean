import Verif.Props.Rounding
import Verif.Lemmas.F64Witness

set_option autoImplicit false
set_option exponentiation.threshold 2000

/-!
# Property C96: up to `2^26` steps the clock and the number of steps are right up to one step
-/

namespace QED

open Dbl F64 MCTools

/-- After `k` steps, up to `2^26`, the clock is off by no more than `k²` units in the last place of the step. -/
theorem clock_off {dt : F64} {d : ℝ} (hd : dt.1 = .fin d) (lo : (1 / 2) ^ 1000 ≤ d) (hi : d ≤ 2 ^ 900) :
    ∀ k : Nat, k ≤ 2 ^ 26 → ∃ t, (clock dt k).1 = .fin t ∧ |t - k * d| ≤ k ^ 2 * (d / 2 ^ 53) := by
  have d0 : 0 < d := lt_of_lt_of_le (by positivity) lo
  have heta : (2 : ℝ) ^ (-1075 : ℤ) ≤ d / 2 ^ 75 := by
    rw [le_div_iff₀ (by positivity)]
    refine le_trans (le_of_eq ?_) lo
    rw [show (-1075 : ℤ) = -((1075 : ℕ) : ℤ) by rfl, zpow_neg, zpow_natCast, one_div, inv_pow,
      show 1075 = 1000 + 75 by norm_num, pow_add, _root_.mul_inv, mul_assoc, inv_mul_cancel₀ (by positivity), mul_one]
  intro k
  induction k with
  | zero => exact fun _ => ⟨0, zero_val, by simp⟩
  | succ k ih =>
    intro hk
    obtain ⟨t, ht, he⟩ := ih (by omega)
    have hk' : (k : ℝ) + 1 ≤ 2 ^ 26 := by exact_mod_cast hk
    have hk0 : (0 : ℝ) ≤ k := Nat.cast_nonneg k
    have hsq : (k : ℝ) ^ 2 ≤ 2 ^ 52 := by
      have : (k : ℝ) ^ 2 ≤ (2 ^ 26) ^ 2 := pow_le_pow_left₀ hk0 (by linarith) 2
      rwa [← pow_mul] at this
    have hhalf : (k : ℝ) ^ 2 * (d / 2 ^ 53) ≤ d / 2 := by
      calc _ ≤ 2 ^ 52 * (d / 2 ^ 53) := mul_le_mul_of_nonneg_right hsq (by positivity)
        _ = d / 2 := by ring
    have hkd : (k : ℝ) * d ≤ 2 ^ 26 * d := mul_le_mul_of_nonneg_right (by linarith) d0.le
    obtain ⟨a1, a2⟩ := abs_le.1 he
    have hup : t + d ≤ (k + 1) * d + d / 2 := by linarith
    have hkd0 : 0 ≤ k * d := by positivity
    have hdown : 0 ≤ t + d := by linarith
    have hbig : |t + d| < 2 ^ 1023 := by
      rw [abs_of_nonneg hdown]
      have h1 : t + d ≤ 2 ^ 28 * d := by linarith
      have h2 : (2 : ℝ) ^ 28 * d ≤ 2 ^ 28 * 2 ^ 900 := mul_le_mul_of_nonneg_left hi (by positivity)
      have h3 : (2 : ℝ) ^ 28 * 2 ^ 900 < 2 ^ 1023 := by
        rw [← pow_add]
        exact pow_lt_pow_right₀ (by norm_num) (by norm_num)
      exact lt_of_le_of_lt (h1.trans h2) h3
    refine ⟨_, add_at ht hd hbig rfl, ?_⟩
    rcases Nat.eq_zero_or_pos k with rfl | hk1
    · have t0 : t = 0 := by simpa using he
      subst t0
      rw [zero_add, round_form_eq (dt.2 d hd).1]
      simp only [zero_add, Nat.cast_one, one_mul, sub_self, abs_zero]
      positivity
    · have hk1 : (1 : ℝ) ≤ k := by exact_mod_cast hk1
      have hr := round_rel (t + d)
      rw [show (2 : ℝ) ^ (-53 : ℤ) = 1 / 2 ^ 53 by norm_num, abs_of_nonneg hdown] at hr
      have h1 : 1 / 2 ^ 53 * (t + d) ≤ 1 / 2 ^ 53 * ((k + 1) * d + d / 2) :=
        mul_le_mul_of_nonneg_left hup (by positivity)
      have h2 : |F64.round (t + d) - ((k + 1 : ℕ) : ℝ) * d| ≤ |F64.round (t + d) - (t + d)| + |t - k * d| := by
        have : F64.round (t + d) - ((k + 1 : ℕ) : ℝ) * d = (F64.round (t + d) - (t + d)) + (t - k * d) := by
          push_cast
          ring
        rw [this]
        exact abs_add_le _ _
      refine h2.trans ((add_le_add hr he).trans ?_)
      have h3 : d / 2 ^ 75 ≤ 1 / 4 * (d / 2 ^ 53) := by
        rw [show (2 : ℝ) ^ 75 = 2 ^ 22 * 2 ^ 53 by rw [← pow_add]]
        have : d / (2 ^ 22 * 2 ^ 53) = 1 / 2 ^ 22 * (d / 2 ^ 53) := by ring
        rw [this]
        exact mul_le_mul_of_nonneg_right (by norm_num) (by positivity)
      have h4 : 1 / 2 ^ 53 * ((k + 1) * d + d / 2) = (k + 3 / 2) * (d / 2 ^ 53) := by ring
      have h5 : 0 < d / 2 ^ 53 := by positivity
      rw [h4] at h1
      generalize d / 2 ^ 53 = δ at *
      push_cast
      clear hup hdown hbig hkd lo hi
      nlinarith

/-- C96, the part that holds of the number of steps when the multiples of the step have to be rounded: up to `2^26` steps, an
event that runs to its end makes `⌈T / dt⌉` steps, one less or one more, and the clock is off by no more than `n²` units in
the last place of the step, which is less than a step. Missing: that the number is exact, see `C96_extra_step_refuted`. -/
theorem C96_near_partial (cfg : SimCfg F64) (d T : ℝ) (h1 : cfg.dt.1 = .fin d) (h2 : cfg.timeEnd.1 = .fin T)
    (lo : (1 / 2) ^ 1000 ≤ d) (hi : d ≤ 2 ^ 900) (hT : T ≤ (2 ^ 26 - 1) * d) (l : PList F64) (r : Rng F64)
    (hists : List (Hist F64)) (n : Nat) (s : EvState F64) (h : Run cfg (.init l r hists) n (.ok s)) :
    n ≤ ⌈T / d⌉₊ + 1 ∧ ⌈T / d⌉₊ ≤ n + 1 ∧ ∃ t, s.time.1 = .fin t ∧ |t - n * d| ≤ n ^ 2 * (d / 2 ^ 53) ∧
      |t - n * d| ≤ d / 2 := by
  have d0 : 0 < d := lt_of_lt_of_le (by positivity) lo
  obtain ⟨hs, hend⟩ := run_ok_iff.mp h
  obtain ⟨ht, hj⟩ := steps_clock hs
  have hN : ⌈T / d⌉₊ ≤ 2 ^ 26 - 1 := by
    rw [Nat.ceil_le, div_le_iff₀ d0]
    norm_num at hT ⊢
    exact hT
  have half : ∀ k : Nat, k ≤ 2 ^ 26 → (k : ℝ) ^ 2 * (d / 2 ^ 53) ≤ d / 2 := by
    intro k hk
    have hk' : (k : ℝ) ≤ 2 ^ 26 := by exact_mod_cast hk
    have : (k : ℝ) ^ 2 ≤ (2 ^ 26) ^ 2 := pow_le_pow_left₀ (Nat.cast_nonneg k) hk' 2
    rw [← pow_mul] at this
    calc _ ≤ 2 ^ (26 * 2) * (d / 2 ^ 53) := mul_le_mul_of_nonneg_right this (by positivity)
      _ = d / 2 := by ring
  have hup : n ≤ ⌈T / d⌉₊ + 1 := by
    by_contra hlt
    have hlt : ⌈T / d⌉₊ + 1 < n := by omega
    have hc := hj _ hlt
    obtain ⟨t, e, he⟩ := clock_off h1 lo hi (⌈T / d⌉₊ + 1) (by omega)
    have hc : ((clock cfg.dt (⌈T / d⌉₊ + 1)).1 <. cfg.timeEnd.1) = true := hc
    rw [e, h2] at hc
    have hc : t < T := by simpa using hc
    have := half (⌈T / d⌉₊ + 1) (by omega)
    have h3 := (abs_le.1 he).1
    have h4 : T ≤ ⌈T / d⌉₊ * d := by
      rw [← div_le_iff₀ d0]
      exact Nat.le_ceil _
    push_cast at *
    linarith
  obtain ⟨t, e, he⟩ := clock_off h1 lo hi n (by omega)
  have hh := half n (by omega)
  refine ⟨hup, ?_, t, by rw [ht]; exact e, he, he.trans hh⟩
  by_contra hlt
  have hlt : n + 1 < ⌈T / d⌉₊ := by omega
  rw [Nat.lt_ceil, lt_div_iff₀ d0] at hlt
  have hc : ((s.time).1 <. cfg.timeEnd.1) = false := hend
  rw [ht, e, h2] at hc
  have hc : T ≤ t := by simpa using hc
  have h3 := (abs_le.1 he).2
  push_cast at hlt
  linarith

/-- The hypotheses are met, e.g. by the step of 0.1 and the end time of 1 of `C96_extra_step_refuted`, where one step more is
made. -/
example : ∃ d T : ℝ, (lit (1 / 10) : F64).1 = .fin d ∧ (lit 1 : F64).1 = .fin T ∧ (1 / 2) ^ 1000 ≤ d ∧ d ≤ 2 ^ 900 ∧
    T ≤ (2 ^ 26 - 1) * d := by
  have f1 : Form (1 / 16) := by
    have := form_zpow (e := -4) (by norm_num)
    norm_num at this
    norm_num
    exact this
  have f2 : Form 1 := by simpa using form_int (n := 1) (by norm_num)
  have hv : (lit (1 / 10) : F64).1 = .fin (F64.round ((1 / 10 : ℚ) : ℝ)) := by
    show rnd (.fin ((1 / 10 : ℚ) : ℝ)) = _
    rw [rnd_fin (lt_big (by norm_num [abs_of_pos]))]
  have lo := le_round f1 (show (1 / 16 : ℝ) ≤ ((1 / 10 : ℚ) : ℝ) by norm_num)
  have hi := round_le f2 (show ((1 / 10 : ℚ) : ℝ) ≤ 1 by norm_num)
  refine ⟨_, 1, hv, one_val, le_trans ?_ lo, hi.trans (one_le_pow₀ (by norm_num)), ?_⟩
  · calc ((1 : ℝ) / 2) ^ 1000 ≤ (1 / 2) ^ 4 := pow_le_pow_of_le_one (by norm_num) (by norm_num) (by norm_num)
      _ = 1 / 16 := by norm_num
  · have : (2 ^ 26 - 1 : ℝ) * (1 / 16) ≤ (2 ^ 26 - 1) * F64.round ((1 / 10 : ℚ) : ℝ) :=
      mul_le_mul_of_nonneg_left lo (by norm_num)
    refine le_trans ?_ this
    norm_num

end QED
