import Verif.Base.F64
import Verif.Lemmas.Loop

set_option autoImplicit false

/-!
# Doubles and the clock of the time loop
-/

namespace QED

open Dbl MCTools

section
variable {D : Type} [Dbl D]

/-- The simulation time after `n` steps. -/
def clock (dt : D) : Nat → D
  | 0 => lit 0
  | n + 1 => clock dt n +. dt

theorem steps_clock {cfg : SimCfg D} {l : PList D} {r : Rng D} {hists : List (Hist D)} {t : EvState D}
    {m : Nat} (h : Steps cfg (.init l r hists) m t) :
    t.time = clock cfg.dt m ∧ ∀ j < m, (clock cfg.dt j <. cfg.timeEnd) = true := by
  induction h with
  | zero => exact ⟨rfl, fun j hj => by omega⟩
  | @succ m t t' _ h1 h2 ih =>
    refine ⟨by rw [(timeStep_advance h2).2, ih.1]; rfl, fun j hj => ?_⟩
    by_cases hjm : j = m
    · rw [hjm, ← ih.1]; exact h1
    · exact ih.2 j (by omega)

end

namespace F64

/-- A multiple of a power of two by an integer of at most 53 bits. -/
theorem form_mul {n e : ℤ} (hn : |n| ≤ 2 ^ 53) (he : -1074 ≤ e) : Form (n * 2 ^ e) := by
  rcases hn.lt_or_eq with h | h
  · exact ⟨n, e, h, he, rfl⟩
  · have h2 : (2 : ℝ) ^ (e + 1) = 2 * 2 ^ e := by rw [zpow_add₀ (by norm_num)]; ring
    rcases abs_choice n with hc | hc
    · refine ⟨2 ^ 52, e + 1, by norm_num, by omega, ?_⟩
      rw [show n = 2 ^ 53 by omega, h2]; push_cast; ring
    · refine ⟨-2 ^ 52, e + 1, by norm_num, by omega, ?_⟩
      rw [show n = -2 ^ 53 by omega, h2]; push_cast; ring

/-- How a number in the normal range is rounded. -/
theorem round_normal {x : ℝ} {m e : ℤ} (he : -1074 ≤ e) (lo : 2 ^ 52 * 2 ^ e ≤ x)
    (hi : x < 2 ^ 53 * 2 ^ e) (h : |(m : ℝ) - x / 2 ^ e| < 1 / 2 ∨
      (|(m : ℝ) - x / 2 ^ e| = 1 / 2 ∧ Even m)) : round x = m * 2 ^ e := by
  have hp := two_zpow_pos e
  have hx : 0 < x := lt_of_lt_of_le (by positivity) lo
  have hexp : expo x = e := by
    have h1 : Int.log 2 |x| = 52 + e := by
      rw [abs_of_pos hx]
      apply le_antisymm
      · have : Int.log 2 x < 53 + e := by
          rw [← Int.lt_zpow_iff_log_lt (by norm_num) hx]
          push_cast
          rw [zpow_add₀ (by norm_num)]
          calc x < _ := hi
            _ = _ := by norm_num
        omega
      · rw [← Int.zpow_le_iff_le_log (by norm_num) hx]
        push_cast
        rw [zpow_add₀ (by norm_num)]
        calc _ = (2 : ℝ) ^ 52 * 2 ^ e := by norm_num
          _ ≤ _ := lo
    unfold expo
    rw [h1]
    omega
  unfold round
  rw [hexp, roundEven_unique h]

/-- A sum that rounds to a representable number. -/
theorem add_round {x y z : ℝ} (hx : Rep x) (hy : Rep y) (hz : Rep z) (h : round (x + y) = z) :
    fin x hx +. fin y hy = fin z hz := by
  apply Subtype.ext
  show rnd (.fin (x + y)) = .fin z
  simp only [rnd]
  rw [h, if_pos hz.2]

theorem Rep.pos_ge {x : ℝ} (h : Rep x) (hx : 0 < x) : (2 : ℝ) ^ (-1074 : ℤ) ≤ x := by
  obtain ⟨⟨m, e, -, he, rfl⟩, -⟩ := h
  have hm : 0 < m := by
    by_contra hn
    have : (m : ℝ) ≤ 0 := by exact_mod_cast not_lt.mp hn
    have := mul_nonpos_of_nonpos_of_nonneg this (two_zpow_pos e).le
    linarith
  have hm' : (1 : ℝ) ≤ m := by exact_mod_cast hm
  calc (2 : ℝ) ^ (-1074 : ℤ) ≤ 2 ^ e := zpow_le_zpow_right₀ (by norm_num) he
    _ = 1 * 2 ^ e := by ring
    _ ≤ _ := mul_le_mul_of_nonneg_right hm' (two_zpow_pos e).le

/-- Adding a number that is not far below the sum moves by at least half of it. -/
theorem round_progress {x dt : ℝ} (hx : 0 ≤ x) (hdt : Rep dt) (hpos : 0 < dt)
    (h : x + dt ≤ 2 ^ 52 * dt) : x + dt / 2 ≤ round (x + dt) := by
  have he : (2 : ℝ) ^ expo (x + dt) ≤ dt := by
    have hp : 0 < x + dt := by linarith
    have h1 : expo (x + dt) = Int.log 2 |x + dt| - 52 ∨ expo (x + dt) = -1074 := max_choice _ _
    rcases h1 with h1 | h1
    · have h2 : (2 : ℝ) ^ Int.log 2 |x + dt| ≤ |x + dt| := by
        exact_mod_cast Int.zpow_log_le_self (b := 2) (by norm_num) (abs_pos.mpr hp.ne')
      have h3 : (2 : ℝ) ^ Int.log 2 |x + dt| = 2 ^ 52 * 2 ^ expo (x + dt) := by
        rw [h1, show Int.log 2 |x + dt| = (52 : ℤ) + (Int.log 2 |x + dt| - 52) by ring,
          zpow_add₀ (by norm_num)]
        norm_num
      rw [h3, abs_of_pos hp] at h2
      nlinarith
    · rw [h1]; exact hdt.pos_ge hpos
  have := (abs_le.mp (round_error (x + dt))).1
  linarith

end F64
end QED
