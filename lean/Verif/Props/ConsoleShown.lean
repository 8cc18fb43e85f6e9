import Verif.Props.Console

set_option autoImplicit false

/-!
# Property C164: what the console says about a run is right, as far as its digits go

The stream is set to two significant digits before the first percentage. What is shown is off by up to half a per cent
(C164_shown_partial), so that the end of a source is announced too early (C164_shown_refuted).
-/

namespace QED

open Main

/-- C164 for what is shown: it is off by no more than half a per cent. -/
theorem C164_shown_partial {x : ℝ} (h0 : 0 ≤ x) (h1 : x < 100) : |shown x - x| ≤ 1 / 2 := by
  unfold shown
  split
  · next h => simp [h]
  · next h =>
    have hx : 0 < x := lt_of_le_of_ne h0 (Ne.symm h)
    rw [abs_of_pos hx]
    have hlog : Int.log 10 x < 2 := (Int.lt_zpow_iff_log_lt (by norm_num) hx).1 (by norm_num; exact h1)
    have hu0 : (0 : ℝ) < 10 ^ (Int.log 10 x - 1) := by positivity
    have hu1 : (10 : ℝ) ^ (Int.log 10 x - 1) ≤ 1 := by
      rw [← zpow_zero (10 : ℝ)]
      exact zpow_le_zpow_right₀ (by norm_num) (by omega)
    have hr := abs_sub_round (x / 10 ^ (Int.log 10 x - 1))
    generalize (10 : ℝ) ^ (Int.log 10 x - 1) = u at *
    have e : round (x / u) * u - x = -(x / u - round (x / u)) * u := by
      field_simp
      ring
    rw [e, abs_mul, abs_neg, abs_of_pos hu0]
    calc _ ≤ 1 / 2 * u := mul_le_mul_of_nonneg_right hr hu0.le
      _ ≤ _ := by linarith

/-- C164 fails for what is shown: from 99.5 per cent on it is 100, before the source is done. With 10000 events and one thread
this happens after event number 9995. -/
theorem C164_shown_refuted :
    (∀ x : ℝ, 99.5 ≤ x → x < 100 → shown x = 100) ∧
    9995 ∈ firstBlock 1 10000 ∧ shown (progress 1 10000 9995 : ℝ) = 100 := by
  have key : ∀ x : ℝ, 99.5 ≤ x → x < 100 → shown x = 100 := by
    intro x lo hi
    norm_num at lo
    have hx : 0 < x := by linarith
    have hlog : Int.log 10 x = 1 := by
      apply le_antisymm
      · have := (Int.lt_zpow_iff_log_lt (b := 10) (x := 2) (by norm_num) hx).1 (by norm_num; exact hi)
        omega
      · exact (Int.zpow_le_iff_le_log (b := 10) (x := 1) (by norm_num) hx).1 (by norm_num; linarith)
    unfold shown
    rw [if_neg hx.ne', abs_of_pos hx, hlog]
    have : round (x / (10 : ℝ) ^ ((1 : ℤ) - 1)) = 100 := by
      rw [round_eq, Int.floor_eq_iff]
      norm_num
      constructor <;> linarith
    rw [this]
    norm_num
  refine ⟨key, ?_, ?_⟩
  · unfold firstBlock
    rw [List.mem_range]
    norm_num
  · rw [progress_small (by norm_num) (by norm_num)]
    exact key _ (by norm_num) (by norm_num)

/-- A concrete case of C164_shown_partial: 20 per cent. -/
example : |shown (progress 4 100 5 : ℝ) - progress 4 100 5| ≤ 1 / 2 := by
  rw [progress_small (by norm_num) (by norm_num)]
  exact C164_shown_partial (by norm_num) (by norm_num)

end QED
