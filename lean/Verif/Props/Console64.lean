import Verif.Props.Console
import Verif.Lemmas.F64Flight
import Verif.Lemmas.F64Stuck

set_option autoImplicit false

/-!
# Property C164: the percentages in double precision
-/

namespace QED

open Dbl F64 Main

theorem progress_val {threads n j : Nat} (hn : n < 2 ^ 31) (h0 : 0 < n) (hj : j * threads < n) :
    (progress threads n j : F64).1 = .fin (F64.round (F64.round ((j * threads : ℕ) / (n : ℝ)) * 100)) ∧
      0 ≤ F64.round ((j * threads : ℕ) / (n : ℝ)) ∧ F64.round ((j * threads : ℕ) / (n : ℝ)) ≤ 1 - 1 / 2 ^ 31 := by
  have h1 : u32 (j * threads) = j * threads := Nat.mod_eq_of_lt (by omega)
  have h2 : Mpi.i32 (n : Int) = n := by unfold Mpi.i32; rw [Int.bmod_def]; omega
  have hn0 : (0 : ℝ) < n := by exact_mod_cast h0
  have hn1 : (n : ℝ) ≤ 2 ^ 31 := by exact_mod_cast hn.le
  have hj1 : ((j * threads : ℕ) : ℝ) + 1 ≤ n := by exact_mod_cast hj
  generalize hm : j * threads = m at *
  have hq0 : (0 : ℝ) ≤ (m : ℝ) / n := by positivity
  have hq1 : (m : ℝ) / n ≤ 1 - 1 / 2 ^ 31 := by
    have : 1 / (2 : ℝ) ^ 31 ≤ 1 / n := one_div_le_one_div_of_le hn0 hn1
    have : (m : ℝ) / n ≤ 1 - 1 / n := by
      rw [div_le_iff₀ hn0, sub_mul, one_div, inv_mul_cancel₀ hn0.ne']
      linarith
    linarith
  have hf : Form (1 - 1 / 2 ^ 31) := form_frac (2 ^ 31 - 1) 31 (by norm_num) (by norm_num) (by norm_num)
  have b0 := F64.round_nonneg hq0
  have b1 := round_le hf hq1
  have v1 : (lit ((m : ℕ) : ℚ) : F64).1 = .fin (m : ℝ) := by
    have := lit_val (q := ((m : ℕ) : ℚ)) (rep_small (by omega))
    simpa using this
  have v2 : (lit (((n : Int) : Int) : ℚ) : F64).1 = .fin (n : ℝ) := by
    have := lit_val (q := ((n : ℕ) : ℚ)) (rep_small (by omega))
    simpa using this
  have v3 : (lit 100 : F64).1 = .fin 100 := by
    have := lit_val (q := ((100 : ℕ) : ℚ)) (rep_small (by norm_num))
    simpa using this
  have q := div_at v1 v2 hn0.ne' (lt_big (by
    rw [abs_of_nonneg hq0]
    exact hq1.trans (by norm_num))) rfl
  have r := mul_at q v3 (lt_big (by
    rw [abs_of_nonneg (by positivity)]
    calc _ ≤ (1 - 1 / 2 ^ 31) * 100 := mul_le_mul_of_nonneg_right b1 (by norm_num)
      _ ≤ _ := by norm_num)) rfl
  refine ⟨?_, b0, b1⟩
  unfold progress
  rw [hm, h1, h2]
  exact r

/-- C164 for the percentages in double precision: in a source of fewer than `2^31` events whose events are given to the threads
in blocks of about the same size they are at least 0 and below 100, and never decrease. -/
theorem C164_double_partial (threads n : Nat) (ht : 0 < threads) (hn : n < 2 ^ 31) :
    (∀ x ∈ (reports threads n (firstBlock threads n) : List F64), (lit 0 <=. x) = true ∧ (x <. lit 100) = true) ∧
    (reports threads n (firstBlock threads n) : List F64).Pairwise fun x y => (x <=. y) = true := by
  have h1 : ∀ j ∈ firstBlock threads n, 0 < n ∧ j * threads < n := by
    intro j hj
    have := mem_firstBlock ht hj
    exact ⟨by omega, this⟩
  constructor
  · intro x hx
    unfold reports at hx
    obtain ⟨j, hj, rfl⟩ := List.mem_map.1 hx
    obtain ⟨h0, hl⟩ := h1 j (List.mem_of_mem_filter hj)
    obtain ⟨v, b0, b1⟩ := progress_val hn h0 hl
    have v3 : (lit 100 : F64).1 = .fin 100 := by
      have := lit_val (q := ((100 : ℕ) : ℚ)) (rep_small (by norm_num))
      simpa using this
    have hf : Form (100 - 1 / 2 ^ 25) := form_frac (100 * 2 ^ 25 - 1) 25 (by norm_num) (by norm_num) (by norm_num)
    have c0 := F64.round_nonneg (mul_nonneg b0 (show (0 : ℝ) ≤ 100 by norm_num))
    have c1 : F64.round (F64.round ((j * threads : ℕ) / (n : ℝ)) * 100) ≤ 100 - 1 / 2 ^ 25 := round_le hf (by
      norm_num at b1 ⊢
      linarith)
    constructor
    · show ((lit 0 : F64).1 <=. (progress threads n j : F64).1) = true
      rw [zero_val, v]
      simpa using c0
    · show ((progress threads n j : F64).1 <. (lit 100 : F64).1) = true
      rw [v3, v]
      have : F64.round (F64.round ((j * threads : ℕ) / (n : ℝ)) * 100) < 100 := lt_of_le_of_lt c1 (by norm_num)
      simpa using this
  · unfold reports
    rw [List.pairwise_map]
    have hp : (firstBlock threads n).Pairwise (· < ·) := List.pairwise_lt_range
    refine (hp.sublist List.filter_sublist).imp_of_mem ?_
    intro a b ha hb hab
    obtain ⟨h0, hla⟩ := h1 a (List.mem_of_mem_filter ha)
    obtain ⟨-, hlb⟩ := h1 b (List.mem_of_mem_filter hb)
    obtain ⟨va, -⟩ := progress_val hn h0 hla
    obtain ⟨vb, -⟩ := progress_val hn h0 hlb
    show ((progress threads n a : F64).1 <=. (progress threads n b : F64).1) = true
    rw [va, vb]
    have hm : ((a * threads : ℕ) : ℝ) ≤ (b * threads : ℕ) := by
      exact_mod_cast Nat.mul_le_mul_right threads hab.le
    have := round_mono (mul_le_mul_of_nonneg_right (round_mono (div_le_div_of_nonneg_right hm (Nat.cast_nonneg n)))
      (show (0 : ℝ) ≤ 100 by norm_num))
    simpa using this

/-- The hypotheses are met, e.g. by 100 events and four threads: five lines. -/
example : (reports 4 100 (firstBlock 4 100) : List F64).length = 5 ∧
    (reports 4 100 (firstBlock 4 100) : List F64).Pairwise fun x y => (x <=. y) = true := by
  refine ⟨?_, (C164_double_partial 4 100 (by norm_num) (by norm_num)).2⟩
  unfold reports
  rw [List.length_map]
  decide

end QED
