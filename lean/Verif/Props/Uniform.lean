import Verif.Model.MCTools
import Verif.Spec.Survival
import Verif.Lemmas.F64Witness

set_option autoImplicit false

/-!
# Property C135: uniform random numbers
-/

namespace QED

open Dbl MCTools

/-- C135, range: in exact arithmetic `RandDouble` gives a number from `low` up to, but not including, `high`. If the
two are the same it gives that number. -/
theorem C135_range_partial (low high u : ℝ) (h : low ≤ high) (h0 : 0 ≤ u) (h1 : u < 1) :
    ∃ x, randDouble low high u = .ok x ∧ low ≤ x ∧ (x < high ∨ low = high ∧ x = high) := by
  refine ⟨u * (high - low) + low, ?_, ?_, ?_⟩
  · unfold randDouble
    rw [if_pos (by simpa using h)]
    simp
  · nlinarith
  · rcases h.lt_or_eq with h | h
    · left; nlinarith
    · right; subst h; simp

/-- C135, law: in exact arithmetic the number lies in a part of the range with a probability proportional to the
length of the part. -/
theorem C135_law_partial (low high a b : ℝ) (h : low < high) (ha : low ≤ a) (_ : a ≤ b) (hb : b ≤ high) :
    chance (fun u => ∃ x, randDouble low high u = .ok x ∧ a ≤ x ∧ x < b) = ENNReal.ofReal ((b - a) / (high - low)) := by
  have hd : 0 < high - low := sub_pos.mpr h
  have e : {u : ℝ | 0 ≤ u ∧ u < 1 ∧ ∃ x, randDouble low high u = .ok x ∧ a ≤ x ∧ x < b} =
      Set.Ico ((a - low) / (high - low)) ((b - low) / (high - low)) := by
    ext u
    have hr : randDouble low high u = .ok (u * (high - low) + low) := by
      unfold randDouble
      rw [if_pos (by simpa using h.le)]
      simp
    simp only [Set.mem_ofPred_eq, Set.mem_Ico, div_le_iff₀ hd, lt_div_iff₀ hd, hr, Res.ok.injEq, exists_eq_left']
    constructor
    · rintro ⟨-, -, h1, h2⟩
      exact ⟨by linarith, by linarith⟩
    · rintro ⟨h1, h2⟩
      refine ⟨?_, ?_, by linarith, by linarith⟩
      · by_contra hu
        nlinarith
      · by_contra hu
        nlinarith
  unfold chance
  rw [e, Real.volume_Ico]
  congr 1
  field_simp
  ring

/-- C135 for any arithmetic: a range the wrong way round is undefined behaviour. -/
theorem C135_order {D : Type} [Dbl D] (low high u : D) :
    (∃ x, randDouble low high u = .ok x) ↔ (low <=. high) = true := by
  unfold randDouble
  split
  · next h => exact ⟨fun _ => h, fun _ => ⟨_, rfl⟩⟩
  · next h => exact ⟨fun ⟨x, hx⟩ => (by cases hx), fun h' => absurd h' h⟩

/-- C135 for any arithmetic: `SampleUniform` gives one such number for every draw. -/
theorem C135_many {D : Type} [Dbl D] (low high : D) (us xs : List D) (h : sampleUniform low high us = .ok xs) :
    List.Forall₂ (fun u x => randDouble low high u = .ok x) us xs := by
  unfold sampleUniform at h
  split at h
  · next hle =>
    rw [← Res.ok.inj h, List.forall₂_map_right_iff, List.forall₂_same]
    intro u _
    unfold randDouble
    rw [if_pos hle]
  · cases h

open F64 in
/-- C135 in double precision for ranges that start at zero, the only ones in which the program calls it: the number is not
negative and not above the end of the range. -/
theorem C135_from_zero_partial {high u : F64} {H U : ℝ} (hH : high.1 = .fin H) (hU : u.1 = .fin U)
    (hb : 0 ≤ H ∧ H < 2 ^ 1023) (h0 : 0 ≤ U) (h1 : U < 1) :
    ∃ x X, randDouble (lit 0) high u = .ok x ∧ x.1 = .fin X ∧ 0 ≤ X ∧ X ≤ H := by
  have hle : (lit 0 <=. high : Bool) = true := by
    show ((lit 0 : F64).1 <=. high.1) = true
    rw [zero_val, hH]
    simpa using hb.1
  have hfH : Form H := (high.2 H hH).1
  have hr : F64.round H = H := round_form_eq hfH
  have s1 : (high -. lit 0 : F64).1 = .fin H :=
    sub_at hH zero_val (by rw [sub_zero, abs_of_nonneg hb.1]; exact hb.2) (by rw [sub_zero, hr])
  have hUH : U * H ≤ H := by nlinarith
  have hUH0 : 0 ≤ U * H := mul_nonneg h0 hb.1
  have s2 : (u *. (high -. lit 0) : F64).1 = .fin (F64.round (U * H)) :=
    mul_at hU s1 (by rw [abs_of_nonneg hUH0]; exact hUH.trans_lt hb.2) rfl
  have s3 := add_zero_at s2 zero_val
  refine ⟨_, _, ?_, s3, round_nonneg hUH0, round_le hfH hUH⟩
  unfold randDouble
  rw [if_pos hle]

open F64 in
/-- C135 is false in double precision: `RandDouble(1, 2)` gives 2 for the largest draw below 1. -/
theorem C135_refuted : ∃ u x : F64, u.1 = .fin (1 - 1 / 2 ^ 53) ∧ randDouble (lit 1) (lit 2) u = .ok x ∧
    x.1 = .fin 2 := by
  have hrep : Rep (1 - 1 / 2 ^ 53 : ℝ) := by
    refine ⟨?_, ?_⟩
    · have := form_mul (n := 2 ^ 53 - 1) (e := -53) (by norm_num) (by norm_num)
      have e : (((2 ^ 53 - 1 : ℤ) : ℝ) * 2 ^ (-53 : ℤ)) = 1 - 1 / 2 ^ 53 := by norm_num [zpow_neg]
      rwa [e] at this
    · rw [abs_of_pos (by norm_num)]
      exact lt_of_lt_of_le (b := 1) (by norm_num) (one_le_pow₀ (by norm_num))
  have s1 : (lit 2 -. lit 1 : F64).1 = .fin 1 := by
    refine sub_at two_val one_val (lt_big (by norm_num)) ?_
    rw [show (2 - 1 : ℝ) = 1 by norm_num]
    exact round_int_mul 1 0 (by norm_num) (by norm_num)
  have hu : (F64.fin _ hrep).1 = .fin (1 - 1 / 2 ^ 53) := rfl
  have s2 : (F64.fin _ hrep *. (lit 2 -. lit 1) : F64).1 = .fin (1 - 1 / 2 ^ 53) := by
    refine mul_at hu s1 (lt_big (by norm_num)) ?_
    rw [mul_one]
    exact round_form_eq hrep.1
  have s3 : (F64.fin _ hrep *. (lit 2 -. lit 1) +. lit 1 : F64).1 = .fin 2 := by
    refine add_at s2 one_val (lt_big (by norm_num)) ?_
    rw [round_digits (2 ^ 53) 52 (by norm_num) (by norm_num) (by norm_num) (Or.inr ⟨by norm_num, by decide⟩)]
    norm_num
  have hle : ((lit 1 : F64) <=. lit 2) = true := by
    show ((lit 1 : F64).1 <=. (lit 2 : F64).1) = true
    rw [one_val, two_val]
    simp
  refine ⟨_, _, hu, ?_, s3⟩
  unfold randDouble
  rw [if_pos hle]

/-- The chance of a number below 1/4 in the range from -1 to 1. -/
example : chance (fun u => ∃ x, randDouble (-1) 1 u = .ok x ∧ -1 ≤ x ∧ x < 1 / 4) = ENNReal.ofReal (5 / 8) := by
  rw [C135_law_partial (-1) 1 (-1) (1 / 4) (by norm_num) (by norm_num) (by norm_num) (by norm_num)]
  norm_num

/-- One half of the range up to 2, in double precision. -/
example : ∃ x : F64, randDouble (lit 0) (lit 2) (lit 0) = .ok x := by
  obtain ⟨x, -, h, -⟩ := C135_from_zero_partial (H := 2) (U := 0) F64.two_val F64.zero_val
    ⟨by norm_num, by calc (2:ℝ) = 2 ^ 1 := by norm_num
      _ < 2 ^ 1023 := pow_lt_pow_right₀ (by norm_num) (by norm_num)⟩ le_rfl one_pos
  exact ⟨x, h⟩

end QED
