import Verif.Lemmas.Events
import Verif.Lemmas.Geometry
import Verif.Lemmas.Numerics

set_option linter.unusedSectionVars false
set_option autoImplicit false

/-! Helper lemmas for the processes: table lookups, and momenta over the reals. -/

namespace QED

open MCTools Numerics

section
variable {D : Type} [Dbl D]

theorem firstAbove_spec (q : D) : ∀ (s : List D) (k : Nat) (i : Nat), firstAbove q s k = some i →
    k ≤ i ∧ i < k + s.length := by
  intro s
  induction s with
  | nil => intro k i h; simp [firstAbove] at h
  | cons a s ih =>
    intro k i h
    rw [firstAbove] at h
    split at h
    · cases h; simp
    · have := ih _ _ h
      simp only [List.length_cons]; omega

theorem firstAbove_pos (q a : D) (s : List D) (h : (q <. a) = false) :
    firstAbove q (a :: s) 0 ≠ some 0 := by
  rw [firstAbove, h]
  simp only [Bool.false_eq_true, if_false]
  intro h'
  have := firstAbove_spec q s 1 0 h'
  omega

/-- A lookup in a table of at least two points always succeeds, whatever the scalars. -/
theorem interpolate1D_ok (s d : List D) (q : D) (hlen : s.length = d.length) (hn : 2 ≤ s.length)
    (hl : s.length < 2 ^ 32) : ∃ v, interpolate1D s d q = .ok v := by
  unfold interpolate1D
  dsimp only
  rw [rd_ok (by omega : 0 < s.length)]
  simp only [Res.ok_bind]
  split
  · rw [rd_ok (by omega : 0 < d.length), rd_ok (by omega : 1 < d.length),
      rd_ok (by omega : 1 < s.length)]
    exact ⟨_, rfl⟩
  · next h0 =>
    rw [usub_of_le (by omega) hl, rd_ok (by omega : s.length - 1 < s.length)]
    simp only [Res.ok_bind]
    split
    · rw [if_neg (by omega), rd_ok (by omega : s.length - 1 < d.length),
        rd_ok (by omega : s.length - 2 < d.length), rd_ok (by omega : s.length - 2 < s.length)]
      exact ⟨_, rfl⟩
    · have hcases : firstAbove q s 0 = none ∨ ∃ l, firstAbove q s 0 = some (l + 1) ∧
          l + 1 < s.length := by
        rcases hf : firstAbove q s 0 with _ | i
        · exact Or.inl rfl
        · right
          have hi := firstAbove_spec q s 0 i hf
          cases s with
          | nil => simp at hn
          | cons a s =>
            have := firstAbove_pos q a s (Bool.eq_false_iff.mpr h0)
            rw [hf] at this
            obtain ⟨l, rfl⟩ : ∃ l, i = l + 1 := ⟨i - 1, by
              have : i ≠ 0 := fun h => this (by rw [h])
              omega⟩
            exact ⟨l, rfl, by omega⟩
      rcases hcases with hf | ⟨l, hf, hl⟩
      · rw [hf]
        dsimp only
        rw [rd_ok (by omega : 0 < d.length),
          rd_ok (by omega : 1 < d.length), rd_ok (by omega : 1 < s.length)]
        exact ⟨_, rfl⟩
      · rw [hf]
        dsimp only
        rw [rd_ok (by omega : l < d.length), rd_ok (by omega : l < s.length),
          rd_ok (by omega : l + 1 < d.length), rd_ok (by omega : l + 1 < s.length)]
        exact ⟨_, rfl⟩

/-- The bracketing lookup in a table of at least two points either gives an interval of
the table or ends the program. -/
theorem closestPoints_cases (s : List D) (q : D) (hn : 2 ≤ s.length) (hl : s.length < 2 ^ 32) :
    (∃ low frac, closestPoints s q = .ok (low, frac) ∧ low + 1 < s.length) ∨
      closestPoints s q = .exit (-1) := by
  unfold closestPoints
  dsimp only
  rw [usub_of_le (by omega) hl]
  split
  · next h =>
    left
    rw [rd_ok (by omega : scanLow q s 0 0 < s.length),
      rd_ok (by omega : scanLow q s 0 0 + 1 < s.length)]
    exact ⟨_, _, rfl, by omega⟩
  · exact Or.inr rfl

end

/-! ## Vectors over the reals -/

namespace V3

theorem norm_ne_zero {a : V3 ℝ} (h : a ≠ ⟨0, 0, 0⟩) : a.norm ≠ ⟨0, 0, 0⟩ := by
  intro h'
  have := norm_dot_self h
  rw [h'] at this
  simp [dot] at this

theorem mag_of_unit {a : V3 ℝ} (h : a.dot a = 1) : a.mag = 1 := by simp [mag, h]

theorem norm_of_unit {a : V3 ℝ} (h : a.dot a = 1) : a.norm = a := by
  rw [norm_real, mag_of_unit h]; simp

theorem norm_norm {a : V3 ℝ} (h : a ≠ ⟨0, 0, 0⟩) : a.norm.norm = a.norm :=
  norm_of_unit (norm_dot_self h)

theorem mag_smul (a : V3 ℝ) (c : ℝ) : (a.smul c).mag = |c| * a.mag := by
  simp only [mag, smul, dot, real_add, real_mul, real_sqrt]
  rw [show c * a.x * (c * a.x) + c * a.y * (c * a.y) + c * a.z * (c * a.z) =
    c ^ 2 * (a.x * a.x + a.y * a.y + a.z * a.z) by ring, Real.sqrt_mul (sq_nonneg c),
    Real.sqrt_sq_eq_abs]

theorem smul_unit_mag {a : V3 ℝ} (h : a.dot a = 1) (c : ℝ) : (a.smul c).mag = |c| := by
  rw [mag_smul, mag_of_unit h, mul_one]

theorem norm_smul_pos {a : V3 ℝ} (h : a.dot a = 1) {c : ℝ} (hc : 0 < c) : (a.smul c).norm = a := by
  rw [norm_real, smul_unit_mag h, abs_of_pos hc]
  ext <;> simp [smul, hc.ne']

theorem norm_smul_neg {a : V3 ℝ} (h : a.dot a = 1) {c : ℝ} (hc : c < 0) :
    (a.smul c).norm = a.smul (-1) := by
  rw [norm_real, smul_unit_mag h, abs_of_neg hc]
  ext <;> simp [smul, div_neg, hc.ne]

end V3

end QED
