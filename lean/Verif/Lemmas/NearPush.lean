import Verif.Lemmas.Near

set_option autoImplicit false
set_option exponentiation.threshold 2000

/-!
# Rounding errors of the parts of a push
-/

namespace QED

open Dbl F64

namespace Near

theorem times {k dt : F64} {r ε R τ : ℝ} (hk : Near k r ε) (hr : |r| ≤ R) (hε : 1000 * ε ≤ R) (ht : dt.1 = .fin τ)
    (mR : Mid R) (mτ : Mid τ) : Near (k *. dt) (r * τ) (ε * τ + 11 / 10 / 9007199254740992 * (R * τ)) := by
  have h := mul hk (of_val ht) hr (abs_of_pos mτ.pos).le hε (by linarith [mτ.pos]) (by
    have := mR.ok_mul mτ (c := 1) (by norm_num) (by norm_num)
    rwa [one_mul] at this)
  exact h.weaken (le_of_eq (by ring))

/-- A stage at the middle of the step. -/
theorem half {b k dt : F64} {y r ε R τ S : ℝ} (hb : b.1 = .fin y) (hk : Near k r ε) (hr : |r| ≤ R) (hε : 1000 * ε ≤ R)
    (ht : dt.1 = .fin τ) (mR : Mid R) (mτ : Mid τ) (hS : |y| + R * τ ≤ S) (ok : Ok S) :
    Near (b +. (k *. dt) /. lit 2) (y + r * τ / 2)
      (ε * τ / 2 + 11 / 10 / 9007199254740992 * (R * τ) + 11 / 10 / 9007199254740992 * S) := by
  have τ0 := mτ.pos
  have R0 := mR.pos
  have hRτ : 0 < R * τ := mul_pos R0 τ0
  have ετ : 1000 * (ε * τ) ≤ R * τ := by
    have := mul_le_mul_of_nonneg_right hε τ0.le
    linarith
  have hrτ : |r * τ| ≤ R * τ := by
    rw [abs_mul, abs_of_pos τ0]
    exact mul_le_mul_of_nonneg_right hr τ0.le
  have y0 := abs_nonneg y
  have h1 := times hk hr hε ht mR mτ
  have h2 := div (s := 1 / 2 * (R * τ)) h1 two_val (by norm_num) (by linarith) (by linarith)
    (mR.ok_mul mτ (by norm_num) (by norm_num))
  have h3 := add (of_val hb) h2 (s := S) (by
    have := abs_add_le y (r * τ / 2)
    rw [abs_div, abs_of_pos (two_pos : (0 : ℝ) < 2)] at this
    linarith) (by linarith) ok
  exact h3.weaken (by linarith)

/-- A stage at the end of the step. -/
theorem full {b k dt : F64} {y r ε R τ S : ℝ} (hb : b.1 = .fin y) (hk : Near k r ε) (hr : |r| ≤ R) (hε : 1000 * ε ≤ R)
    (ht : dt.1 = .fin τ) (mR : Mid R) (mτ : Mid τ) (hS : |y| + R * τ ≤ S) (ok : Ok S) :
    Near (b +. k *. dt) (y + r * τ)
      (ε * τ + 11 / 10 / 9007199254740992 * (R * τ) + 11 / 10 / 9007199254740992 * S) := by
  have τ0 := mτ.pos
  have R0 := mR.pos
  have hRτ : 0 < R * τ := mul_pos R0 τ0
  have ετ : 1000 * (ε * τ) ≤ R * τ := by
    have := mul_le_mul_of_nonneg_right hε τ0.le
    linarith
  have hrτ : |r * τ| ≤ R * τ := by
    rw [abs_mul, abs_of_pos τ0]
    exact mul_le_mul_of_nonneg_right hr τ0.le
  have y0 := abs_nonneg y
  have h1 := times hk hr hε ht mR mτ
  have h3 := add (of_val hb) h1 (s := S) (by
    have := abs_add_le y (r * τ)
    linarith) (by linarith) ok
  exact h3.weaken (by linarith)

theorem twice {k : F64} {r ε R : ℝ} (hk : Near k r ε) (hr : |r| ≤ R) (hε : 1000 * ε ≤ R) (mR : Mid R) :
    Near (lit 2 *. k) (2 * r) (2 * ε + 11 / 10 / 9007199254740992 * (2 * R)) := by
  have h := mul (of_val two_val) hk (r := 2) (q := R) (by norm_num) hr (by norm_num) hε
    (mR.ok (by norm_num) (by norm_num))
  exact h.weaken (le_of_eq (by ring))

/-- The weighted mean of the four slopes, added to the starting value. -/
theorem mean {b k₁ k₂ k₃ k₄ dt : F64} {y r₁ r₂ r₃ r₄ ε₁ ε₂ ε₃ ε₄ R τ S : ℝ} (hb : b.1 = .fin y)
    (h₁ : Near k₁ r₁ ε₁) (h₂ : Near k₂ r₂ ε₂) (h₃ : Near k₃ r₃ ε₃) (h₄ : Near k₄ r₄ ε₄)
    (b₁ : |r₁| ≤ R) (b₂ : |r₂| ≤ R) (b₃ : |r₃| ≤ R) (b₄ : |r₄| ≤ R)
    (e₁ : 2000 * ε₁ ≤ R) (e₂ : 2000 * ε₂ ≤ R) (e₃ : 2000 * ε₃ ≤ R) (e₄ : 2000 * ε₄ ≤ R)
    (ht : dt.1 = .fin τ) (mR : Mid R) (mτ : Mid τ) (hS : |y| + R * τ ≤ S) (ok : Ok S) :
    Near (b +. (dt /. lit 6) *. (((k₁ +. lit 2 *. k₂) +. lit 2 *. k₃) +. k₄))
      (y + τ / 6 * (r₁ + 2 * r₂ + 2 * r₃ + r₄))
      ((ε₁ + 2 * ε₂ + 2 * ε₃ + ε₄) * τ / 6 + 56 / 10 / 9007199254740992 * (R * τ)
        + 11 / 10 / 9007199254740992 * S) := by
  have τ0 := mτ.pos
  have R0 := mR.pos
  have hRτ : 0 < R * τ := mul_pos R0 τ0
  have y0 := abs_nonneg y
  have p₁ := h₁.nonneg
  have p₂ := h₂.nonneg
  have p₃ := h₃.nonneg
  have p₄ := h₄.nonneg
  rw [abs_le] at b₁ b₂ b₃ b₄
  have t₂ := twice h₂ (abs_le.mpr b₂) (by linarith) mR
  have t₃ := twice h₃ (abs_le.mpr b₃) (by linarith) mR
  have s₁ := add h₁ t₂ (s := 3 * R) (by rw [abs_le]; constructor <;> linarith) (by linarith)
    (mR.ok (by norm_num) (by norm_num))
  have s₂ := add s₁ t₃ (s := 5 * R) (by rw [abs_le]; constructor <;> linarith) (by linarith)
    (mR.ok (by norm_num) (by norm_num))
  have s₃ := add s₂ h₄ (s := 6 * R) (by rw [abs_le]; constructor <;> linarith) (by linarith)
    (mR.ok (by norm_num) (by norm_num))
  generalize hE : ε₁ + 2 * ε₂ + 2 * ε₃ + ε₄ = Es
  have s₄ := s₃.weaken (f := Es + 198 / 10 / 9007199254740992 * R) (by rw [← hE]; linarith)
  have Es0 : 0 ≤ Es := by rw [← hE]; linarith
  have Es1 : 2000 * Es ≤ 6 * R := by rw [← hE]; linarith
  have q := div (s := 1 / 6 * τ) (of_val ht) six_val (by norm_num) (by rw [abs_of_pos τ0]; linarith) (by linarith)
    (mτ.ok (by norm_num) (by norm_num))
  have m := mul q s₄ (r := 1 / 6 * τ) (q := 6 * R) (by rw [abs_of_pos (by positivity)]; linarith)
    (by rw [abs_le]; constructor <;> linarith) (by linarith) (by linarith) (by
      have := mR.ok_mul mτ (c := 1) (by norm_num) (by norm_num)
      have e : 1 / 6 * τ * (6 * R) = 1 * (R * τ) := by ring
      rwa [e])
  have hm : (0 / 6 + 11 / 10 / 9007199254740992 * (1 / 6 * τ)) * (6 * R + (Es + 198 / 10 / 9007199254740992 * R)) +
      1 / 6 * τ * (Es + 198 / 10 / 9007199254740992 * R) + 11 / 10 / 9007199254740992 * (1 / 6 * τ * (6 * R)) ≤
      Es * τ / 6 + 56 / 10 / 9007199254740992 * (R * τ) := by
    have h5 : τ * Es ≤ τ * (6 * R / 2000) := mul_le_mul_of_nonneg_left (by linarith) τ0.le
    have e : (0 / 6 + 11 / 10 / 9007199254740992 * (1 / 6 * τ)) * (6 * R + (Es + 198 / 10 / 9007199254740992 * R)) +
      1 / 6 * τ * (Es + 198 / 10 / 9007199254740992 * R) + 11 / 10 / 9007199254740992 * (1 / 6 * τ * (6 * R)) =
      Es * τ / 6 + 11 / 60 / 9007199254740992 * (τ * Es) + (11 / 10 / 9007199254740992
        + 11 / 60 / 9007199254740992 * (198 / 10 / 9007199254740992) + 198 / 60 / 9007199254740992
        + 11 / 10 / 9007199254740992) * (R * τ) := by ring
    rw [e]
    linarith
  have m' := m.weaken hm
  have Eτ : 2000 * (Es * τ) ≤ 6 * (R * τ) := by
    have := mul_le_mul_of_nonneg_right Es1 τ0.le
    linarith
  have hval : |τ / 6 * (r₁ + 2 * r₂ + 2 * r₃ + r₄)| ≤ R * τ := by
    rw [abs_mul, abs_of_pos (by positivity : 0 < τ / 6)]
    have : |r₁ + 2 * r₂ + 2 * r₃ + r₄| ≤ 6 * R := by rw [abs_le]; constructor <;> linarith
    have := mul_le_mul_of_nonneg_left this (by positivity : 0 ≤ τ / 6)
    linarith
  have f := add (of_val hb) m' (s := S) (by
    have := abs_add_le y (τ / 6 * (r₁ + 2 * r₂ + 2 * r₃ + r₄))
    linarith) (by linarith) ok
  exact f.weaken (by linarith)

end Near

end QED
