import Verif.Spec.Speed
import Verif.Model.Particle

set_option autoImplicit false

/-! # Straight flight in double precision -/

namespace QED

/-- Flight along a straight line, as computed: the momentum is unchanged in every bit, and after `k` of the `n`
steps each coordinate is within `k (16 τ + 2 L) / 2 ^ 53` of that of the particle which left `x₀` with the velocity
`v`. The clock is as close to `t₀ + k τ`. `L` bounds the distances from the origin and the times. -/
def FliesStraight (step : Particle F64 → Particle F64) (p : Particle F64) (v : Fin 3 → ℝ) (τ : ℝ) : Prop :=
  ∀ (x₀ : Fin 3 → ℝ) (t₀ L : ℝ) (n : ℕ), p.position.At x₀ → p.time.1 = .fin t₀ → n ≤ 2 ^ 40 →
    (∀ i, |x₀ i| + n * τ ≤ L) → |t₀| + n * τ ≤ L → L ≤ 2 ^ 1000 →
    ∀ k ≤ n, (step^[k] p).momentum = p.momentum ∧
      (∃ z, (step^[k] p).position.At z ∧
        ∀ i, |z i - (x₀ i + k * τ * v i)| ≤ k * ((16 * τ + 2 * L) / 2 ^ 53)) ∧
      ∃ t, (step^[k] p).time.1 = .fin t ∧ |t - (t₀ + k * τ)| ≤ k * ((16 * τ + 2 * L) / 2 ^ 53)

end QED
