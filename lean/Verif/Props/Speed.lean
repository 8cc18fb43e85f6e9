import Verif.Lemmas.F64Witness

set_option autoImplicit false

/-!
# Property C131: the speed limit in double precision

C27 says that a massive particle moves by less than `n * dt` in `n` steps, with exact arithmetic. Here the
arithmetic is that of doubles.
-/

namespace QED

open Dbl F64

/-- The full property: whatever the force law and the field, a lepton whose coordinates stay finite moves
by less than `dt` in a step. -/
def SlowerThanLight : Prop :=
  ∀ (push : PushMom F64) (field : Field F64) (dt : F64) (p : Particle F64) (τ : ℝ) (x x' : Fin 3 → ℝ),
    p.mass = lit 1 → dt.1 = .fin τ → 0 < τ → p.position.At x →
    (pushParticle push field dt p).position.At x' → len (x' - x) < τ

theorem one_ne_zero_dbl : ((lit 1 : F64) ==. lit 0) = false := by
  have : ((lit 1 : F64) ==. lit 0) = ((lit 1 : F64).1 ==. (lit 0 : F64).1) := rfl
  rw [this, one_val, zero_val]
  simp

theorem push_dbl_pos (push : PushMom F64) (field : Field F64) (dt : F64) (p : Particle F64)
    (ha : p.isAlive = true) (hm : p.mass = lit 1) :
    (pushParticle push field dt p).position =
      (rk4 push field dt (lit 1) p.charge p.time p.position p.momentum).1 := by
  unfold pushParticle
  rw [if_neg (by simp [ha]), hm, one_ne_zero_dbl]
  unfold Particle.updateTrack Particle.updateTime
  dsimp only
  split <;> split <;> first | rfl | (rename_i h _; exact absurd h (by simp))

theorem push_dbl_same (push : PushMom F64) (field : Field F64) (dt : F64) (p : Particle F64) :
    (pushParticle push field dt p).mass = p.mass ∧
    (pushParticle push field dt p).isAlive = p.isAlive := by
  unfold pushParticle Particle.updateTrack Particle.updateTime
  dsimp only
  split
  · exact ⟨rfl, rfl⟩
  · split <;> split <;> exact ⟨rfl, rfl⟩

/-- The velocity that the pusher computes for a lepton is at most the speed of light up to twelve units of
rounding, whatever the momentum. -/
theorem C131_velocity_partial (p : V3 F64) (v : Fin 3 → ℝ) (h : (pushPosition (lit 1) p).At v) :
    len v ≤ 1 + 12 / 2 ^ 53 := by
  have := speed_at h
  norm_num at this ⊢
  linarith

/-- One push of a lepton, for every force law and every field: if the new coordinates are finite then so
were the old ones, and the particle has moved by at most `dt` up to rounding. -/
theorem C131_push_partial (push : PushMom F64) (field : Field F64) (dt : F64) (τ : ℝ)
    (hdt : dt.1 = .fin τ) (h0 : 0 ≤ τ) (p : Particle F64) (hm : p.mass = lit 1) (x' : Fin 3 → ℝ)
    (h : (pushParticle push field dt p).position.At x') :
    ∃ x, p.position.At x ∧ len (x' - x) ≤ (1 + 1 / 2 ^ 47) * τ + 1 / 2 ^ 52 * len x' + 1 / 2 ^ 1069 := by
  rcases ha : p.isAlive with _ | _
  · have e : pushParticle push field dt p = p := by simp [pushParticle, ha]
    rw [e] at h
    refine ⟨x', h, ?_⟩
    rw [sub_self]
    have : len (0 : Fin 3 → ℝ) = 0 := by simp [len]
    rw [this]
    have := len_nonneg x'
    positivity
  · rw [push_dbl_pos push field dt p ha hm] at h
    obtain ⟨x, hx, hl⟩ := rk4_at hdt h0 h
    refine ⟨x, hx, ?_⟩
    have : (2 : ℝ) ^ 6 * eta = 1 / 2 ^ 1069 := by
      unfold eta
      rw [show (-1075 : ℤ) = -((1069 : ℕ) : ℤ) - ((6 : ℕ) : ℤ) by norm_num,
        zpow_sub₀ (by norm_num), zpow_neg, zpow_natCast, zpow_natCast, one_div]
      field_simp
    rw [this] at hl
    exact hl

/-- Any number of pushes within distance `L` of the origin. -/
theorem C131_pushes_partial (push : PushMom F64) (field : Field F64) (dt : F64) (τ : ℝ)
    (hdt : dt.1 = .fin τ) (h0 : 0 ≤ τ) (p : Particle F64) (hm : p.mass = lit 1) (L : ℝ) (n : Nat)
    (h : ∀ k ≤ n, ∃ x, ((pushParticle push field dt)^[k] p).position.At x ∧ len x ≤ L) :
    ∃ x x', p.position.At x ∧ ((pushParticle push field dt)^[n] p).position.At x' ∧
      len (x' - x) ≤ n * ((1 + 1 / 2 ^ 47) * τ + 1 / 2 ^ 52 * L + 1 / 2 ^ 1069) := by
  have hmass : ∀ k, ((pushParticle push field dt)^[k] p).mass = lit 1 := by
    intro k
    induction k with
    | zero => exact hm
    | succ k ih => rw [Function.iterate_succ_apply', (push_dbl_same _ _ _ _).1, ih]
  induction n with
  | zero =>
    obtain ⟨x, hx, -⟩ := h 0 le_rfl
    refine ⟨x, x, hx, hx, ?_⟩
    simp [len]
  | succ n ih =>
    obtain ⟨x, x', hx, hx', hl⟩ := ih fun k hk => h k (by omega)
    obtain ⟨y, hy, hyL⟩ := h (n + 1) le_rfl
    refine ⟨x, y, hx, hy, ?_⟩
    have hy' := hy
    rw [Function.iterate_succ_apply'] at hy'
    obtain ⟨z, hz, hzl⟩ := C131_push_partial push field dt τ hdt h0 _ (hmass n) y hy'
    rw [hz.unique hx'] at hzl
    have h2 := len_add_le (y - x') (x' - x)
    rw [sub_add_sub_cancel] at h2
    have h3 : 1 / 2 ^ 52 * len y ≤ 1 / 2 ^ 52 * L := mul_le_mul_of_nonneg_left hyL (by positivity)
    push_cast
    generalize len y = a at *
    generalize (1 : ℝ) / 2 ^ 1069 = e at *
    linarith

/-! ### Faster than light -/

/-- A free electron with momentum `(15, 8, 0) * 2 ^ 30` moves by more than six in a step of six. -/
theorem C131_overtakes : ∃ x', (pushParticle lorentzForce SpeedWitness.field (lit 6)
    SpeedWitness.electron).position.At x' ∧ SpeedWitness.electron.position.At 0 ∧ 6 < len (x' - 0) := by
  refine ⟨_, by rw [push_dbl_pos _ _ _ _ rfl rfl]; exact SpeedWitness.moved _,
    ⟨zero_val, zero_val, zero_val⟩, ?_⟩
  rw [sub_zero]
  unfold len
  apply Real.lt_sqrt_of_sq_lt
  simp
  norm_num

/-- The property is false of the code. -/
theorem C131_refuted : ¬ SlowerThanLight := by
  intro h
  obtain ⟨x', h1, h2, h3⟩ := C131_overtakes
  have := h _ _ _ _ 6 0 x' rfl six_val (by norm_num) h2 h1
  linarith

/-! ### The speed that particles report -/

theorem lepton_dbl (p : Particle F64) (hk : p.kind ≠ .photon) (hm : p.mass = lit 1) :
    p.beta = Dbl.sqrt (lit 1 -. lit 1 /.
      (pushGamma (lit 1) p.momentum *. pushGamma (lit 1) p.momentum)) := by
  unfold Particle.beta Particle.gamma pushGamma
  rw [hm]
  cases h : p.kind with
  | photon => exact absurd h hk
  | electron => rfl
  | positron => rfl

/-- The speed that a lepton with finite momentum reports is between nothing and the speed of light, both
included. -/
theorem C131_beta_partial (p : Particle F64) (hk : p.kind ≠ .photon) (hm : p.mass = lit 1) (a : Fin 3 → ℝ)
    (ha : p.momentum.At a) : ∃ b, p.beta.1 = .fin b ∧ 0 ≤ b ∧ b ≤ 1 := by
  rw [lepton_dbl p hk hm]
  obtain ⟨b, h1, h2, h3, -⟩ := beta_cases (g := pushGamma (lit 1) p.momentum) (by
    rcases gamma_cases ha with h | ⟨g, h, h1, -⟩
    · exact .inl h
    · exact .inr ⟨g, h1, h⟩)
  exact ⟨b, h1, h2, h3⟩

/-- From a momentum of `2 ^ 28` on (in units of the mass) it is exactly the speed of light. -/
theorem C131_beta_refuted (p : Particle F64) (hk : p.kind ≠ .photon) (hm : p.mass = lit 1) (a : Fin 3 → ℝ)
    (ha : p.momentum.At a) (h : 2 ^ 28 ≤ len a) : p.beta.1 = .fin 1 := by
  rw [lepton_dbl p hk hm]
  have hg := gamma_cases ha
  obtain ⟨b, h1, -, -, h4⟩ := beta_cases (g := pushGamma (lit 1) p.momentum) (by
    rcases hg with h | ⟨g, h, h1, -⟩
    · exact .inl h
    · exact .inr ⟨g, h1, h⟩)
  rw [h1, h4]
  rcases hg with hg | ⟨g, hg, -, hl⟩
  · exact .inl hg
  · refine .inr ⟨g, le_trans ?_ hl, hg⟩
    have : len a ≤ Real.sqrt (1 + len a ^ 2) := by apply Real.le_sqrt_of_sq_le; linarith
    norm_num at h ⊢
    linarith

/-- The electron above has a momentum of more than `2 ^ 28`. -/
example : SpeedWitness.electron.kind ≠ .photon ∧ SpeedWitness.electron.mass = lit 1 ∧
    ∃ a, SpeedWitness.electron.momentum.At a ∧ 2 ^ 28 ≤ len a := by
  refine ⟨by
      unfold SpeedWitness.electron Particle.newLepton Particle.new Particle.leptonKind
      dsimp only
      split <;> simp, rfl, ![16106127360, 8589934592, 0],
    ⟨SpeedWitness.x_val, SpeedWitness.y_val, zero_val⟩, ?_⟩
  unfold len
  apply Real.le_sqrt_of_sq_le
  simp
  norm_num

/-- Its push meets the hypotheses of the bounds. -/
example : ∀ k ≤ 1, ∃ x, ((pushParticle lorentzForce SpeedWitness.field (lit 6))^[k]
    SpeedWitness.electron).position.At x ∧ len x ≤ 7 := by
  intro k hk
  interval_cases k
  · exact ⟨0, ⟨zero_val, zero_val, zero_val⟩, by simp [len]⟩
  · refine ⟨_, by
      rw [Function.iterate_one, push_dbl_pos _ _ _ _ rfl rfl]; exact SpeedWitness.moved _, ?_⟩
    unfold len
    rw [Real.sqrt_le_left (by norm_num)]
    simp
    norm_num

end QED
