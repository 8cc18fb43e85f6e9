import Verif.Lemmas.Circling
import Verif.Spec.Circling

set_option autoImplicit false

/-!
# Property C139: a charge circling in a magnetic field loses energy as classical electrodynamics says

With the Landau pusher a charge that moves across a uniform magnetic field loses its energy at the rate of the power
that it radiates, `(2/3) α η²`.
-/

namespace QED

open Dbl Matrix Set

namespace Circling

theorem lossRate_eq (m : ℝ) (p b : Fin 3 → ℝ) :
    lossRate m b * lengthOf p ^ 2 = radiatedPower m p b := by
  unfold lossRate radiatedPower lengthOf
  rw [div_pow, mul_pow, Real.sq_sqrt (dot_self_nonneg p), Real.sq_sqrt (dot_self_nonneg b)]
  ring

theorem length_pos {p : Fin 3 → ℝ} (hp : p ≠ 0) : 0 < lengthOf p :=
  Real.sqrt_pos.mpr (lt_of_le_of_ne (dot_self_nonneg p) fun h => hp (dotProduct_self_eq_zero.mp h.symm))

/-- The computed track is fourth order accurate. -/
theorem order {b : V3 ℝ} {p : Particle ℝ} (ha : p.isAlive = true) (hm : 0 < p.mass)
    (hp : p.momentum.toVec ≠ 0) (hperp : p.momentum.toVec ⬝ᵥ b.toVec = 0) (T : ℝ) :
    FourthOrder landauForce (staticField ⟨0, 0, 0⟩ b) p T
      (track p.mass p.charge b.toVec p.momentum.toVec p.position.toVec p.time) := by
  have hb : V3.ofVec b.toVec = b := rfl
  have hs := track_solves p.charge b.toVec p.momentum.toVec hm hperp hp p.position.toVec p.time T
  rw [hb] at hs
  refine C121_landau isOpen_univ (C121_static _ b) p ha hm (track_start _ _ _ _ _) hs fun s _ => ⟨mem_univ _, fun h => ?_⟩
  have hl := mom_len p.charge b.toVec p.momentum.toVec (m := p.mass) hperp (s - p.time)
  have h' : mom p.mass p.charge b.toVec p.momentum.toVec (s - p.time) = 0 := h
  rw [h', dotProduct_zero] at hl
  have h1 : 0 < start p.momentum.toVec := length_pos hp
  have h2 := left_pos (lossRate_nonneg p.mass b.toVec) h1.le (s - p.time)
  have := mul_pos h1 h2
  nlinarith

theorem energy_track {b : V3 ℝ} {p : Particle ℝ} (hperp : p.momentum.toVec ⬝ᵥ b.toVec = 0) (s : ℝ) :
    Real.sqrt (p.mass ^ 2 +
      (track p.mass p.charge b.toVec p.momentum.toVec p.position.toVec p.time s).2 ⬝ᵥ
      (track p.mass p.charge b.toVec p.momentum.toVec p.position.toVec p.time s).2) =
      energyAfter p.mass b.toVec p.momentum.toVec (s - p.time) := by
  unfold energyAfter track
  rw [mom_len p.charge b.toVec p.momentum.toVec hperp]

theorem energy_push {push : PushMom ℝ} {field : Field ℝ} {p : Particle ℝ} (ha : p.isAlive = true) (hm : 0 < p.mass)
    (hk : p.kind ≠ .photon) (dt : ℝ) (n : ℕ) :
    ((pushParticle push field dt)^[n] p).energy = Real.sqrt (p.mass ^ 2 +
      ((pushParticle push field dt)^[n] p).momentum.toVec ⬝ᵥ ((pushParticle push field dt)^[n] p).momentum.toVec) := by
  obtain ⟨-, -, -, h5, -⟩ := C103_pushes push field dt p ha hm n
  rw [energy_eq (by rw [h5]; exact hm) (by rw [iterate_kind]; exact hk), h5]

end Circling

open Circling

/-- What the code does: the momentum falls as `p / (1 + κ p t)` with `κ = (2/3) α (|b| / m)²`, up to a constant times
`dt⁴`. This is the classical loss for a charge at the speed of light; the refutation below shows what is missing. -/
theorem C139_energy_partial (b : V3 ℝ) (p : Particle ℝ) (ha : p.isAlive = true) (hm : 0 < p.mass)
    (hk : p.kind ≠ .photon) (hp : p.momentum.toVec ≠ 0) (hperp : p.momentum.toVec ⬝ᵥ b.toVec = 0) {T : ℝ} :
    ∃ C δ, 0 < δ ∧ ∀ dt, 0 ≤ dt → dt ≤ δ → ∀ n : Nat, n * dt ≤ T →
      let r := (pushParticle landauForce (staticField ⟨0, 0, 0⟩ b) dt)^[n] p
      let κ := 2 / 3 * (Units.alpha : ℝ) * (lengthOf b.toVec / p.mass) ^ 2
      let p0 := lengthOf p.momentum.toVec
      |r.energy - Real.sqrt (p.mass ^ 2 + (p0 / (1 + κ * p0 * (n * dt))) ^ 2)| ≤ C * dt ^ 4 := by
  have hfo := order ha hm hp hperp T
  obtain ⟨C, δ, hδ, h⟩ := conserved_fourth hfo (track_start _ _ _ _ _)
    (fun s z => Real.sqrt (p.mass ^ 2 + z.2 ⬝ᵥ z.2) - energyAfter p.mass b.toVec p.momentum.toVec (s - p.time))
    (K := 3) (by norm_num) (by
      intro s x y
      have l1 := sqrt_energy_lip hm x.2 y.2
      have l3 : ‖x.2 - y.2‖ ≤ ‖x - y‖ := norm_snd_le (x - y)
      rw [sub_sub_sub_cancel_right]
      linarith) (by
      intro s _
      rw [energy_track hperp, energy_track hperp, sub_self, sub_self])
  obtain ⟨_, δ2, hδ2, h2⟩ := hfo
  refine ⟨C, min δ δ2, lt_min hδ hδ2, fun dt d0 d1 n hn => ?_⟩
  intro r κ p0
  have ht := (h2 dt d0 (d1.trans (min_le_right _ _)) n hn).1
  have b1 := h dt d0 (d1.trans (min_le_left _ _)) n hn
  dsimp only at b1
  rw [ht, sub_self, add_sub_cancel_left] at b1
  rw [show r.energy = _ from energy_push ha hm hk dt n]
  refine le_trans (le_of_eq ?_) b1
  have hs : (0 : ℝ) ≤ n * dt := by positivity
  have e1 : Real.sqrt (p.mass ^ 2 + p.momentum.toVec ⬝ᵥ p.momentum.toVec) =
      energyAfter p.mass b.toVec p.momentum.toVec 0 := by
    unfold energyAfter start left
    simp [Real.sq_sqrt (dot_self_nonneg p.momentum.toVec)]
  have e2 : κ = lossRate p.mass b.toVec := by
    show 2 / 3 * (Units.alpha : ℝ) * (lengthOf b.toVec / p.mass) ^ 2 = _
    unfold lossRate lengthOf
    rw [div_pow, Real.sq_sqrt (dot_self_nonneg _)]
  rw [e1, sub_self, sub_zero, e2]
  unfold energyAfter left
  rw [abs_of_nonneg hs, div_eq_mul_inv]
  rfl

/-- The full property is false: however short the time step, the energy of a charge does not follow any course that
starts with the radiated power. -/
theorem C139_refuted (b : V3 ℝ) (hb : b.toVec ≠ 0) (p : Particle ℝ) (ha : p.isAlive = true) (hm : 0 < p.mass)
    (hk : p.kind ≠ .photon) (hp : p.momentum.toVec ≠ 0) (hperp : p.momentum.toVec ⬝ᵥ b.toVec = 0) {T : ℝ} (hT : 0 < T)
    (E : ℝ → ℝ) (hE : HasDerivWithinAt E (-radiatedPower p.mass p.momentum.toVec b.toVec) (Icc 0 T) 0) :
    ¬ ∃ C δ : ℝ, 0 < δ ∧ ∀ dt, 0 ≤ dt → dt ≤ δ → ∀ n : Nat, n * dt ≤ T →
      |((pushParticle landauForce (staticField ⟨0, 0, 0⟩ b) dt)^[n] p).energy - E (n * dt)| ≤ C * dt := by
  rintro ⟨C, δ, hδ, h⟩
  have hlim := conserved_limit (order ha hm hp hperp T) (fun z => Real.sqrt (p.mass ^ 2 + z.2 ⬝ᵥ z.2)) E
    (K := 3) (by norm_num) (by
      intro x y
      have l1 := sqrt_energy_lip hm x.2 y.2
      have l3 : ‖x.2 - y.2‖ ≤ ‖x - y‖ := norm_snd_le (x - y)
      linarith) hδ (by
      intro dt d0 d1 n hn r
      have := h dt d0 d1 n hn
      rwa [energy_push ha hm hk] at this)
  have hE' : ∀ s ∈ Icc 0 T, energyAfter p.mass b.toVec p.momentum.toVec s = E s := by
    intro s hs
    have := hlim s hs.1 hs.2
    rwa [energy_track hperp, add_sub_cancel_left] at this
  have h0 : (0 : ℝ) ∈ Icc 0 T := ⟨le_rfl, hT.le⟩
  have hP : 0 < start p.momentum.toVec := length_pos hp
  have hB := length_pos hb
  have hκ := lossRate_nonneg p.mass b.toVec
  have hd : HasDerivWithinAt (energyAfter p.mass b.toVec p.momentum.toVec)
      (-(lossRate p.mass b.toVec * start p.momentum.toVec ^ 2) *
        (start p.momentum.toVec / Real.sqrt (p.mass ^ 2 + start p.momentum.toVec ^ 2))) (Icc 0 T) 0 := by
    have := ((((left_deriv hκ hP.le h0).const_mul (start p.momentum.toVec)).pow 2).const_add (p.mass ^ 2)).sqrt
      (ne_of_gt (add_pos_of_pos_of_nonneg (pow_pos hm 2) (sq_nonneg _)))
    refine this.congr_deriv ?_
    simp [left]
    ring
  have huniq := (uniqueDiffOn_Icc hT 0 h0).eq_deriv _ hd (hE.congr hE' (hE' 0 h0))
  have hpow : 0 < radiatedPower p.mass p.momentum.toVec b.toVec := by
    have h1 : (0 : ℝ) < Units.alpha := by rw [OrderWitness.alpha_eq]; norm_num
    have := length_pos hp
    unfold radiatedPower
    positivity
  rw [show lossRate p.mass b.toVec * start p.momentum.toVec ^ 2 = _ from lossRate_eq _ _ _] at huniq
  have hone : start p.momentum.toVec / Real.sqrt (p.mass ^ 2 + start p.momentum.toVec ^ 2) = 1 := by
    have := mul_left_cancel₀ (neg_ne_zero.mpr hpow.ne') (huniq.trans (mul_one _).symm)
    exact this
  have hs : start p.momentum.toVec < Real.sqrt (p.mass ^ 2 + start p.momentum.toVec ^ 2) :=
    Real.lt_sqrt_of_sq_lt (by nlinarith [pow_pos hm 2])
  rw [div_eq_one_iff_eq (by positivity)] at hone
  exact hs.ne hone

/-- A positron across a magnetic field meets the hypotheses. -/
example : ∃ (b : V3 ℝ) (p : Particle ℝ) (E : ℝ → ℝ), b.toVec ≠ 0 ∧ p.isAlive = true ∧ 0 < p.mass ∧ p.charge = 1 ∧
    p.kind ≠ .photon ∧ p.momentum.toVec ≠ 0 ∧ p.momentum.toVec ⬝ᵥ b.toVec = 0 ∧
    HasDerivWithinAt E (-radiatedPower p.mass p.momentum.toVec b.toVec) (Icc 0 1) 0 := by
  refine ⟨⟨0, 0, 1⟩, .newLepton 1 1 ⟨0, 0, 0⟩ ⟨3 / 4, 0, 0⟩ 1 0 false 0,
    fun s => s * -radiatedPower 1 (⟨3 / 4, 0, 0⟩ : V3 ℝ).toVec (⟨0, 0, 1⟩ : V3 ℝ).toVec, ?_, rfl, one_pos, rfl, ?_, ?_, ?_, ?_⟩
  · intro h
    simpa [V3.toVec] using congrFun h 2
  · simp [Particle.newLepton, Particle.new, Particle.leptonKind]
    norm_num
    decide
  · intro h
    have := congrFun h 0
    simp [V3.toVec, Particle.newLepton, Particle.new] at this
  · simp [V3.toVec, Particle.newLepton, Particle.new, dotProduct, Fin.sum_univ_three]
  · exact ((hasDerivWithinAt_id _ _).mul_const _).congr_deriv (one_mul _)

end QED
