import Verif.Lemmas.Gain
import Verif.Props.Pushers

set_option autoImplicit false

/-!
# C126 A lepton gains no more momentum than the fields give it

Over the reals. The fields add up to at most `F` in the units of the program, in which the force on a particle of
charge `q` is then at most `|q| F`.
-/

namespace QED

open Dbl

/-- C126, without radiation reaction: whatever the time step, `n` pushes add at most the largest force times the
elapsed time to the momentum. -/
theorem C126_lorentz {field : Field ℝ} {F : ℝ} (hF : FieldsAtMost field F) {dt : ℝ} (hdt : 0 ≤ dt) (p : Particle ℝ)
    (ha : p.isAlive = true) (hm : 0 < p.mass) (n : Nat) :
    len ((pushParticle lorentzForce field dt)^[n] p).momentum.toVec ≤
      len p.momentum.toVec + n * dt * (|p.charge| * F) := by
  suffices h : ∀ n, len ((pushParticle lorentzForce field dt)^[n] p).momentum.toVec ≤
      len p.momentum.toVec + n * dt * (|p.charge| * F) ∧
      ((pushParticle lorentzForce field dt)^[n] p).isAlive = true ∧
      ((pushParticle lorentzForce field dt)^[n] p).mass = p.mass ∧
      ((pushParticle lorentzForce field dt)^[n] p).charge = p.charge from (h n).1
  intro n
  induction n with
  | zero => simp [ha]
  | succ n ih =>
    rw [Function.iterate_succ_apply']
    generalize (pushParticle lorentzForce field dt)^[n] p = q at ih
    obtain ⟨i1, i2, i3, i4⟩ := ih
    obtain ⟨s1, s2, -, s4⟩ := pushParticle_same lorentzForce field dt q
    refine ⟨?_, by rw [s4, i2], by rw [s1, i3], by rw [s2, i4]⟩
    rw [(pushParticle_pos lorentzForce field dt q i2 (by rw [i3]; exact hm.ne')).2.1]
    have := (rk4_brake (push := lorentzForce) (m := q.mass) (q := q.charge) (by rw [i3]; exact hm)
      (c := fun _ _ _ => 0) (fun k e b => ⟨by rw [zero_smul, sub_zero], le_rfl⟩) hF hdt q.time q.position q.momentum
      (C := 0) le_rfl (fun _ _ _ _ => le_rfl)).1
    rw [add_zero, i4] at this
    rw [i4]
    push_cast
    linarith

theorem brakes_of {push : PushMom ℝ} (h : push = landauForce ∨ push = modLandauForce) (m q : ℝ) : Brakes push m q := by
  rcases h with rfl | rfl
  · exact brakes_landau m q
  · exact brakes_modLandau m q

/-- The largest braking force on a particle of mass `m` in fields of strength `F` while its momentum is at most
one and a half times `P`. -/
noncomputable def brakeAt (m F P : ℝ) : ℝ := 2 / 3 * (Units.alpha : ℝ) * F ^ 2 * (1 + 9 / 4 * P ^ 2 / m ^ 2)

theorem brakeAt_nonneg (m F P : ℝ) : 0 ≤ brakeAt m F P := by
  have := alpha_pos
  unfold brakeAt
  positivity

/-- If the forces cannot change the momentum by more than half of it, the reaction does not add to the
momentum. -/
theorem push_gain {push : PushMom ℝ} (h : push = landauForce ∨ push = modLandauForce) {field : Field ℝ} {F : ℝ}
    (hF : FieldsAtMost field F) {dt : ℝ} (hdt : 0 ≤ dt) (p : Particle ℝ) (ha : p.isAlive = true) (hm : 0 < p.mass)
    {P : ℝ} (hP : len p.momentum.toVec ≤ P) (hs : dt * (|p.charge| * F + brakeAt p.mass F P) ≤ P / 2) :
    len (pushParticle push field dt p).momentum.toVec ≤ 3 / 2 * P ∧
    (len p.momentum.toVec = P →
      len (pushParticle push field dt p).momentum.toVec ≤ len p.momentum.toVec + dt * (|p.charge| * F)) := by
  rw [(pushParticle_pos push field dt p ha hm.ne').2.1]
  have hal := alpha_pos
  have hP0 : 0 ≤ P := (len_nonneg _).trans hP
  have hF0 : 0 ≤ F := (add_nonneg (len_nonneg _) (len_nonneg _)).trans (hF 0 ⟨0, 0, 0⟩)
  have hb0 := brakeAt_nonneg p.mass F P
  have hsum : 0 ≤ dt * (|p.charge| * F + brakeAt p.mass F P) := by positivity
  have key := rk4_gain hm (brakes_of h p.mass p.charge) hF hdt p.time p.position p.momentum
    (C := brakeAt p.mass F P) (by
      conv_rhs => unfold brakeAt
      have h1 : (len p.momentum.toVec + dt * (|p.charge| * F + brakeAt p.mass F P)) ^ 2 ≤ 9 / 4 * P ^ 2 := by
        have := len_nonneg p.momentum.toVec
        nlinarith
      gcongr)
  refine ⟨key.1.trans (by linarith), fun he => key.2 (by rw [he]; exact hs)⟩

theorem pushes_same (push : PushMom ℝ) (field : Field ℝ) (dt : ℝ) (p : Particle ℝ) (n : Nat) :
    ((pushParticle push field dt)^[n] p).isAlive = p.isAlive ∧ ((pushParticle push field dt)^[n] p).mass = p.mass ∧
    ((pushParticle push field dt)^[n] p).charge = p.charge ∧ ((pushParticle push field dt)^[n] p).kind = p.kind := by
  induction n with
  | zero => exact ⟨rfl, rfl, rfl, rfl⟩
  | succ n ih =>
    rw [Function.iterate_succ_apply']
    obtain ⟨s1, s2, s3, s4⟩ := pushParticle_same push field dt ((pushParticle push field dt)^[n] p)
    exact ⟨by rw [s4, ih.1], by rw [s1, ih.2.1], by rw [s2, ih.2.2.1], by rw [s3, ih.2.2.2]⟩

/-- C126 with radiation reaction, while a time step is too short for the forces to change the momentum by more
than half: the reaction does not add to the momentum. -/
theorem C126_reaction_partial {push : PushMom ℝ} (h : push = landauForce ∨ push = modLandauForce) {field : Field ℝ}
    {F : ℝ} (hF : FieldsAtMost field F) {dt : ℝ} (hdt : 0 ≤ dt) (p : Particle ℝ) (ha : p.isAlive = true)
    (hm : 0 < p.mass) (n : Nat)
    (hs : ∀ k < n, ∀ P, P = len ((pushParticle push field dt)^[k] p).momentum.toVec →
      dt * (|p.charge| * F + brakeAt p.mass F P) ≤ P / 2) :
    len ((pushParticle push field dt)^[n] p).momentum.toVec ≤ len p.momentum.toVec + n * dt * (|p.charge| * F) := by
  induction n with
  | zero => simp
  | succ n ih =>
    have i := ih fun k hk => hs k (by omega)
    have hn := hs n (by omega) _ rfl
    rw [Function.iterate_succ_apply']
    obtain ⟨s1, s2, s3, -⟩ := pushes_same push field dt p n
    generalize (pushParticle push field dt)^[n] p = q at i hn s1 s2 s3
    rw [← s2, ← s3] at hn
    have := (push_gain h hF hdt q (by rw [s1, ha]) (by rw [s2]; exact hm) le_rfl hn).2 rfl
    rw [s3] at this
    push_cast
    linarith

/-- C126 with radiation reaction, a condition on the start: with `B` the larger of the starting momentum and six
times what the forces on a slow particle can add in a step, the momentum stays below `B` and the largest Lorentz
force times the elapsed time, as long as the time step is short enough for this bound. -/
theorem C126_bound_partial {push : PushMom ℝ} (h : push = landauForce ∨ push = modLandauForce) {field : Field ℝ}
    {F : ℝ} (hF : FieldsAtMost field F) {dt : ℝ} (hdt : 0 ≤ dt) (p : Particle ℝ) (ha : p.isAlive = true)
    (hm : 0 < p.mass) (n : Nat) (B : ℝ)
    (hB : B = max (len p.momentum.toVec) (6 * dt * (|p.charge| * F + 2 / 3 * (Units.alpha : ℝ) * F ^ 2)))
    (hs : 9 * dt * (2 / 3 * (Units.alpha : ℝ) * F ^ 2) * (B + n * dt * (|p.charge| * F)) ≤ p.mass ^ 2) :
    len ((pushParticle push field dt)^[n] p).momentum.toVec ≤ B + n * dt * (|p.charge| * F) := by
  have hal := alpha_pos
  have hF0 : 0 ≤ F := (add_nonneg (len_nonneg _) (len_nonneg _)).trans (hF 0 ⟨0, 0, 0⟩)
  set A := |p.charge| * F with hA
  have hA0 : 0 ≤ A := by positivity
  set K := 2 / 3 * (Units.alpha : ℝ) * F ^ 2 with hK
  have hK0 : 0 ≤ K := by positivity
  have hB0 : 0 ≤ B := by rw [hB]; exact (len_nonneg _).trans (le_max_left _ _)
  have hB6 : 6 * dt * (A + K) ≤ B := by rw [hB]; exact le_max_right _ _
  -- the forces on a momentum `P` between the threshold and the bound change at most half of it
  have hhalf : ∀ P, 4 * dt * (A + K) ≤ P → P ≤ B + n * dt * A → dt * (A + brakeAt p.mass F P) ≤ P / 2 := by
    intro P h1 h2
    have hP0 : 0 ≤ P := le_trans (by positivity) h1
    have e : brakeAt p.mass F P = K + 9 / 4 * K * (P * P) / p.mass ^ 2 := by
      unfold brakeAt
      rw [← hK]
      ring
    have h3 : 9 * dt * K * P ≤ p.mass ^ 2 := le_trans (by gcongr) hs
    have h4 : dt * (9 / 4 * K * (P * P) / p.mass ^ 2) ≤ P / 4 := by
      rw [← mul_div_assoc, div_le_iff₀ (by positivity)]
      nlinarith
    rw [e]
    linarith
  induction n with
  | zero =>
    simp only [Function.iterate_zero, id_eq, Nat.cast_zero, zero_mul, add_zero]
    rw [hB]; exact le_max_left _ _
  | succ n ih =>
    have hmono : B + n * dt * A ≤ B + (n + 1 : ℕ) * dt * A := by
      push_cast
      nlinarith [mul_nonneg hdt hA0]
    have i := ih (le_trans (by gcongr) hs) fun P h1 h2 => hhalf P h1 (h2.trans hmono)
    rw [Function.iterate_succ_apply']
    obtain ⟨s1, s2, s3, -⟩ := pushes_same push field dt p n
    generalize (pushParticle push field dt)^[n] p = q at i s1 s2 s3
    have hqm : 0 < q.mass := by rw [s2]; exact hm
    rcases le_total (4 * dt * (A + K)) (len q.momentum.toVec) with hbig | hsmall
    · have := (push_gain h hF hdt q (by rw [s1, ha]) hqm le_rfl (by
        rw [s2, s3]; exact hhalf _ hbig (i.trans hmono))).2 rfl
      rw [s3] at this
      push_cast
      linarith
    · have h0 : 0 ≤ ((n + 1 : ℕ) : ℝ) * dt * A := by positivity
      have := (push_gain h hF hdt q (by rw [s1, ha]) hqm hsmall (by
        rw [s2, s3]
        exact hhalf _ le_rfl (by
          have : 0 ≤ dt * (A + K) := by positivity
          linarith))).1
      linarith

/-- C126, the quantum parameter that photon emission computes: at most the Lorentz factor times the strength of
the fields at the particle. -/
theorem C126_eta (field : Field ℝ) (p : Particle ℝ) (hk : p.kind ≠ .photon) :
    calculateEta field p ≤
      p.gamma * (len (field p.time p.position).1.toVec + len (field p.time p.position).2.toVec) ∧
    p.gamma = Real.sqrt (1 + len p.momentum.toVec ^ 2 / p.mass ^ 2) := by
  have hg : p.gamma = pushGamma p.mass p.momentum := by
    unfold Particle.gamma pushGamma
    split
    · exact absurd ‹_› hk
    · rfl
  have hg1 := gamma_ge (m := p.mass) p.momentum
  rw [← hg] at hg1
  have hβ : p.beta = Real.sqrt (1 - 1 / (p.gamma * p.gamma)) := by
    unfold Particle.beta
    split
    · exact absurd ‹_› hk
    · simp
  obtain ⟨hb0, hb1⟩ := beta_range hg1
  rw [← hβ] at hb0 hb1
  refine ⟨?_, ?_⟩
  · have key := eta_le (n := p.momentum.norm) (e := (field p.time p.position).1) (b := (field p.time p.position).2)
      (norm_dot_le p.momentum) hb0 hb1 hg1
    refine le_of_eq_of_le ?_ key
    unfold calculateEta Particle.direction
    simp only [real_sqrt, real_add, real_mul, real_div, real_pow, real_lit]
    norm_num
  · rw [hg, ← Real.sqrt_sq (pushGamma_pos p.mass p.momentum).le, pushGamma_sq, len_sq, sq p.mass]

namespace GainWitness

/-- A field along the third axis that is switched off at the time 1. -/
noncomputable def field : Field ℝ := fun t _ => if t < 1 then (⟨0, 0, 10000⟩, ⟨0, 0, 0⟩) else (⟨0, 0, 0⟩, ⟨0, 0, 0⟩)

theorem field_le : FieldsAtMost field 10000 := by
  intro t x
  unfold field
  split <;> simp [len, V3.toVec, Real.sqrt_sq]

/-- An electron that moves along the field. -/
noncomputable def electron : Particle ℝ := .newLepton 1 (-1) ⟨0, 0, 0⟩ ⟨0, 0, 1⟩ 1 0 false 0

theorem eta_one : pushEta 1 (⟨0, 0, 1⟩ : V3 ℝ) ⟨0, 0, 10000⟩ ⟨0, 0, 0⟩ = 10000 := by
  have hγ := pushGamma_pos 1 (⟨0, 0, 1⟩ : V3 ℝ)
  have hn : (⟨0, 0, 1⟩ : V3 ℝ).norm = ⟨0, 0, 1⟩ := by simp [V3.norm, V3.mag, V3.dot, V3.divs]
  unfold pushEta
  dsimp only
  rw [hn]
  generalize pushGamma 1 (⟨0, 0, 1⟩ : V3 ℝ) = γ at hγ
  simp [V3.smul, V3.dot, V3.sub, V3.add, V3.cross, V3.mag2]
  field_simp
  exact (Real.sqrt_sq hγ.le).symm

/-- Without fields there is no force. -/
theorem no_force (m q : ℝ) (p : V3 ℝ) : landauForce m q p ⟨0, 0, 0⟩ ⟨0, 0, 0⟩ = ⟨0, 0, 0⟩ := by
  have h : pushEta m p ⟨0, 0, 0⟩ ⟨0, 0, 0⟩ = 0 := by
    simp [pushEta, V3.smul, V3.dot, V3.sub, V3.add, V3.cross, V3.mag2]
  unfold landauForce landauReaction
  rw [h]
  simp [lorentzForce, V3.smul, V3.add, V3.cross, V3.divs]

theorem first_force : landauForce 1 (-1) (⟨0, 0, 1⟩ : V3 ℝ) ⟨0, 0, 10000⟩ ⟨0, 0, 0⟩ =
    ⟨0, 0, -10000 - 2 / 3 * (Units.alpha : ℝ) * 10000 ^ 2⟩ := by
  have hn : (⟨0, 0, 1⟩ : V3 ℝ).norm = ⟨0, 0, 1⟩ := by simp [V3.norm, V3.mag, V3.dot, V3.divs]
  unfold landauForce landauReaction
  rw [eta_one, hn]
  simp [lorentzForce, V3.smul, V3.add, V3.cross, V3.divs]
  ring

end GainWitness

open GainWitness in
/-- C126 does not hold for every time step with radiation reaction: a step that is too long for the reaction turns
a slow electron around and leaves it with many times the momentum the fields could give it. -/
theorem C126_refuted : FieldsAtMost field 10000 ∧ electron.isAlive = true ∧ 0 < electron.mass ∧
    len electron.momentum.toVec + 2 * (|electron.charge| * 10000) <
      len (pushParticle landauForce field 2 electron).momentum.toVec := by
  refine ⟨field_le, rfl, one_pos, ?_⟩
  rw [(pushParticle_pos landauForce field 2 electron rfl one_ne_zero).2.1]
  show len (⟨0, 0, 1⟩ : V3 ℝ).toVec + 2 * (|-1| * 10000) < len (rk4 landauForce field 2 1 (-1) 0 ⟨0, 0, 0⟩ ⟨0, 0, 1⟩).2.toVec
  have f0 : ∀ x, field 0 x = (⟨0, 0, 10000⟩, ⟨0, 0, 0⟩) := fun x => if_pos one_pos
  have f1 : ∀ x, field ((0 : ℝ) +. (2 : ℝ) /. Dbl.lit 2) x = (⟨0, 0, 0⟩, ⟨0, 0, 0⟩) :=
    fun x => if_neg (by simp)
  have f2 : ∀ x, field ((0 : ℝ) +. (2 : ℝ)) x = (⟨0, 0, 0⟩, ⟨0, 0, 0⟩) := fun x => if_neg (by simp)
  have e : (rk4 landauForce field 2 1 (-1) 0 ⟨0, 0, 0⟩ ⟨0, 0, 1⟩).2 =
      ⟨0, 0, 1 - (10000 + 2 / 3 * (Units.alpha : ℝ) * 10000 ^ 2) / 3⟩ := by
    unfold rk4
    dsimp only
    simp only [f0, f1, f2, no_force, first_force]
    simp [V3.smul, V3.add]
    ring
  rw [e]
  have ha : (0.007 : ℝ) < (Units.alpha : ℝ) := by
    simp only [Units.alpha, real_lit]
    norm_num
  have h1 : len (⟨0, 0, 1⟩ : V3 ℝ).toVec = 1 := by simp [len, V3.toVec]
  have h2 : len (⟨0, 0, 1 - (10000 + 2 / 3 * (Units.alpha : ℝ) * 10000 ^ 2) / 3⟩ : V3 ℝ).toVec =
      |1 - (10000 + 2 / 3 * (Units.alpha : ℝ) * 10000 ^ 2) / 3| := by
    simp [len, V3.toVec, Real.sqrt_sq_eq_abs]
  rw [h1, h2]
  refine lt_of_lt_of_le ?_ (neg_le_abs _)
  norm_num
  linarith

/-- The hypotheses of `C126_lorentz`, `C126_reaction_partial` and `C126_bound_partial` can be met: an electron of
momentum 100 in a constant field. -/
example : ∃ (field : Field ℝ) (p : Particle ℝ), FieldsAtMost field 1 ∧ p.isAlive = true ∧ 0 < p.mass ∧
    p.kind ≠ .photon ∧ p.charge ≠ 0 ∧ (field 0 ⟨0, 0, 0⟩).1.z = 1 ∧
    (∀ k < 1, ∀ P, P = len ((pushParticle landauForce field 0.01)^[k] p).momentum.toVec →
      0.01 * (|p.charge| * 1 + brakeAt p.mass 1 P) ≤ P / 2) ∧
    9 * 0.01 * (2 / 3 * (Units.alpha : ℝ) * 1 ^ 2) *
      (max (len p.momentum.toVec) (6 * 0.01 * (|p.charge| * 1 + 2 / 3 * (Units.alpha : ℝ) * 1 ^ 2)) +
        (100 : ℕ) * 0.01 * (|p.charge| * 1)) ≤ p.mass ^ 2 := by
  have ha : (Units.alpha : ℝ) < 0.0074 := by
    simp only [Units.alpha, real_lit]
    norm_num
  have ha0 := alpha_pos
  have hl : len (⟨0, 0, 100⟩ : V3 ℝ).toVec = 100 := by simp [len, V3.toVec, Real.sqrt_sq]
  refine ⟨fun _ _ => (⟨0, 0, 1⟩, ⟨0, 0, 0⟩), .newLepton 1 (-1) ⟨0, 0, 0⟩ ⟨0, 0, 100⟩ 1 0 false 0,
    fun t x => by simp [len, V3.toVec], rfl, one_pos, ?_, ?_, rfl, ?_, ?_⟩
  · simp [Particle.newLepton, Particle.new, Particle.leptonKind]
  · show (-1 : ℝ) ≠ 0
    norm_num
  · intro k hk P hP
    obtain rfl : k = 0 := by omega
    rw [show P = 100 from hP.trans hl]
    show 0.01 * (|(-1 : ℝ)| * 1 + brakeAt 1 1 100) ≤ 100 / 2
    unfold brakeAt
    norm_num
    linarith
  · show 9 * 0.01 * (2 / 3 * (Units.alpha : ℝ) * 1 ^ 2) * (max (len (⟨0, 0, 100⟩ : V3 ℝ).toVec)
      (6 * 0.01 * (|(-1 : ℝ)| * 1 + 2 / 3 * (Units.alpha : ℝ) * 1 ^ 2)) + (100 : ℕ) * 0.01 * (|(-1 : ℝ)| * 1)) ≤
        (1 : ℝ) ^ 2
    rw [hl, max_eq_left (by norm_num; linarith)]
    norm_num
    linarith

end QED
