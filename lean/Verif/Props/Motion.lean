import Verif.Spec.Motion
import Verif.Spec.RungeKutta
import Verif.Spec.Invariant
import Verif.Lemmas.RungeKutta
import Verif.Props.Invariants
import Mathlib.Analysis.SpecialFunctions.Integrals.Basic

set_option autoImplicit false

/-!
# Properties C103 and C104: the pushers solve the equations of motion
-/

namespace QED

open Dbl Matrix

/-- The components of position and momentum. -/
def toPhase (r : V3 ℝ × V3 ℝ) : Phase := (r.1.toVec, r.2.toVec)

theorem ofVec_toVec (v : V3 ℝ) : V3.ofVec v.toVec = v := rfl

theorem toVec_ofVec (v : Fin 3 → ℝ) : (V3.ofVec v).toVec = v := by
  funext i
  fin_cases i <;> rfl

/-- The factor of the velocity in the code. -/
theorem mass_gamma {m : ℝ} (hm : 0 < m) (p : V3 ℝ) :
    m * pushGamma m p = Real.sqrt (m ^ 2 + p.toVec ⬝ᵥ p.toVec) := by
  rw [pushGamma_eq, lorentzFactor]
  nth_rw 1 [← Real.sqrt_sq hm.le]
  rw [← Real.sqrt_mul (by positivity)]
  congr 1
  simp [V3.toVec, dotProduct, Fin.sum_univ_succ]
  field_simp
  ring

theorem pushPosition_velocity {m : ℝ} (hm : 0 < m) (p : V3 ℝ) :
    (pushPosition m p).toVec = velocity m p.toVec := by
  unfold pushPosition velocity
  rw [toVec_divs, real_mul, mass_gamma hm]

/-- C103, the Lorentz pusher: its force is the Lorentz force. -/
theorem C103_lorentz {m : ℝ} (hm : 0 < m) (q : ℝ) (field : Field ℝ) (t : ℝ) (x p : V3 ℝ) :
    (lorentzForce m q p (field t x).1 (field t x).2).toVec = lorentz m q field t x.toVec p.toVec := by
  unfold lorentzForce lorentz velocity electric magnetic
  rw [ofVec_toVec, toVec_smul, toVec_add, toVec_divs, toVec_cross, real_mul, mass_gamma hm,
    LinearMap.map_smul₂]

/-- C103, the Landau pushers: in addition a force against the motion of size `2/3 alpha eta²`, with the
invariant eta of C102, times the Gaunt factor in the modified one. -/
theorem C103_reaction {m : ℝ} (hm : 0 < m) (q : ℝ) (p e b : V3 ℝ) (hp : p ≠ ⟨0, 0, 0⟩) :
    ∃ eta n : ℝ, eta = quantumParameter (fieldTensor e b)
        (fourVector (lorentzFactor m p) ⟨p.x / m, p.y / m, p.z / m⟩) ∧ n = Real.sqrt (p.x ^ 2 + p.y ^ 2 + p.z ^ 2) ∧
      0 < n ∧
      (landauForce m q p e b).toVec =
        (lorentzForce m q p e b).toVec - (2 / 3 * (Units.alpha : ℝ) * eta ^ 2 / n) • p.toVec ∧
      (modLandauForce m q p e b).toVec =
        (lorentzForce m q p e b).toVec - (2 / 3 * (Units.alpha : ℝ) * eta ^ 2 *
          (1 + 4.8 * (1 + eta) * Real.log (1 + 1.7 * eta) + 2.44 * eta ^ 2) ^ (-2 / 3 : ℝ) / n) • p.toVec := by
  obtain ⟨h0, h1, -⟩ := unit_of_ne hp
  have hmag : p.mag = Real.sqrt (p.x ^ 2 + p.y ^ 2 + p.z ^ 2) := by rw [← h1, Real.sqrt_sq h0.le]
  refine ⟨_, _, rfl, rfl, by rw [← hmag]; exact h0, ?_, ?_⟩
  · rw [← C102_push_eta m hm p e b hp, ← hmag]
    unfold landauForce landauReaction
    rw [toVec_add, toVec_smul, V3.norm, toVec_divs, smul_smul, sub_eq_add_neg, ← neg_smul]
    congr 2
    simp only [real_mul, real_div, real_lit]
    push_cast
    ring
  · rw [← C102_push_eta m hm p e b hp, ← hmag]
    unfold modLandauForce modLandauReaction gaunt
    rw [toVec_add, toVec_smul, V3.norm, toVec_divs, smul_smul, sub_eq_add_neg, ← neg_smul]
    congr 2
    simp only [real_mul, real_div, real_lit, real_add, real_pow, real_log]
    push_cast
    rw [show (1 + 4.8 * (1 + pushEta m p e b) * Real.log (1 + 1.7 * pushEta m p e b) +
      2.44 * pushEta m p e b * pushEta m p e b) = 1 + 4.8 * (1 + pushEta m p e b) *
      Real.log (1 + 1.7 * pushEta m p e b) + 2.44 * pushEta m p e b ^ 2 by ring]
    ring

/-- C103: one push is one step of the classical Runge-Kutta method for `x' = v` and `p' = force`, whatever the
force. -/
theorem C103_step {m : ℝ} (hm : 0 < m) (push : PushMom ℝ) (field : Field ℝ) (dt q t : ℝ) (x p : V3 ℝ) :
    toPhase (rk4 push field dt m q t x p) =
      rungeKutta (motion m fun s y k => (push m q (V3.ofVec k) (field s (V3.ofVec y)).1
        (field s (V3.ofVec y)).2).toVec) dt t (x.toVec, p.toVec) := by
  have hv : ∀ k : V3 ℝ, velocity m k.toVec = (pushPosition m k).toVec := fun k =>
    (pushPosition_velocity hm k).symm
  have half : ∀ a k : V3 ℝ, a.toVec + (dt / 2) • k.toVec = (a.add ((k.muls dt).divs (lit 2))).toVec := by
    intro a k
    rw [toVec_add, toVec_divs, toVec_muls, smul_smul, real_lit]
    congr 2
    push_cast
    ring
  have full : ∀ a k : V3 ℝ, a.toVec + dt • k.toVec = (a.add (k.muls dt)).toVec := by
    intro a k
    rw [toVec_add, toVec_muls]
  have two : ∀ k : V3 ℝ, (2 : ℝ) • k.toVec = (V3.smul (lit 2 : ℝ) k).toVec := by
    intro k
    rw [toVec_smul, real_lit]
    norm_num
  have six : ∀ a k : V3 ℝ, a.toVec + (dt / 6) • k.toVec = (a.add (V3.smul (dt /. lit 6) k)).toVec := by
    intro a k
    rw [toVec_add, toVec_smul, real_div, real_lit]
    norm_num
  have ht : t + dt / 2 = t +. dt /. lit 2 := by simp
  unfold rungeKutta motion
  simp only [ofVec_toVec, hv, Prod.smul_mk, Prod.mk_add_mk, half, full, two, ← toVec_add, six, ht]
  rfl

/-- C103 for a particle: the position and momentum of a living particle with mass after `n` pushes are those
of `n` steps of the method from where it was. -/
theorem C103_pushes (push : PushMom ℝ) (field : Field ℝ) (dt : ℝ) (p : Particle ℝ) (ha : p.isAlive = true)
    (hm : 0 < p.mass) (n : Nat) :
    toPhase (((pushParticle push field dt)^[n] p).position, ((pushParticle push field dt)^[n] p).momentum) =
      rungeKuttaSteps (motion p.mass fun s y k => (push p.mass p.charge (V3.ofVec k) (field s (V3.ofVec y)).1
        (field s (V3.ofVec y)).2).toVec) dt p.time (p.position.toVec, p.momentum.toVec) n ∧
    ((pushParticle push field dt)^[n] p).time = p.time + n * dt ∧
    ((pushParticle push field dt)^[n] p).isAlive = true ∧ ((pushParticle push field dt)^[n] p).mass = p.mass ∧
    ((pushParticle push field dt)^[n] p).charge = p.charge := by
  induction n with
  | zero => simp [rungeKuttaSteps, toPhase, ha]
  | succ n ih =>
    obtain ⟨i1, i2, i3, i4, i5⟩ := ih
    rw [Function.iterate_succ_apply']
    generalize (pushParticle push field dt)^[n] p = r at *
    have hstep := C103_step hm push field dt p.charge r.time r.position r.momentum
    have hpush : pushParticle push field dt r =
        (r.updateTrack (rk4 push field dt r.mass r.charge r.time r.position r.momentum).1
          (rk4 push field dt r.mass r.charge r.time r.position r.momentum).2).updateTime dt := by
      unfold pushParticle
      rw [if_neg (by rw [i3]; simp), if_neg (by rw [i4]; simpa using hm.ne')]
    rw [hpush, rungeKuttaSteps, ← i1, ← i2]
    rw [i4, i5]
    refine ⟨?_, ?_, ?_, ?_, ?_⟩
    · rw [show toPhase (r.position, r.momentum) = (r.position.toVec, r.momentum.toVec) from rfl, ← hstep]
      simp only [Particle.updateTime, Particle.updateTrack]
      split <;> rfl
    · simp only [Particle.updateTime, Particle.updateTrack]
      split <;> (simp only [real_add]; push_cast; linarith)
    · simp only [Particle.updateTime, Particle.updateTrack]
      split <;> exact i3
    · simp only [Particle.updateTime, Particle.updateTrack]
      split <;> exact i4
    · simp only [Particle.updateTime, Particle.updateTrack]
      split <;> exact i5

/-- In an electric field that depends only on time, a push with the Lorentz force changes the momentum by
Simpson's rule. -/
theorem rk4_simpson (E : ℝ → V3 ℝ) (dt m q t : ℝ) (x p : V3 ℝ) :
    (rk4 lorentzForce (fun s _ => (E s, ⟨0, 0, 0⟩)) dt m q t x p).2 =
      ⟨p.x + q * (dt / 6 * ((E t).x + 4 * (E (t + dt / 2)).x + (E (t + dt)).x)),
       p.y + q * (dt / 6 * ((E t).y + 4 * (E (t + dt / 2)).y + (E (t + dt)).y)),
       p.z + q * (dt / 6 * ((E t).z + 4 * (E (t + dt / 2)).z + (E (t + dt)).z))⟩ := by
  have hf : ∀ k e : V3 ℝ, lorentzForce m q k e ⟨0, 0, 0⟩ = V3.smul q e := by
    intro k e
    ext <;> simp [lorentzForce, V3.smul, V3.add, V3.divs, V3.cross]
  unfold rk4
  simp only [hf]
  ext <;> simp [V3.smul, V3.add] <;> ring

/-- C103 for accuracy: in an electric field that is a polynomial in time of degree at most three, with
coefficients `c`, the momentum after a push is exactly the one that Newton's law gives. -/
theorem C103_cubic (c : Fin 4 → V3 ℝ) (dt m q t : ℝ) (x p : V3 ℝ) :
    let E : ℝ → V3 ℝ := fun s => ⟨∑ k : Fin 4, (c k).x * s ^ (k : Nat), ∑ k : Fin 4, (c k).y * s ^ (k : Nat),
      ∑ k : Fin 4, (c k).z * s ^ (k : Nat)⟩
    (rk4 lorentzForce (fun s _ => (E s, ⟨0, 0, 0⟩)) dt m q t x p).2 =
      ⟨p.x + q * ∫ s in t..t + dt, (E s).x, p.y + q * ∫ s in t..t + dt, (E s).y,
        p.z + q * ∫ s in t..t + dt, (E s).z⟩ := by
  intro E
  have key : ∀ a : Fin 4 → ℝ, ∫ s in t..t + dt, ∑ k : Fin 4, a k * s ^ (k : Nat) =
      dt / 6 * (∑ k : Fin 4, a k * t ^ (k : Nat) + 4 * ∑ k : Fin 4, a k * (t + dt / 2) ^ (k : Nat) +
        ∑ k : Fin 4, a k * (t + dt) ^ (k : Nat)) := by
    intro a
    rw [intervalIntegral.integral_finsetSum (fun k _ => by
      exact (Continuous.intervalIntegrable (by fun_prop) _ _))]
    simp only [intervalIntegral.integral_const_mul, integral_pow]
    simp [Fin.sum_univ_succ]
    ring
  rw [rk4_simpson]
  simp only [E, key]

/-- An electron that meets the hypotheses of `C103_pushes`, and a momentum that meets those of
`C103_reaction`. -/
example : Witness.electron.isAlive = true ∧ 0 < Witness.electron.mass ∧
    Witness.electron.momentum ≠ ⟨0, 0, 0⟩ := by
  refine ⟨?_, ?_, ?_⟩ <;> simp [Witness.electron, Particle.newLepton, Particle.new]

end QED
