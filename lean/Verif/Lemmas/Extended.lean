import Verif.Spec.Extended

set_option autoImplicit false

/-!
# Computing with real numbers in arithmetic with infinities
-/

namespace QED

open Dbl XR

namespace Extended

variable (a b v : V3 ℝ) (s : ℝ)

theorem add_ext : a.inXR.add b.inXR = (a.add b).inXR := by simp [V3.inXR, V3.add]

theorem sub_ext : a.inXR.sub b.inXR = (a.sub b).inXR := by simp [V3.inXR, V3.sub]

theorem smul_ext : v.inXR.smul (.fin s) = (v.smul s).inXR := by simp [V3.inXR, V3.smul]

theorem muls_ext : v.inXR.muls (.fin s) = (v.muls s).inXR := by simp [V3.inXR, V3.muls]

theorem cross_ext : a.inXR.cross b.inXR = (a.cross b).inXR := by simp [V3.inXR, V3.cross]

theorem dot_ext : a.inXR.dot b.inXR = .fin (a.dot b) := by simp [V3.inXR, V3.dot]

theorem mag2_ext : a.inXR.mag2 = .fin a.mag2 := dot_ext a a

theorem mag2_nonneg : 0 ≤ a.mag2 := by
  simp only [V3.mag2, V3.dot, real_add, real_mul]
  nlinarith [mul_self_nonneg a.x, mul_self_nonneg a.y, mul_self_nonneg a.z]

theorem mag_ext : a.inXR.mag = .fin a.mag := by
  have h := sqrt_fin _ (mag2_nonneg a)
  have d := dot_ext a a
  unfold V3.mag
  rw [d]
  exact h

theorem divs_ext {s : ℝ} (hs : s ≠ 0) : v.inXR.divs (.fin s) = (v.divs s).inXR := by
  simp [V3.inXR, V3.divs, div_fin _ _ hs]

theorem mulVec_ext (m : M3 ℝ) : m.inXR.mulVec v.inXR = (m.mulVec v).inXR := by
  simp [V3.inXR, M3.inXR, M3.mulVec, M3.acc3]

/-- The Lorentz factor of a particle with mass. -/
theorem pushGamma_pos {m : ℝ} (p : V3 ℝ) : 0 < pushGamma m p := by
  have := mag2_nonneg p
  have h2 := mul_self_nonneg m
  simp only [pushGamma, real_sqrt, real_add, real_div, real_mul, real_lit]
  exact Real.sqrt_pos.2 (by push_cast; positivity)

theorem pushGamma_ext {m : ℝ} (hm : m ≠ 0) (p : V3 ℝ) : pushGamma (.fin m) p.inXR = .fin (pushGamma m p) := by
  have h1 := mag2_nonneg p
  have h2 := mul_self_nonneg m
  unfold pushGamma
  rw [mag2_ext, mul_fin, div_fin _ _ (mul_self_ne_zero.2 hm), lit_eq, add_fin, sqrt_fin _ (by push_cast; positivity)]
  simp

theorem pushPosition_ext {m : ℝ} (hm : m ≠ 0) (p : V3 ℝ) : pushPosition (.fin m) p.inXR = (pushPosition m p).inXR := by
  unfold pushPosition
  rw [pushGamma_ext hm, mul_fin, divs_ext _ (mul_ne_zero hm (pushGamma_pos p).ne')]
  rfl

theorem lorentzForce_ext {m : ℝ} (hm : m ≠ 0) (q : ℝ) (p e b : V3 ℝ) :
    lorentzForce (.fin m) (.fin q) p.inXR e.inXR b.inXR = (lorentzForce m q p e b).inXR := by
  unfold lorentzForce
  rw [pushGamma_ext hm, mul_fin, cross_ext, divs_ext _ (mul_ne_zero hm (pushGamma_pos p).ne'), add_ext, smul_ext]
  rfl

theorem rk4_ext {push : PushMom XR} {push' : PushMom ℝ} {field : Field XR} {field' : Field ℝ} {m q : ℝ} (hm : m ≠ 0)
    (hp : ∀ p e b : V3 ℝ, push (.fin m) (.fin q) p.inXR e.inXR b.inXR = (push' m q p e b).inXR)
    (hf : Field.Extends field field') (dt t : ℝ) (x p : V3 ℝ) :
    rk4 push field (.fin dt) (.fin m) (.fin q) (.fin t) x.inXR p.inXR =
      ((rk4 push' field' dt m q t x p).1.inXR, (rk4 push' field' dt m q t x p).2.inXR) := by
  have h2 : (fin dt /. (lit 2 : XR)) = fin (dt /. lit 2) := by
    rw [lit_eq, div_fin _ _ (by norm_num)]; rfl
  have h6 : (fin dt /. (lit 6 : XR)) = fin (dt /. lit 6) := by
    rw [lit_eq, div_fin _ _ (by norm_num)]; rfl
  have l2 : (lit 2 : XR) = fin (lit 2 : ℝ) := rfl
  have n2 : (lit 2 : ℝ) ≠ 0 := by simp
  have ad : ∀ a b : ℝ, (fin a +. fin b) = fin (a +. b) := fun _ _ => rfl
  unfold rk4
  dsimp only
  rw [h2, h6, l2]
  simp only [hf _ _, hp, pushPosition_ext hm, muls_ext, divs_ext _ n2, add_ext, ad, smul_ext]

theorem updateTrack_ext (p : Particle ℝ) (hm : p.mass ≠ 0) (hk : p.kind ≠ .photon) (x k : V3 ℝ) :
    p.inXR.updateTrack x.inXR k.inXR = (p.updateTrack x k).inXR := by
  have hg : ∀ r : Particle ℝ, r.mass ≠ 0 → r.kind ≠ .photon → r.inXR.gamma = .fin r.gamma := by
    intro r hr hk
    have h := pushGamma_ext hr r.momentum
    unfold pushGamma at h
    unfold Particle.gamma
    cases hc : r.kind <;> simp only [Particle.inXR, hc] at * <;> first | exact absurd rfl hk | exact h
  unfold Particle.updateTrack
  cases ht : p.tracking
  · simp only [Particle.inXR, ht, Bool.false_eq_true, if_false]
  · have h := hg { p with position := x, momentum := k } hm hk
    simp only [Particle.inXR, ht, if_true, List.map_append, List.map_cons, List.map_nil] at h ⊢
    rw [h]

theorem pushParticle_ext {field : Field XR} {field' : Field ℝ} {push : PushMom XR} {push' : PushMom ℝ}
    (hf : Field.Extends field field') (dt : ℝ) (p : Particle ℝ) (hm : 0 < p.mass) (hk : p.kind ≠ .photon)
    (hp : ∀ k e b : V3 ℝ, push (.fin p.mass) (.fin p.charge) k.inXR e.inXR b.inXR = (push' p.mass p.charge k e b).inXR) :
    pushParticle push field (.fin dt) p.inXR = (pushParticle push' field' dt p).inXR := by
  unfold pushParticle
  have e1 : p.inXR.isAlive = p.isAlive := rfl
  have e2 : (p.inXR.mass ==. (lit 0 : XR)) = false := by
    change (fin p.mass ==. lit 0) = false
    rw [lit_eq, eq_fin]
    simpa using hm.ne'
  have e3 : (p.mass ==. (lit 0 : ℝ)) = false := by simpa using hm.ne'
  rw [e1, e2, e3]
  cases p.isAlive
  · rfl
  · simp only [Bool.true_eq_false, Bool.false_eq_true, if_false]
    have h := rk4_ext hm.ne' hp hf dt p.time p.position p.momentum
    change ((p.inXR.updateTrack (rk4 push field (fin dt) (fin p.mass) (fin p.charge) (fin p.time) p.position.inXR
      p.momentum.inXR).1 (rk4 push field (fin dt) (fin p.mass) (fin p.charge) (fin p.time) p.position.inXR
      p.momentum.inXR).2).updateTime (fin dt)) = _
    rw [h, updateTrack_ext p hm.ne' hk]
    rfl

theorem push_keeps (push : PushMom ℝ) (field : Field ℝ) (dt : ℝ) (p : Particle ℝ) :
    (pushParticle push field dt p).mass = p.mass ∧ (pushParticle push field dt p).charge = p.charge ∧
    (pushParticle push field dt p).kind = p.kind := by
  unfold pushParticle
  split
  · exact ⟨rfl, rfl, rfl⟩
  · split <;> (dsimp only; unfold Particle.updateTrack Particle.updateTime; cases p.tracking <;> exact ⟨rfl, rfl, rfl⟩)

/-- Real tracks are the same in arithmetic with infinities, if the fields and forces are. -/
theorem track_ext {field : Field XR} {field' : Field ℝ} {push : PushMom XR} {push' : PushMom ℝ}
    (hf : Field.Extends field field') (dt : ℝ) (p : Particle ℝ) (hm : 0 < p.mass) (hk : p.kind ≠ .photon)
    (hp : ∀ k e b : V3 ℝ, push (.fin p.mass) (.fin p.charge) k.inXR e.inXR b.inXR = (push' p.mass p.charge k e b).inXR) :
    ∀ n : Nat, (pushParticle push field (.fin dt))^[n] p.inXR = ((pushParticle push' field' dt)^[n] p).inXR := by
  intro n
  induction n generalizing p with
  | zero => rfl
  | succ n ih =>
    obtain ⟨h1, h2, h3⟩ := push_keeps push' field' dt p
    rw [Function.iterate_succ_apply, Function.iterate_succ_apply, pushParticle_ext hf dt p hm hk hp]
    exact ih _ (h1 ▸ hm) (h3 ▸ hk) (by rw [h1, h2]; exact hp)

end Extended

end QED
