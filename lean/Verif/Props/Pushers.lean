import Verif.Lemmas.Pushers

set_option autoImplicit false

/-!
# Properties C26 to C29 and C31: the pushers

Over the reals. `n` successive pushes of a particle are the iterate
`(pushParticle push field dt)^[n]`. A field is an arbitrary function of time and
position.
-/

namespace QED

/-! ## C26 Photons move in straight lines at the speed of light -/

/-- One push of an alive massless particle. -/
theorem C26_one_push (push : PushMom ℝ) (field : Field ℝ) (dt : ℝ) (p : Particle ℝ)
    (ha : p.isAlive = true) (hm : p.mass = 0) (hp : p.momentum.toVec ≠ 0) :
    let p' := pushParticle push field dt p
    (∃ u : Fin 3 → ℝ, IsUnitAlong u p.momentum.toVec ∧
      p'.position.toVec = p.position.toVec + dt • u) ∧
    p'.momentum = p.momentum ∧ p'.energy = p.energy ∧ p'.time = p.time + dt ∧
    p'.isAlive = true ∧ p'.mass = 0 := by
  have hp' : p.momentum ≠ ⟨0, 0, 0⟩ := by
    intro h; apply hp; rw [h]; ext j; fin_cases j <;> simp [V3.toVec]
  have hmag := V3.mag_pos hp'
  have e : pushParticle push field dt p = (p.updateTrack
      (p.position.add (p.momentum.smul (dt /. p.momentum.mag))) p.momentum).updateTime dt := by
    simp [pushParticle, ha, hm]
  dsimp only
  rw [e]
  refine ⟨⟨p.momentum.norm.toVec, ⟨?_, p.momentum.mag, hmag, ?_⟩, ?_⟩, ?_⟩
  · rw [← mag_eq, V3.mag_of_unit (V3.norm_dot_self hp')]
  · rw [← toVec_smul, V3.norm_smul_mag hp']
  · have : ((p.updateTrack (p.position.add (p.momentum.smul (dt /. p.momentum.mag)))
      p.momentum).updateTime dt).position =
        p.position.add (p.momentum.smul (dt /. p.momentum.mag)) := by
      unfold Particle.updateTrack Particle.updateTime; dsimp only; split <;> rfl
    rw [this, toVec_add, toVec_smul, V3.norm, toVec_divs, smul_smul]
    rfl
  · have hmom : ((p.updateTrack (p.position.add (p.momentum.smul (dt /. p.momentum.mag)))
        p.momentum).updateTime dt).momentum = p.momentum := by
      unfold Particle.updateTrack Particle.updateTime; dsimp only; split <;> rfl
    refine ⟨hmom, ?_, ?_, ?_, ?_⟩
    · unfold Particle.updateTrack Particle.updateTime; dsimp only; split <;> rfl
    · unfold Particle.updateTrack Particle.updateTime; dsimp only; split <;> simp
    · unfold Particle.updateTrack Particle.updateTime; dsimp only; split <;> exact ha
    · unfold Particle.updateTrack Particle.updateTime; dsimp only; split <;> exact hm

theorem IsUnitAlong.unique {u u' v : Fin 3 → ℝ} (h : IsUnitAlong u v) (h' : IsUnitAlong u' v) :
    u = u' := by
  obtain ⟨hu, c, hc, hv⟩ := h
  obtain ⟨hu', c', hc', hv'⟩ := h'
  have e1 : len v = c := by rw [hv, len_smul, hu, mul_one, abs_of_pos hc]
  have e2 : len v = c' := by rw [hv', len_smul, hu', mul_one, abs_of_pos hc']
  have : c = c' := by rw [← e1, e2]
  subst this
  rw [hv] at hv'
  exact smul_right_injective _ hc.ne' hv'

/-- Any number of pushes, in any field and with any pusher: the photon is `n` steps along its
line, with unchanged momentum and energy, and its clock shows `n` steps more. -/
theorem C26_pushes (push : PushMom ℝ) (field : Field ℝ) (dt : ℝ) (p : Particle ℝ)
    (ha : p.isAlive = true) (hm : p.mass = 0) (u : Fin 3 → ℝ)
    (hu : IsUnitAlong u p.momentum.toVec) (n : Nat) :
    let p' := (pushParticle push field dt)^[n] p
    p'.position.toVec = p.position.toVec + (n * dt) • u ∧
    p'.momentum = p.momentum ∧ p'.energy = p.energy ∧ p'.time = p.time + n * dt ∧
    p'.isAlive = true ∧ p'.mass = 0 := by
  have hp : p.momentum.toVec ≠ 0 := by
    obtain ⟨h1, c, hc, hv⟩ := hu
    intro h
    rw [hv] at h
    rcases smul_eq_zero.mp h with h | h
    · exact hc.ne' h
    · rw [h] at h1; simp [len] at h1
  induction n with
  | zero => simp [ha, hm]
  | succ n ih =>
    dsimp only at ih ⊢
    rw [Function.iterate_succ_apply']
    generalize (pushParticle push field dt)^[n] p = q at ih
    obtain ⟨i1, i2, i3, i4, i5, i6⟩ := ih
    obtain ⟨⟨u', hu', s1⟩, s2, s3, s4, s5, s6⟩ :=
      C26_one_push push field dt q i5 i6 (by rw [i2]; exact hp)
    rw [i2] at hu'
    have := hu.unique hu'
    subst this
    refine ⟨?_, by rw [s2, i2], by rw [s3, i3], ?_, s5, s6⟩
    · rw [s1, i1, add_assoc, ← add_smul]; push_cast; ring_nf
    · rw [s4, i4]; push_cast; ring

/-- A photon with a non-axis direction meets the hypotheses. -/
example : ∃ p : Particle ℝ, p.isAlive = true ∧ p.mass = 0 ∧
    IsUnitAlong ![3 / 5, 0, 4 / 5] p.momentum.toVec :=
  ⟨.newPhoton ⟨1, 2, 3⟩ ⟨3, 0, 4⟩ 1 0 true 0, rfl, by simp [Particle.newPhoton, Particle.new],
    ⟨by simp [len]; norm_num, 5, by norm_num, by
      ext i; fin_cases i <;> simp [Particle.newPhoton, Particle.new, V3.toVec] <;> norm_num⟩⟩

/-! ## C27 Massive particles never outrun light -/

theorem pushParticle_pos (push : PushMom ℝ) (field : Field ℝ) (dt : ℝ) (p : Particle ℝ)
    (ha : p.isAlive = true) (hm : p.mass ≠ 0) :
    (pushParticle push field dt p).position =
        (rk4 push field dt p.mass p.charge p.time p.position p.momentum).1 ∧
    (pushParticle push field dt p).momentum =
        (rk4 push field dt p.mass p.charge p.time p.position p.momentum).2 ∧
    (pushParticle push field dt p).time = p.time + dt := by
  unfold pushParticle
  rw [if_neg (by simp [ha]), if_neg (by simpa using hm)]
  unfold Particle.updateTrack Particle.updateTime; dsimp only
  split <;> exact ⟨rfl, rfl, rfl⟩

theorem pushParticle_same (push : PushMom ℝ) (field : Field ℝ) (dt : ℝ) (p : Particle ℝ) :
    (pushParticle push field dt p).mass = p.mass ∧
    (pushParticle push field dt p).charge = p.charge ∧
    (pushParticle push field dt p).kind = p.kind ∧
    (pushParticle push field dt p).isAlive = p.isAlive := by
  unfold pushParticle Particle.updateTrack Particle.updateTime
  dsimp only
  split
  · exact ⟨rfl, rfl, rfl, rfl⟩
  · split <;> split <;> exact ⟨rfl, rfl, rfl, rfl⟩

/-- For every force law (in particular the three pushers), every field and every number of
steps, a massive particle is displaced by less than `n * dt` in `n ≥ 1` steps. -/
theorem C27_subluminal (push : PushMom ℝ) (field : Field ℝ) (dt : ℝ) (hdt : 0 < dt)
    (p : Particle ℝ) (hm : 0 < p.mass) (n : Nat) (hn : 1 ≤ n) :
    len (((pushParticle push field dt)^[n] p).position.toVec - p.position.toVec) < n * dt := by
  have hone : ∀ q : Particle ℝ, 0 < q.mass →
      len ((pushParticle push field dt q).position.toVec - q.position.toVec) < dt := by
    intro q hq
    rcases ha : q.isAlive with _ | _
    · have : pushParticle push field dt q = q := by simp [pushParticle, ha]
      rw [this, sub_self]
      simpa [len] using hdt
    · rw [(pushParticle_pos push field dt q ha hq.ne').1]
      exact rk4_displacement push field dt q.mass q.charge q.time hq hdt q.position q.momentum
  have hmass : ∀ k, ((pushParticle push field dt)^[k] p).mass = p.mass := by
    intro k
    induction k with
    | zero => rfl
    | succ k ih => rw [Function.iterate_succ_apply', (pushParticle_same _ _ _ _).1, ih]
  obtain ⟨k, rfl⟩ : ∃ k, n = k + 1 := ⟨n - 1, by omega⟩
  clear hn
  induction k with
  | zero => simpa using hone p hm
  | succ k ih =>
    rw [Function.iterate_succ_apply']
    generalize hq : (pushParticle push field dt)^[k + 1] p = q at ih
    have h1 := hone q (by rw [← hq, hmass]; exact hm)
    have h2 := len_add_le ((pushParticle push field dt q).position.toVec - q.position.toVec)
      (q.position.toVec - p.position.toVec)
    rw [sub_add_sub_cancel] at h2
    push_cast at ih ⊢
    linarith

/-- An electron in a field that varies in space and time. -/
example : ∃ (p : Particle ℝ) (field : Field ℝ), 0 < p.mass ∧ p.isAlive = true ∧
    field 0 p.position ≠ field 1 p.position :=
  ⟨.newLepton 1 (-1) ⟨1, 0, 0⟩ ⟨3, 0, 4⟩ 1 0 true 0, fun t x => (⟨t, x.x, 0⟩, ⟨0, 0, 0⟩), by
    simp [Particle.newLepton, Particle.new], rfl, by simp⟩

/-! ## C28 Free flight and constant electric field are integrated exactly -/

/-- Any number of Lorentz pushes in a uniform electric field `E`: the momentum grows by
exactly `n * charge * E * dt`. -/
theorem C28_uniform_E (E : V3 ℝ) (field : Field ℝ)
    (hf : ∀ (t : ℝ) (x : V3 ℝ), field t x = (E, ⟨0, 0, 0⟩)) (dt : ℝ) (p : Particle ℝ)
    (ha : p.isAlive = true) (hm : p.mass ≠ 0) (n : Nat) :
    ((pushParticle lorentzForce field dt)^[n] p).momentum.toVec =
      p.momentum.toVec + (n * (p.charge * dt)) • E.toVec := by
  have key : ∀ k, ((pushParticle lorentzForce field dt)^[k] p).mass = p.mass ∧
      ((pushParticle lorentzForce field dt)^[k] p).charge = p.charge ∧
      ((pushParticle lorentzForce field dt)^[k] p).isAlive = true := by
    intro k
    induction k with
    | zero => exact ⟨rfl, rfl, ha⟩
    | succ k ih =>
      rw [Function.iterate_succ_apply']
      obtain ⟨h1, h2, -, h4⟩ := pushParticle_same lorentzForce field dt
        ((pushParticle lorentzForce field dt)^[k] p)
      rw [h1, h2, h4]; exact ih
  induction n with
  | zero => simp
  | succ n ih =>
    obtain ⟨h1, h2, h3⟩ := key n
    rw [Function.iterate_succ_apply', (pushParticle_pos _ _ _ _ h3 (by rw [h1]; exact hm)).2.1,
      rk4_const_force (F := E.smul p.charge), toVec_add, ih, toVec_smul, toVec_smul]
    · rw [add_assoc, smul_smul, ← add_smul]; push_cast; ring_nf
    · intro q t x
      rw [hf, h1, h2]
      exact lorentz_no_B _ _ _ _

/-- Any number of Lorentz pushes without field: momentum and energy are unchanged and the
particle is on a straight line at its velocity `p / energy`. -/
theorem C28_free_flight (field : Field ℝ)
    (hf : ∀ (t : ℝ) (x : V3 ℝ), field t x = (⟨0, 0, 0⟩, ⟨0, 0, 0⟩)) (dt : ℝ) (p : Particle ℝ)
    (ha : p.isAlive = true) (hm : 0 < p.mass) (hk : p.kind ≠ .photon) (n : Nat) :
    let p' := (pushParticle lorentzForce field dt)^[n] p
    p'.momentum = p.momentum ∧ p'.energy = p.energy ∧
      p'.position.toVec = p.position.toVec + (n * dt / p.energy) • p.momentum.toVec ∧
      p'.time = p.time + n * dt := by
  have hen : ∀ q : Particle ℝ, q.kind ≠ .photon → q.energy = q.mass * pushGamma q.mass q.momentum := by
    intro q hq
    unfold Particle.energy Particle.gamma pushGamma
    rcases h : q.kind with _ | _ | _
    · exact absurd h hq
    · rfl
    · rfl
  have hE := hen p hk
  have key : ∀ k, ((pushParticle lorentzForce field dt)^[k] p).mass = p.mass ∧
      ((pushParticle lorentzForce field dt)^[k] p).charge = p.charge ∧
      ((pushParticle lorentzForce field dt)^[k] p).kind = p.kind ∧
      ((pushParticle lorentzForce field dt)^[k] p).isAlive = true := by
    intro k
    induction k with
    | zero => exact ⟨rfl, rfl, rfl, ha⟩
    | succ k ih =>
      rw [Function.iterate_succ_apply']
      obtain ⟨h1, h2, h3, h4⟩ := pushParticle_same lorentzForce field dt
        ((pushParticle lorentzForce field dt)^[k] p)
      rw [h1, h2, h3, h4]; exact ih
  have hmom : ∀ k, ((pushParticle lorentzForce field dt)^[k] p).momentum = p.momentum := by
    intro k
    apply toVec_injective
    rw [C28_uniform_E ⟨0, 0, 0⟩ field hf dt p ha hm.ne' k]
    have : (⟨0, 0, 0⟩ : V3 ℝ).toVec = 0 := by ext i; fin_cases i <;> simp [V3.toVec]
    rw [this, smul_zero, add_zero]
  dsimp only
  refine ⟨hmom n, ?_, ?_⟩
  · obtain ⟨h1, h2, h3, h4⟩ := key n
    rw [hen _ (by rw [h3]; exact hk), h1, hmom, ← hE]
  · induction n with
    | zero => simp
    | succ n ih =>
      obtain ⟨h1, h2, h3, h4⟩ := key n
      obtain ⟨a1, -, a3⟩ := pushParticle_pos lorentzForce field dt
        ((pushParticle lorentzForce field dt)^[n] p) h4 (by rw [h1]; exact hm.ne')
      rw [Function.iterate_succ_apply', a1, a3, rk4_no_force, toVec_add, toVec_smul, ih.1, ih.2,
        hmom, h1]
      · constructor
        · rw [pushPosition, toVec_divs, real_mul, ← hE, add_assoc, smul_smul, ← add_smul]
          push_cast
          congr 2
          ring
        · push_cast; ring
      · intro q t x
        rw [hf, lorentz_no_B]
        ext <;> simp [V3.smul]

example : ∃ p : Particle ℝ, p.isAlive = true ∧ 0 < p.mass ∧ p.kind ≠ .photon ∧
    p.charge ≠ 0 ∧ p.momentum.toVec ≠ 0 :=
  ⟨.newLepton 1 (-1) ⟨1, 0, 0⟩ ⟨3, 0, 4⟩ 1 0 true 0, rfl, by
    simp [Particle.newLepton, Particle.new], by
    simp [Particle.newLepton, Particle.new, Particle.leptonKind], by
    simp [Particle.newLepton, Particle.new], fun h => by
    simpa [Particle.newLepton, Particle.new, V3.toVec] using congrFun h 0⟩

/-! ## C29 Radiation reaction only slows particles down -/

theorem pushEta_nonneg (m : ℝ) (p e b : V3 ℝ) : 0 ≤ pushEta m p e b := by
  simp only [pushEta, real_mul, real_sqrt]
  exact mul_nonneg (Real.sqrt_nonneg _) (pushGamma_pos m p).le

theorem gaunt_bounds (eta : ℝ) (h : 0 ≤ eta) : 0 < gaunt eta ∧ gaunt eta ≤ 1 := by
  simp only [gaunt, real_pow, real_add, real_mul, real_lit, real_log, real_div]
  push_cast
  have hl : 0 ≤ Real.log (1 + 17 / 10 * eta) := Real.log_nonneg (by linarith)
  have hb : 1 ≤ 1 + 24 / 5 * (1 + eta) * Real.log (1 + 17 / 10 * eta) + 61 / 25 * eta * eta := by
    have : 0 ≤ 24 / 5 * (1 + eta) * Real.log (1 + 17 / 10 * eta) := by positivity
    have : 0 ≤ 61 / 25 * eta * eta := by positivity
    linarith
  norm_num at hl hb ⊢
  exact ⟨Real.rpow_pos_of_pos (by linarith) _,
    Real.rpow_le_one_of_one_le_of_nonpos hb (by norm_num)⟩

/-- For every field and momentum: the Landau pusher adds to the Lorentz force a force
antiparallel to the momentum (or zero), and the modified pusher adds the same force scaled by a
factor in `(0, 1]`. -/
theorem C29_radiation_reaction (m q : ℝ) (_hm : 0 < m) (p e b : V3 ℝ) (hp : p.toVec ≠ 0) :
    (∃ c : ℝ, 0 ≤ c ∧ (landauForce m q p e b).toVec - (lorentzForce m q p e b).toVec =
      -(c • p.toVec)) ∧
    ∃ g : ℝ, 0 < g ∧ g ≤ 1 ∧
      (modLandauForce m q p e b).toVec - (lorentzForce m q p e b).toVec =
        g • ((landauForce m q p e b).toVec - (lorentzForce m q p e b).toVec) := by
  have hp' : p ≠ ⟨0, 0, 0⟩ := by
    intro h; apply hp; rw [h]; ext j; fin_cases j <;> simp [V3.toVec]
  have hmag := V3.mag_pos hp'
  have heta := pushEta_nonneg m p e b
  have halpha : (0 : ℝ) < Units.alpha := by simp [Units.alpha]; norm_num
  constructor
  · refine ⟨2 / 3 * Units.alpha * pushEta m p e b * pushEta m p e b * p.mag⁻¹, by positivity, ?_⟩
    rw [landauForce, toVec_add, add_sub_cancel_left, landauReaction, toVec_smul, V3.norm, toVec_divs,
      smul_smul, ← neg_smul]
    congr 1
    simp only [real_mul, real_div, real_lit]
    push_cast
    ring
  · obtain ⟨g1, g2⟩ := gaunt_bounds _ heta
    refine ⟨gaunt (pushEta m p e b), g1, g2, ?_⟩
    rw [landauForce, modLandauForce, toVec_add, toVec_add, add_sub_cancel_left, add_sub_cancel_left,
      landauReaction, modLandauReaction, toVec_smul, toVec_smul, smul_smul]
    congr 1
    simp only [real_mul]
    ring

example : ∃ p : V3 ℝ, p.toVec ≠ 0 := ⟨⟨3, 0, 4⟩, fun h => by
  simpa [V3.toVec] using congrFun h 0⟩

/-- The reaction force is not always zero: an electron moving along `x` in a magnetic field
along `z` is slowed down. -/
theorem C29_not_vacuous :
    (landauForce 1 (-1) (⟨1, 0, 0⟩ : V3 ℝ) ⟨0, 0, 0⟩ ⟨0, 0, 1⟩).toVec ≠
      (lorentzForce 1 (-1) (⟨1, 0, 0⟩ : V3 ℝ) ⟨0, 0, 0⟩ ⟨0, 0, 1⟩).toVec := by
  intro h
  have hx := congrFun h 0
  rw [landauForce, toVec_add] at hx
  have h0 : (landauReaction 1 (⟨1, 0, 0⟩ : V3 ℝ) ⟨0, 0, 0⟩ ⟨0, 0, 1⟩).x = 0 := by
    simpa [V3.toVec] using hx
  have hn : (⟨1, 0, 0⟩ : V3 ℝ).norm = ⟨1, 0, 0⟩ := V3.norm_of_unit (by simp [V3.dot])
  have hg : pushGamma 1 (⟨1, 0, 0⟩ : V3 ℝ) = Real.sqrt 2 := by
    simp [pushGamma, V3.mag2, V3.dot, one_add_one_eq_two]
  have he : pushEta 1 (⟨1, 0, 0⟩ : V3 ℝ) ⟨0, 0, 0⟩ ⟨0, 0, 1⟩ ≠ 0 := by
    simp [pushEta, hn, hg, V3.dot, V3.cross, V3.smul, V3.sub, V3.add, V3.mag2]
    norm_num
  have halpha : (Units.alpha : ℝ) ≠ 0 := by simp [Units.alpha]; norm_num
  simp [landauReaction, hn, V3.smul, he, halpha] at h0

/-! ## C31 Charge-conjugation symmetry -/

/-- The field with both vectors reversed. -/
noncomputable def Field.reversed (F : Field ℝ) : Field ℝ := fun t x => ((F t x).1.smul (-1), (F t x).2.smul (-1))

/-- A force law is charge-conjugation symmetric. -/
def PushMom.Symmetric (push : PushMom ℝ) : Prop :=
  ∀ (m q : ℝ) (p e b : V3 ℝ), push m (-q) p (e.smul (-1)) (b.smul (-1)) = push m q p e b

theorem lorentz_symmetric : PushMom.Symmetric lorentzForce := by
  intro m q p e b
  ext <;> simp [lorentzForce, V3.cross, V3.divs, V3.add, V3.smul] <;> ring

theorem pushEta_reversed (m : ℝ) (p e b : V3 ℝ) :
    pushEta m p (e.smul (-1)) (b.smul (-1)) = pushEta m p e b := by
  simp only [pushEta]
  have h1 : p.norm.dot (e.smul (-1)) = -(p.norm.dot e) := by
    simp only [V3.dot, V3.smul, real_add, real_mul]; ring
  have h2 : (e.smul (-1)).dot p.norm = -(e.dot p.norm) := by
    simp only [V3.dot, V3.smul, real_add, real_mul]; ring
  have h3 : ∀ s c : ℝ, (((e.smul (-1)).sub (p.norm.smul (-c))).add
      ((p.norm.cross (b.smul (-1))).smul s)).mag2 =
      ((e.sub (p.norm.smul c)).add ((p.norm.cross b).smul s)).mag2 := by
    intro s c
    simp only [V3.mag2, V3.dot, V3.smul, V3.sub, V3.add, V3.cross, real_add, real_mul, real_sub]
    ring
  rw [h1, h2, h3]
  have h4 : Dbl.pow (-(p.norm.dot e)) (Dbl.lit 2 : ℝ) = Dbl.pow (p.norm.dot e) (Dbl.lit 2) := by
    simp only [real_pow, real_lit]
    push_cast
    rw [Real.rpow_two, Real.rpow_two, neg_sq]
  rw [h4]

theorem landau_symmetric : PushMom.Symmetric landauForce := by
  intro m q p e b
  simp only [landauForce, landauReaction, pushEta_reversed]
  rw [lorentz_symmetric]

theorem modLandau_symmetric : PushMom.Symmetric modLandauForce := by
  intro m q p e b
  simp only [modLandauForce, modLandauReaction, pushEta_reversed]
  rw [lorentz_symmetric]

/-- For all three pushers, all fields and any number of pushes: reversing charge and fields
changes nothing but the charge. -/
theorem C31_charge_conjugation (push : PushMom ℝ)
    (hpush : push = lorentzForce ∨ push = landauForce ∨ push = modLandauForce)
    (field : Field ℝ) (dt : ℝ) (p : Particle ℝ) (n : Nat) :
    (pushParticle push field.reversed dt)^[n] { p with charge := -p.charge } =
      { (pushParticle push field dt)^[n] p with charge := -p.charge } := by
  have hs : PushMom.Symmetric push := by
    rcases hpush with rfl | rfl | rfl
    · exact lorentz_symmetric
    · exact landau_symmetric
    · exact modLandau_symmetric
  have hrk : ∀ (m q t : ℝ) (x mom : V3 ℝ), rk4 push field.reversed dt m (-q) t x mom =
      rk4 push field dt m q t x mom := by
    intro m q t x mom
    unfold rk4 Field.reversed
    dsimp only
    simp only [hs m q]
  have hone : ∀ q : Particle ℝ, pushParticle push field.reversed dt { q with charge := -q.charge } =
      { pushParticle push field dt q with charge := -q.charge } := by
    intro q
    unfold pushParticle
    dsimp only
    split
    · rfl
    · split
      · unfold Particle.updateTrack Particle.updateTime
        dsimp only
        split <;> rfl
      · rw [hrk]
        unfold Particle.updateTrack Particle.updateTime
        dsimp only
        split <;> rfl
  have hcharge : ∀ k, ((pushParticle push field dt)^[k] p).charge = p.charge := by
    intro k
    induction k with
    | zero => rfl
    | succ k ih => rw [Function.iterate_succ_apply', (pushParticle_same _ _ _ _).2.1, ih]
  induction n with
  | zero => rfl
  | succ n ih =>
    rw [Function.iterate_succ_apply', Function.iterate_succ_apply', ih]
    have := hone ((pushParticle push field dt)^[n] p)
    rw [hcharge] at this
    exact this

end QED
