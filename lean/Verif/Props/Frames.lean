import Verif.Lemmas.Frames

set_option autoImplicit false

/-!
# Property C140: results do not depend on the motion of the observer

The same particle in the same field, simulated in two inertial frames, is found at the same events with the same
four-momenta, up to the error of the time stepping.
-/

namespace QED

open Dbl Matrix Set

namespace Frames

theorem four_le (t t' : ℝ) (x x' : Fin 3 → ℝ) : ‖four t x - four t' x'‖ ≤ |t - t'| + ‖x - x'‖ := by
  have hx : ∀ i, |x i - x' i| ≤ ‖x - x'‖ := fun i => norm_le_pi_norm (x - x') i
  rw [pi_norm_le_iff_of_nonneg (by positivity)]
  have h0 := abs_nonneg (t - t')
  have h1 := norm_nonneg (x - x')
  intro i
  fin_cases i
  · show |t - t'| ≤ _; linarith
  · show |x 0 - x' 0| ≤ _; linarith [hx 0]
  · show |x 1 - x' 1| ≤ _; linarith [hx 1]
  · show |x 2 - x' 2| ≤ _; linarith [hx 2]

theorem shell_le {m : ℝ} (hm : 0 < m) (p p' : Fin 3 → ℝ) :
    ‖four (energyOf m p) p - four (energyOf m p') p'‖ ≤ 4 * ‖p - p'‖ := by
  have h1 := four_le (energyOf m p) (energyOf m p') p p'
  have h2 : |energyOf m p - energyOf m p'| ≤ 3 * ‖p - p'‖ := sqrt_energy_lip hm p p'
  linarith

theorem mulVec_le (L : Matrix (Fin 4) (Fin 4) ℝ) : ∃ N, 0 ≤ N ∧ ∀ a b, ‖L.mulVec a - L.mulVec b‖ ≤ N * ‖a - b‖ := by
  refine ⟨‖LinearMap.toContinuousLinearMap (Matrix.toLin' L)‖, norm_nonneg _, fun a b => ?_⟩
  have := (LinearMap.toContinuousLinearMap (Matrix.toLin' L)).le_opNorm (a - b)
  rw [← Matrix.mulVec_sub]
  exact this

theorem fourMomentum_eq {p : Particle ℝ} (hm : 0 < p.mass) (hk : p.kind ≠ .photon) :
    fourMomentum p = four (energyOf p.mass p.momentum.toVec) p.momentum.toVec := by
  unfold fourMomentum
  rw [energy_eq hm hk]
  rfl

/-- The error of computed tracks in a form that does not depend on the time step. -/
theorem track_error {field : Field ℝ} {F K : ℝ} (hf : SmoothField field F K) (p : Particle ℝ)
    (ha : p.isAlive = true) (hm : 0 < p.mass) {T : ℝ} {y : ℝ → Phase}
    (hy0 : y p.time = (p.position.toVec, p.momentum.toVec))
    (hy : ∀ s ∈ Icc p.time (p.time + T), HasDerivWithinAt y (motion p.mass (lorentz p.mass p.charge field) s (y s))
        (Icc p.time (p.time + T)) s) :
    ∃ A, 0 ≤ A ∧ ∀ dt, 0 ≤ dt → ∀ n : Nat, n * dt ≤ T →
      let r := (pushParticle lorentzForce field dt)^[n] p
      r.time = p.time + n * dt ∧ ‖((r.position.toVec, r.momentum.toVec) : Phase) - y r.time‖ ≤ A * dt := by
  refine ⟨|3 / 2 * motionConst p.mass p.charge F K * (2 + 3 * |p.charge| * F) * T *
      Real.exp (2 * motionConst p.mass p.charge F K * T)|, abs_nonneg _, fun dt hdt n hn => ?_⟩
  obtain ⟨h1, h2⟩ := C104_converges hf p ha hm hy0 hy hdt n hn
  refine ⟨h1, ?_⟩
  have hle := mul_le_mul_of_nonneg_right (le_abs_self (3 / 2 * motionConst p.mass p.charge F K *
    (2 + 3 * |p.charge| * F) * T * Real.exp (2 * motionConst p.mass p.charge F K * T))) hdt
  have h0 := mul_nonneg (abs_nonneg (3 / 2 * motionConst p.mass p.charge F K *
    (2 + 3 * |p.charge| * F) * T * Real.exp (2 * motionConst p.mass p.charge F K * T))) hdt
  rw [Prod.norm_def]
  exact max_le ((pi_norm_le_iff_of_nonneg h0).mpr fun i => (h2 i).1.trans hle)
    ((pi_norm_le_iff_of_nonneg h0).mpr fun i => (h2 i).2.trans hle)

theorem sum_up {tot u v t x B N A dt D btw : ℝ} (h : tot ≤ u + v) (hu : u ≤ t + x) (hv : v ≤ N * A * dt)
    (ht : t ≤ btw + N * A * dt) (hx : x ≤ B * D) (hb : btw ≤ D) (hBD : 0 ≤ B * D) (hND : 0 ≤ N * A * D)
    (hd : N * A * dt ≤ N * A * D) :
    tot ≤ (4 * B + 1 + 4 * (N * A) + N * (4 * A) + N * A) * D := by
  have : (4 * B + 1 + 4 * (N * A) + N * (4 * A) + N * A) * D = 4 * (B * D) + D + 9 * (N * A * D) := by ring
  linarith

theorem sum_up_shell {tot u v x B N A dt D : ℝ} (h : tot ≤ u + v) (hu : u ≤ 4 * x) (hv : v ≤ N * (4 * A) * dt)
    (hx : x ≤ B * D) (hD : 0 ≤ D) (hND : 0 ≤ N * A * D) (hd : N * A * dt ≤ N * A * D) :
    tot ≤ (4 * B + 1 + 4 * (N * A) + N * (4 * A) + N * A) * D := by
  have : (4 * B + 1 + 4 * (N * A) + N * (4 * A) + N * A) * D = 4 * (B * D) + D + 9 * (N * A * D) := by ring
  have : N * (4 * A) * dt = 4 * (N * A * dt) := by ring
  linarith

theorem sum_up_state {A' V N A dt dt' btw : ℝ} (hA' : 0 ≤ A') (hV : 0 ≤ V) (hNA : 0 ≤ N * A) (d0 : 0 ≤ dt)
    (d0' : 0 ≤ dt') (hb : 0 ≤ btw) :
    A' * dt' + V * (btw + N * A * dt) ≤ (A' + V + V * (N * A)) * (dt + dt' + btw) := by
  have a1 := mul_nonneg hA' d0
  have a2 := mul_nonneg hA' hb
  have a3 := mul_nonneg hV d0
  have a4 := mul_nonneg hV d0'
  have a5 := mul_nonneg (mul_nonneg hV hNA) d0'
  have a6 := mul_nonneg (mul_nonneg hV hNA) hb
  have : (A' + V + V * (N * A)) * (dt + dt' + btw) = A' * dt' + V * (btw + N * A * dt) + (A' * dt + A' * btw +
    V * dt + V * dt' + V * (N * A) * dt' + V * (N * A) * btw) := by ring
  linarith

end Frames

open Frames

/-- C140 for the tracks of charged particles with the Lorentz pusher: two computed states of the particle, one in
each frame, differ by no more than a constant times the two time steps and the time between them. -/
theorem C140_tracks_partial {L : Matrix (Fin 4) (Fin 4) ℝ} (hL : IsFrameChange L) {field field' : Field ℝ}
    (hs : SameField L field field') {F K F' K' : ℝ} (hf : SmoothField field F K) (hf' : SmoothField field' F' K')
    {p p' : Particle ℝ} (hp : SameParticle L p p') (ha : p.isAlive = true) (hm : 0 < p.mass) (hk : p.kind ≠ .photon)
    {T T' : ℝ} (hT : 0 ≤ T) (hT' : 0 ≤ T') :
    ∃ C, ∀ dt dt', 0 ≤ dt → 0 ≤ dt' → ∀ n n' : Nat, n * dt ≤ T → n' * dt' ≤ T' →
      let r := (pushParticle lorentzForce field dt)^[n] p
      let r' := (pushParticle lorentzForce field' dt')^[n'] p'
      let between := |r'.time - L.mulVec (fourPosition r) 0|
      ‖fourPosition r' - L.mulVec (fourPosition r)‖ ≤ C * (dt + dt' + between) ∧
      ‖fourMomentum r' - L.mulVec (fourMomentum r)‖ ≤ C * (dt + dt' + between) := by
  obtain ⟨hF', hK'⟩ := smooth_nonneg hf'
  have ha' : p'.isAlive = true := hp.alive.trans ha
  have hm' : 0 < p'.mass := by rw [hp.mass]; exact hm
  have hk' : p'.kind ≠ .photon := by rw [hp.kind]; exact hk
  obtain ⟨M, hM⟩ : ∃ M, M = max T' (paceBound L * T) := ⟨_, rfl⟩
  have hMT : T' ≤ M := hM ▸ le_max_left _ _
  have hMp : paceBound L * T ≤ M := hM ▸ le_max_right _ _
  obtain ⟨y, hy0, hy⟩ := motion_solution hf hm p.charge p.time (p.position.toVec, p.momentum.toVec) hT
  obtain ⟨y', hy0', hy'⟩ := motion_solution hf' hm' p'.charge p'.time (p'.position.toVec, p'.momentum.toVec)
    (hT'.trans hMT)
  obtain ⟨A, hA, hr⟩ := track_error hf p ha hm hy0 hy
  obtain ⟨A', hA', hr'⟩ := track_error hf' p' ha' hm' hy0' hy'
  obtain ⟨N, hN, hLN⟩ := mulVec_le L
  rw [hp.mass, hp.charge] at hy'
  -- the start
  have e1 : clock L y p.time = p'.time ∧ (seen L p.mass y p.time).1 = p'.position.toVec := by
    have h : four p'.time p'.position.toVec = L.mulVec (four p.time p.position.toVec) := hp.position
    rw [← four_space (L.mulVec _)] at h
    have := four_inj h
    unfold clock seen
    rw [hy0]
    exact ⟨this.1.symm, this.2.symm⟩
  have e2 : (seen L p.mass y p.time).2 = p'.momentum.toVec := by
    have h := hp.momentum
    rw [fourMomentum_eq hm hk, fourMomentum_eq hm' hk', ← four_space (L.mulVec _)] at h
    unfold seen
    rw [hy0]
    exact (four_inj h).2.symm
  have hmaps : MapsTo (clock L y) (Icc p.time (p.time + T)) (Icc p'.time (p'.time + M)) := by
    intro s hs'
    have h1 := (clock_strictMono hL hm hy).monotoneOn (left_mem_Icc.mpr (by linarith)) hs' hs'.1
    have h2 := clock_le (L := L) hm hy s hs'
    rw [e1.1] at h1 h2
    have h3 : paceBound L * (s - p.time) ≤ paceBound L * T :=
      mul_le_mul_of_nonneg_left (by linarith [hs'.2]) (paceBound_nonneg L)
    exact ⟨h1, by linarith⟩
  have hagree := agree hL hs hm hy hf' hy' hmaps (by
    rw [e1.1, hy0', ← e1.2, ← e2])
  obtain ⟨V, hV⟩ : ∃ V, V = 1 + 3 * |p.charge| * F' := ⟨_, rfl⟩
  have hV0 : 0 ≤ V := by rw [hV]; positivity
  have hmove : ∀ s ∈ Icc p'.time (p'.time + M), ∀ u ∈ Icc p'.time (p'.time + M), ‖y' s - y' u‖ ≤ V * |s - u| :=
    fun s h u h' => (convex_Icc _ _).norm_image_sub_le_of_norm_hasDerivWithin_le hy'
      (fun t _ => by rw [hV]; exact motion_le hf' hm p.charge t (y' t)) h' h
  -- the bound
  obtain ⟨B, hB⟩ : ∃ B, B = A' + V + V * (N * A) := ⟨_, rfl⟩
  have hB0 : 0 ≤ B := by rw [hB]; positivity
  refine ⟨4 * B + 1 + 4 * (N * A) + N * (4 * A) + N * A, fun dt dt' d0 d0' n n' hn hn' => ?_⟩
  intro r r' between
  obtain ⟨t1, z1⟩ := hr dt d0 n hn
  obtain ⟨t2, z2⟩ := hr' dt' d0' n' (hn'.trans hMT)
  have hin : r.time ∈ Icc p.time (p.time + T) := by
    have : 0 ≤ (n : ℝ) * dt := by positivity
    rw [show r.time = _ from t1]
    exact ⟨by linarith, by linarith⟩
  have hin' : r'.time ∈ Icc p'.time (p'.time + M) := by
    have : 0 ≤ (n' : ℝ) * dt' := by positivity
    rw [show r'.time = _ from t2]
    exact ⟨by linarith, by linarith⟩
  have hb0 : 0 ≤ between := abs_nonneg _
  have z1x : ‖r.position.toVec - (y r.time).1‖ ≤ A * dt := (norm_fst_le _).trans z1
  have z1p : ‖r.momentum.toVec - (y r.time).2‖ ≤ A * dt := (norm_snd_le _).trans z1
  have hX : ‖L.mulVec (four r.time (y r.time).1) - L.mulVec (fourPosition r)‖ ≤ N * A * dt := by
    refine (hLN _ _).trans ?_
    have h := four_le r.time r.time (y r.time).1 r.position.toVec
    rw [sub_self, abs_zero, zero_add, norm_sub_rev (y r.time).1] at h
    rw [mul_assoc]
    exact mul_le_mul_of_nonneg_left (h.trans z1x) hN
  have hclock : |r'.time - clock L y r.time| ≤ between + N * A * dt := by
    have h : |L.mulVec (four r.time (y r.time).1) 0 - L.mulVec (fourPosition r) 0| ≤ N * A * dt :=
      (norm_le_pi_norm (L.mulVec (four r.time (y r.time).1) - L.mulVec (fourPosition r)) 0).trans hX
    have h2 := abs_sub_le r'.time (L.mulVec (fourPosition r) 0) (clock L y r.time)
    rw [abs_sub_comm (L.mulVec (fourPosition r) 0)] at h2
    exact h2.trans (add_le_add le_rfl h)
  have hz : ‖((r'.position.toVec, r'.momentum.toVec) : Phase) - seen L p.mass y r.time‖ ≤
      B * (dt + dt' + between) := by
    have h1 := hmove _ hin' _ (hmaps hin)
    rw [hagree _ hin] at h1
    have h2 := norm_sub_le_norm_sub_add_norm_sub ((r'.position.toVec, r'.momentum.toVec) : Phase) (y' r'.time)
      (seen L p.mass y r.time)
    have h3 : V * |r'.time - clock L y r.time| ≤ V * (between + N * A * dt) := mul_le_mul_of_nonneg_left hclock hV0
    have h4 : A' * dt' + V * (between + N * A * dt) ≤ B * (dt + dt' + between) := by
      rw [hB]
      exact sum_up_state hA' hV0 (mul_nonneg hN hA) d0 d0' hb0
    have z2' : ‖((r'.position.toVec, r'.momentum.toVec) : Phase) - y' r'.time‖ ≤ A' * dt' := z2
    linarith
  have hzx : ‖r'.position.toVec - (seen L p.mass y r.time).1‖ ≤ B * (dt + dt' + between) := (norm_fst_le _).trans hz
  have hzp : ‖r'.momentum.toVec - (seen L p.mass y r.time).2‖ ≤ B * (dt + dt' + between) := (norm_snd_le _).trans hz
  have hsum : 0 ≤ dt + dt' + between := by positivity
  have hNA : N * A * dt ≤ N * A * (dt + dt' + between) :=
    mul_le_mul_of_nonneg_left (by linarith) (mul_nonneg hN hA)
  have hBs := mul_nonneg hB0 hsum
  have hNs : 0 ≤ N * A * (dt + dt' + between) := mul_nonneg (mul_nonneg hN hA) hsum
  constructor
  · have h1 := four_le r'.time (clock L y r.time) r'.position.toVec (seen L p.mass y r.time).1
    rw [show four (clock L y r.time) (seen L p.mass y r.time).1 = L.mulVec (four r.time (y r.time).1)
      from four_space _] at h1
    have h2 := norm_sub_le_norm_sub_add_norm_sub (fourPosition r') (L.mulVec (four r.time (y r.time).1))
      (L.mulVec (fourPosition r))
    exact sum_up h2 h1 hX hclock hzx (by linarith) hBs hNs hNA
  · obtain ⟨-, -, -, h5, -⟩ := C103_pushes lorentzForce field dt p ha hm n
    obtain ⟨-, -, -, h5', -⟩ := C103_pushes lorentzForce field' dt' p' ha' hm' n'
    have f1 : fourMomentum r = four (energyOf p.mass r.momentum.toVec) r.momentum.toVec := by
      rw [fourMomentum_eq (by rw [h5]; exact hm) (by rw [iterate_kind]; exact hk), h5]
    have f2 : fourMomentum r' = four (energyOf p.mass r'.momentum.toVec) r'.momentum.toVec := by
      rw [fourMomentum_eq (by rw [h5']; exact hm') (by rw [iterate_kind]; exact hk'), h5', hp.mass]
    have h1 := shell_le hm r'.momentum.toVec (seen L p.mass y r.time).2
    rw [show four (energyOf p.mass (seen L p.mass y r.time).2) (seen L p.mass y r.time).2 =
      L.mulVec (four (energyOf p.mass (y r.time).2) (y r.time).2) from (four_momentum hL hm _).symm] at h1
    have h2 := norm_sub_le_norm_sub_add_norm_sub (four (energyOf p.mass r'.momentum.toVec) r'.momentum.toVec)
      (L.mulVec (four (energyOf p.mass (y r.time).2) (y r.time).2)) (L.mulVec (fourMomentum r))
    have h3 : ‖L.mulVec (four (energyOf p.mass (y r.time).2) (y r.time).2) - L.mulVec (fourMomentum r)‖ ≤
        N * (4 * A) * dt := by
      refine (hLN _ _).trans ?_
      have h := shell_le hm (y r.time).2 r.momentum.toVec
      rw [norm_sub_rev (y r.time).2] at h
      rw [f1, mul_assoc N]
      refine mul_le_mul_of_nonneg_left (h.trans ?_) hN
      rw [mul_assoc]
      exact mul_le_mul_of_nonneg_left z1p (by norm_num)
    rw [f2]
    exact sum_up_shell h2 h1 h3 hzp hsum hNs hNA

end QED
