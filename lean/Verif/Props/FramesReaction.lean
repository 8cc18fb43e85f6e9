import Verif.Props.Frames
import Verif.Props.OrderFields

set_option autoImplicit false

/-!
# C140 is false with radiation reaction

An electron that goes along an electric field, once seen from a frame in which it goes forward and once from one in
which it goes backward.
-/

namespace QED

open Dbl Matrix Set Filter Topology

namespace Frames

theorem step_limit (s : ℝ) : Tendsto (fun n : ℕ => s / ((n : ℝ) + 1)) atTop (𝓝 0) := by
  have := (tendsto_one_div_add_atTop_nhds_zero_nat (𝕜 := ℝ)).const_mul s
  rw [mul_zero] at this
  refine this.congr fun n => ?_
  rw [mul_one_div]

/-- Computed tracks of fourth order go to the motion. -/
theorem track_limit {push : PushMom ℝ} {field : Field ℝ} {p : Particle ℝ} {T : ℝ} {y : ℝ → Phase}
    (h : FourthOrder push field p T y) {s : ℝ} (s0 : 0 ≤ s) (sT : s ≤ T) :
    (∀ᶠ n : Nat in atTop, ((pushParticle push field (s / (n + 1)))^[n + 1] p).time = p.time + s) ∧
    Tendsto (fun n : Nat => ((((pushParticle push field (s / (n + 1)))^[n + 1] p).position.toVec,
        ((pushParticle push field (s / (n + 1)))^[n + 1] p).momentum.toVec) : Phase)) atTop
      (𝓝 (y (p.time + s))) := by
  obtain ⟨C, δ, hδ, h⟩ := h
  have hlim := step_limit s
  have hall : ∀ᶠ n : ℕ in atTop, ((pushParticle push field (s / (n + 1)))^[n + 1] p).time = p.time + s ∧
      ‖((((pushParticle push field (s / (n + 1)))^[n + 1] p).position.toVec,
        ((pushParticle push field (s / (n + 1)))^[n + 1] p).momentum.toVec) : Phase) - y (p.time + s)‖ ≤
        C * (s / (n + 1)) ^ 4 := by
    filter_upwards [hlim.eventually_le_const hδ] with n h2
    have d0 : 0 ≤ s / ((n : ℝ) + 1) := by positivity
    have e : ((n + 1 : ℕ) : ℝ) * (s / ((n : ℝ) + 1)) = s := by push_cast; field_simp
    obtain ⟨ht, hi⟩ := h _ d0 h2 (n + 1) (by rw [e]; exact sT)
    rw [e] at ht
    rw [ht] at hi
    have hC : 0 ≤ C * (s / ((n : ℝ) + 1)) ^ 4 := (abs_nonneg _).trans (hi 0).1
    refine ⟨ht, ?_⟩
    rw [Prod.norm_def]
    exact max_le ((pi_norm_le_iff_of_nonneg hC).mpr fun i => (hi i).1)
      ((pi_norm_le_iff_of_nonneg hC).mpr fun i => (hi i).2)
  refine ⟨hall.mono fun _ h => h.1, ?_⟩
  rw [tendsto_iff_norm_sub_tendsto_zero]
  have hr : Tendsto (fun n : ℕ => C * (s / ((n : ℝ) + 1)) ^ 4) atTop (𝓝 0) := by
    have := (hlim.pow 4).const_mul C
    simpa using this
  exact squeeze_zero' (Eventually.of_forall fun _ => norm_nonneg _) (hall.mono fun _ h => h.2) hr

theorem four_continuous : Continuous fun z : ℝ × (Fin 3 → ℝ) => four z.1 z.2 := by
  refine continuous_pi fun i => ?_
  fin_cases i
  · exact continuous_fst
  · exact (continuous_apply 0).comp continuous_snd
  · exact (continuous_apply 1).comp continuous_snd
  · exact (continuous_apply 2).comp continuous_snd

theorem energyOf_continuous (m : ℝ) : Continuous (energyOf m) := by
  unfold energyOf dotProduct
  fun_prop

/-- If the computed states agree up to the time steps, the motions agree. -/
theorem frames_limit {L : Matrix (Fin 4) (Fin 4) ℝ} {push : PushMom ℝ} {field field' : Field ℝ} {p p' : Particle ℝ}
    {T T' : ℝ} {y y' : ℝ → Phase} (h : FourthOrder push field p T y) (h' : FourthOrder push field' p' T' y')
    (ha : p.isAlive = true) (hm : 0 < p.mass) (hk : p.kind ≠ .photon)
    (ha' : p'.isAlive = true) (hm' : 0 < p'.mass) (hk' : p'.kind ≠ .photon) {C δ : ℝ} (hδ : 0 < δ)
    (hb : ∀ dt dt', 0 ≤ dt → dt ≤ δ → 0 ≤ dt' → dt' ≤ δ → ∀ n n' : Nat, n * dt ≤ T → n' * dt' ≤ T' →
      let r := (pushParticle push field dt)^[n] p
      let r' := (pushParticle push field' dt')^[n'] p'
      ‖fourMomentum r' - L.mulVec (fourMomentum r)‖ ≤ C * (dt + dt' + |r'.time - L.mulVec (fourPosition r) 0|))
    {s s' : ℝ} (s0 : 0 ≤ s) (sT : s ≤ T) (s0' : 0 ≤ s') (sT' : s' ≤ T')
    (hs' : p'.time + s' = clock L y (p.time + s)) :
    four (energyOf p'.mass (y' (p'.time + s')).2) (y' (p'.time + s')).2 =
      L.mulVec (four (energyOf p.mass (y (p.time + s)).2) (y (p.time + s)).2) := by
  obtain ⟨t1, l1⟩ := track_limit h s0 sT
  obtain ⟨t2, l2⟩ := track_limit h' s0' sT'
  have hLc : Continuous fun a : Fin 4 → ℝ => L.mulVec a := by fun_prop
  have hshell : ∀ m : ℝ, Continuous fun z : Phase => four (energyOf m z.2) z.2 := fun m =>
    four_continuous.comp (((energyOf_continuous m).comp continuous_snd).prodMk continuous_snd)
  have m1 := (hLc.comp (hshell p.mass)).continuousAt.tendsto.comp l1
  have m2 := (hshell p'.mass).continuousAt.tendsto.comp l2
  have hclock : Continuous fun z : Phase => L.mulVec (four (p.time + s) z.1) 0 :=
    (continuous_apply 0).comp (hLc.comp (four_continuous.comp (continuous_const.prodMk continuous_fst)))
  have m3 := hclock.continuousAt.tendsto.comp l1
  have hleft := (m2.sub m1).norm
  have hright := (((step_limit s).add (step_limit s')).add ((tendsto_const_nhds (x := p'.time + s')).sub m3).abs).const_mul C
  have hle := le_of_tendsto_of_tendsto hleft hright (by
    filter_upwards [t1, t2, (step_limit s).eventually_le_const hδ, (step_limit s').eventually_le_const hδ]
      with n n1 n2 d1 d2
    have d0 : 0 ≤ s / ((n : ℝ) + 1) := by positivity
    have d0' : 0 ≤ s' / ((n : ℝ) + 1) := by positivity
    have e : ∀ s : ℝ, ((n + 1 : ℕ) : ℝ) * (s / ((n : ℝ) + 1)) = s := by intro s; push_cast; field_simp
    have hB := hb _ _ d0 d1 d0' d2 (n + 1) (n + 1) (by rw [e]; exact sT) (by rw [e]; exact sT')
    dsimp only at hB
    obtain ⟨-, -, -, h5, -⟩ := C103_pushes push field (s / (n + 1)) p ha hm (n + 1)
    obtain ⟨-, -, -, h5', -⟩ := C103_pushes push field' (s' / (n + 1)) p' ha' hm' (n + 1)
    have q := fourMomentum_eq (p := (pushParticle push field (s / (n + 1)))^[n + 1] p)
      (by rw [h5]; exact hm) (by rw [iterate_kind]; exact hk)
    have q' := fourMomentum_eq (p := (pushParticle push field' (s' / (n + 1)))^[n + 1] p')
      (by rw [h5']; exact hm') (by rw [iterate_kind]; exact hk')
    rw [q, q', h5, h5', n2, fourPosition, n1] at hB
    exact hB)
  have hz : C * (0 + 0 + |p'.time + s' - L.mulVec (four (p.time + s) (y (p.time + s)).1) 0|) = 0 := by
    rw [show L.mulVec (four (p.time + s) (y (p.time + s)).1) 0 = clock L y (p.time + s) from rfl, ← hs']
    simp
  rw [hz] at hle
  exact sub_eq_zero.mp (norm_eq_zero.mp (le_antisymm hle (norm_nonneg _)))


/-! ## The witness -/

/-- The change to a frame that moves along z. -/
noncomputable def boostZ : Matrix (Fin 4) (Fin 4) ℝ :=
  !![5 / 4, 0, 0, -3 / 4; 0, 1, 0, 0; 0, 0, 1, 0; -3 / 4, 0, 0, 5 / 4]

theorem boostZ_frame : IsFrameChange boostZ := by
  constructor
  · unfold IsLorentz
    ext i j
    fin_cases i <;> fin_cases j <;>
      simp [boostZ, metric, Matrix.mul_apply, Fin.sum_univ_succ] <;> norm_num
  · norm_num [boostZ]

theorem boostZ_mulVec (t x y z : ℝ) :
    boostZ.mulVec ![t, x, y, z] = ![5 / 4 * t - 3 / 4 * z, x, y, 5 / 4 * z - 3 / 4 * t] := by
  funext i
  fin_cases i <;> simp [boostZ, Matrix.mulVec, dotProduct, Fin.sum_univ_succ] <;> ring

/-- An electric field along the boost is the same in both frames. -/
theorem field_same : SameField boostZ OrderWitness.field OrderWitness.field := by
  intro t x t' x' _
  ext i j
  fin_cases i <;> fin_cases j <;>
    simp [OrderWitness.field, staticField, fieldTensor, boostZ, Matrix.mul_apply, Fin.sum_univ_succ] <;> norm_num

/-- An electron of unit mass with momentum `k` along z. -/
noncomputable def alongZ (k : ℝ) : Particle ℝ := Particle.newLepton 1 (-1) ⟨0, 0, 0⟩ ⟨0, 0, k⟩ 1 0 false 0

theorem alongZ_energy (k : ℝ) : (alongZ k).energy = Real.sqrt (1 + k ^ 2) := by
  have h : (alongZ k).energy = energyOf 1 (alongZ k).momentum.toVec := by
    have := congrFun (fourMomentum_eq (p := alongZ k) (by simp [alongZ, Particle.newLepton, Particle.new])
      (by simp [alongZ, Particle.newLepton, Particle.new, Particle.leptonKind])) 0
    exact this
  rw [h, energyOf, show (alongZ k).momentum.toVec = ![0, 0, k] from rfl, OrderWitness.dot_z, one_pow]

theorem alongZ_same {k e k' e' : ℝ} (he : 0 ≤ e) (hk : e ^ 2 = 1 + k ^ 2) (he' : 0 ≤ e') (hk' : e' ^ 2 = 1 + k' ^ 2)
    (h1 : e' = 5 / 4 * e - 3 / 4 * k) (h2 : k' = 5 / 4 * k - 3 / 4 * e) :
    SameParticle boostZ (alongZ k) (alongZ k') := by
  refine ⟨rfl, rfl, rfl, rfl, ?_, ?_⟩
  · show ![0, 0, 0, 0] = boostZ.mulVec ![0, 0, 0, 0]
    rw [boostZ_mulVec]
    norm_num
  · show ![(alongZ k').energy, 0, 0, k'] = boostZ.mulVec ![(alongZ k).energy, 0, 0, k]
    rw [boostZ_mulVec, alongZ_energy, alongZ_energy, ← hk, ← hk', Real.sqrt_sq he, Real.sqrt_sq he', ← h1, ← h2]

/-- The motion under a constant force `F` along z. -/
noncomputable def trackZ (k F s : ℝ) : Phase :=
  (![0, 0, (Real.sqrt (1 + (k + F * s) ^ 2) - Real.sqrt (1 + k ^ 2)) / F], ![0, 0, k + F * s])

theorem trackZ_start (k F : ℝ) :
    trackZ k F (alongZ k).time = ((alongZ k).position.toVec, (alongZ k).momentum.toVec) := by
  simp only [trackZ, alongZ, Particle.newLepton, Particle.new, V3.toVec, mul_zero, add_zero, sub_self, zero_div]

theorem trackZ_deriv {k F : ℝ} (hF : 0 < F) {force : ℝ → (Fin 3 → ℝ) → (Fin 3 → ℝ) → Fin 3 → ℝ} (s : ℝ)
    (hforce : ∀ x, force s x ![0, 0, k + F * s] = ![0, 0, F]) (S : Set ℝ) :
    HasDerivWithinAt (trackZ k F) (motion 1 force s (trackZ k F s)) S s := by
  have h1 : HasDerivAt (fun s => k + F * s) F s := by
    simpa using ((hasDerivAt_id s).const_mul F).const_add k
  have h2 : HasDerivAt (fun s => (Real.sqrt (1 + (k + F * s) ^ 2) - Real.sqrt (1 + k ^ 2)) / F)
      ((Real.sqrt (1 + (k + F * s) ^ 2))⁻¹ * (k + F * s)) s := by
    have hpos : 0 < 1 + (k + F * s) ^ 2 := by positivity
    have := ((((h1.fun_pow 2).const_add 1).sqrt hpos.ne').sub_const (Real.sqrt (1 + k ^ 2))).div_const F
    have e : (Real.sqrt (1 + (k + F * s) ^ 2))⁻¹ * (k + F * s) =
        ((2 : ℕ) : ℝ) * (k + F * s) ^ (2 - 1) * F / (2 * Real.sqrt (1 + (k + F * s) ^ 2)) / F := by
      have := (Real.sqrt_pos.2 hpos).ne'
      norm_num
      field_simp
    rw [e]
    exact this
  have hm : motion 1 force s (trackZ k F s) =
      (![0, 0, (Real.sqrt (1 + (k + F * s) ^ 2))⁻¹ * (k + F * s)], ![0, 0, F]) := by
    have hv : velocity 1 ![0, 0, k + F * s] = ![0, 0, (Real.sqrt (1 + (k + F * s) ^ 2))⁻¹ * (k + F * s)] := by
      rw [velocity, OrderWitness.dot_z, one_pow]
      funext i
      fin_cases i <;> simp
    rw [← hv, ← hforce (trackZ k F s).1]
    rfl
  rw [hm]
  refine (HasDerivAt.prodMk (hasDerivAt_pi.2 fun i => ?_) (hasDerivAt_pi.2 fun i => ?_)).hasDerivWithinAt
  · fin_cases i
    · exact hasDerivAt_const _ _
    · exact hasDerivAt_const _ _
    · exact h2
  · fin_cases i
    · exact hasDerivAt_const _ _
    · exact hasDerivAt_const _ _
    · exact h1

/-- Against the motion, the reaction helps the field. -/
theorem reaction_back (g : ℝ → ℝ) (s : ℝ) (x : Fin 3 → ℝ) (a : ℝ) (ha : a < 0) :
    reactionForce g 1 (-1) OrderWitness.field s x ![0, 0, a] = ![0, 0, 1 + 2 / 3 * (Units.alpha : ℝ) * g 1] := by
  rw [reactionForce, OrderWitness.eta_one, OrderWitness.lorentz_one, OrderWitness.dot_z, Real.sqrt_sq_eq_abs,
    abs_of_neg ha]
  funext i
  fin_cases i
  · simp
  · simp
  · have := ha.ne
    simp
    field_simp
    ring

/-- The two motions are not the same: with a force `1 - c` along z in one frame and `1 + c` in the other. -/
theorem motions_differ {push : PushMom ℝ} {c : ℝ} (c0 : 0 < c) (c1 : c ≤ 1 / 2)
    (h : ∀ T, FourthOrder push OrderWitness.field (alongZ (5 / 12)) T (trackZ (5 / 12) (1 - c)))
    (h' : ∀ T ≤ 1 / 8, FourthOrder push OrderWitness.field (alongZ (-7 / 24)) T (trackZ (-7 / 24) (1 + c)))
    {T T' : ℝ} (hT : 0 < T) (hT' : 0 < T') {C δ : ℝ} (hδ : 0 < δ)
    (hb : ∀ dt dt', 0 ≤ dt → dt ≤ δ → 0 ≤ dt' → dt' ≤ δ → ∀ n n' : Nat, n * dt ≤ T → n' * dt' ≤ T' →
      let r := (pushParticle push OrderWitness.field dt)^[n] (alongZ (5 / 12))
      let r' := (pushParticle push OrderWitness.field dt')^[n'] (alongZ (-7 / 24))
      ‖fourMomentum r' - boostZ.mulVec (fourMomentum r)‖ ≤
        C * (dt + dt' + |r'.time - boostZ.mulVec (fourPosition r) 0|)) : False := by
  obtain ⟨s, hs⟩ : ∃ s, s = min T (min (T' / 2) (1 / 16)) := ⟨_, rfl⟩
  have s0 : 0 < s := hs ▸ lt_min hT (lt_min (by linarith) (by norm_num))
  have sT : s ≤ T := hs ▸ min_le_left _ _
  have sT' : s ≤ T' / 2 := hs ▸ (min_le_right _ _).trans (min_le_left _ _)
  have s1 : s ≤ 1 / 16 := hs ▸ (min_le_right _ _).trans (min_le_right _ _)
  have hF : 0 < 1 - c := by linarith
  obtain ⟨E, hE⟩ : ∃ E, E = Real.sqrt (1 + (5 / 12 + (1 - c) * s) ^ 2) := ⟨_, rfl⟩
  have hE0 : Real.sqrt (1 + (5 / 12) ^ 2) = 13 / 12 := by
    rw [show (1 : ℝ) + (5 / 12) ^ 2 = (13 / 12) ^ 2 by norm_num]
    exact Real.sqrt_sq (by norm_num)
  have hFs : 0 < (1 - c) * s := by positivity
  have hE1 : E ≤ 13 / 12 + (1 - c) * s := by
    rw [hE]
    refine Real.sqrt_le_iff.mpr ⟨by positivity, ?_⟩
    nlinarith
  have hE2 : 13 / 12 ≤ E := by
    rw [hE, ← hE0]
    refine Real.sqrt_le_sqrt ?_
    nlinarith
  obtain ⟨z, hz⟩ : ∃ z, z = (E - 13 / 12) / (1 - c) := ⟨_, rfl⟩
  have z0 : 0 ≤ z := hz ▸ div_nonneg (by linarith) hF.le
  have z1 : z ≤ s := by
    rw [hz, div_le_iff₀ hF]
    linarith
  have hzE : (1 - c) * z = E - 13 / 12 := by
    rw [hz]
    field_simp
  have hy : trackZ (5 / 12) (1 - c) s = (![0, 0, z], ![0, 0, 5 / 12 + (1 - c) * s]) := by
    rw [trackZ, ← hE, hE0, ← hz]
  obtain ⟨s', hs'⟩ : ∃ s', s' = 5 / 4 * s - 3 / 4 * z := ⟨_, rfl⟩
  have s0' : 0 < s' := by linarith
  have s1' : s' ≤ 5 / 4 * s := by linarith
  have hm := frames_limit (L := boostZ) (p := alongZ (5 / 12)) (p' := alongZ (-7 / 24)) (T := T)
    (T' := min T' (1 / 8)) (h T) (h' _ (min_le_right _ _)) rfl
    (by simp [alongZ, Particle.newLepton, Particle.new])
    (by simp [alongZ, Particle.newLepton, Particle.new, Particle.leptonKind]) rfl
    (by simp [alongZ, Particle.newLepton, Particle.new])
    (by simp [alongZ, Particle.newLepton, Particle.new, Particle.leptonKind]) hδ
    (fun dt dt' a b a' b' n n' hn hn' => hb dt dt' a b a' b' n n' hn (hn'.trans (min_le_left _ _)))
    s0.le sT s0'.le (le_min (by linarith) (by linarith)) (by
      show 0 + s' = boostZ.mulVec (four (0 + s) (trackZ (5 / 12) (1 - c) (0 + s)).1) 0
      rw [zero_add, zero_add, hy, hs']
      show _ = boostZ.mulVec ![s, 0, 0, z] 0
      rw [boostZ_mulVec]
      rfl)
  rw [show (alongZ (5 / 12)).time = 0 from rfl, show (alongZ (-7 / 24)).time = 0 from rfl, zero_add, zero_add, hy] at hm
  have hE3 : energyOf (alongZ (5 / 12)).mass (![0, 0, 5 / 12 + (1 - c) * s] : Fin 3 → ℝ) = E := by
    rw [energyOf, OrderWitness.dot_z, hE, show (alongZ (5 / 12)).mass = 1 by
      simp [alongZ, Particle.newLepton, Particle.new], one_pow]
  rw [hE3] at hm
  have h3 := congrFun hm 3
  rw [show four E (![0, 0, 5 / 12 + (1 - c) * s] : Fin 3 → ℝ) = ![E, 0, 0, 5 / 12 + (1 - c) * s] from rfl,
    boostZ_mulVec] at h3
  replace h3 : -7 / 24 + (1 + c) * s' = 5 / 4 * (5 / 12 + (1 - c) * s) - 3 / 4 * E := h3
  have : 2 * (c * s') = 0 := by
    rw [hs'] at h3 ⊢
    linarith
  have := mul_pos c0 s0'
  linarith

end Frames

open Frames in
/-- C140 does not hold with radiation reaction: for an electron in a constant electric field and two frames, the two
computed momenta do not come together as the time steps and the time between the two states go to zero. -/
theorem C140_refuted : ∃ (L : Matrix (Fin 4) (Fin 4) ℝ) (field field' : Field ℝ) (p p' : Particle ℝ),
    IsFrameChange L ∧ SameField L field field' ∧ SameParticle L p p' ∧ p.isAlive = true ∧ 0 < p.mass ∧
    p.kind = .electron ∧ (∃ e b, field = staticField e b) ∧ (∃ e b, field' = staticField e b) ∧
    ∀ push ∈ [landauForce, modLandauForce], ∀ T T' : ℝ, 0 < T → 0 < T' →
      ¬ ∃ C : ℝ, ∃ δ > (0 : ℝ), ∀ dt dt' : ℝ, 0 ≤ dt → dt ≤ δ → 0 ≤ dt' → dt' ≤ δ → ∀ n n' : Nat, n * dt ≤ T → n' * dt' ≤ T' →
        let r := (pushParticle push field dt)^[n] p
        let r' := (pushParticle push field' dt')^[n'] p'
        let between := |r'.time - L.mulVec (fourPosition r) 0|
        ‖fourMomentum r' - L.mulVec (fourMomentum r)‖ ≤ C * (dt + dt' + between) := by
  have hmass : ∀ k, (0 : ℝ) < (alongZ k).mass := fun k => by simp [alongZ, Particle.newLepton, Particle.new]
  have hmass1 : ∀ k, (alongZ k).mass = (1 : ℝ) := fun k => by simp [alongZ, Particle.newLepton, Particle.new]
  have hne : ∀ k F s : ℝ, k + F * s ≠ 0 → (trackZ k F s).2 ≠ 0 := fun k F s h h0 => h (congrFun h0 2)
  have hα : 0 < (Units.alpha : ℝ) ∧ (Units.alpha : ℝ) ≤ 0.01 := by rw [OrderWitness.alpha_eq]; norm_num
  have hpos : ∀ c s : ℝ, c ≤ 1 / 2 → 0 ≤ s → 0 < 5 / 12 + (1 - c) * s := fun c s hc hs => by
    have := mul_nonneg (by linarith : 0 ≤ 1 - c) hs
    linarith
  have hneg : ∀ c s : ℝ, c ≤ 1 / 2 → 0 ≤ s → s ≤ 1 / 8 → -7 / 24 + (1 + c) * s < 0 := fun c s hc hs h8 => by
    have := mul_le_mul_of_nonneg_right (by linarith : 1 + c ≤ 3 / 2) hs
    linarith
  refine ⟨boostZ, OrderWitness.field, OrderWitness.field, alongZ (5 / 12), alongZ (-7 / 24), boostZ_frame, field_same,
    alongZ_same (e := 13 / 12) (e' := 25 / 24) (by norm_num) (by norm_num) (by norm_num) (by norm_num) (by norm_num)
      (by norm_num), rfl, hmass _, by simp [alongZ, Particle.newLepton, Particle.new, Particle.leptonKind], ⟨_, _, rfl⟩,
    ⟨_, _, rfl⟩, ?_⟩
  intro push hpush T T' hT hT'
  rintro ⟨C, δ, hδ, hb⟩
  simp only [List.mem_cons, List.not_mem_nil, or_false] at hpush
  rcases hpush with rfl | rfl
  · obtain ⟨c, hc⟩ : ∃ c, c = 2 / 3 * (Units.alpha : ℝ) * (fun _ : ℝ => (1 : ℝ)) 1 := ⟨_, rfl⟩
    have c0 : 0 < c := by rw [hc]; linarith
    have c1 : c ≤ 1 / 2 := by rw [hc]; linarith
    refine motions_differ c0 c1 (fun T => ?_) (fun T hT => ?_) hT hT' hδ hb
    · refine C121_landau isOpen_univ (C121_static _ _) (alongZ _) rfl (hmass _) (trackZ_start _ _)
        (fun s hs => ?_) fun s hs => ⟨mem_univ _, hne _ _ _ (hpos c s c1 hs.1).ne'⟩
      rw [hmass1]
      refine trackZ_deriv (by linarith) s (fun x => ?_) _
      rw [hc]
      exact OrderWitness.reaction_one _ s x _ (hc ▸ hpos c s c1 hs.1)
    · refine C121_landau isOpen_univ (C121_static _ _) (alongZ _) rfl (hmass _) (trackZ_start _ _)
        (fun s hs => ?_) fun s hs => ⟨mem_univ _, hne _ _ _ (hneg c s c1 hs.1 ?_).ne⟩
      · rw [hmass1]
        refine trackZ_deriv (by linarith) s (fun x => ?_) _
        rw [hc]
        exact reaction_back _ s x _ (hc ▸ hneg c s c1 hs.1 (hs.2.trans (by
          show 0 + T ≤ _
          linarith)))
      · refine hs.2.trans ?_
        show 0 + T ≤ _
        linarith
  · obtain ⟨c, hc⟩ : ∃ c, c = 2 / 3 * (Units.alpha : ℝ) * gauntFactor 1 := ⟨_, rfl⟩
    have hg : 0 < gauntFactor 1 := by
      refine Real.rpow_pos_of_pos ?_ _
      have : 0 ≤ Real.log (1 + 1.7 * 1) := Real.log_nonneg (by norm_num)
      linarith
    have c0 : 0 < c := by rw [hc]; exact mul_pos (by linarith) hg
    have c1 : c ≤ 1 / 2 := by
      rw [hc]
      have := mul_le_mul_of_nonneg_left OrderWitness.gaunt_one.2 (by linarith : 0 ≤ 2 / 3 * (Units.alpha : ℝ))
      linarith
    have heta : ∀ k F s : ℝ, etaAt (alongZ k).mass OrderWitness.field s (trackZ k F s).1 (trackZ k F s).2 ≠ 0 := by
      intro k F s
      rw [hmass1, show etaAt 1 OrderWitness.field s (trackZ k F s).1 (trackZ k F s).2 = 1 from
        OrderWitness.eta_one s _ _]
      exact one_ne_zero
    refine motions_differ c0 c1 (fun T => ?_) (fun T hT => ?_) hT hT' hδ hb
    · refine C121_modified isOpen_univ (C121_static _ _) (alongZ _) rfl (hmass _) (trackZ_start _ _)
        (fun s hs => ?_) fun s hs => ⟨mem_univ _, hne _ _ _ (hpos c s c1 hs.1).ne', heta _ _ _⟩
      rw [hmass1]
      refine trackZ_deriv (by linarith) s (fun x => ?_) _
      rw [hc]
      exact OrderWitness.reaction_one _ s x _ (hc ▸ hpos c s c1 hs.1)
    · refine C121_modified isOpen_univ (C121_static _ _) (alongZ _) rfl (hmass _) (trackZ_start _ _)
        (fun s hs => ?_) fun s hs => ⟨mem_univ _, hne _ _ _ (hneg c s c1 hs.1 ?_).ne, heta _ _ _⟩
      · rw [hmass1]
        refine trackZ_deriv (by linarith) s (fun x => ?_) _
        rw [hc]
        exact reaction_back _ s x _ (hc ▸ hneg c s c1 hs.1 (hs.2.trans (by
          show 0 + T ≤ _
          linarith)))
      · refine hs.2.trans ?_
        show 0 + T ≤ _
        linarith

end QED
