import Verif.Props.Frames
import Verif.Props.Rates
import Mathlib.MeasureTheory.Function.JacobianOneDim

set_option autoImplicit false

/-!
# C140 for emission and pair production

The chance that a lepton has emitted nothing, or that a photon has not converted, between two events is the same in
all inertial frames as the time step goes to zero.
-/

namespace QED

open Dbl Matrix Set Filter Topology MCTools

namespace Frames

/-- Integrals with another clock. -/
theorem change_clock {f f' g h : ℝ → ℝ} {a b : ℝ} (hab : a ≤ b)
    (hf : ∀ x ∈ Icc a b, HasDerivWithinAt f (f' x) (Icc a b) x) (hpos : ∀ x ∈ Icc a b, 0 < f' x)
    (hg : ∀ x ∈ Icc a b, g (f x) * f' x = h x) : ∫ t in f a..f b, g t = ∫ s in a..b, h s := by
  have hc : ContinuousOn f (Icc a b) := fun x hx => (hf x hx).continuousWithinAt
  have hmono : StrictMonoOn f (Icc a b) := by
    refine strictMonoOn_of_deriv_pos (convex_Icc a b) hc fun s hs' => ?_
    rw [interior_Icc] at hs'
    have := (hf s (Ioo_subset_Icc_self hs')).hasDerivAt (Icc_mem_nhds hs'.1 hs'.2)
    rw [this.deriv]
    exact hpos s (Ioo_subset_Icc_self hs')
  have himage : f '' Icc a b = Icc (f a) (f b) := by
    refine subset_antisymm ?_ (intermediate_value_Icc hab hc)
    rintro _ ⟨x, hx, rfl⟩
    exact ⟨hmono.monotoneOn (left_mem_Icc.mpr hab) hx hx.1, hmono.monotoneOn hx (right_mem_Icc.mpr hab) hx.2⟩
  have hfab : f a ≤ f b := hmono.monotoneOn (left_mem_Icc.mpr hab) (right_mem_Icc.mpr hab) hab
  rw [intervalIntegral.integral_of_le hfab, intervalIntegral.integral_of_le hab,
    ← MeasureTheory.integral_Icc_eq_integral_Ioc, ← MeasureTheory.integral_Icc_eq_integral_Ioc, ← himage,
    MeasureTheory.integral_image_eq_integral_abs_deriv_smul measurableSet_Icc hf hmono.injOn]
  refine MeasureTheory.setIntegral_congr_fun measurableSet_Icc fun x hx => ?_
  rw [abs_of_pos (hpos x hx), smul_eq_mul, mul_comm, hg x hx]

theorem gamma_energy {m : ℝ} (hm : 0 < m) (p : Fin 3 → ℝ) : gammaOf m p = energyOf m p / m := by
  unfold gammaOf energyOf
  rw [show 1 + (p 0 ^ 2 + p 1 ^ 2 + p 2 ^ 2) / m ^ 2 = (m ^ 2 + p ⬝ᵥ p) / m ^ 2 by
    rw [dotProduct, Fin.sum_univ_three]; field_simp]
  rw [Real.sqrt_div (add_nonneg (sq_nonneg m) (dot_self_nonneg p)), Real.sqrt_sq hm.le]

theorem four_gamma {m : ℝ} (hm : 0 < m) (p : Fin 3 → ℝ) :
    fourVector (gammaOf m p) (V3.ofVec fun i => p i / m) = m⁻¹ • four (energyOf m p) p := by
  rw [gamma_energy hm]
  ext i
  fin_cases i <;> simp [fourVector, four, V3.ofVec, div_eq_inv_mul]

/-- Leptons have the same eta in both frames. -/
theorem eta_same {L : Matrix (Fin 4) (Fin 4) ℝ} (hL : IsFrameChange L) {field field' : Field ℝ}
    (hs : SameField L field field') {m : ℝ} (hm : 0 < m) (y : ℝ → Phase) (s : ℝ) :
    etaOf m field' (clock L y s) (seen L m y s) = etaOf m field s (y s) := by
  have hF := hs s (V3.ofVec (y s).1) (clock L y s) (V3.ofVec (seen L m y s).1)
    (four_space (L.mulVec (four s (y s).1)))
  unfold etaOf
  rw [four_gamma hm, four_gamma hm]
  refine Eq.trans ?_ (quantumParameter_lorentz hL.lorentz _ _)
  rw [Matrix.mulVec_smul]
  congr 1
  congr 1
  exact (four_momentum hL hm (y s).2).symm

/-- The number of emissions per time goes with the pace of the clock. -/
theorem rate_same {L : Matrix (Fin 4) (Fin 4) ℝ} (hL : IsFrameChange L) {field field' : Field ℝ}
    (hs : SameField L field field') {m : ℝ} (hm : 0 < m) (sa da : List ℝ) (y : ℝ → Phase) (s : ℝ) :
    rateOfEmission sa da m field' (clock L y s) (seen L m y s) * pace L m (y s).2 =
      rateOfEmission sa da m field s (y s) := by
  have hE := energyOf_pos hm (y s).2
  have hE' := energyOf_pos hm (seen L m y s).2
  have hpace : pace L m (y s).2 = energyOf m (seen L m y s).2 / energyOf m (y s).2 := by
    unfold pace
    rw [four_momentum hL hm]
    rfl
  unfold rateOfEmission
  rw [eta_same hL hs hm, gamma_energy hm, gamma_energy hm, hpace]
  by_cases hpi : (Units.pi : ℝ) = 0
  · simp [hpi]
  · field_simp

end Frames

open Frames

/-- C140 for emission: let the same lepton be simulated in two frames, in each from the same first event to the same
last one. As the time steps go to zero, the chance that it has emitted nothing becomes the same in both. -/
theorem C140_emission_partial {L : Matrix (Fin 4) (Fin 4) ℝ} (hL : IsFrameChange L) {field field' : Field ℝ}
    (hs : SameField L field field') {F K F' K' : ℝ} (hf : SmoothField field F K) (hf' : SmoothField field' F' K')
    {s d : List ℝ} (ht : IsTable s d)
    {p p' : Particle ℝ} (hp : SameParticle L p p') (ha : p.isAlive = true) (hm : 0 < p.mass) (hk : p.kind ≠ .photon)
    {T T' : ℝ} (hT : 0 < T) {y y' : ℝ → Phase} (hy0 : y p.time = (p.position.toVec, p.momentum.toVec))
    (hy : ∀ t ∈ Icc p.time (p.time + T), HasDerivWithinAt y
      (motion p.mass (lorentz p.mass p.charge field) t (y t)) (Icc p.time (p.time + T)) t)
    (hy0' : y' p'.time = (p'.position.toVec, p'.momentum.toVec))
    (hy' : ∀ t ∈ Icc p'.time (p'.time + T'), HasDerivWithinAt y'
      (motion p'.mass (lorentz p'.mass p'.charge field') t (y' t)) (Icc p'.time (p'.time + T')) t)
    (hT' : p'.time + T' = L.mulVec (fourVector (p.time + T) (V3.ofVec (y (p.time + T)).1)) 0)
    (hp0 : ∀ t ∈ Icc p.time (p.time + T), (y t).2 ≠ 0) (hp0' : ∀ t ∈ Icc p'.time (p'.time + T'), (y' t).2 ≠ 0)
    (hη : ∀ t ∈ Icc p.time (p.time + T), 1e-12 < etaOf p.mass field t (y t) ∧
      Inside s (Real.logb 10 (etaOf p.mass field t (y t))))
    (cfg cfg' : Nat → SimCfg ℝ) (hcfg : ∀ n, EmissionRun field s d T n (cfg n))
    (hcfg' : ∀ n, EmissionRun field' s d T' n (cfg' n)) (nm nm' : String) {mx mx' : Nat} (hmx : 0 < mx) (hmx' : 0 < mx')
    (r r' : Rng ℝ) :
    ∃ l, Tendsto (fun n => chance (Untouched (cfg n) p nm mx r (n + 1))) atTop (𝓝 l) ∧
      Tendsto (fun n => chance (Untouched (cfg' n) p' nm' mx' r' (n + 1))) atTop (𝓝 l) := by
  have ha' : p'.isAlive = true := hp.alive.trans ha
  have hm' : 0 < p'.mass := by rw [hp.mass]; exact hm
  have hk' : p'.kind ≠ .photon := by rw [hp.kind]; exact hk
  have hab : p.time ≤ p.time + T := by linarith
  have e1 : clock L y p.time = p'.time ∧ (seen L p.mass y p.time).1 = p'.position.toVec := by
    have h : four p'.time p'.position.toVec = L.mulVec (four p.time p.position.toVec) := hp.position
    rw [← four_space (L.mulVec _)] at h
    have := four_inj h
    unfold clock seen
    rw [hy0]
    exact ⟨this.1.symm, this.2.symm⟩
  have e2 : (seen L p.mass y p.time).2 = p'.momentum.toVec := by
    have h := hp.momentum
    rw [fourMomentum_eq hm hk, fourMomentum_eq hm' hk', ← four_space (L.mulVec _)] at h
    unfold seen
    rw [hy0]
    exact (four_inj h).2.symm
  have e3 : clock L y (p.time + T) = p'.time + T' := hT'.symm
  have hmono := clock_strictMono hL hm hy
  have hmaps : MapsTo (clock L y) (Icc p.time (p.time + T)) (Icc p'.time (p'.time + T')) := by
    intro t htt
    have h1 := hmono.monotoneOn (left_mem_Icc.mpr hab) htt htt.1
    have h2 := hmono.monotoneOn htt (right_mem_Icc.mpr hab) htt.2
    rw [e1.1] at h1
    rw [e3] at h2
    exact ⟨h1, h2⟩
  have hTpos : 0 < T' := by
    have := hmono (left_mem_Icc.mpr hab) (right_mem_Icc.mpr hab) (by linarith)
    rw [e1.1, e3] at this
    linarith
  have hsurj : ∀ t ∈ Icc p'.time (p'.time + T'), ∃ u ∈ Icc p.time (p.time + T), clock L y u = t := by
    intro t htt
    rw [← e3, ← e1.1] at htt
    exact intermediate_value_Icc hab (clock_continuous hm hy) htt
  have hagree := agree hL hs hm hy hf' (by rw [← hp.charge]; rw [hp.mass] at hy'; exact hy') hmaps (by
    rw [e1.1, hy0', ← e1.2, ← e2])
  have h1 := C133_emission hf ht p hk hm ha hT hy0 hy hp0 hη cfg hcfg nm hmx r
  have h2 := C133_emission hf' ht p' hk' hm' ha' hTpos hy0' hy' hp0' (by
    intro t htt
    obtain ⟨u, hu, rfl⟩ := hsurj t htt
    rw [hagree u hu, hp.mass, eta_same hL hs hm]
    exact hη u hu) cfg' hcfg' nm' hmx' r'
  refine ⟨_, h1, ?_⟩
  have hint : ∫ t in p'.time..p'.time + T', rateOfEmission s d p'.mass field' t (y' t) =
      ∫ t in p.time..p.time + T, rateOfEmission s d p.mass field t (y t) := by
    rw [← e3, ← e1.1]
    refine change_clock hab (f' := fun u => pace L p.mass (y u).2) (fun u hu => clock_deriv hm (hy u hu))
      (fun u _ => pace_pos hL hm _) fun u hu => ?_
    rw [hagree u hu, hp.mass]
    exact rate_same hL hs hm s d y u
  rw [hint] at h2
  exact h2

namespace Frames

theorem photon_four {p : Particle ℝ} (hk : p.kind = .photon) {u : Fin 3 → ℝ} (hu : IsUnitAlong u p.momentum.toVec) :
    ∃ c, 0 < c ∧ Real.sqrt (p.momentum.toVec 0 ^ 2 + p.momentum.toVec 1 ^ 2 + p.momentum.toVec 2 ^ 2) = c ∧
      fourMomentum p = c • four 1 u ∧ four c p.momentum.toVec = c • four 1 u := by
  obtain ⟨h1, c, hc, hv⟩ := hu
  have hlen : Real.sqrt (p.momentum.toVec 0 ^ 2 + p.momentum.toVec 1 ^ 2 + p.momentum.toVec 2 ^ 2) = c := by
    rw [hv]
    unfold len at h1
    have h2 : u 0 ^ 2 + u 1 ^ 2 + u 2 ^ 2 = 1 := Real.sqrt_eq_one.mp h1
    rw [show (c • u) 0 ^ 2 + (c • u) 1 ^ 2 + (c • u) 2 ^ 2 = c ^ 2 by
      simp only [Pi.smul_apply, smul_eq_mul]; linear_combination c ^ 2 * h2]
    exact Real.sqrt_sq hc.le
  have hf : four c p.momentum.toVec = c • four 1 u := by
    rw [hv]
    ext i
    fin_cases i <;> simp [four, fourVector, V3.ofVec]
  refine ⟨c, hc, hlen, ?_, hf⟩
  rw [← hf, ← hlen]
  unfold fourMomentum
  have he : p.energy = Real.sqrt (p.momentum.toVec 0 ^ 2 + p.momentum.toVec 1 ^ 2 + p.momentum.toVec 2 ^ 2) := by
    unfold Particle.energy
    rw [hk]
    simp only [V3.mag, V3.dot, real_add, real_mul, real_sqrt, V3.toVec]
    simp [sq]
  rw [he]
  rfl

end Frames

/-- C140 for pair production: likewise for the chance that a photon has not converted. -/
theorem C140_conversion_partial {L : Matrix (Fin 4) (Fin 4) ℝ} (hL : IsFrameChange L) {field field' : Field ℝ}
    (hs : SameField L field field') {s d : List ℝ} (ht : IsTable s d)
    {p p' : Particle ℝ} (hp : SameParticle L p p') (ha : p.isAlive = true) (hm : p.mass = 0) (hk : p.kind = .photon)
    {T T' : ℝ} (hT : 0 < T) {u u' : Fin 3 → ℝ} (hu : IsUnitAlong u p.momentum.toVec)
    (hu' : IsUnitAlong u' p'.momentum.toVec)
    (hT' : p'.time + T' = L.mulVec (fourVector (p.time + T) (V3.ofVec (p.position.toVec + T • u))) 0)
    (he : ContinuousOn (fun t => electric field t (p.position.toVec + (t - p.time) • u)) (Icc p.time (p.time + T)))
    (hb : ContinuousOn (fun t => magnetic field t (p.position.toVec + (t - p.time) • u)) (Icc p.time (p.time + T)))
    (he' : ContinuousOn (fun t => electric field' t (p'.position.toVec + (t - p'.time) • u'))
      (Icc p'.time (p'.time + T')))
    (hb' : ContinuousOn (fun t => magnetic field' t (p'.position.toVec + (t - p'.time) • u'))
      (Icc p'.time (p'.time + T')))
    (hχ : ∀ t ∈ Icc p.time (p.time + T),
      0 < chiOf field t (p.position.toVec + (t - p.time) • u) p.momentum.toVec ∧
      Inside s (Real.logb 10 (chiOf field t (p.position.toVec + (t - p.time) • u) p.momentum.toVec)))
    (cfg cfg' : Nat → SimCfg ℝ) (hcfg : ∀ n, PairRun field s d T n (cfg n))
    (hcfg' : ∀ n, PairRun field' s d T' n (cfg' n)) (nm nm' : String) {mx mx' : Nat} (hmx : 0 < mx) (hmx' : 0 < mx')
    (r r' : Rng ℝ) :
    ∃ l, Tendsto (fun n => chance (Untouched (cfg n) p nm mx r (n + 1))) atTop (𝓝 l) ∧
      Tendsto (fun n => chance (Untouched (cfg' n) p' nm' mx' r' (n + 1))) atTop (𝓝 l) := by
  have ha' : p'.isAlive = true := hp.alive.trans ha
  have hm' : p'.mass = 0 := hp.mass.trans hm
  have hk' : p'.kind = .photon := hp.kind.trans hk
  obtain ⟨c, hc, c1, c2, c3⟩ := photon_four hk hu
  obtain ⟨c', hc', c1', c2', c3'⟩ := photon_four hk' hu'
  have hκ : L.mulVec (four 1 u) = (c' / c) • four 1 u' := by
    have h := hp.momentum
    rw [c2, c2', Matrix.mulVec_smul] at h
    rw [div_eq_inv_mul, mul_smul, h, smul_smul, inv_mul_cancel₀ hc.ne', one_smul]
  have hpath : ∀ t, L.mulVec (four t (p.position.toVec + (t - p.time) • u)) =
      four (p'.time + c' / c * (t - p.time)) (p'.position.toVec + (c' / c * (t - p.time)) • u') := by
    intro t
    have h1 : four t (p.position.toVec + (t - p.time) • u) = fourPosition p + (t - p.time) • four 1 u := by
      ext i
      fin_cases i <;> simp [four, fourVector, V3.ofVec, fourPosition, V3.toVec]
    rw [h1, Matrix.mulVec_add, Matrix.mulVec_smul, hκ, ← hp.position]
    ext i
    fin_cases i <;> simp [four, fourVector, V3.ofVec, fourPosition, V3.toVec] <;> ring
  have hend : p'.time + T' = p'.time + c' / c * T := by
    have := congrFun (hpath (p.time + T)) 0
    rw [add_sub_cancel_left] at this
    exact hT'.trans this
  have hTT : T' = c' / c * T := by linarith
  have hcc : 0 < c' / c := div_pos hc' hc
  have hTpos : 0 < T' := by rw [hTT]; positivity
  -- chi
  have hsame : ∀ t, chiOf field' (p'.time + c' / c * (t - p.time))
      (p'.position.toVec + (c' / c * (t - p.time)) • u') p'.momentum.toVec =
      chiOf field t (p.position.toVec + (t - p.time) • u) p.momentum.toVec := by
    intro t
    have hF := hs _ _ _ _ (hpath t).symm
    unfold chiOf
    rw [c1, c1']
    congr 1
    refine Eq.trans ?_ (quantumParameter_lorentz hL.lorentz _ _)
    congr 1
    have h := hp.momentum
    rw [c2, c2', ← c3, ← c3'] at h
    exact h
  have h1 := C133_conversion ht p hk hm ha hT u hu he hb hχ cfg hcfg nm hmx r
  have h2 := C133_conversion ht p' hk' hm' ha' hTpos u' hu' he' hb' (by
    intro t htt
    obtain ⟨v, hv⟩ : ∃ v, v = p.time + (t - p'.time) / (c' / c) := ⟨_, rfl⟩
    have hvt : c' / c * (v - p.time) = t - p'.time := by rw [hv]; field_simp; ring
    have hvin : v ∈ Icc p.time (p.time + T) := by
      rw [hv]
      constructor
      · have : 0 ≤ (t - p'.time) / (c' / c) := div_nonneg (by linarith [htt.1]) hcc.le
        linarith
      · have : (t - p'.time) / (c' / c) ≤ T := by
          rw [div_le_iff₀ hcc]
          linarith [htt.2]
        linarith
    have := hsame v
    rw [hvt, add_sub_cancel] at this
    rw [this]
    exact hχ v hvin) cfg' hcfg' nm' hmx' r'
  refine ⟨_, h1, ?_⟩
  have hint : ∫ t in p'.time..p'.time + T', pairRate s d field' t (p'.position.toVec + (t - p'.time) • u') p'.momentum.toVec =
      ∫ t in p.time..p.time + T, pairRate s d field t (p.position.toVec + (t - p.time) • u) p.momentum.toVec := by
    have := change_clock (f := fun t => p'.time + c' / c * (t - p.time)) (f' := fun _ => c' / c)
      (g := fun t => pairRate s d field' t (p'.position.toVec + (t - p'.time) • u') p'.momentum.toVec)
      (h := fun t => pairRate s d field t (p.position.toVec + (t - p.time) • u) p.momentum.toVec)
      (a := p.time) (b := p.time + T) (by linarith)
      (fun t _ => by
        have := ((hasDerivAt_id t).sub_const p.time).const_mul (c' / c)
        rw [mul_one] at this
        exact (this.const_add _).hasDerivWithinAt)
      (fun _ _ => hcc)
      (fun t _ => by
        unfold pairRate
        rw [add_sub_cancel_left, hsame t, c1, c1']
        field_simp)
    rw [sub_self, mul_zero, add_zero, add_sub_cancel_left, ← hTT] at this
    exact this
  rw [hint] at h2
  exact h2

end QED
