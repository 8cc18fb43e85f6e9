import Verif.Lemmas.Rates
import Verif.Lemmas.Riemann
import Verif.Props.Survival
import Mathlib.Topology.MetricSpace.Thickening

set_option autoImplicit false

/-!
# Property C133: emission and pair production at the right rates as the time step goes to zero

By C105 the chance of no emission is the exponential of a sum over the time steps. Here the sum goes to the
integral of the rate along the solution of the equations of motion.
-/

namespace QED

open Filter Topology MCTools

/-- `q` is strictly inside the range of a table. -/
def Inside (s : List ℝ) (q : ℝ) : Prop :=
  ∃ h : 0 < s.length, s[0] < q ∧ q < s[s.length - 1]

/-- A run of `n + 1` steps over a time `T` with the Lorentz force and stochastic emission in the same field, with
`s` and `d` the table of emission, and with or without pair production. -/
structure EmissionRun (field : Field ℝ) (s d : List ℝ) (T : ℝ) (n : Nat) (cfg : SimCfg ℝ) : Prop where
  push : cfg.push = lorentzForce
  same : cfg.field = field
  step : cfg.dt = T / (n + 1)
  time : T ≤ cfg.timeEnd
  procs : ∃ pre e post, cfg.procs = pre ++ .stochastic e :: post ∧
    (∀ y ∈ pre ++ post, ∃ b, y = .breitWheeler b) ∧ e.field = field ∧ e.dt = T / (n + 1) ∧
    e.hAxis = s ∧ e.hData = d

/-- A run of `n + 1` steps over a time `T` with pair production, with `s` and `d` the table of its rate, and with or
without emission. -/
structure PairRun (field : Field ℝ) (s d : List ℝ) (T : ℝ) (n : Nat) (cfg : SimCfg ℝ) : Prop where
  step : cfg.dt = T / (n + 1)
  time : T ≤ cfg.timeEnd
  procs : ∃ pre b post, cfg.procs = pre ++ .breitWheeler b :: post ∧
    (∀ y ∈ pre ++ post, (∃ e, y = .stochastic e) ∨ ∃ e c, y = .continuous e c) ∧ b.field = field ∧
    b.dt = T / (n + 1) ∧ b.tAxis = s ∧ b.tData = d

theorem before_end {T E : ℝ} (hT : 0 < T) (hE : T ≤ E) (n : Nat) :
    ∀ k < n + 1, (k : ℝ) * (T / (n + 1)) < E := by
  intro k hk
  have hpos : (0:ℝ) < n + 1 := by positivity
  have hk' : (k : ℝ) < n + 1 := by exact_mod_cast hk
  have : (k : ℝ) * (T / (n + 1)) < (n + 1) * (T / (n + 1)) :=
    mul_lt_mul_of_pos_right hk' (div_pos hT hpos)
  rw [mul_div_cancel₀ _ hpos.ne'] at this
  linarith

theorem on_grid {a T : ℝ} (hT : 0 < T) (n : Nat) :
    ∀ k < n + 1, a + ((k + 1 : Nat) : ℝ) * (T / (n + 1)) ∈ Set.Icc a (a + T) := by
  intro k hk
  have hpos : (0:ℝ) < n + 1 := by positivity
  have hk' : ((k + 1 : Nat) : ℝ) ≤ n + 1 := by exact_mod_cast hk
  have h1 : ((k + 1 : Nat) : ℝ) * (T / (n + 1)) ≤ (n + 1) * (T / (n + 1)) :=
    mul_le_mul_of_nonneg_right hk' (div_pos hT hpos).le
  rw [mul_div_cancel₀ _ hpos.ne'] at h1
  have h2 : 0 ≤ ((k + 1 : Nat) : ℝ) * (T / (n + 1)) := by positivity
  exact ⟨by linarith, by linarith⟩

/-- What the code computes of a lepton is a function of its time, position and momentum. -/
theorem eta_of_lepton (field : Field ℝ) (p : Particle ℝ) (hk : p.kind ≠ .photon) (hm : 0 < p.mass)
    (hp : p.momentum.toVec ≠ 0) :
    calculateEta field p = etaOf p.mass field p.time (p.position.toVec, p.momentum.toVec) ∧
    p.gamma = gammaOf p.mass p.momentum.toVec := by
  have hp' : p.momentum ≠ ⟨0, 0, 0⟩ := by
    intro h; apply hp; rw [h]; ext j; fin_cases j <;> simp [V3.toVec]
  constructor
  · rw [C102_eta_partial field p hk hm hp']
    rfl
  · have hg : p.gamma = pushGamma p.mass p.momentum := by
      unfold Particle.gamma pushGamma
      split
      · contradiction
      · rfl
    rw [hg, pushGamma_eq]
    rfl

/-- C133 for emission: along a solution of the equations of motion whose `η` stays inside the table, the chance
that a lepton has emitted nothing after the time `T`, computed with steps `T / (n + 1)`, goes to
`exp (-∫ W dt)` with `W` the rate along the solution. -/
theorem C133_emission {field : Field ℝ} {F K : ℝ} (hf : SmoothField field F K) {s d : List ℝ} (ht : IsTable s d)
    (p : Particle ℝ) (hk : p.kind ≠ .photon) (hm : 0 < p.mass) (ha : p.isAlive = true) {T : ℝ} (hT : 0 < T)
    {y : ℝ → Phase} (hy0 : y p.time = (p.position.toVec, p.momentum.toVec))
    (hy : ∀ t ∈ Set.Icc p.time (p.time + T),
      HasDerivWithinAt y (motion p.mass (lorentz p.mass p.charge field) t (y t))
        (Set.Icc p.time (p.time + T)) t)
    (hp : ∀ t ∈ Set.Icc p.time (p.time + T), (y t).2 ≠ 0)
    (hη : ∀ t ∈ Set.Icc p.time (p.time + T), 1e-12 < etaOf p.mass field t (y t) ∧
      Inside s (Real.logb 10 (etaOf p.mass field t (y t))))
    (cfg : Nat → SimCfg ℝ) (hcfg : ∀ n, EmissionRun field s d T n (cfg n)) (nm : String) {mx : Nat} (hmx : 0 < mx)
    (r : Rng ℝ) :
    Tendsto (fun n => chance (Untouched (cfg n) p nm mx r (n + 1))) atTop
      (𝓝 (ENNReal.ofReal (Real.exp (-∫ t in p.time..p.time + T, rateOfEmission s d p.mass field t (y t))))) := by
  have hT0 : 0 ≤ T := hT.le
  have hn0 : 0 < s.length := by have := ht.two; omega
  -- the path and the computed states
  obtain ⟨c, hc⟩ : ∃ c : ℝ → ℝ × Phase, c = fun t => (t, y t) := ⟨_, rfl⟩
  have hyc : ContinuousOn y (Set.Icc p.time (p.time + T)) := fun t h => (hy t h).continuousWithinAt
  have hcc : ContinuousOn c (Set.Icc p.time (p.time + T)) := by
    rw [hc]; exact continuousOn_id.prodMk hyc
  obtain ⟨q, hq⟩ : ∃ q : Nat → Nat → Particle ℝ,
      q = fun (n k : Nat) => (pushParticle lorentzForce field (T / (n + 1)))^[k + 1] p := ⟨_, rfl⟩
  obtain ⟨z, hz⟩ : ∃ z : Nat → Nat → ℝ × Phase,
      z = fun n k => ((q n k).time, ((q n k).position.toVec, (q n k).momentum.toVec)) := ⟨_, rfl⟩
  have hqk : ∀ n k, (q n k).kind ≠ .photon ∧ (q n k).mass = p.mass := by
    intro n k
    obtain ⟨h1, h2, _⟩ := pushes_identity (cfg n) p (k + 1)
    have e : pushes (cfg n) p (k + 1) = q n k := by
      rw [hq]; unfold pushes; rw [(hcfg n).push, (hcfg n).same, (hcfg n).step]
    rw [e] at h1 h2
    exact ⟨by rw [h1]; exact hk, h2⟩
  have hclose : ∀ δ > 0, ∃ N, ∀ n ≥ N, ∀ k < n + 1,
      dist (z n k) (c (p.time + ((k + 1 : Nat) : ℝ) * (T / (n + 1)))) < δ := by
    intro δ hδ
    obtain ⟨C, hC⟩ : ∃ C, C = 3 / 2 * motionConst p.mass p.charge F K * (2 + 3 * |p.charge| * F) * T *
      Real.exp (2 * motionConst p.mass p.charge F K * T) := ⟨_, rfl⟩
    obtain ⟨N, hN⟩ := exists_nat_gt (|C| * T / δ)
    refine ⟨N, fun n hn k hkn => ?_⟩
    have hpos : (0:ℝ) < n + 1 := by positivity
    have hstep : |C| * (T / (n + 1)) < δ := by
      rw [div_lt_iff₀ hδ] at hN
      rw [← mul_div_assoc, div_lt_iff₀ hpos]
      have : (N : ℝ) ≤ n := by exact_mod_cast hn
      nlinarith
    have hin := (on_grid (a := p.time) hT n k hkn).2
    obtain ⟨h1, h2⟩ := C104_converges hf p ha hm hy0 hy (div_nonneg hT0 hpos.le) (k + 1) (by linarith)
    rw [← hC] at h2
    have hq' : (pushParticle lorentzForce field (T / (n + 1)))^[k + 1] p = q n k := by rw [hq]
    rw [hq'] at h1 h2
    have hle : C * (T / (n + 1)) ≤ |C| * (T / (n + 1)) :=
      mul_le_mul_of_nonneg_right (le_abs_self C) (div_nonneg hT0 hpos.le)
    rw [hz, hc]
    dsimp only
    rw [h1] at h2 ⊢
    simp only [Prod.dist_eq, dist_self]
    refine max_lt hδ (max_lt ?_ ?_)
    · refine lt_of_le_of_lt ((dist_pi_le_iff (by positivity)).mpr fun i => ?_) hstep
      rw [Real.dist_eq]
      exact ((h2 i).1).trans hle
    · refine lt_of_le_of_lt ((dist_pi_le_iff (by positivity)).mpr fun i => ?_) hstep
      rw [Real.dist_eq]
      exact ((h2 i).2).trans hle
  -- near the path the code is inside the table and the momentum does not vanish
  obtain ⟨U, hU⟩ : ∃ U : Set (ℝ × Phase), U = {w | 1e-12 < etaOf p.mass field w.1 w.2} ∩
      {w | w.2.2 ≠ 0} := ⟨_, rfl⟩
  have hηc := hf.continuous_eta p.mass
  have hUo : IsOpen U := by
    rw [hU]
    exact (isOpen_lt continuous_const hηc).inter
      (isOpen_ne.preimage (continuous_snd.comp continuous_snd))
  have hlogc : ContinuousOn (fun w : ℝ × Phase => Real.logb 10 (etaOf p.mass field w.1 w.2)) U := by
    unfold Real.logb
    refine (hηc.continuousOn.log fun w hw => ?_).div_const _
    rw [hU] at hw
    have h1 : (1e-12 : ℝ) < etaOf p.mass field w.1 w.2 := hw.1
    have : (0:ℝ) < 1e-12 := by norm_num
    linarith
  obtain ⟨V, hV⟩ : ∃ V : Set (ℝ × Phase), V = U ∩
      (fun w : ℝ × Phase => Real.logb 10 (etaOf p.mass field w.1 w.2)) ⁻¹'
        Set.Ioo s[0] (s[s.length - 1]) := ⟨_, rfl⟩
  have hVo : IsOpen V := by rw [hV]; exact hlogc.isOpen_inter_preimage hUo isOpen_Ioo
  have hcV : c '' Set.Icc p.time (p.time + T) ⊆ V := by
    rintro _ ⟨t, htt, rfl⟩
    obtain ⟨h1, _, h2, h3⟩ := hη t htt
    rw [hV, hU, hc]
    exact ⟨⟨h1, hp t htt⟩, h2, h3⟩
  obtain ⟨δ, hδ0, hδ⟩ := (isCompact_Icc.image_of_continuousOn hcc).exists_thickening_subset_open hVo hcV
  obtain ⟨N, hN⟩ := hclose δ hδ0
  have hzV : ∀ n ≥ N, ∀ k < n + 1, z n k ∈ V := by
    intro n hn k hkn
    refine hδ ?_
    rw [Metric.mem_thickening_iff]
    exact ⟨_, ⟨_, on_grid hT n k hkn, rfl⟩, hN n hn k hkn⟩
  -- the sum
  have hrate : ∀ t ∈ Set.Icc p.time (p.time + T),
      ContinuousAt (fun w : ℝ × Phase => rateOfEmission s d p.mass field w.1 w.2) (c t) := by
    intro t htt
    refine continuousAt_rateOfEmission hf s d p.mass ?_
    have := (hη t htt).1
    have h0 : (0:ℝ) < 1e-12 := by norm_num
    rw [hc]
    exact ne_of_gt (h0.trans this)
  have hfc : ContinuousOn (fun t => rateOfEmission s d p.mass field t (y t)) (Set.Icc p.time (p.time + T)) := by
    intro t htt
    have := (hrate t htt).comp_continuousWithinAt (hcc t htt)
    rw [hc] at this
    exact this
  have hsum := sum_to_integral hT0 hfc (v := fun n k => rateOfEmission s d p.mass field (z n k).1 (z n k).2) (by
    intro ε hε
    obtain ⟨δ', h0, h'⟩ := near_path hcc hrate hε
    obtain ⟨M, hM⟩ := hclose δ' h0
    refine ⟨M, fun n hn k hkn => ?_⟩
    have := (h' _ (on_grid hT n k hkn) _ (hM n hn k hkn)).le
    rw [hc] at this
    exact this)
  have hlim := (ENNReal.continuous_ofReal.comp Real.continuous_exp).continuousAt.tendsto.comp hsum.neg
  refine hlim.congr' ?_
  filter_upwards [eventually_ge_atTop N] with n hn
  obtain ⟨pre, e, post, h1, h2, h3, h4, h5, h6⟩ := (hcfg n).procs
  have hpush : ∀ k, pushes (cfg n) p k = (pushParticle lorentzForce field (T / (n + 1)))^[k] p := by
    intro k; unfold pushes; rw [(hcfg n).push, (hcfg n).same, (hcfg n).step]
  have hpq : ∀ k, pushes (cfg n) p (k + 1) = q n k := by intro k; rw [hpush, hq]
  have hat : ∀ k < n + 1, calculateEta e.field (pushes (cfg n) p (k + 1)) =
      etaOf p.mass field (z n k).1 (z n k).2 ∧
      (pushes (cfg n) p (k + 1)).gamma = gammaOf p.mass (z n k).2.2 := by
    intro k hkn
    obtain ⟨g1, g2⟩ := hqk n k
    have hv := hzV n hn k hkn
    rw [hV, hU] at hv
    have hmom : (q n k).momentum.toVec ≠ 0 := by
      have := hv.1.2
      rw [hz] at this
      exact this
    obtain ⟨a1, a2⟩ := eta_of_lepton field (q n k) g1 (by rw [g2]; exact hm) hmom
    rw [hpq, h3, hz]
    rw [g2] at a1 a2
    exact ⟨a1, a2⟩
  rw [C105_emission (n := n + 1) (logh := fun k => polyline s d (Real.logb 10 (etaOf p.mass field (z n k).1 (z n k).2)))
    h1 h2 hk hm.ne' ha hmx (by rw [h4]; positivity) (by
      rw [(hcfg n).step]; exact before_end hT (hcfg n).time n) (by
      intro k hkn
      have hv := hzV n hn k hkn
      rw [hV, hU] at hv
      obtain ⟨⟨b1, -⟩, b2, b3⟩ := hv
      rw [(hat k hkn).1]
      unfold emissionLogh
      rw [if_neg (by
        simp only [real_lt, real_lit]
        have : (1e-12 : ℝ) < etaOf p.mass field (z n k).1 (z n k).2 := b1
        norm_num at this ⊢
        linarith), h5, h6]
      exact interpolate_polyline ht _ (le_of_lt b2) b3)]
  simp only [Function.comp]
  congr 2
  congr 1
  refine Finset.sum_congr rfl fun k hkn => ?_
  rw [(hat k (Finset.mem_range.mp hkn)).1, (hat k (Finset.mem_range.mp hkn)).2, h4]
  unfold rateOfEmission
  ring

/-- What the code computes of a photon is a function of its time, position and momentum. -/
theorem chi_of_photon (field : Field ℝ) (p : Particle ℝ) (hk : p.kind = .photon) (hp : p.momentum.toVec ≠ 0) :
    bwChi field p = chiOf field p.time p.position.toVec p.momentum.toVec ∧
    p.energy = Real.sqrt (p.momentum.toVec 0 ^ 2 + p.momentum.toVec 1 ^ 2 + p.momentum.toVec 2 ^ 2) := by
  have hp' : p.momentum ≠ ⟨0, 0, 0⟩ := by
    intro h; apply hp; rw [h]; ext j; fin_cases j <;> simp [V3.toVec]
  have he : p.energy = Real.sqrt (p.momentum.toVec 0 ^ 2 + p.momentum.toVec 1 ^ 2 + p.momentum.toVec 2 ^ 2) := by
    unfold Particle.energy
    rw [hk]
    simp only [V3.mag, V3.dot, real_sqrt, real_add, real_mul, V3.toVec]
    simp [sq]
  refine ⟨?_, he⟩
  rw [C102_chi_partial field p hk hp', he]
  rfl

/-- C133 for pair production: for a photon whose `χ` stays inside the table, in fields that are continuous along its
straight path, the chance that it has not converted after the time `T`, computed with steps `T / (n + 1)`, goes
to `exp (-∫ W dt)` with `W` the rate along the path. -/
theorem C133_conversion {field : Field ℝ} {s d : List ℝ} (ht : IsTable s d)
    (p : Particle ℝ) (hk : p.kind = .photon) (hm : p.mass = 0) (ha : p.isAlive = true) {T : ℝ} (hT : 0 < T)
    (u : Fin 3 → ℝ) (hu : IsUnitAlong u p.momentum.toVec)
    (he : ContinuousOn (fun t => electric field t (p.position.toVec + (t - p.time) • u))
      (Set.Icc p.time (p.time + T)))
    (hb : ContinuousOn (fun t => magnetic field t (p.position.toVec + (t - p.time) • u))
      (Set.Icc p.time (p.time + T)))
    (hχ : ∀ t ∈ Set.Icc p.time (p.time + T),
      0 < chiOf field t (p.position.toVec + (t - p.time) • u) p.momentum.toVec ∧
      Inside s (Real.logb 10 (chiOf field t (p.position.toVec + (t - p.time) • u) p.momentum.toVec)))
    (cfg : Nat → SimCfg ℝ) (hcfg : ∀ n, PairRun field s d T n (cfg n)) (nm : String) {mx : Nat} (hmx : 0 < mx)
    (r : Rng ℝ) :
    Tendsto (fun n => chance (Untouched (cfg n) p nm mx r (n + 1))) atTop
      (𝓝 (ENNReal.ofReal (Real.exp (-∫ t in p.time..p.time + T,
        pairRate s d field t (p.position.toVec + (t - p.time) • u) p.momentum.toVec)))) := by
  have hmom : p.momentum.toVec ≠ 0 := by
    obtain ⟨h1, c, hc, hv⟩ := hu
    intro h
    rw [hv] at h
    rcases smul_eq_zero.mp h with h | h
    · exact hc.ne' h
    · rw [h] at h1; simp [len] at h1
  obtain ⟨x, hx⟩ : ∃ x : ℝ → Fin 3 → ℝ, x = fun t => p.position.toVec + (t - p.time) • u := ⟨_, rfl⟩
  have hxt : ∀ t, p.position.toVec + (t - p.time) • u = x t := fun t => by rw [hx]
  simp only [hxt] at he hb hχ ⊢
  have hχc : ContinuousOn (fun t => chiOf field t (x t) p.momentum.toVec) (Set.Icc p.time (p.time + T)) := by
    unfold chiOf
    refine ContinuousOn.div_const ?_ _
    rw [continuousOn_iff_continuous_domRestrict] at he hb ⊢
    exact continuous_quantumParameter he hb continuous_const continuous_const
  have hfc : ContinuousOn (fun t => pairRate s d field t (x t) p.momentum.toVec)
      (Set.Icc p.time (p.time + T)) := by
    unfold pairRate
    refine ContinuousOn.div_const ((continuousOn_const.mul hχc).mul
      (continuousOn_const.rpow ((continuous_polyline s d).comp_continuousOn ?_) fun _ _ => Or.inl (by norm_num))) _
    unfold Real.logb
    exact (hχc.log fun t htt => (hχ t htt).1.ne').div_const _
  have hsum := sum_to_integral hT.le hfc
    (v := fun n k => pairRate s d field (p.time + ((k + 1 : Nat) : ℝ) * (T / (n + 1)))
      (x (p.time + ((k + 1 : Nat) : ℝ) * (T / (n + 1)))) p.momentum.toVec) (by
    intro ε hε
    refine ⟨0, fun n _ k _ => ?_⟩
    simpa using hε.le)
  have hlim := (ENNReal.continuous_ofReal.comp Real.continuous_exp).continuousAt.tendsto.comp hsum.neg
  refine hlim.congr fun n => ?_
  obtain ⟨pre, b, post, h1, h2, h3, h4, h5, h6⟩ := (hcfg n).procs
  have hat : ∀ k < n + 1, bwChi b.field (pushes (cfg n) p (k + 1)) =
      chiOf field (p.time + ((k + 1 : Nat) : ℝ) * (T / (n + 1)))
        (x (p.time + ((k + 1 : Nat) : ℝ) * (T / (n + 1)))) p.momentum.toVec ∧
      (pushes (cfg n) p (k + 1)).energy =
        Real.sqrt (p.momentum.toVec 0 ^ 2 + p.momentum.toVec 1 ^ 2 + p.momentum.toVec 2 ^ 2) := by
    intro k hkn
    obtain ⟨a1, a2, a3, a4, -⟩ := C26_pushes (cfg n).push (cfg n).field (cfg n).dt p ha hm u hu (k + 1)
    obtain ⟨i1, -⟩ := pushes_identity (cfg n) p (k + 1)
    obtain ⟨c1, c2⟩ := chi_of_photon field (pushes (cfg n) p (k + 1)) (i1.trans hk) (by
      unfold pushes; rw [a2]; exact hmom)
    have e2 : (pushes (cfg n) p (k + 1)).momentum = p.momentum := a2
    have e4 : (pushes (cfg n) p (k + 1)).time = p.time + ((k + 1 : Nat) : ℝ) * (T / (n + 1)) := by
      rw [← (hcfg n).step]; exact a4
    have e1 : (pushes (cfg n) p (k + 1)).position.toVec = x (p.time + ((k + 1 : Nat) : ℝ) * (T / (n + 1))) := by
      rw [hx, ← (hcfg n).step]
      dsimp only
      rw [add_sub_cancel_left]
      exact a1
    rw [e2] at c1 c2
    rw [e1, e4] at c1
    rw [h3]
    exact ⟨c1, c2⟩
  rw [C105_conversion (n := n + 1) (logt := fun k => polyline s d (Real.logb 10
      (chiOf field (p.time + ((k + 1 : Nat) : ℝ) * (T / (n + 1)))
        (x (p.time + ((k + 1 : Nat) : ℝ) * (T / (n + 1)))) p.momentum.toVec)))
    h1 h2 hk hm ha hmx (by rw [h4]; positivity) (by
      rw [(hcfg n).step]; exact before_end hT (hcfg n).time n) (by
      intro k hkn
      obtain ⟨_, _, b2, b3⟩ := hχ _ (on_grid hT n k hkn)
      rw [(hat k hkn).1, h5, h6]
      exact interpolate_polyline ht _ (le_of_lt b2) b3)]
  simp only [Function.comp]
  congr 2
  congr 1
  refine Finset.sum_congr rfl fun k hkn => ?_
  rw [(hat k (Finset.mem_range.mp hkn)).1, (hat k (Finset.mem_range.mp hkn)).2, h4]
  unfold pairRate
  ring

/-! ## The hypotheses are satisfiable -/

/-- An electron accelerated along the axis, so that `η` stays 1 while its energy grows: the chance of no emission
goes to the exponential of minus the integral of `√3 α / (2π γ)`. -/
example (T : ℝ) (hT : 0 < T) : ∃ cfg : Nat → SimCfg ℝ, Tendsto (fun n =>
      chance (Untouched (cfg n) Witness.electron "0" 10 Witness.rng (n + 1))) atTop
    (𝓝 (ENNReal.ofReal (Real.exp (-∫ t in (0:ℝ)..0 + T,
      √3 * Units.alpha / (√(1 + (1 + t) ^ 2) * 2 * Units.pi))))) := by
  obtain ⟨field, hfield⟩ : ∃ f : Field ℝ, f = staticField ⟨0, 0, -1⟩ ⟨0, 0, 0⟩ := ⟨_, rfl⟩
  obtain ⟨F, hF⟩ := C104_static (⟨0, 0, -1⟩ : V3 ℝ) ⟨0, 0, 0⟩
  rw [← hfield] at hF
  have hmass : Witness.electron.mass = 1 := rfl
  have htime : Witness.electron.time = 0 := rfl
  have hcharge : Witness.electron.charge = -1 := rfl
  have htab : IsTable [-1, 1] [0, 0] := ⟨rfl, by simp, by simp, by norm_num⟩
  obtain ⟨y, hy⟩ : ∃ y : ℝ → Phase, y = fun t => (![0, 0, √(1 + (1 + t) ^ 2) - √2], ![0, 0, 1 + t]) := ⟨_, rfl⟩
  have hE : ∀ t x, electric field t x = ![0, 0, -1] := by intro t x; rw [hfield]; rfl
  have hB : ∀ t x, magnetic field t x = ![0, 0, 0] := by intro t x; rw [hfield]; rfl
  have heta : ∀ t, etaOf 1 field t (y t) = 1 := by
    intro t
    unfold etaOf
    rw [hE, hB, quantumParameter_eq]
    simp only [V3.ofVec, hy, gammaOf]
    norm_num
    simp only [Matrix.cons_val]
    rw [mul_pow, Real.sq_sqrt (by positivity)]
    norm_num
    ring
  refine ⟨fun n => ⟨lorentzForce, field, T / (n + 1), T,
    [.stochastic { Witness.emCfg 1 1 0 with field := field, dt := T / (n + 1), hAxis := [-1, 1], hData := [0, 0] },
      .breitWheeler (Witness.bwCfg 1)]⟩, ?_⟩
  have := C133_emission hF htab Witness.electron (by rw [Witness.electron_kind]; simp) (by rw [hmass]; norm_num)
    rfl hT (y := y) ?_ ?_ ?_ ?_ (fun n => ⟨lorentzForce, field, T / (n + 1), T,
    [.stochastic { Witness.emCfg 1 1 0 with field := field, dt := T / (n + 1), hAxis := [-1, 1], hData := [0, 0] },
      .breitWheeler (Witness.bwCfg 1)]⟩) ?_ "0" (mx := 10) (by norm_num) Witness.rng
  · rw [htime, hmass] at this
    convert this using 6 with t
    funext t
    unfold rateOfEmission
    rw [heta]
    have hl : polyline [-1, 1] [0, 0] (Real.logb 10 1) = 0 := by simp [polyline]
    rw [hl, Real.rpow_zero, mul_one, mul_one]
    simp [gammaOf, hy]
  · rw [htime, hy]
    simp only [Witness.electron, Particle.newLepton, Particle.new, V3.toVec]
    norm_num
  · intro t _
    rw [hmass, hcharge, hy]
    refine HasDerivAt.hasDerivWithinAt ?_
    have h0 : 0 < 1 + (1 + t) ^ 2 := by positivity
    have hd : HasDerivAt (fun t : ℝ => √(1 + (1 + t) ^ 2) - √2) ((√(1 + (1 + t) ^ 2))⁻¹ * (1 + t)) t := by
      have := (((((hasDerivAt_id t).const_add 1).pow 2).const_add 1).sqrt h0.ne').sub_const √2
      refine HasDerivAt.congr_deriv this ?_
      have h1 : √(1 + (1 + t) ^ 2) ≠ 0 := (Real.sqrt_pos.mpr h0).ne'
      simp only [id, Pi.pow_apply]
      field_simp
      norm_num
      ring
    have hv : velocity 1 ![0, 0, 1 + t] = ![0, 0, (√(1 + (1 + t) ^ 2))⁻¹ * (1 + t)] := by
      unfold velocity
      ext i
      fin_cases i <;> simp [dotProduct, Fin.sum_univ_succ, sq]
    unfold motion lorentz
    dsimp only
    rw [hv, hE, hB]
    refine HasDerivAt.prodMk (hasDerivAt_pi.mpr fun i => ?_) (hasDerivAt_pi.mpr fun i => ?_)
    · fin_cases i
      · exact hasDerivAt_const t 0
      · exact hasDerivAt_const t 0
      · exact hd
    · fin_cases i
      · simpa [cross_apply] using hasDerivAt_const t (0:ℝ)
      · simpa [cross_apply] using hasDerivAt_const t (0:ℝ)
      · simpa [cross_apply] using (hasDerivAt_id t).const_add 1
  · intro t ht
    rw [htime] at ht
    rw [hy]
    intro h
    have := congrFun h 2
    simp at this
    linarith [ht.1]
  · intro t _
    rw [hmass, heta]
    refine ⟨by norm_num, by simp, ?_⟩
    simp
  · intro n
    refine ⟨rfl, rfl, rfl, le_rfl, [], _, [.breitWheeler (Witness.bwCfg 1)], rfl, ?_, rfl, rfl, rfl, rfl⟩
    intro y hy
    simp only [List.nil_append, List.mem_singleton] at hy
    exact ⟨_, hy⟩

/-- A photon of energy 4 across a uniform field with `χ = 1`: the chance of no conversion goes to
`exp (-α T / 4)`. -/
example (T : ℝ) (hT : 0 < T) : ∃ cfg : Nat → SimCfg ℝ, Tendsto (fun n =>
      chance (Untouched (cfg n) Witness.photon "0" 10 Witness.rng (n + 1))) atTop
    (𝓝 (ENNReal.ofReal (Real.exp (-(T * (Units.alpha / 4)))))) := by
  have hmom : Witness.photon.momentum.toVec = ![0, 0, 4] := by
    simp [Witness.photon, Particle.newPhotonE, Particle.new, V3.toVec, V3.norm, V3.divs, V3.mag, V3.dot, V3.smul]
  have hpos : Witness.photon.position.toVec = ![0, 0, 0] := by
    simp [Witness.photon, Particle.newPhotonE, Particle.new, V3.toVec]
  have htime : Witness.photon.time = 0 := rfl
  have hmass : Witness.photon.mass = 0 := by simp [Witness.photon, Particle.newPhotonE, Particle.new]
  have htab : IsTable [-1, 1] [0, 0] := ⟨rfl, by simp, by simp, by norm_num⟩
  have hE : ∀ t x, electric Witness.field t x = ![1 / 2, 0, 0] := by intro t x; rfl
  have hB : ∀ t x, magnetic Witness.field t x = ![0, 0, 0] := by intro t x; rfl
  have hchi : ∀ t x, chiOf Witness.field t x ![0, 0, 4] = 1 := by
    intro t x
    unfold chiOf
    rw [hE, hB, quantumParameter_eq]
    simp only [V3.ofVec]
    norm_num
    simp only [Matrix.cons_val]
    rw [show ((4:ℝ) ^ 2) = 16 by norm_num, Witness.sqrt16]
    norm_num
    rw [show (4:ℝ) = 2 ^ 2 by norm_num, Real.sqrt_sq (by norm_num)]
    norm_num
  refine ⟨fun n => ⟨lorentzForce, Witness.field, T / (n + 1), T,
    [.breitWheeler { Witness.bwCfg (T / (n + 1)) with tAxis := [-1, 1], tData := [0, 0] },
      .stochastic (Witness.emCfg 1 1 0)]⟩, ?_⟩
  have := C133_conversion htab Witness.photon rfl hmass rfl hT ![0, 0, 1] ?_ ?_ ?_ ?_
    (fun n => ⟨lorentzForce, Witness.field, T / (n + 1), T,
    [.breitWheeler { Witness.bwCfg (T / (n + 1)) with tAxis := [-1, 1], tData := [0, 0] },
      .stochastic (Witness.emCfg 1 1 0)]⟩) ?_ "0" (mx := 10) (by norm_num) Witness.rng (field := Witness.field)
  · rw [htime, hmom] at this
    convert this using 6
    have hl : polyline [-1, 1] [0, 0] (Real.logb 10 1) = 0 := by simp [polyline]
    unfold pairRate
    simp only [hchi, hl]
    norm_num
    simp only [Matrix.cons_val]
    rw [show ((4:ℝ) ^ 2) = 16 by norm_num, Witness.sqrt16, mul_div_assoc]
  · rw [hmom]
    refine ⟨?_, 4, by norm_num, ?_⟩
    · simp [len]
    · ext i; fin_cases i <;> simp
  · simp only [hE]; exact continuousOn_const
  · simp only [hB]; exact continuousOn_const
  · intro t _
    rw [hmom, hchi]
    refine ⟨by norm_num, by simp, ?_⟩
    simp
  · intro n
    refine ⟨rfl, le_rfl, [], _, [.stochastic (Witness.emCfg 1 1 0)], rfl, ?_, rfl, rfl, rfl, rfl⟩
    intro y hy
    simp only [List.nil_append, List.mem_singleton] at hy
    exact Or.inl ⟨_, hy⟩

end QED
