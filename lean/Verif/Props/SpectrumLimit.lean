import Verif.Lemmas.SpectrumLimit
import Verif.Lemmas.TableCurves
import Verif.Props.Balance
import Verif.Props.Rates
import Verif.Props.OrderFields

set_option autoImplicit false

/-!
# C147: the radiated spectrum as the time step goes to zero
-/

namespace QED

open Filter Topology MCTools MeasureTheory

/-- A run of `n + 1` steps over a time `T` with spectrum sampling in the same field, whose tables are `logh` and `chi`
on `O`. -/
structure SpectrumRun (push : PushMom ℝ) (field : Field ℝ) (O : Set ℝ) (logh : ℝ → ℝ) (chi : ℝ → ℝ → ℝ) (eMin T : ℝ)
    (n : Nat) (cfg : SimCfg ℝ) : Prop where
  push : cfg.push = push
  same : cfg.field = field
  step : cfg.dt = T / (n + 1)
  time : T ≤ cfg.timeEnd
  procs : ∃ e c, cfg.procs = [.continuous e c] ∧ e.field = field ∧ e.dt = T / (n + 1) ∧ e.eMin = eMin ∧
    0 < e.sampleFrac ∧ e.sampleFrac ≤ 1 ∧
    ∀ η ∈ O, ∀ v, 0 ≤ v → v < 1 → continuousLoghChi e c η v = .ok (logh η, chi η v)

/-! ## The tables of the code are continuous -/

section tables

variable {e : EmissionCfg ℝ}

/-- The quantum parameters inside the tables: between the first and the last tabulated rate, and between the first and
the last but one row of photons. -/
def insideTables (e : EmissionCfg ℝ) : Set ℝ :=
  {η | 1e-12 < η ∧ Inside e.hAxis (Real.logb 10 η) ∧ ∃ h : 2 ≤ e.etaAxis.length,
    e.etaAxis[0] < Real.logb 10 η ∧ Real.logb 10 η < e.etaAxis[e.etaAxis.length - 2]}

theorem logb_continuousOn : ContinuousOn (Real.logb 10) (Set.Ioi 0) := by
  unfold Real.logb
  exact (continuousOn_id.log fun x hx => (ne_of_gt hx)).div_const _

/-- C147 applies to the quantum spectrum: inside the tables the code's values are continuous. -/
theorem C147_quantum_tables (hg : e.GoodTables) (hh : e.hAxis.Pairwise (· < ·)) (hs : e.etaAxis.Pairwise (· < ·))
    (h3 : 3 ≤ e.etaAxis.length) :
    ∃ chi : ℝ → ℝ → ℝ, ContinuousTables (insideTables e) (fun η => polyline e.hAxis e.hData (Real.logb 10 η)) chi ∧
      ∀ η ∈ insideTables e, ∀ v, 0 ≤ v → v < 1 →
        continuousLoghChi e false η v = .ok (polyline e.hAxis e.hData (Real.logb 10 η), chi η v) := by
  obtain ⟨V, hVm, ⟨B, hB⟩, hV⟩ := rows_curves hg
  have hn0 : 0 < e.hAxis.length := by have := hg.h.2.1; omega
  have hO : insideTables e = Set.Ioi (1e-12 : ℝ) ∩ Real.logb 10 ⁻¹'
      (Set.Ioo e.hAxis[0] e.hAxis[e.hAxis.length - 1] ∩ Set.Ioo e.etaAxis[0] e.etaAxis[e.etaAxis.length - 2]) := by
    ext η
    constructor
    · rintro ⟨h1, ⟨_, h2⟩, ⟨_, h3⟩⟩
      exact ⟨h1, h2, h3⟩
    · rintro ⟨h1, h2, h3⟩
      exact ⟨h1, ⟨hn0, h2⟩, ⟨by omega, h3⟩⟩
  have hpos : ∀ η ∈ insideTables e, 0 < η := fun η h => lt_trans (by norm_num) h.1
  have hlog : ContinuousOn (Real.logb 10) (insideTables e) := logb_continuousOn.mono hpos
  refine ⟨fun η v => 10 ^ polyline e.etaAxis ((List.range e.etaAxis.length).map fun i => V i v) (Real.logb 10 η),
    ⟨?_, hpos, ?_, ?_, ?_, ?_, ?_⟩, ?_⟩
  · rw [hO]
    exact (logb_continuousOn.mono fun x (hx : (1e-12 : ℝ) < x) => lt_trans (by norm_num) hx).isOpen_inter_preimage
      isOpen_Ioi (isOpen_Ioo.inter isOpen_Ioo)
  · exact (continuous_polyline _ _).comp_continuousOn hlog
  · intro v hv
    exact continuousOn_const.rpow ((continuous_polyline e.etaAxis
      ((List.range e.etaAxis.length).map fun i => V i v)).comp_continuousOn hlog) fun _ _ => Or.inl (by norm_num)
  · intro η hη
    refine Measurable.const_pow ?_ _
    unfold polyline
    have hget : ∀ i, Measurable fun v => ((List.range e.etaAxis.length).map fun i => V i v).getD i 0 := by
      intro i
      by_cases hi : i < e.etaAxis.length
      · have : (fun v => ((List.range e.etaAxis.length).map fun i => V i v).getD i 0) = V i := by
          funext v
          simp [List.getD, hi]
        rw [this]
        exact hVm i
      · have : (fun v => ((List.range e.etaAxis.length).map fun i => V i v).getD i 0) = fun _ => 0 := by
          funext v
          simp [List.getD, hi]
        rw [this]
        exact measurable_const
    exact (hget 0).add (Finset.measurable_sum _ fun i _ => ((hget (i + 1)).sub (hget i)).mul_const _)
  · intro η hη v hv
    exact Real.rpow_pos_of_pos (by norm_num) _
  · intro η hη
    refine ⟨10 ^ (B + (e.etaAxis.length - 1 : Nat) * (2 * B)), Filter.Eventually.of_forall fun x v hv => ?_⟩
    refine Real.rpow_le_rpow_of_exponent_le (by norm_num) (le_trans (le_abs_self _) (polyline_abs _ _ hs ?_ _))
    intro i
    have hB0 : 0 ≤ B := (abs_nonneg _).trans (hB 0 v ⟨hv.1, hv.2.le⟩)
    by_cases hi : i < e.etaAxis.length
    · simpa [List.getD, hi] using hB i v ⟨hv.1, hv.2.le⟩
    · simpa [List.getD, hi] using hB0
  · rintro η ⟨h1, ⟨_, h2⟩, ⟨_, h4⟩⟩ v hv0 hv1
    have ht : IsTable e.hAxis e.hData := ⟨hg.h.1.symm, hg.h.2.1, hg.h.2.2, hh⟩
    unfold continuousLoghChi
    rw [if_neg (by
      simp only [real_lt, real_lit, Bool.or_false, decide_eq_true_eq]
      norm_num at h1 ⊢
      linarith)]
    have hl : (Dbl.log10 η : ℝ) = Real.logb 10 η := by simp [Real.logb]
    rw [hl, interpolate_polyline ht _ h2.1.le h2.2, Res.ok_bind, chi_polyline hg hs hV h3 h4.1 h4.2 v, Res.ok_bind]

/-- C147 applies to the classical spectrum: the values scale with `η²` from those at the first row. -/
theorem C147_classical_tables (hg : e.GoodTables) {x : ℝ × ℝ} (hx : continuousLoghChi e true 1 0 = .ok x) :
    ∃ x : ℝ → ℝ, ContinuousTables (Set.Ioi 0) (fun _ => 0.7193) (fun η v => x v * η ^ 2) ∧
      ∀ η ∈ Set.Ioi (0 : ℝ), ∀ v, 0 ≤ v → v < 1 → continuousLoghChi e true η v = .ok (0.7193, x v * η ^ 2) := by
  obtain ⟨V, hVm, ⟨B, hB⟩, hV⟩ := rows_curves hg
  have hn0 : 0 < e.hAxis.length := by have := hg.h.2.1; omega
  obtain ⟨η₀, hη₀⟩ : ∃ η₀, η₀ = Real.exp e.hAxis[0] := ⟨_, rfl⟩
  have hform : ∀ η v : ℝ, continuousLoghChi e true η v = (calculateChi e η₀ v >>= fun c =>
      .ok (0.7193, c * (η / η₀) * (η / η₀))) := by
    intro η v
    unfold continuousLoghChi
    rw [if_pos (by simp), rd_ok hn0, Res.ok_bind, hη₀]
    simp only [real_exp, real_lit, real_mul, real_div]
    norm_num
  rw [hform] at hx
  obtain ⟨c, hc, -⟩ := Res.bind_eq_ok.mp hx
  obtain ⟨⟨low, f⟩, hcp⟩ := (calculateChi_ok_iff hg η₀ 0).mp ⟨c, hc⟩
  have hlow : low + 1 < e.etaAxis.length := by
    rcases closestPoints_cases e.etaAxis (Dbl.log10 η₀) hg.eta.1 hg.eta.2 with ⟨l, g, h1, hlt⟩ | h1
    · rw [hcp] at h1
      obtain ⟨rfl, rfl⟩ := Prod.mk.inj (Res.ok.inj h1)
      omega
    · rw [hcp] at h1; cases h1
  have hval := fun v => chi_lookup hg hV hcp hlow v
  have hη0 : 0 < η₀ := by rw [hη₀]; exact Real.exp_pos _
  have hm : Measurable fun v => (10 : ℝ) ^ ((1 - f) * V low v + f * V (low + 1) v) / η₀ ^ 2 :=
    (Measurable.const_pow (((hVm low).const_mul _).add ((hVm (low + 1)).const_mul _)) _).div_const _
  refine ⟨fun v => 10 ^ ((1 - f) * V low v + f * V (low + 1) v) / η₀ ^ 2, ⟨isOpen_Ioi, fun η h => h, continuousOn_const,
    ?_, ?_, ?_, ?_⟩, ?_⟩
  · intro v _
    exact continuousOn_const.mul (continuousOn_id.pow 2)
  · intro η _
    exact hm.mul_const _
  · intro η hη v _
    have h : (0 : ℝ) < η := hη
    have := Real.rpow_pos_of_pos (show (0 : ℝ) < 10 by norm_num) ((1 - f) * V low v + f * V (low + 1) v)
    positivity
  · intro η hη
    have h : (0 : ℝ) < η := hη
    refine ⟨10 ^ (|1 - f| * B + |f| * B) / η₀ ^ 2 * (η + 1) ^ 2, ?_⟩
    filter_upwards [Ioo_mem_nhds h (show η < η + 1 by linarith)] with x hx v hv
    have b1 := hB low v ⟨hv.1, hv.2.le⟩
    have b2 := hB (low + 1) v ⟨hv.1, hv.2.le⟩
    have : (1 - f) * V low v + f * V (low + 1) v ≤ |1 - f| * B + |f| * B := by
      refine (le_abs_self _).trans ((abs_add_le _ _).trans ?_)
      rw [abs_mul, abs_mul]
      gcongr
    have hx0 : 0 < x := hx.1
    have hx1 : x ≤ η + 1 := hx.2.le
    gcongr
    norm_num
  · intro η hη v _ _
    rw [hform, hval v, Res.ok_bind]
    dsimp only
    generalize (10 : ℝ) ^ ((1 - f) * V low v + f * V (low + 1) v) = X
    have : X * (η / η₀) * (η / η₀) = X / η₀ ^ 2 * η ^ 2 := by field_simp
    rw [this]

end tables

/-- The photon of a lepton that is not at rest. -/
theorem radiated_eq {field : Field ℝ} {e : EmissionCfg ℝ} {chi : ℝ → ℝ → ℝ} {q : Particle ℝ} {m : ℝ}
    (h0 : q.momentum ≠ ⟨0, 0, 0⟩)
    (hη : calculateEta e.field q = etaOf m field q.time (q.position.toVec, q.momentum.toVec))
    (hγ : q.gamma = gammaOf m q.momentum.toVec) (v : ℝ) :
    (q.direction.norm.smul (photonEnergy e chi q v)).toVec =
      radiatedMomentum chi m field q.time (q.position.toVec, q.momentum.toVec) v ∧
    len (radiatedMomentum chi m field q.time (q.position.toVec, q.momentum.toVec) v) =
      |2 * chi (etaOf m field q.time (q.position.toVec, q.momentum.toVec)) v * gammaOf m q.momentum.toVec /
        etaOf m field q.time (q.position.toVec, q.momentum.toVec)| := by
  have hE : photonEnergy e chi q v = 2 * chi (etaOf m field q.time (q.position.toVec, q.momentum.toVec)) v *
      gammaOf m q.momentum.toVec / etaOf m field q.time (q.position.toVec, q.momentum.toVec) := by
    unfold photonEnergy
    rw [hη, hγ]
  have h1 : (q.direction.norm.smul (photonEnergy e chi q v)).toVec =
      radiatedMomentum chi m field q.time (q.position.toVec, q.momentum.toVec) v := by
    unfold radiatedMomentum Particle.direction
    dsimp only
    rw [V3.norm_norm h0, ← hE]
    have hl : len q.momentum.toVec = q.momentum.mag := by
      simp [len, V3.toVec, V3.mag, V3.dot, sq]
    rw [hl]
    generalize photonEnergy e chi q v = E
    ext i
    fin_cases i <;> simp [V3.toVec, V3.smul, V3.norm, V3.divs] <;> exact Or.inl (by ring)
  refine ⟨h1, ?_⟩
  rw [← h1, ← hE]
  unfold Particle.direction
  rw [V3.norm_norm h0]
  exact len_smul_unit h0 _

/-- What one step contributes. -/
theorem spectrum_step {field : Field ℝ} {e : EmissionCfg ℝ} {O : Set ℝ} {logh : ℝ → ℝ} {chi : ℝ → ℝ → ℝ}
    (ht : ContinuousTables O logh chi) {q : Particle ℝ} {m w : ℝ} (hw : 0 ≤ w) (hdt : 0 ≤ e.dt)
    (h0 : q.momentum ≠ ⟨0, 0, 0⟩)
    (hη : calculateEta e.field q = etaOf m field q.time (q.position.toVec, q.momentum.toVec))
    (hγ : q.gamma = gammaOf m q.momentum.toVec)
    (hO : etaOf m field q.time (q.position.toVec, q.momentum.toVec) ∈ O)
    {φ : (Fin 3 → ℝ) → ℝ} (hφ : Continuous φ) (hφ0 : ∀ k, 0 ≤ φ k) (hφE : ∀ k, k ≠ 0 → len k ≤ e.eMin → φ k = 0) :
    ENNReal.ofReal (w * emissionRate e logh q) *
      ∫⁻ v in Set.Ico (0 : ℝ) 1, indic (e.eMin < photonEnergy e chi q v) *
        ENNReal.ofReal (φ (q.direction.norm.smul (photonEnergy e chi q v)).toVec) =
    ENNReal.ofReal (w * (e.dt * spectralRate logh chi φ m field q.time (q.position.toVec, q.momentum.toVec))) := by
  obtain ⟨η, hη'⟩ : ∃ η, η = etaOf m field q.time (q.position.toVec, q.momentum.toVec) := ⟨_, rfl⟩
  obtain ⟨R, hR⟩ : ∃ R : ℝ → Fin 3 → ℝ,
    R = radiatedMomentum chi m field q.time (q.position.toVec, q.momentum.toVec) := ⟨_, rfl⟩
  have hη0 : 0 < η := by rw [hη']; exact ht.pos _ hO
  have hγ0 := gammaOf_pos m q.momentum.toVec
  have hpos : ∀ v ∈ Set.Ico (0 : ℝ) 1, 0 < 2 * chi η v * gammaOf m q.momentum.toVec / η := by
    intro v hv
    have := ht.sign _ hO v hv
    rw [← hη'] at this
    positivity
  have hlen : ∀ v ∈ Set.Ico (0 : ℝ) 1, len (R v) = 2 * chi η v * gammaOf m q.momentum.toVec / η := by
    intro v hv
    have := (radiated_eq (chi := chi) h0 hη hγ v).2
    rw [← hη', ← hR, abs_of_pos (hpos v hv)] at this
    exact this
  have e1 : ∀ v ∈ Set.Ico (0 : ℝ) 1, indic (e.eMin < photonEnergy e chi q v) *
      ENNReal.ofReal (φ (q.direction.norm.smul (photonEnergy e chi q v)).toVec) = ENNReal.ofReal (φ (R v)) := by
    intro v hv
    rw [(radiated_eq (chi := chi) h0 hη hγ v).1, ← hR]
    have hE : photonEnergy e chi q v = len (R v) := by
      rw [hlen v hv]
      unfold photonEnergy
      rw [hη, hγ, ← hη']
    unfold indic
    split
    · rw [one_mul]
    · rename_i hn
      rw [hE, not_lt] at hn
      have hne : R v ≠ 0 := by
        intro hz
        have := hpos v hv
        rw [← hlen v hv, hz] at this
        simp [len] at this
      rw [hφE _ hne hn]
      simp
  obtain ⟨B, hB⟩ := ht.bound _ hO
  have hB' := hB.self_of_nhds
  rw [← hη'] at hB'
  have hRm : Measurable R := by
    rw [hR]
    unfold radiatedMomentum
    refine measurable_pi_iff.2 fun i => ?_
    simp only [Pi.smul_apply, smul_eq_mul]
    exact ((((ht.measurable _ hO).const_mul 2).mul_const _).div_const _).mul_const _
  obtain ⟨C, hC⟩ := (isCompact_closedBall (0 : Fin 3 → ℝ)
    (2 * B * gammaOf m q.momentum.toVec / η)).exists_bound_of_continuousOn hφ.continuousOn
  have hint : IntegrableOn (fun v => φ (R v)) (Set.Ico (0 : ℝ) 1) := by
    refine Measure.integrableOn_of_bounded (M := C) (by simp) (hφ.measurable.comp hRm).aestronglyMeasurable ?_
    refine (ae_restrict_iff' measurableSet_Ico).2 (ae_of_all _ fun v hv => hC _ ?_)
    rw [mem_closedBall_zero_iff]
    refine (norm_le_len _).trans ?_
    rw [hlen v hv]
    have := hB' v hv
    gcongr
  rw [setLIntegral_congr_fun measurableSet_Ico e1,
    ← ofReal_integral_eq_lintegral_ofReal hint (ae_of_all _ fun v => hφ0 _)]
  have hα := alpha_pos
  have hπ : (0 : ℝ) < Units.pi := by norm_num [Units.pi]
  rw [← ENNReal.ofReal_mul (by
    unfold emissionRate
    rw [hη, hγ, ← hη']
    positivity)]
  congr 1
  unfold spectralRate emissionRate
  rw [hη, hγ, ← hη', ← hR]
  dsimp only
  ring

/-- The states of the runs: near the path from some number of steps on, and there the code finds what the theory says. -/
theorem spectrum_path {push : PushMom ℝ} {field : Field ℝ} {U : Set (ℝ × (Fin 3 → ℝ))} (hU : IsOpen U)
    (hf : FieldC4 field U) (p : Particle ℝ) (hk : p.kind ≠ .photon) (hm : 0 < p.mass)
    {T : ℝ} (hT : 0 < T) {y : ℝ → Phase} (hyc : ContinuousOn y (Set.Icc p.time (p.time + T)))
    (hy : FourthOrder push field p T y)
    (hmem : ∀ t ∈ Set.Icc p.time (p.time + T), (t, (y t).1) ∈ U ∧ (y t).2 ≠ 0)
    {O : Set ℝ} {logh : ℝ → ℝ} {chi : ℝ → ℝ → ℝ} (ht : ContinuousTables O logh chi)
    (hη : ∀ t ∈ Set.Icc p.time (p.time + T), etaOf p.mass field t (y t) ∈ O)
    {φ : (Fin 3 → ℝ) → ℝ} (hφ : Continuous φ)
    (cfg : Nat → SimCfg ℝ) (h1 : ∀ n, (cfg n).push = push) (h2 : ∀ n, (cfg n).field = field)
    (h3 : ∀ n : Nat, (cfg n).dt = T / (n + 1)) :
    ∃ (z : Nat → Nat → ℝ × Phase) (M : Nat),
      (∀ n k, z n k = ((pushes (cfg n) p (k + 1)).time,
        ((pushes (cfg n) p (k + 1)).position.toVec, (pushes (cfg n) p (k + 1)).momentum.toVec))) ∧
      (∀ n ≥ M, ∀ k < n + 1, etaOf p.mass field (z n k).1 (z n k).2 ∈ O ∧
        (pushes (cfg n) p (k + 1)).momentum ≠ ⟨0, 0, 0⟩ ∧
        calculateEta field (pushes (cfg n) p (k + 1)) = etaOf p.mass field (z n k).1 (z n k).2 ∧
        (pushes (cfg n) p (k + 1)).gamma = gammaOf p.mass (z n k).2.2) ∧
      ContinuousOn (fun t => spectralRate logh chi φ p.mass field t (y t)) (Set.Icc p.time (p.time + T)) ∧
      ∀ ε > 0, ∃ K, ∀ n ≥ K, ∀ k < n + 1, |spectralRate logh chi φ p.mass field (z n k).1 (z n k).2 -
        spectralRate logh chi φ p.mass field (p.time + ((k + 1 : Nat) : ℝ) * (T / (n + 1)))
          (y (p.time + ((k + 1 : Nat) : ℝ) * (T / (n + 1))))| ≤ ε := by
  have hT0 : 0 ≤ T := hT.le
  obtain ⟨c, hc⟩ : ∃ c : ℝ → ℝ × Phase, c = fun t => (t, y t) := ⟨_, rfl⟩
  have hcc : ContinuousOn c (Set.Icc p.time (p.time + T)) := by
    rw [hc]; exact continuousOn_id.prodMk hyc
  obtain ⟨q, hq⟩ : ∃ q : Nat → Nat → Particle ℝ,
      q = fun (n k : Nat) => (pushParticle push field (T / (n + 1)))^[k + 1] p := ⟨_, rfl⟩
  obtain ⟨z, hz⟩ : ∃ z : Nat → Nat → ℝ × Phase,
      z = fun n k => ((q n k).time, ((q n k).position.toVec, (q n k).momentum.toVec)) := ⟨_, rfl⟩
  have hpush : ∀ n k, pushes (cfg n) p (k + 1) = q n k := by
    intro n k
    rw [hq]; unfold pushes; rw [h1, h2, h3]
  have hqk : ∀ n k, (q n k).kind ≠ .photon ∧ (q n k).mass = p.mass := by
    intro n k
    obtain ⟨g1, g2, _⟩ := pushes_identity (cfg n) p (k + 1)
    rw [hpush] at g1 g2
    exact ⟨by rw [g1]; exact hk, g2⟩
  have hclose : ∀ δ > 0, ∃ N, ∀ n ≥ N, ∀ k < n + 1,
      dist (z n k) (c (p.time + ((k + 1 : Nat) : ℝ) * (T / (n + 1)))) < δ := by
    intro δ hδ
    obtain ⟨C, δ₁, hδ₁, hC⟩ := hy
    have hlim : Tendsto (fun n : Nat => |C| * (T / ((n : ℝ) + 1)) ^ 4) atTop (𝓝 0) := by
      have h1 : Tendsto (fun n : Nat => T / ((n : ℝ) + 1)) atTop (𝓝 0) := by
        have := (tendsto_one_div_add_atTop_nhds_zero_nat (𝕜 := ℝ)).const_mul T
        simpa [div_eq_mul_inv] using this
      have := (h1.pow 4).const_mul |C|
      simpa using this
    have hlim1 : Tendsto (fun n : Nat => T / ((n : ℝ) + 1)) atTop (𝓝 0) := by
      have := (tendsto_one_div_add_atTop_nhds_zero_nat (𝕜 := ℝ)).const_mul T
      simpa [div_eq_mul_inv] using this
    obtain ⟨N, hN⟩ := eventually_atTop.1 ((hlim.eventually_lt_const hδ).and (hlim1.eventually_lt_const hδ₁))
    refine ⟨N, fun n hn k hkn => ?_⟩
    have hpos : (0:ℝ) < n + 1 := by positivity
    obtain ⟨hstep, hsmall⟩ := hN n hn
    have hin := (on_grid (a := p.time) hT n k hkn).2
    obtain ⟨h1, h2⟩ := hC (T / (n + 1)) (div_nonneg hT0 hpos.le) hsmall.le (k + 1) (by linarith)
    have hq' : (pushParticle push field (T / (n + 1)))^[k + 1] p = q n k := by rw [hq]
    rw [hq'] at h1 h2
    have hle : C * (T / (n + 1)) ^ 4 ≤ |C| * (T / (n + 1)) ^ 4 :=
      mul_le_mul_of_nonneg_right (le_abs_self C) (by positivity)
    rw [hz, hc]
    dsimp only
    rw [h1] at h2 ⊢
    simp only [Prod.dist_eq, dist_self]
    refine max_lt hδ (max_lt ?_ ?_)
    · refine lt_of_le_of_lt ((dist_pi_le_iff (by positivity)).mpr fun i => ?_) hstep
      rw [Real.dist_eq]
      exact ((h2 i).1).trans hle
    · refine lt_of_le_of_lt ((dist_pi_le_iff (by positivity)).mpr fun i => ?_) hstep
      rw [Real.dist_eq]
      exact ((h2 i).2).trans hle
  -- near the path the code is inside the tables and the momentum does not vanish
  obtain ⟨W, hW⟩ : ∃ W : Set (ℝ × Phase), W = {w | (w.1, w.2.1) ∈ U} ∩ {w | w.2.2 ≠ 0} := ⟨_, rfl⟩
  have hWo : IsOpen W := by
    rw [hW]
    exact (hU.preimage (by fun_prop)).inter (isOpen_ne.preimage (continuous_snd.comp continuous_snd))
  obtain ⟨V, hV⟩ : ∃ V : Set (ℝ × Phase), V = W ∩ (fun w : ℝ × Phase => etaOf p.mass field w.1 w.2) ⁻¹' O := ⟨_, rfl⟩
  have hVo : IsOpen V := by
    rw [hV]
    refine ContinuousOn.isOpen_inter_preimage (fun w hw => ?_) hWo ht.opens
    rw [hW] at hw
    exact (hf.eta_at hU p.mass hw.1).continuousWithinAt
  have hcV : c '' Set.Icc p.time (p.time + T) ⊆ V := by
    rintro _ ⟨t, htt, rfl⟩
    rw [hV, hW, hc]
    exact ⟨hmem t htt, hη t htt⟩
  obtain ⟨δ, hδ0, hδ⟩ := (isCompact_Icc.image_of_continuousOn hcc).exists_thickening_subset_open hVo hcV
  obtain ⟨M, hM⟩ := hclose δ hδ0
  have hzV : ∀ n ≥ M, ∀ k < n + 1, z n k ∈ V := by
    intro n hn k hkn
    refine hδ ?_
    rw [Metric.mem_thickening_iff]
    exact ⟨_, ⟨_, on_grid hT n k hkn, rfl⟩, hM n hn k hkn⟩
  -- the sum
  have hrate : ∀ t ∈ Set.Icc p.time (p.time + T),
      ContinuousAt (fun w : ℝ × Phase => spectralRate logh chi φ p.mass field w.1 w.2) (c t) := by
    intro t htt
    rw [hc]
    exact spectralRate_continuousAt ht hφ p.mass hf hU (hmem t htt).1 (hmem t htt).2 (hη t htt)
  have hfc : ContinuousOn (fun t => spectralRate logh chi φ p.mass field t (y t)) (Set.Icc p.time (p.time + T)) := by
    intro t htt
    have := (hrate t htt).comp_continuousWithinAt (hcc t htt)
    rw [hc] at this
    exact this
  refine ⟨z, M, fun n k => by rw [hz, hpush], fun n hn k hkn => ?_, hfc, ?_⟩
  · obtain ⟨g1, g2⟩ := hqk n k
    have hv := hzV n hn k hkn
    rw [hV] at hv
    refine ⟨hv.2, ?_⟩
    rw [hW] at hv
    have hmom : (q n k).momentum.toVec ≠ 0 := by
      have := hv.1.2
      rw [hz] at this
      exact this
    obtain ⟨a1, a2⟩ := eta_of_lepton field (q n k) g1 (by rw [g2]; exact hm) hmom
    rw [hpush, hz]
    rw [g2] at a1 a2
    refine ⟨fun h0 => hmom ?_, a1, a2⟩
    rw [h0]
    ext i
    fin_cases i <;> rfl
  · intro ε hε
    obtain ⟨δ', h0, h'⟩ := near_path hcc hrate hε
    obtain ⟨K, hK⟩ := hclose δ' h0
    refine ⟨K, fun n hn k hkn => ?_⟩
    have := (h' _ (on_grid hT n k hkn) _ (hK n hn k hkn)).le
    rw [hc] at this
    exact this

theorem spectralRate_nonneg {logh : ℝ → ℝ} {chi : ℝ → ℝ → ℝ} {φ : (Fin 3 → ℝ) → ℝ} {m t : ℝ} {field : Field ℝ} {z : Phase}
    (hφ0 : ∀ k, 0 ≤ φ k) (h0 : 0 < etaOf m field t z) : 0 ≤ spectralRate logh chi φ m field t z := by
  have hα := alpha_pos
  have hπ : (0 : ℝ) < Units.pi := by norm_num [Units.pi]
  have hg := gammaOf_pos m z.2
  have hI : 0 ≤ ∫ v in Set.Ico (0 : ℝ) 1, φ (radiatedMomentum chi m field t z v) := integral_nonneg fun v => hφ0 _
  unfold spectralRate
  positivity

/-- C147: the mean, over the draws, of the weighted sum of `φ` over the photons goes to the integral along the true
path of what the lepton radiates of it, as the time step goes to zero. -/
theorem C147_spectrum {push : PushMom ℝ} {field : Field ℝ} {U : Set (ℝ × (Fin 3 → ℝ))} (hU : IsOpen U)
    (hf : FieldC4 field U) (p : Particle ℝ) (hk : p.kind ≠ .photon) (hm : 0 < p.mass) (ha : p.isAlive = true)
    (hw : 0 ≤ p.weight) {T : ℝ} (hT : 0 < T) {y : ℝ → Phase} (hyc : ContinuousOn y (Set.Icc p.time (p.time + T)))
    (hy : FourthOrder push field p T y)
    (hmem : ∀ t ∈ Set.Icc p.time (p.time + T), (t, (y t).1) ∈ U ∧ (y t).2 ≠ 0)
    {O : Set ℝ} {logh : ℝ → ℝ} {chi : ℝ → ℝ → ℝ} (ht : ContinuousTables O logh chi)
    (hη : ∀ t ∈ Set.Icc p.time (p.time + T), etaOf p.mass field t (y t) ∈ O)
    {eMin : ℝ} {φ : (Fin 3 → ℝ) → ℝ} (hφ : Continuous φ) (hφ0 : ∀ k, 0 ≤ φ k)
    (hφE : ∀ k, k ≠ 0 → len k ≤ eMin → φ k = 0)
    (cfg : Nat → SimCfg ℝ) (hcfg : ∀ n, SpectrumRun push field O logh chi eMin T n (cfg n)) (nm : String)
    (mx N : Nat → Nat) (hmx : ∀ n, n + 1 < mx n) (hN : ∀ n, 3 * (n + 1) < N n) (F : Nat → List ℝ → ENNReal)
    (hF : ∀ n us t, Steps (cfg n) (lonely p nm (mx n) us) (n + 1) t →
      F n us = ((photonsIn t).map fun x => ENNReal.ofReal x.weight * ENNReal.ofReal (φ x.momentum.toVec)).sum) :
    Tendsto (fun n => average (N n) (F n)) atTop
      (𝓝 (ENNReal.ofReal (p.weight *
        ∫ t in p.time..p.time + T, spectralRate logh chi φ p.mass field t (y t)))) := by
  obtain ⟨z, M, hz, hat, hfc, hclose⟩ := spectrum_path hU hf p hk hm hT hyc hy hmem ht hη hφ cfg
    (fun n => (hcfg n).push) (fun n => (hcfg n).same) (fun n => (hcfg n).step)
  have hsum := sum_to_integral hT.le hfc
    (v := fun n k => spectralRate logh chi φ p.mass field (z n k).1 (z n k).2) hclose
  have hlim := ENNReal.continuous_ofReal.continuousAt.tendsto.comp (hsum.const_mul p.weight)
  refine hlim.congr' ?_
  filter_upwards [eventually_ge_atTop M] with n hn
  obtain ⟨e, cl, h1, h2, h3, h4, h5, h6, h7⟩ := (hcfg n).procs
  rw [C125_unbiased_partial (logh := logh) (chi := chi) h1 (fun k hkn v hv0 hv1 => by
      obtain ⟨b1, -, b2, -⟩ := hat n hn k hkn
      rw [h2, b2]
      exact h7 _ b1 v hv0 hv1) hm.ne' ha h5 h6 (hmx n) (by
      rw [(hcfg n).step]; exact before_end hT (hcfg n).time n) (hN n) (F n)
      (fun x => ENNReal.ofReal (φ x.toVec)) (hF n)]
  simp only [Function.comp]
  rw [Finset.mul_sum, ENNReal.ofReal_sum_of_nonneg]
  · refine Finset.sum_congr rfl fun k hkn => ?_
    have hkn := Finset.mem_range.1 hkn
    obtain ⟨hO, b2, b3, b4⟩ := hat n hn k hkn
    rw [← h4] at hφE
    replace b3 := (congrArg (fun f => calculateEta f (pushes (cfg n) p (k + 1))) h2).trans b3
    rw [hz] at b3 b4 hO ⊢
    rw [spectrum_step ht hw (by rw [h3]; positivity) b2 b3 b4 hO hφ hφ0 hφE, h3]
  · intro k hkn
    obtain ⟨b1, -⟩ := hat n hn k (Finset.mem_range.1 hkn)
    have := spectralRate_nonneg (logh := logh) (chi := chi) (field := field) (m := p.mass) hφ0 (ht.pos _ b1)
    positivity

/-- C147 is false of a list whose size is fixed: with the sample fraction 1 each step stores a photon, and the more
steps there are the less of the path the photons in the list stand for. In the limit nothing is left. -/
theorem C147_capacity_refuted {push : PushMom ℝ} {field : Field ℝ} {U : Set (ℝ × (Fin 3 → ℝ))} (hU : IsOpen U)
    (hf : FieldC4 field U) (p : Particle ℝ) (hk : p.kind ≠ .photon) (hm : 0 < p.mass) (ha : p.isAlive = true)
    (hw : 0 ≤ p.weight) {T : ℝ} (hT : 0 < T) {y : ℝ → Phase} (hyc : ContinuousOn y (Set.Icc p.time (p.time + T)))
    (hy : FourthOrder push field p T y)
    (hmem : ∀ t ∈ Set.Icc p.time (p.time + T), (t, (y t).1) ∈ U ∧ (y t).2 ≠ 0)
    {O : Set ℝ} {logh : ℝ → ℝ} {chi : ℝ → ℝ → ℝ} (ht : ContinuousTables O logh chi)
    (hη : ∀ t ∈ Set.Icc p.time (p.time + T), etaOf p.mass field t (y t) ∈ O)
    {φ : (Fin 3 → ℝ) → ℝ} (hφ : Continuous φ) (hφ0 : ∀ k, 0 ≤ φ k)
    (cfg : Nat → SimCfg ℝ) (hcfg : ∀ n, SpectrumRun push field O logh chi 0 T n (cfg n))
    (hall : ∀ n e c, (cfg n).procs = [.continuous e c] → e.sampleFrac = 1) (nm : String)
    {mx : Nat} (hmx : 0 < mx) (N : Nat → Nat) (hN : ∀ n, 3 * (n + 1) < N n) (F : Nat → List ℝ → ENNReal)
    (hF : ∀ n us t, Steps (cfg n) (lonely p nm mx us) (n + 1) t →
      F n us = ((photonsIn t).map fun x => ENNReal.ofReal x.weight * ENNReal.ofReal (φ x.momentum.toVec)).sum) :
    Tendsto (fun n => average (N n) (F n)) atTop (𝓝 0) := by
  obtain ⟨z, M, hz, hat, hfc, hclose⟩ := spectrum_path hU hf p hk hm hT hyc hy hmem ht hη hφ cfg
    (fun n => (hcfg n).push) (fun n => (hcfg n).same) (fun n => (hcfg n).step)
  obtain ⟨C, hC⟩ := isCompact_Icc.exists_bound_of_continuousOn hfc
  obtain ⟨K, hK⟩ := hclose 1 one_pos
  have hlim : Tendsto (fun n : Nat => ((mx - 1 : Nat) : ENNReal) *
      ENNReal.ofReal (p.weight * (T / ((n : ℝ) + 1) * (C + 1)))) atTop (𝓝 0) := by
    have h1 : Tendsto (fun n : Nat => p.weight * (T / ((n : ℝ) + 1) * (C + 1))) atTop (𝓝 0) := by
      have h1 : Tendsto (fun n : Nat => T / ((n : ℝ) + 1)) atTop (𝓝 0) := by
        have := (tendsto_one_div_add_atTop_nhds_zero_nat (𝕜 := ℝ)).const_mul T
        simpa [div_eq_mul_inv] using this
      have := (h1.mul_const (C + 1)).const_mul p.weight
      simpa using this
    have h2 := ENNReal.continuous_ofReal.continuousAt.tendsto.comp h1
    have := ENNReal.Tendsto.const_mul (a := ((mx - 1 : Nat) : ENNReal)) h2 (Or.inr (ENNReal.natCast_ne_top _))
    simpa using this
  refine tendsto_of_tendsto_of_tendsto_of_le_of_le' tendsto_const_nhds hlim (Eventually.of_forall fun n => zero_le) ?_
  filter_upwards [eventually_ge_atTop M, eventually_ge_atTop K, eventually_ge_atTop mx] with n hn hnK hnm
  obtain ⟨e, cl, h1, h2, h3, h4, h5, h6, h7⟩ := (hcfg n).procs
  have habove : AboveThreshold (cfg n) e chi p (n + 1) := by
    intro k hkn v hv0 hv1
    obtain ⟨b1, b2, b3, b4⟩ := hat n hn k hkn
    have hg := gammaOf_pos p.mass (z n k).2.2
    have h0 := ht.pos _ b1
    have hc := ht.sign _ b1 v ⟨hv0, hv1⟩
    unfold photonEnergy
    rw [h2, b3, b4, h4]
    positivity
  have hz0 : ∀ k, k ≠ 0 → len k ≤ e.eMin → φ k = 0 := by
    intro k hk0 hle
    rw [h4] at hle
    exact absurd (le_antisymm hle (len_nonneg' k)) (len_ne hk0)
  rw [C125_capacity_refuted (logh := logh) (chi := chi) h1 (fun k hkn v hv0 hv1 => by
      obtain ⟨b1, -, b2, -⟩ := hat n hn k hkn
      rw [h2, b2]
      exact h7 _ b1 v hv0 hv1) habove hm.ne' ha (hall n e cl h1) hmx (by omega) (by
      rw [(hcfg n).step]; exact before_end hT (hcfg n).time n) (hN n) (F n)
      (fun x => ENNReal.ofReal (φ x.toVec)) (hF n)]
  refine (Finset.sum_le_card_nsmul _ _ (ENNReal.ofReal (p.weight * (T / ((n : ℝ) + 1) * (C + 1)))) ?_).trans
    (by rw [Finset.card_range, nsmul_eq_mul])
  intro k hk'
  have hkn : k < n + 1 := by have := Finset.mem_range.1 hk'; omega
  obtain ⟨hO, b2, b3, b4⟩ := hat n hn k hkn
  have hb := hK n hnK k hkn
  have hb2 := hC _ (on_grid hT n k hkn)
  replace b3 := (congrArg (fun f => calculateEta f (pushes (cfg n) p (k + 1))) h2).trans b3
  rw [hz] at b3 b4 hO hb
  have hone : ∀ v ∈ Set.Ico (0 : ℝ) 1,
      ENNReal.ofReal (φ ((pushes (cfg n) p (k + 1)).direction.norm.smul
        (photonEnergy e chi (pushes (cfg n) p (k + 1)) v)).toVec) =
      indic (e.eMin < photonEnergy e chi (pushes (cfg n) p (k + 1)) v) *
        ENNReal.ofReal (φ ((pushes (cfg n) p (k + 1)).direction.norm.smul
          (photonEnergy e chi (pushes (cfg n) p (k + 1)) v)).toVec) := by
    intro v hv
    unfold indic
    rw [if_pos (habove k hkn v hv.1 hv.2), one_mul]
  rw [setLIntegral_congr_fun measurableSet_Ico hone,
    spectrum_step ht hw (by rw [h3]; positivity) b2 b3 b4 hO hφ hφ0 hz0, h3]
  refine ENNReal.ofReal_le_ofReal ?_
  have := (abs_le.1 hb).2
  have h' := (abs_le.1 hb2).2
  gcongr
  linarith

/-! ## The hypotheses are satisfiable -/

namespace Witness

/-- An electron that is slowed by the radiation reaction while a unit field accelerates it, for a unit of time in `n + 1`
steps. -/
noncomputable def limitCfg (f : ℝ) (n : Nat) : SimCfg ℝ :=
  ⟨landauForce, OrderWitness.field, 1 / (n + 1), 1,
    [.continuous { sampleCfg f with field := OrderWitness.field, dt := 1 / (n + 1) } true]⟩

/-- Its path. -/
noncomputable def limitPath : ℝ → Phase := OrderWitness.track (1 - 2 / 3 * (Units.alpha : ℝ) * (fun _ : ℝ => (1 : ℝ)) 1)

theorem limit_rate : (0 : ℝ) < 1 - 2 / 3 * (Units.alpha : ℝ) * (fun _ : ℝ => (1 : ℝ)) 1 := by
  rw [OrderWitness.alpha_eq]
  norm_num

theorem limit_deriv (s : ℝ) (hs : 0 ≤ s) (S : Set ℝ) : HasDerivWithinAt limitPath
    (motion 1 (reactionForce (fun _ => 1) 1 (-1) OrderWitness.field) s (limitPath s)) S s :=
  OrderWitness.track_deriv limit_rate (OrderWitness.reaction_one _) s hs S

theorem limit_ne (s : ℝ) (hs : 0 ≤ s) : (limitPath s).2 ≠ 0 := by
  intro h
  have := congrFun h 2
  simp only [limitPath, OrderWitness.track, Matrix.cons_val, Pi.zero_apply] at this
  nlinarith [mul_nonneg limit_rate.le hs]

theorem limit_eta (s : ℝ) : etaOf 1 OrderWitness.field s (limitPath s) = 1 := by
  have hE : electric OrderWitness.field s (limitPath s).1 = ![0, 0, -1] := rfl
  have hB : magnetic OrderWitness.field s (limitPath s).1 = ![0, 0, 0] := rfl
  unfold etaOf
  rw [hE, hB, quantumParameter_eq]
  simp only [V3.ofVec, limitPath, OrderWitness.track, gammaOf]
  norm_num
  simp only [Matrix.cons_val]
  rw [mul_pow, Real.sq_sqrt (by positivity)]
  norm_num
  ring

theorem limit_lookup (f : ℝ) (n : Nat) (η v : ℝ) (h0 : 0 ≤ v) (h1 : v < 1) :
    continuousLoghChi { sampleCfg f with field := OrderWitness.field, dt := 1 / (n + 1) } true η v =
      .ok (0.7193, 1 / 4 * η ^ 2) := by
  have hchi : calculateChi { sampleCfg f with field := OrderWitness.field, dt := 1 / ((n : ℝ) + 1) } 1 v = .ok (1 / 4) :=
    chi_const (1 / 4) f 0 v (by norm_num) h0 h1
  have hr : rd (sampleCfg f).hAxis 0 = .ok 0 := rfl
  unfold continuousLoghChi
  rw [if_pos (by simp), hr, Res.ok_bind]
  simp only [real_exp, Real.exp_zero]
  rw [hchi, Res.ok_bind]
  simp only [real_lit, real_mul, real_div, div_one]
  norm_num
  ring

theorem limit_tables : ContinuousTables (Set.Ioi 0) (fun _ => 0.7193) (fun η _ => 1 / 4 * η ^ 2) where
  opens := isOpen_Ioi
  pos := fun η h => h
  rate := continuousOn_const
  photon := fun v _ => by fun_prop
  measurable := fun η _ => measurable_const
  sign := fun η h v _ => by
    have : (0 : ℝ) < η := h
    positivity
  bound := fun η h => by
    refine ⟨1 / 4 * (η + 1) ^ 2, ?_⟩
    filter_upwards [Ioo_mem_nhds (show (0 : ℝ) < η from h) (show η < η + 1 by linarith)] with x hx v _
    have hx0 : 0 < x := hx.1
    have hx1 : x ≤ η + 1 := hx.2.le
    gcongr

theorem limit_run (f : ℝ) (h0 : 0 < f) (h1 : f ≤ 1) (n : Nat) : SpectrumRun landauForce OrderWitness.field (Set.Ioi 0)
    (fun _ => 0.7193) (fun η _ => 1 / 4 * η ^ 2) 0 1 n (limitCfg f n) where
  push := rfl
  same := rfl
  step := rfl
  time := le_rfl
  procs := ⟨_, _, rfl, rfl, rfl, rfl, h0, h1, fun η _ v a b => limit_lookup f n η v a b⟩

/-- The observable: the energy. -/
theorem limit_energy (s : ℝ) (hs : 0 ≤ s) : spectralRate (fun _ => 0.7193) (fun η _ => 1 / 4 * η ^ 2) len 1
    OrderWitness.field s (limitPath s) = √3 * Units.alpha * (10 : ℝ) ^ (0.7193 : ℝ) / (4 * Units.pi) := by
  have hg := gammaOf_pos 1 (limitPath s).2
  have hπ : (0 : ℝ) < Units.pi := by norm_num [Units.pi]
  have hl := len_ne (limit_ne s hs)
  have hlen : ∀ v, len (radiatedMomentum (fun η _ => 1 / 4 * η ^ 2) 1 OrderWitness.field s (limitPath s) v) =
      gammaOf 1 (limitPath s).2 / 2 := by
    intro v
    unfold radiatedMomentum
    rw [limit_eta]
    have h2 : ∀ (a : ℝ) (u : Fin 3 → ℝ), len (a • u) = |a| * len u := by
      intro a u
      simp only [len, Pi.smul_apply, smul_eq_mul]
      rw [← Real.sqrt_sq_eq_abs, ← Real.sqrt_mul (sq_nonneg a)]
      congr 1
      ring
    rw [h2, h2, abs_inv, abs_of_nonneg (len_nonneg' _), inv_mul_cancel₀ hl, abs_of_pos (by positivity)]
    ring
  unfold spectralRate
  simp only [hlen, limit_eta]
  simp
  field_simp
  ring

end Witness

open Witness Classical in
/-- The energy radiated by that electron, with a list that is long enough and with a list of ten. -/
example (f : ℝ) (h0 : 0 < f) (h1 : f ≤ 1) (long : Bool) (hl : long = false → f = 1) : ∃ F : Nat → List ℝ → ENNReal,
    (∀ n us t, Steps (limitCfg f n) (lonely OrderWitness.electron "0" (if long then n + 2 else 10) us) (n + 1) t →
      F n us = ((photonsIn t).map fun x => ENNReal.ofReal x.weight * ENNReal.ofReal (len x.momentum.toVec)).sum) ∧
    Tendsto (fun n => average (3 * (n + 1) + 1) (F n)) atTop (𝓝 (if long then
      ENNReal.ofReal (√3 * Units.alpha * (10 : ℝ) ^ (0.7193 : ℝ) / (4 * Units.pi)) else 0)) := by
  have hm : OrderWitness.electron.mass = 1 := rfl
  have hk : OrderWitness.electron.kind ≠ .photon := by
    have h : (OrderWitness.electron : Particle ℝ).kind = .electron := by
      simp [OrderWitness.electron, Particle.newLepton, Particle.new, Particle.leptonKind]
    rw [h]
    simp
  have ht : OrderWitness.electron.time = 0 := rfl
  have hw : OrderWitness.electron.weight = 1 := rfl
  have hc : ContinuousOn limitPath (Set.Icc OrderWitness.electron.time (OrderWitness.electron.time + 1)) := by
    intro s hs
    rw [ht] at hs
    exact (limit_deriv s hs.1 _).continuousWithinAt
  have hne : ∀ s ∈ Set.Icc OrderWitness.electron.time (OrderWitness.electron.time + 1),
      (s, (limitPath s).1) ∈ (Set.univ : Set (ℝ × (Fin 3 → ℝ))) ∧ (limitPath s).2 ≠ 0 := by
    intro s hs
    rw [ht] at hs
    exact ⟨Set.mem_univ _, limit_ne s hs.1⟩
  have hfo : FourthOrder landauForce OrderWitness.field OrderWitness.electron 1 limitPath :=
    C121_landau isOpen_univ (C121_static _ _) OrderWitness.electron rfl (by rw [hm]; norm_num)
      (OrderWitness.track_start _) (fun s hs => limit_deriv s (by rw [ht] at hs; exact hs.1) _) hne
  have hη : ∀ s ∈ Set.Icc OrderWitness.electron.time (OrderWitness.electron.time + 1),
      etaOf OrderWitness.electron.mass OrderWitness.field s (limitPath s) ∈ Set.Ioi (0 : ℝ) := by
    intro s _
    rw [hm, limit_eta]
    exact (one_pos : (0 : ℝ) < 1)
  have hF : ∀ (mx n : Nat) us t, Steps (limitCfg f n) (lonely OrderWitness.electron "0" mx us) (n + 1) t →
      (if h : ∃ t, Steps (limitCfg f n) (lonely OrderWitness.electron "0" mx us) (n + 1) t then
        ((photonsIn h.choose).map fun x => ENNReal.ofReal x.weight * ENNReal.ofReal (len x.momentum.toVec)).sum else 0) =
      ((photonsIn t).map fun x => ENNReal.ofReal x.weight * ENNReal.ofReal (len x.momentum.toVec)).sum := by
    intro mx n us t ht
    rw [dif_pos ⟨t, ht⟩, steps_det (Exists.choose_spec (⟨t, ht⟩ : ∃ t, Steps _ _ _ t)) ht]
  refine ⟨_, fun n => hF (if long then n + 2 else 10) n, ?_⟩
  cases long with
  | true =>
    have key := C147_spectrum (field := OrderWitness.field) (F := fun n us => _) isOpen_univ (C121_static _ _) OrderWitness.electron hk
      (by rw [hm]; norm_num) rfl (by rw [hw]; norm_num) one_pos hc hfo hne limit_tables hη continuous_len len_nonneg'
      (fun k hk h => absurd (le_antisymm h (len_nonneg' k)) (len_ne hk)) (limitCfg f) (limit_run f h0 h1) "0"
      (fun n => n + 2) (fun n => 3 * (n + 1) + 1) (fun n => by omega) (fun n => by omega) (hF := fun n => hF (n + 2) n)
    rw [hw, one_mul, hm, ht] at key
    have hI : ∫ s in (0 : ℝ)..0 + 1, spectralRate (fun _ => 0.7193) (fun η _ => 1 / 4 * η ^ 2) len 1 OrderWitness.field s
        (limitPath s) = √3 * Units.alpha * (10 : ℝ) ^ (0.7193 : ℝ) / (4 * Units.pi) := by
      rw [intervalIntegral.integral_congr (g := fun _ => √3 * Units.alpha * (10 : ℝ) ^ (0.7193 : ℝ) / (4 * Units.pi))
        (fun s hs => limit_energy s (by rw [Set.uIcc_of_le (by norm_num)] at hs; exact hs.1))]
      simp
    rw [hI] at key
    exact key
  | false =>
    exact C147_capacity_refuted (F := fun n us => _) isOpen_univ (C121_static _ _) OrderWitness.electron hk
      (by rw [hm]; norm_num) rfl (by rw [hw]; norm_num) one_pos hc hfo hne limit_tables hη continuous_len len_nonneg'
      (limitCfg f) (limit_run f h0 h1) (fun n e c h => by
        have : e = _ := (Proc.continuous.inj (List.cons.inj h).1).1.symm
        rw [this]
        exact hl rfl) "0"
      (mx := 10) (by norm_num) (fun n => 3 * (n + 1) + 1) (fun n => by omega) (hF := fun n => hF 10 n)

/-- Tables that meet the hypotheses of `C147_quantum_tables` and `C147_classical_tables`. -/
example : (Witness.sampleCfg 1).GoodTables ∧ (Witness.sampleCfg 1).hAxis.Pairwise (· < ·) ∧
    (Witness.sampleCfg 1).etaAxis.Pairwise (· < ·) ∧ 3 ≤ (Witness.sampleCfg 1).etaAxis.length ∧
    (10 : ℝ) ^ (1 / 2 : ℝ) ∈ insideTables (Witness.sampleCfg 1) ∧
    ∃ x, continuousLoghChi (Witness.sampleCfg 1) true 1 0 = .ok x := by
  have hl : Real.logb 10 ((10 : ℝ) ^ (1 / 2 : ℝ)) = 1 / 2 := Real.logb_rpow (by norm_num) (by norm_num)
  refine ⟨⟨⟨rfl, le_rfl, by norm_num [Witness.sampleCfg, Witness.emCfg]⟩, ⟨by simp [Witness.sampleCfg, Witness.emCfg], by norm_num [Witness.sampleCfg, Witness.emCfg]⟩,
    ⟨rfl, rfl⟩, ?_⟩, ?_, ?_, le_rfl, ⟨?_, ⟨?_, ?_⟩, ?_⟩, (0.7193, 1 / 4 * 1 ^ 2), Witness.limit_lookup 1 0 1 0 le_rfl one_pos⟩
  · intro i t c h1 h2
    simp only [Witness.sampleCfg, Witness.emCfg] at h1 h2
    rcases i with _ | _ | _ | i
    all_goals first
      | (simp only [List.getElem?_cons_zero, List.getElem?_cons_succ, Option.some.injEq] at h1 h2
         subst h1 h2
         exact ⟨rfl, le_rfl, by norm_num⟩)
      | simp at h1
  · simp [Witness.sampleCfg, Witness.emCfg]
  · norm_num [Witness.sampleCfg, Witness.emCfg]
  · have : (1 : ℝ) ≤ 10 ^ (1 / 2 : ℝ) := Real.one_le_rpow (by norm_num) (by norm_num)
    norm_num at this ⊢
    linarith
  · simp [Witness.sampleCfg, Witness.emCfg]
  · rw [hl]; norm_num [Witness.sampleCfg, Witness.emCfg]
  · rw [hl]; refine ⟨by simp [Witness.sampleCfg, Witness.emCfg], ?_⟩; norm_num [Witness.sampleCfg, Witness.emCfg]

end QED
