import Verif.Lemmas.FirstEmission
import Verif.Props.SpectrumLimit
import Verif.Props.Radiation

set_option autoImplicit false

/-!
# C148: when a lepton first emits, and what
-/

namespace QED

open Filter Topology MCTools MeasureTheory

theorem steps_pos_mono {cfg : SimCfg ℝ} {s₀ s t : EvState ℝ} {k l : Nat} (hks : Steps cfg s₀ k s)
    (hlt : Steps cfg s₀ l t) (hkl : k ≤ l) : s.rng.pos ≤ t.rng.pos := by
  induction hlt with
  | zero =>
    obtain rfl : k = 0 := by omega
    cases hks
    exact le_rfl
  | @succ m _ _ a b c ih =>
    rcases Nat.lt_or_ge k (m + 1) with h | h
    · exact (ih (by omega)).trans (timeStep_pos c)
    · obtain rfl := le_antisymm hkl h
      rw [steps_det hks (.succ a b c)]

section law

variable {cfg : SimCfg ℝ} {e : EmissionCfg ℝ} {logh : ℝ → ℝ} {chi : ℝ → ℝ → ℝ} {p : Particle ℝ} {nm : String} {mx n N : Nat}

/-- In every run of `n` steps either nothing is emitted or there is exactly one first emission. It happens after as many
pushes, takes a photon's momentum off the lepton and leaves everything else but the optical depth as it is. -/
theorem C148_state (hprocs : cfg.procs = [.stochastic e])
    (hlogh : ∀ k < n, emissionLogh e (calculateEta e.field (pushes cfg p (k + 1))) =
      .ok (logh (calculateEta e.field (pushes cfg p (k + 1)))))
    (hchi : ∀ k < n, 0 < emissionRate e logh (pushes cfg p (k + 1)) → ∀ v, 0 ≤ v → v < 1 →
      calculateChi e (calculateEta e.field (pushes cfg p (k + 1))) v =
        .ok (chi (calculateEta e.field (pushes cfg p (k + 1))) v))
    (hm : p.mass ≠ 0) (ha : p.isAlive = true) (hmx : 0 < mx) (hend : ∀ k < n, (k : ℝ) * cfg.dt < cfg.timeEnd)
    (us : List ℝ) (hN : 5 ≤ us.length) (hus : ∀ u ∈ us, 0 ≤ u ∧ u < 1) :
    (NoEmission cfg p nm mx us n ∧ ∀ k < n, ∀ q, ¬ FirstEmission cfg p nm mx us k q) ∨
    (¬ NoEmission cfg p nm mx us n ∧ ∃ k < n, ∃ d,
      ∀ k' < n, ∀ q, FirstEmission cfg p nm mx us k' q ↔
        k' = k ∧ q = (kicked e chi (pushes cfg p (k + 1)) (us.getD 1 0)).withDepth d) := by
  obtain ⟨u, rest, rfl⟩ : ∃ u rest, us = u :: rest := by
    cases us with
    | nil => simp at hN
    | cons u rest => exact ⟨u, rest, rfl⟩
  have hu := hus u (by simp)
  have hs := lonely_lone (nm := nm) p u rest hmx
  have hpos1 : (lonely p nm mx (u :: rest)).rng.pos = 1 := rfl
  have hget : (u :: rest).getD 1 0 = rest.headD 0 := by cases rest <;> rfl
  rw [hget]
  have hmono : ∀ {k s l t}, Steps cfg (lonely p nm mx (u :: rest)) k s → Steps cfg (lonely p nm mx (u :: rest)) l t →
      k ≤ l → 1 ≤ s.rng.pos ∧ s.rng.pos ≤ t.rng.pos :=
    fun a b h => ⟨hpos1 ▸ steps_pos_mono .zero a (by omega), steps_pos_mono a b h⟩
  rcases first_pick (logh := logh) (chi := chi) hprocs hm ha n 0 _ _ rest (by exact hs)
    (C16_initial_depth_nonneg u hu.1 hu.2) (by simpa using hN) (fun v hv => hus v (by simp [hv]))
    (fun k _ h => hlogh k (by omega)) (fun k _ h => hchi k (by omega))
    (fun k hk => by simpa [lonely, EvState.init] using hend k hk) with ⟨t, a1, a2, -⟩ | ⟨k, hk, s', t, d', a1, a2, a3, a4, a5, -⟩
  · left
    refine ⟨⟨t, a1, a2⟩, ?_⟩
    rintro k hk q ⟨s, t', b1, b2, b3, b4, -⟩
    have := (hmono b3 a1 (by omega)).2
    rw [a2] at this
    omega
  · right
    rw [hpos1] at a2 a4
    refine ⟨?_, k, hk, d', fun k' hk' q => ⟨?_, ?_⟩⟩
    · rintro ⟨t', b1, b2⟩
      have := (hmono a3 b1 (by omega)).2
      omega
    · rintro ⟨s, t', b1, b2, b3, b4, b5⟩
      have hkk : k' = k := by
        rcases Nat.lt_trichotomy k' k with h | h | h
        · have := (hmono b3 a1 (by omega)).2
          omega
        · exact h
        · have := (hmono a3 b1 (by omega)).2
          omega
      subst hkk
      rw [steps_det b3 a3, a5] at b5
      refine ⟨rfl, ?_⟩
      have := (Option.some.inj b5).symm
      rw [this, Nat.zero_add]
    · rintro ⟨rfl, rfl⟩
      refine ⟨s', t, a1, a2, a3, a4, ?_⟩
      rw [a5, Nat.zero_add]

/-- The law of the first emission: it happens in step `k` with the probability that there was none before and one is due
then, and the photon is drawn from the spectrum of the state in which it happens. -/
theorem C148_law (hprocs : cfg.procs = [.stochastic e])
    (hlogh : ∀ k < n, emissionLogh e (calculateEta e.field (pushes cfg p (k + 1))) =
      .ok (logh (calculateEta e.field (pushes cfg p (k + 1)))))
    (hchi : ∀ k < n, 0 < emissionRate e logh (pushes cfg p (k + 1)) → ∀ v, 0 ≤ v → v < 1 →
      calculateChi e (calculateEta e.field (pushes cfg p (k + 1))) v =
        .ok (chi (calculateEta e.field (pushes cfg p (k + 1))) v))
    (hm : p.mass ≠ 0) (ha : p.isAlive = true) (hmx : 0 < mx) (hdt : 0 ≤ e.dt)
    (hend : ∀ k < n, (k : ℝ) * cfg.dt < cfg.timeEnd) (hN : 5 ≤ N)
    (F : List ℝ → ENNReal) (G : Nat → Particle ℝ → ENNReal) (hG : ∀ k q d, G k (q.withDepth d) = G k q)
    (hF : ∀ us k q, k < n → FirstEmission cfg p nm mx us k q → F us = G k q)
    (hF0 : ∀ us, NoEmission cfg p nm mx us n → F us = 0) :
    average N F = ∑ k ∈ Finset.range n,
      ENNReal.ofReal (Real.exp (-∑ j ∈ Finset.range k, emissionRate e logh (pushes cfg p (j + 1))) *
        (1 - Real.exp (-emissionRate e logh (pushes cfg p (k + 1))))) *
      ∫⁻ v in Set.Ico (0 : ℝ) 1, G k (kicked e chi (pushes cfg p (k + 1)) v) := by
  obtain ⟨N, rfl⟩ : ∃ M, N = M + 1 + 1 := ⟨N - 2, by omega⟩
  have key : ∀ u rest, 0 ≤ u → u < 1 → rest.length = N + 1 → (∀ v ∈ rest, 0 ≤ v ∧ v < 1) →
      F (u :: rest) = pick (fun k => emissionRate e logh (pushes cfg p (k + 1)))
        (fun k => G k (kicked e chi (pushes cfg p (k + 1)) (rest.headD 0))) n 0 (initDepth u) := by
    intro u rest h0 h1 hlen hv
    rcases first_pick (logh := logh) (chi := chi) hprocs hm ha n 0 _ _ rest
      (by exact lonely_lone (nm := nm) p u rest hmx)
      (C16_initial_depth_nonneg u h0 h1) (by omega) hv
      (fun k _ h => hlogh k (by omega)) (fun k _ h => hchi k (by omega))
      (fun k hk => by simpa [lonely, EvState.init] using hend k hk)
      with ⟨t, a1, a2, a3⟩ | ⟨k, hk, s', t, d', a1, a2, a3, a4, a5, a6⟩
    · rw [a3]
      exact hF0 _ ⟨t, a1, a2⟩
    · rw [a6, hF _ k _ hk ⟨s', t, a1, a2, a3, a4, a5⟩, hG, Nat.zero_add]
  have hpick : ∀ (c : ℝ → Nat → ENNReal) (m i : Nat) (d : ℝ),
      ∫⁻ v in Set.Ico (0 : ℝ) 1, pick (fun k => emissionRate e logh (pushes cfg p (k + 1))) (c v) m i d =
        pick (fun k => emissionRate e logh (pushes cfg p (k + 1))) (fun k => ∫⁻ v in Set.Ico (0 : ℝ) 1, c v k) m i d := by
    intro c m
    induction m with
    | zero => intro i d; simp [pick]
    | succ m ih =>
      intro i d
      simp only [pick]
      split_ifs
      · exact ih _ _
      · rfl
  rw [average_succ]
  have h1 : ∀ u ∈ Set.Ico (0 : ℝ) 1, (average (N + 1) fun us => F (u :: us)) =
      pick (fun k => emissionRate e logh (pushes cfg p (k + 1)))
        (fun k => ∫⁻ v in Set.Ico (0 : ℝ) 1, G k (kicked e chi (pushes cfg p (k + 1)) v)) n 0 (initDepth u) := by
    intro u hu
    rw [average_congr (fun us hus hv => key u us hu.1 hu.2 hus hv), average_succ,
      ← hpick (fun v k => G k (kicked e chi (pushes cfg p (k + 1)) v))]
    refine lintegral_congr fun v => ?_
    simp only [List.headD_cons]
    exact average_const N _
  rw [setLIntegral_congr_fun measurableSet_Ico h1, pick_law (rate_nonneg hdt <| pushes cfg p <| · + 1)]
  simp only [Nat.zero_add]

end law

/-! ## The limit of small steps -/

/-- A run of `n + 1` steps over a time `T` with stochastic emission in the same field, whose tables are `logh` and `chi`
on `O`. -/
structure StochasticRun (push : PushMom ℝ) (field : Field ℝ) (O : Set ℝ) (logh : ℝ → ℝ) (chi : ℝ → ℝ → ℝ) (T : ℝ)
    (n : Nat) (cfg : SimCfg ℝ) : Prop where
  push : cfg.push = push
  same : cfg.field = field
  step : cfg.dt = T / (n + 1)
  time : T ≤ cfg.timeEnd
  procs : ∃ e, cfg.procs = [.stochastic e] ∧ e.field = field ∧ e.dt = T / (n + 1) ∧
    ∀ η ∈ O, emissionLogh e η = .ok (logh η) ∧ ∀ v, 0 ≤ v → v < 1 → calculateChi e η v = .ok (chi η v)

/-- The tables of the code meet the hypotheses of the limit. -/
theorem C148_tables {e : EmissionCfg ℝ} (hg : e.GoodTables) (hh : e.hAxis.Pairwise (· < ·))
    (hs : e.etaAxis.Pairwise (· < ·)) (h3 : 3 ≤ e.etaAxis.length) :
    ∃ chi : ℝ → ℝ → ℝ, ContinuousTables (insideTables e) (fun η => polyline e.hAxis e.hData (Real.logb 10 η)) chi ∧
      ∀ η ∈ insideTables e, emissionLogh e η = .ok (polyline e.hAxis e.hData (Real.logb 10 η)) ∧
        ∀ v, 0 ≤ v → v < 1 → calculateChi e η v = .ok (chi η v) := by
  obtain ⟨chi, h1, h2⟩ := C147_quantum_tables hg hh hs h3
  refine ⟨chi, h1, fun η hη => ?_⟩
  have hn : ¬ ((η <. Dbl.lit 1e-12) = true) := by
    have := hη.1
    simp only [real_lt, real_lit, decide_eq_true_eq]
    norm_num at this ⊢
    linarith
  have key : ∀ v, 0 ≤ v → v < 1 → emissionLogh e η = .ok (polyline e.hAxis e.hData (Real.logb 10 η)) ∧
      calculateChi e η v = .ok (chi η v) := by
    intro v h0 h1
    have h := h2 η hη v h0 h1
    unfold continuousLoghChi at h
    rw [if_neg (by simpa using hn)] at h
    obtain ⟨a, ha, h⟩ := Res.bind_eq_ok.mp h
    obtain ⟨b, hb, h⟩ := Res.bind_eq_ok.mp h
    obtain ⟨e1, e2⟩ := Prod.mk.inj (Res.ok.inj h)
    unfold emissionLogh
    rw [if_neg hn, ha, hb, e1, e2]
    exact ⟨rfl, rfl⟩
  exact ⟨(key 0 le_rfl one_pos).1, fun v h0 h1 => (key v h0 h1).2⟩

theorem spectralRate_one (logh : ℝ → ℝ) (chi : ℝ → ℝ → ℝ) (m : ℝ) (field : Field ℝ) (t : ℝ) (z : Phase) :
    spectralRate logh chi (fun _ => 1) m field t z = rateAt logh m field t z := by
  unfold spectralRate rateAt
  simp

/-- C148: as the time step goes to zero, the time of the first emission and the momentum it takes off the lepton get the
law of the theory. There is no emission up to `t` with the probability `exp (-∫ rate)`, the rate being that along the
path of a lepton that does not emit, and the photon has the spectrum of the place where it is emitted. -/
theorem C148_limit {push : PushMom ℝ} {field : Field ℝ} {U : Set (ℝ × (Fin 3 → ℝ))} (hU : IsOpen U)
    (hf : FieldC4 field U) (p : Particle ℝ) (hk : p.kind ≠ .photon) (hm : 0 < p.mass) (ha : p.isAlive = true)
    {T : ℝ} (hT : 0 < T) {y : ℝ → Phase} (hyc : ContinuousOn y (Set.Icc p.time (p.time + T)))
    (hy : FourthOrder push field p T y)
    (hmem : ∀ t ∈ Set.Icc p.time (p.time + T), (t, (y t).1) ∈ U ∧ (y t).2 ≠ 0)
    {O : Set ℝ} {logh : ℝ → ℝ} {chi : ℝ → ℝ → ℝ} (ht : ContinuousTables O logh chi)
    (hη : ∀ t ∈ Set.Icc p.time (p.time + T), etaOf p.mass field t (y t) ∈ O)
    {φ : (Fin 3 → ℝ) → ℝ} (hφ : Continuous φ) (hφ0 : ∀ k, 0 ≤ φ k)
    {ψ : ℝ → ℝ} (hψ : ContinuousOn ψ (Set.Icc p.time (p.time + T))) (hψ0 : ∀ t, 0 ≤ ψ t)
    (cfg : Nat → SimCfg ℝ) (hcfg : ∀ n, StochasticRun push field O logh chi T n (cfg n)) (nm : String)
    (mx N : Nat → Nat) (hmx : ∀ n, 0 < mx n) (hN : ∀ n, 5 ≤ N n) (F : Nat → List ℝ → ENNReal)
    (hF : ∀ n us k q, k < n + 1 → FirstEmission (cfg n) p nm (mx n) us k q →
      F n us = ENNReal.ofReal (ψ q.time * φ ((pushes (cfg n) p (k + 1)).momentum.sub q.momentum).toVec))
    (hF0 : ∀ n us, NoEmission (cfg n) p nm (mx n) us (n + 1) → F n us = 0) :
    Tendsto (fun n => average (N n) (F n)) atTop
      (𝓝 (ENNReal.ofReal (∫ t in p.time..p.time + T, Real.exp (-∫ s in p.time..t, rateAt logh p.mass field s (y s)) *
        (ψ t * spectralRate logh chi φ p.mass field t (y t))))) := by
  obtain ⟨z, M, hz, hat, hfc, hclose⟩ := spectrum_path hU hf p hk hm hT hyc hy hmem ht hη hφ cfg
    (fun n => (hcfg n).push) (fun n => (hcfg n).same) (fun n => (hcfg n).step)
  obtain ⟨z', M', hz', -, hfc1, hclose1⟩ := spectrum_path hU hf p hk hm hT hyc hy hmem ht hη
    (φ := fun _ => 1) continuous_const cfg
    (fun n => (hcfg n).push) (fun n => (hcfg n).same) (fun n => (hcfg n).step)
  obtain rfl : z' = z := by funext n k; rw [hz, hz']
  simp only [spectralRate_one] at hfc1 hclose1
  have hα := alpha_pos
  have hπ : (0 : ℝ) < Units.pi := by norm_num [Units.pi]
  have hrpos : ∀ t (x : Phase), etaOf p.mass field t x ∈ O → 0 < rateAt logh p.mass field t x := by
    intro t x hx
    have h0 := ht.pos _ hx
    have hg := gammaOf_pos p.mass x.2
    unfold rateAt
    positivity
  -- the times are those of the grid
  obtain ⟨K, hK⟩ : ∃ K, ∀ n ≥ K, ∀ k < n + 1, (z' n k).1 = p.time + ((k + 1 : Nat) : ℝ) * (T / (n + 1)) := by
    obtain ⟨C, δ₁, hδ₁, hC⟩ := hy
    have hlim1 : Tendsto (fun n : Nat => T / ((n : ℝ) + 1)) atTop (𝓝 0) := by
      have := (tendsto_one_div_add_atTop_nhds_zero_nat (𝕜 := ℝ)).const_mul T
      simpa [div_eq_mul_inv] using this
    obtain ⟨K, hK⟩ := eventually_atTop.1 (hlim1.eventually_lt_const hδ₁)
    refine ⟨K, fun n hn k hkn => ?_⟩
    have hpos : (0:ℝ) < n + 1 := by positivity
    have hin := (on_grid (a := p.time) hT n k hkn).2
    obtain ⟨h1, -⟩ := hC (T / (n + 1)) (div_nonneg hT.le hpos.le) (hK n hn).le (k + 1) (by linarith)
    rw [hz]
    unfold pushes
    rw [(hcfg n).push, (hcfg n).same, (hcfg n).step]
    exact h1
  obtain ⟨D, hD⟩ := isCompact_Icc.exists_bound_of_continuousOn hψ
  have hD0 : 0 ≤ D := (norm_nonneg _).trans (hD p.time ⟨le_rfl, by linarith⟩)
  have hlim := first_limit (w := fun t => rateAt logh p.mass field t (y t))
    (f := fun t => ψ t * spectralRate logh chi φ p.mass field t (y t)) hT hfc1 (hψ.mul hfc)
    (fun t htt => (hrpos _ _ (hη t htt)).le)
    (W := fun n k => rateAt logh p.mass field (z' n k).1 (z' n k).2)
    (S := fun n k => ψ (z' n k).1 * spectralRate logh chi φ p.mass field (z' n k).1 (z' n k).2) hclose1
    (fun ε hε => by
      obtain ⟨K', hK'⟩ := hclose (ε / (D + 1)) (by positivity)
      refine ⟨max K K', fun n hn k hkn => ?_⟩
      have hg := on_grid (a := p.time) hT n k hkn
      have h1 := hK' n (le_trans (le_max_right _ _) hn) k hkn
      have h2 := hD _ hg
      rw [hK n (le_trans (le_max_left _ _) hn) k hkn] at h1 ⊢
      rw [← mul_sub, abs_mul]
      rw [Real.norm_eq_abs] at h2
      calc _ ≤ D * (ε / (D + 1)) := by gcongr
        _ ≤ (D + 1) * (ε / (D + 1)) := by gcongr; linarith
        _ = ε := by field_simp)
    (M := M) (fun n hn k hkn => hrpos _ _ (hat n hn k hkn).1)
  refine (ENNReal.continuous_ofReal.continuousAt.tendsto.comp hlim).congr' ?_
  filter_upwards [eventually_ge_atTop M] with n hn
  obtain ⟨e, h1, h2, h3, h4⟩ := (hcfg n).procs
  have hstep : 0 < T / ((n : ℝ) + 1) := by positivity
  have hrate : ∀ k < n + 1, emissionRate e logh (pushes (cfg n) p (k + 1)) =
      T / (n + 1) * rateAt logh p.mass field (z' n k).1 (z' n k).2 := by
    intro k hkn
    obtain ⟨-, -, b3, b4⟩ := hat n hn k hkn
    unfold emissionRate rateAt
    rw [h2, h3, b3, b4]
    ring
  rw [C148_law (logh := logh) (chi := chi) (n := n + 1) h1 (fun k hkn => by
      obtain ⟨b1, -, b3, -⟩ := hat n hn k hkn
      rw [h2, b3]
      exact (h4 _ b1).1) (fun k hkn _ v hv0 hv1 => by
      obtain ⟨b1, -, b3, -⟩ := hat n hn k hkn
      rw [h2, b3]
      exact (h4 _ b1).2 v hv0 hv1) hm.ne' ha (hmx n) (by rw [h3]; exact hstep.le) (by
      rw [(hcfg n).step]; exact before_end hT (hcfg n).time n) (hN n) (F n)
      (fun k q => ENNReal.ofReal (ψ q.time * φ ((pushes (cfg n) p (k + 1)).momentum.sub q.momentum).toVec))
      (fun k q d => rfl) (hF n) (hF0 n)]
  simp only [Function.comp]
  rw [ENNReal.ofReal_sum_of_nonneg]
  · refine Finset.sum_congr rfl fun k hkn => ?_
    have hkn := Finset.mem_range.1 hkn
    obtain ⟨hO, b2, b3, b4⟩ := hat n hn k hkn
    have hR := hrate k hkn
    have hR0 : 0 < emissionRate e logh (pushes (cfg n) p (k + 1)) := by
      rw [hR]; exact mul_pos hstep (hrpos _ _ hO)
    have hsum : ∑ j ∈ Finset.range k, emissionRate e logh (pushes (cfg n) p (j + 1)) =
        ∑ j ∈ Finset.range k, T / (n + 1) * rateAt logh p.mass field (z' n j).1 (z' n j).2 :=
      Finset.sum_congr rfl fun j hj => hrate j (by have := Finset.mem_range.1 hj; omega)
    replace b3 := (congrArg (fun f => calculateEta f (pushes (cfg n) p (k + 1))) h2).trans b3
    have hsp := spectrum_step (field := field) (e := { e with eMin := 0 }) (q := pushes (cfg n) p (k + 1)) (w := 1) ht
      zero_le_one (by show 0 ≤ e.dt; rw [h3]; exact hstep.le) b2 (by rw [hz] at b3; exact b3) (by rw [hz] at b4; exact b4)
      (by rw [hz] at hO; exact hO) hφ hφ0
      (fun k hk0 hle => absurd (le_antisymm hle (len_nonneg' k)) (len_ne hk0))
    have hint : ∀ v ∈ Set.Ico (0 : ℝ) 1,
        ENNReal.ofReal (ψ (kicked e chi (pushes (cfg n) p (k + 1)) v).time *
          φ ((pushes (cfg n) p (k + 1)).momentum.sub (kicked e chi (pushes (cfg n) p (k + 1)) v).momentum).toVec) =
        ENNReal.ofReal (ψ (z' n k).1) * (indic (0 < photonEnergy { e with eMin := 0 } chi (pushes (cfg n) p (k + 1)) v) *
          ENNReal.ofReal (φ ((pushes (cfg n) p (k + 1)).direction.norm.smul
            (photonEnergy { e with eMin := 0 } chi (pushes (cfg n) p (k + 1)) v)).toVec)) := by
      intro v hv
      have hE : photonEnergy { e with eMin := 0 } chi (pushes (cfg n) p (k + 1)) v =
        photonEnergy e chi (pushes (cfg n) p (k + 1)) v := rfl
      have hEpos : 0 < photonEnergy e chi (pushes (cfg n) p (k + 1)) v := by
        have g1 := ht.pos _ hO
        have g2 := ht.sign _ hO v hv
        have g3 := gammaOf_pos p.mass (z' n k).2.2
        unfold photonEnergy
        rw [b3, b4]
        positivity
      have htime : (kicked e chi (pushes (cfg n) p (k + 1)) v).time = (z' n k).1 := by
        rw [hz]
        unfold kicked Particle.updateTrack
        split <;> rfl
      have hmom : (pushes (cfg n) p (k + 1)).momentum.sub (kicked e chi (pushes (cfg n) p (k + 1)) v).momentum =
          (pushes (cfg n) p (k + 1)).direction.norm.smul (photonEnergy e chi (pushes (cfg n) p (k + 1)) v) := by
        have : (kicked e chi (pushes (cfg n) p (k + 1)) v).momentum = (pushes (cfg n) p (k + 1)).momentum.sub
            ((pushes (cfg n) p (k + 1)).direction.smul (photonEnergy e chi (pushes (cfg n) p (k + 1)) v)) := by
          unfold kicked Particle.updateTrack
          split <;> rfl
        rw [this]
        have hn : (pushes (cfg n) p (k + 1)).direction.norm = (pushes (cfg n) p (k + 1)).direction := by
          unfold Particle.direction
          exact V3.norm_norm b2
        rw [hn]
        ext <;> simp [V3.sub]
      rw [htime, hmom, hE]
      unfold indic
      rw [if_pos hEpos, one_mul, ENNReal.ofReal_mul (hψ0 _)]
    rw [setLIntegral_congr_fun measurableSet_Ico hint, lintegral_const_mul' _ _ ENNReal.ofReal_ne_top, hsum, ← hR]
    rw [one_mul, one_mul] at hsp
    have hsp' : ENNReal.ofReal (emissionRate e logh (pushes (cfg n) p (k + 1))) *
        ∫⁻ v in Set.Ico (0 : ℝ) 1, (indic (0 < photonEnergy { e with eMin := 0 } chi (pushes (cfg n) p (k + 1)) v) *
          ENNReal.ofReal (φ ((pushes (cfg n) p (k + 1)).direction.norm.smul
            (photonEnergy { e with eMin := 0 } chi (pushes (cfg n) p (k + 1)) v)).toVec)) =
        ENNReal.ofReal (T / (n + 1) * spectralRate logh chi φ p.mass field (z' n k).1 (z' n k).2) := by
      rw [← h3, hz]
      exact hsp
    generalize (∫⁻ v in Set.Ico (0 : ℝ) 1, (indic (0 < photonEnergy { e with eMin := 0 } chi (pushes (cfg n) p (k + 1)) v) *
          ENNReal.ofReal (φ ((pushes (cfg n) p (k + 1)).direction.norm.smul
            (photonEnergy { e with eMin := 0 } chi (pushes (cfg n) p (k + 1)) v)).toVec))) = J at hsp' ⊢
    have hσ := spectralRate_nonneg (logh := logh) (chi := chi) (field := field) (m := p.mass) hφ0 (ht.pos _ hO)
    have hψk := hψ0 (z' n k).1
    generalize emissionRate e logh (pushes (cfg n) p (k + 1)) = r at hR0 hsp' ⊢
    generalize spectralRate logh chi φ p.mass field (z' n k).1 (z' n k).2 = σ at hsp' hσ ⊢
    generalize ψ (z' n k).1 = b at hψk ⊢
    have hX := Real.exp_pos (-∑ j ∈ Finset.range k, T / (n + 1) * rateAt logh p.mass field (z' n j).1 (z' n j).2)
    generalize Real.exp (-∑ j ∈ Finset.range k, T / (n + 1) * rateAt logh p.mass field (z' n j).1 (z' n j).2) = X at hX ⊢
    have hρ : 0 ≤ (1 - Real.exp (-r)) / r :=
      div_nonneg (sub_nonneg.2 (Real.exp_le_one_iff.2 (by linarith))) hR0.le
    have hsplit : X * (1 - Real.exp (-r)) = X * ((1 - Real.exp (-r)) / r) * r := by field_simp
    rw [hsplit]
    generalize (1 - Real.exp (-r)) / r = ρ at hρ ⊢
    calc ENNReal.ofReal (T / (n + 1) * (X * ρ * (b * σ)))
        = ENNReal.ofReal (X * ρ) * ENNReal.ofReal b * ENNReal.ofReal (T / (n + 1) * σ) := by
          rw [← ENNReal.ofReal_mul (by positivity), ← ENNReal.ofReal_mul (by positivity)]
          congr 1
          ring
      _ = ENNReal.ofReal (X * ρ) * ENNReal.ofReal b * (ENNReal.ofReal r * J) := by rw [hsp']
      _ = ENNReal.ofReal (X * ρ) * ENNReal.ofReal r * (ENNReal.ofReal b * J) := by ring
      _ = ENNReal.ofReal (X * ρ * r) * (ENNReal.ofReal b * J) := by rw [← ENNReal.ofReal_mul (by positivity)]
  · intro k hkn
    have hkn := Finset.mem_range.1 hkn
    obtain ⟨hO, -⟩ := hat n hn k hkn
    have hσ := spectralRate_nonneg (logh := logh) (chi := chi) (field := field) (m := p.mass) hφ0 (ht.pos _ hO)
    have hx := mul_pos hstep (hrpos _ _ hO)
    have hρ := div_nonneg (sub_nonneg.2 (Real.exp_le_one_iff.2 (neg_nonpos.2 hx.le))) hx.le
    have := hψ0 (z' n k).1
    positivity

theorem survival_integral {w : ℝ → ℝ} {a T : ℝ} (hT : 0 ≤ T) (hw : ContinuousOn w (Set.Icc a (a + T))) :
    ∫ t in a..a + T, Real.exp (-∫ s in a..t, w s) * w t = 1 - Real.exp (-∫ s in a..a + T, w s) := by
  have hI : ContinuousOn (fun t => ∫ s in a..t, w s) (Set.Icc a (a + T)) := by
    have := intervalIntegral.continuousOn_primitive_interval' (a := a) (b₁ := a) (b₂ := a + T) (μ := volume)
      (f := w) (hw.intervalIntegrable_of_Icc (by linarith)) Set.left_mem_uIcc
    rwa [Set.uIcc_of_le (by linarith)] at this
  have hE : ContinuousOn (fun t => Real.exp (-∫ s in a..t, w s)) (Set.Icc a (a + T)) :=
    Real.continuous_exp.comp_continuousOn hI.neg
  rw [intervalIntegral.integral_eq_sub_of_hasDeriv_right_of_le (f := fun t => -Real.exp (-∫ s in a..t, w s))
    (f' := fun t => Real.exp (-∫ s in a..t, w s) * w t) (by linarith) hE.neg (fun t ht => ?_) ((hE.mul hw).intervalIntegrable_of_Icc (by linarith))]
  · simp only [intervalIntegral.integral_same]
    simp
    ring
  · have hnh : Set.Icc a (a + T) ∈ 𝓝 t := Icc_mem_nhds ht.1 ht.2
    have hd : HasDerivAt (fun t => ∫ s in a..t, w s) (w t) t :=
      intervalIntegral.integral_hasDerivAt_right
        ((hw.mono (Set.Icc_subset_Icc le_rfl ht.2.le)).intervalIntegrable_of_Icc ht.1.le)
        ((hw.mono Set.Ioo_subset_Icc_self).stronglyMeasurableAtFilter isOpen_Ioo t ht) (hw.continuousAt hnh)
    have h2 := (hd.neg.exp.neg).hasDerivWithinAt (s := Set.Ioi t)
    refine h2.congr_deriv ?_
    simp

/-- C148, whether there is an emission at all: with probability `1 - exp (-∫ rate)` in the limit. -/
theorem C148_some {push : PushMom ℝ} {field : Field ℝ} {U : Set (ℝ × (Fin 3 → ℝ))} (hU : IsOpen U)
    (hf : FieldC4 field U) (p : Particle ℝ) (hk : p.kind ≠ .photon) (hm : 0 < p.mass) (ha : p.isAlive = true)
    {T : ℝ} (hT : 0 < T) {y : ℝ → Phase} (hyc : ContinuousOn y (Set.Icc p.time (p.time + T)))
    (hy : FourthOrder push field p T y)
    (hmem : ∀ t ∈ Set.Icc p.time (p.time + T), (t, (y t).1) ∈ U ∧ (y t).2 ≠ 0)
    {O : Set ℝ} {logh : ℝ → ℝ} {chi : ℝ → ℝ → ℝ} (ht : ContinuousTables O logh chi)
    (hη : ∀ t ∈ Set.Icc p.time (p.time + T), etaOf p.mass field t (y t) ∈ O)
    (cfg : Nat → SimCfg ℝ) (hcfg : ∀ n, StochasticRun push field O logh chi T n (cfg n)) (nm : String)
    (mx N : Nat → Nat) (hmx : ∀ n, 0 < mx n) (hN : ∀ n, 5 ≤ N n) :
    Tendsto (fun n => likelihood (N n) fun us => ∃ k < n + 1, ∃ q, FirstEmission (cfg n) p nm (mx n) us k q) atTop
      (𝓝 (ENNReal.ofReal (1 - Real.exp (-∫ t in p.time..p.time + T, rateAt logh p.mass field t (y t))))) := by
  have key := C148_limit hU hf p hk hm ha hT hyc hy hmem ht hη (φ := fun _ => 1) continuous_const (fun _ => zero_le_one)
    (ψ := fun _ => 1) continuousOn_const (fun _ => zero_le_one) cfg hcfg nm mx N hmx hN
    (fun n us => indic (∃ k < n + 1, ∃ q, FirstEmission (cfg n) p nm (mx n) us k q))
    (fun n us k q hkn h => by
      unfold indic
      rw [if_pos ⟨k, hkn, q, h⟩]
      simp)
    (fun n us h => by
      unfold indic
      rw [if_neg]
      rintro ⟨k, hkn, q, s, t, -, -, b3, b4, -⟩
      obtain ⟨t', c1, c2⟩ := h
      have := steps_pos_mono b3 c1 (by omega)
      omega)
  simp only [spectralRate_one, one_mul] at key
  obtain ⟨_, _, _, _, hfc, _⟩ := spectrum_path hU hf p hk hm hT hyc hy hmem ht hη
    (φ := fun _ => 1) continuous_const cfg
    (fun n => (hcfg n).push) (fun n => (hcfg n).same) (fun n => (hcfg n).step)
  simp only [spectralRate_one] at hfc
  rw [survival_integral hT.le hfc] at key
  exact key

/-! ## The hypotheses are satisfiable -/

namespace Witness

/-- Tables around the quantum parameter 1: rate 1 in the units of the table, photons with `χ = 1/4`. -/
noncomputable def firstEmission (n : Nat) : EmissionCfg ℝ :=
  { emCfg (1 / 4) 0 0 with
    field := OrderWitness.field
    dt := 1 / (n + 1)
    hAxis := [-1, 1]
    etaAxis := [-1, 1, 2] }

/-- An electron in a unit field, for a unit of time in `n + 1` steps. -/
noncomputable def firstCfg (n : Nat) : SimCfg ℝ :=
  ⟨landauForce, OrderWitness.field, 1 / (n + 1), 1, [.stochastic (firstEmission n)]⟩

theorem first_good (n : Nat) : (firstEmission n).GoodTables := by
  refine ⟨⟨rfl, le_rfl, by norm_num [firstEmission, emCfg]⟩, ⟨by simp [firstEmission], by norm_num [firstEmission]⟩,
    ⟨rfl, rfl⟩, ?_⟩
  intro i t c h1 h2
  simp only [firstEmission, emCfg] at h1 h2
  rcases i with _ | _ | _ | i
  all_goals first
    | (simp only [List.getElem?_cons_zero, List.getElem?_cons_succ, Option.some.injEq] at h1 h2
       subst h1 h2
       exact ⟨rfl, le_rfl, by norm_num⟩)
    | simp at h1

theorem first_tables : ∃ chi : ℝ → ℝ → ℝ, ContinuousTables (insideTables (firstEmission 0))
      (fun η => polyline [-1, 1] [0, 0] (Real.logb 10 η)) chi ∧
    (∀ n, StochasticRun landauForce OrderWitness.field (insideTables (firstEmission 0))
      (fun η => polyline [-1, 1] [0, 0] (Real.logb 10 η)) chi 1 n (firstCfg n)) ∧
    (1 : ℝ) ∈ insideTables (firstEmission 0) := by
  obtain ⟨chi, h1, h2⟩ := C148_tables (first_good 0) (by norm_num [firstEmission]) (by norm_num [firstEmission]) le_rfl
  refine ⟨chi, h1, fun n => ⟨rfl, rfl, rfl, le_rfl, firstEmission n, rfl, rfl, rfl, h2⟩, ?_⟩
  refine ⟨by norm_num, ⟨by simp [firstEmission], ?_⟩, ⟨by simp [firstEmission], ?_⟩⟩ <;>
    norm_num [firstEmission]

end Witness

open Witness in
/-- That electron: the probability that it has emitted. -/
example : Tendsto (fun n => likelihood 5 fun us => ∃ k < n + 1, ∃ q,
      FirstEmission (firstCfg n) OrderWitness.electron "0" 10 us k q) atTop
    (𝓝 (ENNReal.ofReal (1 - Real.exp (-∫ t in (0 : ℝ)..1,
      √3 * Units.alpha / (gammaOf 1 (limitPath t).2 * 2 * Units.pi))))) := by
  have hm : OrderWitness.electron.mass = 1 := rfl
  have hk : OrderWitness.electron.kind ≠ .photon := by
    have h : (OrderWitness.electron : Particle ℝ).kind = .electron := by
      simp [OrderWitness.electron, Particle.newLepton, Particle.new, Particle.leptonKind]
    rw [h]
    simp
  have ht : OrderWitness.electron.time = 0 := rfl
  have hc : ContinuousOn limitPath (Set.Icc OrderWitness.electron.time (OrderWitness.electron.time + 1)) := by
    intro s hs
    rw [ht] at hs
    exact (limit_deriv s hs.1 _).continuousWithinAt
  have hne : ∀ s ∈ Set.Icc OrderWitness.electron.time (OrderWitness.electron.time + 1),
      (s, (limitPath s).1) ∈ (Set.univ : Set (ℝ × (Fin 3 → ℝ))) ∧ (limitPath s).2 ≠ 0 := by
    intro s hs
    rw [ht] at hs
    exact ⟨Set.mem_univ _, limit_ne s hs.1⟩
  have hfo : FourthOrder landauForce OrderWitness.field OrderWitness.electron 1 limitPath :=
    C121_landau isOpen_univ (C121_static _ _) OrderWitness.electron rfl (by rw [hm]; norm_num)
      (OrderWitness.track_start _) (fun s hs => limit_deriv s (by rw [ht] at hs; exact hs.1) _) hne
  obtain ⟨chi, h1, h2, h3⟩ := first_tables
  have hη : ∀ s ∈ Set.Icc OrderWitness.electron.time (OrderWitness.electron.time + 1),
      etaOf OrderWitness.electron.mass OrderWitness.field s (limitPath s) ∈ insideTables (firstEmission 0) := by
    intro s _
    rw [hm, limit_eta]
    exact h3
  have key := C148_some (field := OrderWitness.field) isOpen_univ (C121_static _ _) OrderWitness.electron hk
    (by rw [hm]; norm_num) rfl one_pos hc hfo hne h1 hη firstCfg h2 "0" (fun _ => 10) (fun _ => 5) (fun _ => by norm_num)
    (fun _ => le_rfl)
  rw [hm, ht, zero_add] at key
  have hr : ∀ s, rateAt (fun η => polyline [-1, 1] [0, 0] (Real.logb 10 η)) 1 OrderWitness.field s (limitPath s) =
      √3 * Units.alpha / (gammaOf 1 (limitPath s).2 * 2 * Units.pi) := by
    intro s
    unfold rateAt
    rw [limit_eta]
    dsimp only
    have : polyline [-1, 1] [0, 0] (Real.logb 10 1) = 0 := by
      simp [polyline]
    rw [this]
    simp
  simp only [hr] at key
  exact key

end QED
