import Verif.Lemmas.FirstPairLimit
import Verif.Props.FirstEmission

set_option autoImplicit false

/-!
# C149: when a photon turns into a pair, and how the pair shares its energy
-/

namespace QED

open Filter Topology MCTools MeasureTheory

theorem steps_length_mono {cfg : SimCfg ℝ} {s₀ s t : EvState ℝ} {k l : Nat} (hks : Steps cfg s₀ k s)
    (hlt : Steps cfg s₀ l t) (hkl : k ≤ l) : s.list.items.length ≤ t.list.items.length := by
  induction hlt with
  | zero =>
    obtain rfl : k = 0 := by omega
    cases hks
    exact le_rfl
  | @succ m _ _ a b c ih =>
    rcases Nat.lt_or_ge k (m + 1) with h | h
    · exact (ih (by omega)).trans (particleLoop_grows (timeStep_advance c).1).length
    · obtain rfl := le_antisymm hkl h
      rw [steps_det hks (.succ a b c)]

section law

variable {cfg : SimCfg ℝ} {b : BWCfg ℝ} {logt : ℝ → ℝ} {share : ℝ → ℝ → ℝ} {p : Particle ℝ} {nm : String} {mx n N : Nat}

theorem lonely_photon (p : Particle ℝ) (u : ℝ) (us : List ℝ) (hmx : 3 ≤ mx) :
    SolePhoton (lonely p nm mx (u :: us)) p (initDepth u) us := by
  refine ⟨rfl, hmx, ?_, rfl⟩
  intro i d hi
  show (u :: us).getD (1 + i) 0 = d
  rw [Nat.add_comm, List.getD_cons_succ, List.getD_eq_getElem?_getD, hi]
  rfl

/-- In every run of `n` steps either the photon is still alone or there is exactly one step in which it makes a pair. Then
the second random number gives the shares, the third and the fourth the optical depths, and the pair is made
where the photon is. -/
theorem C149_state (hprocs : cfg.procs = [.breitWheeler b])
    (hlogt : ∀ k < n, Numerics.interpolate1D b.tAxis b.tData (Dbl.log10 (bwChi b.field (pushes cfg p (k + 1)))) =
      .ok (logt (bwChi b.field (pushes cfg p (k + 1)))))
    (hshare : ∀ k < n, 0 < conversions b logt (pushes cfg p (k + 1)) → ∀ v, 0 ≤ v → v < 1 →
      bwSplit b (bwChi b.field (pushes cfg p (k + 1))) v = .ok (share (bwChi b.field (pushes cfg p (k + 1))) v) ∧
      1 ≤ share (bwChi b.field (pushes cfg p (k + 1))) v * p.energy ∧
      1 ≤ (1 - share (bwChi b.field (pushes cfg p (k + 1))) v) * p.energy)
    (hk : p.kind = .photon) (hm : p.mass = 0) (ha : p.isAlive = true) (hmx : 3 ≤ mx)
    (hend : ∀ k < n, (k : ℝ) * cfg.dt < cfg.timeEnd)
    (us : List ℝ) (hN : 4 ≤ us.length) (hus : ∀ u ∈ us, 0 ≤ u ∧ u < 1) :
    (NoPair cfg p nm mx us n ∧ ∀ k < n, ∀ a b, ¬ FirstPair cfg p nm mx us k a b) ∨
    (¬ NoPair cfg p nm mx us n ∧ ∃ k < n, ∀ k' < n, ∀ a c, FirstPair cfg p nm mx us k' a c ↔
      k' = k ∧ a = (positronOf cfg b share p k (us.getD 1 0)).withDepth (initDepth (us.getD 2 0)) ∧
        c = (electronOf cfg b share p k (us.getD 1 0)).withDepth (initDepth (us.getD 3 0))) := by
  obtain ⟨u, v, x, y, rest, rfl⟩ := four_le us hN
  have hu := hus u (by simp)
  have hv := hus v (by simp)
  have hs := lonely_photon (nm := nm) p u (v :: x :: y :: rest) hmx
  simp only [List.getD_cons_zero, List.getD_cons_succ]
  have hmono : ∀ {k s l t}, Steps cfg (lonely p nm mx (u :: v :: x :: y :: rest)) k s →
      Steps cfg (lonely p nm mx (u :: v :: x :: y :: rest)) l t → k ≤ l → s.list.items.length ≤ t.list.items.length :=
    fun a b h => steps_length_mono a b h
  rcases pair_pick (logt := logt) (share := share) hprocs hk hm ha v x y rest n 0 _ _ (by exact hs)
    (C16_initial_depth_nonneg u hu.1 hu.2) (fun k _ h => hlogt k (by omega))
    (fun k _ h h0 => (hshare k (by omega) h0 v hv.1 hv.2).1)
    (fun k hk => by simpa [lonely, EvState.init] using hend k hk)
    with ⟨t, q, a1, a2, a3, -⟩ | ⟨k, hkn, s', q, t, dead, a1, a2, a3, a4, a5, a6, -⟩
  · left
    refine ⟨⟨t, q, a1, a2, a3⟩, ?_⟩
    rintro k hk a c ⟨-, t', q', b1, b2, -⟩
    have := hmono b1 a1 (by omega)
    rw [a2, b2] at this
    simp at this
  · right
    rw [Nat.zero_add] at a6
    have hnone : ∀ k', NoPair cfg p nm mx (u :: v :: x :: y :: rest) k' → k' ≤ k := by
      rintro k' ⟨t', q', b1, b2, -⟩
      by_contra hlt
      have := hmono a4 b1 (by omega)
      rw [a6, b2] at this
      simp at this
    refine ⟨fun h => absurd (hnone n h) (by omega), k, hkn, fun k' hk' a c => ⟨?_, ?_⟩⟩
    · rintro ⟨b0, t', q', b1, b2, b3⟩
      have h1 := hnone k' b0
      have hkk : k' = k := by
        by_contra hne
        have := hmono b1 a1 (by omega)
        rw [a2, b2] at this
        simp at this
      subst hkk
      rw [steps_det b1 a4, a6] at b2
      simp only [List.cons.injEq, and_true] at b2
      exact ⟨rfl, b2.2.1.symm, b2.2.2.symm⟩
    · rintro ⟨rfl, rfl, rfl⟩
      exact ⟨⟨s', q, a1, a2, a3⟩, t, dead, a4, a6, a5⟩

/-- The law of the conversion: it happens in step `k` with the probability that there was none before and one is due
then, and the energy is shared as the tables say for the state in which it happens. -/
theorem C149_law (hprocs : cfg.procs = [.breitWheeler b])
    (hlogt : ∀ k < n, Numerics.interpolate1D b.tAxis b.tData (Dbl.log10 (bwChi b.field (pushes cfg p (k + 1)))) =
      .ok (logt (bwChi b.field (pushes cfg p (k + 1)))))
    (hshare : ∀ k < n, 0 < conversions b logt (pushes cfg p (k + 1)) → ∀ v, 0 ≤ v → v < 1 →
      bwSplit b (bwChi b.field (pushes cfg p (k + 1))) v = .ok (share (bwChi b.field (pushes cfg p (k + 1))) v) ∧
      1 ≤ share (bwChi b.field (pushes cfg p (k + 1))) v * p.energy ∧
      1 ≤ (1 - share (bwChi b.field (pushes cfg p (k + 1))) v) * p.energy)
    (hδ : ∀ k, 0 ≤ conversions b logt (pushes cfg p (k + 1)))
    (hk : p.kind = .photon) (hm : p.mass = 0) (ha : p.isAlive = true) (hmx : 3 ≤ mx)
    (hend : ∀ k < n, (k : ℝ) * cfg.dt < cfg.timeEnd) (hN : 4 ≤ N)
    (F : List ℝ → ENNReal) (G : Particle ℝ → Particle ℝ → ENNReal)
    (hG : ∀ a c d e, G (a.withDepth d) (c.withDepth e) = G a c)
    (hF : ∀ us k a c, k < n → FirstPair cfg p nm mx us k a c → F us = G a c)
    (hF0 : ∀ us, NoPair cfg p nm mx us n → F us = 0) :
    average N F = ∑ k ∈ Finset.range n,
      ENNReal.ofReal (Real.exp (-∑ j ∈ Finset.range k, conversions b logt (pushes cfg p (j + 1))) *
        (1 - Real.exp (-conversions b logt (pushes cfg p (k + 1))))) *
      ∫⁻ v in Set.Ico (0 : ℝ) 1, G (positronOf cfg b share p k v) (electronOf cfg b share p k v) := by
  obtain ⟨N, rfl⟩ : ∃ M, N = M + 1 + 1 := ⟨N - 2, by omega⟩
  have key : ∀ u rest, 0 ≤ u → u < 1 → rest.length = N + 1 → (∀ v ∈ rest, 0 ≤ v ∧ v < 1) →
      F (u :: rest) = pick (fun k => conversions b logt (pushes cfg p (k + 1)))
        (fun k => G (positronOf cfg b share p k (rest.headD 0)) (electronOf cfg b share p k (rest.headD 0)))
        n 0 (initDepth u) := by
    intro u rest h0 h1 hlen hv
    obtain ⟨u', v, x, y, rest, hh⟩ := four_le (u :: rest) (by simp; omega)
    obtain ⟨rfl, rfl⟩ := List.cons.inj hh
    have hv0 := hv v (by simp)
    rcases pair_pick (logt := logt) (share := share) hprocs hk hm ha v x y rest n 0 _ _
      (by exact lonely_photon (nm := nm) p u (v :: x :: y :: rest) hmx)
      (C16_initial_depth_nonneg u h0 h1) (fun k _ h => hlogt k (by omega))
      (fun k _ h h0 => (hshare k (by omega) h0 v hv0.1 hv0.2).1)
      (fun k hk => by simpa [lonely, EvState.init] using hend k hk)
      with ⟨t, q, a1, a2, a3, a4⟩ | ⟨k, hkn, s', q, t, dead, a1, a2, a3, a4, a5, a6, a7⟩
    · rw [a4]
      exact hF0 _ ⟨t, q, a1, a2, a3⟩
    · rw [a7, hF _ k _ _ hkn ⟨⟨s', q, a1, a2, a3⟩, t, dead, a4, a6, a5⟩, hG, Nat.zero_add]
      rfl
  have hpick : ∀ (c : ℝ → Nat → ENNReal) (m i : Nat) (d : ℝ),
      ∫⁻ v in Set.Ico (0 : ℝ) 1, pick (fun k => conversions b logt (pushes cfg p (k + 1))) (c v) m i d =
        pick (fun k => conversions b logt (pushes cfg p (k + 1))) (fun k => ∫⁻ v in Set.Ico (0 : ℝ) 1, c v k) m i d := by
    intro c m
    induction m with
    | zero => intro i d; simp [pick]
    | succ m ih =>
      intro i d
      simp only [pick]
      split_ifs
      · exact ih _ _
      · rfl
  rw [average_succ]
  have h1 : ∀ u ∈ Set.Ico (0 : ℝ) 1, (average (N + 1) fun us => F (u :: us)) =
      pick (fun k => conversions b logt (pushes cfg p (k + 1)))
        (fun k => ∫⁻ v in Set.Ico (0 : ℝ) 1, G (positronOf cfg b share p k v) (electronOf cfg b share p k v)) n 0
        (initDepth u) := by
    intro u hu
    rw [average_congr (fun us hus hv => key u us hu.1 hu.2 hus hv), average_succ,
      ← hpick (fun v k => G (positronOf cfg b share p k v) (electronOf cfg b share p k v))]
    refine lintegral_congr fun v => ?_
    simp only [List.headD_cons]
    exact average_const N _
  rw [setLIntegral_congr_fun measurableSet_Ico h1, pick_law hδ]
  simp only [Nat.zero_add]

end law

/-! ## The tables -/

/-- The quantum parameters that lie strictly inside the tables of pair production. -/
def insideSplit (b : BWCfg ℝ) : Set ℝ :=
  {χ | 0 < χ ∧ Inside b.tAxis (Real.logb 10 χ) ∧ ∃ h : 2 ≤ b.chiAxis.length,
    b.chiAxis[0] < Real.logb 10 χ ∧ Real.logb 10 χ < b.chiAxis[b.chiAxis.length - 2]}

/-- The tables of the code meet the hypotheses of the limit. -/
theorem C149_tables {b : BWCfg ℝ} (hg : b.GoodTables) (ht : b.tAxis.Pairwise (· < ·)) (hs : b.chiAxis.Pairwise (· < ·))
    (h3 : 3 ≤ b.chiAxis.length) :
    IsTable b.tAxis b.tData ∧ ∃ share : ℝ → ℝ → ℝ, ContinuousSplit (insideSplit b) share ∧
      ∀ χ ∈ insideSplit b, ∀ v, bwSplit b χ v = .ok (share χ v) := by
  obtain ⟨V, hVm, hV⟩ := split_rows hg
  have hlog : ContinuousOn (Real.logb 10) (insideSplit b) := logb_continuousOn.mono fun χ h => h.1
  refine ⟨⟨hg.t.1.symm, hg.t.2.1, hg.t.2.2, ht⟩,
    fun χ v => polyline b.chiAxis ((List.range b.chiAxis.length).map fun i => V i v) (Real.logb 10 χ), ⟨?_, ?_⟩, ?_⟩
  · intro v _
    exact (continuous_polyline _ _).comp_continuousOn hlog
  · intro χ _
    unfold polyline
    have hget : ∀ i, Measurable fun v => ((List.range b.chiAxis.length).map fun i => V i v).getD i 0 := by
      intro i
      by_cases hi : i < b.chiAxis.length
      · have : (fun v => ((List.range b.chiAxis.length).map fun i => V i v).getD i 0) = V i := by
          funext v
          simp [List.getD, hi]
        rw [this]
        exact hVm i
      · have : (fun v => ((List.range b.chiAxis.length).map fun i => V i v).getD i 0) = fun _ => 0 := by
          funext v
          simp [List.getD, hi]
        rw [this]
        exact measurable_const
    exact (hget 0).add (Finset.measurable_sum _ fun i _ => ((hget (i + 1)).sub (hget i)).mul_const _)
  · rintro χ ⟨-, -, ⟨_, h4⟩⟩ v
    exact split_polyline hg hs hV h3 h4.1 h4.2 v

/-! ## The limit of small steps -/

/-- A run of `n + 1` steps over a time `T` with the Lorentz force and pair production in the same field, with `s` and `d`
the table of its rate, and `share` the tables of the energy on `O`. -/
structure PairSplitRun (field : Field ℝ) (s d : List ℝ) (O : Set ℝ) (share : ℝ → ℝ → ℝ) (T : ℝ) (n : Nat)
    (cfg : SimCfg ℝ) : Prop where
  push : cfg.push = lorentzForce
  same : cfg.field = field
  step : cfg.dt = T / (n + 1)
  time : T ≤ cfg.timeEnd
  procs : ∃ b, cfg.procs = [.breitWheeler b] ∧ b.field = field ∧ b.dt = T / (n + 1) ∧ b.tAxis = s ∧ b.tData = d ∧
    ∀ χ ∈ O, ∀ v, 0 ≤ v → v < 1 → bwSplit b χ v = .ok (share χ v)

theorem direction_unit {q : Particle ℝ} {u : Fin 3 → ℝ} (hu : IsUnitAlong u q.momentum.toVec) : q.direction.toVec = u := by
  obtain ⟨h1, c, hc, hv⟩ := hu
  have hm : q.momentum.mag = c := by rw [mag_eq, hv, len_smul, h1, mul_one, abs_of_pos hc]
  unfold Particle.direction V3.norm
  rw [toVec_divs, hm, hv, smul_smul, inv_mul_cancel₀ hc.ne', one_smul]

theorem momentumAlong_le {u : Fin 3 → ℝ} (hu : len u = 1) {ε E : ℝ} (h1 : 1 ≤ ε) (h2 : ε ≤ E) : ‖momentumAlong u ε‖ ≤ E := by
  unfold momentumAlong
  rw [norm_smul, Real.norm_eq_abs, abs_of_nonneg (Real.sqrt_nonneg _)]
  have a1 : ‖u‖ ≤ 1 := hu ▸ norm_le_len u
  have a2 : √(ε ^ 2 - 1) ≤ E := Real.sqrt_le_iff.2 ⟨by linarith, by nlinarith⟩
  calc _ ≤ E * 1 := by gcongr; linarith
    _ = E := mul_one E

theorem continuous_momentumAlong (u : Fin 3 → ℝ) : Continuous (momentumAlong u) := by
  unfold momentumAlong
  fun_prop

/-- C149: as the time step goes to zero, the time of the conversion and the momenta of the pair get the law of the theory.
The photon has not converted up to `t` with the probability `exp (-∫ rate)` along its straight path, and the pair has
the momenta along the path with the shares that the tables give for the quantum parameter at the place. -/
theorem C149_limit {field : Field ℝ} {F K : ℝ} (hf : SmoothField field F K) {s d : List ℝ} (ht : IsTable s d)
    {O : Set ℝ} {share : ℝ → ℝ → ℝ} (hs : ContinuousSplit O share)
    (p : Particle ℝ) (hk : p.kind = .photon) (hm : p.mass = 0) (ha : p.isAlive = true) {T : ℝ} (hT : 0 < T)
    (u : Fin 3 → ℝ) (hu : IsUnitAlong u p.momentum.toVec) {χ : ℝ → ℝ}
    (hχ : ∀ t, χ t = chiOf field t (p.position.toVec + (t - p.time) • u) p.momentum.toVec)
    (hin : ∀ t ∈ Set.Icc p.time (p.time + T), 0 < χ t ∧ Inside s (Real.logb 10 (χ t)) ∧ χ t ∈ O)
    (hE : ∀ t ∈ Set.Icc p.time (p.time + T), ∀ v ∈ Set.Ico (0 : ℝ) 1,
      1 ≤ share (χ t) v * p.energy ∧ 1 ≤ (1 - share (χ t) v) * p.energy)
    {Φ : ℝ × (Fin 3 → ℝ) × (Fin 3 → ℝ) → ℝ} (hΦ : Continuous Φ) (hΦ0 : ∀ z, 0 ≤ Φ z)
    (cfg : Nat → SimCfg ℝ) (hcfg : ∀ n, PairSplitRun field s d O share T n (cfg n)) (nm : String)
    (mx N : Nat → Nat) (hmx : ∀ n, 3 ≤ mx n) (hN : ∀ n, 4 ≤ N n) (A : Nat → List ℝ → ENNReal)
    (hA : ∀ n us k a c, k < n + 1 → FirstPair (cfg n) p nm (mx n) us k a c →
      A n us = ENNReal.ofReal (Φ (a.time, a.momentum.toVec, c.momentum.toVec)))
    (hA0 : ∀ n us, NoPair (cfg n) p nm (mx n) us (n + 1) → A n us = 0) :
    Tendsto (fun n => average (N n) (A n)) atTop
      (𝓝 (ENNReal.ofReal (∫ t in p.time..p.time + T,
        Real.exp (-∫ r in p.time..t, pairRate s d field r (p.position.toVec + (r - p.time) • u) p.momentum.toVec) *
        (pairRate s d field t (p.position.toVec + (t - p.time) • u) p.momentum.toVec *
          ∫ v in Set.Ico (0 : ℝ) 1, Φ (t, momentumAlong u (share (χ t) v * p.energy),
            momentumAlong u ((1 - share (χ t) v) * p.energy)))))) := by
  have hu1 : len u = 1 := hu.1
  have hmom : p.momentum.toVec ≠ 0 := by
    obtain ⟨h1, c, hc, hv⟩ := hu
    intro h
    rw [hv] at h
    rcases smul_eq_zero.mp h with h | h
    · exact hc.ne' h
    · rw [h] at h1; simp [len] at h1
  obtain ⟨w, hw⟩ : ∃ w : ℝ → ℝ,
      w = fun t => pairRate s d field t (p.position.toVec + (t - p.time) • u) p.momentum.toVec := ⟨_, rfl⟩
  have hwt : ∀ t, pairRate s d field t (p.position.toVec + (t - p.time) • u) p.momentum.toVec = w t :=
    fun t => by rw [hw]
  have hEn : p.energy = Real.sqrt (p.momentum.toVec 0 ^ 2 + p.momentum.toVec 1 ^ 2 + p.momentum.toVec 2 ^ 2) :=
    (chi_of_photon field p hk hmom).2
  have hE0 : 0 < p.energy := by
    rw [hEn]
    exact lt_of_le_of_ne (Real.sqrt_nonneg _) (Ne.symm (len_ne hmom))
  have hwχ : ∀ t, w t = Units.alpha * χ t * (10 : ℝ) ^ polyline s d (Real.logb 10 (χ t)) / p.energy := by
    intro t
    rw [hw, hχ, hEn]
    rfl
  simp only [hwt]
  obtain ⟨E, hEdef⟩ : ∃ E, E = p.energy := ⟨_, rfl⟩
  rw [← hEdef] at hE0 hwχ
  simp only [← hEdef] at hE ⊢
  -- continuity along the path
  obtain ⟨hF0, hK0⟩ := smooth_nonneg hf
  have hχc : ContinuousOn χ (Set.Icc p.time (p.time + T)) := by
    have hxc : Continuous fun t : ℝ => (t, p.position.toVec + (t - p.time) • u) := by fun_prop
    have h1 : Continuous fun t => electric field t (p.position.toVec + (t - p.time) • u) := by
      exact hf.continuous_electric.comp hxc
    have h2 : Continuous fun t => magnetic field t (p.position.toVec + (t - p.time) • u) := by
      exact hf.continuous_magnetic.comp hxc
    have : χ = fun t => chiOf field t (p.position.toVec + (t - p.time) • u) p.momentum.toVec := funext hχ
    rw [this]
    unfold chiOf
    exact ((continuous_quantumParameter h1 h2 continuous_const continuous_const).div_const _).continuousOn
  have hwc : ContinuousOn w (Set.Icc p.time (p.time + T)) := by
    have : w = fun t => Units.alpha * χ t * (10 : ℝ) ^ polyline s d (Real.logb 10 (χ t)) / E := funext hwχ
    rw [this]
    refine ContinuousOn.div_const ((continuousOn_const.mul hχc).mul
      (continuousOn_const.rpow ((continuous_polyline s d).comp_continuousOn ?_) fun _ _ => Or.inl (by norm_num))) _
    unfold Real.logb
    exact (hχc.log fun t htt => (hin t htt).1.ne').div_const _
  have hw0 : ∀ t ∈ Set.Icc p.time (p.time + T), 0 < w t := by
    intro t htt
    rw [hwχ]
    have := (hin t htt).1
    have := alpha_pos
    positivity
  -- the pair
  obtain ⟨Q, hQ⟩ : ∃ Q : ℝ → ℝ → ℝ × (Fin 3 → ℝ) × (Fin 3 → ℝ), Q = fun t v =>
    (t, momentumAlong u (share (χ t) v * E), momentumAlong u ((1 - share (χ t) v) * E)) := ⟨_, rfl⟩
  have hQt : ∀ t v, (t, momentumAlong u (share (χ t) v * E), momentumAlong u ((1 - share (χ t) v) * E)) = Q t v :=
    fun t v => by rw [hQ]
  simp only [hQt]
  have hmomle : ∀ t ∈ Set.Icc p.time (p.time + T), ∀ v ∈ Set.Ico (0 : ℝ) 1,
      ‖(Q t v).2.1‖ ≤ E ∧ ‖(Q t v).2.2‖ ≤ E := by
    intro t htt v hv
    obtain ⟨h1, h2⟩ := hE t htt v hv
    rw [hQ]
    exact ⟨momentumAlong_le hu1 h1 (by nlinarith), momentumAlong_le hu1 h2 (by nlinarith)⟩
  obtain ⟨C, hC⟩ : ∃ C, C = 1 + 3 * F := ⟨_, rfl⟩
  have hC0 : 0 < C := by rw [hC]; positivity
  obtain ⟨Z, hZ⟩ : ∃ Z : Set (ℝ × (Fin 3 → ℝ) × (Fin 3 → ℝ)), Z = Set.Icc p.time (p.time + T + T) ×ˢ
    (Metric.closedBall 0 (E + T * C) ×ˢ Metric.closedBall 0 (E + T * C)) := ⟨_, rfl⟩
  have hZc : IsCompact Z := by
    rw [hZ]
    exact isCompact_Icc.prod ((isCompact_closedBall _ _).prod (isCompact_closedBall _ _))
  have hQZ : ∀ t ∈ Set.Icc p.time (p.time + T), ∀ v ∈ Set.Ico (0 : ℝ) 1, Q t v ∈ Z := by
    intro t htt v hv
    obtain ⟨h1, h2⟩ := hmomle t htt v hv
    have h3 : (Q t v).1 = t := by rw [hQ]
    have h4 : 0 ≤ T * C := by positivity
    rw [hZ]
    refine ⟨?_, ?_, ?_⟩
    · rw [h3]
      exact ⟨htt.1, by linarith [htt.2]⟩
    · rw [mem_closedBall_zero_iff]
      linarith
    · rw [mem_closedBall_zero_iff]
      linarith
  obtain ⟨B, hB⟩ := hZc.exists_bound_of_continuousOn hΦ.continuousOn
  have hΦB : ∀ z ∈ Z, Φ z ≤ B := fun z hz => (le_abs_self _).trans (hB z hz)
  have hQm : ∀ t ∈ Set.Icc p.time (p.time + T), Measurable fun v => Φ (Q t v) := by
    intro t htt
    have h1 : Continuous fun x : ℝ => Φ (t, momentumAlong u (x * E), momentumAlong u ((1 - x) * E)) := by
      have := continuous_momentumAlong u
      fun_prop
    have h2 : (fun v => Φ (Q t v)) = (fun x : ℝ => Φ (t, momentumAlong u (x * E), momentumAlong u ((1 - x) * E))) ∘
      share (χ t) := by rw [hQ]; rfl
    rw [h2]
    exact h1.measurable.comp (hs.measurable _ (hin t htt).2.2)
  have hIc : ContinuousOn (fun t => ∫ v in Set.Ico (0 : ℝ) 1, Φ (Q t v)) (Set.Icc p.time (p.time + T)) := by
    refine continuousOn_of_dominated (bound := fun _ => B) (fun t htt => (hQm t htt).aestronglyMeasurable) ?_ ?_ ?_
    · intro t htt
      exact (ae_restrict_mem measurableSet_Ico).mono fun v hv => hB _ (hQZ t htt v hv)
    · exact integrable_const _
    · refine (ae_restrict_mem measurableSet_Ico).mono fun v hv => ?_
      have h1 : ContinuousOn (fun t => share (χ t) v) (Set.Icc p.time (p.time + T)) :=
        (hs.continuous v hv).comp hχc fun t htt => (hin t htt).2.2
      have h2 : Continuous fun z : ℝ × ℝ => Φ (z.1, momentumAlong u (z.2 * E), momentumAlong u ((1 - z.2) * E)) := by
        have := continuous_momentumAlong u
        fun_prop
      have h3 : (fun t => Φ (Q t v)) = fun t => (fun z : ℝ × ℝ => Φ (z.1, momentumAlong u (z.2 * E),
        momentumAlong u ((1 - z.2) * E))) (t, share (χ t) v) := by rw [hQ]
      rw [h3]
      exact h2.comp_continuousOn (continuousOn_id.prodMk h1)
  -- what the code does in a step
  choose b hb1 hb2 hb3 hb4 hb5 hb6 using fun n => (hcfg n).procs
  have hstep : ∀ n : Nat, 0 < T / ((n : ℝ) + 1) := fun n => by positivity
  have hstepT : ∀ n : Nat, T / ((n : ℝ) + 1) ≤ T := by
    intro n
    rw [div_le_iff₀ (by positivity)]
    have : (0 : ℝ) ≤ n := by positivity
    nlinarith
  have hat : ∀ n k, (pushes (cfg n) p (k + 1)).time = p.time + ((k + 1 : Nat) : ℝ) * (T / (n + 1)) ∧
      bwChi (b n).field (pushes (cfg n) p (k + 1)) = χ (p.time + ((k + 1 : Nat) : ℝ) * (T / (n + 1))) ∧
      (pushes (cfg n) p (k + 1)).energy = E ∧ (pushes (cfg n) p (k + 1)).direction.toVec = u := by
    intro n k
    obtain ⟨a1, a2, a3, a4, -⟩ := C26_pushes (cfg n).push (cfg n).field (cfg n).dt p ha hm u hu (k + 1)
    obtain ⟨i1, -⟩ := pushes_identity (cfg n) p (k + 1)
    have e2 : (pushes (cfg n) p (k + 1)).momentum = p.momentum := a2
    have e4 : (pushes (cfg n) p (k + 1)).time = p.time + ((k + 1 : Nat) : ℝ) * (T / (n + 1)) := by
      rw [← (hcfg n).step]; exact a4
    have e1 : (pushes (cfg n) p (k + 1)).position.toVec = p.position.toVec +
        ((p.time + ((k + 1 : Nat) : ℝ) * (T / (n + 1))) - p.time) • u := by
      rw [← (hcfg n).step, add_sub_cancel_left]
      exact a1
    obtain ⟨c1, c2⟩ := chi_of_photon field (pushes (cfg n) p (k + 1)) (i1.trans hk) (by rw [e2]; exact hmom)
    refine ⟨e4, ?_, ?_, direction_unit (by rw [e2]; exact hu)⟩
    · rw [hb2, c1, e1, e2, e4, hχ]
    · rw [hEdef]; exact a3
  obtain ⟨f, hfdef⟩ : ∃ f : Nat → Nat → ℝ → ℝ, f = fun n k v => Φ ((positronOf (cfg n) (b n) share p k v).time,
    (positronOf (cfg n) (b n) share p k v).momentum.toVec, (electronOf (cfg n) (b n) share p k v).momentum.toVec) :=
    ⟨_, rfl⟩
  have hmade : ∀ n k (c ε : ℝ), |c| = 1 →
      (pushParticle (cfg n).push (cfg n).field (cfg n).dt (madeBy (b n) (pushes (cfg n) p (k + 1)) c ε)).time =
        p.time + ((k + 1 : Nat) : ℝ) * (T / (n + 1)) + T / (n + 1) ∧
      ‖(pushParticle (cfg n).push (cfg n).field (cfg n).dt
        (madeBy (b n) (pushes (cfg n) p (k + 1)) c ε)).momentum.toVec - momentumAlong u ε‖ ≤ T / (n + 1) * C := by
    intro n k c ε hc
    obtain ⟨h1, -, -, h4⟩ := hat n k
    obtain ⟨g1, g2⟩ := push_near hf (madeBy (b n) (pushes (cfg n) p (k + 1)) c ε) rfl one_pos (hstep n).le
    rw [(hcfg n).push, (hcfg n).same, (hcfg n).step]
    have e1 : (madeBy (b n) (pushes (cfg n) p (k + 1)) c ε).time = p.time + ((k + 1 : Nat) : ℝ) * (T / (n + 1)) := h1
    have e2 : (madeBy (b n) (pushes (cfg n) p (k + 1)) c ε).momentum.toVec = momentumAlong u ε := by
      show ((pushes (cfg n) p (k + 1)).direction.smul √(ε ^ 2 - 1)).toVec = _
      rw [toVec_smul, h4]
      rfl
    have e3 : (madeBy (b n) (pushes (cfg n) p (k + 1)) c ε).charge = c := rfl
    rw [e1] at g1
    rw [e2, e3, hc] at g2
    exact ⟨g1, by rw [hC]; simpa using g2⟩
  have hnear : ∀ ε > 0, ∃ M, ∀ n ≥ M, ∀ k < n + 1, ∀ v ∈ Set.Ico (0 : ℝ) 1,
      |f n k v - Φ (Q (p.time + ((k + 1 : Nat) : ℝ) * (T / (n + 1))) v)| ≤ ε := by
    intro ε hε
    obtain ⟨δ, hδ0, hδ⟩ := Metric.uniformContinuousOn_iff.1 (hZc.uniformContinuousOn_of_continuous hΦ.continuousOn) ε hε
    obtain ⟨M, hM⟩ := exists_nat_gt (T * (C + 1) / δ)
    refine ⟨M, fun n hn k hkn v hv => ?_⟩
    have hsmall : T / ((n : ℝ) + 1) * (C + 1) < δ := by
      rw [div_lt_iff₀ hδ0] at hM
      rw [div_mul_eq_mul_div, div_lt_iff₀ (by positivity)]
      have : (M : ℝ) ≤ n := by exact_mod_cast hn
      nlinarith
    have hgrid := on_grid (a := p.time) hT n k hkn
    obtain ⟨-, c2, c3, -⟩ := hat n k
    obtain ⟨m1, m2⟩ := hmade n k 1 (share (χ (p.time + ((k + 1 : Nat) : ℝ) * (T / (n + 1)))) v * E) (by simp)
    obtain ⟨-, m4⟩ := hmade n k (-1) ((1 - share (χ (p.time + ((k + 1 : Nat) : ℝ) * (T / (n + 1)))) v) * E) (by simp)
    have hstepn := hstep n
    have hstepTn := hstepT n
    generalize hτ : p.time + ((k + 1 : Nat) : ℝ) * (T / (n + 1)) = τ at *
    have hz : f n k v = Φ (τ + T / (n + 1), (positronOf (cfg n) (b n) share p k v).momentum.toVec,
        (electronOf (cfg n) (b n) share p k v).momentum.toVec) := by
      rw [hfdef]
      dsimp only
      congr 2
      unfold positronOf
      rw [c2, c3]
      exact m1
    have d1 : ‖(positronOf (cfg n) (b n) share p k v).momentum.toVec - (Q τ v).2.1‖ ≤ T / (n + 1) * C := by
      unfold positronOf
      rw [c2, c3, hQ]
      exact m2
    have d2 : ‖(electronOf (cfg n) (b n) share p k v).momentum.toVec - (Q τ v).2.2‖ ≤ T / (n + 1) * C := by
      unfold electronOf
      rw [c2, c3, hQ]
      exact m4
    obtain ⟨q1, q2⟩ := hmomle τ hgrid v hv
    have q3 : (Q τ v).1 = τ := by rw [hQ]
    have hTC : T / ((n : ℝ) + 1) * C ≤ T * C := by gcongr
    have hmemZ : (τ + T / (n + 1), (positronOf (cfg n) (b n) share p k v).momentum.toVec,
        (electronOf (cfg n) (b n) share p k v).momentum.toVec) ∈ Z := by
      rw [hZ]
      refine ⟨⟨by linarith [hgrid.1], by linarith [hgrid.2]⟩, ?_, ?_⟩
      · rw [mem_closedBall_zero_iff]
        have := norm_le_norm_add_norm_sub' (positronOf (cfg n) (b n) share p k v).momentum.toVec (Q τ v).2.1
        linarith
      · rw [mem_closedBall_zero_iff]
        have := norm_le_norm_add_norm_sub' (electronOf (cfg n) (b n) share p k v).momentum.toVec (Q τ v).2.2
        linarith
    have hlt : T / ((n : ℝ) + 1) * C < δ := by nlinarith
    have hlt' : T / ((n : ℝ) + 1) < δ := by nlinarith
    have := hδ _ hmemZ _ (hQZ τ hgrid v hv) (by
      rw [Prod.dist_eq, Prod.dist_eq, q3]
      refine max_lt ?_ (max_lt ?_ ?_)
      · rw [Real.dist_eq]
        simpa [abs_of_pos hstepn] using hlt'
      · rw [dist_eq_norm]
        exact lt_of_le_of_lt d1 hlt
      · rw [dist_eq_norm]
        exact lt_of_le_of_lt d2 hlt)
    rw [Real.dist_eq] at this
    rw [hz]
    exact this.le
  obtain ⟨D, hD⟩ := isCompact_Icc.exists_bound_of_continuousOn hwc
  have hD0 : 0 ≤ D := (norm_nonneg _).trans (hD p.time ⟨le_rfl, by linarith⟩)
  have hmean : ∀ ε > 0, ∃ M, ∀ n ≥ M, ∀ k < n + 1, (∫⁻ v in Set.Ico (0 : ℝ) 1, ENNReal.ofReal (f n k v)) ≠ ⊤ ∧
      |(∫⁻ v in Set.Ico (0 : ℝ) 1, ENNReal.ofReal (f n k v)).toReal -
        ∫ v in Set.Ico (0 : ℝ) 1, Φ (Q (p.time + ((k + 1 : Nat) : ℝ) * (T / (n + 1))) v)| ≤ ε := by
    intro ε hε
    obtain ⟨M, hM⟩ := hnear ε hε
    refine ⟨M, fun n hn k hkn => ?_⟩
    have hgrid := on_grid (a := p.time) hT n k hkn
    exact near_mean (hQm _ hgrid) (fun v _ => hΦ0 _) (fun v hv => hΦB _ (hQZ _ hgrid v hv)) hε.le (hM n hn k hkn)
  have hlim := first_limit (w := w) (f := fun t => w t * ∫ v in Set.Ico (0 : ℝ) 1, Φ (Q t v)) hT hwc (hwc.mul hIc)
    (fun t htt => (hw0 t htt).le) (W := fun n k => w (p.time + ((k + 1 : Nat) : ℝ) * (T / (n + 1))))
    (S := fun n k => w (p.time + ((k + 1 : Nat) : ℝ) * (T / (n + 1))) *
      (∫⁻ v in Set.Ico (0 : ℝ) 1, ENNReal.ofReal (f n k v)).toReal)
    (fun ε hε => ⟨0, fun n _ k _ => by simpa using hε.le⟩)
    (fun ε hε => by
      obtain ⟨M, hM⟩ := hmean (ε / (D + 1)) (by positivity)
      refine ⟨M, fun n hn k hkn => ?_⟩
      have h1 := (hM n hn k hkn).2
      have h2 := hD _ (on_grid (a := p.time) hT n k hkn)
      rw [Real.norm_eq_abs] at h2
      rw [← mul_sub, abs_mul]
      calc _ ≤ D * (ε / (D + 1)) := by gcongr
        _ ≤ (D + 1) * (ε / (D + 1)) := by gcongr; linarith
        _ = ε := by field_simp)
    (M := 0) (fun n _ k hkn => hw0 _ (on_grid (a := p.time) hT n k hkn))
  refine (ENNReal.continuous_ofReal.continuousAt.tendsto.comp hlim).congr' ?_
  obtain ⟨M, hM⟩ := hmean 1 one_pos
  filter_upwards [eventually_ge_atTop M] with n hn
  have hconv : ∀ k, conversions (b n) (fun x => polyline s d (Real.logb 10 x)) (pushes (cfg n) p (k + 1)) =
      T / (n + 1) * w (p.time + ((k + 1 : Nat) : ℝ) * (T / (n + 1))) := by
    intro k
    obtain ⟨-, c2, c3, -⟩ := hat n k
    unfold conversions
    rw [c2, c3, hb3, hwχ]
    ring
  have hχ0 : ∀ t, 0 ≤ χ t := by
    intro t
    rw [hχ]
    unfold chiOf quantumParameter
    exact div_nonneg (Real.sqrt_nonneg _) (by norm_num)
  rw [C149_law (b := b n) (share := share) (logt := fun x => polyline s d (Real.logb 10 x)) (n := n + 1) (hb1 n)
    (fun k hkn => by
      obtain ⟨-, c2, -, -⟩ := hat n k
      obtain ⟨-, ⟨_, b2, b3⟩, -⟩ := hin _ (on_grid (a := p.time) hT n k hkn)
      rw [c2, hb4, hb5, show (Dbl.log10 (χ (p.time + ((k + 1 : Nat) : ℝ) * (T / (n + 1)))) : ℝ) =
        Real.logb 10 (χ (p.time + ((k + 1 : Nat) : ℝ) * (T / (n + 1)))) by simp [Real.logb]]
      exact interpolate_polyline ht _ (le_of_lt b2) b3)
    (fun k hkn _ v hv0 hv1 => by
      obtain ⟨-, c2, -, -⟩ := hat n k
      have hg := on_grid (a := p.time) hT n k hkn
      rw [c2, ← hEdef]
      exact ⟨hb6 n _ (hin _ hg).2.2 v hv0 hv1, hE _ hg v ⟨hv0, hv1⟩⟩)
    (fun k => by
      rw [hconv, hwχ]
      have := hχ0 (p.time + ((k + 1 : Nat) : ℝ) * (T / (n + 1)))
      have := alpha_pos
      have := hstep n
      positivity)
    hk hm ha (hmx n) (by rw [(hcfg n).step]; exact before_end hT (hcfg n).time n) (hN n) (A n)
    (fun a c => ENNReal.ofReal (Φ (a.time, a.momentum.toVec, c.momentum.toVec)))
    (fun a c d e => rfl) (fun us k a c hkn h => hA n us k a c hkn h) (hA0 n)]
  simp only [Function.comp]
  rw [ENNReal.ofReal_sum_of_nonneg]
  · refine Finset.sum_congr rfl fun k hkn => ?_
    have hkn := Finset.mem_range.1 hkn
    obtain ⟨hfin, -⟩ := hM n hn k hkn
    have hW := hw0 _ (on_grid (a := p.time) hT n k hkn)
    have hst := hstep n
    simp only [hconv]
    have hJ : ∫⁻ v in Set.Ico (0 : ℝ) 1, ENNReal.ofReal (Φ ((positronOf (cfg n) (b n) share p k v).time,
        (positronOf (cfg n) (b n) share p k v).momentum.toVec, (electronOf (cfg n) (b n) share p k v).momentum.toVec)) =
        ENNReal.ofReal (∫⁻ v in Set.Ico (0 : ℝ) 1, ENNReal.ofReal (f n k v)).toReal := by
      rw [ENNReal.ofReal_toReal hfin, hfdef]
    rw [hJ]
    generalize (∫⁻ v in Set.Ico (0 : ℝ) 1, ENNReal.ofReal (f n k v)).toReal = J
    have hX := Real.exp_pos (-∑ j ∈ Finset.range k, T / (n + 1) * w (p.time + ((j + 1 : Nat) : ℝ) * (T / (n + 1))))
    generalize Real.exp (-∑ j ∈ Finset.range k, T / (n + 1) * w (p.time + ((j + 1 : Nat) : ℝ) * (T / (n + 1)))) = X at hX ⊢
    generalize w (p.time + ((k + 1 : Nat) : ℝ) * (T / (n + 1))) = W at hW ⊢
    have hρ : 0 ≤ 1 - Real.exp (-(T / (n + 1) * W)) :=
      sub_nonneg.2 (Real.exp_le_one_iff.2 (neg_nonpos.2 (by positivity)))
    rw [← ENNReal.ofReal_mul (mul_nonneg hX.le hρ)]
    congr 1
    field_simp
  · intro k hkn
    have hkn := Finset.mem_range.1 hkn
    have hW := hw0 _ (on_grid (a := p.time) hT n k hkn)
    have hst := hstep n
    have hρ := div_nonneg (sub_nonneg.2 (Real.exp_le_one_iff.2 (neg_nonpos.2 (mul_pos hst hW).le))) (mul_pos hst hW).le
    have : 0 ≤ (∫⁻ v in Set.Ico (0 : ℝ) 1, ENNReal.ofReal (f n k v)).toReal := ENNReal.toReal_nonneg
    positivity

/-- C149: the probability that the photon has made a pair goes to one minus the exponential of the integral of the rate. -/
theorem C149_some {field : Field ℝ} {F K : ℝ} (hf : SmoothField field F K) {s d : List ℝ} (ht : IsTable s d)
    {O : Set ℝ} {share : ℝ → ℝ → ℝ} (hs : ContinuousSplit O share)
    (p : Particle ℝ) (hk : p.kind = .photon) (hm : p.mass = 0) (ha : p.isAlive = true) {T : ℝ} (hT : 0 < T)
    (u : Fin 3 → ℝ) (hu : IsUnitAlong u p.momentum.toVec) {χ : ℝ → ℝ}
    (hχ : ∀ t, χ t = chiOf field t (p.position.toVec + (t - p.time) • u) p.momentum.toVec)
    (hin : ∀ t ∈ Set.Icc p.time (p.time + T), 0 < χ t ∧ Inside s (Real.logb 10 (χ t)) ∧ χ t ∈ O)
    (hE : ∀ t ∈ Set.Icc p.time (p.time + T), ∀ v ∈ Set.Ico (0 : ℝ) 1,
      1 ≤ share (χ t) v * p.energy ∧ 1 ≤ (1 - share (χ t) v) * p.energy)
    (cfg : Nat → SimCfg ℝ) (hcfg : ∀ n, PairSplitRun field s d O share T n (cfg n)) (nm : String)
    (mx N : Nat → Nat) (hmx : ∀ n, 3 ≤ mx n) (hN : ∀ n, 4 ≤ N n) :
    Tendsto (fun n => likelihood (N n) fun us => ∃ k < n + 1, ∃ a c, FirstPair (cfg n) p nm (mx n) us k a c) atTop
      (𝓝 (ENNReal.ofReal (1 - Real.exp (-∫ t in p.time..p.time + T,
        pairRate s d field t (p.position.toVec + (t - p.time) • u) p.momentum.toVec)))) := by
  have key := C149_limit hf ht hs p hk hm ha hT u hu hχ hin hE (Φ := fun _ => 1) continuous_const (fun _ => zero_le_one)
    cfg hcfg nm mx N hmx hN (fun n us => indic (∃ k < n + 1, ∃ a c, FirstPair (cfg n) p nm (mx n) us k a c))
    (fun n us k a c hkn h => by
      unfold indic
      rw [if_pos ⟨k, hkn, a, c, h⟩]
      simp)
    (fun n us h => by
      unfold indic
      rw [if_neg]
      rintro ⟨k, hkn, a, c, -, t, q, b1, b2, -⟩
      obtain ⟨t', q', c1, c2, -⟩ := h
      have := steps_length_mono b1 c1 (by omega)
      rw [b2, c2] at this
      simp at this)
  have h1 : ∫ v in Set.Ico (0 : ℝ) 1, (1 : ℝ) = 1 := by simp
  simp only [h1, mul_one] at key
  rw [survival_integral hT.le] at key
  · exact key
  have hχc : ContinuousOn χ (Set.Icc p.time (p.time + T)) := by
    have hxc : Continuous fun t : ℝ => (t, p.position.toVec + (t - p.time) • u) := by fun_prop
    have h1 : Continuous fun t => electric field t (p.position.toVec + (t - p.time) • u) := by
      exact hf.continuous_electric.comp hxc
    have h2 : Continuous fun t => magnetic field t (p.position.toVec + (t - p.time) • u) := by
      exact hf.continuous_magnetic.comp hxc
    have : χ = fun t => chiOf field t (p.position.toVec + (t - p.time) • u) p.momentum.toVec := funext hχ
    rw [this]
    unfold chiOf
    exact ((continuous_quantumParameter h1 h2 continuous_const continuous_const).div_const _).continuousOn
  unfold pairRate
  simp only [← hχ]
  refine ContinuousOn.div_const ((continuousOn_const.mul hχc).mul
    (continuousOn_const.rpow ((continuous_polyline s d).comp_continuousOn ?_) fun _ _ => Or.inl (by norm_num))) _
  unfold Real.logb
  exact (hχc.log fun t htt => (hin t htt).1.ne').div_const _

/-! ## The hypotheses are satisfiable -/

namespace Witness

/-- Pair production with tables around the quantum parameter 1: the positron gets between 2/5 and 3/5 of the energy. -/
noncomputable def firstPair (dt : ℝ) : BWCfg ℝ :=
  { bwCfg dt with
    tAxis := [-1, 1]
    tData := [0, 0]
    chiAxis := [-1, 1, 2]
    fractAxis := [2 / 5, 3 / 5] }

/-- A photon in a uniform field, for a time `T` in `n + 1` steps. -/
noncomputable def pairCfg (T : ℝ) (n : Nat) : SimCfg ℝ :=
  ⟨lorentzForce, field, T / (n + 1), T, [.breitWheeler (firstPair (T / (n + 1)))]⟩

theorem pair_good (dt : ℝ) : (firstPair dt).GoodTables := by
  refine ⟨⟨rfl, le_rfl, by norm_num [firstPair]⟩, ⟨by simp [firstPair], by norm_num [firstPair]⟩, rfl, ?_⟩
  intro t ht
  simp only [firstPair, bwCfg, List.mem_cons, List.not_mem_nil, or_false, or_self] at ht
  subst ht
  exact ⟨rfl, le_rfl, by norm_num⟩

theorem pair_share (dt : ℝ) {v : ℝ} (h0 : 0 ≤ v) (h1 : v < 1) : bwSplit (firstPair dt) 1 v = .ok (2 / 5 + v / 5) := by
  obtain ⟨V, -, hV⟩ := split_rows (pair_good dt)
  rw [split_polyline (pair_good dt) (by norm_num [firstPair]) hV le_rfl (by norm_num [firstPair])
    (by norm_num [firstPair])]
  have hv : ∀ i < 3, V i v = 2 / 5 + v / 5 := by
    intro i hi
    have a1 := hV i [0, 1] (by
      simp only [firstPair, bwCfg]
      rcases i with _ | _ | _ | i
      all_goals first | rfl | omega) v
    have htab : IsTable [(0 : ℝ), 1] [2 / 5, 3 / 5] := ⟨rfl, by simp, by simp, by norm_num⟩
    rw [← Res.ok.inj ((interpolate_polyline htab v (by simpa using h0) (by simpa using h1)).symm.trans a1)]
    simp only [polyline]
    norm_num [h0, h1.le]
    ring
  simp only [firstPair, List.length_cons, List.length_nil, List.range_succ, List.range_zero]
  simp [hv, polyline, Finset.sum_range_succ]

end Witness

open Witness in
/-- A photon of energy 4 across a uniform field with `χ = 1`: the probability that it has made a pair goes to
`1 - exp (-α T / 4)`. -/
example (T : ℝ) (hT : 0 < T) : Tendsto (fun n => likelihood 4 fun us => ∃ k < n + 1, ∃ a c,
      FirstPair (pairCfg T n) photon "0" 10 us k a c) atTop
    (𝓝 (ENNReal.ofReal (1 - Real.exp (-(T * (Units.alpha / 4)))))) := by
  have hmom : photon.momentum.toVec = ![0, 0, 4] := by
    simp [photon, Particle.newPhotonE, Particle.new, V3.toVec, V3.norm, V3.divs, V3.mag, V3.dot, V3.smul]
  have htime : photon.time = 0 := rfl
  have hmass : photon.mass = 0 := by simp [photon, Particle.newPhotonE, Particle.new]
  have hE : ∀ t x, electric Witness.field t x = ![1 / 2, 0, 0] := by intro t x; rfl
  have hB : ∀ t x, magnetic Witness.field t x = ![0, 0, 0] := by intro t x; rfl
  have hchi : ∀ t x, chiOf Witness.field t x ![0, 0, 4] = 1 := by
    intro t x
    unfold chiOf
    rw [hE, hB, quantumParameter_eq]
    simp only [V3.ofVec]
    norm_num
    simp only [Matrix.cons_val]
    rw [show ((4:ℝ) ^ 2) = 16 by norm_num, Witness.sqrt16]
    norm_num
    rw [show (4:ℝ) = 2 ^ 2 by norm_num, Real.sqrt_sq (by norm_num)]
    norm_num
  have hen : photon.energy = 4 := by
    rw [(chi_of_photon Witness.field photon rfl (by rw [hmom]; intro h; simpa using congrFun h 2)).2, hmom]
    norm_num
    simp only [Matrix.cons_val]
    rw [show ((4:ℝ) ^ 2) = 16 by norm_num, Witness.sqrt16]
  obtain ⟨F, hF⟩ : ∃ F, SmoothField Witness.field F 0 := C104_static _ _
  obtain ⟨htab, share, hs1, hs2⟩ := C149_tables (pair_good 1) (by norm_num [firstPair]) (by norm_num [firstPair]) le_rfl
  have h1 : (1 : ℝ) ∈ insideSplit (firstPair 1) :=
    ⟨one_pos, ⟨by simp [firstPair], by norm_num [firstPair], by norm_num [firstPair]⟩,
      by simp [firstPair], by norm_num [firstPair], by norm_num [firstPair]⟩
  have hv : ∀ v ∈ Set.Ico (0 : ℝ) 1, share 1 v = 2 / 5 + v / 5 := by
    intro v hv
    exact Res.ok.inj ((hs2 1 h1 v).symm.trans (pair_share 1 hv.1 hv.2))
  have key := C149_some hF htab hs1 photon rfl hmass rfl hT ![0, 0, 1] (χ := fun _ => 1) ?_ ?_ ?_ ?_ (pairCfg T) ?_ "0"
    (fun _ => 10) (fun _ => 4) (fun _ => by norm_num) (fun _ => le_rfl)
  · rw [htime, hmom] at key
    convert key using 5
    have hl : polyline [-1, 1] [0, 0] (Real.logb 10 1) = 0 := by simp [polyline]
    unfold pairRate
    simp only [hchi, firstPair, hl]
    norm_num
    simp only [Matrix.cons_val]
    rw [show ((4:ℝ) ^ 2) = 16 by norm_num, Witness.sqrt16, mul_div_assoc]
  · rw [hmom]
    refine ⟨?_, 4, by norm_num, ?_⟩
    · simp [len]
    · ext i; fin_cases i <;> simp
  · intro t
    rw [hmom, hchi]
  · intro t _
    exact ⟨one_pos, h1.2.1, h1⟩
  · intro t _ v hvv
    rw [hv v hvv, hen]
    obtain ⟨a, b⟩ := hvv
    constructor <;> linarith
  · intro n
    refine ⟨rfl, rfl, rfl, le_rfl, firstPair (T / (n + 1)), rfl, rfl, rfl, rfl, rfl, fun χ hχ v _ _ => hs2 χ hχ v⟩

end QED
