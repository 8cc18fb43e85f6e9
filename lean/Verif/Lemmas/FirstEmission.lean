import Verif.Spec.FirstEmission
import Verif.Lemmas.RadiationEvent
import Verif.Lemmas.Survival
import Verif.Lemmas.Riemann

set_option autoImplicit false

/-!
# The first emission: helpers
-/

namespace QED

open MCTools MeasureTheory Filter Topology

/-- The entry of `c` at the step in which the depth `d` is used up, 0 if that is not one of the `n` steps from `i`. -/
noncomputable def pick (δ : Nat → ℝ) (c : Nat → ENNReal) : Nat → Nat → ℝ → ENNReal
  | 0, _, _ => 0
  | n + 1, i, d => if δ i ≤ d then pick δ c n (i + 1) (d - δ i) else c i

theorem pick_law {δ : Nat → ℝ} (hδ : ∀ k, 0 ≤ δ k) (c : Nat → ENNReal) (n : Nat) : ∀ i,
    ∫⁻ u in Set.Ico (0 : ℝ) 1, pick δ c n i (initDepth u) = ∑ k ∈ Finset.range n,
      ENNReal.ofReal (Real.exp (-∑ j ∈ Finset.range k, δ (i + j)) * (1 - Real.exp (-δ (i + k)))) * c (i + k) := by
  induction n with
  | zero => intro i; simp [pick]
  | succ n ih =>
    intro i
    simp only [pick]
    rw [lintegral_depth (hδ i) (fun d => pick δ c n (i + 1) d) (c i), ih, Finset.sum_range_succ', Finset.mul_sum]
    congr 1
    · refine Finset.sum_congr rfl fun k _ => ?_
      rw [← mul_assoc, ← ENNReal.ofReal_mul (Real.exp_pos _).le, ← mul_assoc, ← Real.exp_add, Finset.sum_range_succ']
      have e1 : ∀ j, i + 1 + j = i + (j + 1) := fun j => by omega
      simp only [e1, add_zero]
      congr 4
      ring
    · simp

section event

variable {cfg : SimCfg ℝ} {e : EmissionCfg ℝ} {logh : ℝ → ℝ} {chi : ℝ → ℝ → ℝ} {p : Particle ℝ}

theorem timeStep_pos {s t : EvState ℝ} (h : timeStep cfg s = .ok t) : s.rng.pos ≤ t.rng.pos := by
  unfold timeStep at h
  rw [Res.bind_eq_ok] at h
  obtain ⟨s1, h1, h⟩ := h
  rw [Res.bind_eq_ok] at h
  obtain ⟨⟨l, r⟩, h2, h3⟩ := h
  have h4 := advance_pos h2
  cases Res.ok.inj h3
  rw [(histStep_list h1).2.1] at h4
  exact h4

/-- The event follows `pick`. -/
theorem first_pick (hp : cfg.procs = [.stochastic e]) (hm : p.mass ≠ 0) (ha : p.isAlive = true) (n : Nat) :
    ∀ (i : Nat) (s : EvState ℝ) (d : ℝ) (us : List ℝ), Lone s (pushes cfg p i) d us → 0 ≤ d → 4 ≤ us.length →
      (∀ u ∈ us, 0 ≤ u ∧ u < 1) →
      (∀ k, i ≤ k → k < i + n → emissionLogh e (calculateEta e.field (pushes cfg p (k + 1))) =
        .ok (logh (calculateEta e.field (pushes cfg p (k + 1))))) →
      (∀ k, i ≤ k → k < i + n → 0 < emissionRate e logh (pushes cfg p (k + 1)) → ∀ v, 0 ≤ v → v < 1 →
        calculateChi e (calculateEta e.field (pushes cfg p (k + 1))) v =
          .ok (chi (calculateEta e.field (pushes cfg p (k + 1))) v)) →
      (∀ k < n, s.time + k * cfg.dt < cfg.timeEnd) →
      (∃ t, Steps cfg s n t ∧ t.rng.pos = s.rng.pos ∧
        ∀ c, pick (fun k => emissionRate e logh (pushes cfg p (k + 1))) c n i d = 0) ∨
      ∃ k < n, ∃ s' t d', Steps cfg s k s' ∧ s'.rng.pos = s.rng.pos ∧ Steps cfg s (k + 1) t ∧ s.rng.pos < t.rng.pos ∧
        t.list.items.head? = some ((kicked e chi (pushes cfg p (i + k + 1)) (us.headD 0)).withDepth d') ∧
        ∀ c, pick (fun k => emissionRate e logh (pushes cfg p (k + 1))) c n i d = c (i + k) := by
  induction n with
  | zero =>
    intro i s d us _ _ _ _ _ _ _
    exact Or.inl ⟨s, .zero, rfl, fun c => rfl⟩
  | succ n ih =>
    intro i s d us hs hd0 hlen hus hlogh hchi hend
    have hid := pushes_identity cfg p i
    have hsucc : pushParticle cfg.push cfg.field cfg.dt (pushes cfg p i) = pushes cfg p (i + 1) := (pushes_succ cfg p i).symm
    have htime : (s.time <. cfg.timeEnd) = true := by simpa using hend 0 (by omega)
    by_cases hd : emissionRate e logh (pushes cfg p (i + 1)) ≤ d
    · obtain ⟨s', h1, h2, h3, h4⟩ := lone_quiet (logh := logh) hp hs (by rw [hid.2.1]; exact hm) (by rw [hid.2.2]; exact ha)
        (by rw [hsucc]; exact hlogh i le_rfl (by omega)) (by rw [hsucc]; exact hd)
      rw [hsucc] at h4
      rcases ih (i + 1) s' _ us h4 (by linarith) hlen hus (fun k a b => hlogh k (by omega) (by omega))
        (fun k a b => hchi k (by omega) (by omega)) (fun k hk => by
          have := hend (k + 1) (by omega)
          push_cast at this
          rw [h3]; linarith) with ⟨t, a1, a2, a3⟩ | ⟨k, hk, s'', t, d', a1, a2, a3, a4, a5, a6⟩
      · refine Or.inl ⟨t, .cons htime h1 a1, by rw [a2, h2], fun c => ?_⟩
        rw [pick, if_pos hd]
        exact a3 c
      · refine Or.inr ⟨k + 1, by omega, s'', t, d', .cons htime h1 a1, by rw [a2, h2], .cons htime h1 a3,
          by rw [h2] at a4; exact a4, ?_, fun c => ?_⟩
        · rw [a5, show i + 1 + k + 1 = i + (k + 1) + 1 by omega]
        · rw [pick, if_pos hd, a6, show i + 1 + k = i + (k + 1) by omega]
    · have hpos : 0 < emissionRate e logh (pushes cfg p (i + 1)) := by push Not at hd; linarith
      have hv : 0 ≤ us.headD 0 ∧ us.headD 0 < 1 := by
        obtain ⟨v, x, y, z, rest, h⟩ := four_le us (by omega)
        rw [h]
        exact hus v (by simp [h])
      obtain ⟨s', h1, h2, h2', h3, h4⟩ := lone_drawn (logh := logh) (chi := chi) hp hs (by rw [hid.2.1]; exact hm)
        (by rw [hid.2.2]; exact ha) hlen (by rw [hsucc]; exact hlogh i le_rfl (by omega))
        (by rw [hsucc]; exact hchi i le_rfl (by omega) hpos _ hv.1 hv.2) (by rw [hsucc]; exact hd)
      rw [hsucc] at h4
      obtain ⟨d', hd'⟩ : ∃ d', d' = initDepth (us.tail.getD (photonDraws e chi (pushes cfg p (i + 1)) (us.headD 0)
        (us.tail.headD 0)) 0) := ⟨_, rfl⟩
      rw [← hd'] at h4
      obtain ⟨ph, h5, -⟩ := h4.items
      refine Or.inr ⟨0, by omega, s, s', d', .zero, rfl, .cons htime h1 .zero, h2, ?_, fun c => ?_⟩
      · rw [h5]
        rfl
      · rw [pick, if_neg hd]
        rfl

end event

/-! ## Sums up to a step -/

/-- The sums up to any step are uniformly near the integral up to it. -/
theorem sums_to_integral {f : ℝ → ℝ} {a T : ℝ} (hT : 0 ≤ T) (hf : ContinuousOn f (Set.Icc a (a + T)))
    {v : Nat → Nat → ℝ} (hv : ∀ ε > 0, ∃ N, ∀ n ≥ N, ∀ k < n + 1,
      |v n k - f (a + ((k + 1 : Nat) : ℝ) * (T / (n + 1)))| ≤ ε) {ε : ℝ} (hε : 0 < ε) :
    ∃ N, ∀ n ≥ N, ∀ k ≤ n + 1, |∑ j ∈ Finset.range k, T / (n + 1) * v n j -
      ∫ x in a..a + (k : ℝ) * (T / (n + 1)), f x| ≤ ε := by
  obtain ⟨η, hη⟩ : ∃ η, η = ε / (2 * (T + 1)) := ⟨_, rfl⟩
  have hη0 : 0 < η := by rw [hη]; positivity
  have hu := isCompact_Icc.uniformContinuousOn_of_continuous hf
  obtain ⟨δ, hδ0, hδ⟩ := Metric.uniformContinuousOn_iff.mp hu η hη0
  obtain ⟨N1, h1⟩ := hv η hη0
  obtain ⟨N2, h2⟩ := exists_nat_gt (T / δ)
  refine ⟨max N1 N2, fun n hn m hm => ?_⟩
  have hn1 : N1 ≤ n := le_trans (le_max_left _ _) hn
  have hn2 : N2 ≤ n := le_trans (le_max_right _ _) hn
  set h : ℝ := T / (n + 1) with hh
  have hpos : (0:ℝ) < n + 1 := by positivity
  have hh0 : 0 ≤ h := div_nonneg hT hpos.le
  have hhT : (n + 1) * h = T := by rw [hh]; field_simp
  have hhd : h < δ := by
    rw [hh, div_lt_iff₀ hpos]
    rw [div_lt_iff₀ hδ0] at h2
    have : (N2 : ℝ) ≤ n := by exact_mod_cast hn2
    nlinarith
  have hmem : ∀ k ≤ n + 1, a + (k : ℝ) * h ∈ Set.Icc a (a + T) := by
    intro k hk
    have hk' : (k : ℝ) ≤ n + 1 := by exact_mod_cast hk
    have : (k : ℝ) * h ≤ (n + 1) * h := mul_le_mul_of_nonneg_right hk' hh0
    constructor
    · have : 0 ≤ (k : ℝ) * h := by positivity
      linarith
    · linarith
  have hint : ∀ k < n + 1, IntervalIntegrable f MeasureTheory.volume (a + (k : ℝ) * h)
      (a + ((k + 1 : Nat) : ℝ) * h) := by
    intro k hk
    refine ContinuousOn.intervalIntegrable (hf.mono ?_)
    rw [Set.uIcc_of_le (by push_cast; linarith)]
    exact Set.Icc_subset_Icc (hmem k (by omega)).1 (hmem (k + 1) (by omega)).2
  have hsum := intervalIntegral.sum_integral_adjacent_intervals (f := f) (μ := MeasureTheory.volume)
    (a := fun k : Nat => a + (k : ℝ) * h) (n := m) (fun k hk => hint k (by omega))
  have h0 : a + ((0 : Nat) : ℝ) * h = a := by simp
  rw [h0] at hsum
  rw [← hsum, ← Finset.sum_sub_distrib]
  have hterm : ∀ k ∈ Finset.range m,
      |h * v n k - ∫ x in (a + (k : ℝ) * h)..(a + ((k + 1 : Nat) : ℝ) * h), f x| ≤ 2 * η * h := by
    intro k hk
    have hk : k < n + 1 := by have := Finset.mem_range.mp hk; omega
    have hlen : (a + ((k + 1 : Nat) : ℝ) * h) - (a + (k : ℝ) * h) = h := by push_cast; ring
    have hc : h * v n k = ∫ _ in (a + (k : ℝ) * h)..(a + ((k + 1 : Nat) : ℝ) * h), v n k := by
      rw [intervalIntegral.integral_const, hlen, smul_eq_mul]
    rw [hc, ← intervalIntegral.integral_sub (intervalIntegrable_const) (hint k hk), ← Real.norm_eq_abs]
    refine (intervalIntegral.norm_integral_le_of_norm_le_const (C := 2 * η) ?_).trans ?_
    · intro x hx
      rw [Set.uIoc_of_le (by linarith)] at hx
      have hx' : x ∈ Set.Icc a (a + T) :=
        ⟨(hmem k (by omega)).1.trans hx.1.le, hx.2.trans (hmem (k + 1) (by omega)).2⟩
      have hd := hδ _ (hmem (k + 1) (by omega)) x hx' (by
        rw [Real.dist_eq, abs_of_nonneg (by linarith [hx.2])]
        linarith [hx.1])
      rw [Real.dist_eq] at hd
      have hv' := h1 n hn1 k hk
      rw [Real.norm_eq_abs]
      calc |v n k - f x| = |(v n k - f (a + ((k + 1 : Nat) : ℝ) * h)) +
            (f (a + ((k + 1 : Nat) : ℝ) * h) - f x)| := by ring_nf
        _ ≤ _ := abs_add_le _ _
        _ ≤ 2 * η := by linarith
    · rw [hlen, abs_of_nonneg hh0]
  have hmn : (m : ℝ) ≤ n + 1 := by exact_mod_cast hm
  calc _ ≤ ∑ k ∈ Finset.range m,
        |h * v n k - ∫ x in (a + (k : ℝ) * h)..(a + ((k + 1 : Nat) : ℝ) * h), f x| :=
        Finset.abs_sum_le_sum_abs _ _
    _ ≤ ∑ _k ∈ Finset.range m, 2 * η * h := Finset.sum_le_sum hterm
    _ = m * (2 * η * h) := by
      rw [Finset.sum_const, Finset.card_range, nsmul_eq_mul]
    _ ≤ (n + 1) * (2 * η * h) := by gcongr
    _ = 2 * η * T := by rw [← hhT]; ring
    _ ≤ ε := by
      rw [hη]
      have : 2 * (ε / (2 * (T + 1))) * T = ε * (T / (T + 1)) := by field_simp
      rw [this]
      have : T / (T + 1) ≤ 1 := by rw [div_le_one (by positivity)]; linarith
      nlinarith

theorem exp_neg_lipschitz {a b : ℝ} (ha : 0 ≤ a) (hb : 0 ≤ b) : |Real.exp (-a) - Real.exp (-b)| ≤ |a - b| := by
  have key : ∀ a b : ℝ, 0 ≤ a → a ≤ b → Real.exp (-a) - Real.exp (-b) ≤ b - a := by
    intro a b ha hab
    have h1 : Real.exp (-b) = Real.exp (-a) * Real.exp (-(b - a)) := by rw [← Real.exp_add]; congr 1; ring
    have h2 : 1 - (b - a) ≤ Real.exp (-(b - a)) := Real.one_sub_le_exp_neg _
    have h3 : Real.exp (-a) ≤ 1 := Real.exp_le_one_iff.2 (by linarith)
    have h4 := Real.exp_pos (-a)
    rw [h1]
    nlinarith
  rcases le_total a b with h | h
  · rw [abs_of_nonneg (sub_nonneg.2 (Real.exp_le_exp.2 (by linarith))), abs_sub_comm, abs_of_nonneg (by linarith)]
    exact key a b ha h
  · rw [abs_sub_comm, abs_of_nonneg (sub_nonneg.2 (Real.exp_le_exp.2 (by linarith))), abs_of_nonneg (by linarith)]
    exact key b a hb h

/-- The share of the expected number that is the probability of an emission. -/
theorem rare {x : ℝ} (hx : 0 < x) : 1 - x ≤ (1 - Real.exp (-x)) / x ∧ (1 - Real.exp (-x)) / x ≤ 1 := by
  have h1 : 1 - x ≤ Real.exp (-x) := Real.one_sub_le_exp_neg x
  have h2 : x + 1 ≤ Real.exp x := Real.add_one_le_exp x
  have h3 : Real.exp (-x) * Real.exp x = 1 := by rw [← Real.exp_add]; simp
  have h4 := Real.exp_pos (-x)
  constructor
  · rw [le_div_iff₀ hx]
    nlinarith
  · rw [div_le_one hx]
    linarith

/-- The law of the first emission in the limit. -/
theorem first_limit {w f : ℝ → ℝ} {a T : ℝ} (hT : 0 < T) (hw : ContinuousOn w (Set.Icc a (a + T)))
    (hf : ContinuousOn f (Set.Icc a (a + T))) (hw0 : ∀ t ∈ Set.Icc a (a + T), 0 ≤ w t)
    {W S : Nat → Nat → ℝ} (hW : ∀ ε > 0, ∃ N, ∀ n ≥ N, ∀ k < n + 1,
      |W n k - w (a + ((k + 1 : Nat) : ℝ) * (T / (n + 1)))| ≤ ε)
    (hS : ∀ ε > 0, ∃ N, ∀ n ≥ N, ∀ k < n + 1,
      |S n k - f (a + ((k + 1 : Nat) : ℝ) * (T / (n + 1)))| ≤ ε)
    {M : Nat} (hpos : ∀ n ≥ M, ∀ k < n + 1, 0 < W n k) :
    Tendsto (fun n : Nat => ∑ k ∈ Finset.range (n + 1), T / (n + 1) *
      (Real.exp (-∑ j ∈ Finset.range k, T / (n + 1) * W n j) *
        ((1 - Real.exp (-(T / (n + 1) * W n k))) / (T / (n + 1) * W n k)) * S n k)) atTop
      (𝓝 (∫ t in a..a + T, Real.exp (-∫ s in a..t, w s) * f t)) := by
  have hI : ContinuousOn (fun t => ∫ s in a..t, w s) (Set.Icc a (a + T)) := by
    have := intervalIntegral.continuousOn_primitive_interval' (a := a) (b₁ := a) (b₂ := a + T) (μ := volume)
      (f := w) (hw.intervalIntegrable_of_Icc (by linarith)) Set.left_mem_uIcc
    rwa [Set.uIcc_of_le (by linarith)] at this
  have hE : ContinuousOn (fun t => Real.exp (-∫ s in a..t, w s) * f t) (Set.Icc a (a + T)) :=
    (Real.continuous_exp.comp_continuousOn hI.neg).mul hf
  refine sum_to_integral hT.le hE fun ε hε => ?_
  obtain ⟨C, hC⟩ := isCompact_Icc.exists_bound_of_continuousOn hw
  obtain ⟨D, hD⟩ := isCompact_Icc.exists_bound_of_continuousOn hf
  have hC0 : 0 ≤ C := (norm_nonneg _).trans (hC a ⟨le_rfl, by linarith⟩)
  have hD0 : 0 ≤ D := (norm_nonneg _).trans (hD a ⟨le_rfl, by linarith⟩)
  obtain ⟨η, hη⟩ : ∃ η, η = min 1 (ε / (3 * D + 4)) := ⟨_, rfl⟩
  have hη0 : 0 < η := by rw [hη]; positivity
  have hη1 : η ≤ 1 := by rw [hη]; exact min_le_left _ _
  have hηε : (3 * D + 4) * η ≤ ε := by
    have : η ≤ ε / (3 * D + 4) := by rw [hη]; exact min_le_right _ _
    rw [le_div_iff₀ (by positivity)] at this
    linarith
  obtain ⟨N1, h1⟩ := sums_to_integral hT.le hw hW hη0
  obtain ⟨N2, h2⟩ := hS η hη0
  obtain ⟨N3, h3⟩ := hW 1 one_pos
  obtain ⟨N4, h4⟩ := exists_nat_gt (T * (C + 1) / η)
  refine ⟨max (max N1 N2) (max (max N3 N4) M), fun n hn k hk => ?_⟩
  have hn1 : N1 ≤ n := by omega
  have hn2 : N2 ≤ n := by omega
  have hn3 : N3 ≤ n := by omega
  have hn4 : N4 ≤ n := by omega
  have hnM : M ≤ n := by omega
  obtain ⟨h, hh⟩ : ∃ h : ℝ, h = T / (n + 1) := ⟨_, rfl⟩
  have hp : (0:ℝ) < n + 1 := by positivity
  have hh0 : 0 < h := by rw [hh]; positivity
  have hhT : (n + 1) * h = T := by rw [hh]; field_simp
  rw [← hh]
  have hsmall : h * (C + 1) ≤ η := by
    rw [div_lt_iff₀ hη0] at h4
    have : (N4 : ℝ) ≤ n := by exact_mod_cast hn4
    have : T * (C + 1) ≤ (n + 1) * η := by nlinarith
    rw [← hhT] at this
    have : (n + 1) * (h * (C + 1)) ≤ (n + 1) * η := by linarith
    exact le_of_mul_le_mul_left this hp
  have hmem : ∀ k ≤ n + 1, a + (k : ℝ) * h ∈ Set.Icc a (a + T) := by
    intro k hk
    have hk' : (k : ℝ) ≤ n + 1 := by exact_mod_cast hk
    have : (k : ℝ) * h ≤ (n + 1) * h := mul_le_mul_of_nonneg_right hk' hh0.le
    constructor
    · have : 0 ≤ (k : ℝ) * h := by positivity
      linarith
    · linarith
  obtain ⟨t, ht⟩ : ∃ t, t = a + ((k + 1 : Nat) : ℝ) * h := ⟨_, rfl⟩
  have htm : t ∈ Set.Icc a (a + T) := by rw [ht]; exact hmem (k + 1) (by omega)
  have b1 := h1 n hn1 k (by omega)
  have b2 := h2 n hn2 k hk
  have b3 := h3 n hn3 k hk
  have hWk := hpos n hnM k hk
  rw [← hh] at b1 b2 b3
  rw [← ht] at b2 b3 ⊢
  obtain ⟨A, hA⟩ : ∃ A, A = ∑ j ∈ Finset.range k, h * W n j := ⟨_, rfl⟩
  rw [← hA] at b1 ⊢
  have hA0 : 0 ≤ A := by
    rw [hA]
    refine Finset.sum_nonneg fun j hj => ?_
    have := hpos n hnM j (by have := Finset.mem_range.1 hj; omega)
    positivity
  have hB0 : 0 ≤ ∫ s in a..t, w s := intervalIntegral.integral_nonneg htm.1 fun s hs => hw0 s ⟨hs.1, hs.2.trans htm.2⟩
  have hstep : |(∫ s in a..a + (k : ℝ) * h, w s) - ∫ s in a..t, w s| ≤ η := by
    have i1 : IntervalIntegrable w volume a (a + (k : ℝ) * h) :=
      (hw.mono (Set.Icc_subset_Icc le_rfl (hmem k (by omega)).2)).intervalIntegrable_of_Icc (hmem k (by omega)).1
    have i2 : IntervalIntegrable w volume a t :=
      (hw.mono (Set.Icc_subset_Icc le_rfl htm.2)).intervalIntegrable_of_Icc htm.1
    rw [abs_sub_comm, intervalIntegral.integral_interval_sub_left i2 i1, ← Real.norm_eq_abs]
    have hlen : t - (a + (k : ℝ) * h) = h := by rw [ht]; push_cast; ring
    refine (intervalIntegral.norm_integral_le_of_norm_le_const (C := C) fun x hx => ?_).trans ?_
    · rw [Set.uIoc_of_le (by linarith)] at hx
      exact hC x ⟨(hmem k (by omega)).1.trans hx.1.le, hx.2.trans htm.2⟩
    · rw [hlen, abs_of_pos hh0]
      nlinarith
  have hAB : |A - ∫ s in a..t, w s| ≤ 2 * η := by
    calc _ = |(A - ∫ s in a..a + (k : ℝ) * h, w s) + ((∫ s in a..a + (k : ℝ) * h, w s) - ∫ s in a..t, w s)| := by ring_nf
      _ ≤ _ := abs_add_le _ _
      _ ≤ _ := by linarith
  have hexp := (exp_neg_lipschitz hA0 hB0).trans hAB
  have hWC : h * W n k ≤ η := by
    have := (abs_le.1 b3).2
    have h' := (le_abs_self _).trans (hC t htm)
    have : W n k ≤ C + 1 := by linarith
    nlinarith
  obtain ⟨r1, r2⟩ := rare (mul_pos hh0 hWk)
  obtain ⟨R, hR⟩ : ∃ R, R = (1 - Real.exp (-(h * W n k))) / (h * W n k) := ⟨_, rfl⟩
  rw [← hR] at r1 r2 ⊢
  obtain ⟨X, hX⟩ : ∃ X, X = Real.exp (-A) := ⟨_, rfl⟩
  obtain ⟨Y, hY⟩ : ∃ Y, Y = Real.exp (-∫ s in a..t, w s) := ⟨_, rfl⟩
  have hY0 : 0 < Y := by rw [hY]; exact Real.exp_pos _
  have hY1 : Y ≤ 1 := by rw [hY]; exact Real.exp_le_one_iff.2 (by linarith)
  rw [← hX, ← hY] at hexp ⊢
  have hfD := hD t htm
  rw [Real.norm_eq_abs] at hfD
  have hS' : |S n k| ≤ D + 1 := by
    have : |S n k| ≤ |S n k - f t| + |f t| := by
      have := abs_add_le (S n k - f t) (f t)
      rwa [sub_add_cancel] at this
    linarith
  have hR1 : |R - 1| ≤ η := by rw [abs_le]; constructor <;> linarith
  have hR0 : |R| ≤ 1 := by rw [abs_le]; constructor <;> linarith
  generalize S n k = s at *
  generalize f t = F at *
  calc |X * R * s - Y * F| = |(X - Y) * (R * s) + (Y * ((R - 1) * s) + Y * (s - F))| := by congr 1; ring
    _ ≤ |(X - Y) * (R * s)| + (|Y * ((R - 1) * s)| + |Y * (s - F)|) :=
      (abs_add_le _ _).trans (add_le_add le_rfl (abs_add_le _ _))
    _ = |X - Y| * (|R| * |s|) + (Y * (|R - 1| * |s|) + Y * |s - F|) := by
      simp only [abs_mul, abs_of_pos hY0]
    _ ≤ 2 * η * (1 * (D + 1)) + (1 * (η * (D + 1)) + 1 * η) := by gcongr
    _ = (3 * D + 4) * η := by ring
    _ ≤ ε := hηε

end QED
