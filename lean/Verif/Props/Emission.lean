import Mathlib.MeasureTheory.Integral.IntervalIntegral.Basic
import Verif.Lemmas.Emission

set_option autoImplicit false

/-!
# Properties C32 to C35: photon emission
-/

namespace QED

open MCTools Numerics

/-! ## C32 Stochastic emission conserves momentum -/

theorem store_cases {cfg : EmissionCfg ℝ} {p : Particle ℝ} {l : PList ℝ} {r : Rng ℝ}
    {p' : Particle ℝ} {l' : PList ℝ} {r' : Rng ℝ} {ph : Particle ℝ}
    (h : stochasticInteract cfg p l r = .ok (p', l', r')) (hadd : l'.items = l.items ++ [ph]) :
    ∃ delta gammaE uPh, Emits cfg p (r.draw r.pos) delta gammaE ∧ cfg.eMin < gammaE ∧
      p'.momentum = p.momentum.sub (p.direction.smul gammaE) ∧
      ph = Particle.newPhotonE gammaE p.position p'.direction (p.weight / cfg.sampleFrac) p.time
        cfg.track uPh := by
  rcases stochastic_emits h with ⟨_, hl⟩ | ⟨delta, gammaE, he⟩
  · rw [hl] at hadd; simp at hadd
  · rw [stochastic_emit he] at h
    obtain ⟨f1, f2, f3, f4⟩ := recoiled_fields p delta gammaE
    unfold storePhoton at h
    split at h
    · next hE =>
      split at h
      · simp only [Res.ok.injEq, Prod.mk.injEq] at h
        obtain ⟨rfl, h2, _⟩ := h
        rw [← h2, PList.add_items] at hadd
        have := List.append_cancel_left hadd
        refine ⟨delta, gammaE, r.next.2.next.2.next.1, he, by simpa using hE, f4, ?_⟩
        have hph : ph ∈ [Particle.newPhotonE gammaE (recoiled p delta gammaE).position
            (recoiled p delta gammaE).direction
            ((recoiled p delta gammaE).weight /. cfg.sampleFrac)
            (recoiled p delta gammaE).time cfg.track r.next.2.next.2.next.1] := by
          apply List.mem_of_mem_take (i := l.maxParticles - l.items.length)
          rw [this]; simp
        rw [List.mem_singleton] at hph
        rw [hph, f1, f2, f3]
        rfl
      · simp only [Res.ok.injEq, Prod.mk.injEq] at h
        rw [← h.2.1] at hadd; simp at hadd
    · simp only [Res.ok.injEq, Prod.mk.injEq] at h
      rw [← h.2.1] at hadd; simp at hadd

theorem sub_dir (p : Particle ℝ) (hp : p.momentum ≠ ⟨0, 0, 0⟩) (g : ℝ) :
    p.momentum.sub (p.direction.smul g) = p.direction.smul (p.momentum.mag - g) := by
  have h := V3.norm_smul_mag hp
  have e : p.momentum.sub (p.direction.smul g) =
      (p.momentum.norm.smul p.momentum.mag).sub (p.direction.smul g) := by rw [h]
  rw [e]
  unfold Particle.direction
  ext <;> simp [V3.sub, V3.smul] <;> ring

theorem photonE_energy (g : ℝ) (x d : V3 ℝ) (hd : d ≠ ⟨0, 0, 0⟩) (w t : ℝ) (tr : Bool) (u : ℝ) :
    (Particle.newPhotonE g x d w t tr u).energy = |g| := by
  show (d.norm.smul g).mag = |g|
  exact V3.smul_unit_mag (V3.norm_dot_self hd) g

/-- What holds: momentum is conserved if the lepton has more momentum than the photon
has energy. Missing from C32: photons with more energy than the lepton has momentum. -/
theorem C32_momentum_partial {cfg : EmissionCfg ℝ} {p : Particle ℝ} {l : PList ℝ} {r : Rng ℝ}
    {p' : Particle ℝ} {l' : PList ℝ} {r' : Rng ℝ} {ph : Particle ℝ}
    (h : stochasticInteract cfg p l r = .ok (p', l', r')) (hadd : l'.items = l.items ++ [ph])
    (hp : p.momentum ≠ ⟨0, 0, 0⟩) (hp' : p'.momentum ≠ ⟨0, 0, 0⟩)
    (hlt : ph.energy < p.momentum.mag) :
    p'.momentum.add ph.momentum = p.momentum := by
  obtain ⟨delta, g, u, he, hE, hm, rfl⟩ := store_cases h hadd
  have hd' : p'.direction ≠ ⟨0, 0, 0⟩ := V3.norm_ne_zero hp'
  rw [photonE_energy g _ _ hd'] at hlt
  have hdir : p'.direction = p.direction := by
    unfold Particle.direction
    rw [hm, sub_dir p hp]
    exact V3.norm_smul_pos (V3.norm_dot_self hp) (by linarith [le_abs_self g])
  show p'.momentum.add (p'.direction.norm.smul g) = _
  rw [hdir, hm]
  have : p.direction.norm = p.direction := V3.norm_norm hp
  rw [this]
  ext <;> simp [V3.add, V3.sub]

/-- C32 fails *whenever* a stored photon has more energy than the lepton had momentum:
the photon then flies against the momentum it took. -/
theorem C32_backward_refuted {cfg : EmissionCfg ℝ} {p : Particle ℝ} {l : PList ℝ} {r : Rng ℝ}
    {p' : Particle ℝ} {l' : PList ℝ} {r' : Rng ℝ} {ph : Particle ℝ}
    (h : stochasticInteract cfg p l r = .ok (p', l', r')) (hadd : l'.items = l.items ++ [ph])
    (hp : p.momentum ≠ ⟨0, 0, 0⟩) (hE : 0 ≤ cfg.eMin) (hlt : p.momentum.mag < ph.energy) :
    p'.momentum.add ph.momentum = p.momentum.sub (p.direction.smul (2 * ph.energy)) ∧
    p'.momentum.add ph.momentum ≠ p.momentum := by
  obtain ⟨delta, g, u, he, hg, hm, rfl⟩ := store_cases h hadd
  have hg0 : 0 < g := by linarith
  have hunit := V3.norm_dot_self hp
  have hp' : p'.momentum ≠ ⟨0, 0, 0⟩ := by
    intro h0
    have : (Particle.newPhotonE g p.position p'.direction (p.weight / cfg.sampleFrac) p.time
        cfg.track u).energy = 0 := by
      show (p'.direction.norm.smul g).mag = 0
      unfold Particle.direction
      rw [h0]
      simp [V3.norm, V3.divs, V3.smul, V3.mag, V3.dot]
    rw [this] at hlt
    have : 0 ≤ p.momentum.mag := Real.sqrt_nonneg _
    linarith
  have hd' : p'.direction ≠ ⟨0, 0, 0⟩ := V3.norm_ne_zero hp'
  have heq := photonE_energy g p.position _ hd' (p.weight / cfg.sampleFrac) p.time cfg.track u
  rw [abs_of_pos hg0] at heq
  rw [heq] at hlt ⊢
  have hdir : p'.direction = p.direction.smul (-1) := by
    unfold Particle.direction
    rw [hm, sub_dir p hp]
    exact V3.norm_smul_neg hunit (by linarith)
  have hn : p'.direction.norm = p.direction.smul (-1) := by
    rw [hdir]
    exact V3.norm_smul_neg hunit (by norm_num : (-1:ℝ) < 0)
  have hsum : p'.momentum.add (p'.direction.norm.smul g) =
      p.momentum.sub (p.direction.smul (2 * g)) := by
    rw [hn, hm]
    ext <;> simp [V3.add, V3.sub, V3.smul] <;> ring
  refine ⟨hsum, fun hc => ?_⟩
  have hc' : p.momentum.sub (p.direction.smul (2 * g)) = p.momentum := hsum.symm.trans hc
  have hz : p.direction = ⟨0, 0, 0⟩ := by
    have a := congrArg V3.x hc'
    have b := congrArg V3.y hc'
    have c := congrArg V3.z hc'
    simp [V3.sub, V3.smul, hg0.ne'] at a b c
    ext <;> assumption
  exact V3.norm_ne_zero hp hz

/-- The witness of the two following theorems: the electron of `Witness` emits. -/
theorem witness_run (x : ℝ) (hx : 0 < x) :
    ∃ p' l' r' ph, stochasticInteract (Witness.emCfg x (1 / 4) 0) Witness.electron
      (PList.new "0" 10) Witness.rng = .ok (p', l', r') ∧ l'.items = (PList.new "0" 10).items ++ [ph] ∧
      p'.momentum = ⟨0, 0, 1 - 2 * x * Real.sqrt 2⟩ ∧
      (1 - 2 * x * Real.sqrt 2 ≠ 0 → ph.energy = 2 * x * Real.sqrt 2) := by
  obtain ⟨delta, _, he⟩ := Witness.emits x (1 / 4) 0 hx (1 / 2) (by norm_num) (by norm_num)
  have hs := stochastic_emit (l := PList.new "0" 10) (r := Witness.rng) he
  have hg : 0 < 2 * x * Real.sqrt 2 := by positivity
  have hst : storePhoton (Witness.emCfg x (1 / 4) 0) (recoiled Witness.electron delta
      (2 * x * Real.sqrt 2)) (2 * x * Real.sqrt 2) (PList.new "0" 10) Witness.rng.next.2 =
      ((PList.new "0" 10).add (Particle.newPhotonE (2 * x * Real.sqrt 2)
        (recoiled Witness.electron delta (2 * x * Real.sqrt 2)).position
        (recoiled Witness.electron delta (2 * x * Real.sqrt 2)).direction
        ((recoiled Witness.electron delta (2 * x * Real.sqrt 2)).weight /. (1 / 4))
        (recoiled Witness.electron delta (2 * x * Real.sqrt 2)).time false (1 / 2)),
       Witness.rng.next.2.next.2.next.2) := by
    unfold storePhoton
    rw [if_pos (by simpa [Witness.emCfg] using hg), if_pos (by
      simp [Witness.emCfg, Witness.rng, Rng.next]; norm_num)]
    rfl
  rw [hst] at hs
  refine ⟨_, _, _, _, hs, rfl, ?_, ?_⟩
  · show (recoiled Witness.electron delta _).momentum = _
    rw [(recoiled_fields _ _ _).2.2.2, Witness.electron_momentum, Witness.electron_direction]
    simp [V3.sub, V3.smul]
  · intro hne
    have hm : (recoiled Witness.electron delta (2 * x * Real.sqrt 2)).momentum =
        ⟨0, 0, 1 - 2 * x * Real.sqrt 2⟩ := by
      rw [(recoiled_fields _ _ _).2.2.2, Witness.electron_momentum, Witness.electron_direction]
      simp [V3.sub, V3.smul]
    rw [photonE_energy _ _ _ ?_, abs_of_pos hg]
    apply V3.norm_ne_zero
    rw [hm]
    intro h0
    exact hne (congrArg V3.z h0)

/-- C32 is false. -/
theorem C32_refuted :
    ¬ ∀ (cfg : EmissionCfg ℝ) (p : Particle ℝ) (l : PList ℝ) (r : Rng ℝ) (p' : Particle ℝ)
      (l' : PList ℝ) (r' : Rng ℝ) (ph : Particle ℝ), r.Valid →
      stochasticInteract cfg p l r = .ok (p', l', r') → l'.items = l.items ++ [ph] →
      p'.momentum.add ph.momentum = p.momentum := by
  intro hall
  obtain ⟨p', l', r', ph, h, hadd, _, he⟩ := witness_run (1 / 2) (by norm_num)
  have h2 : (1:ℝ) < Real.sqrt 2 := by
    rw [Real.lt_sqrt (by norm_num)]; norm_num
  have he := he (by intro h0; linarith)
  refine (C32_backward_refuted h hadd ?_ le_rfl ?_).2
    (hall _ _ _ _ _ _ _ _ Witness.rng_valid h hadd)
  · rw [Witness.electron_momentum]; simp
  · rw [he, Witness.electron_momentum, Witness.mag_z 1 one_pos]; linarith

/-- The hypotheses of `C32_momentum_partial` are met by an emission of a photon of
energy `√2/4`. -/
example : ∃ (cfg : EmissionCfg ℝ) (p : Particle ℝ) (l : PList ℝ) (r : Rng ℝ) (p' : Particle ℝ)
      (l' : PList ℝ) (r' : Rng ℝ) (ph : Particle ℝ),
      stochasticInteract cfg p l r = .ok (p', l', r') ∧ l'.items = l.items ++ [ph] ∧
      p.momentum ≠ ⟨0, 0, 0⟩ ∧ p'.momentum ≠ ⟨0, 0, 0⟩ ∧ ph.energy < p.momentum.mag := by
  obtain ⟨p', l', r', ph, h, hadd, hm, he⟩ := witness_run (1 / 8) (by norm_num)
  have h2 : Real.sqrt 2 < 2 := by
    rw [Real.sqrt_lt' (by norm_num)]; norm_num
  have hne : 1 - 2 * (1 / 8) * Real.sqrt 2 ≠ 0 := by intro h0; linarith
  refine ⟨_, _, _, _, _, _, _, _, h, hadd, ?_, ?_, ?_⟩
  · rw [Witness.electron_momentum]; simp
  · rw [hm]; intro h0; exact hne (congrArg V3.z h0)
  · rw [he hne, Witness.electron_momentum, Witness.mag_z 1 one_pos]; linarith

/-! ## C33 Full sampling -/

/-- C33 is as false as can be: with sample fraction 1 no draw ever stores a photon. -/
theorem C33_never_refuted {cfg : EmissionCfg ℝ} (hf : cfg.sampleFrac = 1) {p : Particle ℝ}
    {l : PList ℝ} {r : Rng ℝ} (hr : r.Valid) {p' : Particle ℝ} {l' : PList ℝ} {r' : Rng ℝ}
    (h : stochasticInteract cfg p l r = .ok (p', l', r')) : l' = l := by
  rcases stochastic_emits h with ⟨_, hl⟩ | ⟨delta, gammaE, he⟩
  · exact hl
  · rw [stochastic_emit he] at h
    unfold storePhoton at h
    have hno : ¬ (cfg.sampleFrac <. r.next.2.next.1) = true := by
      have := (hr (r.pos + 1)).2
      rw [hf]
      simp [Rng.next] at this ⊢
      exact this.le
    rw [if_neg hno] at h
    split at h <;> (simp only [Res.ok.injEq, Prod.mk.injEq] at h; exact h.2.1.symm)

/-- C33 is false: an emission of a photon above the minimum energy (the lepton loses
that momentum) with sample fraction 1 that adds nothing to a list with room. -/
theorem C33_refuted :
    ∃ (cfg : EmissionCfg ℝ) (p : Particle ℝ) (l : PList ℝ) (r : Rng ℝ) (p' : Particle ℝ)
      (l' : PList ℝ) (r' : Rng ℝ), cfg.sampleFrac = 1 ∧ r.Valid ∧ l.nPart < l.maxParticles ∧
      stochasticInteract cfg p l r = .ok (p', l', r') ∧
      cfg.eMin < (p.momentum.sub p'.momentum).mag ∧ l'.items = l.items := by
  obtain ⟨delta, _, he⟩ := Witness.emits (1 / 8) 1 0 (by norm_num) (1 / 2) (by norm_num)
    (by norm_num)
  have hs := stochastic_emit (l := PList.new "0" 10) (r := Witness.rng) he
  refine ⟨Witness.emCfg (1 / 8) 1 0, Witness.electron, PList.new "0" 10, Witness.rng, _, _, _, rfl,
    Witness.rng_valid, by simp [PList.nPart, PList.new], hs, ?_, ?_⟩
  · show (0:ℝ) < (Witness.electron.momentum.sub (recoiled Witness.electron delta _).momentum).mag
    rw [(recoiled_fields _ _ _).2.2.2, Witness.electron_momentum, Witness.electron_direction]
    have hz : ((⟨0, 0, 1⟩ : V3 ℝ).sub ((⟨0, 0, 1⟩ : V3 ℝ).sub
        ((⟨0, 0, 1⟩ : V3 ℝ).smul (2 * (1 / 8) * Real.sqrt 2)))) =
        ⟨0, 0, 2 * (1 / 8) * Real.sqrt 2⟩ := by
      simp [V3.sub, V3.smul]
    rw [hz, Witness.mag_z _ (by positivity)]
    positivity
  · rw [C33_never_refuted rfl Witness.rng_valid hs]

/-! ## C34 Unbiased sampling -/

/-- Total weight that an interaction adds to the list. -/
noncomputable def addedWeight (l : PList ℝ) : Res (Particle ℝ × PList ℝ × Rng ℝ) → ℝ
  | .ok (_, l', _) => ((l'.items.drop l.items.length).map Particle.weight).sum
  | _ => 0

/-- The draws of `r` with the `i`-th one replaced by `u`. -/
def Rng.withDraw (r : Rng ℝ) (i : Nat) (u : ℝ) : Rng ℝ := ⟨Function.update r.draw i u, r.pos⟩

theorem integral_above {f c : ℝ} (h0 : 0 ≤ f) (h1 : f ≤ 1) :
    ∫ u in (0:ℝ)..1, (if f < u then c else 0) = (1 - f) * c := by
  have hi : ∀ a b : ℝ, IntervalIntegrable (fun u : ℝ => if f < u then c else 0)
      MeasureTheory.volume a b := by
    intro a b
    apply MeasureTheory.IntegrableOn.intervalIntegrable
    have : (fun u : ℝ => if f < u then c else 0) = (Set.Ioi f).indicator (fun _ => c) := by
      ext u; simp [Set.indicator]
    rw [this]
    apply MeasureTheory.Integrable.indicator _ measurableSet_Ioi
    exact (continuous_const.integrableOn_uIcc)
  rw [← intervalIntegral.integral_add_adjacent_intervals (hi 0 f) (hi f 1)]
  have e1 : ∫ u in (0:ℝ)..f, (if f < u then c else 0) = ∫ u in (0:ℝ)..f, (0:ℝ) := by
    apply intervalIntegral.integral_congr
    intro u hu
    rw [Set.uIcc_of_le h0] at hu
    simp [not_lt.mpr hu.2]
  have e2 : ∫ u in f..(1:ℝ), (if f < u then c else 0) = ∫ u in f..(1:ℝ), c := by
    apply intervalIntegral.integral_congr_ae
    refine Filter.Eventually.of_forall fun u hu => ?_
    rw [Set.uIoc_of_le h1] at hu
    simp [hu.1]
  rw [e1, e2]
  simp

theorem integral_below {f c : ℝ} (h0 : 0 ≤ f) (h1 : f ≤ 1) :
    ∫ u in (0:ℝ)..1, (if f < u then 0 else c) = f * c := by
  have hi : ∀ a b : ℝ, IntervalIntegrable (fun u : ℝ => if f < u then c else 0)
      MeasureTheory.volume a b := by
    intro a b
    apply MeasureTheory.IntegrableOn.intervalIntegrable
    have : (fun u : ℝ => if f < u then c else 0) = (Set.Ioi f).indicator (fun _ => c) := by
      ext u; simp [Set.indicator]
    rw [this]
    apply MeasureTheory.Integrable.indicator _ measurableSet_Ioi
    exact (continuous_const.integrableOn_uIcc)
  have : (fun u : ℝ => if f < u then 0 else c) = fun u => c - (if f < u then c else 0) := by
    ext u; split <;> simp
  rw [this, intervalIntegral.integral_sub (by simp) (hi 0 1), integral_above h0 h1]
  simp; ring

/-- The expectation, over the sampling draw, of the weight that a stochastic emission
stores: `(1 - f) w / f` instead of `w`. -/
theorem C34_stochastic_expectation {cfg : EmissionCfg ℝ} {p : Particle ℝ} {l : PList ℝ} {r : Rng ℝ}
    {delta gammaE : ℝ} (he : Emits cfg p (r.draw r.pos) delta gammaE) (hE : cfg.eMin < gammaE)
    (hroom : l.nPart < l.maxParticles) (h0 : 0 < cfg.sampleFrac) (h1 : cfg.sampleFrac ≤ 1) :
    ∫ u in (0:ℝ)..1, addedWeight l (stochasticInteract cfg p l (Rng.withDraw r (r.pos + 1) u)) =
      (1 - cfg.sampleFrac) * (p.weight / cfg.sampleFrac) := by
  rw [← integral_above h0.le h1]
  apply intervalIntegral.integral_congr
  intro u _
  have hd : (Rng.withDraw r (r.pos + 1) u).draw (Rng.withDraw r (r.pos + 1) u).pos = r.draw r.pos := by
    simp [Rng.withDraw]
  have he' := he
  rw [← hd] at he'
  dsimp only
  rw [stochastic_emit he']
  unfold storePhoton
  rw [if_pos (by simpa using hE)]
  have hu : (Rng.withDraw r (r.pos + 1) u).next.2.next.1 = u := by
    simp [Rng.withDraw, Rng.next]
  by_cases hfu : cfg.sampleFrac < u
  · rw [if_pos (by rw [hu]; simpa using hfu), if_pos hfu]
    unfold PList.nPart at hroom
    simp only [addedWeight, PList.add, if_pos hroom]
    simp [Particle.newPhotonE, Particle.new, (recoiled_fields p delta gammaE).2.1]
  · rw [if_neg (by rw [hu]; simpa using hfu), if_neg hfu]
    simp [addedWeight]

/-- C34 is false for stochastic emission at every sample fraction but one half. -/
theorem C34_stochastic_refuted {cfg : EmissionCfg ℝ} {p : Particle ℝ} {l : PList ℝ} {r : Rng ℝ}
    {delta gammaE : ℝ} (he : Emits cfg p (r.draw r.pos) delta gammaE) (hE : cfg.eMin < gammaE)
    (hroom : l.nPart < l.maxParticles) (h0 : 0 < cfg.sampleFrac) (h1 : cfg.sampleFrac ≤ 1)
    (hw : p.weight ≠ 0) :
    ∫ u in (0:ℝ)..1, addedWeight l (stochasticInteract cfg p l (Rng.withDraw r (r.pos + 1) u)) =
      p.weight ↔ cfg.sampleFrac = 1 / 2 := by
  rw [C34_stochastic_expectation he hE hroom h0 h1]
  constructor
  · intro h
    field_simp at h
    linarith
  · intro h
    rw [h]; ring

/-- C34 is false: an emission whose expected stored weight is three times its weight. -/
theorem C34_refuted :
    ∃ (cfg : EmissionCfg ℝ) (p : Particle ℝ) (l : PList ℝ) (r : Rng ℝ), r.Valid ∧
      cfg.sampleFrac = 1 / 4 ∧ p.weight = 1 ∧
      ∫ u in (0:ℝ)..1, addedWeight l (stochasticInteract cfg p l (Rng.withDraw r (r.pos + 1) u)) =
        3 := by
  obtain ⟨delta, _, he⟩ := Witness.emits (1 / 8) (1 / 4) 0 (by norm_num) (1 / 2) (by norm_num)
    (by norm_num)
  refine ⟨Witness.emCfg (1 / 8) (1 / 4) 0, Witness.electron, PList.new "0" 10, Witness.rng,
    Witness.rng_valid, rfl, rfl, ?_⟩
  rw [C34_stochastic_expectation (r := Witness.rng) he (by
      simp only [Witness.emCfg]; positivity) (by simp [PList.nPart, PList.new])
    (by simp [Witness.emCfg]) (by simp [Witness.emCfg]; norm_num)]
  simp only [Witness.emCfg, Witness.electron, Particle.newLepton, Particle.new]
  norm_num

/-- What holds of C34: continuous emission is unbiased. The expected stored weight of a
step is the parent's weight times the expected number of photons of the step. Missing:
stochastic emission. -/
theorem C34_continuous_partial {cfg : EmissionCfg ℝ} {classical : Bool} {p : Particle ℝ}
    {l : PList ℝ} {r : Rng ℝ} {logh chi : ℝ} (hm : p.mass ≠ 0) (ha : p.isAlive = true)
    (hc : continuousLoghChi cfg classical (calculateEta cfg.field p) (r.draw (r.pos + 1)) =
      .ok (logh, chi))
    (hE : cfg.eMin < 2 * chi * p.gamma / calculateEta cfg.field p)
    (hroom : l.nPart < l.maxParticles) (h0 : 0 < cfg.sampleFrac) (h1 : cfg.sampleFrac ≤ 1) :
    ∫ u in (0:ℝ)..1, addedWeight l (continuousInteract cfg classical p l (Rng.withDraw r r.pos u)) =
      p.weight * emissionDelta cfg.dt (calculateEta cfg.field p) logh p.gamma := by
  set del := emissionDelta cfg.dt (calculateEta cfg.field p) logh p.gamma with hdel
  rw [show p.weight * del = cfg.sampleFrac * (p.weight * del / cfg.sampleFrac) by field_simp,
    ← integral_below h0.le h1]
  apply intervalIntegral.integral_congr
  intro u _
  dsimp only
  unfold continuousInteract
  rw [if_neg (by simp [hm, ha])]
  dsimp only
  have hu : (Rng.withDraw r r.pos u).next.1 = u := by simp [Rng.withDraw, Rng.next]
  have hu2 : (Rng.withDraw r r.pos u).next.2.next.1 = r.draw (r.pos + 1) := by
    simp [Rng.withDraw, Rng.next]
  rw [hu]
  by_cases hfu : cfg.sampleFrac < u
  · rw [if_pos (by simpa using hfu), if_pos hfu]
    simp [addedWeight]
  · rw [if_neg (by simpa using hfu), if_neg hfu, hu2, hc, Res.ok_bind]
    dsimp only
    rw [if_pos (by simpa using hE), ← hdel]
    unfold PList.nPart at hroom
    simp only [addedWeight, PList.add, if_pos hroom]
    simp [Particle.newPhotonE, Particle.new]

/-- The hypotheses of `C34_continuous_partial` are met. -/
example : ∃ (cfg : EmissionCfg ℝ) (p : Particle ℝ) (l : PList ℝ) (r : Rng ℝ) (logh chi : ℝ),
    p.mass ≠ 0 ∧ p.isAlive = true ∧ continuousLoghChi cfg false (calculateEta cfg.field p)
      (r.draw (r.pos + 1)) = .ok (logh, chi) ∧
    cfg.eMin < 2 * chi * p.gamma / calculateEta cfg.field p ∧
    l.nPart < l.maxParticles ∧ 0 < cfg.sampleFrac ∧ cfg.sampleFrac ≤ 1 := by
  refine ⟨Witness.emCfg (1 / 8) 1 0, Witness.electron, PList.new "0" 10, Witness.rng, 0, 1 / 8, ?_,
    rfl, ?_, ?_, by simp [PList.nPart, PList.new], ?_, ?_⟩
  · simp [Witness.electron, Particle.newLepton, Particle.new]
  · rw [Witness.eta_eq]
    unfold continuousLoghChi
    rw [if_neg (by simp only [real_lit, real_lt]; norm_num)]
    have hl : interpolate1D (Witness.emCfg (1 / 8) 1 0).hAxis (Witness.emCfg (1 / 8) 1 0).hData
        (Dbl.log10 (1:ℝ)) = .ok 0 := by
      simp [interpolate1D, Witness.emCfg, firstAbove, usub, rd]
    rw [hl, Res.ok_bind]
    rw [show (Witness.rng.draw (Witness.rng.pos + 1)) = 1 / 2 from rfl,
      Witness.chi_const _ _ _ _ (by norm_num) (by norm_num) (by norm_num)]
    rfl
  · rw [Witness.eta_eq, Witness.electron_gamma]
    simp [Witness.emCfg]
  · simp [Witness.emCfg]
  · simp [Witness.emCfg]

/-! ## C35 Continuous emission -/

/-- A step of continuous emission leaves the parent as it is and adds nothing, or
(if the list has room) one photon at the parent's position and time, along its
direction, above the minimum energy. -/
theorem C35_continuous {cfg : EmissionCfg ℝ} {classical : Bool} {p : Particle ℝ} {l : PList ℝ}
    {r : Rng ℝ} {p' : Particle ℝ} {l' : PList ℝ} {r' : Rng ℝ}
    (h : continuousInteract cfg classical p l r = .ok (p', l', r'))
    (hp : p.momentum ≠ ⟨0, 0, 0⟩) (hE : 0 ≤ cfg.eMin) :
    p' = p ∧ l'.maxParticles = l.maxParticles ∧
    (l'.items = l.items ∨ ∃ ph, l'.items = l.items ++ [ph] ∧ ph.kind = .photon ∧
      ph.isAlive = true ∧ ph.position = p.position ∧ ph.time = p.time ∧
      ph.direction = p.direction ∧ cfg.eMin < ph.energy) := by
  obtain ⟨hp', _, hl⟩ := continuous_cases h
  refine ⟨hp', ?_, ?_⟩
  · rcases hl with rfl | ⟨_, _, _, _, _, _, _, hl⟩
    · rfl
    · rw [hl.2]; simp
  · rcases hl with rfl | ⟨_, _, logh, chi, u, _, _, hE', hl⟩
    · exact Or.inl rfl
    · rw [hl]
      unfold PList.add
      split
      · right
        refine ⟨_, rfl, rfl, rfl, rfl, rfl, ?_, ?_⟩
        · have hg : 0 < 2 * chi * p.gamma / calculateEta cfg.field p := by
            have : cfg.eMin < 2 * chi * p.gamma / calculateEta cfg.field p := by simpa using hE'
            linarith
          show ((p.direction.norm).smul _).norm = p.direction
          have hn : p.direction.norm = p.direction := V3.norm_norm hp
          rw [hn]
          exact V3.norm_smul_pos (V3.norm_dot_self hp) (by simpa using hg)
        · have hd : p.direction ≠ ⟨0, 0, 0⟩ := V3.norm_ne_zero hp
          rw [photonE_energy _ _ _ hd]
          have hE' : cfg.eMin < 2 * chi * p.gamma / calculateEta cfg.field p := by simpa using hE'
          have := le_abs_self (2 * chi * p.gamma / calculateEta cfg.field p)
          simp only [real_lit, real_mul, real_div]
          push_cast
          linarith
      · exact Or.inl rfl

/-- The parent is untouched and at most one particle added for every kind of scalar,
hence also in floating point. -/
theorem C35_parent {D : Type} [Dbl D] {cfg : EmissionCfg D} {classical : Bool} {p : Particle D}
    {l : PList D} {r : Rng D} {p' : Particle D} {l' : PList D} {r' : Rng D}
    (h : continuousInteract cfg classical p l r = .ok (p', l', r')) :
    p' = p ∧ ∃ new, l'.items = l.items ++ new ∧ new.length ≤ 1 ∧ ∀ ph ∈ new, ph.kind = .photon ∧
      ph.position = p.position ∧ ph.time = p.time := by
  obtain ⟨hp', _, hl⟩ := continuous_cases h
  refine ⟨hp', ?_⟩
  rcases hl with rfl | ⟨_, _, logh, chi, u, _, _, hE', hl⟩
  · exact ⟨[], by simp⟩
  · rw [hl]
    unfold PList.add
    split
    · exact ⟨_, rfl, by simp, by simp [Particle.newPhotonE, Particle.new]⟩
    · exact ⟨[], by simp⟩

/-- A step of continuous emission that adds a photon exists. -/
example : ∃ p' l' r', continuousInteract (Witness.emCfg (1 / 8) 1 0) false Witness.electron
      (PList.new "0" 10) Witness.rng = .ok (p', l', r') ∧ l'.items.length = 1 ∧
      Witness.electron.momentum ≠ ⟨0, 0, 0⟩ := by
  have hc : continuousLoghChi (Witness.emCfg (1 / 8) 1 0) false 1 (1 / 2) = .ok (0, 1 / 8) := by
    unfold continuousLoghChi
    rw [if_neg (by simp only [real_lit, real_lt]; norm_num)]
    have hl : interpolate1D (Witness.emCfg (1 / 8) 1 0).hAxis (Witness.emCfg (1 / 8) 1 0).hData
        (Dbl.log10 (1:ℝ)) = .ok 0 := by
      simp [interpolate1D, Witness.emCfg, firstAbove, usub, rd]
    rw [hl, Res.ok_bind, Witness.chi_const _ _ _ _ (by norm_num) (by norm_num) (by norm_num)]
    rfl
  unfold continuousInteract
  rw [if_neg (by simp [Witness.electron, Particle.newLepton, Particle.new])]
  dsimp only
  rw [if_neg (by simp [Witness.emCfg, Witness.rng, Rng.next]; norm_num), Witness.eta_eq]
  rw [show Witness.rng.next.2.next.1 = 1 / 2 from rfl, hc, Res.ok_bind]
  dsimp only
  rw [Witness.electron_gamma, if_pos (by simp [Witness.emCfg])]
  exact ⟨_, _, _, rfl, by simp [PList.add, PList.new], by simp [Witness.electron_momentum]⟩

end QED
