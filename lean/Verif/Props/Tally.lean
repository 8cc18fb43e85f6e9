import Verif.Lemmas.Tally
import Verif.Props.Radiation

set_option autoImplicit false

/-!
# C154: how much a lepton radiates on average

When the optical depth of a lepton runs out in a time step, the program makes one photon and draws a new depth. What the
rest of the step would have used up of it is forgotten. So there is one photon per step and lepton at most, and on average
`1 - exp (-δ)` of them where the rate says `δ`.
-/

namespace QED

open MCTools MeasureTheory

section means

variable {cfg : SimCfg ℝ} {e : EmissionCfg ℝ} {logh : ℝ → ℝ} {chi : ℝ → ℝ → ℝ}
  {Q : Particle ℝ → Prop} {p : Particle ℝ} {nm : String} {mx n N : Nat}

theorem recorded_eq {s t : EvState ℝ} {h : List (Option ℝ)} (hl : Lived cfg s h t) (hn : h.length = n)
    (G : List (Option ℝ) → ENNReal) : recorded cfg s n G = G h := by
  unfold recorded
  apply le_antisymm
  · refine iSup_le fun h' => iSup_le fun hh => ?_
    obtain ⟨⟨t', hl'⟩, hn'⟩ := hh
    rw [lived_unique hl' hl (hn'.trans hn.symm)]
  · exact le_iSup₂_of_le h ⟨⟨t, hl⟩, hn⟩ le_rfl

theorem meanOf_eq (hprocs : cfg.procs = [.stochastic e]) (hL : Lookups cfg e logh chi Q) (hq : Q p)
    (hm : p.mass ≠ 0) (ha : p.isAlive = true) (hmx : 0 < mx) (hdt : 0 ≤ e.dt)
    (hend : ∀ k < n, (k : ℝ) * cfg.dt < cfg.timeEnd) (hN : 4 * n < N) (G : List (Option ℝ) → ENNReal) :
    meanOf cfg p nm mx n N G = memoryless (pushParticle cfg.push cfg.field cfg.dt) (emissionRate e logh)
      (kicked e chi) n p G :=
  C118_mean hprocs hL hq hm ha hmx hdt hend hN _ G fun _ _ _ hl hn => recorded_eq hl hn G

/-- C154, the exact law. `g` is any quantity of the photons. On average its total over the photons that the lepton emits
in `n` steps is the total over the steps of the chance `1 - exp (-rate)` of an emission times the mean of `g` over
the spectrum, along the path that the lepton takes. -/
theorem C154_law (hprocs : cfg.procs = [.stochastic e]) (hL : Lookups cfg e logh chi Q) (hq : Q p)
    (hm : p.mass ≠ 0) (ha : p.isAlive = true) (hmx : 0 < mx) (hdt : 0 ≤ e.dt)
    (hend : ∀ k < n, (k : ℝ) * cfg.dt < cfg.timeEnd) (hN : 4 * n < N) {g : Particle ℝ → ℝ → ENNReal}
    (hg : ∀ q, Measurable (g q)) :
    meanOf cfg p nm mx n N (radiated cfg e chi g p) = meanOf cfg p nm mx n N (expected cfg e chi (fun q =>
      ENNReal.ofReal (1 - Real.exp (-emissionRate e logh q)) * overSpectrum g q) p) := by
  rw [meanOf_eq hprocs hL hq hm ha hmx hdt hend hN, meanOf_eq hprocs hL hq hm ha hmx hdt hend hN]
  exact Tally.law (rate_nonneg hdt) hg n p

/-- C154, what holds of it: the lepton radiates at least `1 - d / 2` of what the rate along its path says, if `d` bounds
the expected number of emissions in a step, and never more than the rate says. -/
theorem C154_partial (hprocs : cfg.procs = [.stochastic e]) (hL : Lookups cfg e logh chi Q) (hq : Q p)
    (hm : p.mass ≠ 0) (ha : p.isAlive = true) (hmx : 0 < mx) (hdt : 0 ≤ e.dt)
    (hend : ∀ k < n, (k : ℝ) * cfg.dt < cfg.timeEnd) (hN : 4 * n < N) {g : Particle ℝ → ℝ → ENNReal}
    (hg : ∀ q, Measurable (g q)) {d : ℝ}
    (hd : ∀ q, Q q → emissionRate e logh (pushParticle cfg.push cfg.field cfg.dt q) ≤ d) :
    ENNReal.ofReal (1 - d / 2) * meanOf cfg p nm mx n N
        (expected cfg e chi (fun q => ENNReal.ofReal (emissionRate e logh q) * overSpectrum g q) p) ≤
        meanOf cfg p nm mx n N (radiated cfg e chi g p) ∧
      meanOf cfg p nm mx n N (radiated cfg e chi g p) ≤ meanOf cfg p nm mx n N
        (expected cfg e chi (fun q => ENNReal.ofReal (emissionRate e logh q) * overSpectrum g q) p) := by
  rw [meanOf_eq hprocs hL hq hm ha hmx hdt hend hN, meanOf_eq hprocs hL hq hm ha hmx hdt hend hN]
  unfold radiated expected
  rw [Tally.law (rate_nonneg hdt) hg]
  constructor
  · rw [← Tally.steps_mul (rate_nonneg hdt) ENNReal.ofReal_ne_top]
    refine Tally.steps_mono (rate_nonneg hdt) hL.pushed hL.recoil (fun q hq => ?_) n p hq
    rw [← mul_assoc]
    refine mul_le_mul_left ?_ _
    have h0 := rate_nonneg (logh := logh) hdt (pushParticle cfg.push cfg.field cfg.dt q)
    have h1 := hd q hq
    generalize emissionRate e logh (pushParticle cfg.push cfg.field cfg.dt q) = x at *
    rw [← ENNReal.ofReal_mul' h0]
    apply ENNReal.ofReal_le_ofReal
    have := Tally.exp_below h0
    nlinarith
  · refine Tally.steps_mono (rate_nonneg hdt) hL.pushed hL.recoil (fun q hq => ?_) n p hq
    refine mul_le_mul_left (ENNReal.ofReal_le_ofReal ?_) _
    have := Real.add_one_le_exp (-emissionRate e logh (pushParticle cfg.push cfg.field cfg.dt q))
    linarith

/-- C154 is false of every lepton that can emit in its first step, whatever the time step: on average it radiates less
than the rate along its path says. -/
theorem C154_refuted (hprocs : cfg.procs = [.stochastic e]) (hL : Lookups cfg e logh chi Q) (hq : Q p)
    (hm : p.mass ≠ 0) (ha : p.isAlive = true) (hmx : 0 < mx) (hdt : 0 ≤ e.dt)
    (hend : ∀ k < n + 1, (k : ℝ) * cfg.dt < cfg.timeEnd) (hN : 4 * (n + 1) < N) {g : Particle ℝ → ℝ → ENNReal}
    (hg : ∀ q, Measurable (g q)) (hr : 0 < emissionRate e logh (pushParticle cfg.push cfg.field cfg.dt p))
    (hs : overSpectrum g (pushParticle cfg.push cfg.field cfg.dt p) ≠ 0)
    (hfin : meanOf cfg p nm mx (n + 1) N (radiated cfg e chi g p) ≠ ⊤) :
    meanOf cfg p nm mx (n + 1) N (radiated cfg e chi g p) < meanOf cfg p nm mx (n + 1) N
      (expected cfg e chi (fun q => ENNReal.ofReal (emissionRate e logh q) * overSpectrum g q) p) := by
  rw [meanOf_eq hprocs hL hq hm ha hmx hdt hend hN] at hfin ⊢
  rw [meanOf_eq hprocs hL hq hm ha hmx hdt hend hN]
  unfold radiated at hfin ⊢
  unfold expected
  rw [Tally.law (rate_nonneg hdt) hg] at hfin ⊢
  exact Tally.steps_lt (rate_nonneg hdt) hL.pushed hL.recoil hq (fun q _ => mul_le_mul_left (ENNReal.ofReal_le_ofReal
    (Tally.exp_above _)) _) hr hs hfin

/-- C154, the number of emissions in `n` steps: with rates between `r` and `r'` it lies between `n * (1 - exp (-r))` and
`n * (1 - exp (-r'))` on average. -/
theorem C154_number (hprocs : cfg.procs = [.stochastic e]) (hL : Lookups cfg e logh chi Q) (hq : Q p)
    (hm : p.mass ≠ 0) (ha : p.isAlive = true) (hmx : 0 < mx) (hdt : 0 ≤ e.dt)
    (hend : ∀ k < n, (k : ℝ) * cfg.dt < cfg.timeEnd) (hN : 4 * n < N) {r r' : ℝ}
    (hr : ∀ q, Q q → r ≤ emissionRate e logh (pushParticle cfg.push cfg.field cfg.dt q))
    (hr' : ∀ q, Q q → emissionRate e logh (pushParticle cfg.push cfg.field cfg.dt q) ≤ r') :
    n * ENNReal.ofReal (1 - Real.exp (-r)) ≤ (meanOf cfg p nm mx n N fun h => (h.countP Option.isSome : ENNReal)) ∧
      (meanOf cfg p nm mx n N fun h => (h.countP Option.isSome : ENNReal)) ≤
        n * ENNReal.ofReal (1 - Real.exp (-r')) := by
  have hc := fun c => Tally.steps_const (push := pushParticle cfg.push cfg.field cfg.dt)
    (kick := kicked e chi) (rate_nonneg (logh := logh) hdt) c n p
  rw [meanOf_eq hprocs hL hq hm ha hmx hdt hend hN, ← hc, ← hc]
  simp only [← Tally.emissions_one (push := pushParticle cfg.push cfg.field cfg.dt) (kick := kicked e chi) _ p]
  rw [Tally.law (rate_nonneg hdt) fun _ => measurable_const]
  have hone : ∀ q : Particle ℝ, overSpectrum (fun _ _ => 1) q = 1 := fun q => lintegral_unit 1
  simp only [hone, mul_one]
  constructor
  · refine Tally.steps_mono (rate_nonneg hdt) hL.pushed hL.recoil (fun q hq => ENNReal.ofReal_le_ofReal ?_) n p hq
    have := Real.exp_le_exp.mpr (neg_le_neg (hr q hq))
    linarith
  · refine Tally.steps_mono (rate_nonneg hdt) hL.pushed hL.recoil (fun q hq => ENNReal.ofReal_le_ofReal ?_) n p hq
    have := Real.exp_le_exp.mpr (neg_le_neg (hr' q hq))
    linarith

/-- C154 for the number of emissions: on average there are fewer than the rate says, and no more than there are steps
however high the rate. -/
theorem C154_number_refuted (hprocs : cfg.procs = [.stochastic e]) (hL : Lookups cfg e logh chi Q) (hq : Q p)
    (hm : p.mass ≠ 0) (ha : p.isAlive = true) (hmx : 0 < mx) (hdt : 0 ≤ e.dt)
    (hend : ∀ k < n + 1, (k : ℝ) * cfg.dt < cfg.timeEnd) (hN : 4 * (n + 1) < N)
    (hr : 0 < emissionRate e logh (pushParticle cfg.push cfg.field cfg.dt p)) :
    (meanOf cfg p nm mx (n + 1) N fun h => (h.countP Option.isSome : ENNReal)) < meanOf cfg p nm mx (n + 1) N
        (expected cfg e chi (fun q => ENNReal.ofReal (emissionRate e logh q)) p) ∧
      (meanOf cfg p nm mx (n + 1) N fun h => (h.countP Option.isSome : ENNReal)) ≤ n + 1 := by
  have hF : (fun h : List (Option ℝ) => (h.countP Option.isSome : ENNReal)) = radiated cfg e chi (fun _ _ => 1) p :=
    funext fun h => (Tally.emissions_one h p).symm
  have hone : ∀ q : Particle ℝ, overSpectrum (fun _ _ => 1) q = 1 := fun q => lintegral_unit 1
  have hle : meanOf cfg p nm mx (n + 1) N (radiated cfg e chi (fun _ _ => 1) p) ≤ n + 1 := by
    rw [meanOf_eq hprocs hL hq hm ha hmx hdt hend hN]
    unfold radiated
    rw [Tally.law (rate_nonneg hdt) fun _ => measurable_const]
    have := Tally.steps_const (push := pushParticle cfg.push cfg.field cfg.dt) (kick := kicked e chi)
      (rate_nonneg (logh := logh) hdt) 1 (n + 1) p
    rw [mul_one] at this
    refine le_trans ?_ (this.le.trans (by push_cast; exact le_rfl))
    refine Tally.steps_mono (rate_nonneg hdt) hL.pushed hL.recoil (fun q _ => ?_) (n + 1) p hq
    rw [hone, mul_one, ← ENNReal.ofReal_one]
    apply ENNReal.ofReal_le_ofReal
    have := Real.exp_pos (-emissionRate e logh (pushParticle cfg.push cfg.field cfg.dt q))
    linarith
  rw [hF]
  refine ⟨?_, hle⟩
  have := C154_refuted (nm := nm) hprocs hL hq hm ha hmx hdt hend hN (g := fun _ _ => 1) (fun _ => measurable_const) hr
    (by rw [hone]; exact one_ne_zero) (ne_top_of_le_ne_top (by exact_mod_cast ENNReal.natCast_ne_top (n + 1)) hle)
  simpa only [hone, mul_one] using this

/-- C154 in the list of particles, whatever the draws: after `n` steps of an event with any particles there are no more
than `n` new photons for each lepton, however strong the fields and however long the steps. -/
theorem C154_list_refuted (hprocs : cfg.procs = [.stochastic e]) {s t : EvState ℝ} (h : Steps cfg s n t) :
    t.list.items.length ≤ s.list.items.length + n * (s.list.items.filter fun p => decide (p.mass ≠ 0)).length := by
  have := (Tally.steps_add hprocs h).1
  unfold Tally.massive at this
  rwa [List.countP_eq_length_filter] at this

end means

namespace Witness

/-- The emission of `accelCfg`. -/
noncomputable abbrev accelEm : EmissionCfg ℝ :=
  { emCfg (1 / 4) (1 / 2) 0 with field := staticField ⟨0, 0, -1⟩ ⟨0, 0, 0⟩ }

theorem accel_rate {q : Particle ℝ} (h : Forward q) : 0 < emissionRate accelEm (fun _ => 0) q ∧
    emissionRate accelEm (fun _ => 0) q ≤ 1 / 100 := by
  unfold emissionRate
  dsimp only
  rw [forward_eta h]
  have hg : 1 ≤ q.gamma := by
    unfold Particle.gamma
    rw [h.kind]
    obtain ⟨z, hz, hmom⟩ := h.momentum
    rw [hmom, h.mass]
    simp [V3.mag2, V3.dot]
    positivity
  have h3 : √(3 : ℝ) ≤ 2 := Real.sqrt_le_iff.mpr ⟨by norm_num, by norm_num⟩
  simp only [emCfg, Units.alpha, Units.pi, real_lit]
  refine ⟨by positivity, ?_⟩
  rw [div_le_iff₀ (by positivity)]
  norm_num
  nlinarith

end Witness

/-- The accelerated electron of C118, with any quantity of its photons and any number of steps. -/
example (n : Nat) (g : Particle ℝ → ℝ → ENNReal) (hg : ∀ q, Measurable (g q)) :
    meanOf (Witness.accelCfg n) Witness.electron "0" 10 n (4 * n + 1)
        (radiated (Witness.accelCfg n) Witness.accelEm (fun _ _ => 1 / 4) g Witness.electron) =
      meanOf (Witness.accelCfg n) Witness.electron "0" 10 n (4 * n + 1)
        (expected (Witness.accelCfg n) Witness.accelEm (fun _ _ => 1 / 4) (fun q =>
          ENNReal.ofReal (1 - Real.exp (-emissionRate Witness.accelEm (fun _ => 0) q)) * overSpectrum g q)
          Witness.electron) :=
  C154_law rfl (Witness.accel_lookups n) Witness.electron_forward
    (by rw [Witness.electron_forward.mass]; norm_num) rfl (by norm_num)
    (by simp [Witness.emCfg]) (by intro k hk; simpa [Witness.accelCfg] using hk) (by omega) hg

/-- It emits fewer photons than the rate says. -/
example (n : Nat) : (meanOf (Witness.accelCfg (n + 1)) Witness.electron "0" 10 (n + 1) (4 * (n + 1) + 1)
      fun h => (h.countP Option.isSome : ENNReal)) <
    meanOf (Witness.accelCfg (n + 1)) Witness.electron "0" 10 (n + 1) (4 * (n + 1) + 1)
      (expected (Witness.accelCfg (n + 1)) Witness.accelEm (fun _ _ => 1 / 4) (fun q =>
        ENNReal.ofReal (emissionRate Witness.accelEm (fun _ => 0) q)) Witness.electron) :=
  (C154_number_refuted rfl (Witness.accel_lookups (n + 1)) Witness.electron_forward
    (by rw [Witness.electron_forward.mass]; norm_num) rfl (by norm_num)
    (by simp [Witness.emCfg]) (by intro k hk; simp [Witness.accelCfg]; exact_mod_cast hk) (by omega)
    (Witness.accel_rate (Witness.forward_push (n + 1) Witness.electron_forward).1).1).1

/-- Its rates are at most `1 / 100` per step, so it radiates at least `0.995` of what they say. -/
example (n : Nat) (g : Particle ℝ → ℝ → ENNReal) (hg : ∀ q, Measurable (g q)) :
    ENNReal.ofReal (1 - 1 / 100 / 2) * meanOf (Witness.accelCfg n) Witness.electron "0" 10 n (4 * n + 1)
      (expected (Witness.accelCfg n) Witness.accelEm (fun _ _ => 1 / 4) (fun q =>
        ENNReal.ofReal (emissionRate Witness.accelEm (fun _ => 0) q) * overSpectrum g q) Witness.electron) ≤
    meanOf (Witness.accelCfg n) Witness.electron "0" 10 n (4 * n + 1)
      (radiated (Witness.accelCfg n) Witness.accelEm (fun _ _ => 1 / 4) g Witness.electron) :=
  (C154_partial rfl (Witness.accel_lookups n) Witness.electron_forward
    (by rw [Witness.electron_forward.mass]; norm_num) rfl (by norm_num)
    (by simp [Witness.emCfg]) (by intro k hk; simpa [Witness.accelCfg] using hk) (by omega) hg
    fun q hq => (Witness.accel_rate (Witness.forward_push n hq).1).2).1

/-- Its number of emissions. -/
example (n : Nat) : (meanOf (Witness.accelCfg n) Witness.electron "0" 10 n (4 * n + 1)
      fun h => (h.countP Option.isSome : ENNReal)) ≤ n * ENNReal.ofReal (1 - Real.exp (-(1 / 100))) :=
  (C154_number (r := 0) rfl (Witness.accel_lookups n) Witness.electron_forward
    (by rw [Witness.electron_forward.mass]; norm_num) rfl (by norm_num)
    (by simp [Witness.emCfg]) (by intro k hk; simpa [Witness.accelCfg] using hk) (by omega)
    (fun q hq => (Witness.accel_rate (Witness.forward_push n hq).1).1.le)
    fun q hq => (Witness.accel_rate (Witness.forward_push n hq).1).2).2

theorem lived_steps {cfg : SimCfg ℝ} {s t : EvState ℝ} {h : List (Option ℝ)} (hl : Lived cfg s h t) :
    Steps cfg s h.length t := by
  have key : ∀ {a b c : EvState ℝ} {k : Nat}, (a.time <. cfg.timeEnd) = true → timeStep cfg a = .ok b →
      Steps cfg b k c → Steps cfg a (k + 1) c := by
    intro a b c k h1 h2 h3
    induction h3 with
    | zero => exact .succ .zero h1 h2
    | succ _ g2 g3 ih => exact .succ ih g2 g3
  induction hl with
  | nil => exact .zero
  | quiet h1 h2 _ _ ih => exact key h1 h2 ih
  | drawn h1 h2 _ _ ih => exact key h1 h2 ih

/-- It goes through its `n` steps whatever the draws, with `n` photons at most. -/
example (n : Nat) (u : ℝ) (us : List ℝ) (hu : 0 ≤ u ∧ u < 1) (hus : ∀ v ∈ us, 0 ≤ v ∧ v < 1)
    (hlen : 4 * n ≤ us.length) : ∃ t, Steps (Witness.accelCfg n) (lonely Witness.electron "0" 10 (u :: us)) n t ∧
      t.list.items.length ≤ 1 + n := by
  obtain ⟨⟨t, h1⟩, h2⟩ := (lived_iff rfl (Witness.accel_lookups n) n _ Witness.electron _ us
    (lonely_lone (nm := "0") (mx := 10) Witness.electron u us (by norm_num)) Witness.electron_forward
    (C16_initial_depth_nonneg u hu.1 hu.2) hus (by rw [Witness.electron_forward.mass]; norm_num) rfl hlen
    (by intro k hk; simpa [Witness.accelCfg, lonely, EvState.init] using hk) _).mpr rfl
  have h3 := lived_steps h1
  rw [h2] at h3
  refine ⟨t, h3, (C154_list_refuted rfl h3).trans ?_⟩
  have : ((lonely Witness.electron "0" 10 (u :: us)).list.items.filter fun p => decide (p.mass ≠ 0)).length ≤ 1 :=
    List.length_filter_le _ _
  have h4 : (lonely Witness.electron "0" 10 (u :: us)).list.items.length = 1 := rfl
  nlinarith

end QED
