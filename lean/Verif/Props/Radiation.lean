import Verif.Lemmas.RadiationEvent
import Verif.Props.Pushers

set_option autoImplicit false

/-!
# Property C118: the emissions of a lepton have no memory

The program keeps, for every lepton, an optical depth that is drawn anew after each
emission. Over independent uniform draws, the complete record of the emissions of a lepton
(in which steps it emitted, and which number selected each photon) has the law of the
process without memory: in every step it emits with probability `1 - exp (-rate)`,
whatever happened before, and then selects the photon by a fresh uniform number.
-/

namespace QED

open MCTools MeasureTheory

section law

variable {cfg : SimCfg ℝ} {e : EmissionCfg ℝ} {logh : ℝ → ℝ} {chi : ℝ → ℝ → ℝ}
  {Q : Particle ℝ → Prop} {p : Particle ℝ} {nm : String} {mx n N : Nat}

theorem lonely_lone (p : Particle ℝ) (u : ℝ) (us : List ℝ) (hmx : 0 < mx) :
    Lone (lonely p nm mx (u :: us)) p (initDepth u) us := by
  refine ⟨⟨[], rfl, by simp⟩, hmx, ?_, rfl⟩
  intro i d hi
  show (u :: us).getD (1 + i) 0 = d
  rw [Nat.add_comm, List.getD_cons_succ, List.getD_eq_getElem?_getD, hi]
  rfl

/-- The mean of any quantity `F` that the record of the first `n` steps determines. `N`
draws are enough for `n` steps. -/
theorem C118_mean (hprocs : cfg.procs = [.stochastic e]) (hL : Lookups cfg e logh chi Q) (hq : Q p)
    (hm : p.mass ≠ 0) (ha : p.isAlive = true) (hmx : 0 < mx) (hdt : 0 ≤ e.dt)
    (hend : ∀ k < n, (k : ℝ) * cfg.dt < cfg.timeEnd) (hN : 4 * n < N)
    (F : List ℝ → ENNReal) (G : List (Option ℝ) → ENNReal)
    (hF : ∀ us h t, Lived cfg (lonely p nm mx us) h t → h.length = n → F us = G h) :
    average N F = memoryless (pushParticle cfg.push cfg.field cfg.dt) (emissionRate e logh)
      (kicked e chi) n p G := by
  obtain ⟨N, rfl⟩ : ∃ M, N = M + 1 := ⟨N - 1, by omega⟩
  rw [← depths_law (extra := photonDraws e chi) (rate := emissionRate e logh)
    (fun q => C16_emission_increment_nonneg e.field q e.dt _ hdt) (photonDraws_modest e chi) n N
    (by omega)]
  rw [average_succ]
  refine setLIntegral_congr_fun measurableSet_Ico fun u hu => average_congr fun us hus hv => ?_
  have hs := lonely_lone (nm := nm) p u us hmx
  have key := lived_iff hprocs hL n _ p _ us hs hq (C16_initial_depth_nonneg u hu.1 hu.2) hv hm ha
    (by omega) (fun k hk => by
      have := hend k hk
      simpa [lonely, EvState.init] using this)
  obtain ⟨⟨t, h1⟩, h2⟩ := (key _).mpr rfl
  exact hF _ _ t h1 h2

/-- The record of `n` steps is determined by the draws. -/
theorem lived_unique {s : EvState ℝ} {h h' : List (Option ℝ)} {t t' : EvState ℝ}
    (hl : Lived cfg s h t) (hl' : Lived cfg s h' t') (hn : h.length = h'.length) : h = h' := by
  induction hl generalizing h' with
  | nil => exact (List.length_eq_zero_iff.mp hn.symm).symm
  | quiet _ h1 h2 _ ih =>
    cases hl' with
    | nil => simp at hn
    | quiet _ g1 _ g3 =>
      rw [h1] at g1
      cases Res.ok.inj g1
      rw [ih g3 (by simpa using hn)]
    | drawn _ g1 g2 _ =>
      rw [h1] at g1
      cases Res.ok.inj g1
      omega
  | drawn _ h1 h2 _ ih =>
    cases hl' with
    | nil => simp at hn
    | quiet _ g1 g2 _ =>
      rw [h1] at g1
      cases Res.ok.inj g1
      omega
    | drawn _ g1 _ g3 =>
      rw [h1] at g1
      cases Res.ok.inj g1
      rw [ih g3 (by simpa using hn)]

/-- The law of the record of the first `n` steps of a lepton: the probability of any set `A`
of records. -/
theorem C118_law (hprocs : cfg.procs = [.stochastic e]) (hL : Lookups cfg e logh chi Q) (hq : Q p)
    (hm : p.mass ≠ 0) (ha : p.isAlive = true) (hmx : 0 < mx) (hdt : 0 ≤ e.dt)
    (hend : ∀ k < n, (k : ℝ) * cfg.dt < cfg.timeEnd) (hN : 4 * n < N)
    (A : List (Option ℝ) → Prop) :
    likelihood N (fun us => ∃ h t, Lived cfg (lonely p nm mx us) h t ∧ h.length = n ∧ A h) =
      memoryless (pushParticle cfg.push cfg.field cfg.dt) (emissionRate e logh) (kicked e chi)
        n p (fun h => indic (A h)) := by
  refine C118_mean (nm := nm) hprocs hL hq hm ha hmx hdt hend hN _ _ fun us h t h1 h2 => ?_
  congr 1
  apply propext
  constructor
  · rintro ⟨h', t', g1, g2, g3⟩
    rw [lived_unique h1 g1 (by omega)]
    exact g3
  · intro hA
    exact ⟨h, t, h1, h2, hA⟩

theorem rate_nonneg (hdt : 0 ≤ e.dt) (q : Particle ℝ) : 0 ≤ emissionRate e logh q :=
  C16_emission_increment_nonneg e.field q e.dt _ hdt

/-- All `n` steps take place with probability 1. -/
theorem C118_total (hprocs : cfg.procs = [.stochastic e]) (hL : Lookups cfg e logh chi Q) (hq : Q p)
    (hm : p.mass ≠ 0) (ha : p.isAlive = true) (hmx : 0 < mx) (hdt : 0 ≤ e.dt)
    (hend : ∀ k < n, (k : ℝ) * cfg.dt < cfg.timeEnd) (hN : 4 * n < N) :
    likelihood N (fun us => ∃ h t, Lived cfg (lonely p nm mx us) h t ∧ h.length = n) = 1 := by
  have := C118_law (nm := nm) hprocs hL hq hm ha hmx hdt hend hN fun _ => True
  simp only [and_true] at this
  rw [this]
  simp only [indic, if_true]
  exact memoryless_const _ _ _ (rate_nonneg hdt) n p 1

/-- Nothing is emitted in `n` steps with the probability that C105 gives. -/
theorem C118_none (hprocs : cfg.procs = [.stochastic e]) (hL : Lookups cfg e logh chi Q) (hq : Q p)
    (hm : p.mass ≠ 0) (ha : p.isAlive = true) (hmx : 0 < mx) (hdt : 0 ≤ e.dt)
    (hend : ∀ k < n, (k : ℝ) * cfg.dt < cfg.timeEnd) (hN : 4 * n < N) :
    likelihood N (fun us => ∃ h t, Lived cfg (lonely p nm mx us) h t ∧ h.length = n ∧
        ∀ x ∈ h, x = none) =
      ENNReal.ofReal (Real.exp (-∑ k ∈ Finset.range n,
        emissionRate e logh (pushes cfg p (k + 1)))) := by
  rw [C118_law hprocs hL hq hm ha hmx hdt hend hN]
  exact memoryless_none _ _ _ (rate_nonneg hdt) n p

/-- No memory: whatever has been recorded in the first `n` steps, the next step is quiet
with probability `exp (-rate)`, the rate being that of the state which the record leads to. -/
theorem C118_next (hprocs : cfg.procs = [.stochastic e]) (hL : Lookups cfg e logh chi Q) (hq : Q p)
    (hm : p.mass ≠ 0) (ha : p.isAlive = true) (hmx : 0 < mx) (hdt : 0 ≤ e.dt)
    (hend : ∀ k < n + 1, (k : ℝ) * cfg.dt < cfg.timeEnd) (hN : 4 * (n + 1) < N)
    (A : List (Option ℝ) → Prop) :
    likelihood N (fun us => ∃ h t, Lived cfg (lonely p nm mx us) h t ∧ h.length = n + 1 ∧
        A (h.take n) ∧ h[n]? = some none) =
      memoryless (pushParticle cfg.push cfg.field cfg.dt) (emissionRate e logh) (kicked e chi) n p
        (fun h => indic (A h) * ENNReal.ofReal (Real.exp (-emissionRate e logh
          (pushParticle cfg.push cfg.field cfg.dt (following
            (pushParticle cfg.push cfg.field cfg.dt) (kicked e chi) h p))))) := by
  rw [C118_law hprocs hL hq hm ha hmx hdt hend hN,
    ← memoryless_next _ _ _ (rate_nonneg hdt) n p fun h => indic (A h)]
  congr 1
  funext h
  by_cases h1 : A (h.take n) <;> by_cases h2 : h[n]? = some none <;> simp [indic, h1, h2]

/-- `following` is what the program does: after the record `h` the lepton is in that state. -/
theorem C118_state (hprocs : cfg.procs = [.stochastic e]) (hL : Lookups cfg e logh chi Q) (hq : Q p)
    (hm : p.mass ≠ 0) (ha : p.isAlive = true) (hmx : 0 < mx) (us : List ℝ)
    (hN : 4 * n < us.length) (hus : ∀ u ∈ us, 0 ≤ u ∧ u < 1) (h : List (Option ℝ)) (t : EvState ℝ)
    (hl : Lived cfg (lonely p nm mx us) h t) (hn : h.length = n) :
    ∃ depth photons, t.list.items = { following (pushParticle cfg.push cfg.field cfg.dt)
      (kicked e chi) h p with opticalDepth := depth } :: photons ∧ ∀ x ∈ photons, x.mass = 0 := by
  obtain ⟨u, rest, rfl⟩ : ∃ u rest, us = u :: rest := by
    cases us with
    | nil => simp at hN
    | cons u rest => exact ⟨u, rest, rfl⟩
  have hu := hus u (by simp)
  have hs := lonely_lone (nm := nm) p u rest hmx
  simp only [List.length_cons] at hN
  obtain ⟨d', us', ht⟩ := lone_following hprocs hL hl p _ rest hs hq
    (C16_initial_depth_nonneg u hu.1 hu.2) (fun v hv => hus v (by simp [hv])) hm ha (by omega)
  obtain ⟨ph, h1, h2⟩ := ht.items
  exact ⟨d', ph, h1, h2⟩

/-- For sets of draws that can be measured, the probability is the product measure. -/
theorem C118_measure (A : List ℝ → Prop) (hA : MeasurableSet {u : Fin N → ℝ | A (List.ofFn u)}) :
    likelihood N A = Measure.pi (fun _ : Fin N => volume.restrict (Set.Ico (0 : ℝ) 1))
      {u | A (List.ofFn u)} := by
  have : (fun u : Fin N → ℝ => indic (A (List.ofFn u))) =
      {u : Fin N → ℝ | A (List.ofFn u)}.indicator 1 := by
    funext u
    by_cases h : A (List.ofFn u) <;> simp [indic, h]
  unfold likelihood
  rw [average_eq_pi, this, lintegral_indicator_one hA]
  rw [this]
  exact measurable_one.indicator hA

end law

/-! ## The hypotheses are satisfiable -/

namespace Witness

/-- An electron that is accelerated along its path. -/
noncomputable def accelCfg (n : Nat) : SimCfg ℝ :=
  ⟨lorentzForce, staticField ⟨0, 0, -1⟩ ⟨0, 0, 0⟩, 1, n,
    [.stochastic { emCfg (1 / 4) (1 / 2) 0 with field := staticField ⟨0, 0, -1⟩ ⟨0, 0, 0⟩ }]⟩

/-- An electron of momentum along z. -/
structure Forward (q : Particle ℝ) : Prop where
  kind : q.kind = .electron
  mass : q.mass = 1
  charge : q.charge = -1
  alive : q.isAlive = true
  momentum : ∃ z, 0 < z ∧ q.momentum = ⟨0, 0, z⟩

theorem forward_push (n : Nat) {q : Particle ℝ} (h : Forward q) :
    Forward (pushParticle (accelCfg n).push (accelCfg n).field (accelCfg n).dt q) ∧
      ∃ z, 1 < z ∧ (pushParticle (accelCfg n).push (accelCfg n).field (accelCfg n).dt q).momentum =
        ⟨0, 0, z⟩ := by
  obtain ⟨z, hz, hmom⟩ := h.momentum
  have hid := push_identity (accelCfg n).push (accelCfg n).field (accelCfg n).dt q
  have key := C28_uniform_E ⟨0, 0, -1⟩ (staticField ⟨0, 0, -1⟩ ⟨0, 0, 0⟩) (fun _ _ => rfl) 1 q
    h.alive (by rw [h.mass]; norm_num) 1
  have hm : (pushParticle (accelCfg n).push (accelCfg n).field (accelCfg n).dt q).momentum =
      ⟨0, 0, z + 1⟩ := by
    have hx := congrFun key 0
    have hy := congrFun key 1
    have hz := congrFun key 2
    simp [V3.toVec, hmom, h.charge] at hx hy hz
    ext
    · exact hx
    · exact hy
    · exact hz
  refine ⟨⟨hid.1.trans h.kind, hid.2.1.trans h.mass, hid.2.2.1.trans h.charge,
    hid.2.2.2.2.2.1.trans h.alive, z + 1, by linarith, hm⟩, z + 1, by linarith, hm⟩

theorem forward_eta {q : Particle ℝ} (h : Forward q) :
    calculateEta (staticField ⟨0, 0, -1⟩ ⟨0, 0, 0⟩) q = 1 := by
  obtain ⟨z, hz, hmom⟩ := h.momentum
  have hg : 0 < q.gamma := by
    unfold Particle.gamma
    rw [h.kind, hmom, h.mass]
    simp [V3.mag2, V3.dot]
    positivity
  unfold calculateEta Particle.direction
  rw [hmom, norm_z z hz]
  simp [staticField, V3.dot, V3.smul, V3.sub, V3.cross, V3.add, V3.mag2]
  rw [Real.sqrt_mul_self (by positivity)]
  field_simp

theorem accel_lookups (n : Nat) : Lookups (accelCfg n)
    { emCfg (1 / 4) (1 / 2) 0 with field := staticField ⟨0, 0, -1⟩ ⟨0, 0, 0⟩ }
    (fun _ => 0) (fun _ _ => 1 / 4) Forward := by
  refine ⟨fun q h => (forward_push n h).1, fun q h => ?_, fun q h _ v h0 h1 => ?_,
    fun q h _ v h0 h1 => ?_⟩
  · dsimp only
    rw [forward_eta (forward_push n h).1]
    unfold emissionLogh
    rw [if_neg (by simp only [real_lit, real_lt]; norm_num)]
    simp [Numerics.interpolate1D, emCfg, Numerics.firstAbove, Numerics.usub, rd]
  · dsimp only
    rw [forward_eta (forward_push n h).1]
    exact chi_const (1 / 4) (1 / 2) 0 v (by norm_num) h0 h1
  · obtain ⟨hf, z, hz, hmom⟩ := forward_push n h
    set q' := pushParticle (accelCfg n).push (accelCfg n).field (accelCfg n).dt q
    obtain ⟨k1, k2, k3⟩ := kicked_identity { emCfg (1 / 4) (1 / 2) 0 with
      field := staticField ⟨0, 0, -1⟩ ⟨0, 0, 0⟩ } (fun _ _ => 1 / 4) q' v
    have hg : q'.gamma = √(1 + z * z) := by
      unfold Particle.gamma
      rw [hf.kind, hmom, hf.mass]
      simp [V3.mag2, V3.dot]
    have hen : photonEnergy { emCfg (1 / 4) (1 / 2) 0 with
        field := staticField ⟨0, 0, -1⟩ ⟨0, 0, 0⟩ } (fun _ _ => 1 / 4) q' v = √(1 + z * z) / 2 := by
      unfold photonEnergy
      dsimp only
      rw [forward_eta hf, hg]
      ring
    refine ⟨k1.trans hf.kind, k2.trans hf.mass, ?_, k3.trans hf.alive, z - √(1 + z * z) / 2, ?_, ?_⟩
    · rw [← hf.charge]
      unfold kicked Particle.updateTrack
      split <;> rfl
    · have : √(1 + z * z) < 2 * z := by
        rw [Real.sqrt_lt' (by linarith)]
        nlinarith
      linarith
    · have hu : ∀ (a b : V3 ℝ), (q'.updateTrack a b).momentum = b := by
        intro a b
        unfold Particle.updateTrack
        split <;> rfl
      unfold kicked
      rw [hu, hen]
      unfold Particle.direction
      rw [hmom, norm_z z (by linarith)]
      simp [V3.sub, V3.smul]

theorem electron_forward : Forward electron :=
  ⟨electron_kind, rfl, rfl, rfl, 1, one_pos, rfl⟩

end Witness

/-- An accelerated electron that loses half its energy in each emission: the law of its
record, for any number of steps and any set of records. -/
example (n : Nat) (A : List (Option ℝ) → Prop) :
    likelihood (4 * n + 1) (fun us => ∃ h t, Lived (Witness.accelCfg n)
        (lonely Witness.electron "0" 10 us) h t ∧ h.length = n ∧ A h) =
      memoryless (pushParticle lorentzForce (staticField ⟨0, 0, -1⟩ ⟨0, 0, 0⟩) 1)
        (emissionRate { Witness.emCfg (1 / 4) (1 / 2) 0 with
          field := staticField ⟨0, 0, -1⟩ ⟨0, 0, 0⟩ } fun _ => 0)
        (kicked { Witness.emCfg (1 / 4) (1 / 2) 0 with
          field := staticField ⟨0, 0, -1⟩ ⟨0, 0, 0⟩ } fun _ _ => 1 / 4)
        n Witness.electron (fun h => indic (A h)) :=
  C118_law rfl (Witness.accel_lookups n) Witness.electron_forward
    (by rw [Witness.electron_forward.mass]; norm_num) rfl (by norm_num)
    (by simp [Witness.emCfg]) (by intro k hk; simpa [Witness.accelCfg] using hk) (by omega) A

/-- The rates are not zero. -/
example (q : Particle ℝ) (h : Witness.Forward q) : 0 < emissionRate
    { Witness.emCfg (1 / 4) (1 / 2) 0 with field := staticField ⟨0, 0, -1⟩ ⟨0, 0, 0⟩ } (fun _ => 0)
    q := by
  unfold emissionRate
  dsimp only
  rw [Witness.forward_eta h]
  have hg : 0 < q.gamma := by
    unfold Particle.gamma
    rw [h.kind]
    obtain ⟨z, hz, hmom⟩ := h.momentum
    rw [hmom, h.mass]
    simp [V3.mag2, V3.dot]
    positivity
  simp only [Witness.emCfg, Units.alpha, Units.pi, real_lit]
  positivity

end QED
