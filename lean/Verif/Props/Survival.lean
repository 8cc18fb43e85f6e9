import Verif.Lemmas.Survival
import Verif.Props.Pushers
import Verif.Lemmas.Emission

set_option autoImplicit false

/-!
# Property C105: first emissions and conversions follow the exponential law

The optical depth of a particle is drawn once, from one uniform number. Over that number,
the chance that a lepton has emitted nothing after `n` time steps is `exp (-S)`, where `S`
sums the increments (rate times step) along the trajectory it has without emission. The
same holds for the conversion of a photon.
-/

namespace QED

open MCTools

theorem untouched_iff {cfg : SimCfg ℝ} {p : Particle ℝ} {δ : Nat → ℝ} {nm : String}
    {mx : Nat} {r : Rng ℝ} {n : Nat} (hmx : 0 < mx)
    (hδ : ∀ k < n, 0 ≤ δ k) (h : ∀ k < n, Takes cfg.procs (pushes cfg p (k + 1)) (δ k))
    (hend : ∀ k < n, (k : ℝ) * cfg.dt < cfg.timeEnd) {u : ℝ} (h0 : 0 ≤ u) (h1 : u < 1) :
    Untouched cfg p nm mx r n u ↔ ∑ k ∈ Finset.range n, δ k ≤ initDepth u := by
  constructor
  · rintro ⟨t, ht, hr⟩
    obtain ⟨_, ⟨_, hlt⟩ | ⟨h3 | h3, _⟩⟩ := steps_single (d := initDepth u) hmx hδ h n le_rfl t ht
    · rw [hr] at hlt; exact absurd hlt (lt_irrefl _)
    · subst h3
      simpa using C16_initial_depth_nonneg u h0 h1
    · exact h3
  · intro hs
    obtain ⟨t, ht⟩ := steps_single_exists (nm := nm) (r := r) hmx hδ h hend n le_rfl hs
    obtain ⟨_, ⟨hlt, _⟩ | ⟨_, h3, _⟩⟩ := steps_single (d := initDepth u) hmx hδ h n le_rfl t ht
    · exact absurd hs (not_le.mpr hlt)
    · exact ⟨t, ht, h3⟩

theorem chance_untouched {cfg : SimCfg ℝ} {p : Particle ℝ} {δ : Nat → ℝ} {nm : String}
    {mx : Nat} {r : Rng ℝ} {n : Nat} (hmx : 0 < mx)
    (hδ : ∀ k < n, 0 ≤ δ k) (h : ∀ k < n, Takes cfg.procs (pushes cfg p (k + 1)) (δ k))
    (hend : ∀ k < n, (k : ℝ) * cfg.dt < cfg.timeEnd) :
    chance (Untouched cfg p nm mx r n) =
      ENNReal.ofReal (Real.exp (-∑ k ∈ Finset.range n, δ k)) := by
  rw [← volume_initDepth (Finset.sum_nonneg fun k hk => hδ k (Finset.mem_range.mp hk))]
  unfold chance
  congr 1
  ext u
  simp only [Set.mem_ofPred_eq]
  constructor
  · rintro ⟨a, b, c⟩
    exact ⟨a, b, (untouched_iff hmx hδ h hend a b).mp c⟩
  · rintro ⟨a, b, c⟩
    exact ⟨a, b, (untouched_iff hmx hδ h hend a b).mpr c⟩

/-- The chance that the first interaction happens in step `n + 1`. -/
theorem chance_step {cfg : SimCfg ℝ} {p : Particle ℝ} {δ : Nat → ℝ} {nm : String}
    {mx : Nat} {r : Rng ℝ} {n : Nat} (hmx : 0 < mx)
    (hδ : ∀ k < n + 1, 0 ≤ δ k) (h : ∀ k < n + 1, Takes cfg.procs (pushes cfg p (k + 1)) (δ k))
    (hend : ∀ k < n + 1, (k : ℝ) * cfg.dt < cfg.timeEnd) :
    chance (fun u => Untouched cfg p nm mx r n u ∧ ¬ Untouched cfg p nm mx r (n + 1) u) =
      ENNReal.ofReal (1 - Real.exp (-δ n)) * chance (Untouched cfg p nm mx r n) := by
  set S := ∑ k ∈ Finset.range n, δ k with hS
  have hS0 : 0 ≤ S := Finset.sum_nonneg fun k hk => hδ k (by have := Finset.mem_range.mp hk; omega)
  have hn := hδ n (by omega)
  rw [chance_untouched hmx (fun k hk => hδ k (by omega)) (fun k hk => h k (by omega))
    (fun k hk => hend k (by omega)), ← hS]
  have e1 : Real.exp (-S) ≤ 1 := Real.exp_le_one_iff.mpr (by linarith)
  have e2 : Real.exp (-(S + δ n)) ≤ Real.exp (-S) := Real.exp_le_exp.mpr (by linarith)
  have e3 : Real.exp (-δ n) ≤ 1 := Real.exp_le_one_iff.mpr (by linarith)
  have hset : {u : ℝ | 0 ≤ u ∧ u < 1 ∧ (Untouched cfg p nm mx r n u ∧
      ¬ Untouched cfg p nm mx r (n + 1) u)} =
      Set.Ico (1 - Real.exp (-S)) (1 - Real.exp (-(S + δ n))) := by
    have hp : 0 < Real.exp (-(S + δ n)) := Real.exp_pos _
    ext u
    simp only [Set.mem_ofPred_eq, Set.mem_Ico]
    constructor
    · rintro ⟨a, b, c, d⟩
      rw [untouched_iff hmx (fun k hk => hδ k (by omega)) (fun k hk => h k (by omega))
        (fun k hk => hend k (by omega)) a b, initDepth_ge b] at c
      rw [untouched_iff hmx hδ h hend a b, initDepth_ge b, Finset.sum_range_succ] at d
      exact ⟨c, not_le.mp d⟩
    · rintro ⟨c, d⟩
      have a : 0 ≤ u := by linarith
      have b : u < 1 := by linarith
      refine ⟨a, b, ?_, ?_⟩
      · rw [untouched_iff hmx (fun k hk => hδ k (by omega)) (fun k hk => h k (by omega))
          (fun k hk => hend k (by omega)) a b, initDepth_ge b]
        exact c
      · rw [untouched_iff hmx hδ h hend a b, initDepth_ge b, Finset.sum_range_succ]
        exact not_le.mpr d
  unfold chance
  rw [hset, Real.volume_Ico, ← ENNReal.ofReal_mul (by linarith)]
  congr 1
  rw [neg_add, Real.exp_add]
  ring

section emission

variable {cfg : SimCfg ℝ} {pre post : List (Proc ℝ)} {e : EmissionCfg ℝ} {p : Particle ℝ}
  {logh : Nat → ℝ} {nm : String} {mx : Nat} {r : Rng ℝ} {n : Nat}

theorem emission_takes (hprocs : cfg.procs = pre ++ .stochastic e :: post)
    (hidle : ∀ y ∈ pre ++ post, ∃ b, y = .breitWheeler b)
    (hk : p.kind ≠ .photon) (hm : p.mass ≠ 0) (ha : p.isAlive = true)
    (hl : ∀ k < n, emissionLogh e (calculateEta e.field (pushes cfg p (k + 1))) = .ok (logh k)) :
    ∀ k < n, Takes cfg.procs (pushes cfg p (k + 1)) (emissionDelta e.dt
      (calculateEta e.field (pushes cfg p (k + 1))) (logh k) (pushes cfg p (k + 1)).gamma) := by
  intro k hkn
  obtain ⟨h1, h2, h3⟩ := pushes_identity cfg p (k + 1)
  rw [hprocs]
  exact stochastic_takes hidle (by rw [h1]; exact hk) (by rw [h2]; exact hm) (by rw [h3]; exact ha)
    (hl k hkn)

/-- A lepton subject to stochastic emission (pair production may be switched on as well):
the chance that it has emitted nothing in the first `n` steps is the exponential of minus
the sum of `dt √3 α η 10^logh / (2π γ)` over the states it is pushed through. -/
theorem C105_emission (hprocs : cfg.procs = pre ++ .stochastic e :: post)
    (hidle : ∀ y ∈ pre ++ post, ∃ b, y = .breitWheeler b)
    (hk : p.kind ≠ .photon) (hm : p.mass ≠ 0) (ha : p.isAlive = true) (hmx : 0 < mx)
    (hdt : 0 ≤ e.dt) (hend : ∀ k < n, (k : ℝ) * cfg.dt < cfg.timeEnd)
    (hl : ∀ k < n, emissionLogh e (calculateEta e.field (pushes cfg p (k + 1))) = .ok (logh k)) :
    chance (Untouched cfg p nm mx r n) = ENNReal.ofReal (Real.exp (-∑ k ∈ Finset.range n,
      e.dt * √3 * Units.alpha * calculateEta e.field (pushes cfg p (k + 1)) * (10 : ℝ) ^ logh k /
        ((pushes cfg p (k + 1)).gamma * 2 * Units.pi))) := by
  rw [chance_untouched hmx (fun k _ => C16_emission_increment_nonneg _ _ _ _ hdt)
    (emission_takes hprocs hidle hk hm ha hl) hend]
  congr 3

/-- Given that it has emitted nothing before, the chance that the lepton emits in a step is
`1 - exp (-δ)`, whatever happened before: the process has no memory. -/
theorem C105_emission_step (hprocs : cfg.procs = pre ++ .stochastic e :: post)
    (hidle : ∀ y ∈ pre ++ post, ∃ b, y = .breitWheeler b)
    (hk : p.kind ≠ .photon) (hm : p.mass ≠ 0) (ha : p.isAlive = true) (hmx : 0 < mx)
    (hdt : 0 ≤ e.dt) (hend : ∀ k < n + 1, (k : ℝ) * cfg.dt < cfg.timeEnd)
    (hl : ∀ k < n + 1, emissionLogh e (calculateEta e.field (pushes cfg p (k + 1))) = .ok (logh k)) :
    chance (fun u => Untouched cfg p nm mx r n u ∧ ¬ Untouched cfg p nm mx r (n + 1) u) =
      ENNReal.ofReal (1 - Real.exp (-(e.dt * √3 * Units.alpha *
        calculateEta e.field (pushes cfg p (n + 1)) * (10 : ℝ) ^ logh n /
          ((pushes cfg p (n + 1)).gamma * 2 * Units.pi)))) *
      chance (Untouched cfg p nm mx r n) := by
  rw [chance_step hmx (fun k _ => C16_emission_increment_nonneg _ _ _ _ hdt)
    (emission_takes hprocs hidle hk hm ha hl) hend]
  congr 4

/-- Until then it is the lepton of classical dynamics: pushed, and otherwise unchanged. -/
theorem C105_emission_undisturbed (hprocs : cfg.procs = pre ++ .stochastic e :: post)
    (hidle : ∀ y ∈ pre ++ post, ∃ b, y = .breitWheeler b)
    (hk : p.kind ≠ .photon) (hm : p.mass ≠ 0) (ha : p.isAlive = true) (hmx : 0 < mx)
    (hdt : 0 ≤ e.dt)
    (hl : ∀ k < n, emissionLogh e (calculateEta e.field (pushes cfg p (k + 1))) = .ok (logh k))
    (u : ℝ) (t : EvState ℝ)
    (ht : Steps cfg (.init ⟨nm, mx, [p.initOpticalDepth u]⟩ r []) n t) (hr : t.rng = r) :
    ∃ depth, t.list.items = [{ pushes cfg p n with opticalDepth := depth }] := by
  obtain ⟨_, ⟨_, hlt⟩ | ⟨_, _, h3⟩⟩ := steps_single (d := initDepth u) hmx
    (fun k _ => C16_emission_increment_nonneg e.field (pushes cfg p (k + 1)) e.dt (logh k) hdt)
    (emission_takes hprocs hidle hk hm ha hl) n le_rfl t ht
  · rw [hr] at hlt; exact absurd hlt (lt_irrefl _)
  · exact ⟨_, by rw [h3]; rfl⟩

end emission

section pairs

variable {cfg : SimCfg ℝ} {pre post : List (Proc ℝ)} {b : BWCfg ℝ} {p : Particle ℝ}
  {logt : Nat → ℝ} {nm : String} {mx : Nat} {r : Rng ℝ} {n : Nat}

theorem conversion_takes (hprocs : cfg.procs = pre ++ .breitWheeler b :: post)
    (hidle : ∀ y ∈ pre ++ post, (∃ e, y = .stochastic e) ∨ ∃ e c, y = .continuous e c)
    (hk : p.kind = .photon) (hm : p.mass = 0) (ha : p.isAlive = true)
    (hl : ∀ k < n, Numerics.interpolate1D b.tAxis b.tData
      (Dbl.log10 (bwChi b.field (pushes cfg p (k + 1)))) = .ok (logt k)) :
    ∀ k < n, Takes cfg.procs (pushes cfg p (k + 1)) (bwDelta b.dt
      (bwChi b.field (pushes cfg p (k + 1))) (logt k) (pushes cfg p (k + 1)).energy) := by
  intro k hkn
  obtain ⟨h1, h2, h3⟩ := pushes_identity cfg p (k + 1)
  rw [hprocs]
  exact bw_takes hidle (by rw [h1]; exact hk) (by rw [h2]; exact hm) (by rw [h3]; exact ha)
    (hl k hkn)

theorem conversion_nonneg (hk : p.kind = .photon) (hdt : 0 ≤ b.dt) (k : Nat) :
    0 ≤ bwDelta b.dt (bwChi b.field (pushes cfg p (k + 1))) (logt k)
      (pushes cfg p (k + 1)).energy :=
  C16_pair_increment_nonneg _ _ _ _ (by rw [(pushes_identity cfg p (k + 1)).1]; exact hk) hdt

/-- A photon subject to pair production (any emission process may be switched on as well):
the chance that it has not converted in the first `n` steps is the exponential of minus the
sum of `dt α χ 10^logt / energy` along its path. -/
theorem C105_conversion (hprocs : cfg.procs = pre ++ .breitWheeler b :: post)
    (hidle : ∀ y ∈ pre ++ post, (∃ e, y = .stochastic e) ∨ ∃ e c, y = .continuous e c)
    (hk : p.kind = .photon) (hm : p.mass = 0) (ha : p.isAlive = true) (hmx : 0 < mx)
    (hdt : 0 ≤ b.dt) (hend : ∀ k < n, (k : ℝ) * cfg.dt < cfg.timeEnd)
    (hl : ∀ k < n, Numerics.interpolate1D b.tAxis b.tData
      (Dbl.log10 (bwChi b.field (pushes cfg p (k + 1)))) = .ok (logt k)) :
    chance (Untouched cfg p nm mx r n) = ENNReal.ofReal (Real.exp (-∑ k ∈ Finset.range n,
      b.dt * Units.alpha * bwChi b.field (pushes cfg p (k + 1)) * (10 : ℝ) ^ logt k /
        (pushes cfg p (k + 1)).energy)) := by
  rw [chance_untouched hmx (fun k _ => conversion_nonneg hk hdt k)
    (conversion_takes hprocs hidle hk hm ha hl) hend]
  congr 3

/-- Given that it has not converted before, the chance that the photon converts in a step
is `1 - exp (-δ)`. -/
theorem C105_conversion_step (hprocs : cfg.procs = pre ++ .breitWheeler b :: post)
    (hidle : ∀ y ∈ pre ++ post, (∃ e, y = .stochastic e) ∨ ∃ e c, y = .continuous e c)
    (hk : p.kind = .photon) (hm : p.mass = 0) (ha : p.isAlive = true) (hmx : 0 < mx)
    (hdt : 0 ≤ b.dt) (hend : ∀ k < n + 1, (k : ℝ) * cfg.dt < cfg.timeEnd)
    (hl : ∀ k < n + 1, Numerics.interpolate1D b.tAxis b.tData
      (Dbl.log10 (bwChi b.field (pushes cfg p (k + 1)))) = .ok (logt k)) :
    chance (fun u => Untouched cfg p nm mx r n u ∧ ¬ Untouched cfg p nm mx r (n + 1) u) =
      ENNReal.ofReal (1 - Real.exp (-(b.dt * Units.alpha * bwChi b.field (pushes cfg p (n + 1)) *
        (10 : ℝ) ^ logt n / (pushes cfg p (n + 1)).energy))) *
      chance (Untouched cfg p nm mx r n) := by
  rw [chance_step hmx (fun k _ => conversion_nonneg hk hdt k)
    (conversion_takes hprocs hidle hk hm ha hl) hend]
  rfl

/-- In a static field a photon sees the same field forever: the chance that it survives `n`
steps is `exp (-n δ)`, the law of radioactive decay. -/
theorem C105_static (E B : V3 ℝ) (hprocs : cfg.procs = pre ++ .breitWheeler b :: post)
    (hidle : ∀ y ∈ pre ++ post, (∃ e, y = .stochastic e) ∨ ∃ e c, y = .continuous e c)
    (hk : p.kind = .photon) (hm : p.mass = 0) (ha : p.isAlive = true) (hmx : 0 < mx)
    (hdt : 0 ≤ b.dt) (hend : ∀ k < n, (k : ℝ) * cfg.dt < cfg.timeEnd)
    (hfield : b.field = staticField E B) (logt0 : ℝ)
    (hl : Numerics.interpolate1D b.tAxis b.tData (Dbl.log10 (bwChi b.field p)) = .ok logt0) :
    chance (Untouched cfg p nm mx r n) = ENNReal.ofReal (Real.exp (-(n *
      (b.dt * Units.alpha * bwChi b.field p * (10 : ℝ) ^ logt0 / p.energy)))) := by
  have hmom : ∀ k, (pushes cfg p k).momentum = p.momentum := by
    intro k
    induction k with
    | zero => rfl
    | succ k ih =>
      obtain ⟨_, h2, h3⟩ := pushes_identity cfg p k
      rw [pushes_succ]
      unfold pushParticle
      rw [if_neg (by rw [h3, ha]; simp), if_pos (by rw [h2, hm]; simp)]
      cases ht : (pushes cfg p k).tracking <;>
        simp [Particle.updateTrack, Particle.updateTime, ht, ih]
  have he : ∀ k, (pushes cfg p k).energy = p.energy := by
    intro k
    rw [(C12_photon _ ((pushes_identity cfg p k).1.trans hk)).1, (C12_photon p hk).1, hmom]
  have hchi : ∀ k, bwChi b.field (pushes cfg p k) = bwChi b.field p := by
    intro k
    unfold bwChi Particle.direction
    rw [he, hmom, hfield]
    rfl
  rw [C105_conversion (logt := fun _ => logt0) hprocs hidle hk hm ha hmx hdt hend
    (fun k _ => by rw [hchi]; exact hl)]
  simp only [hchi, he, Finset.sum_const, Finset.card_range, nsmul_eq_mul]

end pairs

/-! ## The hypotheses are satisfiable -/

/-- A photon in a static field, with pair production and emission switched on. -/
example (n : Nat) : ∃ δ > 0, chance (Untouched
    ⟨lorentzForce, Witness.field, 1, n, [.stochastic (Witness.emCfg 1 1 0),
      .breitWheeler (Witness.bwCfg 1)]⟩ Witness.photon "0" 10 Witness.rng n) =
    ENNReal.ofReal (Real.exp (-(n * δ))) := by
  have hchi := Witness.chi_eq Witness.photon rfl Witness.photon_momentum
  have hen : Witness.photon.energy = 4 := by
    show Witness.photon.momentum.mag = 4
    rw [Witness.photon_momentum]; exact Witness.mag_z 4 (by norm_num)
  refine ⟨1 * Units.alpha * 1 * (10 : ℝ) ^ (0 : ℝ) / 4, ?_, ?_⟩
  · simp only [Units.alpha, real_lit]
    norm_num
  · have := C105_static (cfg := ⟨lorentzForce, Witness.field, 1, n,
        [.stochastic (Witness.emCfg 1 1 0), .breitWheeler (Witness.bwCfg 1)]⟩) (n := n)
      (pre := [.stochastic (Witness.emCfg 1 1 0)]) (post := []) (b := Witness.bwCfg 1)
      (p := Witness.photon) (nm := "0") (mx := 10) (r := Witness.rng)
      ⟨1 / 2, 0, 0⟩ ⟨0, 0, 0⟩ rfl (by
        intro y hy
        simp only [List.append_nil, List.mem_singleton] at hy
        exact .inl ⟨_, hy⟩) rfl (by simp [Witness.photon, Particle.newPhotonE, Particle.new]) rfl (by norm_num)
      (by simp [Witness.bwCfg]) (by intro k hk; simpa using hk) rfl 0 (by
        show Numerics.interpolate1D [0, 1] [0, 0] (Dbl.log10 (bwChi Witness.field Witness.photon)) = _
        rw [hchi]
        simp [Numerics.interpolate1D, Numerics.firstAbove, Numerics.usub, rd])
    rw [this]
    show ENNReal.ofReal (Real.exp (-(n *
      (1 * Units.alpha * bwChi Witness.field _ * (10 : ℝ) ^ (0 : ℝ) / _)))) = _
    rw [hchi, hen]

/-- An electron accelerated along the axis, so that `η` stays 1 while its energy grows. -/
example (n : Nat) : ∃ δ : Nat → ℝ, (∀ k, 0 < δ k) ∧ δ 0 ≠ δ 1 ∧ chance (Untouched
    ⟨lorentzForce, staticField ⟨0, 0, -1⟩ ⟨0, 0, 0⟩, 1, n,
      [.stochastic { Witness.emCfg 1 1 0 with field := staticField ⟨0, 0, -1⟩ ⟨0, 0, 0⟩ },
        .breitWheeler (Witness.bwCfg 1)]⟩ Witness.electron "0" 10 Witness.rng n) =
    ENNReal.ofReal (Real.exp (-∑ k ∈ Finset.range n, δ k)) := by
  set cfg : SimCfg ℝ := ⟨lorentzForce, staticField ⟨0, 0, -1⟩ ⟨0, 0, 0⟩, 1, n,
      [.stochastic { Witness.emCfg 1 1 0 with field := staticField ⟨0, 0, -1⟩ ⟨0, 0, 0⟩ },
        .breitWheeler (Witness.bwCfg 1)]⟩ with hcfg
  have hmass : Witness.electron.mass = 1 := rfl
  have hmom : ∀ k, (pushes cfg Witness.electron k).momentum = ⟨0, 0, 1 + k⟩ := by
    intro k
    have h := C28_uniform_E ⟨0, 0, -1⟩ (staticField ⟨0, 0, -1⟩ ⟨0, 0, 0⟩) (fun _ _ => rfl) 1
      Witness.electron rfl (by rw [hmass]; norm_num) k
    have hx := congrFun h 0
    have hy := congrFun h 1
    have hz := congrFun h 2
    simp [V3.toVec, Witness.electron, Particle.newLepton, Particle.new] at hx hy hz
    ext
    · exact hx
    · exact hy
    · exact hz
  have hdir : ∀ k, (pushes cfg Witness.electron k).direction = ⟨0, 0, 1⟩ := fun k => by
    unfold Particle.direction; rw [hmom]; exact Witness.norm_z _ (by positivity)
  have hgam : ∀ k, (pushes cfg Witness.electron k).gamma = √(1 + (1 + k) ^ 2) := by
    intro k
    obtain ⟨h1, h2, _⟩ := pushes_identity cfg Witness.electron k
    unfold Particle.gamma
    rw [h1, Witness.electron_kind, hmom, h2, hmass]
    simp [V3.mag2, V3.dot, sq]
  have hpos : ∀ k : Nat, (0:ℝ) < √(1 + (1 + k) ^ 2) := fun k => by positivity
  have heta : ∀ k, calculateEta (staticField ⟨0, 0, -1⟩ ⟨0, 0, 0⟩)
      (pushes cfg Witness.electron k) = 1 := by
    intro k
    unfold calculateEta
    rw [hdir, hgam]
    simp [staticField, V3.dot, V3.smul, V3.sub, V3.cross, V3.add, V3.mag2]
    have := hpos k
    field_simp
  refine ⟨fun k => 1 * √3 * Units.alpha * 1 * (10 : ℝ) ^ (0 : ℝ) /
    (√(1 + (1 + ((k + 1 : Nat) : ℝ)) ^ 2) * 2 * Units.pi), ?_, ?_, ?_⟩
  · intro k
    have := hpos (k + 1)
    simp only [Units.alpha, Units.pi, real_lit]
    positivity
  · have hne : √(1 + (1 + ((0 + 1 : Nat) : ℝ)) ^ 2) ≠ √(1 + (1 + ((1 + 1 : Nat) : ℝ)) ^ 2) := by
      intro h
      have := congrArg (fun x => x ^ 2) h
      rw [Real.sq_sqrt (by positivity), Real.sq_sqrt (by positivity)] at this
      norm_num at this
    have h0 := hpos (0 + 1)
    have h1 := hpos (1 + 1)
    intro h
    apply hne
    have ha : (0:ℝ) < Units.alpha := by simp only [Units.alpha, real_lit]; positivity
    have hp : (0:ℝ) < Units.pi := by simp only [Units.pi, real_lit]; positivity
    rw [div_eq_div_iff (by positivity) (by positivity)] at h
    have hc : (0:ℝ) < 1 * √3 * Units.alpha * 1 * (10 : ℝ) ^ (0 : ℝ) * 2 * Units.pi := by positivity
    have : (1 * √3 * Units.alpha * 1 * (10 : ℝ) ^ (0 : ℝ) * 2 * Units.pi) *
        (√(1 + (1 + ((1 + 1 : Nat) : ℝ)) ^ 2) - √(1 + (1 + ((0 + 1 : Nat) : ℝ)) ^ 2)) = 0 := by
      linear_combination h
    rcases mul_eq_zero.mp this with h2 | h2
    · exact absurd h2 hc.ne'
    · linarith
  · have := C105_emission (cfg := cfg) (n := n) (pre := []) (post := [.breitWheeler (Witness.bwCfg 1)])
      (e := { Witness.emCfg 1 1 0 with field := staticField ⟨0, 0, -1⟩ ⟨0, 0, 0⟩ })
      (p := Witness.electron) (nm := "0") (mx := 10) (r := Witness.rng) (logh := fun _ => 0) rfl
      (by
        intro y hy
        simp only [List.nil_append, List.mem_singleton] at hy
        exact ⟨_, hy⟩) (by rw [Witness.electron_kind]; simp) (by rw [hmass]; norm_num) rfl
      (by norm_num) (by simp [Witness.emCfg]) (by intro k hk; simpa [hcfg] using hk) (by
        intro k _
        show emissionLogh _ (calculateEta (staticField ⟨0, 0, -1⟩ ⟨0, 0, 0⟩)
          (pushes cfg Witness.electron (k + 1))) = _
        rw [heta]
        unfold emissionLogh
        rw [if_neg (by simp only [real_lit, real_lt]; norm_num)]
        simp [Numerics.interpolate1D, Witness.emCfg, Numerics.firstAbove, Numerics.usub, rd])
    rw [this]
    congr 3
    refine Finset.sum_congr rfl fun k _ => ?_
    show 1 * √3 * Units.alpha * calculateEta (staticField ⟨0, 0, -1⟩ ⟨0, 0, 0⟩)
      (pushes cfg Witness.electron (k + 1)) * _ / _ = _
    rw [heta, hgam]

end QED
