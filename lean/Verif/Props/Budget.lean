import Verif.Lemmas.Budget
import Verif.Props.Event
import Verif.Props.Pairs
import Verif.Props.PhotonEnergy

set_option autoImplicit false

/-!
# C127 The energy of a cascade comes from its primary and the fields

Over the reals.
-/

namespace QED

open MCTools Numerics

/-- C127 is false of every emission: the code takes the momentum of the photon from the lepton, and the energies
after it are larger than the energy before it. As long as the photon has less momentum than the lepton, the
difference is the difference of `1 / (E + p)` of the lepton after and before. -/
theorem C127_emission_refuted {cfg : EmissionCfg ℝ} {p p' ph : Particle ℝ} {l l' : PList ℝ} {r r' : Rng ℝ}
    (h : stochasticInteract cfg p l r = .ok (p', l', r')) (hadd : l'.items = l.items ++ [ph])
    (hk : p.kind ≠ .photon) (hm : p.mass = 1) (hp : p.momentum ≠ ⟨0, 0, 0⟩) (hp' : p'.momentum ≠ ⟨0, 0, 0⟩)
    (he : 0 ≤ cfg.eMin) :
    p.energy < p'.energy + ph.energy ∧
    (ph.energy < len p.momentum.toVec →
      p'.energy + ph.energy - p.energy =
        1 / (p'.energy + len p'.momentum.toVec) - 1 / (p.energy + len p.momentum.toVec)) := by
  obtain ⟨delta, g, u, hem, hg, hmom, rfl⟩ := store_cases h hadd
  obtain ⟨_, heff⟩ := interact_effect (proc := .stochastic cfg) h
  have hsame := heff.same
  have hg0 : 0 < g := lt_of_le_of_lt he hg
  have hd' : p'.direction ≠ ⟨0, 0, 0⟩ := V3.norm_ne_zero hp'
  rw [photonE_energy g _ _ hd', abs_of_pos hg0, lepton_energy hk hm,
    lepton_energy (by rw [hsame.kind]; exact hk) (by rw [hsame.mass]; exact hm)]
  have hlen : len p'.momentum.toVec = |len p.momentum.toVec - g| := by
    rw [hmom, sub_dir p hp]
    unfold Particle.direction
    rw [len_smul_unit hp, mag_eq]
  rw [hlen, sq_abs]
  refine ⟨by have := excess_pos (p := len p.momentum.toVec) hg0; linarith, fun hlt => ?_⟩
  have := excess_eq (len_nonneg p.momentum.toVec) hlt.le
  rw [abs_of_pos (by linarith), ← this]
  ring

/-- An emission adds at most the root of two times the rest energy of the lepton, if the photon has no more
energy than the lepton had. -/
theorem C127_emission_partial {cfg : EmissionCfg ℝ} (hO : NeverOverdraws cfg) {p p' : Particle ℝ} {l l' : PList ℝ}
    {r r' : Rng ℝ} (hr : r.Valid) (h : stochasticInteract cfg p l r = .ok (p', l', r')) (hk : p.kind ≠ .photon)
    (hm : p.mass = 1) (hp : p.momentum ≠ ⟨0, 0, 0⟩) :
    p'.energy + len (p.momentum.sub p'.momentum).toVec ≤ p.energy + Real.sqrt 2 := by
  obtain ⟨_, heff⟩ := interact_effect (proc := .stochastic cfg) h
  have hsame := heff.same
  have hk' : p'.kind ≠ .photon := by rw [hsame.kind]; exact hk
  have hm' : p'.mass = 1 := by rw [hsame.mass]; exact hm
  have hle := hO p l r p' l' r' hr hk hm hp h
  rcases stochastic_emits h with ⟨h1, -⟩ | ⟨delta, g, hem⟩
  · rw [lepton_energy hk' hm', lepton_energy hk hm, h1]
    have : len (p.momentum.sub p.momentum).toVec = 0 := by simp [V3.sub, len, V3.toVec]
    rw [this, add_zero]
    linarith [Real.sqrt_nonneg 2]
  · have hg := emits_nonneg hem
    have hmom : p'.momentum = p.momentum.sub (p.direction.smul g) := by
      rw [stochastic_emit hem] at h
      simp only [Res.ok.injEq, Prod.mk.injEq] at h
      rw [← h.1]
      exact (recoiled_fields p delta g).2.2.2
    have hlen : len p'.momentum.toVec ^ 2 = (len p.momentum.toVec - g) ^ 2 := by
      rw [hmom, sub_dir p hp]
      unfold Particle.direction
      rw [len_smul_unit hp, sq_abs, mag_eq]
    have hrec : len (p.momentum.sub p'.momentum).toVec = g := by
      have : p.momentum.sub p'.momentum = p.direction.smul g := by
        rw [hmom]
        ext <;> simp [V3.sub]
      rw [this]
      unfold Particle.direction
      rw [len_smul_unit hp, abs_of_nonneg hg]
    rw [hrec, lepton_energy hk hm] at hle
    rw [lepton_energy hk' hm', lepton_energy hk hm, hlen, hrec]
    have := excess_le (len_nonneg p.momentum.toVec) hle
    linarith

/-- C127, a conversion: the energies of the pair add up to that of the photon (C36), so the momenta do not. What
is missing is the sum of `1 / (E + p)` of the two. -/
theorem C127_conversion_refuted {cfg : BWCfg ℝ} {p p' : Particle ℝ} {l l' : PList ℝ} {r r' : Rng ℝ}
    (h : bwInteract cfg p l r = .ok (p', l', r')) (hroom : l.nPart + 2 ≤ l.maxParticles)
    (hp : p.momentum ≠ ⟨0, 0, 0⟩) (hshare : ∀ s, bwSplit cfg (bwChi cfg.field p) (r.draw r.pos) = .ok s →
      1 ≤ s * p.energy ∧ 1 ≤ (1 - s) * p.energy) (pos ele : Particle ℝ) (hadd : l'.items = l.items ++ [pos, ele]) :
    pos.energy + ele.energy = p.energy ∧
    len p.momentum.toVec - (len pos.momentum.toVec + len ele.momentum.toVec) =
      1 / (pos.energy + len pos.momentum.toVec) + 1 / (ele.energy + len ele.momentum.toVec) ∧
    len (pos.momentum.add ele.momentum).toVec < len p.momentum.toVec := by
  rcases C36_conversion_partial h hroom hp hshare with ⟨h1, -⟩ | ⟨hk, -, -, pos', ele', hadd', h1, h2, -, -, h5, h6, h7⟩
  · rw [h1] at hadd; simp at hadd
  rw [hadd] at hadd'
  have := List.append_cancel_left hadd'
  simp only [List.cons.injEq, and_true] at this
  obtain ⟨rfl, rfl⟩ := this
  have key : ∀ q : Particle ℝ, q.kind ≠ .photon → q.mass = 1 →
      1 / (q.energy + len q.momentum.toVec) = q.energy - len q.momentum.toVec ∧ len q.momentum.toVec < q.energy := by
    intro q hq hm
    rw [lepton_energy hq hm]
    have h0 := len_nonneg q.momentum.toVec
    have h1 := (le_abs_self _).trans_lt (root_gt (len q.momentum.toVec))
    have h2 : Real.sqrt (1 + len q.momentum.toVec ^ 2) ^ 2 = 1 + len q.momentum.toVec ^ 2 :=
      Real.sq_sqrt (by positivity)
    refine ⟨?_, h1⟩
    rw [div_eq_iff (by positivity)]
    linear_combination -h2
  obtain ⟨a1, a2⟩ := key pos (by rw [h1]; decide) h6.mass
  obtain ⟨b1, b2⟩ := key ele (by rw [h2]; decide) h7.mass
  have hph := photon_energy hk
  refine ⟨h5, by rw [a1, b1]; linarith, ?_⟩
  have := len_add_le pos.momentum.toVec ele.momentum.toVec
  rw [toVec_add]
  linarith

/-- C127, an event with photon emission: whatever is drawn, the energy of all particles is at most that at the
start, the most the fields can give in the time that has passed for each particle, and half the root of two for
each random number that was drawn. Pair creation and photons with more energy than their lepton are left out.
A lepton that is exactly at rest has no direction; it gives off no energy in the model and NaN in the code. -/
theorem C127_event_partial {cfg : SimCfg ℝ} (hpush : cfg.push = lorentzForce) {F : ℝ}
    (hF : FieldsAtMost cfg.field F) (hdt : 0 ≤ cfg.dt)
    (hprocs : ∀ proc ∈ cfg.procs, ∃ em, proc = .stochastic em ∧ NeverOverdraws em) {s s' : EvState ℝ}
    (hv : s.rng.Valid) {t0 : ℝ} (h0 : ∀ p ∈ s.list.items, Ordinary p ∧ p.time = t0) (hr : Reach cfg s s') :
    totalEnergy s'.list.items ≤ totalEnergy s.list.items + workAtMost F t0 s'.list.items +
      Real.sqrt 2 / 2 * (s'.rng.pos - s.rng.pos) := by
  have hF0 : 0 ≤ F := (add_nonneg (len_nonneg _) (len_nonneg _)).trans (hF 0 ⟨0, 0, 0⟩)
  have H := reach_induct (I := fun l r => r.draw = s.rng.draw ∧ s.rng.pos ≤ r.pos ∧
    (∀ p ∈ l.items, Ordinary p ∧ t0 ≤ p.time) ∧
    totalEnergy l.items ≤ totalEnergy s.list.items + workAtMost F t0 l.items +
      Real.sqrt 2 / 2 * (r.pos - s.rng.pos)) (cfg := cfg) ?_ ?_ hr
    ⟨rfl, le_rfl, fun p hp => ⟨(h0 p hp).1, (h0 p hp).2.ge⟩, ?_⟩
  · exact H.2.2.2
  · rintro k l r p hk ⟨i1, i2, i3, i4⟩
    obtain ⟨ho, ht⟩ := i3 p (List.mem_of_getElem? hk)
    obtain ⟨hid1, hid2, hid3, -⟩ := push_identity cfg.push cfg.field cfg.dt p
    have hstep : (pushParticle cfg.push cfg.field cfg.dt p).energy ≤ p.energy +
        |p.charge| * F * ((pushParticle cfg.push cfg.field cfg.dt p).time - p.time) ∧
        p.time ≤ (pushParticle cfg.push cfg.field cfg.dt p).time := by
      rw [hpush] at *
      rcases Bool.eq_false_or_eq_true p.isAlive with ha | ha
      · rw [push_time _ _ _ _ ha]
        simp only [real_add, add_sub_cancel_left]
        refine ⟨?_, by linarith⟩
        by_cases hkind : p.kind = .photon
        · have hmass := ho.1 hkind
          have hmom : (pushParticle lorentzForce cfg.field cfg.dt p).momentum = p.momentum := by
            unfold pushParticle
            rw [if_neg (by simp [ha]), if_pos (by simp [hmass])]
            cases ht : p.tracking <;> simp [Particle.updateTime, Particle.updateTrack, ht]
          rw [photon_energy (hid1.trans hkind), photon_energy hkind, hmom]
          have : 0 ≤ |p.charge| * F * cfg.dt := by positivity
          linarith
        · have hmass := ho.2 hkind
          rw [lepton_energy (by rw [hid1]; exact hkind) (hid2.trans hmass), lepton_energy hkind hmass]
          have := C126_lorentz hF hdt p ha (by rw [hmass]; exact one_pos) 1
          rw [Function.iterate_one] at this
          refine root_lip (len_nonneg _) (len_nonneg _) (by positivity) (this.trans (le_of_eq ?_))
          push_cast
          ring
      · have : pushParticle lorentzForce cfg.field cfg.dt p = p := by
          unfold pushParticle
          rw [if_pos ha]
        rw [this]
        simp
    generalize pushParticle cfg.push cfg.field cfg.dt p = q at hid1 hid2 hid3 hstep
    refine ⟨i1, i2, ?_, ?_⟩
    · intro x hx
      rw [PList.set_items] at hx
      rcases List.mem_or_eq_of_mem_set hx with hx | rfl
      · exact i3 x hx
      · exact ⟨⟨fun h => by rw [hid2]; exact ho.1 (hid1 ▸ h), fun h => by rw [hid2]; exact ho.2 (hid1 ▸ h)⟩,
          ht.trans hstep.2⟩
    · rw [PList.set_items]
      unfold totalEnergy workAtMost at i4 ⊢
      rw [List.map_set, List.map_set, sum_set (a := p.energy) (by simp [hk]),
        sum_set (a := |p.charge| * F * (p.time - t0)) (by simp [hk]), hid3]
      linarith [hstep.1]
  · rintro proc hproc k l r p p' l' r' hk ⟨i1, i2, i3, i4⟩ hint
    obtain ⟨em, rfl, hO⟩ := hprocs proc hproc
    obtain ⟨ho, ht⟩ := i3 p (List.mem_of_getElem? hk)
    have hval : r.Valid := fun i => by rw [i1]; exact hv i
    obtain ⟨new, n1, n2, n3, n4, n5, n6, n7, n8, n9⟩ := emission_budget hO hval ho hint
    have hlt : k < l.items.length := (List.getElem?_eq_some_iff.mp hk).1
    have hitems : (l'.set k p').items = l.items.set k p' ++ new := by
      rw [PList.set_items, n1, List.set_append_left _ _ hlt]
    refine ⟨n4.trans i1, i2.trans n3, ?_, ?_⟩
    · intro x hx
      rw [hitems] at hx
      rcases List.mem_append.mp hx with hx | hx
      · rcases List.mem_or_eq_of_mem_set hx with hx | rfl
        · exact i3 x hx
        · exact ⟨⟨fun h => by rw [n7]; exact ho.1 (n6 ▸ h), fun h => by rw [n7]; exact ho.2 (n6 ▸ h)⟩,
            by rw [n9]; exact ht⟩
      · obtain ⟨x1, x2, x3, x4⟩ := n2 x hx
        exact ⟨⟨fun _ => x2, fun h => absurd x1 h⟩, by rw [x4]; exact ht⟩
    · rw [hitems, totalEnergy_append]
      have hw : workAtMost F t0 (l.items.set k p' ++ new) = workAtMost F t0 l.items := by
        unfold workAtMost
        rw [List.map_append, List.sum_append, List.map_set,
          sum_set (a := |p.charge| * F * (p.time - t0)) (by simp [hk]), n8, n9]
        have : (new.map fun p => |p.charge| * F * (p.time - t0)).sum = 0 := by
          refine List.sum_eq_zero fun x hx => ?_
          obtain ⟨q, hq, rfl⟩ := List.mem_map.mp hx
          rw [(n2 q hq).2.2.1]
          simp
        rw [this]
        ring
      have he : totalEnergy (l.items.set k p') = totalEnergy l.items - p.energy + p'.energy := by
        unfold totalEnergy
        rw [List.map_set, sum_set (a := p.energy) (by simp [hk])]
      rw [hw, he]
      linarith
  · have : workAtMost F t0 s.list.items = 0 := by
      unfold workAtMost
      refine List.sum_eq_zero fun x hx => ?_
      obtain ⟨q, hq, rfl⟩ := List.mem_map.mp hx
      rw [(h0 q hq).2]
      simp
    rw [this]
    simp

/-! ### Cases that meet the hypotheses -/

/-- An emission as in `C127_emission_refuted`. -/
example : ∃ (cfg : EmissionCfg ℝ) (p p' ph : Particle ℝ) (l l' : PList ℝ) (r r' : Rng ℝ), r.Valid ∧
    stochasticInteract cfg p l r = .ok (p', l', r') ∧ l'.items = l.items ++ [ph] ∧ p.kind ≠ .photon ∧ p.mass = 1 ∧
    p.momentum ≠ ⟨0, 0, 0⟩ ∧ p'.momentum ≠ ⟨0, 0, 0⟩ ∧ 0 ≤ cfg.eMin ∧ ph.energy < len p.momentum.toVec := by
  obtain ⟨p', l', r', ph, h, hadd, hm, he⟩ := witness_run (1 / 8) (by norm_num)
  have h2 : Real.sqrt 2 < 2 := by
    rw [Real.sqrt_lt' (by norm_num)]; norm_num
  have hne : 1 - 2 * (1 / 8) * Real.sqrt 2 ≠ 0 := by intro h0; linarith
  refine ⟨_, _, _, _, _, _, _, _, Witness.rng_valid, h, hadd, ?_, rfl, ?_, ?_, le_rfl, ?_⟩
  · rw [Witness.electron_kind]; decide
  · rw [Witness.electron_momentum]; simp
  · rw [hm]; intro h0; exact hne (congrArg V3.z h0)
  · rw [he hne, ← mag_eq, Witness.electron_momentum, Witness.mag_z 1 one_pos]; linarith

/-- A conversion as in `C127_conversion_refuted`. -/
example : ∃ (p' : Particle ℝ) (l' : PList ℝ) (r' : Rng ℝ) (pos ele : Particle ℝ),
    bwInteract (Witness.bwCfg 1) Witness.photon Witness.start Witness.rng = .ok (p', l', r') ∧
    Witness.start.nPart + 2 ≤ Witness.start.maxParticles ∧ Witness.photon.momentum ≠ ⟨0, 0, 0⟩ ∧
    (∀ s, bwSplit (Witness.bwCfg 1) (bwChi (Witness.bwCfg 1).field Witness.photon)
      (Witness.rng.draw Witness.rng.pos) = .ok s →
      1 ≤ s * Witness.photon.energy ∧ 1 ≤ (1 - s) * Witness.photon.energy) ∧
    l'.items = Witness.start.items ++ [pos, ele] := by
  obtain ⟨d, h⟩ := Witness.convert Witness.photon Witness.start Witness.rng 1 one_pos rfl
    Witness.photon_momentum rfl Witness.photon_depth rfl
  refine ⟨_, _, _, _, _, h, by simp [Witness.start, PList.nPart, PList.add, PList.new],
    by simp [Witness.photon_momentum], ?_, by simp [Witness.start, PList.add, PList.new]; exact ⟨rfl, rfl⟩⟩
  intro s hs
  rw [show bwChi (Witness.bwCfg 1).field Witness.photon = 1 from
    Witness.chi_eq _ rfl Witness.photon_momentum,
    show Witness.rng.draw Witness.rng.pos = 1 / 2 from rfl, Witness.split_eq] at hs
  have he : Witness.photon.energy = 4 := by
    show Witness.photon.momentum.mag = 4
    rw [Witness.photon_momentum]; exact Witness.mag_z 4 (by norm_num)
  cases hs
  rw [he]; norm_num

namespace Witness

/-- Tables in which chi is always half of eta, in a field against the third axis. -/
noncomputable def evenCfg : EmissionCfg ℝ where
  field := staticField ⟨0, 0, -1⟩ ⟨0, 0, 0⟩
  dt := 1
  track := false
  sampleFrac := 1 / 4
  eMin := 0
  hAxis := [0, 1]
  hData := [0, 0]
  etaAxis := [0, 1, 2]
  chiAxis := [[-Real.logb 10 2, -Real.logb 10 2], [1 - Real.logb 10 2, 1 - Real.logb 10 2],
    [2 - Real.logb 10 2, 2 - Real.logb 10 2]]
  phEnTable := [[0, 1], [0, 1], [0, 1]]

theorem even_flat (c u : ℝ) (h0 : 0 ≤ u) (h1 : u < 1) : interpolate1D [0, 1] [c, c] u = .ok c := by
  have : ¬ u < 0 := not_lt.mpr h0
  simp [interpolate1D, firstAbove, usub, rd, h1, this]

theorem even_chi {eta u : ℝ} (h0 : 0 ≤ u) (h1 : u < 1) (he : 0 < eta) (hle : Real.logb 10 eta ≤ 1) :
    calculateChi evenCfg eta u = .ok (eta / 2) := by
  have hc : closestPoints evenCfg.etaAxis (Dbl.log10 eta) = .ok (0, Real.logb 10 eta) := by
    rw [real_log10]
    have h1' : ¬ 1 < Real.logb 10 eta := not_lt.mpr hle
    by_cases h : 0 < Real.logb 10 eta <;> simp [closestPoints, evenCfg, scanLow, usub, rd, h, h1']
  unfold calculateChi
  rw [hc]
  simp only [Res.ok_bind, evenCfg, rd, List.getElem?_cons_zero, List.getElem?_cons_succ, even_flat _ u h0 h1]
  simp only [real_pow, real_lit, real_add, real_mul, real_sub]
  push_cast
  rw [show (1 - Real.logb 10 eta) * -Real.logb 10 2 + Real.logb 10 eta * (1 - Real.logb 10 2) =
    Real.logb 10 eta - Real.logb 10 2 by ring, Real.rpow_sub (by norm_num),
    Real.rpow_logb (by norm_num) (by norm_num) he, Real.rpow_logb (by norm_num) (by norm_num) (by norm_num)]

theorem even_exits {eta u : ℝ} (h : 1 < Real.logb 10 eta) : calculateChi evenCfg eta u = .exit (-1) := by
  have hc : closestPoints evenCfg.etaAxis (Dbl.log10 eta) = .exit (-1) := by
    rw [real_log10]
    have h0 : 0 < Real.logb 10 eta := by linarith
    by_cases h2 : 2 < Real.logb 10 eta <;> simp [closestPoints, evenCfg, scanLow, usub, h, h0, h2]
  unfold calculateChi
  rw [hc]
  rfl

theorem even_never : NeverOverdraws evenCfg := by
  intro p l r p' l' r' hr hk hm hp h
  rw [← mag_eq]
  by_cases heta : 0 < calculateEta evenCfg.field p
  · refine (energy_of_half hr hk hm hp heta (fun u chi h0 h1 hc => ?_) h).1
    rcases le_or_gt (Real.logb 10 (calculateEta evenCfg.field p)) 1 with hl | hl
    · rw [even_chi h0 h1 heta hl] at hc
      exact (Res.ok.inj hc).ge
    · rw [even_exits hl] at hc
      cases hc
  · have hz : calculateEta evenCfg.field p = 0 := by
      refine le_antisymm (not_lt.mp heta) ?_
      unfold calculateEta
      have : 0 ≤ p.gamma := by unfold Particle.gamma; split <;> exact Real.sqrt_nonneg _
      simp only [real_mul, real_sqrt]
      positivity
    have hen : 0 ≤ p.energy := by rw [lepton_energy hk hm]; positivity
    rcases stochastic_emits h with ⟨h1, -⟩ | ⟨delta, g, hem⟩
    · rw [h1, mag_eq]
      have : len (p.momentum.sub p.momentum).toVec = 0 := by simp [V3.sub, len, V3.toVec]
      rwa [this]
    · have hg : g = 0 := by
        obtain ⟨chi, -, hg⟩ := hem.energy
        rw [hz] at hg
        simpa using hg
      rw [stochastic_emit hem] at h
      simp only [Res.ok.injEq, Prod.mk.injEq] at h
      have hmom : p'.momentum = p.momentum := by
        rw [← h.1]
        show (recoiled p delta g).momentum = _
        rw [(recoiled_fields p delta g).2.2.2, hg]
        ext <;> simp [V3.sub, V3.smul]
      rw [hmom, mag_eq]
      have : len (p.momentum.sub p.momentum).toVec = 0 := by simp [V3.sub, len, V3.toVec]
      rwa [this]

/-- An event with these tables. -/
noncomputable def evenSim : SimCfg ℝ := ⟨lorentzForce, evenCfg.field, 1, 1, [.stochastic evenCfg]⟩

theorem even_eta (p : Particle ℝ) (hk : p.kind ≠ .photon) {m : ℝ} (hm : 0 < m) (h : p.momentum = ⟨0, 0, m⟩) :
    calculateEta evenCfg.field p = 1 := by
  have hd : p.direction = ⟨0, 0, 1⟩ := by
    unfold Particle.direction
    rw [h]
    exact norm_z m hm
  have hg : 0 < p.gamma := by
    unfold Particle.gamma
    have h0 : (0:ℝ) ≤ p.momentum.mag2 / (p.mass * p.mass) := by
      rw [h]
      simp only [V3.mag2, V3.dot, real_add, real_mul]
      have := mul_self_nonneg p.mass
      positivity
    split
    · next hk' => exact absurd hk' hk
    · simp only [real_sqrt, real_add, real_lit, real_div, real_mul]
      push_cast
      positivity
  unfold calculateEta
  rw [hd]
  simp only [evenCfg, staticField, V3.dot, V3.smul, V3.sub, V3.cross, V3.add, V3.mag2, real_add,
    real_mul, real_sub, real_sqrt, real_lit, real_pow, real_div]
  norm_num
  rw [← sq, Real.sqrt_sq (inv_pos.mpr hg).le, inv_mul_cancel₀ hg.ne']

end Witness

/-- An electron that is accelerated along the field and emits meets the hypotheses of `C127_event_partial`. -/
example : ∃ (s s' : EvState ℝ) (p' ph : Particle ℝ), FieldsAtMost Witness.evenSim.field 1 ∧
    (∀ proc ∈ Witness.evenSim.procs, ∃ em, proc = .stochastic em ∧ NeverOverdraws em) ∧ s.rng.Valid ∧
    (∀ p ∈ s.list.items, Ordinary p ∧ p.time = 0) ∧ Reach Witness.evenSim s s' ∧
    s'.list.items = [p', ph] ∧ p'.kind = .electron ∧ ph.kind = .photon := by
  set q := pushParticle lorentzForce Witness.evenCfg.field 1 Witness.electron with hq
  have hqm : q.momentum = ⟨0, 0, 2⟩ := by
    rw [hq, (pushParticle_pos lorentzForce _ 1 Witness.electron rfl one_ne_zero).2.1]
    show (rk4 lorentzForce _ 1 1 (-1) 0 ⟨0, 0, 0⟩ ⟨0, 0, 1⟩).2 = _
    simp [rk4, lorentzForce, Witness.evenCfg, staticField, V3.add, V3.smul, V3.muls, V3.divs, V3.cross]
    norm_num
  obtain ⟨k1, k2, k3, k4, k5, k6, k7⟩ := push_identity lorentzForce Witness.evenCfg.field 1 Witness.electron
  rw [← hq] at k1 k2 k3 k4 k5 k6 k7
  rw [Witness.electron_kind] at k1
  rw [Witness.electron_depth] at k7
  have hk : q.kind ≠ .photon := by rw [k1]; decide
  have heta := Witness.even_eta q hk two_pos hqm
  have hg0 : 0 < q.gamma := by
    by_contra hn
    have : calculateEta Witness.evenCfg.field q ≤ 0 := by
      unfold calculateEta
      simp only [real_mul, real_sqrt]
      exact mul_nonpos_of_nonneg_of_nonpos (Real.sqrt_nonneg _) (not_lt.mp hn)
    rw [heta] at this
    linarith
  have hem : Emits Witness.evenCfg q (1 / 2) (emissionDelta 1 1 0 q.gamma) (Dbl.lit 2 *. (1 / 2) *. q.gamma /. 1) := by
    refine ⟨by rw [k2]; simp [Witness.electron, Particle.newLepton, Particle.new], by rw [k6]; rfl, ⟨0, ?_, ?_⟩, ?_,
      1 / 2, ?_, ?_⟩
    · rw [heta]
      unfold emissionLogh
      rw [if_neg (by simp only [real_lit, real_lt]; norm_num)]
      simp [interpolate1D, Witness.evenCfg, firstAbove, usub, rd]
    · rw [heta]
      rfl
    · rw [k7]
      simp only [emissionDelta, Units.alpha, Units.pi, real_lit, real_mul, real_sqrt, real_div, real_pow, real_lt,
        real_sub]
      simp only [decide_eq_true_eq]
      norm_num
      positivity
    · rw [heta]
      exact Witness.even_chi (by norm_num) (by norm_num) one_pos (by simp)
    · rw [heta]
  have hs := stochastic_emit (l := ⟨"0", 10, [q]⟩) (r := Witness.rng) hem
  generalize hgE : (Dbl.lit 2 *. (1 / 2 : ℝ) *. q.gamma /. 1) = g at hs
  have hg1 : 0 < g := by
    rw [← hgE]
    simpa using hg0
  have hst : storePhoton Witness.evenCfg (recoiled q (emissionDelta 1 1 0 q.gamma) g) g ⟨"0", 10, [q]⟩
      Witness.rng.next.2 =
      ((⟨"0", 10, [q]⟩ : PList ℝ).add (Particle.newPhotonE g (recoiled q (emissionDelta 1 1 0 q.gamma) g).position
        (recoiled q (emissionDelta 1 1 0 q.gamma) g).direction
        ((recoiled q (emissionDelta 1 1 0 q.gamma) g).weight /. (1 / 4))
        (recoiled q (emissionDelta 1 1 0 q.gamma) g).time false (1 / 2)), Witness.rng.next.2.next.2.next.2) := by
    unfold storePhoton
    rw [if_pos (by simpa [Witness.evenCfg] using hg1), if_pos (by
      simp [Witness.evenCfg, Witness.rng, Rng.next]; norm_num)]
    rfl
  rw [hst] at hs
  dsimp only at hs
  generalize hp1 : (recoiled q (emissionDelta 1 1 0 q.gamma) g) = p1 at hs
  generalize hph : Particle.newPhotonE g p1.position p1.direction (p1.weight /. (1 / 4)) p1.time false (1 / 2) = ph at hs
  have kph : ph.kind = .photon ∧ ph.mass = 0 := by
    rw [← hph]
    simp [Particle.newPhotonE, Particle.new]
  have kp1 : p1.kind = .electron := by
    rw [← hp1, ← k1]
    unfold recoiled Particle.updateTrack
    split <;> rfl
  set p2 := p1.initOpticalDepth Witness.rng.next.2.next.2.next.2.next.1 with hp2
  set r2 := Witness.rng.next.2.next.2.next.2.next.2 with hr2
  have v0 : visit Witness.evenSim 0 ⟨"0", 10, [Witness.electron]⟩ Witness.rng = .ok (⟨"0", 10, [p2, ph]⟩, r2) := by
    unfold visit
    simp only [PList.get, List.getElem?_cons_zero, Res.ok_bind]
    rw [show Witness.evenSim.procs = [.stochastic Witness.evenCfg] from rfl,
      show pushParticle Witness.evenSim.push Witness.evenSim.field Witness.evenSim.dt Witness.electron = q from rfl]
    simp only [interactAll, interactAt, PList.get, Res.ok_bind,
      PList.set, List.set_cons_zero, List.getElem?_cons_zero, Proc.interact, hs]
    simp [PList.add]
  have hpk := push_identity Witness.evenSim.push Witness.evenSim.field Witness.evenSim.dt ph
  have v1 : visit Witness.evenSim 1 ⟨"0", 10, [p2, ph]⟩ r2 =
      .ok (⟨"0", 10, [p2, pushParticle Witness.evenSim.push Witness.evenSim.field Witness.evenSim.dt ph]⟩, r2) := by
    unfold visit
    simp only [PList.get, List.getElem?_cons_zero, List.getElem?_cons_succ, Res.ok_bind]
    generalize pushParticle Witness.evenSim.push Witness.evenSim.field Witness.evenSim.dt ph = ph' at hpk
    have hi : stochasticInteract Witness.evenCfg ph' ⟨"0", 10, [p2, ph']⟩ r2 = .ok (ph', ⟨"0", 10, [p2, ph']⟩, r2) := by
      unfold stochasticInteract
      rw [if_pos (by rw [hpk.2.1, kph.2]; simp)]
    rw [show Witness.evenSim.procs = [.stochastic Witness.evenCfg] from rfl]
    simp only [interactAll, interactAt, PList.get, Res.ok_bind, PList.set, List.set_cons_zero, List.set_cons_succ,
      List.getElem?_cons_zero, List.getElem?_cons_succ, Proc.interact, hi]
  have hadv : advance Witness.evenSim ⟨"0", 10, [Witness.electron]⟩ Witness.rng =
      .ok (⟨"0", 10, [p2, pushParticle Witness.evenSim.push Witness.evenSim.field Witness.evenSim.dt ph]⟩, r2) := by
    unfold advance
    simp only [particleLoop]
    rw [if_pos (by simp [PList.nPart]), v0]
    simp only [Res.ok_bind]
    rw [if_pos (by simp [PList.nPart]), v1]
    simp only [Res.ok_bind]
    rw [if_neg (by simp [PList.nPart])]
  have hstep : timeStep Witness.evenSim (.init ⟨"0", 10, [Witness.electron]⟩ Witness.rng []) =
      .ok ⟨⟨"0", 10, [p2, pushParticle Witness.evenSim.push Witness.evenSim.field Witness.evenSim.dt ph]⟩, r2,
        0 +. 1, 0, []⟩ := by
    unfold timeStep
    rw [show histStep (.init ⟨"0", 10, [Witness.electron]⟩ Witness.rng []) =
      .ok (.init ⟨"0", 10, [Witness.electron]⟩ Witness.rng []) from rfl, Res.ok_bind]
    simp only [EvState.init]
    rw [hadv]
    simp [Witness.evenSim]
  refine ⟨_, _, _, _, ?_, ?_, Witness.rng_valid, ?_, .step .refl hstep, rfl, ?_, hpk.1.trans kph.1⟩
  · intro t x
    simp [Witness.evenSim, Witness.evenCfg, staticField, len, V3.toVec]
  · intro proc h
    simp only [Witness.evenSim, List.mem_singleton] at h
    exact ⟨_, h, Witness.even_never⟩
  · intro p hp
    have : p = Witness.electron := by simpa [EvState.init] using hp
    subst this
    exact ⟨⟨fun h => (by rw [Witness.electron_kind] at h; cases h), fun _ => rfl⟩, rfl⟩
  · exact kp1

end QED
