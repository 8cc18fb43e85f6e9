import Verif.Spec.Selection
import Verif.Lemmas.ContinuousEvent
import Verif.Props.Spectrum
import Verif.Props.Tally
import Verif.Props.Example

set_option autoImplicit false

/-!
# Property C162: which photons are kept does not matter to the lepton

The energy threshold, the sampling fraction and the tracking of the photons select what is kept of the radiation. They
have no effect on the leptons of a classical or semiclassical simulation (C162_continuous_partial), and none on the law
of the motion of a lepton in a quantum simulation (C162_law_partial). But with the same random numbers the lepton of a
quantum simulation moves differently (C162_refuted): a photon above the threshold uses one or two of them.
-/

namespace QED

open MCTools MeasureTheory

section law

variable {cfg : SimCfg ℝ} {e : EmissionCfg ℝ} {logh : ℝ → ℝ} {chi : ℝ → ℝ → ℝ}
  {Q : Particle ℝ → Prop} {p : Particle ℝ} {nm : String} {mx n N : Nat}

theorem lookups_keeping (hL : Lookups cfg e logh chi Q) (least frac : ℝ) (track : Bool) :
    Lookups (cfg.having [.stochastic (e.keeping least frac track)]) (e.keeping least frac track) logh chi Q :=
  ⟨hL.pushed, hL.rate, hL.photon, hL.recoil⟩

/-- The law of the place and momentum of the lepton after `n` steps, in terms of the records. -/
theorem firstIn_law (hprocs : cfg.procs = [.stochastic e]) (hL : Lookups cfg e logh chi Q) (hq : Q p)
    (hm : p.mass ≠ 0) (ha : p.isAlive = true) (hmx : 0 < mx) (hdt : 0 ≤ e.dt)
    (hend : ∀ k < n, (k : ℝ) * cfg.dt < cfg.timeEnd) (hN : 4 * n < N) (A : V3 ℝ → V3 ℝ → Prop) :
    likelihood N (fun us => ∃ t, Steps cfg (lonely p nm mx us) n t ∧ FirstIn A t) =
      memoryless (pushParticle cfg.push cfg.field cfg.dt) (emissionRate e logh) (kicked e chi) n p fun h =>
        indic (A (following (pushParticle cfg.push cfg.field cfg.dt) (kicked e chi) h p).position
          (following (pushParticle cfg.push cfg.field cfg.dt) (kicked e chi) h p).momentum) := by
  rw [← C118_law (nm := nm) hprocs hL hq hm ha hmx hdt hend hN fun h =>
    A (following (pushParticle cfg.push cfg.field cfg.dt) (kicked e chi) h p).position
      (following (pushParticle cfg.push cfg.field cfg.dt) (kicked e chi) h p).momentum]
  refine average_congr fun us hlen hus => ?_
  congr 1
  apply propext
  obtain ⟨u, rest, rfl⟩ : ∃ u rest, us = u :: rest := by
    cases us with
    | nil => simp at hlen; omega
    | cons u rest => exact ⟨u, rest, rfl⟩
  have hu := hus u (by simp)
  have hs := lonely_lone (nm := nm) p u rest hmx
  have key := lived_iff hprocs hL n _ p _ rest hs hq (C16_initial_depth_nonneg u hu.1 hu.2)
    (fun v hv => hus v (by simp [hv])) hm ha (by simp at hlen; omega) (fun k hk => by
      have := hend k hk
      simpa [lonely, EvState.init] using this)
  obtain ⟨⟨t, h1⟩, h2⟩ := (key _).mpr rfl
  obtain ⟨d, ph, h3, -⟩ := C118_state hprocs hL hq hm ha hmx (u :: rest) (by omega) hus _ t h1 h2
  have h4 := lived_steps h1
  rw [h2] at h4
  constructor
  · rintro ⟨t', g1, q, g2, g3⟩
    obtain rfl := steps_det h4 g1
    rw [h3] at g2
    obtain rfl := Option.some.inj g2
    exact ⟨_, t, h1, h2, g3⟩
  · rintro ⟨h', t', g1, g2, g3⟩
    obtain rfl := lived_unique h1 g1 (by omega)
    exact ⟨t, h4, _, congrArg List.head? h3, g3⟩

/-- **C162**, quantum: over independent uniform random numbers, the probability of any set `A` of positions and momenta
of the lepton after `n` steps is the same for any two choices of the photons that are kept. -/
theorem C162_law_partial (hL : Lookups cfg e logh chi Q) (hq : Q p)
    (hm : p.mass ≠ 0) (ha : p.isAlive = true) (hmx : 0 < mx) (hdt : 0 ≤ e.dt)
    (hend : ∀ k < n, (k : ℝ) * cfg.dt < cfg.timeEnd) (hN : 4 * n < N) (A : V3 ℝ → V3 ℝ → Prop)
    (least least' frac frac' : ℝ) (track track' : Bool) :
    likelihood N (fun us => ∃ t, Steps (cfg.having [.stochastic (e.keeping least frac track)]) (lonely p nm mx us) n t ∧
      FirstIn A t) =
    likelihood N (fun us => ∃ t, Steps (cfg.having [.stochastic (e.keeping least' frac' track')]) (lonely p nm mx us) n t ∧
      FirstIn A t) :=
  (firstIn_law rfl (lookups_keeping hL least frac track) hq hm ha hmx hdt hend hN A).trans
    (firstIn_law rfl (lookups_keeping hL least' frac' track') hq hm ha hmx hdt hend hN A).symm

end law

/-! ## Classical and semiclassical -/

/-- **C162**, classical (`c = true`) and semiclassical: from events with the same particles, after the same number of
steps, whatever the random numbers, each of these particles is the same for any two choices of the photons that are
kept. -/
theorem C162_continuous_partial {D : Type} [Dbl D] {cfg : SimCfg D} {e : EmissionCfg D} {c : Bool}
    {least least' frac frac' : D} {track track' : Bool} {s s' t t' : EvState D} {n : Nat}
    (hs : s.list = s'.list) (hcap : s.list.items.length ≤ s.list.maxParticles)
    (h : Steps (cfg.having [.continuous (e.keeping least frac track) c]) s n t)
    (h' : Steps (cfg.having [.continuous (e.keeping least' frac' track') c]) s' n t') :
    ∀ i < s.list.items.length, t.list.items[i]? = t'.list.items[i]? := by
  have key : ∀ {cfg' : SimCfg D} {s t : EvState D} {n : Nat}, (∀ proc ∈ cfg'.procs, ∃ e c, proc = .continuous e c) →
      s.list.items.length ≤ s.list.maxParticles → Steps cfg' s n t →
      t.list.items.length ≤ t.list.maxParticles ∧ ∀ {i : Nat} {p : Particle D}, s.list.items[i]? = some p →
        t.list.items[i]? = some ((pushParticle cfg'.push cfg'.field cfg'.dt)^[n] p) := by
    intro cfg' s t n hp hcap h
    induction h with
    | zero => exact ⟨hcap, fun hi => hi⟩
    | succ a h2 b ih =>
      refine ⟨?_, fun hi => ?_⟩
      · have g := reach_grows (a.succ h2 b).reach
        rw [g.max]
        exact g.cap hcap
      · rw [Function.iterate_succ_apply']
        exact timeStep_continuous hp ih.1 b (ih.2 hi)
  intro i hi
  obtain ⟨p, hp⟩ : ∃ p, s.list.items[i]? = some p := ⟨_, List.getElem?_eq_getElem hi⟩
  rw [(key (fun _ h => ⟨_, _, List.mem_singleton.mp h⟩) hcap h).2 hp,
    (key (fun _ h => ⟨_, _, List.mem_singleton.mp h⟩) (hs ▸ hcap) h').2 (hs ▸ hp)]
  rfl

/-! ## The same random numbers -/

namespace Witness

/-- Where a record leads. -/
theorem accel_first (least : ℝ) (u : ℝ) (us : List ℝ) (hu : 0 ≤ u ∧ u < 1) (hus : ∀ v ∈ us, 0 ≤ v ∧ v < 1)
    (hlen : 8 ≤ us.length) (h : List (Option ℝ))
    (hd : depths (pushParticle (accelCfg 2).push (accelCfg 2).field (accelCfg 2).dt) (emissionRate accelEm fun _ => 0)
      (kicked accelEm fun _ _ => 1 / 4) (photonDraws (accelEm.keeping least (1 / 2) false) fun _ _ => 1 / 4) 2 electron
      (initDepth u) us = h) :
    ∃ t q, Steps ((accelCfg 2).having [.stochastic (accelEm.keeping least (1 / 2) false)])
      (lonely electron "0" 10 (u :: us)) 2 t ∧ t.list.items.head? = some q ∧ q.momentum =
        (following (pushParticle (accelCfg 2).push (accelCfg 2).field (accelCfg 2).dt) (kicked accelEm fun _ _ => 1 / 4) h
          electron).momentum := by
  have hL := lookups_keeping (accel_lookups 2) least (1 / 2) false
  have hm : electron.mass ≠ 0 := by rw [electron_forward.mass]; norm_num
  obtain ⟨⟨t, h1⟩, h2⟩ := (lived_iff rfl hL 2 _ electron _ us
    (lonely_lone (nm := "0") (mx := 10) electron u us (by norm_num)) electron_forward
    (C16_initial_depth_nonneg u hu.1 hu.2) hus hm rfl (by omega)
    (by intro k hk; simpa [accelCfg, lonely, EvState.init, SimCfg.having] using hk) h).mpr hd.symm
  have h3 := lived_steps h1
  rw [h2] at h3
  obtain ⟨d, ph, h4, -⟩ := C118_state (n := 2) rfl hL electron_forward hm rfl (by norm_num : 0 < 10) (u :: us)
    (by simp; omega) (by
      intro v hv
      rcases List.mem_cons.mp hv with rfl | hv
      · exact hu
      · exact hus v hv) h t h1 h2
  exact ⟨t, _, h3, congrArg List.head? h4, rfl⟩

end Witness

open Witness in
/-- C162 is false: with another energy threshold and the same random numbers, the lepton has another momentum after two
steps. -/
theorem C162_refuted : ∃ (cfg : SimCfg ℝ) (e : EmissionCfg ℝ) (p : Particle ℝ) (us : List ℝ) (least least' : ℝ)
    (t t' : EvState ℝ) (q q' : Particle ℝ), (∀ u ∈ us, 0 ≤ u ∧ u < 1) ∧
    Steps (cfg.having [.stochastic (e.keeping least e.sampleFrac e.track)]) (lonely p "0" 10 us) 2 t ∧
    Steps (cfg.having [.stochastic (e.keeping least' e.sampleFrac e.track)]) (lonely p "0" 10 us) 2 t' ∧
    t.list.items.head? = some q ∧ t'.list.items.head? = some q' ∧ q.momentum ≠ q'.momentum := by
  set push := pushParticle (accelCfg 2).push (accelCfg 2).field (accelCfg 2).dt with hpush
  set kick := kicked accelEm fun _ _ => (1 : ℝ) / 4 with hkick
  obtain ⟨hf, z, hz, hmom⟩ := forward_push 2 electron_forward
  have hr := (accel_rate hf).1
  have hk := (accel_lookups 2).recoil electron electron_forward hr (1 / 2) (by norm_num) (by norm_num)
  obtain ⟨hf2, z2, hz2, hmom2⟩ := forward_push 2 hk
  have hr2 := accel_rate hf2
  have energy : ∀ (x : Particle ℝ) (v : ℝ), Forward x → 0 < photonEnergy accelEm (fun _ _ => 1 / 4) x v := by
    intro x v hx
    have hg : 0 < x.gamma := by
      unfold Particle.gamma
      rw [hx.kind]
      obtain ⟨z, hz, hmom⟩ := hx.momentum
      rw [hmom, hx.mass]
      simp [V3.mag2, V3.dot]
      positivity
    unfold photonEnergy
    rw [show calculateEta accelEm.field x = 1 from forward_eta hx]
    linarith
  have hd0 : initDepth (0 : ℝ) = 0 := by simp [initDepth]
  have hd9 : (1 : ℝ) / 100 ≤ initDepth (9 / 10 : ℝ) := by
    rw [initDepth_ge (by norm_num)]
    have := Real.add_one_le_exp (-(1 / 100) : ℝ)
    linarith
  let us : List ℝ := [1 / 2, 0, 9 / 10, 0, 0, 0, 0, 0]
  have hus : ∀ v ∈ us, 0 ≤ v ∧ v < 1 := by
    intro v hv
    simp only [us, List.mem_cons, List.not_mem_nil, or_false] at hv
    rcases hv with rfl | rfl | rfl | rfl | rfl | rfl | rfl | rfl <;> norm_num
  obtain ⟨t, q, h1, h2, h3⟩ := accel_first 0 0 us (by norm_num) hus (by simp [us]) [some (1 / 2), none] (by
    have hd : photonDraws (accelEm.keeping 0 (1 / 2) false) (fun _ _ => 1 / 4) (push electron) (1 / 2) 0 = 1 := by
      unfold photonDraws
      exact (if_pos (energy _ _ hf)).trans (if_neg (by show ¬ ((1 : ℝ) / 2 < 0); norm_num))
    rw [← hpush, ← hkick, depths, if_neg (by rw [hd0]; linarith)]
    simp only [us, List.headD_cons, List.tail_cons, hd]
    rw [depths, if_pos]
    · rfl
    · exact hr2.2.trans hd9)
  obtain ⟨t', q', g1, g2, g3⟩ := accel_first (photonEnergy accelEm (fun _ _ => 1 / 4) (push electron) (1 / 2)) 0 us
      (by norm_num) hus (by simp [us]) [some (1 / 2), some (9 / 10)] (by
    have hd : photonDraws (accelEm.keeping (photonEnergy accelEm (fun _ _ => 1 / 4) (push electron) (1 / 2)) (1 / 2) false)
        (fun _ _ => 1 / 4) (push electron) (1 / 2) 0 = 0 := by
      unfold photonDraws
      exact if_neg (lt_irrefl _)
    rw [← hpush, ← hkick, depths, if_neg (by rw [hd0]; linarith)]
    simp only [us, List.headD_cons, List.tail_cons, hd]
    rw [depths, if_neg]
    · rfl
    · show ¬ _ ≤ initDepth (0 : ℝ)
      rw [hd0]
      exact not_le.mpr hr2.1)
  refine ⟨accelCfg 2, accelEm, electron, 0 :: us, 0, _, t, t', q, q', ?_, h1, g1, h2, g2, ?_⟩
  · intro v hv
    rcases List.mem_cons.mp hv with rfl | hv
    · norm_num
    · exact hus v hv
  rw [h3, g3]
  have hu : ∀ (x : Particle ℝ) (a b : V3 ℝ), (x.updateTrack a b).momentum = b := by
    intro x a b
    unfold Particle.updateTrack
    split <;> rfl
  simp only [following]
  set x := push (kick (push electron) (1 / 2)) with hx
  have hE := energy x (9 / 10) hf2
  have hkm : (kick x (9 / 10)).momentum = x.momentum.sub (x.direction.smul
      (photonEnergy accelEm (fun _ _ => 1 / 4) x (9 / 10))) := hu _ _ _
  rw [hkm]
  unfold Particle.direction
  rw [show x.momentum = ⟨0, 0, z2⟩ from hmom2, norm_z z2 (by linarith)]
  intro h
  have := congrArg V3.z h
  simp [V3.sub, V3.smul] at this
  linarith

/-! ## The hypotheses are satisfiable -/

/-- An accelerated electron that loses half its energy in each emission, with all the photons and with those above 100. -/
example (n : Nat) (A : V3 ℝ → V3 ℝ → Prop) :
    likelihood (4 * n + 1) (fun us => ∃ t, Steps ((Witness.accelCfg n).having [.stochastic
      (Witness.accelEm.keeping 0 0 true)]) (lonely Witness.electron "0" 10 us) n t ∧ FirstIn A t) =
    likelihood (4 * n + 1) (fun us => ∃ t, Steps ((Witness.accelCfg n).having [.stochastic
      (Witness.accelEm.keeping 100 (1 / 2) false)]) (lonely Witness.electron "0" 10 us) n t ∧ FirstIn A t) :=
  C162_law_partial (Witness.accel_lookups n) Witness.electron_forward
    (by rw [Witness.electron_forward.mass]; norm_num) rfl (by norm_num)
    (by simp [Witness.emCfg]) (by intro k hk; simpa [Witness.accelCfg] using hk) (by omega) A _ _ _ _ _ _

open Witness in
/-- An accelerated electron of a semiclassical simulation: with the fraction 1 its photon is kept, with the fraction 0 it
is not. -/
example : ∃ t t' : EvState ℝ,
    Steps ((sampledCfg 1 1).having [.continuous ((sampleCfg 1).keeping 0 0 false) false])
      (lonely electron "0" 10 [0, 1 / 2, 1 / 2, 1 / 2]) 1 t ∧
    Steps ((sampledCfg 1 1).having [.continuous ((sampleCfg 1).keeping 0 1 false) false])
      (lonely electron "0" 10 [0, 1 / 2, 1 / 2, 1 / 2]) 1 t' ∧
    t.list.items.length = 1 ∧ t'.list.items.length = 2 ∧ t.list.items[0]? = t'.list.items[0]? := by
  let s := lonely electron "0" 10 [0, 1 / 2, 1 / 2, 1 / 2]
  have hs : Alone s (electron.initOpticalDepth 0) [] := ⟨rfl, by simp, by simp [s, lonely, EvState.init], rfl⟩
  have hid := push_identity (sampledCfg 1 1).push (sampledCfg 1 1).field (sampledCfg 1 1).dt
    (electron.initOpticalDepth 0)
  have hm : (pushParticle (sampledCfg 1 1).push (sampledCfg 1 1).field (sampledCfg 1 1).dt
      (electron.initOpticalDepth 0)).mass ≠ 0 := by
    rw [hid.2.1]
    show electron.mass ≠ 0
    rw [electron_forward.mass]; norm_num
  have ha : (pushParticle (sampledCfg 1 1).push (sampledCfg 1 1).field (sampledCfg 1 1).dt
      (electron.initOpticalDepth 0)).isAlive = true := hid.2.2.2.2.2.1
  have hpw : pushParticle (sampledCfg 1 1).push (sampledCfg 1 1).field (sampledCfg 1 1).dt
      (electron.initOpticalDepth 0) = (pushes (sampledCfg 1 1) electron 1).withDepth (initDepth 0) :=
    push_withDepth _ _ _ electron (initDepth 0)
  obtain ⟨t, h1, -, -, -, h2⟩ := alone_step
    (cfg := (sampledCfg 1 1).having [.continuous ((sampleCfg 1).keeping 0 0 false) false]) rfl hs (new := []) (by simp)
    (interact_skipped _ false hm ha (by show (0 : ℝ) < 1 / 2; norm_num))
  have hc : continuousLoghChi ((sampleCfg 1).keeping 0 1 false) false (calculateEta (sampleCfg 1).field
      (pushParticle (sampledCfg 1 1).push (sampledCfg 1 1).field (sampledCfg 1 1).dt (electron.initOpticalDepth 0)))
      s.rng.next.2.next.1 = .ok (0, 1 / 4) := by
    have hr : s.rng.next.2.next.1 = 1 / 2 := rfl
    rw [hpw, hr]
    exact sampled_inTables 1 1 0 (by norm_num) (1 / 2) (by norm_num) (by norm_num)
  have hE := sampled_above 1 1 0 (by norm_num) (1 / 2) (by norm_num) (by norm_num)
  obtain ⟨t', g1, -, -, -, g2⟩ := alone_step
    (cfg := (sampledCfg 1 1).having [.continuous ((sampleCfg 1).keeping 0 1 false) false]) rfl hs
    (new := [emittedPhoton ((sampleCfg 1).keeping 0 1 false) 0 (1 / 4) _ s.rng.next.2.next.2.next.1])
    (by intro x hx; rw [List.mem_singleton.mp hx]; simp [emittedPhoton, Particle.newPhotonE, Particle.new])
    (fun l => (interact_sampled _ false hm ha (by show ¬ (1 : ℝ) < 1 / 2; norm_num) hc l).1 (by
      rw [hpw]
      exact hE))
  have h3 : Steps ((sampledCfg 1 1).having [.continuous ((sampleCfg 1).keeping 0 0 false) false]) s 1 t :=
    .succ .zero (by simp [s, lonely, EvState.init, sampledCfg, SimCfg.having]) h1
  have g3 : Steps ((sampledCfg 1 1).having [.continuous ((sampleCfg 1).keeping 0 1 false) false]) s 1 t' :=
    .succ .zero (by simp [s, lonely, EvState.init, sampledCfg, SimCfg.having]) g1
  refine ⟨t, t', h3, g3, ?_, ?_, C162_continuous_partial rfl hs.room h3 g3 0 (by simp [s, lonely, EvState.init])⟩
  · rw [h2.items]
    rfl
  · rw [g2.items]
    rfl

end QED
