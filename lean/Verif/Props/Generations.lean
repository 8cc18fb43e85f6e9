import Verif.Lemmas.Generations

set_option autoImplicit false

/-!
# C155: particles made in a time step

A time step of the program lets every particle interact once; the particles made in a step would have to wait for the
next one. With a single process this holds in effect, because a process does not act on what it makes. With emission and
pair production the loop over the particles also visits those that it has just appended: one time step can go through
any number of generations, and their clocks run ahead by one time step each.
-/

namespace QED

open MCTools MeasureTheory

/-! ## One process -/

/-- C155 for a single process: a step adds at most one photon for each lepton present at its start, if the process is an
emission, and at most two leptons for each photon, if it is pair production. -/
theorem C155_partial {cfg : SimCfg ℝ} {proc : Proc ℝ} (hp : cfg.procs = [proc]) {s t : EvState ℝ}
    (h : timeStep cfg s = .ok t) :
    t.list.items.length ≤ s.list.items.length + match proc with
      | .stochastic _ => (s.list.items.filter fun p => decide (p.mass ≠ 0)).length
      | .continuous _ _ => (s.list.items.filter fun p => decide (p.mass ≠ 0)).length
      | .breitWheeler _ => 2 * (s.list.items.filter fun p => decide (p.kind = .photon)).length := by
  obtain ⟨ha, -⟩ := timeStep_advance h
  have := Generations.loop_adds (pre := []) (post := s.list.items) hp ha
  rw [List.countP_eq_length_filter] at this
  cases proc with
  | stochastic e =>
    rw [show Generations.yields (.stochastic e) = 1 from rfl, one_mul, List.length_nil, zero_add] at this
    exact this
  | continuous e c =>
    rw [show Generations.yields (.continuous e c) = 1 from rfl, one_mul, List.length_nil, zero_add] at this
    exact this
  | breitWheeler w =>
    rw [List.length_nil, zero_add] at this
    exact this

/-! ## Emission and pairs -/

section cascade

variable {dt f U : ℝ}

/-- C155 fails with quantum emission and pair production, however short the time step: for all bounds `f < U` there are
settings with which, if the draws lie between `f` and `U`, a single electron turns into as many particles as the list can
hold in one step. The clock of one of them shows at least `log₂ mx` time steps, while that of the event shows one. -/
theorem C155_refuted (hdt : 0 < dt) (hdt1 : dt ≤ 1) (hf : 0 < f) (hfU : f < U) (h1 : U < 1) :
    ∃ cfg e w, QuantumPairs cfg e w ∧ cfg.dt = dt ∧ e.sampleFrac = f ∧
      ∀ (x : V3 ℝ) (weight u : ℝ) (nm : String) (mx : Nat) (r : Rng ℝ), 0 < mx → u < U → Between f U r (4 * mx) →
        ∃ t, timeStep cfg (.init ⟨nm, mx, [Particle.newLepton 1 (-1) x ⟨0, 0, 4⟩ weight 0 false u]⟩ r []) = .ok t ∧
          t.time = dt ∧ t.list.items.length = mx ∧ ∃ q ∈ t.list.items, Nat.log 2 mx * dt ≤ q.time := by
  refine ⟨_, _, _, Generations.cfg_pairs dt f U, rfl, rfl, fun x weight u nm mx r hmx hu hr => ?_⟩
  refine Generations.timeStep_full hdt hdt1 (hf.trans hfU) h1 ⟨?_, rfl, ?_, rfl, Generations.depth_le h1 hu, rfl, ?_, ?_⟩
    le_rfl nm hmx hr
  · simp [Particle.newLepton, Particle.new, Particle.leptonKind]
  · simp [Particle.newLepton, Particle.new]
  · simp [Particle.newLepton, Particle.new]
    norm_num
  · simp [Particle.newLepton, Particle.new]
    norm_num

/-- C155 in terms of probability: for every capacity `mx` of the list, and every time step, there are settings with which
this happens with a probability as close to 1 as desired. -/
theorem C155_likelihood_refuted (hdt : 0 < dt) (hdt1 : dt ≤ 1) (x : V3 ℝ) (weight : ℝ) (nm : String) {mx : Nat}
    (hmx : 0 < mx) {ε : ℝ} (hε : 0 < ε) :
    ∃ cfg e w, QuantumPairs cfg e w ∧ cfg.dt = dt ∧
      ENNReal.ofReal (1 - ε) ≤ likelihood (4 * mx + 1) fun us =>
        ∃ t, timeStep cfg (lonely (Particle.newLepton 1 (-1) x ⟨0, 0, 4⟩ weight 0 false 0) nm mx us) = .ok t ∧
          t.time = dt ∧ t.list.items.length = mx ∧ ∃ q ∈ t.list.items, Nat.log 2 mx * dt ≤ q.time := by
  set N := 4 * mx + 1 with hN
  have hN0 : (0 : ℝ) < N := by positivity
  set d := min (1 / 4) (ε / (2 * N)) with hd
  have hd0 : 0 < d := lt_min (by norm_num) (by positivity)
  have hd1 : d ≤ 1 / 4 := min_le_left _ _
  have hd2 : 2 * N * d ≤ ε := by
    have := min_le_right (1 / 4) (ε / (2 * N))
    rw [← hd, le_div_iff₀ (by positivity)] at this
    linarith
  obtain ⟨cfg, e, w, a1, a2, -, a3⟩ := C155_refuted (f := d) (U := 1 - d) hdt hdt1 hd0 (by linarith) (by linarith)
  refine ⟨cfg, e, w, a1, a2, ?_⟩
  refine le_trans (b := ENNReal.ofReal (1 - d - d) ^ N) ?_ (Generations.likelihood_ge hd0.le (by linarith) N _ ?_)
  · rw [← ENNReal.ofReal_pow (by linarith)]
    refine ENNReal.ofReal_le_ofReal ?_
    have := one_add_mul_le_pow (a := -(2 * d)) (by linarith) N
    rw [show 1 - d - d = 1 + -(2 * d) by ring]
    linarith
  · intro us hl hus
    cases us with
    | nil => simp [hN] at hl
    | cons u us =>
      rw [List.length_cons] at hl
      refine a3 x weight u nm mx ⟨fun i => (u :: us).getD i 0, 1⟩ hmx (hus u (by simp)).2 ?_
      intro i hi hi'
      have : i < (u :: us).length := by rw [List.length_cons]; dsimp only at hi'; omega
      dsimp only
      rw [List.getD_eq_getElem?_getD, List.getElem?_eq_getElem this, Option.getD_some]
      exact hus _ (List.getElem_mem this)

end cascade

/-! ## The hypotheses can be met -/

/-- A thousandth of a time unit, draws between 1/10 and 9/10: one step fills a list of 1024 particles, and the last clock
shows ten steps. -/
example : ∃ (cfg : SimCfg ℝ) (e : EmissionCfg ℝ) (w : BWCfg ℝ), QuantumPairs cfg e w ∧ cfg.dt = 1 / 1000 ∧
    ∃ t, timeStep cfg (.init ⟨"0", 1024, [Particle.newLepton 1 (-1) ⟨0, 0, 0⟩ ⟨0, 0, 4⟩ 1 0 false (1 / 2)]⟩
      ⟨fun _ => 1 / 2, 0⟩ []) = .ok t ∧ t.time = 1 / 1000 ∧ t.list.items.length = 1024 ∧
      ∃ q ∈ t.list.items, 10 * (1 / 1000) ≤ q.time := by
  obtain ⟨cfg, e, w, a1, a2, -, a3⟩ := C155_refuted (dt := 1 / 1000) (f := 1 / 10) (U := 9 / 10) (by norm_num)
    (by norm_num) (by norm_num) (by norm_num) (by norm_num)
  obtain ⟨t, b1, b2, b3, q, b4, b5⟩ := a3 ⟨0, 0, 0⟩ 1 (1 / 2) "0" 1024 ⟨fun _ => 1 / 2, 0⟩ (by norm_num) (by norm_num)
    (fun i _ _ => by norm_num)
  refine ⟨cfg, e, w, a1, a2, t, b1, b2, b3, q, b4, ?_⟩
  have : Nat.log 2 1024 = 10 := by
    rw [show (1024 : ℕ) = 2 ^ 10 by norm_num, Nat.log_pow (by norm_num)]
  rw [this] at b5
  exact_mod_cast b5

/-- Pair production alone: the photon makes two leptons, and the step ends with three particles. -/
example : ∃ (w : BWCfg ℝ) (cfg : SimCfg ℝ) (s t : EvState ℝ), cfg.procs = [.breitWheeler w] ∧ timeStep cfg s = .ok t ∧
    (s.list.items.filter fun p => decide (p.kind = .photon)).length = 1 ∧ s.list.items.length = 1 ∧
    t.list.items.length = 3 := by
  set p : Particle ℝ := Particle.newPhotonE 8 ⟨0, 0, 0⟩ (V3.norm ⟨0, 0, 1⟩) 1 0 false (1 / 2) with hp
  have hf : Generations.FreshPhoton (Generations.limit (9 / 10)) p := by
    obtain ⟨b1, b2⟩ := Generations.along (v := ⟨0, 0, 1⟩) rfl (by simp) 8
    have hm : p.momentum = ((⟨0, 0, 1⟩ : V3 ℝ).norm.norm).smul 8 := rfl
    refine ⟨rfl, by simp [hp, Particle.newPhotonE, Particle.new], rfl, Generations.depth_le (by norm_num) (by norm_num),
      ?_, ?_, ?_⟩
    · rw [hm, b1]
    · rw [hm, b2]
      norm_num
    · rw [hm, b2]
      norm_num
  set cfg : SimCfg ℝ := { Generations.cfg 1 (1 / 10) (9 / 10) with procs := [.breitWheeler (Generations.bw 1 (9 / 10))] }
    with hcfg
  have hq := Generations.photon_push (dt := 1) hf
  set q := pushParticle lorentzForce (Generations.field 1) 1 p with hqd
  obtain ⟨delta, hc⟩ := Generations.converts (U := 9 / 10) one_pos (by norm_num) (by norm_num) hq ⟨"0", 3, [q]⟩
    ⟨fun _ => 1 / 2, 0⟩
  have hx := Generations.pair_lepton hq (U := 9 / 10) (by norm_num) delta (c := Dbl.lit 1) (by simp [real_lit]) false
    (u := 1 / 2) (by norm_num)
  have hy := Generations.pair_lepton hq (U := 9 / 10) (by norm_num) delta (c := Dbl.lit (-1)) (by simp [real_lit]) false
    (u := 1 / 2) (by norm_num)
  have e0 : ∀ r : Rng ℝ, r.draw = (fun _ => 1 / 2) → r.next.1 = 1 / 2 := by
    rintro ⟨d, k⟩ rfl
    rfl
  rw [e0 _ rfl, e0 _ rfl] at hc
  generalize pairLepton (Dbl.lit 1) (1 / 2 * q.energy) (q.updateOpticalDepth delta) false (1 / 2) = x at *
  generalize pairLepton (Dbl.lit (-1)) (1 / 2 * q.energy) (q.updateOpticalDepth delta) false (1 / 2) = y at *
  generalize (q.updateOpticalDepth delta).kill = p' at *
  generalize hr : (Rng.next (⟨fun _ => 1 / 2, 0⟩ : Rng ℝ)).2.next.2.next.2 = r' at *
  have idle : ∀ (k : Nat) (l : PList ℝ) (z : Particle ℝ) (r : Rng ℝ), l.items[k]? = some z → z.kind ≠ .photon →
      ∃ l' : PList ℝ, visit cfg k l r = .ok (l', r) ∧ l'.items.length = l.items.length ∧
        ∀ i, i ≠ k → l'.items[i]? = l.items[i]? := by
    intro k l z r hz hk
    obtain ⟨hk1, -⟩ := List.getElem?_eq_some_iff.mp hz
    set z' := pushParticle cfg.push cfg.field cfg.dt z with hz'
    have hk' : z'.typeName ≠ "Photon" := by
      have : z'.kind = z.kind := (push_identity cfg.push cfg.field cfg.dt z).1
      unfold Particle.typeName
      rw [this]
      revert hk
      cases z.kind <;> simp
    refine ⟨(l.set k z').set k z', ?_, by simp [PList.set], fun i hi => by simp [PList.set, Ne.symm hi]⟩
    have g1 : l.get k = .ok z := PList.get_eq_ok.mpr hz
    have g2 : (l.set k z').get k = .ok z' := PList.get_eq_ok.mpr (by simp [PList.set, hk1])
    unfold visit
    rw [g1, Res.ok_bind]
    show interactAll [.breitWheeler (Generations.bw 1 (9 / 10))] k (l.set k z') r = _
    rw [interactAll]
    have : interactAt (.breitWheeler (Generations.bw 1 (9 / 10))) k (l.set k z') r = .ok ((l.set k z').set k z', r) := by
      unfold interactAt
      rw [g2, Res.ok_bind]
      show (bwInteract (Generations.bw 1 (9 / 10)) z' _ r >>= fun x => Res.ok (x.2.1.set k x.1, x.2.2)) = _
      unfold bwInteract
      rw [if_pos (Or.inl hk')]
      rfl
    rw [this, Res.ok_bind]
    rfl
  have v0 : visit cfg 0 ⟨"0", 3, [p]⟩ ⟨fun _ => 1 / 2, 0⟩ = .ok (⟨"0", 3, [p', x, y]⟩, r') := by
    show interactAll [.breitWheeler (Generations.bw 1 (9 / 10))] 0 ⟨"0", 3, [q]⟩ ⟨fun _ => 1 / 2, 0⟩ = _
    rw [interactAll]
    have : interactAt (.breitWheeler (Generations.bw 1 (9 / 10))) 0 ⟨"0", 3, [q]⟩ ⟨fun _ => 1 / 2, 0⟩ =
        .ok (⟨"0", 3, [p', x, y]⟩, r') := by
      show (bwInteract (Generations.bw 1 (9 / 10)) q ⟨"0", 3, [q]⟩ ⟨fun _ => 1 / 2, 0⟩ >>= fun x =>
        Res.ok (x.2.1.set 0 x.1, x.2.2)) = _
      rw [hc]
      rfl
    rw [this]
    rfl
  obtain ⟨l1, v1, n1, k1⟩ := idle 1 ⟨"0", 3, [p', x, y]⟩ x r' rfl hx.kind
  obtain ⟨l2, v2, n2, -⟩ := idle 2 l1 y r' (by rw [k1 2 (by norm_num)]; rfl) hy.kind
  refine ⟨_, cfg, .init ⟨"0", 3, [p]⟩ ⟨fun _ => 1 / 2, 0⟩ [], ⟨l2, r', (0 : ℝ) + 1, 0, []⟩, rfl, ?_, rfl, rfl, ?_⟩
  · have e2 : advance cfg ⟨"0", 3, [p]⟩ ⟨fun _ => 1 / 2, 0⟩ = .ok (l2, r') := by
      unfold advance
      dsimp only
      rw [particleLoop, if_pos (by simp [PList.nPart]), v0, Res.ok_bind]
      dsimp only
      rw [particleLoop, if_pos (by simp [PList.nPart]), v1, Res.ok_bind]
      dsimp only
      rw [particleLoop, if_pos (by simp [PList.nPart, n1]), v2, Res.ok_bind]
      rfl
    unfold timeStep
    show (advance cfg ⟨"0", 3, [p]⟩ ⟨fun _ => 1 / 2, 0⟩ >>= fun x => _) = _
    rw [e2, Res.ok_bind]
    simp [EvState.init, cfg, Generations.cfg]
  · rw [n2, n1]
    rfl

end QED
