import Verif.Lemmas.Events
import Verif.Lemmas.Geometry

set_option autoImplicit false

/-!
# Properties C12 to C16: particles and particle lists
-/

namespace QED

open MCTools

/-! ## C12 Kinematics -/

/-- Leptons of positive mass. -/
theorem C12_lepton (p : Particle ℝ) (hk : p.kind ≠ .photon) (hm : 0 < p.mass) :
    p.energy ^ 2 = p.mass ^ 2 + len p.momentum.toVec ^ 2 ∧ 0 < p.energy ∧
      p.gamma = p.energy / p.mass ∧ 1 ≤ p.gamma ∧ 0 ≤ p.beta ∧ p.beta < 1 ∧
      len p.momentum.toVec = p.mass * p.gamma * p.beta := by
  have hg : p.gamma = Real.sqrt (1 + p.momentum.mag2 / (p.mass * p.mass)) := by
    unfold Particle.gamma; split <;> simp_all
  have he : p.energy = p.mass * p.gamma := by
    unfold Particle.energy; split <;> simp_all
  have hb : p.beta = Real.sqrt (1 - 1 / (p.gamma * p.gamma)) := by
    unfold Particle.beta; split <;> simp_all
  have h0 : 0 ≤ p.momentum.mag2 := by rw [mag2_eq]; positivity
  have hmm : 0 < p.mass * p.mass := by positivity
  have hq : 0 ≤ p.momentum.mag2 / (p.mass * p.mass) := by positivity
  have hg2 : p.gamma ^ 2 = 1 + p.momentum.mag2 / (p.mass * p.mass) := by
    rw [hg, Real.sq_sqrt (by linarith)]
  have hg1 : 1 ≤ p.gamma := by
    rw [hg]; exact Real.one_le_sqrt.mpr (by linarith)
  have hgp : 0 < p.gamma := by linarith
  have hinv : 1 / (p.gamma * p.gamma) ≤ 1 := by
    rw [div_le_one (by positivity)]; nlinarith
  have hinv0 : 0 < 1 / (p.gamma * p.gamma) := by positivity
  have hb2 : p.beta ^ 2 = 1 - 1 / (p.gamma * p.gamma) := by
    rw [hb, Real.sq_sqrt (by linarith)]
  have hb0 : 0 ≤ p.beta := by rw [hb]; exact Real.sqrt_nonneg _
  refine ⟨?_, ?_, ?_, hg1, hb0, ?_, ?_⟩
  · rw [he, mul_pow, hg2, ← mag2_eq]; field_simp
  · rw [he]; positivity
  · rw [he]; field_simp
  · nlinarith
  · have hlen : 0 ≤ len p.momentum.toVec := Real.sqrt_nonneg _
    have hr : 0 ≤ p.mass * p.gamma * p.beta := by positivity
    have : len p.momentum.toVec ^ 2 = (p.mass * p.gamma * p.beta) ^ 2 := by
      rw [mul_pow, mul_pow, hb2, ← mag2_eq]
      have : p.momentum.mag2 = p.mass ^ 2 * (p.gamma ^ 2 - 1) := by rw [hg2]; field_simp; ring
      rw [this]; field_simp
    exact (sq_eq_sq₀ hlen hr).mp this

/-- Photons. -/
theorem C12_photon (p : Particle ℝ) (hk : p.kind = .photon) :
    p.energy = len p.momentum.toVec ∧ p.gamma = len p.momentum.toVec ∧ p.beta = 1 := by
  refine ⟨?_, ?_, ?_⟩
  · rw [← mag_eq]; unfold Particle.energy; simp [hk]
  · rw [← mag_eq]; unfold Particle.gamma; simp [hk]
  · unfold Particle.beta; simp [hk]

example : ∃ p : Particle ℝ, p.kind ≠ .photon ∧ 0 < p.mass ∧ p.momentum = ⟨1, 2, 3⟩ :=
  ⟨.newLepton 1 (-1) ⟨0, 0, 0⟩ ⟨1, 2, 3⟩ 1 0 false 0, by
    simp [Particle.newLepton, Particle.new, Particle.leptonKind], by
    simp [Particle.newLepton, Particle.new], rfl⟩

/-! ## C13 Particle list -/

section
variable {D : Type} [Dbl D]

/-- After any sequence of additions the list holds the first `n` added particles, in
order, and reads return exactly those. -/
theorem C13_bounded_sequence (name : String) (n : Nat) (added : List (Particle D)) :
    let l := added.foldl PList.add (PList.new name n)
    l.nPart = min n added.length ∧
    (∀ i p, l.get i = .ok p ↔ i < n ∧ added[i]? = some p) ∧
    (∀ i, l.nPart ≤ i → ∃ w, l.get i = .ub w) := by
  intro l
  have hl : l.items = added.take n := by
    have := PList.addAll_items (PList.new name n : PList D) added
    rw [PList.addAll] at this
    rw [show l.items = _ from this]
    simp [PList.new]
  refine ⟨by simp [PList.nPart, hl], fun i p => ?_, fun i hi => ?_⟩
  · rw [PList.get_eq_ok, hl, List.getElem?_take]
    split <;> simp_all
  · unfold PList.get
    rw [List.getElem?_eq_none hi]
    dsimp only
    split <;> exact ⟨_, rfl⟩

/-- No addition changes an existing entry, in any list. -/
theorem C13_append_only (l : PList D) (added : List (Particle D)) (i : Nat) (p : Particle D)
    (h : l.get i = .ok p) : (added.foldl PList.add l).get i = .ok p := by
  rw [PList.get_eq_ok] at h ⊢
  have := PList.addAll_items l added
  simp only [PList.addAll] at this
  rw [this]
  have hi : i < l.items.length := by
    rw [List.getElem?_eq_some_iff] at h; exact h.1
  rw [List.getElem?_append_left hi, h]

/-! ## C14 Track histories -/

/-- The four histories agree in length; a tracked particle's last entries are its
current values; an untracked particle has none. -/
structure Aligned (p : Particle D) : Prop where
  mom : p.momHistory.length = p.posHistory.length
  time : p.timeHistory.length = p.posHistory.length
  gamma : p.gammaHistory.length = p.posHistory.length
  tracked : p.tracking = true → p.posHistory ≠ [] →
    p.posHistory.getLast? = some p.position ∧ p.momHistory.getLast? = some p.momentum ∧
      p.gammaHistory.getLast? = some p.gamma
  untracked : p.tracking = false → p.posHistory = []

theorem aligned_updateTrack {p : Particle D} (h : Aligned p) (x m : V3 D) :
    Aligned (p.updateTrack x m) := by
  obtain ⟨h1, h2, h3, h4, h5⟩ := h
  cases ht : p.tracking
  · have hempty := h5 ht
    constructor <;> simp_all [Particle.updateTrack]
  · constructor <;> simp_all [Particle.updateTrack, Particle.gamma]

theorem aligned_effect {p p' : Particle D} {l l' : PList D} {r r' : Rng D} {new : List (Particle D)}
    (h : Aligned p) (he : Effect p l r p' l' r' new) : Aligned p' ∧ ∀ q ∈ new, Aligned q := by
  constructor
  · have hs := he.same
    have gm : ∀ q : Particle D, q.kind = p.kind → q.mass = p.mass → q.momentum = p'.momentum →
        q.gamma = p'.gamma := by
      intro q a b c
      unfold Particle.gamma
      rw [a, b, c, hs.kind, hs.mass]
    rcases he.history with ⟨hm, a, b, c, d⟩ | ⟨m, hm, a, b, c, d⟩
    · obtain ⟨h1, h2, h3, h4, h5⟩ := h
      have := gm p rfl rfl hm.symm
      constructor
      · rw [b, a, h1]
      · rw [c, a, h2]
      · rw [d, a, h3]
      · rw [a, b, d, hm, hs.position, hs.tracking, ← this]; exact h4
      · rw [a, hs.tracking]; exact h5
    · have ha := aligned_updateTrack h p.position m
      have ut := updateTrack_same p m
      obtain ⟨h1, h2, h3, h4, h5⟩ := ha
      have hmom : (p.updateTrack p.position m).momentum = m := by
        unfold Particle.updateTrack; split <;> rfl
      have := gm (p.updateTrack p.position m) ut.kind ut.mass (by rw [hmom, hm])
      constructor
      · rw [b, a, h1]
      · rw [c, a, h2]
      · rw [d, a, h3]
      · rw [a, b, d, hm, hs.position, hs.tracking, ← this]
        rw [ut.tracking, ut.position, hmom] at h4; exact h4
      · rw [a, hs.tracking]; rw [ut.tracking] at h5; exact h5
  · intro q hq
    obtain ⟨_, _, _, a, b, c, d⟩ := he.fresh q hq
    constructor <;> simp [a, b, c, d]

/-- Whatever happens in an event that starts from a source, all particles always have
aligned histories. -/
theorem C14_histories_aligned (cfg : SimCfg D) (src src' : Source D) (r r' : Rng D) (l : PList D)
    (hsrc : src.generateList r = .ok (l, src', r')) (hists : List (Hist D)) (s : EvState D)
    (hreach : Reach cfg (.init l r' hists) s) : ∀ p ∈ s.list.items, Aligned p := by
  refine reach_forall ?_ ?_ hreach ?_
  · intro p hp
    rcases push_effect cfg.push cfg.field cfg.dt p with ⟨_, h⟩ | ⟨_, x, m, h⟩ <;> rw [h]
    · exact hp
    · obtain ⟨h1, h2, h3, h4, h5⟩ := aligned_updateTrack hp x m
      exact ⟨h1, h2, h3, h4, h5⟩
  · intro proc _ p l r p' l' r' new hp he _
    exact aligned_effect hp he
  · intro p hp
    simp only [EvState.init] at hp
    unfold Source.generateList at hsrc
    split at hsrc
    · cases hsrc
    · simp only [Res.bind_eq_ok] at hsrc
      obtain ⟨_, _, _, _, _, _, _, _, _, _, _, _, part, hpart, h⟩ := hsrc
      simp only [Res.ok.injEq, Prod.mk.injEq] at h
      rw [← h.1] at hp
      have : p = part := by
        simpa [PList.add, PList.new, PList.defaultMax] using hp
      subst this
      unfold Source.mkParticle at hpart
      split at hpart
      · cases hpart; constructor <;> simp [Particle.newPhotonE, Particle.new]
      · split at hpart
        · cases hpart; constructor <;> simp [Particle.newLeptonE, Particle.new]
        · split at hpart
          · cases hpart; constructor <;> simp [Particle.newLeptonE, Particle.new]
          · cases hpart

/-- Every push of an alive tracked particle appends one entry to each history, so the
histories of a pushed tracked particle are not empty. -/
theorem C14_push_records (push : PushMom D) (field : Field D) (dt : D) (p : Particle D)
    (ha : p.isAlive = true) (ht : p.tracking = true) :
    let q := pushParticle push field dt p
    q.posHistory = p.posHistory ++ [q.position] ∧ q.momHistory = p.momHistory ++ [q.momentum] ∧
      q.gammaHistory = p.gammaHistory ++ [q.gamma] ∧
      q.timeHistory.length = p.timeHistory.length + 1 := by
  rcases push_effect push field dt p with ⟨h, _⟩ | ⟨_, x, m, h⟩
  · rw [ha] at h; cases h
  · rw [h]; simp [Particle.updateTrack, Particle.updateTime, ht, Particle.gamma]

/-! ## C15 Recorded times -/

/-- What the code records: a push stores the time *before* the step with the position
and momentum *after* the step; a recoil stores the current time. So push entries are
one time step early. Missing from C15: the time of the recorded position. -/
theorem C15_push_entry_partial (push : PushMom D) (field : Field D) (dt : D) (p : Particle D)
    (ha : p.isAlive = true) (ht : p.tracking = true) :
    let q := pushParticle push field dt p
    q.timeHistory = p.timeHistory ++ [p.time] ∧ q.posHistory.getLast? = some q.position ∧
      q.time = p.time +. dt := by
  rcases push_effect push field dt p with ⟨h, _⟩ | ⟨_, x, m, h⟩
  · rw [ha] at h; cases h
  · rw [h]; simp [Particle.updateTrack, Particle.updateTime, ht]

theorem C15_recoil_entry_partial {proc : Proc D} {p p' : Particle D} {l l' : PList D}
    {r r' : Rng D} (h : proc.interact p l r = .ok (p', l', r')) :
    p'.timeHistory = p.timeHistory ∨ p'.timeHistory = p.timeHistory ++ [p'.time] := by
  obtain ⟨new, he⟩ := interact_effect h
  rcases he.history with ⟨_, _, _, c, _⟩ | ⟨m, _, _, _, c, _⟩
  · exact Or.inl c
  · rw [c, he.same.time]
    unfold Particle.updateTrack
    split
    · exact Or.inr rfl
    · exact Or.inl rfl

end

/-- C15 is false of every push of an alive tracked particle with a non-zero time step:
the last recorded time is not the particle's time. -/
theorem C15_refuted (push : PushMom ℝ) (field : Field ℝ) (dt : ℝ) (p : Particle ℝ)
    (ha : p.isAlive = true) (ht : p.tracking = true) (hdt : dt ≠ 0) :
    (pushParticle push field dt p).timeHistory.getLast? ≠
      some (pushParticle push field dt p).time := by
  obtain ⟨h1, _, h3⟩ := C15_push_entry_partial push field dt p ha ht
  rw [h1, h3]
  simp [hdt]

example : ∃ p : Particle ℝ, p.isAlive = true ∧ p.tracking = true :=
  ⟨.newPhoton ⟨0, 0, 0⟩ ⟨1, 0, 0⟩ 1 0 true 0, rfl, rfl⟩

/-! ## C16 Optical depth -/

/-- The depth set at creation and after an interaction is non-negative for every draw
in `[0, 1)`. -/
theorem C16_initial_depth_nonneg (u : ℝ) (h0 : 0 ≤ u) (h1 : u < 1) : 0 ≤ initDepth u := by
  have := Real.log_nonpos (show 0 ≤ 1 - u by linarith) (by linarith)
  simp only [initDepth, real_mul, real_lit, real_log, real_sub]
  push_cast
  linarith

/-- Every constructor draws the initial depth this way. -/
theorem C16_created_with_depth (u : ℝ) (h0 : 0 ≤ u) (h1 : u < 1) (k : Kind) (m c w t : ℝ)
    (x mom : V3 ℝ) (tr : Bool) : 0 ≤ (Particle.new k m c x mom w t tr u).opticalDepth :=
  C16_initial_depth_nonneg u h0 h1

/-- The step increments are non-negative (photon emission). -/
theorem C16_emission_increment_nonneg (field : Field ℝ) (p : Particle ℝ) (dt logh : ℝ)
    (hdt : 0 ≤ dt) : 0 ≤ emissionDelta dt (calculateEta field p) logh p.gamma := by
  have hg : 0 ≤ p.gamma := by
    unfold Particle.gamma; split
    · exact Real.sqrt_nonneg _
    · exact Real.sqrt_nonneg _
  have he : 0 ≤ calculateEta field p := by
    unfold calculateEta; exact mul_nonneg (Real.sqrt_nonneg _) hg
  have h10 : (0:ℝ) ≤ (10:ℝ) ^ logh := by positivity
  simp only [emissionDelta, real_mul, real_div, real_lit, real_sqrt, real_pow, Units.alpha, Units.pi]
  push_cast
  positivity

/-- The step increments are non-negative (pair production). -/
theorem C16_pair_increment_nonneg (field : Field ℝ) (p : Particle ℝ) (dt logt : ℝ)
    (hk : p.kind = .photon) (hdt : 0 ≤ dt) : 0 ≤ bwDelta dt (bwChi field p) logt p.energy := by
  have he : 0 ≤ p.energy := by
    rw [(C12_photon p hk).1]; exact Real.sqrt_nonneg _
  have hc : 0 ≤ bwChi field p := by
    unfold bwChi
    refine mul_nonneg (mul_nonneg ?_ he) (Real.sqrt_nonneg _)
    simp only [real_lit]; norm_num
  have h10 : (0:ℝ) ≤ (10:ℝ) ^ logt := by positivity
  simp only [bwDelta, real_mul, real_div, real_lit, real_pow, Units.alpha]
  push_cast
  positivity

/-- A particle that a process is applied to once per step, and whose optical depth does
not change in between (`C16_depth_kept` below: nothing else changes it). `p i`, `q i` are
the particle before and after call `i`. -/
structure DepthHistory (proc : Proc ℝ) (p q : Nat → Particle ℝ) (l l' : Nat → PList ℝ)
    (r r' : Nat → Rng ℝ) : Prop where
  call : ∀ i, proc.interact (p i) (l i) (r i) = .ok (q i, l' i, r' i)
  between : ∀ i, (p (i + 1)).opticalDepth = (q i).opticalDepth
  draws : ∀ i, (r i).Valid

/-- First passage: as long as no step before `n` has fired, the depth is the initial
depth minus the increments so far; step `n` fires exactly if the increments up to and
including it exceed the initial depth. -/
structure FirstPassage (depth after delta : Nat → ℝ) (fired : Nat → Prop) : Prop where
  nonneg : ∀ i, 0 ≤ delta i
  remaining : ∀ n, (∀ i < n, ¬ fired i) → depth n = depth 0 - ∑ i ∈ Finset.range n, delta i
  fires : ∀ n, (∀ i < n, ¬ fired i) → (fired n ↔ depth 0 < ∑ i ∈ Finset.range (n + 1), delta i)
  step : ∀ i, ¬ fired i → after i = depth i - delta i

theorem firstPassage_of_steps {depth after delta : Nat → ℝ} {fired : Nat → Prop}
    (nonneg : ∀ i, 0 ≤ delta i) (between : ∀ i, depth (i + 1) = after i)
    (fires : ∀ i, fired i ↔ depth i - delta i < 0)
    (step : ∀ i, ¬ fired i → after i = depth i - delta i) :
    FirstPassage depth after delta fired := by
  have hd : ∀ n, (∀ i < n, ¬ fired i) → depth n = depth 0 - ∑ i ∈ Finset.range n, delta i := by
    intro n
    induction n with
    | zero => simp
    | succ n ih =>
      intro h
      rw [between, step n (h n (Nat.lt_succ_self n)), ih fun i hi => h i (Nat.lt_succ_of_lt hi),
        Finset.sum_range_succ]
      ring
  refine ⟨nonneg, hd, fun n h => ?_, step⟩
  rw [fires, hd n h, Finset.sum_range_succ]
  constructor <;> intro h <;> linarith

theorem MCTools.Rng.Valid.mem {r : Rng ℝ} (h : r.Valid) (i : Nat) : 0 ≤ r.draw i ∧ r.draw i < 1 := by
  have := h i
  simpa using this

/-- Stochastic emission by an alive massive particle; the emission fires when random
numbers are drawn. Without an emission only the depth changes; after one the depth is
redrawn non-negative. -/
theorem C16_stochastic {cfg : EmissionCfg ℝ} {p q : Nat → Particle ℝ} {l l' : Nat → PList ℝ}
    {r r' : Nat → Rng ℝ} (H : DepthHistory (.stochastic cfg) p q l l' r r')
    (halive : ∀ i, (p i).isAlive = true) (hmass : ∀ i, (p i).mass ≠ 0) (hdt : 0 ≤ cfg.dt) :
    ∃ delta : Nat → ℝ,
      (∀ i, ∃ logh, emissionLogh cfg (calculateEta cfg.field (p i)) = .ok logh ∧
        delta i = emissionDelta cfg.dt (calculateEta cfg.field (p i)) logh (p i).gamma) ∧
      FirstPassage (fun i => (p i).opticalDepth) (fun i => (q i).opticalDepth) delta
        (fun i => (r' i).pos ≠ (r i).pos) ∧
      ∀ i, ((r' i).pos = (r i).pos → l' i = l i ∧ (q i).momentum = (p i).momentum) ∧
        ((r' i).pos ≠ (r i).pos → 0 ≤ (q i).opticalDepth) := by
  have key : ∀ i, ∃ delta : ℝ,
      (∃ logh, emissionLogh cfg (calculateEta cfg.field (p i)) = .ok logh ∧
        delta = emissionDelta cfg.dt (calculateEta cfg.field (p i)) logh (p i).gamma) ∧
      (((p i).opticalDepth - delta < 0 ∧ (r' i).pos ≠ (r i).pos ∧ 0 ≤ (q i).opticalDepth) ∨
       (¬ (p i).opticalDepth - delta < 0 ∧ (r' i).pos = (r i).pos ∧ l' i = l i ∧
         (q i).momentum = (p i).momentum ∧
         (q i).opticalDepth = (p i).opticalDepth - delta)) := by
    intro i
    have hcall := H.call i
    rcases stochastic_cases hcall with ⟨h, _⟩ | ⟨_, delta, hdelta, h⟩
    · rcases h with h | h
      · exact absurd (by simpa using h) (hmass i)
      · rw [halive i] at h; cases h
    · refine ⟨delta, hdelta, ?_⟩
      rcases h with ⟨h1, h2, h3, h4⟩ | ⟨h1, chi, u, uInit, hchi, _, ⟨j, hj⟩, _, hq, _⟩
      · right
        refine ⟨by simpa using h1, by rw [h4], h3, by rw [h2]; rfl, by rw [h2]; rfl⟩
      · left
        refine ⟨by simpa using h1, stochastic_draws hcall h1 hdelta (by simpa using hmass i) (halive i), ?_⟩
        rw [hq]
        have := (H.draws i).mem j
        exact C16_initial_depth_nonneg uInit (hj ▸ this.1) (hj ▸ this.2)
  choose delta hdelta h using key
  refine ⟨delta, hdelta, firstPassage_of_steps ?_ H.between ?_ ?_, fun i => ⟨?_, ?_⟩⟩
  · intro i
    obtain ⟨logh, _, hd⟩ := hdelta i
    rw [hd]; exact C16_emission_increment_nonneg _ _ _ _ hdt
  · intro i
    rcases h i with ⟨a, b, _⟩ | ⟨a, b, _⟩
    · exact ⟨fun _ => a, fun _ => b⟩
    · exact ⟨fun hb => absurd b hb, fun ha => absurd ha a⟩
  · intro i hf
    rcases h i with ⟨_, b, _⟩ | ⟨_, _, _, _, c⟩
    · exact absurd b hf
    · exact c
  · intro hf
    rcases h i with ⟨_, b, _⟩ | ⟨_, _, a, b, _⟩
    · exact absurd hf b
    · exact ⟨a, b⟩
  · intro hf
    rcases h i with ⟨_, _, c⟩ | ⟨_, b, _⟩
    · exact c
    · exact absurd b hf

/-- Pair production by photons that are alive until they convert; the conversion fires
when the photon dies. -/
theorem C16_pair {cfg : BWCfg ℝ} {p q : Nat → Particle ℝ} {l l' : Nat → PList ℝ}
    {r r' : Nat → Rng ℝ} (H : DepthHistory (.breitWheeler cfg) p q l l' r r')
    (hkind : ∀ i, (p i).kind = .photon) (hdt : 0 ≤ cfg.dt) (n : Nat)
    (halive : ∀ i ≤ n, (p i).isAlive = true) :
    ∃ delta : Nat → ℝ,
      (∀ i ≤ n, ∃ logt,
        Numerics.interpolate1D cfg.tAxis cfg.tData (Dbl.log10 (bwChi cfg.field (p i))) = .ok logt ∧
        delta i = bwDelta cfg.dt (bwChi cfg.field (p i)) logt (p i).energy ∧ 0 ≤ delta i) ∧
      (∀ m ≤ n, (∀ i < m, (q i).isAlive = true) →
        (p m).opticalDepth = (p 0).opticalDepth - ∑ i ∈ Finset.range m, delta i ∧
        ((q m).isAlive = false ↔
          (p 0).opticalDepth < ∑ i ∈ Finset.range (m + 1), delta i)) ∧
      ∀ i ≤ n, (q i).isAlive = true → l' i = l i ∧ r' i = r i ∧
        (q i).opticalDepth = (p i).opticalDepth - delta i := by
  have key : ∀ i, ∃ delta : ℝ, i ≤ n →
      (∃ logt,
        Numerics.interpolate1D cfg.tAxis cfg.tData (Dbl.log10 (bwChi cfg.field (p i))) = .ok logt ∧
        delta = bwDelta cfg.dt (bwChi cfg.field (p i)) logt (p i).energy ∧ 0 ≤ delta) ∧
      (((p i).opticalDepth - delta < 0 ∧ (q i).isAlive = false) ∨
       (¬ (p i).opticalDepth - delta < 0 ∧ (q i).isAlive = true ∧ l' i = l i ∧ r' i = r i ∧
         (q i).opticalDepth = (p i).opticalDepth - delta)) := by
    intro i
    by_cases hi : i ≤ n
    · rcases bw_cases (H.call i) with ⟨h, _⟩ | ⟨_, delta, logt, hl, hd, h⟩
      · rcases h with h | h
        · exact absurd (hkind i) h
        · rw [halive i hi] at h; cases h
      · refine ⟨delta, fun _ => ⟨⟨logt, hl, hd, ?_⟩, ?_⟩⟩
        · rw [hd]; exact C16_pair_increment_nonneg _ _ _ _ (hkind i) hdt
        · rcases h with ⟨h1, h2, h3, h4⟩ | ⟨h1, h2, _⟩
          · right
            exact ⟨by simpa using h1, by rw [h2]; exact halive i hi, h3, h4, by rw [h2]; rfl⟩
          · left
            exact ⟨by simpa using h1, by rw [h2]; rfl⟩
    · exact ⟨0, fun h => absurd h hi⟩
  choose delta h using key
  have hdepth : ∀ m ≤ n, (∀ i < m, (q i).isAlive = true) →
      (p m).opticalDepth = (p 0).opticalDepth - ∑ i ∈ Finset.range m, delta i := by
    intro m
    induction m with
    | zero => simp
    | succ m ih =>
      intro hm hq
      rw [H.between]
      rcases (h m (by omega)).2 with ⟨_, b⟩ | ⟨_, _, _, _, c⟩
      · rw [hq m (by omega)] at b; cases b
      · rw [c, ih (by omega) (fun i hi => hq i (by omega)), Finset.sum_range_succ]; ring
  refine ⟨delta, fun i hi => (h i hi).1, fun m hm hq => ⟨hdepth m hm hq, ?_⟩, fun i hi hq => ?_⟩
  · have hd := hdepth m hm hq
    rw [Finset.sum_range_succ]
    rcases (h m hm).2 with ⟨a, b⟩ | ⟨a, b, _⟩
    · exact ⟨fun _ => by linarith, fun _ => b⟩
    · exact ⟨fun hb => (by rw [b] at hb; cases hb), fun hlt => absurd (by linarith) a⟩
  · rcases (h i hi).2 with ⟨_, b⟩ | ⟨_, _, a, b, c⟩
    · rw [hq] at b; cases b
    · exact ⟨a, b, c⟩

/-- Nothing but the process a depth belongs to changes it: not a push, not continuous
emission, not pair production for a lepton, not stochastic emission for a massless
particle. -/
theorem C16_depth_kept {D : Type} [Dbl D] (push : PushMom D) (field : Field D) (dt : D)
    (p : Particle D) :
    (pushParticle push field dt p).opticalDepth = p.opticalDepth ∧
    ∀ (proc : Proc D) (l l' : PList D) (r r' : Rng D) (p' : Particle D),
      proc.interact p l r = .ok (p', l', r') →
      (match proc with
        | .continuous _ _ => True
        | .breitWheeler _ => p.kind ≠ .photon
        | .stochastic _ => (p.mass ==. Dbl.lit 0) = true) →
      p'.opticalDepth = p.opticalDepth := by
  refine ⟨(push_identity push field dt p).2.2.2.2.2.2, ?_⟩
  intro proc l l' r r' p' h hk
  cases proc with
  | stochastic cfg =>
    rcases stochastic_cases h with ⟨_, h, _⟩ | ⟨⟨h, _⟩, _⟩
    · rw [h]
    · rw [hk] at h; cases h
  | continuous cfg c => rw [(continuous_cases h).1]
  | breitWheeler cfg =>
    rcases bw_cases h with ⟨_, h, _⟩ | ⟨⟨h, _⟩, _⟩
    · rw [h]
    · exact absurd h hk

end QED
