import Verif.Lemmas.Radiation
import Verif.Lemmas.Families
import Verif.Lemmas.Emission

set_option autoImplicit false

/-!
# The law of the emissions of a lepton: the event

An event that starts with one lepton and has stochastic emission as its only process. The
photons never draw random numbers, so the record of the event is that of the lepton.
-/

namespace QED

open MCTools

open Classical in
/-- The number of draws for the photon: none, one to reject it, two to store it. -/
noncomputable def photonDraws (e : EmissionCfg ℝ) (chi : ℝ → ℝ → ℝ) (q : Particle ℝ) (v x : ℝ) :
    Nat :=
  if e.eMin < photonEnergy e chi q v then if e.sampleFrac < x then 2 else 1 else 0

theorem photonDraws_modest (e : EmissionCfg ℝ) (chi : ℝ → ℝ → ℝ) : Modest (photonDraws e chi) := by
  intro q v
  unfold photonDraws
  by_cases h : e.eMin < photonEnergy e chi q v
  · right
    intro x
    rw [if_pos h]
    split_ifs <;> simp
  · left
    intro x
    rw [if_neg h]

/-! ## The photons do nothing -/

section photons

variable {cfg : SimCfg ℝ} {e : EmissionCfg ℝ}

theorem visit_massless (hp : cfg.procs = [.stochastic e]) (nm : String) (mx : Nat)
    (pre ph : List (Particle ℝ)) (x : Particle ℝ) (r : Rng ℝ) (hx : x.mass = 0) :
    visit cfg pre.length ⟨nm, mx, pre ++ x :: ph⟩ r =
      .ok (⟨nm, mx, pre ++ pushParticle cfg.push cfg.field cfg.dt x :: ph⟩, r) := by
  set y := pushParticle cfg.push cfg.field cfg.dt x with hy
  have hm : y.mass = 0 := by
    rw [hy, (push_identity cfg.push cfg.field cfg.dt x).2.1, hx]
  have hget : ∀ z : Particle ℝ, (⟨nm, mx, pre ++ z :: ph⟩ : PList ℝ).get pre.length = .ok z := by
    intro z
    rw [PList.get_eq_ok]
    simp
  have hset : ∀ z w : Particle ℝ, (⟨nm, mx, pre ++ z :: ph⟩ : PList ℝ).set pre.length w =
      ⟨nm, mx, pre ++ w :: ph⟩ := by
    intro z w
    simp [PList.set]
  unfold visit
  rw [hget, Res.ok_bind, hp]
  show interactAll _ _ ((⟨nm, mx, pre ++ x :: ph⟩ : PList ℝ).set pre.length y) r = _
  rw [hset, interactAll]
  unfold interactAt
  rw [hget, Res.ok_bind]
  have : (Proc.stochastic e).interact y ⟨nm, mx, pre ++ y :: ph⟩ r =
      .ok (y, ⟨nm, mx, pre ++ y :: ph⟩, r) := by
    show stochasticInteract e y _ r = _
    unfold stochasticInteract
    rw [if_pos (by simp [hm])]
  rw [this, Res.ok_bind]
  show interactAll [] pre.length ((⟨nm, mx, pre ++ y :: ph⟩ : PList ℝ).set pre.length y) r = _
  rw [hset]
  rfl

theorem loop_massless (hp : cfg.procs = [.stochastic e]) (nm : String) (mx fuel : Nat)
    (pre ph : List (Particle ℝ)) (r : Rng ℝ) (hx : ∀ x ∈ ph, x.mass = 0) :
    ∃ ph', (∀ x ∈ ph', x.mass = 0) ∧
      particleLoop cfg fuel pre.length ⟨nm, mx, pre ++ ph⟩ r = .ok (⟨nm, mx, pre ++ ph'⟩, r) := by
  induction fuel generalizing pre ph with
  | zero => exact ⟨ph, hx, rfl⟩
  | succ fuel ih =>
    cases ph with
    | nil =>
      refine ⟨[], hx, ?_⟩
      rw [particleLoop, if_neg (by simp [PList.nPart])]
    | cons x ph =>
      have hm : (pushParticle cfg.push cfg.field cfg.dt x).mass = 0 := by
        rw [(push_identity cfg.push cfg.field cfg.dt x).2.1, hx x (by simp)]
      obtain ⟨ph', h1, h2⟩ := ih (pre ++ [pushParticle cfg.push cfg.field cfg.dt x]) ph
        (fun z hz => hx z (by simp [hz]))
      refine ⟨pushParticle cfg.push cfg.field cfg.dt x :: ph', ?_, ?_⟩
      · intro z hz
        rcases List.mem_cons.mp hz with rfl | hz
        · exact hm
        · exact h1 z hz
      · rw [particleLoop, if_pos (by simp [PList.nPart]),
          visit_massless hp nm mx pre ph x r (hx x (by simp)), Res.ok_bind]
        simpa using h2

end photons

/-! ## One step -/

/-- An event whose first particle is `q` with depth `d`, the others being photons, and
whose next draws are `us`. -/
structure Lone (s : EvState ℝ) (q : Particle ℝ) (d : ℝ) (us : List ℝ) : Prop where
  items : ∃ ph, s.list.items = q.withDepth d :: ph ∧ ∀ x ∈ ph, x.mass = 0
  room : 0 < s.list.maxParticles
  draws : s.rng.Begins us
  hists : s.hists = []

theorem kicked_identity (e : EmissionCfg ℝ) (chi : ℝ → ℝ → ℝ) (q : Particle ℝ) (v : ℝ) :
    (kicked e chi q v).kind = q.kind ∧ (kicked e chi q v).mass = q.mass ∧
      (kicked e chi q v).isAlive = q.isAlive := by
  unfold kicked Particle.updateTrack
  split <;> exact ⟨rfl, rfl, rfl⟩

section step

variable {cfg : SimCfg ℝ} {e : EmissionCfg ℝ} {logh : ℝ → ℝ} {chi : ℝ → ℝ → ℝ}

theorem lone_visit (hp : cfg.procs = [.stochastic e]) (p : Particle ℝ) (nm : String) (mx : Nat)
    (ph : List (Particle ℝ)) (r : Rng ℝ) {p' : Particle ℝ} {l' : PList ℝ} {r' : Rng ℝ}
    (h : stochasticInteract e (pushParticle cfg.push cfg.field cfg.dt p)
      ⟨nm, mx, pushParticle cfg.push cfg.field cfg.dt p :: ph⟩ r = .ok (p', l', r')) :
    visit cfg 0 ⟨nm, mx, p :: ph⟩ r = .ok (l'.set 0 p', r') := by
  unfold visit
  rw [show (⟨nm, mx, p :: ph⟩ : PList ℝ).get 0 = .ok p from rfl, Res.ok_bind, hp]
  show interactAll [.stochastic e] 0 ⟨nm, mx, pushParticle cfg.push cfg.field cfg.dt p :: ph⟩ r = _
  rw [interactAll]
  have : interactAt (.stochastic e) 0 ⟨nm, mx, pushParticle cfg.push cfg.field cfg.dt p :: ph⟩ r =
      .ok (l'.set 0 p', r') := by
    show (stochasticInteract e _ _ r >>= _) = _
    rw [h, Res.ok_bind]
  rw [this, Res.ok_bind]
  rfl

/-- The rest of a step, after the visit to the lepton. -/
theorem lone_step (hp : cfg.procs = [.stochastic e]) {s : EvState ℝ} (hh : s.hists = [])
    (hroom : 0 < s.list.maxParticles) {p p' : Particle ℝ} {ph ph' : List (Particle ℝ)} {r' : Rng ℝ}
    (hi : s.list.items = p :: ph)
    (hv : visit cfg 0 s.list s.rng = .ok (⟨s.list.name, s.list.maxParticles, p' :: ph'⟩, r'))
    (hm : ∀ x ∈ ph', x.mass = 0) :
    ∃ s' ph'', timeStep cfg s = .ok s' ∧ s'.rng = r' ∧ s'.hists = [] ∧ s'.time = s.time + cfg.dt ∧
      s'.list.maxParticles = s.list.maxParticles ∧ s'.list.items = p' :: ph'' ∧
      ∀ x ∈ ph'', x.mass = 0 := by
  obtain ⟨f, hf⟩ := Nat.exists_eq_succ_of_ne_zero hroom.ne'
  obtain ⟨ph'', h1, h2⟩ := loop_massless hp s.list.name s.list.maxParticles f [p'] ph' r' hm
  have hadv : advance cfg s.list s.rng =
      .ok (⟨s.list.name, s.list.maxParticles, p' :: ph''⟩, r') := by
    unfold advance
    have : particleLoop cfg (f + 1) 0 s.list s.rng =
        .ok (⟨s.list.name, s.list.maxParticles, p' :: ph''⟩, r') := by
      rw [particleLoop, if_pos (by simp [PList.nPart, hi]), hv, Res.ok_bind]
      exact h2
    rw [← this]
    congr 1
  exact ⟨_, ph'', (timeStep_nil hh).mpr ⟨_, _, hadv, rfl⟩, rfl, hh, rfl, rfl, rfl, h1⟩

theorem lone_quiet (hp : cfg.procs = [.stochastic e]) {s : EvState ℝ}
    {q : Particle ℝ} {d : ℝ} {us : List ℝ} (hs : Lone s q d us) (hm : q.mass ≠ 0)
    (ha : q.isAlive = true)
    (hlogh : emissionLogh e (calculateEta e.field (pushParticle cfg.push cfg.field cfg.dt q)) =
      .ok (logh (calculateEta e.field (pushParticle cfg.push cfg.field cfg.dt q))))
    (hd : emissionRate e logh (pushParticle cfg.push cfg.field cfg.dt q) ≤ d) :
    ∃ s', timeStep cfg s = .ok s' ∧ s'.rng = s.rng ∧ s'.time = s.time + cfg.dt ∧
      Lone s' (pushParticle cfg.push cfg.field cfg.dt q)
        (d - emissionRate e logh (pushParticle cfg.push cfg.field cfg.dt q)) us := by
  obtain ⟨ph, hi, hph⟩ := hs.items
  have hid := push_identity cfg.push cfg.field cfg.dt q
  set q' := pushParticle cfg.push cfg.field cfg.dt q with hq'
  have hv : visit cfg 0 s.list s.rng = .ok (⟨s.list.name, s.list.maxParticles,
      q'.withDepth (d - emissionRate e logh q') :: ph⟩, s.rng) := by
    have hl : s.list = ⟨s.list.name, s.list.maxParticles, q.withDepth d :: ph⟩ := by rw [← hi]
    rw [hl]
    refine lone_visit hp (q.withDepth d) _ _ ph s.rng (p' := q'.withDepth (d - emissionRate e logh q'))
      (l' := ⟨s.list.name, s.list.maxParticles, q'.withDepth d :: ph⟩) ?_
    rw [push_withDepth, ← hq']
    unfold stochasticInteract
    rw [if_neg (by simp [Particle.withDepth, hid.2.1, hm, hid.2.2.2.2.2.1, ha])]
    dsimp only
    have hl' : emissionLogh e (calculateEta e.field (q'.withDepth d)) =
      .ok (logh (calculateEta e.field q')) := hlogh
    rw [hl', Res.ok_bind, if_neg]
    · rfl
    · show ¬ ((d -. emissionRate e logh q' <. Dbl.lit 0) = true)
      have : ¬ (d - emissionRate e logh q' < 0) := by linarith
      simpa using this
  obtain ⟨s', ph'', h1, h2, h3, h4, h5, h6, h7⟩ := lone_step hp hs.hists hs.room hi hv hph
  exact ⟨s', h1, h2, h4, ⟨ph'', h6, h7⟩, by rw [h5]; exact hs.room, by rw [h2]; exact hs.draws, h3⟩

/-- The lepton that leaves the process. -/
theorem recoiled_kicked (q : Particle ℝ) (d delta v w : ℝ) :
    (recoiled (q.withDepth d) delta (photonEnergy e chi q v)).initOpticalDepth w =
      (kicked e chi q v).withDepth (initDepth w) := by
  unfold recoiled kicked Particle.updateTrack
  cases h : q.tracking <;>
    simp [Particle.withDepth, Particle.updateOpticalDepth, Particle.initOpticalDepth, h,
      Particle.direction, Particle.gamma]

/-- What becomes of the photon. -/
theorem lone_store (p : Particle ℝ) (q : Particle ℝ) (v x y z : ℝ) (rest : List ℝ)
    (nm : String) (mx : Nat) (o : Particle ℝ) (ph : List (Particle ℝ)) (r : Rng ℝ)
    (hr : r.Begins (x :: y :: z :: rest)) (hph : ∀ x ∈ ph, x.mass = 0) :
    ∃ ph', (∀ x ∈ ph', x.mass = 0) ∧
      storePhoton e p (photonEnergy e chi q v) ⟨nm, mx, o :: ph⟩ r =
        (⟨nm, mx, o :: ph'⟩, r.skip (photonDraws e chi q v x)) := by
  have hx : r.next.1 = x := (begins_cons.mp hr).1
  unfold storePhoton photonDraws
  by_cases h1 : e.eMin < photonEnergy e chi q v
  · rw [if_pos (show (e.eMin <. photonEnergy e chi q v) = true by simpa using h1), if_pos h1, hx]
    by_cases h2 : e.sampleFrac < x
    · rw [if_pos (show (e.sampleFrac <. x) = true by simpa using h2), if_pos h2]
      set g := Particle.newPhotonE (photonEnergy e chi q v) p.position p.direction
        (p.weight /. e.sampleFrac) p.time e.track r.next.2.next.1
      by_cases h3 : (o :: ph).length < mx
      · refine ⟨ph ++ [g], ?_, ?_⟩
        · intro a ha
          rcases List.mem_append.mp ha with ha | ha
          · exact hph a ha
          · rw [List.mem_singleton.mp ha]
            simp [g, Particle.newPhotonE, Particle.new]
        · unfold PList.add
          rw [if_pos h3]
          rfl
      · refine ⟨ph, hph, ?_⟩
        unfold PList.add
        rw [if_neg h3]
        rfl
    · rw [if_neg (show ¬ (e.sampleFrac <. x) = true by simpa using h2), if_neg h2]
      exact ⟨ph, hph, rfl⟩
  · rw [if_neg (show ¬ (e.eMin <. photonEnergy e chi q v) = true by simpa using h1), if_neg h1]
    exact ⟨ph, hph, rfl⟩

theorem begins_drop {r : Rng ℝ} {us : List ℝ} (h : r.Begins us) {k : Nat} (hk : k < us.length) :
    (r.skip k).next.1 = us.getD k 0 ∧ (r.skip k).next.2.Begins (us.drop (k + 1)) := by
  have h1 : us = us.take k ++ us.getD k 0 :: us.drop (k + 1) := by
    rw [List.getD_eq_getElem?_getD, List.getElem?_eq_getElem hk, Option.getD_some,
      List.cons_getElem_drop_succ, List.take_append_drop]
  rw [h1, begins_append, begins_cons] at h
  rw [List.length_take, min_eq_left hk.le] at h
  exact h.2

theorem four_le (us : List ℝ) (h : 4 ≤ us.length) :
    ∃ v x y z rest, us = v :: x :: y :: z :: rest := by
  match us, h with
  | v :: x :: y :: z :: rest, _ => exact ⟨v, x, y, z, rest, rfl⟩

theorem lone_drawn (hp : cfg.procs = [.stochastic e]) {s : EvState ℝ}
    {q : Particle ℝ} {d : ℝ} {us : List ℝ} (hs : Lone s q d us) (hm : q.mass ≠ 0)
    (ha : q.isAlive = true) (hlen : 4 ≤ us.length)
    (hlogh : emissionLogh e (calculateEta e.field (pushParticle cfg.push cfg.field cfg.dt q)) =
      .ok (logh (calculateEta e.field (pushParticle cfg.push cfg.field cfg.dt q))))
    (hchi : calculateChi e (calculateEta e.field (pushParticle cfg.push cfg.field cfg.dt q))
      (us.headD 0) = .ok (chi (calculateEta e.field (pushParticle cfg.push cfg.field cfg.dt q))
        (us.headD 0)))
    (hd : ¬ emissionRate e logh (pushParticle cfg.push cfg.field cfg.dt q) ≤ d) :
    ∃ s', timeStep cfg s = .ok s' ∧ s.rng.pos < s'.rng.pos ∧ s.rng.next.1 = us.headD 0 ∧
      s'.time = s.time + cfg.dt ∧
      Lone s' (kicked e chi (pushParticle cfg.push cfg.field cfg.dt q) (us.headD 0))
        (initDepth (us.tail.getD (photonDraws e chi (pushParticle cfg.push cfg.field cfg.dt q)
          (us.headD 0) (us.tail.headD 0)) 0))
        (us.tail.drop (photonDraws e chi (pushParticle cfg.push cfg.field cfg.dt q)
          (us.headD 0) (us.tail.headD 0) + 1)) := by
  obtain ⟨ph, hi, hph⟩ := hs.items
  have hid := push_identity cfg.push cfg.field cfg.dt q
  set q' := pushParticle cfg.push cfg.field cfg.dt q with hq'
  obtain ⟨v, x, y, z, rest, rfl⟩ : ∃ v x y z rest, us = v :: x :: y :: z :: rest :=
    four_le us hlen
  obtain ⟨hv1, hv2⟩ := begins_cons.mp hs.draws
  simp only [List.headD_cons, List.tail_cons]
  set k := photonDraws e chi q' v x with hk
  have hk2 : k ≤ 2 := by
    rcases photonDraws_modest e chi q' v with h | h
    · rw [hk, h x]; omega
    · rcases h x with h | h <;> rw [hk, h]
      omega
  obtain ⟨hw, hrest⟩ := begins_drop hv2 (k := k) (by simp only [List.length_cons]; omega)
  have hem : Emits e (q'.withDepth d) (s.rng.draw s.rng.pos) (emissionRate e logh q')
      (photonEnergy e chi q' v) := by
    refine ⟨by simp [Particle.withDepth, hid.2.1, hm], by
      simp [Particle.withDepth, hid.2.2.2.2.2.1, ha], ⟨_, hlogh, rfl⟩, ?_, ?_⟩
    · have : d - emissionRate e logh q' < 0 := by push Not at hd; linarith
      simpa [Particle.withDepth] using this
    · refine ⟨chi (calculateEta e.field q') v, ?_, ?_⟩
      · rw [show s.rng.draw s.rng.pos = v from hv1]; exact hchi
      · simp [photonEnergy]; rfl
  obtain ⟨ph', hph', hst⟩ := lone_store (e := e) (chi := chi)
    (recoiled (q'.withDepth d) (emissionRate e logh q') (photonEnergy e chi q' v)) q' v x y z rest
    s.list.name s.list.maxParticles (q'.withDepth d) ph s.rng.next.2 hv2 hph
  have hv : visit cfg 0 s.list s.rng = .ok (⟨s.list.name, s.list.maxParticles,
      (kicked e chi q' v).withDepth (initDepth ((x :: y :: z :: rest).getD k 0)) :: ph'⟩,
      (s.rng.next.2.skip k).next.2) := by
    have hl : s.list = ⟨s.list.name, s.list.maxParticles, q.withDepth d :: ph⟩ := by rw [← hi]
    rw [hl]
    have := lone_visit hp (q.withDepth d) s.list.name s.list.maxParticles ph s.rng
      (p' := (kicked e chi q' v).withDepth (initDepth ((x :: y :: z :: rest).getD k 0)))
      (l' := ⟨s.list.name, s.list.maxParticles, q'.withDepth d :: ph'⟩)
      (r' := (s.rng.next.2.skip k).next.2) (by
        rw [push_withDepth, ← hq', stochastic_emit hem]
        dsimp only
        rw [hst]
        dsimp only
        rw [hw, recoiled_kicked])
    rw [this]
    rfl
  obtain ⟨s', ph'', h1, h2, h3, h4, h5, h6, h7⟩ := lone_step hp hs.hists hs.room hi hv hph'
  refine ⟨s', h1, ?_, hv1, h4, ⟨ph'', h6, h7⟩, by rw [h5]; exact hs.room, by rw [h2]; exact hrest, h3⟩
  rw [h2]
  simp only [Rng.next, Rng.skip]
  omega

/-! ## All steps -/

/-- The record of an event is that of the process with a depth. -/
theorem lived_iff {Q : Particle ℝ → Prop} (hp : cfg.procs = [.stochastic e])
    (hL : Lookups cfg e logh chi Q) (n : Nat) :
    ∀ (s : EvState ℝ) (q : Particle ℝ) (d : ℝ) (us : List ℝ), Lone s q d us → Q q → 0 ≤ d →
      (∀ u ∈ us, 0 ≤ u ∧ u < 1) → q.mass ≠ 0 → q.isAlive = true → 4 * n ≤ us.length → (∀ k < n, s.time + k * cfg.dt < cfg.timeEnd) →
      ∀ h, ((∃ t, Lived cfg s h t) ∧ h.length = n) ↔
        h = depths (pushParticle cfg.push cfg.field cfg.dt) (emissionRate e logh) (kicked e chi)
          (photonDraws e chi) n q d us := by
  induction n with
  | zero =>
    intro s q d us _ _ _ _ _ _ _ _ h
    constructor
    · rintro ⟨_, h0⟩
      exact List.length_eq_zero_iff.mp h0
    · rintro rfl
      exact ⟨⟨s, .nil⟩, rfl⟩
  | succ n ih =>
    intro s q d us hs hq hd0 hus hm ha hlen hend h
    have hid := push_identity cfg.push cfg.field cfg.dt q
    have htime : (s.time <. cfg.timeEnd) = true := by simpa using hend 0 (by omega)
    rw [depths]
    by_cases hd : emissionRate e logh (pushParticle cfg.push cfg.field cfg.dt q) ≤ d
    · rw [if_pos hd]
      obtain ⟨s', h1, h2, h3, h4⟩ := lone_quiet hp hs hm ha (hL.rate q hq) hd
      have key := ih s' _ _ us h4 (hL.pushed q hq) (by linarith) hus (by rw [hid.2.1]; exact hm) (by rw [hid.2.2.2.2.2.1]; exact ha)
        (by omega) (fun k hk => by
          have := hend (k + 1) (by omega)
          push_cast at this
          rw [h3]; linarith)
      constructor
      · rintro ⟨⟨t, ht⟩, hl⟩
        cases ht with
        | nil => simp at hl
        | quiet _ g1 _ g3 =>
          rw [h1] at g1
          cases Res.ok.inj g1
          rw [(key _).mp ⟨⟨t, g3⟩, by simpa using hl⟩]
        | drawn _ g1 g2 _ =>
          rw [h1] at g1
          cases Res.ok.inj g1
          rw [h2] at g2
          exact absurd g2 (lt_irrefl _)
      · rintro rfl
        obtain ⟨⟨t, ht⟩, hl⟩ := (key _).mpr rfl
        exact ⟨⟨t, .quiet htime h1 (by rw [h2]) ht⟩, by simp [hl]⟩
    · rw [if_neg hd]
      have hpos : 0 < emissionRate e logh (pushParticle cfg.push cfg.field cfg.dt q) := by
        push Not at hd; linarith
      have hv : 0 ≤ us.headD 0 ∧ us.headD 0 < 1 := by
        obtain ⟨v, x, y, z, rest, h⟩ := four_le us (by omega)
        rw [h]
        exact hus v (by simp [h])
      obtain ⟨s', h1, h2, h2', h3, h4⟩ := lone_drawn hp hs hm ha (by omega) (hL.rate q hq)
        (hL.photon q hq hpos _ hv.1 hv.2) hd
      have hk2 : photonDraws e chi (pushParticle cfg.push cfg.field cfg.dt q)
          (us.headD 0) (us.tail.headD 0) ≤ 2 := by
        rcases photonDraws_modest e chi (pushParticle cfg.push cfg.field cfg.dt q) (us.headD 0)
          with h | h
        · rw [h]; omega
        · rcases h (us.tail.headD 0) with h | h <;> rw [h]
          omega
      have hkid := kicked_identity e chi (pushParticle cfg.push cfg.field cfg.dt q) (us.headD 0)
      have hw : 0 ≤ us.tail.getD (photonDraws e chi (pushParticle cfg.push cfg.field cfg.dt q)
          (us.headD 0) (us.tail.headD 0)) 0 ∧ us.tail.getD (photonDraws e chi
            (pushParticle cfg.push cfg.field cfg.dt q) (us.headD 0) (us.tail.headD 0)) 0 < 1 := by
        have hlt : photonDraws e chi (pushParticle cfg.push cfg.field cfg.dt q)
          (us.headD 0) (us.tail.headD 0) < us.tail.length := by
            simp only [List.length_tail]; omega
        rw [List.getD_eq_getElem?_getD, List.getElem?_eq_getElem hlt, Option.getD_some]
        exact hus _ (List.mem_of_mem_tail (List.getElem_mem hlt))
      have key := ih s' _ _ _ h4 (hL.recoil q hq hpos _ hv.1 hv.2)
        (C16_initial_depth_nonneg _ hw.1 hw.2)
        (fun u hu => hus u (List.mem_of_mem_tail (List.mem_of_mem_drop hu))) (by rw [hkid.2.1, hid.2.1]; exact hm)
        (by rw [hkid.2.2, hid.2.2.2.2.2.1]; exact ha)
        (by simp only [List.length_drop, List.length_tail]; omega) (fun k hk => by
          have := hend (k + 1) (by omega)
          push_cast at this
          rw [h3]; linarith)
      constructor
      · rintro ⟨⟨t, ht⟩, hl⟩
        cases ht with
        | nil => simp at hl
        | quiet _ g1 g2 _ =>
          rw [h1] at g1
          cases Res.ok.inj g1
          rw [g2] at h2
          exact absurd h2 (lt_irrefl _)
        | drawn _ g1 g2 g3 =>
          rw [h1] at g1
          cases Res.ok.inj g1
          rw [(key _).mp ⟨⟨t, g3⟩, by simpa using hl⟩, h2']
      · rintro rfl
        obtain ⟨⟨t, ht⟩, hl⟩ := (key _).mpr rfl
        dsimp only
        refine ⟨⟨t, ?_⟩, by simp only [List.length_cons]; rw [hl]⟩
        rw [← h2'] at ht ⊢
        exact .drawn htime h1 h2 ht

/-- The lepton is where the record leads. -/
theorem lone_following {Q : Particle ℝ → Prop} (hp : cfg.procs = [.stochastic e])
    (hL : Lookups cfg e logh chi Q) {s t : EvState ℝ} {h : List (Option ℝ)}
    (hl : Lived cfg s h t) :
    ∀ (q : Particle ℝ) (d : ℝ) (us : List ℝ), Lone s q d us → Q q → 0 ≤ d →
      (∀ u ∈ us, 0 ≤ u ∧ u < 1) → q.mass ≠ 0 → q.isAlive = true → 4 * h.length ≤ us.length →
      ∃ d' us', Lone t (following (pushParticle cfg.push cfg.field cfg.dt) (kicked e chi) h q) d'
        us' := by
  induction hl with
  | nil => intro q d us hs _ _ _ _ _ _; exact ⟨d, us, hs⟩
  | @quiet s s' t h _ g1 g2 _ ih =>
    intro q d us hs hq hd0 hus hm ha hlen
    have hid := push_identity cfg.push cfg.field cfg.dt q
    rw [List.length_cons] at hlen
    by_cases hd : emissionRate e logh (pushParticle cfg.push cfg.field cfg.dt q) ≤ d
    · obtain ⟨s1, h1, h2, h3, h4⟩ := lone_quiet hp hs hm ha (hL.rate q hq) hd
      rw [g1] at h1
      cases Res.ok.inj h1
      exact ih _ _ us h4 (hL.pushed q hq) (by linarith) hus (by rw [hid.2.1]; exact hm)
        (by rw [hid.2.2.2.2.2.1]; exact ha) (by omega)
    · have hpos : 0 < emissionRate e logh (pushParticle cfg.push cfg.field cfg.dt q) := by
        push Not at hd; linarith
      have hv : 0 ≤ us.headD 0 ∧ us.headD 0 < 1 := by
        obtain ⟨v, x, y, z, rest, h⟩ := four_le us (by omega)
        rw [h]
        exact hus v (by simp [h])
      obtain ⟨s1, h1, h2, _⟩ := lone_drawn hp hs hm ha (by omega) (hL.rate q hq)
        (hL.photon q hq hpos _ hv.1 hv.2) hd
      rw [g1] at h1
      cases Res.ok.inj h1
      omega
  | @drawn s s' t h _ g1 g2 _ ih =>
    intro q d us hs hq hd0 hus hm ha hlen
    have hid := push_identity cfg.push cfg.field cfg.dt q
    rw [List.length_cons] at hlen
    by_cases hd : emissionRate e logh (pushParticle cfg.push cfg.field cfg.dt q) ≤ d
    · obtain ⟨s1, h1, h2, _⟩ := lone_quiet hp hs hm ha (hL.rate q hq) hd
      rw [g1] at h1
      cases Res.ok.inj h1
      rw [h2] at g2
      exact absurd g2 (lt_irrefl _)
    · have hpos : 0 < emissionRate e logh (pushParticle cfg.push cfg.field cfg.dt q) := by
        push Not at hd; linarith
      have hv : 0 ≤ us.headD 0 ∧ us.headD 0 < 1 := by
        obtain ⟨v, x, y, z, rest, h⟩ := four_le us (by omega)
        rw [h]
        exact hus v (by simp [h])
      obtain ⟨s1, h1, h2, h2', h3, h4⟩ := lone_drawn hp hs hm ha (by omega) (hL.rate q hq)
        (hL.photon q hq hpos _ hv.1 hv.2) hd
      rw [g1] at h1
      cases Res.ok.inj h1
      have hk2 : photonDraws e chi (pushParticle cfg.push cfg.field cfg.dt q)
          (us.headD 0) (us.tail.headD 0) ≤ 2 := by
        rcases photonDraws_modest e chi (pushParticle cfg.push cfg.field cfg.dt q) (us.headD 0)
          with h | h
        · rw [h]; omega
        · rcases h (us.tail.headD 0) with h | h <;> rw [h]
          omega
      have hkid := kicked_identity e chi (pushParticle cfg.push cfg.field cfg.dt q) (us.headD 0)
      have hw : 0 ≤ us.tail.getD (photonDraws e chi (pushParticle cfg.push cfg.field cfg.dt q)
          (us.headD 0) (us.tail.headD 0)) 0 ∧ us.tail.getD (photonDraws e chi
            (pushParticle cfg.push cfg.field cfg.dt q) (us.headD 0) (us.tail.headD 0)) 0 < 1 := by
        have hlt : photonDraws e chi (pushParticle cfg.push cfg.field cfg.dt q)
          (us.headD 0) (us.tail.headD 0) < us.tail.length := by
            simp only [List.length_tail]; omega
        rw [List.getD_eq_getElem?_getD, List.getElem?_eq_getElem hlt, Option.getD_some]
        exact hus _ (List.mem_of_mem_tail (List.getElem_mem hlt))
      rw [h2', following]
      exact ih _ _ _ h4 (hL.recoil q hq hpos _ hv.1 hv.2)
        (C16_initial_depth_nonneg _ hw.1 hw.2)
        (fun u hu => hus u (List.mem_of_mem_tail (List.mem_of_mem_drop hu)))
        (by rw [hkid.2.1, hid.2.1]; exact hm) (by rw [hkid.2.2, hid.2.2.2.2.2.1]; exact ha)
        (by simp only [List.length_drop, List.length_tail]; omega)

end step

end QED
