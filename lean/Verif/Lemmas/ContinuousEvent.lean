import Verif.Lemmas.Loop
import Verif.Lemmas.Survival
import Verif.Lemmas.Draws
import Verif.Lemmas.Families

set_option linter.unusedSectionVars false
set_option autoImplicit false

/-!
# Events with continuous emission as their only process
-/

namespace QED

open Dbl MCTools

variable {D : Type} [Dbl D]

/-- A visit pushes the particle and does nothing else to the particles that exist. -/
theorem visit_continuous {cfg : SimCfg D} (hp : ∀ proc ∈ cfg.procs, ∃ e c, proc = .continuous e c)
    {k : Nat} {l l' : PList D} {r r' : Rng D} (h : visit cfg k l r = .ok (l', r')) {i : Nat}
    {p : Particle D} (hi : l.items[i]? = some p) :
    l'.items[i]? = some (if i = k then pushParticle cfg.push cfg.field cfg.dt p else p) := by
  by_cases hik : i = k
  swap
  · obtain ⟨-, -, -, hold, -⟩ := visit_entries h
    rw [if_neg hik]
    exact (hold i p hik (List.getElem?_eq_some_iff.mp hi).1).mpr hi
  subst hik
  rw [if_pos rfl]
  unfold visit at h
  obtain ⟨p0, hp0, h⟩ := Res.bind_eq_ok.mp h
  have hp0 := PList.get_eq_ok.mp hp0
  have he : p = p0 := Option.some.inj (hi.symm.trans hp0)
  subst he
  refine interactAll_induct (procs := cfg.procs) (k := i)
    (I := fun l1 _ => l1.items[i]? = some (pushParticle cfg.push cfg.field cfg.dt p)) ?_ ?_ h
  · intro proc hproc l1 r1 q q' l2 r2 hq hI hint
    obtain ⟨e, c, rfl⟩ := hp proc hproc
    obtain ⟨new, he⟩ := interact_effect hint
    obtain ⟨hq', -⟩ := continuous_cases hint
    subst hq'
    have hlt := (List.getElem?_eq_some_iff.mp hq).1
    rw [items_after hq he, List.getElem?_append_left (by simpa using hlt), List.getElem?_set_self hlt]
    exact hq.symm.trans hI
  · rw [PList.set_items, List.getElem?_set_self (List.getElem?_eq_some_iff.mp hi).1]

/-- A time step pushes every particle once. -/
theorem timeStep_continuous {cfg : SimCfg D} (hp : ∀ proc ∈ cfg.procs, ∃ e c, proc = .continuous e c)
    {s s' : EvState D} (hcap : s.list.items.length ≤ s.list.maxParticles) (h : timeStep cfg s = .ok s')
    {i : Nat} {p : Particle D} (hi : s.list.items[i]? = some p) :
    s'.list.items[i]? = some (pushParticle cfg.push cfg.field cfg.dt p) := by
  obtain ⟨k, hk, hI⟩ := advance_index_induct
    (I := fun k l _ => l.items[i]? = some (if i < k then pushParticle cfg.push cfg.field cfg.dt p else p))
    (fun k l r l' r' _ hI hv => by
      rw [visit_continuous hp hv hI]
      by_cases h1 : i = k
      · rw [if_pos h1, if_neg (by omega), if_pos (by omega)]
      · rw [if_neg h1]
        by_cases h2 : i < k
        · rw [if_pos h2, if_pos (by omega)]
        · rw [if_neg h2, if_neg (by omega)])
    hcap (by rw [if_neg (by omega)]; exact hi) (timeStep_advance h).1
  rw [hI, if_pos]
  exact lt_of_lt_of_le (List.getElem?_eq_some_iff.mp hI).1 hk

/-- After `n` time steps every particle of the start has been pushed `n` times. -/
theorem steps_continuous {cfg : SimCfg ℝ} (hp : ∀ proc ∈ cfg.procs, ∃ e c, proc = .continuous e c)
    {s t : EvState ℝ} (hcap : s.list.items.length ≤ s.list.maxParticles) {n : Nat}
    (h : Steps cfg s n t) {i : Nat} {p : Particle ℝ} (hi : s.list.items[i]? = some p) :
    t.list.items[i]? = some (pushes cfg p n) := by
  induction h with
  | zero => exact hi
  | succ h1 h2 h3 ih =>
    rw [pushes_succ]
    have g := reach_grows h1.reach
    exact timeStep_continuous hp (by rw [g.max]; exact g.cap hcap) h3 ih

/-! ## The single steps of an event of one lepton -/

section lepton

variable {cfg : SimCfg ℝ} {e : EmissionCfg ℝ} {c : Bool}

/-- Photons are pushed and do nothing. -/
theorem visit_photon (hp : cfg.procs = [.continuous e c]) (nm : String) (mx : Nat)
    (pre ph : List (Particle ℝ)) (x : Particle ℝ) (r : Rng ℝ) (hx : x.mass = 0) :
    visit cfg pre.length ⟨nm, mx, pre ++ x :: ph⟩ r =
      .ok (⟨nm, mx, pre ++ pushParticle cfg.push cfg.field cfg.dt x :: ph⟩, r) := by
  set y := pushParticle cfg.push cfg.field cfg.dt x with hy
  have hm : y.mass = 0 := by
    rw [hy, (push_identity cfg.push cfg.field cfg.dt x).2.1, hx]
  have hget : ∀ z : Particle ℝ, (⟨nm, mx, pre ++ z :: ph⟩ : PList ℝ).get pre.length = .ok z := by
    intro z
    rw [PList.get_eq_ok]
    simp
  have hset : ∀ z w : Particle ℝ, (⟨nm, mx, pre ++ z :: ph⟩ : PList ℝ).set pre.length w =
      ⟨nm, mx, pre ++ w :: ph⟩ := by
    intro z w
    simp [PList.set]
  unfold visit
  rw [hget, Res.ok_bind, hp]
  show interactAll _ _ ((⟨nm, mx, pre ++ x :: ph⟩ : PList ℝ).set pre.length y) r = _
  rw [hset, interactAll]
  unfold interactAt
  rw [hget, Res.ok_bind]
  have : (Proc.continuous e c).interact y ⟨nm, mx, pre ++ y :: ph⟩ r =
      .ok (y, ⟨nm, mx, pre ++ y :: ph⟩, r) := by
    show continuousInteract e c y _ r = _
    unfold continuousInteract
    rw [if_pos (by simp [hm])]
  rw [this, Res.ok_bind]
  show interactAll [] pre.length ((⟨nm, mx, pre ++ y :: ph⟩ : PList ℝ).set pre.length y) r = _
  rw [hset]
  rfl

theorem loop_photons (hp : cfg.procs = [.continuous e c]) (nm : String) (mx fuel : Nat)
    (pre ph : List (Particle ℝ)) (r : Rng ℝ) (hx : ∀ x ∈ ph, x.mass = 0) (hf : ph.length ≤ fuel) :
    particleLoop cfg fuel pre.length ⟨nm, mx, pre ++ ph⟩ r =
      .ok (⟨nm, mx, pre ++ ph.map (pushParticle cfg.push cfg.field cfg.dt)⟩, r) := by
  induction fuel generalizing pre ph with
  | zero =>
    have : ph = [] := List.length_eq_zero_iff.mp (by omega)
    subst this
    rfl
  | succ fuel ih =>
    cases ph with
    | nil => rw [particleLoop, if_neg (by simp [PList.nPart])]; rfl
    | cons x ph =>
      have := ih (pre ++ [pushParticle cfg.push cfg.field cfg.dt x]) ph
        (fun z hz => hx z (by simp [hz])) (by simpa using hf)
      rw [particleLoop, if_pos (by simp [PList.nPart]),
        visit_photon hp nm mx pre ph x r (hx x (by simp)), Res.ok_bind]
      simpa using this

/-- An event whose first particle is `q` and whose other particles are the photons `ph`. -/
structure Alone (s : EvState ℝ) (q : Particle ℝ) (ph : List (Particle ℝ)) : Prop where
  items : s.list.items = q :: ph
  photons : ∀ x ∈ ph, x.mass = 0
  room : s.list.items.length ≤ s.list.maxParticles
  hists : s.hists = []

/-- A step, given what the process does. -/
theorem alone_step (hp : cfg.procs = [.continuous e c]) {s : EvState ℝ} {q : Particle ℝ}
    {ph new : List (Particle ℝ)} {r' : Rng ℝ} (hs : Alone s q ph) (hn : ∀ x ∈ new, x.mass = 0)
    (h : ∀ l : PList ℝ, continuousInteract e c (pushParticle cfg.push cfg.field cfg.dt q) l s.rng =
      .ok (pushParticle cfg.push cfg.field cfg.dt q, l.addAll new, r')) :
    ∃ s', timeStep cfg s = .ok s' ∧ s'.rng = r' ∧ s'.time = s.time + cfg.dt ∧
      s'.list.maxParticles = s.list.maxParticles ∧
      Alone s' (pushParticle cfg.push cfg.field cfg.dt q)
        ((ph ++ new.take (s.list.maxParticles - (ph.length + 1))).map
          (pushParticle cfg.push cfg.field cfg.dt)) := by
  set q' := pushParticle cfg.push cfg.field cfg.dt q with hq'
  set nm := s.list.name
  set mx := s.list.maxParticles with hmx
  have hroom : ph.length + 1 ≤ mx := by
    have := hs.room
    rwa [hs.items, List.length_cons] at this
  set ph1 := ph ++ new.take (mx - (ph.length + 1)) with hph1
  have hlist : s.list = ⟨nm, mx, q :: ph⟩ := by rw [← hs.items]
  have hadd : (⟨nm, mx, q' :: ph⟩ : PList ℝ).addAll new = ⟨nm, mx, q' :: ph1⟩ := by
    have h1 := PList.addAll_items (⟨nm, mx, q' :: ph⟩ : PList ℝ) new
    have h2 := PList.addAll_max (⟨nm, mx, q' :: ph⟩ : PList ℝ) new
    have h3 := PList.addAll_name (⟨nm, mx, q' :: ph⟩ : PList ℝ) new
    cases hx : (⟨nm, mx, q' :: ph⟩ : PList ℝ).addAll new with
    | mk a b d =>
      rw [hx] at h1 h2 h3
      simp only at h1 h2 h3
      rw [h1, h2, h3]
      rfl
  have hv : visit cfg 0 s.list s.rng = .ok (⟨nm, mx, q' :: ph1⟩, r') := by
    rw [hlist]
    unfold visit
    rw [show (⟨nm, mx, q :: ph⟩ : PList ℝ).get 0 = .ok q from rfl, Res.ok_bind, hp]
    show interactAll [.continuous e c] 0 ⟨nm, mx, q' :: ph⟩ s.rng = _
    rw [interactAll]
    have : interactAt (.continuous e c) 0 ⟨nm, mx, q' :: ph⟩ s.rng =
        .ok (⟨nm, mx, q' :: ph1⟩, r') := by
      show (continuousInteract e c q' ⟨nm, mx, q' :: ph⟩ s.rng >>= _) = _
      rw [h, Res.ok_bind, hadd]
      rfl
    rw [this, Res.ok_bind]
    rfl
  have hmass : ∀ x ∈ ph1, x.mass = 0 := by
    intro x hx
    rcases List.mem_append.mp hx with hx | hx
    · exact hs.photons x hx
    · exact hn x (List.mem_of_mem_take hx)
  have hlen : ph1.length + 1 ≤ mx := by
    rw [hph1, List.length_append, List.length_take]
    omega
  obtain ⟨f, hf⟩ := Nat.exists_eq_succ_of_ne_zero (show mx ≠ 0 by omega)
  have hadv : advance cfg s.list s.rng =
      .ok (⟨nm, mx, q' :: ph1.map (pushParticle cfg.push cfg.field cfg.dt)⟩, r') := by
    have h2 := loop_photons hp nm mx f [q'] ph1 r' hmass (by omega)
    unfold advance
    have : particleLoop cfg (f + 1) 0 s.list s.rng =
        .ok (⟨nm, mx, q' :: ph1.map (pushParticle cfg.push cfg.field cfg.dt)⟩, r') := by
      rw [particleLoop, if_pos (by simp [PList.nPart, hs.items]), hv, Res.ok_bind]
      exact h2
    rw [← this]
    congr 1
  refine ⟨_, (timeStep_nil hs.hists).mpr ⟨_, _, hadv, rfl⟩, rfl, rfl, rfl, rfl, ?_, ?_, hs.hists⟩
  · intro x hx
    obtain ⟨y, hy, rfl⟩ := List.mem_map.mp hx
    rw [(push_identity cfg.push cfg.field cfg.dt y).2.1]
    exact hmass y hy
  · simpa using hlen

/-- The photon of a step with the draws `v` (its energy) and `w` (its optical depth). -/
noncomputable def emittedPhoton (e : EmissionCfg ℝ) (logh chi : ℝ) (q : Particle ℝ) (w : ℝ) : Particle ℝ :=
  .newPhotonE (2 * chi * q.gamma / calculateEta e.field q) q.position q.direction
    (q.weight * emissionDelta e.dt (calculateEta e.field q) logh q.gamma / e.sampleFrac) q.time e.track w

theorem interact_skipped (e : EmissionCfg ℝ) (c : Bool) {q : Particle ℝ} {r : Rng ℝ} (hm : q.mass ≠ 0)
    (ha : q.isAlive = true) (hu : e.sampleFrac < r.next.1) (l : PList ℝ) :
    continuousInteract e c q l r = .ok (q, l.addAll [], r.next.2) := by
  unfold continuousInteract
  rw [if_neg (by simp [hm, ha])]
  dsimp only
  rw [if_pos (by simpa using hu)]
  rfl

theorem interact_sampled (e : EmissionCfg ℝ) (c : Bool) {q : Particle ℝ} {r : Rng ℝ} {logh chi : ℝ}
    (hm : q.mass ≠ 0) (ha : q.isAlive = true) (hu : ¬ e.sampleFrac < r.next.1)
    (hc : continuousLoghChi e c (calculateEta e.field q) r.next.2.next.1 = .ok (logh, chi)) (l : PList ℝ) :
    (e.eMin < 2 * chi * q.gamma / calculateEta e.field q → continuousInteract e c q l r =
      .ok (q, l.addAll [emittedPhoton e logh chi q r.next.2.next.2.next.1], r.next.2.next.2.next.2)) ∧
    (¬ e.eMin < 2 * chi * q.gamma / calculateEta e.field q → continuousInteract e c q l r =
      .ok (q, l.addAll [], r.next.2.next.2)) := by
  unfold continuousInteract
  rw [if_neg (by simp [hm, ha])]
  dsimp only
  rw [if_neg (by simpa using hu), hc, Res.ok_bind]
  have he : (lit 2 *. chi *. q.gamma /. calculateEta e.field q : ℝ) =
      2 * chi * q.gamma / calculateEta e.field q := by
    simp
  constructor
  · intro h
    rw [if_pos (by rw [he]; simpa using h)]
    unfold emittedPhoton
    rw [← he]
    rfl
  · intro h
    rw [if_neg (by rw [he]; simpa using h)]
    rfl

theorem pushes_first (cfg : SimCfg ℝ) (q : Particle ℝ) (k : Nat) :
    pushes cfg (pushParticle cfg.push cfg.field cfg.dt q) k = pushes cfg q (k + 1) :=
  (Function.iterate_succ_apply _ _ _).symm

theorem pushes_withDepth (cfg : SimCfg ℝ) (q : Particle ℝ) (d : ℝ) (k : Nat) :
    pushes cfg (q.withDepth d) k = (pushes cfg q k).withDepth d := by
  induction k with
  | zero => rfl
  | succ k ih => rw [pushes_succ, ih, push_withDepth, pushes_succ]

/-- The tables cover the value `eta`. -/
def Covered (e : EmissionCfg ℝ) (c : Bool) (eta : ℝ) : Prop :=
  ∀ v, ∃ x, continuousLoghChi e c eta v = .ok x

/-- A step in which the tables cover the lepton. -/
theorem alone_covered (hp : cfg.procs = [.continuous e c]) {s : EvState ℝ} {q : Particle ℝ}
    {ph : List (Particle ℝ)} (hs : Alone s q ph) (hm : q.mass ≠ 0) (ha : q.isAlive = true)
    (hc : Covered e c (calculateEta e.field (pushParticle cfg.push cfg.field cfg.dt q))) :
    ∃ s' ph', timeStep cfg s = .ok s' ∧ s'.time = s.time + cfg.dt ∧
      Alone s' (pushParticle cfg.push cfg.field cfg.dt q) ph' := by
  have hid := push_identity cfg.push cfg.field cfg.dt q
  have hm' : (pushParticle cfg.push cfg.field cfg.dt q).mass ≠ 0 := by rw [hid.2.1]; exact hm
  have ha' : (pushParticle cfg.push cfg.field cfg.dt q).isAlive = true := by
    rw [hid.2.2.2.2.2.1]; exact ha
  by_cases hu : e.sampleFrac < s.rng.next.1
  · obtain ⟨s', h1, -, h2, -, h3⟩ := alone_step hp hs (new := []) (by simp)
      (interact_skipped e c hm' ha' hu)
    exact ⟨s', _, h1, h2, h3⟩
  · obtain ⟨⟨logh, chi⟩, hx⟩ := hc s.rng.next.2.next.1
    by_cases hE : e.eMin < 2 * chi * (pushParticle cfg.push cfg.field cfg.dt q).gamma /
        calculateEta e.field (pushParticle cfg.push cfg.field cfg.dt q)
    · obtain ⟨s', h1, -, h2, -, h3⟩ := alone_step hp hs
        (new := [emittedPhoton e logh chi _ s.rng.next.2.next.2.next.1])
        (by intro x hx; rw [List.mem_singleton.mp hx]; simp [emittedPhoton, Particle.newPhotonE, Particle.new])
        (fun l => (interact_sampled e c hm' ha' hu hx l).1 hE)
      exact ⟨s', _, h1, h2, h3⟩
    · obtain ⟨s', h1, -, h2, -, h3⟩ := alone_step hp hs (new := []) (by simp)
        (fun l => (interact_sampled e c hm' ha' hu hx l).2 hE)
      exact ⟨s', _, h1, h2, h3⟩

/-- An event in which the tables cover the lepton does not leave the program. -/
theorem alone_run (hp : cfg.procs = [.continuous e c]) {s : EvState ℝ} {q : Particle ℝ}
    {ph : List (Particle ℝ)} (hs : Alone s q ph) (hm : q.mass ≠ 0) (ha : q.isAlive = true)
    (hc : ∀ k : Nat, s.time + k * cfg.dt < cfg.timeEnd →
      Covered e c (calculateEta e.field (pushes cfg q (k + 1))))
    {n : Nat} {o : Res (EvState ℝ)} (h : Run cfg s n o) : ∃ t, o = .ok t := by
  induction h generalizing q ph with
  | done _ => exact ⟨_, rfl⟩
  | @step s s' n o h1 h2 _ ih =>
    have hlt : s.time < cfg.timeEnd := by simpa using h1
    obtain ⟨s1, ph', g1, g2, g3⟩ := alone_covered hp hs hm ha (hc 0 (by simpa using hlt))
    rw [h2] at g1
    cases Res.ok.inj g1
    have hid := push_identity cfg.push cfg.field cfg.dt q
    refine ih g3 (by rw [hid.2.1]; exact hm) (by rw [hid.2.2.2.2.2.1]; exact ha) fun k hk => ?_
    rw [pushes_first]
    refine hc (k + 1) ?_
    rw [g2] at hk
    push_cast
    linarith
  | @abort s o h1 h2 h3 =>
    have hlt : s.time < cfg.timeEnd := by simpa using h1
    obtain ⟨s1, ph', g1, -, -⟩ := alone_covered hp hs hm ha (hc 0 (by simpa using hlt))
    exact absurd (h2.symm.trans g1) (h3 s1)

end lepton

end QED
