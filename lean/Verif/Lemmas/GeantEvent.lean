import Verif.Model.Geant
import Verif.Lemmas.Sim

set_option linter.unusedSectionVars false
set_option autoImplicit false

/-!
The loop of the Geant4 process, turn by turn beside the time loop of the program.
-/

namespace QED
namespace G4

open Dbl MCTools G4

variable {D : Type} [Dbl D]

/-- Emission does not look at the list. -/
theorem stochastic_lists {cfg : EmissionCfg D} {p : Particle D} {l : PList D} {r : Rng D} {p' : Particle D}
    {l' : PList D} {r' : Rng D} (h : stochasticInteract cfg p l r = .ok (p', l', r')) :
    ∃ new : List (Particle D), (∀ q ∈ new, q.kind = .photon ∧ q.mass = lit 0) ∧ l' = l.addAll new ∧
      ∀ l2, stochasticInteract cfg p l2 r = .ok (p', l2.addAll new, r') := by
  unfold stochasticInteract at h ⊢
  by_cases h0 : ((p.mass ==. lit 0) || !p.isAlive) = true
  · rw [if_pos h0] at h
    simp only [if_pos h0]
    simp only [Res.ok.injEq, Prod.mk.injEq] at h
    obtain ⟨rfl, rfl, rfl⟩ := h
    exact ⟨[], by simp, rfl, fun l2 => rfl⟩
  · rw [if_neg h0, Res.bind_eq_ok] at h
    simp only [if_neg h0]
    obtain ⟨logh, hl, h⟩ := h
    simp only [hl, Res.ok_bind]
    dsimp only at h
    split at h
    · next h1 =>
      simp only [if_pos h1]
      rw [Res.bind_eq_ok] at h
      obtain ⟨chi, hc, h⟩ := h
      simp only [hc, Res.ok_bind]
      unfold storePhoton at h ⊢
      by_cases h2 : (cfg.eMin <. lit 2 *. chi *. (p.updateOpticalDepth
          (emissionDelta cfg.dt (calculateEta cfg.field p) logh p.gamma)).gamma /. calculateEta cfg.field p) = true
      · simp only [if_pos h2] at h ⊢
        by_cases h3 : (cfg.sampleFrac <. r.next.2.next.1) = true
        · simp only [if_pos h3] at h ⊢
          simp only [Res.ok.injEq, Prod.mk.injEq] at h
          obtain ⟨rfl, rfl, rfl⟩ := h
          exact ⟨[_], by simp only [List.mem_singleton]; rintro q rfl; exact ⟨rfl, rfl⟩, rfl, fun l2 => rfl⟩
        · simp only [if_neg h3] at h ⊢
          simp only [Res.ok.injEq, Prod.mk.injEq] at h
          obtain ⟨rfl, rfl, rfl⟩ := h
          exact ⟨[], by simp, rfl, fun l2 => rfl⟩
      · simp only [if_neg h2] at h ⊢
        simp only [Res.ok.injEq, Prod.mk.injEq] at h
        obtain ⟨rfl, rfl, rfl⟩ := h
        exact ⟨[], by simp, rfl, fun l2 => rfl⟩
    · next h1 =>
      simp only [if_neg h1]
      simp only [Res.ok.injEq, Prod.mk.injEq] at h
      obtain ⟨rfl, rfl, rfl⟩ := h
      exact ⟨[], by simp, rfl, fun l2 => rfl⟩

/-- The program with the field, step and end time of the Geant4 process and emission only. -/
def asProgram (c : StepCfg D) : SimCfg D :=
  ⟨lorentzForce, c.emission.field, c.dt, c.tEnd, [.stochastic c.emission]⟩

/-- What a photon in the list of the process shares with that in the event. -/
structure SamePhoton (a b : Particle D) : Prop where
  kind : a.kind = .photon ∧ b.kind = .photon
  mass : a.mass = lit 0 ∧ b.mass = lit 0
  momentum : a.momentum = b.momentum

theorem push_massless (hz : ((lit 0 : D) ==. lit 0) = true) (push : PushMom D) (field : Field D) (dt : D)
    {q : Particle D} (hq : q.mass = lit 0) : (pushParticle push field dt q).kind = q.kind ∧
      (pushParticle push field dt q).mass = q.mass ∧ (pushParticle push field dt q).momentum = q.momentum := by
  unfold pushParticle
  split
  · exact ⟨rfl, rfl, rfl⟩
  · rw [if_pos (by rw [hq, hz])]
    unfold Particle.updateTrack Particle.updateTime
    split <;> exact ⟨rfl, rfl, rfl⟩

theorem visit_photon (hz : ((lit 0 : D) ==. lit 0) = true) (c : StepCfg D) {k : Nat} {l : PList D} {r : Rng D}
    {q : Particle D} (hk : l.items[k]? = some q) (hq : q.mass = lit 0) :
    visit (asProgram c) k l r = .ok (l.set k (pushParticle lorentzForce c.emission.field c.dt q), r) := by
  have hk' := (List.getElem?_eq_some_iff.mp hk).1
  have hp := (push_massless hz lorentzForce c.emission.field c.dt hq).2.1.trans hq
  unfold visit
  rw [PList.get_eq_ok.mpr hk, Res.ok_bind]
  show interactAll [.stochastic c.emission] k (l.set k (pushParticle lorentzForce c.emission.field c.dt q)) r = _
  unfold interactAll interactAt
  rw [PList.get_eq_ok.mpr (by rw [PList.set_items, List.getElem?_set_self hk']), Res.ok_bind]
  have : Proc.interact (.stochastic c.emission) (pushParticle lorentzForce c.emission.field c.dt q)
      (l.set k (pushParticle lorentzForce c.emission.field c.dt q)) r =
      .ok (pushParticle lorentzForce c.emission.field c.dt q,
        l.set k (pushParticle lorentzForce c.emission.field c.dt q), r) := by
    show stochasticInteract _ _ _ _ = _
    unfold stochasticInteract
    rw [if_pos (by rw [hp, hz]; rfl)]
  rw [this, Res.ok_bind]
  show interactAll [] k _ r = _
  unfold interactAll PList.set
  rw [List.set_set]

theorem loop_photons (hz : ((lit 0 : D) ==. lit 0) = true) (c : StepCfg D) (r : Rng D) (nm : String) (mx : Nat) :
    ∀ (post pre : List (Particle D)) (fuel : Nat), post.length ≤ fuel → (∀ q ∈ post, q.mass = lit 0) →
      particleLoop (asProgram c) fuel pre.length ⟨nm, mx, pre ++ post⟩ r =
        .ok (⟨nm, mx, pre ++ post.map (pushParticle lorentzForce c.emission.field c.dt)⟩, r)
  | [], pre, 0, _, _ => by simp [particleLoop]
  | [], pre, fuel + 1, _, _ => by simp [particleLoop, PList.nPart]
  | q :: post, pre, fuel + 1, hf, hm => by
    unfold particleLoop
    rw [if_pos (by simp [PList.nPart]), visit_photon hz c (q := q) (by simp) (hm q (by simp)), Res.ok_bind]
    have := loop_photons hz c r nm mx post (pre ++ [pushParticle lorentzForce c.emission.field c.dt q]) fuel
      (by simpa using hf) (fun x hx => hm x (by simp [hx]))
    simpa [PList.set] using this

/-- The two loops are at the same point. -/
structure Twin (s : StepState D) (es : EvState D) : Prop where
  items : ∃ ps, es.list.items = s.part :: ps ∧ List.Forall₂ SamePhoton s.list.items ps
  cap : es.list.maxParticles = s.list.maxParticles + 1
  room : s.list.items.length ≤ s.list.maxParticles
  rng : es.rng = s.rng
  time : es.time = s.time
  hists : es.hists = []

theorem forall₂_append_same {α β : Type} {R : α → β → Prop} {a c : List α} {b d : List β}
    (h : List.Forall₂ R a b) (h' : List.Forall₂ R c d) : List.Forall₂ R (a ++ c) (b ++ d) := by
  induction h with
  | nil => exact h'
  | cons hx _ ih => exact .cons hx ih

theorem forall₂_self {α : Type} {R : α → α → Prop} {a : List α} (h : ∀ x ∈ a, R x x) : List.Forall₂ R a a := by
  induction a with
  | nil => exact .nil
  | cons x a ih => exact .cons (h x (by simp)) (ih fun y hy => h y (by simp [hy]))

theorem Twin.advance (hz : ((lit 0 : D) ==. lit 0) = true) (c : StepCfg D) {s s' : StepState D} {es : EvState D}
    {p' : Particle D} {l' : PList D} {r' : Rng D} (h : Twin s es)
    (hi : stochasticInteract c.emission (pushParticle lorentzForce c.emission.field c.dt s.part)
      (pushParticleList lorentzForce c.emission.field c.dt s.list) s.rng = .ok (p', l', r'))
    (hs' : s' = ⟨p', l', r', s.time +. c.dt⟩) :
    ∃ es', timeStep (asProgram c) es = .ok es' ∧ Twin s' es' := by
  obtain ⟨ps, hitems, hsame⟩ := h.items
  obtain ⟨new, hnew, hl', hall⟩ := stochastic_lists hi
  have hlen := hsame.length_eq
  set push := pushParticle lorentzForce c.emission.field c.dt with hpush
  set L : PList D := es.list.set 0 (push s.part) with hL
  have hLi : L.items = push s.part :: ps := by rw [hL, PList.set_items, hitems]; rfl
  have hLm : L.maxParticles = s.list.maxParticles + 1 := h.cap
  have hvis : visit (asProgram c) 0 es.list es.rng =
      .ok ((L.addAll new).set 0 p', r') := by
    unfold visit
    rw [PList.get_eq_ok.mpr (by rw [hitems]; rfl), Res.ok_bind]
    show interactAll [.stochastic c.emission] 0 L es.rng = _
    unfold interactAll interactAt
    rw [PList.get_eq_ok.mpr (by rw [hLi]; rfl), Res.ok_bind]
    have : Proc.interact (.stochastic c.emission) (push s.part) L es.rng = .ok (p', L.addAll new, r') := by
      rw [h.rng]; exact hall L
    rw [this, Res.ok_bind]
    rfl
  have hLall : (L.addAll new).items = push s.part :: (ps ++ new.take (s.list.maxParticles - ps.length)) := by
    rw [PList.addAll_items, hLi, hLm, List.length_cons, Nat.add_sub_add_right]; rfl
  have hset : (L.addAll new).set 0 p' = ⟨(L.addAll new).name, s.list.maxParticles + 1,
      [p'] ++ (ps ++ new.take (s.list.maxParticles - ps.length))⟩ := by
    unfold PList.set
    rw [hLall, PList.addAll_max, hLm]; rfl
  have hmass : ∀ q ∈ ps ++ new.take (s.list.maxParticles - ps.length), q.mass = lit 0 := by
    intro q hq
    rcases List.mem_append.mp hq with hq | hq
    · obtain ⟨i, hi, rfl⟩ := List.getElem_of_mem hq
      exact ((List.forall₂_iff_get.mp hsame).2 i (by omega) hi).mass.2
    · exact (hnew q (List.mem_of_mem_take hq)).2
  have hbound : (ps ++ new.take (s.list.maxParticles - ps.length)).length ≤ s.list.maxParticles := by
    rw [List.length_append, List.length_take]
    have := h.room
    omega
  have hadv : QED.advance (asProgram c) es.list es.rng =
      .ok (⟨(L.addAll new).name, s.list.maxParticles + 1,
        [p'] ++ (ps ++ new.take (s.list.maxParticles - ps.length)).map push⟩, r') := by
    unfold QED.advance
    rw [h.cap]
    unfold particleLoop
    rw [if_pos (by rw [PList.nPart, hitems]; simp), hvis, Res.ok_bind, hset]
    exact loop_photons hz c r' _ _ _ [p'] _ hbound hmass
  refine ⟨{ es with list := ⟨(L.addAll new).name, s.list.maxParticles + 1,
    [p'] ++ (ps ++ new.take (s.list.maxParticles - ps.length)).map push⟩, rng := r', time := es.time +. c.dt }, ?_, ?_⟩
  · unfold timeStep
    have : histStep es = .ok es := by unfold histStep; rw [h.hists]; rfl
    rw [this, Res.ok_bind, hadv]
    rfl
  · subst hs'
    have hpl : (pushParticleList lorentzForce c.emission.field c.dt s.list).items = s.list.items.map push := rfl
    have hpm : (pushParticleList lorentzForce c.emission.field c.dt s.list).maxParticles = s.list.maxParticles := rfl
    have hli : l'.items = s.list.items.map push ++ new.take (s.list.maxParticles - ps.length) := by
      rw [hl', PList.addAll_items, hpl, hpm, List.length_map, hlen]
    have hlm : l'.maxParticles = s.list.maxParticles := by rw [hl', PList.addAll_max, hpm]
    refine ⟨⟨_, rfl, ?_⟩, ?_, ?_, rfl, ?_, h.hists⟩
    · show List.Forall₂ SamePhoton l'.items ((ps ++ new.take (s.list.maxParticles - ps.length)).map push)
      rw [hli, List.map_append]
      refine forall₂_append_same ?_ ?_
      · rw [List.forall₂_map_left_iff, List.forall₂_map_right_iff]
        refine hsame.imp fun a b hab => ?_
        obtain ⟨a1, a2, a3⟩ := push_massless hz lorentzForce c.emission.field c.dt hab.mass.1
        obtain ⟨b1, b2, b3⟩ := push_massless hz lorentzForce c.emission.field c.dt hab.mass.2
        exact ⟨⟨a1.trans hab.kind.1, b1.trans hab.kind.2⟩, ⟨a2.trans hab.mass.1, b2.trans hab.mass.2⟩,
          a3.trans (hab.momentum.trans b3.symm)⟩
      · rw [List.forall₂_map_right_iff]
        refine forall₂_self fun q hq => ?_
        obtain ⟨k1, k2⟩ := hnew q (List.mem_of_mem_take hq)
        obtain ⟨b1, b2, b3⟩ := push_massless hz lorentzForce c.emission.field c.dt k2
        exact ⟨⟨k1, b1.trans k1⟩, ⟨k2, b2.trans k2⟩, b3.symm⟩
    · show s.list.maxParticles + 1 = l'.maxParticles + 1
      rw [hlm]
    · show l'.items.length ≤ l'.maxParticles
      rw [hlm, hli, List.length_append, List.length_map, List.length_take]
      have := h.room
      omega
    · show es.time +. c.dt = s.time +. c.dt
      rw [h.time]

theorem Twin.step (hz : ((lit 0 : D) ==. lit 0) = true) (c : StepCfg D) {s s' : StepState D} {es : EvState D}
    (h : Twin s es) (hs : stepOnce c s = .ok s') : ∃ es', timeStep (asProgram c) es = .ok es' ∧ Twin s' es' := by
  unfold stepOnce at hs
  rw [Res.bind_eq_ok] at hs
  obtain ⟨⟨p', l', r'⟩, h1, h2⟩ := hs
  exact h.advance hz c h1 (Res.ok.inj h2).symm

theorem Twin.back (hz : ((lit 0 : D) ==. lit 0) = true) (c : StepCfg D) {s : StepState D} {es es' : EvState D}
    (h : Twin s es) (hs : timeStep (asProgram c) es = .ok es') : ∃ s', stepOnce c s = .ok s' ∧ Twin s' es' := by
  obtain ⟨ps, hitems, -⟩ := h.items
  have key : ∃ p' l' r', stochasticInteract c.emission (pushParticle lorentzForce c.emission.field c.dt s.part)
      (es.list.set 0 (pushParticle lorentzForce c.emission.field c.dt s.part)) s.rng = .ok (p', l', r') := by
    unfold timeStep at hs
    have : histStep es = .ok es := by unfold histStep; rw [h.hists]; rfl
    rw [this, Res.ok_bind, Res.bind_eq_ok] at hs
    obtain ⟨⟨l, r⟩, ha, -⟩ := hs
    unfold QED.advance at ha
    rw [h.cap] at ha
    unfold particleLoop at ha
    rw [if_pos (by rw [PList.nPart, hitems]; simp), Res.bind_eq_ok] at ha
    obtain ⟨⟨l1, r1⟩, hv, -⟩ := ha
    unfold visit at hv
    rw [PList.get_eq_ok.mpr (by rw [hitems]; rfl), Res.ok_bind] at hv
    unfold interactAll asProgram at hv
    dsimp only at hv
    rw [Res.bind_eq_ok] at hv
    obtain ⟨⟨l2, r2⟩, hv, -⟩ := hv
    unfold interactAt at hv
    rw [PList.get_eq_ok.mpr (by rw [PList.set_items, hitems]; rfl), Res.ok_bind, Res.bind_eq_ok] at hv
    obtain ⟨⟨p', l', r'⟩, hv, -⟩ := hv
    rw [h.rng] at hv
    exact ⟨p', l', r', hv⟩
  obtain ⟨p', l', r', hk⟩ := key
  obtain ⟨new, -, -, hall⟩ := stochastic_lists hk
  have h1 := hall (pushParticleList lorentzForce c.emission.field c.dt s.list)
  obtain ⟨es2, h2, h3⟩ := h.advance hz c h1 rfl
  obtain rfl : es2 = es' := Res.ok.inj (h2.symm.trans hs)
  refine ⟨_, ?_, h3⟩
  unfold stepOnce
  dsimp only
  rw [h1, Res.ok_bind]

theorem Twin.steps (hz : ((lit 0 : D) ==. lit 0) = true) (c : StepCfg D) {s s' : StepState D} {n : Nat}
    (hs : G4.Steps c s n s') : ∀ {es : EvState D}, Twin s es →
      ∃ es', Run (asProgram c) es n (.ok es') ∧ Twin s' es' := by
  induction hs with
  | done ht => exact fun h => ⟨_, .done (by rw [h.time]; exact ht), h⟩
  | step ht h1 _ ih =>
    intro es h
    obtain ⟨es1, h2, h3⟩ := h.step hz c h1
    obtain ⟨es', h4, h5⟩ := ih h3
    exact ⟨es', .step (by rw [h.time]; exact ht) h2 h4, h5⟩

theorem Twin.run (hz : ((lit 0 : D) ==. lit 0) = true) (c : StepCfg D) {es : EvState D} {n : Nat}
    {o : Res (EvState D)} (hr : Run (asProgram c) es n o) : ∀ {s : StepState D}, Twin s es → ∀ es', o = .ok es' →
      ∃ s', G4.Steps c s n s' ∧ Twin s' es' := by
  induction hr with
  | done ht =>
    rintro s h es' ⟨⟩
    exact ⟨s, .done (by rw [← h.time]; exact ht), h⟩
  | step ht h1 _ ih =>
    intro s h es' he
    obtain ⟨s1, h2, h3⟩ := h.back hz c h1
    obtain ⟨s', h4, h5⟩ := ih h3 es' he
    exact ⟨s', .step (by rw [← h.time]; exact ht) h2 h4, h5⟩
  | abort _ _ hno => exact fun _ es' he => absurd he (hno es')

end G4
end QED
