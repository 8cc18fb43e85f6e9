import Verif.Spec.Placement
import Verif.Props.GeantProcess
import Verif.Props.Pushers
import Verif.Lemmas.Emission

set_option autoImplicit false

/-!
# C159: where Geant4 continues after a crossing
-/

namespace QED

open Dbl MCTools G4

namespace Placement

/-- A push moves no particle by more than light would go. -/
theorem push_displacement (push : PushMom ℝ) (field : Field ℝ) {dt : ℝ} (hdt : 0 < dt) (q : Particle ℝ)
    (hq : 0 ≤ q.mass) : len ((pushParticle push field dt q).position.toVec - q.position.toVec) ≤ dt := by
  rcases ha : q.isAlive with _ | _
  · have : pushParticle push field dt q = q := by simp [pushParticle, ha]
    rw [this, sub_self]
    simpa [len] using hdt.le
  · rcases hq.lt_or_eq with hm | hm
    · rw [(pushParticle_pos push field dt q ha hm.ne').1]
      exact (rk4_displacement push field dt q.mass q.charge q.time hm hdt q.position q.momentum).le
    · have e : (pushParticle push field dt q).position =
          q.position.add (q.momentum.smul (dt / q.momentum.mag)) := by
        unfold pushParticle
        rw [if_neg (by simp [ha]), if_pos (by simp [← hm])]
        unfold Particle.updateTrack Particle.updateTime
        dsimp only
        split <;> rfl
      have e2 : (pushParticle push field dt q).position.toVec - q.position.toVec =
          (dt / q.momentum.mag) • q.momentum.toVec := by
        rw [e]
        ext i
        fin_cases i <;> simp [V3.toVec, V3.add, V3.smul]
      rw [e2, len_smul, ← mag_eq]
      by_cases h0 : q.momentum.mag = 0
      · rw [h0]; simpa using hdt.le
      · have hp : 0 < q.momentum.mag := lt_of_le_of_ne (by rw [mag_eq]; exact len_nonneg _) (Ne.symm h0)
        rw [abs_of_pos (by positivity), div_mul_cancel₀ _ h0]

theorem stepOnce_places {c : StepCfg ℝ} {s s' : StepState ℝ} (h : stepOnce c s = .ok s') :
    s'.time = s.time + c.dt ∧
    s'.part.position = (pushParticle lorentzForce c.emission.field c.dt s.part).position ∧
    s'.part.mass = s.part.mass ∧
    ∀ p ∈ s'.list.items, (∃ p0 ∈ s.list.items, p = pushParticle lorentzForce c.emission.field c.dt p0) ∨
      (p.mass = 0 ∧ p.position = (pushParticle lorentzForce c.emission.field c.dt s.part).position) := by
  unfold stepOnce at h
  dsimp only at h
  obtain ⟨⟨p', l', r'⟩, h1, h⟩ := Res.bind_eq_ok.1 h
  cases h
  have hm := (pushParticle_same lorentzForce c.emission.field c.dt s.part).1
  set q := pushParticle lorentzForce c.emission.field c.dt s.part with hq
  have hold : ∀ p ∈ (pushParticleList lorentzForce c.emission.field c.dt s.list).items,
      (∃ p0 ∈ s.list.items, p = pushParticle lorentzForce c.emission.field c.dt p0) ∨
        (p.mass = 0 ∧ p.position = q.position) := by
    intro p hp
    obtain ⟨p0, h0, rfl⟩ := List.mem_map.mp hp
    exact Or.inl ⟨p0, h0, rfl⟩
  have hpos : ∀ (y : Particle ℝ) (b : V3 ℝ), (y.updateTrack y.position b).position = y.position ∧
      (y.updateTrack y.position b).mass = y.mass := by
    intro y b
    unfold Particle.updateTrack
    split <;> exact ⟨rfl, rfl⟩
  rcases stochastic_cases h1 with ⟨-, rfl, rfl, -⟩ | ⟨-, delta, -, ⟨-, rfl, rfl, -⟩ | ⟨-, chi, u, uInit, -, -, -, -, h2⟩⟩
  · exact ⟨rfl, rfl, hm, hold⟩
  · exact ⟨rfl, rfl, hm, hold⟩
  · dsimp only at h2
    obtain ⟨rfl, h3⟩ := h2
    refine ⟨rfl, (hpos (q.updateOpticalDepth delta) _).1, (hpos (q.updateOpticalDepth delta) _).2.trans hm, ?_⟩
    rcases h3 with ⟨rfl, -⟩ | ⟨-, -, uPh, -, rfl⟩
    · exact hold
    · intro p hp
      unfold PList.add at hp
      split at hp
      · rcases List.mem_append.mp hp with hp | hp
        · exact hold p hp
        · rw [List.mem_singleton] at hp
          subst hp
          exact Or.inr ⟨by simp [Particle.newPhotonE, Particle.new], rfl⟩
      · exact hold p hp

/-- Nothing is further from the place of the beginning than light would go. -/
structure Near (x : V3 ℝ) (s : StepState ℝ) : Prop where
  mass : 0 < s.part.mass
  part : len (s.part.position.toVec - x.toVec) ≤ s.time
  photons : ∀ p ∈ s.list.items, p.mass = 0 ∧ len (p.position.toVec - x.toVec) ≤ s.time

theorem near_step {c : StepCfg ℝ} (hdt : 0 < c.dt) {x : V3 ℝ} {s s' : StepState ℝ} (hn : Near x s)
    (h : stepOnce c s = .ok s') : Near x s' := by
  obtain ⟨h1, h2, h3, h4⟩ := stepOnce_places h
  have tri : ∀ p : Particle ℝ, 0 ≤ p.mass → len (p.position.toVec - x.toVec) ≤ s.time →
      len ((pushParticle lorentzForce c.emission.field c.dt p).position.toVec - x.toVec) ≤ s'.time := by
    intro p hm hp
    have a := push_displacement lorentzForce c.emission.field hdt p hm
    have b := len_add_le ((pushParticle lorentzForce c.emission.field c.dt p).position.toVec - p.position.toVec)
      (p.position.toVec - x.toVec)
    rw [sub_add_sub_cancel] at b
    linarith
  refine ⟨h3 ▸ hn.mass, h2 ▸ tri _ hn.mass.le hn.part, fun p hp => ?_⟩
  rcases h4 p hp with ⟨p0, hp0, rfl⟩ | ⟨hm, hp⟩
  · obtain ⟨a, b⟩ := hn.photons p0 hp0
    exact ⟨(pushParticle_same _ _ _ _).1.trans a, tri _ a.ge b⟩
  · exact ⟨hm, hp ▸ tri _ hn.mass.le hn.part⟩

theorem near_steps {c : StepCfg ℝ} (hdt : 0 < c.dt) {x : V3 ℝ} {n : Nat} {s s' : StepState ℝ} (hs : G4.Steps c s n s')
    (hn : Near x s) : Near x s' := by
  induction hs with
  | done => exact hn
  | step _ h1 _ ih => exact ih (near_step hdt hn h1)

theorem steps_time {c : StepCfg ℝ} (hdt : 0 < c.dt) {n : Nat} {s s' : StepState ℝ} (hs : G4.Steps c s n s') :
    c.tEnd ≤ s'.time ∧ (s.time < c.tEnd → s'.time < c.tEnd + c.dt) ∧ s.time ≤ s'.time := by
  induction hs with
  | done h => 
    refine ⟨by simpa using h, fun h' => ?_, le_rfl⟩
    linarith
  | @step s s' s'' n h h1 _ ih =>
    have e := (stepOnce_places h1).1
    refine ⟨ih.1, fun h' => ?_, by linarith [ih.2.2]⟩
    by_cases h2 : s'.time < c.tEnd
    · exact ih.2.1 h2
    · rename_i hs'
      cases hs' with
      | done => rw [e]; linarith
      | step h3 => exact absurd (by simpa using h3) h2

theorem near_begin (t : G4.Track ℝ) (r : Rng ℝ) (hm : 0 < t.mass) :
    Near (t.position.smul (Units.unitsSI : Units.UnitsSystem ℝ).g4Length) (begin t r) := by
  have hM := MeV_pos
  refine ⟨?_, ?_, fun p hp => absurd hp (by simp [begin, PList.new])⟩
  · show 0 < (leptonOf t r.next.1).mass
    simp only [leptonOf, Particle.newLeptonE, Particle.new, g4Energy_eq, real_mul]
    positivity
  · show len ((leptonOf t r.next.1).position.toVec - _) ≤ _
    simp [leptonOf, Particle.newLeptonE, Particle.new, begin, len]

theorem free_steps {c : StepCfg ℝ} (hf : ∀ (t : ℝ) (x : V3 ℝ), c.emission.field t x = (⟨0, 0, 0⟩, ⟨0, 0, 0⟩))
    {p : Particle ℝ} (hk : p.kind ≠ .photon) (hm : 0 < p.mass) {n : Nat} {s s' : StepState ℝ} (hs : G4.Steps c s n s')
    (h : Undisturbed p s) :
    s'.part.position.toVec = s.part.position.toVec + ((s'.time - s.time) / p.energy) • p.momentum.toVec := by
  induction hs with
  | done => simp
  | @step s s1 s2 n _ h1 _ ih =>
    obtain ⟨s1', h2, h3, h4⟩ := stepOnce_free c p hm hf h
    rw [h1] at h2
    cases h2
    obtain ⟨-, hp, -, -⟩ := stepOnce_places h1
    obtain ⟨-, -, hq, -⟩ := C28_free_flight c.emission.field hf c.dt s.part h.alive (by rw [h.mass]; exact hm) h.kind 1
    simp only [Function.iterate_one, Nat.cast_one, one_mul] at hq
    have he : s.part.energy = p.energy := by
      have e1 := (C12_lepton s.part h.kind (by rw [h.mass]; exact hm)).1
      have e2 := (C12_lepton p hk hm).1
      rw [h.mass, h.momentum, ← e2] at e1
      have p1 := (C12_lepton s.part h.kind (by rw [h.mass]; exact hm)).2.1
      have p2 := (C12_lepton p hk hm).2.1
      nlinarith
    rw [ih h3, hp, hq, he, h.momentum, add_assoc, ← add_smul, h4]
    congr 2
    ring

end Placement

open Placement

/-- C159 is false of every crossing, in every field: the simulation of the crossing takes time, but the clocks of the
track and of the secondaries stay where they were. -/
theorem C159_refuted (c : StepCfg ℝ) (hdt : 0 < c.dt) (hT : 0 < c.tEnd) (t : G4.Track ℝ) (r : Rng ℝ) (clock : ℝ) {n : Nat}
    {s : StepState ℝ} (hs : G4.Steps c (begin t r) n s) :
    0 < s.time ∧ (placedOf t clock s).time = clock ∧ (∀ g ∈ (placedOf t clock s).secondaries, g.2 = clock) ∧
      ¬ Continues clock s (placedOf t clock s) := by
  have h0 : 0 < s.time := lt_of_lt_of_le hT (steps_time hdt hs).1
  refine ⟨h0, rfl, fun g hg => ?_, fun h => ?_⟩
  · obtain ⟨p, -, rfl⟩ := List.mem_map.mp hg
    rfl
  · have := h.time
    simp only [placedOf, sub_self, zero_mul] at this
    exact h0.ne this

/-- Nor does the place change: without field the lepton ends a crossing where the track began it, although its
simulation has moved it along by its velocity times the time. -/
theorem C159_place_refuted (c : StepCfg ℝ) (hdt : 0 < c.dt) (hT : 0 < c.tEnd) (t : G4.Track ℝ) (r : Rng ℝ) (hr : r.Valid)
    (hf : ∀ (t : ℝ) (x : V3 ℝ), c.emission.field t x = (⟨0, 0, 0⟩, ⟨0, 0, 0⟩)) (hm : 0 < t.mass)
    (hk : 0 < t.kinetic) (hd : t.direction.dot t.direction = 1) (clock : ℝ) {n : Nat} {s : StepState ℝ}
    (hs : G4.Steps c (begin t r) n s) :
    s.part.position.toVec = (begin t r).part.position.toVec +
      (s.time / (begin t r).part.energy) • (begin t r).part.momentum.toVec ∧
    (placedOf t clock s).position = t.position ∧ ¬ At (placedOf t clock s).position s.part.position := by
  obtain ⟨k1, k2, k3, -, -⟩ := leptonOf_spec t r.next.1 hd
  have hM := MeV_pos
  have hm' : 0 < (leptonOf t r.next.1).mass := by rw [k2]; positivity
  have h1 := free_steps hf k1 hm' hs (start_free t r hr hd)
  have e0 : (begin t r).time = 0 := by simp [begin]
  rw [e0, sub_zero] at h1
  refine ⟨h1, rfl, fun h => ?_⟩
  have hx : (begin t r).part.position = s.part.position := h
  rw [hx] at h1
  have h2 := left_eq_add.mp h1
  have hlen := congrArg len h2
  have h0 : 0 < s.time := lt_of_lt_of_le hT (steps_time hdt hs).1
  have hE := (C12_lepton _ k1 hm').2.1
  rw [len_smul, k3, ← mag_eq, V3.mag_smul, V3.mag_of_unit hd] at hlen
  have hne : |s.time / (leptonOf t r.next.1).energy| * (|t.kinetic * MeV| * 1) ≠ 0 := by positivity
  exact hne (hlen.trans (by simp [len]))

/-- C159, the part that holds: what Geant4 continues with is misplaced by no more than light goes in the time of the
crossing. Missing: that it is in its place, see `C159_refuted`. -/
theorem C159_near_partial (c : StepCfg ℝ) (hdt : 0 < c.dt) (hT : 0 < c.tEnd) (t : G4.Track ℝ) (r : Rng ℝ) (hm : 0 < t.mass)
    (clock : ℝ) {n : Nat} {s : StepState ℝ} (hs : G4.Steps c (begin t r) n s) :
    s.time < c.tEnd + c.dt ∧
    len (s.part.position.toVec -
      ((placedOf t clock s).position.smul (Units.unitsSI : Units.UnitsSystem ℝ).g4Length).toVec) ≤ s.time ∧
    List.Forall₂ (fun (g : V3 ℝ × ℝ) p => len (p.position.toVec -
      (g.1.smul (Units.unitsSI : Units.UnitsSystem ℝ).g4Length).toVec) ≤ s.time)
      (placedOf t clock s).secondaries s.list.items := by
  have hn := near_steps hdt hs (near_begin t r hm)
  refine ⟨(steps_time hdt hs).2.1 (by simpa [begin] using hT), hn.part, ?_⟩
  show List.Forall₂ _ (s.list.items.map _) s.list.items
  rw [List.forall₂_map_left_iff, List.forall₂_same]
  exact fun p hp => (hn.photons p hp).2

namespace PlacementWitness

/-- An electron of 1 GeV. -/
noncomputable def track : G4.Track ℝ := ⟨0.511, -1, 1000, ⟨1, 2, 3⟩, ⟨0, 0, 1⟩⟩

noncomputable def rng : Rng ℝ := ⟨fun _ => 1 / 2, 0⟩

/-- The tables of the emission, a region without field, and ten steps. -/
noncomputable def cfg : StepCfg ℝ :=
  ⟨{ Witness.emCfg (1 / 4) 1 10 with field := fun _ _ => (⟨0, 0, 0⟩, ⟨0, 0, 0⟩) }, 1, 10⟩

theorem valid : rng.Valid := fun i => by simp [rng]; norm_num

theorem crossing : ∃ n s, G4.Steps cfg (begin track rng) n s := by
  have hM := MeV_pos
  have hd : track.direction.dot track.direction = 1 := by simp [track, V3.dot]
  exact steps_exist cfg (leptonOf track rng.next.1)
    (by rw [(leptonOf_spec track rng.next.1 hd).2.1]; simp only [track]; positivity) (fun _ _ => rfl) 10 _
    (start_free track rng valid hd) (by simp [cfg, begin])

end PlacementWitness

open PlacementWitness in
/-- The electron continues neither where nor when it should. -/
example : ∃ n s, G4.Steps cfg (begin track rng) n s ∧ 10 ≤ s.time ∧ s.time < 11 ∧
    ¬ At (placedOf track 5 s).position s.part.position ∧ ¬ Continues 5 s (placedOf track 5 s) ∧
    len (s.part.position.toVec -
      ((placedOf track 5 s).position.smul (Units.unitsSI : Units.UnitsSystem ℝ).g4Length).toVec) ≤ s.time := by
  obtain ⟨n, s, hs⟩ := crossing
  have hdt : 0 < cfg.dt := by simp [cfg]
  have hT : 0 < cfg.tEnd := by simp [cfg]
  have hm : 0 < track.mass := by norm_num [track]
  obtain ⟨h1, h2, -⟩ := C159_near_partial cfg hdt hT track rng hm 5 hs
  have h3 := (steps_time hdt hs).1
  refine ⟨n, s, hs, h3, by norm_num [cfg] at h1; exact h1, ?_, (C159_refuted cfg hdt hT track rng 5 hs).2.2.2, h2⟩
  exact (C159_place_refuted cfg hdt hT track rng valid (fun _ _ => rfl) hm (by norm_num [track])
    (by simp [track, V3.dot]) 5 hs).2.2

end QED
