import Verif.Model.Sim

set_option autoImplicit false

/-! Helper lemmas about processes, particle lists and the event loop, for any scalars. -/

set_option linter.unusedSectionVars false

universe u

namespace QED

open MCTools

variable {D : Type} [Dbl D]

namespace Res

theorem bind_eq_ok {α β : Type u} {x : Res α} {f : α → Res β} {b : β} :
    (x >>= f) = .ok b ↔ ∃ a, x = .ok a ∧ f a = .ok b := by
  cases x <;> simp [Bind.bind, Res.bind]

end Res

/-! ## Particle lists -/

namespace PList

/-- Add several particles, one after the other. -/
def addAll (l : PList D) (new : List (Particle D)) : PList D := new.foldl add l

@[simp] theorem addAll_nil (l : PList D) : l.addAll [] = l := rfl
@[simp] theorem add_max (l : PList D) (p : Particle D) :
    (l.add p).maxParticles = l.maxParticles := by
  unfold add; split <;> rfl
@[simp] theorem add_name (l : PList D) (p : Particle D) : (l.add p).name = l.name := by
  unfold add; split <;> rfl
@[simp] theorem set_max (l : PList D) (i : Nat) (p : Particle D) :
    (l.set i p).maxParticles = l.maxParticles := rfl
@[simp] theorem set_items (l : PList D) (i : Nat) (p : Particle D) :
    (l.set i p).items = l.items.set i p := rfl
@[simp] theorem addAll_max (l : PList D) (new : List (Particle D)) :
    (l.addAll new).maxParticles = l.maxParticles := by
  induction new generalizing l with
  | nil => rfl
  | cons p ps ih => simp [addAll] at ih ⊢; rw [ih]; simp

theorem add_items (l : PList D) (p : Particle D) :
    (l.add p).items = l.items ++ [p].take (l.maxParticles - l.items.length) := by
  unfold add
  split
  · next h =>
    obtain ⟨k, hk⟩ : ∃ k, l.maxParticles - l.items.length = k + 1 := ⟨l.maxParticles - l.items.length - 1, by omega⟩
    simp [hk]
  · next h =>
    rw [Nat.sub_eq_zero_of_le (Nat.le_of_not_lt h)]; simp

/-- Adding appends what fits. -/
theorem addAll_items (l : PList D) (new : List (Particle D)) :
    (l.addAll new).items = l.items ++ new.take (l.maxParticles - l.items.length) := by
  induction new generalizing l with
  | nil => simp
  | cons p ps ih =>
    have := ih (l.add p)
    simp only [addAll, List.foldl_cons] at this ⊢
    rw [this, add_items, add_max]
    rcases h : l.maxParticles - l.items.length with _ | k
    · simp [h]
    · have : l.maxParticles - (l.items.length + 1) = k := by omega
      simp [this]

theorem get_eq_ok {l : PList D} {i : Nat} {p : Particle D} :
    l.get i = .ok p ↔ l.items[i]? = some p := by
  unfold get
  split
  · simp_all
  · split <;> simp_all

end PList

/-! ## What a process can do -/

/-- The changes a process may make to the particle it acts on. -/
structure SameIdentity (p p' : Particle D) : Prop where
  kind : p'.kind = p.kind
  mass : p'.mass = p.mass
  charge : p'.charge = p.charge
  weight : p'.weight = p.weight
  time : p'.time = p.time
  tracking : p'.tracking = p.tracking
  position : p'.position = p.position

theorem SameIdentity.refl (p : Particle D) : SameIdentity p p := ⟨rfl, rfl, rfl, rfl, rfl, rfl, rfl⟩

theorem updateTrack_same (p : Particle D) (m : V3 D) : SameIdentity p (p.updateTrack p.position m) := by
  unfold Particle.updateTrack
  split <;> exact ⟨rfl, rfl, rfl, rfl, rfl, rfl, rfl⟩

theorem updateTrack_alive (p : Particle D) (x m : V3 D) : (p.updateTrack x m).isAlive = p.isAlive := by
  unfold Particle.updateTrack; split <;> rfl

theorem newPhotonE_congr {e : D} {x x' d : V3 D} {w w' t t' : D} {tr : Bool} {u : D}
    (hx : x = x') (hw : w = w') (ht : t = t') :
    Particle.newPhotonE e x d w t tr u = Particle.newPhotonE e x' d w' t' tr u := by
  rw [hx, hw, ht]

/-- `Interact` of stochastic emission, spelled out. -/
theorem stochastic_cases {cfg : EmissionCfg D} {p : Particle D} {l : PList D} {r : Rng D}
    {p' : Particle D} {l' : PList D} {r' : Rng D}
    (h : stochasticInteract cfg p l r = .ok (p', l', r')) :
    ((p.mass ==. Dbl.lit 0) = true ∨ p.isAlive = false) ∧ p' = p ∧ l' = l ∧ r' = r ∨
    ((p.mass ==. Dbl.lit 0) = false ∧ p.isAlive = true) ∧ ∃ delta,
      (∃ logh, emissionLogh cfg (calculateEta cfg.field p) = .ok logh ∧
        delta = emissionDelta cfg.dt (calculateEta cfg.field p) logh p.gamma) ∧
      (((p.opticalDepth -. delta <. Dbl.lit 0) = false ∧ p' = p.updateOpticalDepth delta ∧
          l' = l ∧ r' = r) ∨
       ((p.opticalDepth -. delta <. Dbl.lit 0) = true ∧ ∃ chi u uInit,
          calculateChi cfg (calculateEta cfg.field p) u = .ok chi ∧ (∃ i, u = r.draw i) ∧
          (∃ i, uInit = r.draw i) ∧ r'.draw = r.draw ∧
          (let eta := calculateEta cfg.field p
           let gammaE := Dbl.lit 2 *. chi *. p.gamma /. eta
           let q := (p.updateOpticalDepth delta).updateTrack p.position
             (p.momentum.sub (p.direction.smul gammaE))
           p' = q.initOpticalDepth uInit ∧
           ((l' = l ∧ ((cfg.eMin <. gammaE) = false ∨
               (cfg.sampleFrac <. r.draw (r.pos + 1)) = false)) ∨
            ((cfg.eMin <. gammaE) = true ∧ (cfg.sampleFrac <. r.draw (r.pos + 1)) = true ∧
              ∃ uPh, (∃ i, uPh = r.draw i) ∧
              l' = l.add (Particle.newPhotonE gammaE p.position q.direction
                (p.weight /. cfg.sampleFrac) p.time cfg.track uPh)))))) := by
  unfold stochasticInteract at h
  by_cases h0 : (p.mass ==. Dbl.lit 0) || !p.isAlive
  · left
    rw [if_pos h0] at h
    simp only [Res.ok.injEq, Prod.mk.injEq] at h
    refine ⟨?_, h.1.symm, h.2.1.symm, h.2.2.symm⟩
    rcases Bool.or_eq_true_iff.mp h0 with a | a
    · exact Or.inl a
    · exact Or.inr (by simpa using a)
  · right
    rw [if_neg h0] at h
    simp only [Bool.or_eq_true, Bool.not_eq_true', not_or, Bool.not_eq_true,
      Bool.not_eq_false] at h0
    refine ⟨h0, ?_⟩
    rw [Res.bind_eq_ok] at h
    obtain ⟨logh, hlogh, h⟩ := h
    refine ⟨_, ⟨logh, hlogh, rfl⟩, ?_⟩
    generalize emissionDelta cfg.dt (calculateEta cfg.field p) logh p.gamma = delta at h ⊢
    by_cases h1 : (p.opticalDepth -. delta <. Dbl.lit 0) = true
    · right
      have h1' : ((p.updateOpticalDepth delta).opticalDepth <. Dbl.lit 0) = true := h1
      dsimp only at h
      rw [if_pos h1'] at h
      refine ⟨h1, ?_⟩
      rw [Res.bind_eq_ok] at h
      obtain ⟨chi, hchi, h⟩ := h
      simp only [Res.ok.injEq, Prod.mk.injEq] at h
      have hpos := updateTrack_same (p.updateOpticalDepth delta)
        (p.momentum.sub (p.direction.smul (Dbl.lit 2 *. chi *. p.gamma /. calculateEta cfg.field p)))
      unfold storePhoton at h
      split at h
      · next h2 =>
        split at h
        · next h3 =>
          refine ⟨chi, _, _, hchi, ⟨_, rfl⟩, ⟨_, rfl⟩, ?_, h.1.symm, Or.inr ⟨h2, h3, _, ⟨r.pos + 1 + 1, rfl⟩, ?_⟩⟩
          · rw [← h.2.2]; rfl
          · rw [← h.2.1]
            exact congrArg l.add (newPhotonE_congr hpos.position
              (congrArg (· /. cfg.sampleFrac) hpos.weight) hpos.time)
        · next h3 =>
          exact ⟨chi, _, _, hchi, ⟨_, rfl⟩, ⟨_, rfl⟩, by rw [← h.2.2]; rfl, h.1.symm,
            Or.inl ⟨h.2.1.symm, Or.inr (Bool.eq_false_iff.mpr h3)⟩⟩
      · next h2 =>
        exact ⟨chi, _, _, hchi, ⟨_, rfl⟩, ⟨_, rfl⟩, by rw [← h.2.2]; rfl, h.1.symm,
          Or.inl ⟨h.2.1.symm, Or.inl (Bool.eq_false_iff.mpr h2)⟩⟩
    · left
      have h1' : ¬ ((p.updateOpticalDepth delta).opticalDepth <. Dbl.lit 0) = true := h1
      dsimp only at h
      rw [if_neg h1'] at h
      simp only [Res.ok.injEq, Prod.mk.injEq] at h
      exact ⟨by simpa using h1, h.1.symm, h.2.1.symm, h.2.2.symm⟩

/-- An emission uses random draws. -/
theorem stochastic_draws {cfg : EmissionCfg D} {p : Particle D} {l : PList D} {r : Rng D}
    {p' : Particle D} {l' : PList D} {r' : Rng D} {delta : D}
    (h : stochasticInteract cfg p l r = .ok (p', l', r'))
    (h1 : (p.opticalDepth -. delta <. Dbl.lit 0) = true)
    (hd : ∃ logh, emissionLogh cfg (calculateEta cfg.field p) = .ok logh ∧
        delta = emissionDelta cfg.dt (calculateEta cfg.field p) logh p.gamma)
    (hm : (p.mass ==. Dbl.lit 0) = false) (ha : p.isAlive = true) : r'.pos ≠ r.pos := by
  obtain ⟨logh, hlogh, hd⟩ := hd
  unfold stochasticInteract at h
  rw [if_neg (by simp [hm, ha]), Res.bind_eq_ok] at h
  obtain ⟨logh', hlogh', h⟩ := h
  rw [hlogh] at hlogh'
  cases hlogh'
  rw [← hd] at h
  have h1' : ((p.updateOpticalDepth delta).opticalDepth <. Dbl.lit 0) = true := h1
  dsimp only at h
  rw [if_pos h1', Res.bind_eq_ok] at h
  obtain ⟨chi, hchi, h⟩ := h
  simp only [Res.ok.injEq, Prod.mk.injEq] at h
  rw [← h.2.2]
  unfold storePhoton
  split
  · split
    · show r.pos + 1 + 1 + 1 + 1 ≠ r.pos; omega
    · show r.pos + 1 + 1 + 1 ≠ r.pos; omega
  · show r.pos + 1 + 1 ≠ r.pos; omega

/-- `Interact` of continuous emission, spelled out. -/
theorem continuous_cases {cfg : EmissionCfg D} {classical : Bool} {p : Particle D} {l : PList D}
    {r : Rng D} {p' : Particle D} {l' : PList D} {r' : Rng D}
    (h : continuousInteract cfg classical p l r = .ok (p', l', r')) :
    p' = p ∧ r'.draw = r.draw ∧
    (l' = l ∨ ((p.mass ==. Dbl.lit 0) = false ∧ p.isAlive = true) ∧
      (cfg.sampleFrac <. r.draw r.pos) = false ∧
      ∃ logh chi uPh, (∃ i, uPh = r.draw i) ∧
        continuousLoghChi cfg classical (calculateEta cfg.field p) (r.draw (r.pos + 1)) =
          .ok (logh, chi) ∧
        let eta := calculateEta cfg.field p
        let gammaE := Dbl.lit 2 *. chi *. p.gamma /. eta
        (cfg.eMin <. gammaE) = true ∧
        l' = l.add (Particle.newPhotonE gammaE p.position p.direction
          (p.weight *. emissionDelta cfg.dt eta logh p.gamma /. cfg.sampleFrac) p.time
          cfg.track uPh)) := by
  unfold continuousInteract at h
  by_cases h0 : (p.mass ==. Dbl.lit 0) || !p.isAlive
  · rw [if_pos h0] at h
    simp only [Res.ok.injEq, Prod.mk.injEq] at h
    exact ⟨h.1.symm, by rw [← h.2.2], Or.inl h.2.1.symm⟩
  · rw [if_neg h0] at h
    simp only [Bool.or_eq_true, Bool.not_eq_true', not_or, Bool.not_eq_true,
      Bool.not_eq_false] at h0
    dsimp only at h
    split at h
    · next h1 =>
      simp only [Res.ok.injEq, Prod.mk.injEq] at h
      exact ⟨h.1.symm, by rw [← h.2.2]; rfl, Or.inl h.2.1.symm⟩
    · next h1 =>
      rw [Res.bind_eq_ok] at h
      obtain ⟨⟨logh, chi⟩, hlc, h⟩ := h
      split at h
      · next h2 =>
        simp only [Res.ok.injEq, Prod.mk.injEq] at h
        exact ⟨h.1.symm, by rw [← h.2.2]; rfl, Or.inr ⟨h0, Bool.eq_false_iff.mpr h1, logh, chi, _, ⟨_, rfl⟩,
          hlc, h2, h.2.1.symm⟩⟩
      · next h2 =>
        simp only [Res.ok.injEq, Prod.mk.injEq] at h
        exact ⟨h.1.symm, by rw [← h.2.2]; rfl, Or.inl h.2.1.symm⟩

/-- `Interact` of pair production, spelled out. -/
theorem bw_cases {cfg : BWCfg D} {p : Particle D} {l : PList D} {r : Rng D}
    {p' : Particle D} {l' : PList D} {r' : Rng D}
    (h : bwInteract cfg p l r = .ok (p', l', r')) :
    (p.kind ≠ .photon ∨ p.isAlive = false) ∧ p' = p ∧ l' = l ∧ r' = r ∨
    (p.kind = .photon ∧ p.isAlive = true) ∧ ∃ delta logt,
      Numerics.interpolate1D cfg.tAxis cfg.tData (Dbl.log10 (bwChi cfg.field p)) = .ok logt ∧
      delta = bwDelta cfg.dt (bwChi cfg.field p) logt p.energy ∧
      (((p.opticalDepth -. delta <. Dbl.lit 0) = false ∧ p' = p.updateOpticalDepth delta ∧
          l' = l ∧ r' = r) ∨
       ((p.opticalDepth -. delta <. Dbl.lit 0) = true ∧
          p' = (p.updateOpticalDepth delta).kill ∧ r'.draw = r.draw ∧
          ∃ split uPos uEle, bwSplit cfg (bwChi cfg.field p) (r.draw r.pos) = .ok split ∧
            (∃ i, uPos = r.draw i) ∧ (∃ i, uEle = r.draw i) ∧
            l' = (l.add (pairLepton (Dbl.lit 1) (split *. p.energy) p cfg.track uPos)).add
              (pairLepton (Dbl.lit (-1)) ((Dbl.lit 1 -. split) *. p.energy) p cfg.track uEle))) := by
  have htype : p.typeName ≠ "Photon" ↔ p.kind ≠ .photon := by
    unfold Particle.typeName; split <;> simp_all
  unfold bwInteract at h
  by_cases h0 : p.typeName ≠ "Photon" ∨ p.isAlive = false
  · left
    rw [if_pos h0] at h
    simp only [Res.ok.injEq, Prod.mk.injEq] at h
    exact ⟨by rwa [htype] at h0, h.1.symm, h.2.1.symm, h.2.2.symm⟩
  · right
    rw [if_neg h0] at h
    rw [htype] at h0
    refine ⟨by simpa using h0, ?_⟩
    rw [Res.bind_eq_ok] at h
    obtain ⟨logt, hlogt, h⟩ := h
    refine ⟨_, logt, hlogt, rfl, ?_⟩
    generalize bwDelta cfg.dt (bwChi cfg.field p) logt p.energy = delta at h ⊢
    dsimp only at h
    by_cases h1 : (p.opticalDepth -. delta <. Dbl.lit 0) = true
    · right
      have h1' : ((p.updateOpticalDepth delta).opticalDepth <. Dbl.lit 0) = true := h1
      rw [if_pos h1', Res.bind_eq_ok] at h
      obtain ⟨split, hsplit, h⟩ := h
      simp only [Res.ok.injEq, Prod.mk.injEq] at h
      exact ⟨h1, h.1.symm, by rw [← h.2.2]; rfl, split, _, _, hsplit, ⟨r.pos + 1, rfl⟩,
        ⟨r.pos + 1 + 1, rfl⟩, h.2.1.symm⟩
    · left
      have h1' : ¬ ((p.updateOpticalDepth delta).opticalDepth <. Dbl.lit 0) = true := h1
      rw [if_neg h1'] at h
      simp only [Res.ok.injEq, Prod.mk.injEq] at h
      exact ⟨Bool.eq_false_iff.mpr h1, h.1.symm, h.2.1.symm, h.2.2.symm⟩

/-! ## Induction over the event loop -/

/-- To show that `I` survives one pass over all particles, show that it survives a
push and each process, at any index. -/
theorem interactAll_induct {procs : List (Proc D)} {I : PList D → Rng D → Prop} {k : Nat}
    (hproc : ∀ proc ∈ procs, ∀ l r p p' l' r', l.items[k]? = some p → I l r →
      proc.interact p l r = .ok (p', l', r') → I (l'.set k p') r') :
    ∀ {l r l' r'}, I l r → interactAll procs k l r = .ok (l', r') → I l' r' := by
  induction procs with
  | nil =>
    intro l r l' r' hI h
    simp only [interactAll, Res.ok.injEq, Prod.mk.injEq] at h
    rw [← h.1, ← h.2]; exact hI
  | cons proc rest ih =>
    intro l r l' r' hI h
    simp only [interactAll] at h
    rw [Res.bind_eq_ok] at h
    obtain ⟨⟨l1, r1⟩, h1, h⟩ := h
    refine ih (fun pr hpr => hproc pr (List.mem_cons_of_mem _ hpr)) ?_ h
    unfold interactAt at h1
    rw [Res.bind_eq_ok] at h1
    obtain ⟨p, hp, h1⟩ := h1
    rw [Res.bind_eq_ok] at h1
    obtain ⟨⟨p', l2, r2⟩, h2, h1⟩ := h1
    simp only [Res.ok.injEq, Prod.mk.injEq] at h1
    rw [← h1.1, ← h1.2]
    exact hproc proc List.mem_cons_self l r p p' l2 r2 (PList.get_eq_ok.mp hp) hI h2

theorem visit_induct {cfg : SimCfg D} {I : PList D → Rng D → Prop} {k : Nat}
    (hpush : ∀ l r p, l.items[k]? = some p → I l r →
      I (l.set k (pushParticle cfg.push cfg.field cfg.dt p)) r)
    (hproc : ∀ proc ∈ cfg.procs, ∀ l r p p' l' r', l.items[k]? = some p → I l r →
      proc.interact p l r = .ok (p', l', r') → I (l'.set k p') r')
    {l r l' r'} (hI : I l r) (h : visit cfg k l r = .ok (l', r')) : I l' r' := by
  unfold visit at h
  rw [Res.bind_eq_ok] at h
  obtain ⟨p, hp, h⟩ := h
  exact interactAll_induct hproc (hpush l r p (PList.get_eq_ok.mp hp) hI) h

theorem particleLoop_induct {cfg : SimCfg D} {I : PList D → Rng D → Prop}
    (hpush : ∀ k l r p, l.items[k]? = some p → I l r →
      I (l.set k (pushParticle cfg.push cfg.field cfg.dt p)) r)
    (hproc : ∀ proc ∈ cfg.procs, ∀ k l r p p' l' r', l.items[k]? = some p → I l r →
      proc.interact p l r = .ok (p', l', r') → I (l'.set k p') r') :
    ∀ {fuel k l r l' r'}, I l r → particleLoop cfg fuel k l r = .ok (l', r') → I l' r' := by
  intro fuel
  induction fuel with
  | zero =>
    intro k l r l' r' hI h
    simp only [particleLoop, Res.ok.injEq, Prod.mk.injEq] at h
    rw [← h.1, ← h.2]; exact hI
  | succ fuel ih =>
    intro k l r l' r' hI h
    rw [particleLoop] at h
    split at h
    · rw [Res.bind_eq_ok] at h
      obtain ⟨⟨l1, r1⟩, h1, h⟩ := h
      exact ih (visit_induct (fun l r p => hpush k l r p)
        (fun proc hm l r p p' l' r' => hproc proc hm k l r p p' l' r') hI h1) h
    · simp only [Res.ok.injEq, Prod.mk.injEq] at h
      rw [← h.1, ← h.2]; exact hI

theorem advance_induct {cfg : SimCfg D} {I : PList D → Rng D → Prop}
    (hpush : ∀ k l r p, l.items[k]? = some p → I l r →
      I (l.set k (pushParticle cfg.push cfg.field cfg.dt p)) r)
    (hproc : ∀ proc ∈ cfg.procs, ∀ k l r p p' l' r', l.items[k]? = some p → I l r →
      proc.interact p l r = .ok (p', l', r') → I (l'.set k p') r')
    {l r l' r'} (hI : I l r) (h : advance cfg l r = .ok (l', r')) : I l' r' :=
  particleLoop_induct hpush hproc hI h

/-- The histogram check touches only histograms. -/
theorem histStep_list {s s' : EvState D} (h : histStep s = .ok s') :
    s'.list = s.list ∧ s'.rng = s.rng ∧ s'.time = s.time := by
  unfold histStep at h
  split at h
  · simp only [Res.ok.injEq] at h; subst h; exact ⟨rfl, rfl, rfl⟩
  · split at h
    · rw [Res.bind_eq_ok] at h
      obtain ⟨_, _, h⟩ := h
      simp only [Res.ok.injEq] at h; subst h; exact ⟨rfl, rfl, rfl⟩
    · simp only [Res.ok.injEq] at h; subst h; exact ⟨rfl, rfl, rfl⟩

theorem timeStep_advance {cfg : SimCfg D} {s s' : EvState D} (h : timeStep cfg s = .ok s') :
    advance cfg s.list s.rng = .ok (s'.list, s'.rng) ∧ s'.time = s.time +. cfg.dt := by
  unfold timeStep at h
  rw [Res.bind_eq_ok] at h
  obtain ⟨s1, h1, h⟩ := h
  obtain ⟨e1, e2, e3⟩ := histStep_list h1
  rw [Res.bind_eq_ok] at h
  obtain ⟨⟨l, r⟩, h2, h⟩ := h
  simp only [Res.ok.injEq] at h
  subst h
  rw [e1, e2] at h2
  exact ⟨h2, by rw [e3]⟩

/-- States the time loop passes through. -/
inductive Reach (cfg : SimCfg D) (s : EvState D) : EvState D → Prop
  | refl : Reach cfg s s
  | step {s' s''} : Reach cfg s s' → timeStep cfg s' = .ok s'' → Reach cfg s s''

theorem Reach.trans {cfg : SimCfg D} {s t u : EvState D} (h : Reach cfg s t) (h' : Reach cfg t u) :
    Reach cfg s u := by
  induction h' with
  | refl => exact h
  | step _ h2 ih => exact .step ih h2

theorem Run.reach {cfg : SimCfg D} {s s' : EvState D} {n : Nat} (h : Run cfg s n (.ok s')) :
    Reach cfg s s' := by
  generalize ho : (Res.ok s' : Res (EvState D)) = o at h
  induction h with
  | done _ => cases ho; exact .refl
  | step _ h2 _ ih => exact (Reach.step .refl h2).trans (ih ho)
  | abort _ _ h3 => exact absurd ho.symm (h3 _)

theorem reach_induct {cfg : SimCfg D} {I : PList D → Rng D → Prop}
    (hpush : ∀ k l r p, l.items[k]? = some p → I l r →
      I (l.set k (pushParticle cfg.push cfg.field cfg.dt p)) r)
    (hproc : ∀ proc ∈ cfg.procs, ∀ k l r p p' l' r', l.items[k]? = some p → I l r →
      proc.interact p l r = .ok (p', l', r') → I (l'.set k p') r')
    {s s' : EvState D} (hr : Reach cfg s s') (hI : I s.list s.rng) : I s'.list s'.rng := by
  induction hr with
  | refl => exact hI
  | step _ h2 ih => exact advance_induct hpush hproc ih (timeStep_advance h2).1

/-- The executable loop and the relation agree. -/
theorem timeLoop_iff_run (cfg : SimCfg D) (s : EvState D) (o : Res (EvState D)) :
    (∃ fuel, timeLoop cfg fuel s = some o) ↔ ∃ n, Run cfg s n o := by
  constructor
  · rintro ⟨fuel, h⟩
    induction fuel generalizing s with
    | zero =>
      simp only [timeLoop] at h
      split at h
      · simp at h
      · next h' => cases h; exact ⟨0, .done (by simpa using h')⟩
    | succ fuel ih =>
      simp only [timeLoop] at h
      split at h
      · next h' =>
        split at h
        · next s' hs =>
          obtain ⟨n, hn⟩ := ih s' h
          exact ⟨n + 1, .step h' hs hn⟩
        all_goals (next hs => cases h; exact ⟨1, .abort h' hs (by simp)⟩)
      · next h' => cases h; exact ⟨0, .done (by simpa using h')⟩
  · rintro ⟨n, h⟩
    refine ⟨n, ?_⟩
    induction h with
    | done h => simp [timeLoop, h]
    | step h1 h2 _ ih => simp [timeLoop, h1, h2, ih]
    | @abort s o h1 h2 h3 =>
      simp only [timeLoop, h1, if_true, h2]
      cases o with
      | ok a => exact absurd rfl (h3 a)
      | _ => rfl

end QED
