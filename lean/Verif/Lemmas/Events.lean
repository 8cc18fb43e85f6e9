import Verif.Lemmas.Sim

set_option autoImplicit false

set_option linter.unusedSectionVars false

/-! Consequences of the case analysis of the processes, for any scalars. -/

namespace QED

open MCTools

variable {D : Type} [Dbl D]

/-- What every process call does to the particle, the list and the draws. -/
structure Effect (p : Particle D) (l : PList D) (r : Rng D) (p' : Particle D) (l' : PList D)
    (r' : Rng D) (new : List (Particle D)) : Prop where
  list : l' = l.addAll new
  same : SameIdentity p p'
  draws : r'.draw = r.draw
  dead : p.isAlive = false → p' = p ∧ new = []
  /-- nothing new, a photon emitted by a massive particle, or a pair made by a dying photon -/
  kinds : (new = [] ∧ p'.isAlive = p.isAlive) ∨
    (∃ ph, new = [ph] ∧ ph.kind = .photon ∧ ph.mass = Dbl.lit 0 ∧ ph.charge = Dbl.lit 0 ∧
      (p.mass ==. Dbl.lit 0) = false ∧ p'.isAlive = p.isAlive) ∨
    (∃ pos ele, new = [pos, ele] ∧ pos.mass = Dbl.lit 1 ∧ ele.mass = Dbl.lit 1 ∧
      pos.charge = Dbl.lit 1 ∧ ele.charge = Dbl.lit (-1) ∧
      p.kind = .photon ∧ p.isAlive = true ∧ p'.isAlive = false ∧
      pos.kind = Particle.leptonKind (Dbl.lit 1 : D) ∧
      ele.kind = Particle.leptonKind (Dbl.lit (-1) : D) ∧
      pos.weight = p.weight ∧ ele.weight = p.weight)
  fresh : ∀ q ∈ new, q.time = p.time ∧ q.position = p.position ∧ q.isAlive = true ∧
    q.posHistory = [] ∧ q.momHistory = [] ∧ q.timeHistory = [] ∧ q.gammaHistory = []
  history :
    (p'.momentum = p.momentum ∧ p'.posHistory = p.posHistory ∧ p'.momHistory = p.momHistory ∧
      p'.timeHistory = p.timeHistory ∧ p'.gammaHistory = p.gammaHistory) ∨
    (∃ m, p'.momentum = m ∧
      p'.posHistory = (p.updateTrack p.position m).posHistory ∧
      p'.momHistory = (p.updateTrack p.position m).momHistory ∧
      p'.timeHistory = (p.updateTrack p.position m).timeHistory ∧
      p'.gammaHistory = (p.updateTrack p.position m).gammaHistory)

theorem SameIdentity.trans {a b c : Particle D} (h : SameIdentity a b) (h' : SameIdentity b c) :
    SameIdentity a c :=
  ⟨h'.kind.trans h.kind, h'.mass.trans h.mass, h'.charge.trans h.charge,
    h'.weight.trans h.weight, h'.time.trans h.time, h'.tracking.trans h.tracking,
    h'.position.trans h.position⟩

theorem effect_none (p : Particle D) (l : PList D) (r : Rng D) : Effect p l r p l r [] where
  list := rfl
  same := .refl p
  draws := rfl
  dead _ := ⟨rfl, rfl⟩
  kinds := Or.inl ⟨rfl, rfl⟩
  fresh := by simp
  history := Or.inl ⟨rfl, rfl, rfl, rfl, rfl⟩

/-- The recoiling lepton of stochastic emission. -/
theorem recoil_history (p : Particle D) (delta u : D) (m : V3 D) :
    let p' := ((p.updateOpticalDepth delta).updateTrack p.position m).initOpticalDepth u
    SameIdentity p p' ∧ p'.isAlive = p.isAlive ∧ p'.momentum = m ∧
      p'.posHistory = (p.updateTrack p.position m).posHistory ∧
      p'.momHistory = (p.updateTrack p.position m).momHistory ∧
      p'.timeHistory = (p.updateTrack p.position m).timeHistory ∧
      p'.gammaHistory = (p.updateTrack p.position m).gammaHistory := by
  cases h : p.tracking <;>
    simp [Particle.updateTrack, Particle.updateOpticalDepth, Particle.initOpticalDepth, h,
      Particle.gamma] <;> exact ⟨rfl, rfl, rfl, rfl, rfl, h.symm, rfl⟩

theorem interact_effect {proc : Proc D} {p : Particle D} {l : PList D} {r : Rng D}
    {p' : Particle D} {l' : PList D} {r' : Rng D} (h : proc.interact p l r = .ok (p', l', r')) :
    ∃ new, Effect p l r p' l' r' new := by
  cases proc with
  | stochastic cfg =>
    rcases stochastic_cases h with ⟨_, rfl, rfl, rfl⟩ | ⟨⟨hm, ha⟩, delta, _, h⟩
    · exact ⟨[], effect_none _ _ _⟩
    · rcases h with ⟨_, rfl, rfl, rfl⟩ | ⟨_, chi, u, uInit, _, _, _, hr, hp, hl⟩
      · exact ⟨[], { list := rfl, same := ⟨rfl, rfl, rfl, rfl, rfl, rfl, rfl⟩, draws := rfl
                     dead := fun hd => by rw [ha] at hd; cases hd
                     kinds := Or.inl ⟨rfl, rfl⟩, fresh := by simp
                     history := Or.inl ⟨rfl, rfl, rfl, rfl, rfl⟩ }⟩
      · obtain ⟨h1, h2, h3⟩ := recoil_history p delta uInit (p.momentum.sub
          (p.direction.smul (Dbl.lit 2 *. chi *. p.gamma /. calculateEta cfg.field p)))
        rcases hl with ⟨rfl, _⟩ | ⟨_, _, uPh, _, hl⟩
        · exact ⟨[], { list := rfl, same := hp ▸ h1, draws := hr
                       dead := fun hd => by rw [ha] at hd; cases hd
                       kinds := Or.inl ⟨rfl, hp ▸ h2⟩, fresh := by simp
                       history := Or.inr ⟨_, by rw [hp]; exact h3⟩ }⟩
        · refine ⟨[_], { list := hl, same := hp ▸ h1, draws := hr
                         dead := fun hd => by rw [ha] at hd; cases hd
                         kinds := Or.inr (Or.inl ⟨_, rfl, rfl, rfl, rfl, hm, hp ▸ h2⟩), fresh := ?_
                         history := Or.inr ⟨_, by rw [hp]; exact h3⟩ }⟩
          intro q hq
          simp only [List.mem_singleton] at hq
          subst hq
          exact ⟨rfl, rfl, rfl, rfl, rfl, rfl, rfl⟩
  | continuous cfg classical =>
    obtain ⟨rfl, hr, hl⟩ := continuous_cases h
    rcases hl with rfl | ⟨⟨hm, ha⟩, _, logh, chi, uPh, _, _, _, hl⟩
    · exact ⟨[], { effect_none p' l' r with draws := hr }⟩
    · refine ⟨[_], { list := hl, same := .refl _, draws := hr
                     dead := fun hd => by rw [ha] at hd; cases hd
                     kinds := Or.inr (Or.inl ⟨_, rfl, rfl, rfl, rfl, hm, rfl⟩), fresh := ?_
                     history := Or.inl ⟨rfl, rfl, rfl, rfl, rfl⟩ }⟩
      intro q hq
      simp only [List.mem_singleton] at hq
      subst hq
      exact ⟨rfl, rfl, rfl, rfl, rfl, rfl, rfl⟩
  | breitWheeler cfg =>
    rcases bw_cases h with ⟨_, rfl, rfl, rfl⟩ | ⟨⟨hk, ha⟩, delta, logt, _, _, h⟩
    · exact ⟨[], effect_none _ _ _⟩
    · rcases h with ⟨_, rfl, rfl, rfl⟩ | ⟨_, rfl, hr, split, uPos, uEle, _, _, _, hl⟩
      · exact ⟨[], { list := rfl, same := ⟨rfl, rfl, rfl, rfl, rfl, rfl, rfl⟩, draws := rfl
                     dead := fun hd => by rw [ha] at hd; cases hd
                     kinds := Or.inl ⟨rfl, rfl⟩, fresh := by simp
                     history := Or.inl ⟨rfl, rfl, rfl, rfl, rfl⟩ }⟩
      · refine ⟨[_, _], { list := hl, same := ⟨rfl, rfl, rfl, rfl, rfl, rfl, rfl⟩, draws := hr
                          dead := fun hd => by rw [ha] at hd; cases hd
                          kinds := Or.inr (Or.inr ⟨_, _, rfl, rfl, rfl, rfl, rfl, hk, ha, rfl,
                            rfl, rfl, rfl, rfl⟩)
                          fresh := ?_, history := Or.inl ⟨rfl, rfl, rfl, rfl, rfl⟩ }⟩
        intro q hq
        simp only [List.mem_cons, List.not_mem_nil, or_false] at hq
        rcases hq with rfl | rfl <;> exact ⟨rfl, rfl, rfl, rfl, rfl, rfl, rfl⟩

/-- What a push does, apart from the motion. -/
theorem push_effect (push : PushMom D) (field : Field D) (dt : D) (p : Particle D) :
    (p.isAlive = false ∧ pushParticle push field dt p = p) ∨
    (p.isAlive = true ∧ ∃ x m, pushParticle push field dt p = (p.updateTrack x m).updateTime dt) := by
  unfold pushParticle
  cases h : p.isAlive
  · exact Or.inl ⟨rfl, by simp⟩
  · right
    refine ⟨rfl, ?_⟩
    simp only [Bool.true_eq_false, if_false]
    split
    · exact ⟨_, _, rfl⟩
    · exact ⟨_, _, rfl⟩

theorem push_identity (push : PushMom D) (field : Field D) (dt : D) (p : Particle D) :
    let q := pushParticle push field dt p
    q.kind = p.kind ∧ q.mass = p.mass ∧ q.charge = p.charge ∧ q.weight = p.weight ∧
      q.tracking = p.tracking ∧ q.isAlive = p.isAlive ∧ q.opticalDepth = p.opticalDepth := by
  rcases push_effect push field dt p with ⟨_, h⟩ | ⟨_, x, m, h⟩ <;> rw [h]
  · simp
  · cases ht : p.tracking <;> simp [Particle.updateTime, Particle.updateTrack, ht]

theorem push_time (push : PushMom D) (field : Field D) (dt : D) (p : Particle D)
    (h : p.isAlive = true) : (pushParticle push field dt p).time = p.time +. dt := by
  rcases push_effect push field dt p with ⟨h', _⟩ | ⟨_, x, m, h'⟩
  · rw [h] at h'; cases h'
  · rw [h']; cases ht : p.tracking <;> simp [Particle.updateTime, Particle.updateTrack, ht]

/-! ## Items after an operation -/

/-- The list after a process call on particle `k`, entry by entry. -/
theorem items_after {l : PList D} {k : Nat} {p p' : Particle D} {l' : PList D} {r r' : Rng D}
    {new : List (Particle D)} (hk : l.items[k]? = some p) (he : Effect p l r p' l' r' new) :
    (l'.set k p').items =
      l.items.set k p' ++ new.take (l.maxParticles - l.items.length) := by
  have hlt : k < l.items.length := by
    rw [List.getElem?_eq_some_iff] at hk; exact hk.1
  rw [PList.set_items, he.list, PList.addAll_items, List.set_append_left _ _ hlt]

theorem mem_items_after {l : PList D} {k : Nat} {p p' : Particle D} {l' : PList D} {r r' : Rng D}
    {new : List (Particle D)} (hk : l.items[k]? = some p) (he : Effect p l r p' l' r' new)
    {q : Particle D} (hq : q ∈ (l'.set k p').items) : q ∈ l.items ∨ q = p' ∨ q ∈ new := by
  rw [items_after hk he] at hq
  rcases List.mem_append.mp hq with h | h
  · rcases List.mem_or_eq_of_mem_set h with h | h
    · exact Or.inl h
    · exact Or.inr (Or.inl h)
  · exact Or.inr (Or.inr (List.mem_of_mem_take h))

/-- A predicate on single particles that pushes and processes keep, for old and new
particles, holds throughout an event. -/
theorem reach_forall {cfg : SimCfg D} {P : Particle D → Prop}
    (hpush : ∀ p, P p → P (pushParticle cfg.push cfg.field cfg.dt p))
    (hproc : ∀ proc ∈ cfg.procs, ∀ p l r p' l' r' new, P p → Effect p l r p' l' r' new →
      proc.interact p l r = .ok (p', l', r') → P p' ∧ ∀ q ∈ new, P q)
    {s s' : EvState D} (hr : Reach cfg s s') (hI : ∀ p ∈ s.list.items, P p) :
    ∀ p ∈ s'.list.items, P p := by
  refine reach_induct (I := fun l _ => ∀ p ∈ l.items, P p) ?_ ?_ hr hI
  · intro k l r p hk hI q hq
    rw [PList.set_items] at hq
    rcases List.mem_or_eq_of_mem_set hq with h | h
    · exact hI q h
    · rw [h]; exact hpush p (hI p (List.mem_of_getElem? hk))
  · intro proc hm k l r p p' l' r' hk hI hint q hq
    obtain ⟨new, he⟩ := interact_effect hint
    have := hproc proc hm p l r p' l' r' new (hI p (List.mem_of_getElem? hk)) he hint
    rcases mem_items_after hk he hq with h | h | h
    · exact hI q h
    · rw [h]; exact this.1
    · exact this.2 q h

end QED
