import Verif.Lemmas.Events

set_option linter.unusedSectionVars false
set_option autoImplicit false

/-! The particle loop visits every particle exactly once; counting time steps. -/

namespace QED

open MCTools

variable {D : Type} [Dbl D]

/-! ## Lists never outgrow their capacity -/

theorem PList.addAll_length_le (l : PList D) (new : List (Particle D))
    (h : l.items.length ≤ l.maxParticles) : (l.addAll new).items.length ≤ l.maxParticles := by
  rw [PList.addAll_items]
  simp only [List.length_append, List.length_take]
  omega

/-- What one process call does to the list. -/
theorem interactAt_effect {proc : Proc D} {k : Nat} {l l' : PList D} {r r' : Rng D}
    (h : interactAt proc k l r = .ok (l', r')) :
    ∃ p p' l1 new, l.items[k]? = some p ∧ proc.interact p l r = .ok (p', l1, r') ∧
      Effect p l r p' l1 r' new ∧ l' = l1.set k p' := by
  unfold interactAt at h
  rw [Res.bind_eq_ok] at h
  obtain ⟨p, hp, h⟩ := h
  rw [Res.bind_eq_ok] at h
  obtain ⟨⟨p', l1, r1⟩, h2, h⟩ := h
  simp only [Res.ok.injEq, Prod.mk.injEq] at h
  obtain ⟨new, he⟩ := interact_effect h2
  obtain ⟨rfl, rfl⟩ := h
  exact ⟨p, p', l1, new, PList.get_eq_ok.mp hp, h2, he, rfl⟩

/-- A visit keeps the capacity and never shortens the list. -/
structure Grows (l l' : PList D) : Prop where
  max : l'.maxParticles = l.maxParticles
  length : l.items.length ≤ l'.items.length
  cap : l.items.length ≤ l.maxParticles → l'.items.length ≤ l.maxParticles

theorem Grows.refl (l : PList D) : Grows l l := ⟨rfl, le_refl _, id⟩

theorem Grows.trans {a b c : PList D} (h : Grows a b) (h' : Grows b c) : Grows a c :=
  ⟨h'.max.trans h.max, h.length.trans h'.length, fun hc => by
    have := h'.cap (by rw [h.max]; exact h.cap hc)
    rwa [h.max] at this⟩

theorem interactAt_grows {proc : Proc D} {k : Nat} {l l' : PList D} {r r' : Rng D}
    (h : interactAt proc k l r = .ok (l', r')) : Grows l l' := by
  obtain ⟨p, p', l1, new, hk, _, he, rfl⟩ := interactAt_effect h
  refine ⟨?_, ?_, fun hc => ?_⟩
  · rw [PList.set_max, he.list, PList.addAll_max]
  · rw [items_after hk he]; simp
  · have := PList.addAll_length_le l new hc
    rw [PList.set_items, List.length_set, he.list]; exact this

theorem interactAll_grows {procs : List (Proc D)} {k : Nat} {l l' : PList D} {r r' : Rng D}
    (h : interactAll procs k l r = .ok (l', r')) : Grows l l' := by
  induction procs generalizing l r with
  | nil =>
    simp only [interactAll, Res.ok.injEq, Prod.mk.injEq] at h
    rw [← h.1]; exact .refl _
  | cons proc rest ih =>
    simp only [interactAll] at h
    rw [Res.bind_eq_ok] at h
    obtain ⟨⟨l1, r1⟩, h1, h⟩ := h
    exact (interactAt_grows h1).trans (ih h)

theorem visit_grows {cfg : SimCfg D} {k : Nat} {l l' : PList D} {r r' : Rng D}
    (h : visit cfg k l r = .ok (l', r')) : Grows l l' := by
  unfold visit at h
  rw [Res.bind_eq_ok] at h
  obtain ⟨p, hp, h⟩ := h
  obtain ⟨a, b, c⟩ := interactAll_grows h
  exact ⟨by simpa using a, by simpa using b, by simpa using c⟩

theorem particleLoop_grows {cfg : SimCfg D} {fuel k : Nat} {l l' : PList D} {r r' : Rng D}
    (h : particleLoop cfg fuel k l r = .ok (l', r')) : Grows l l' := by
  induction fuel generalizing k l r with
  | zero =>
    simp only [particleLoop, Res.ok.injEq, Prod.mk.injEq] at h
    rw [← h.1]; exact .refl _
  | succ fuel ih =>
    rw [particleLoop] at h
    split at h
    · rw [Res.bind_eq_ok] at h
      obtain ⟨⟨l1, r1⟩, h1, h⟩ := h
      exact (visit_grows h1).trans (ih h)
    · simp only [Res.ok.injEq, Prod.mk.injEq] at h
      rw [← h.1]; exact .refl _

theorem reach_grows {cfg : SimCfg D} {s s' : EvState D} (h : Reach cfg s s') :
    Grows s.list s'.list := by
  induction h with
  | refl => exact .refl _
  | step _ h2 ih => exact ih.trans (particleLoop_grows (timeStep_advance h2).1)

/-! ## The particle loop, index by index -/

/-- Fuel beyond the capacity of the list makes no difference. -/
theorem particleLoop_fuel (cfg : SimCfg D) {fuel fuel' k : Nat} {l : PList D} {r : Rng D}
    (hcap : l.items.length ≤ l.maxParticles) (hf : l.maxParticles ≤ k + fuel)
    (hf' : l.maxParticles ≤ k + fuel') :
    particleLoop cfg fuel k l r = particleLoop cfg fuel' k l r := by
  induction fuel generalizing fuel' k l r with
  | zero =>
    cases fuel' with
    | zero => rfl
    | succ fuel' =>
      rw [particleLoop, particleLoop, if_neg]
      unfold PList.nPart; omega
  | succ fuel ih =>
    cases fuel' with
    | zero =>
      rw [particleLoop, particleLoop, if_neg]
      unfold PList.nPart; omega
    | succ fuel' =>
      rw [particleLoop, particleLoop]
      split
      · cases h : visit cfg k l r with
        | ok a =>
          have g := visit_grows (l' := a.1) (r' := a.2) h
          simp only [Res.ok_bind]
          refine ih (by rw [g.max]; exact g.cap hcap) ?_ ?_ <;> rw [g.max] <;> omega
        | exit c => rfl
        | throw w => rfl
        | ub w => rfl
      · rfl

/-- Induction over the particle loop that knows the index: particles below `k` have been
visited. At the end all have. -/
theorem advance_index_induct {cfg : SimCfg D} {I : Nat → PList D → Rng D → Prop}
    (hvisit : ∀ k l r l' r', k < l.items.length → I k l r → visit cfg k l r = .ok (l', r') →
      I (k + 1) l' r')
    {l l' : PList D} {r r' : Rng D} (hcap : l.items.length ≤ l.maxParticles) (h0 : I 0 l r)
    (h : advance cfg l r = .ok (l', r')) : ∃ k, l'.items.length ≤ k ∧ I k l' r' := by
  have key : ∀ fuel k l r, l.items.length ≤ l.maxParticles → l.maxParticles ≤ k + fuel → I k l r →
      particleLoop cfg fuel k l r = .ok (l', r') → ∃ k, l'.items.length ≤ k ∧ I k l' r' := by
    intro fuel
    induction fuel with
    | zero =>
      intro k l r hc hf hI h
      simp only [particleLoop, Res.ok.injEq, Prod.mk.injEq] at h
      obtain ⟨rfl, rfl⟩ := h
      exact ⟨k, by omega, hI⟩
    | succ fuel ih =>
      intro k l r hc hf hI h
      rw [particleLoop] at h
      split at h
      · next hk =>
        rw [Res.bind_eq_ok] at h
        obtain ⟨⟨l1, r1⟩, h1, h⟩ := h
        have g := visit_grows h1
        exact ih (k + 1) l1 r1 (by rw [g.max]; exact g.cap hc) (by rw [g.max]; omega)
          (hvisit k l r l1 r1 hk hI h1) h
      · next hk =>
        simp only [Res.ok.injEq, Prod.mk.injEq] at h
        obtain ⟨rfl, rfl⟩ := h
        exact ⟨k, by unfold PList.nPart at hk; omega, hI⟩
  exact key _ 0 l r hcap (by omega) h0 h

/-- What a whole visit of particle `k` does: the particle is pushed once and then keeps
its time; other entries stay; new entries carry the time of the pushed particle. -/
theorem visit_entries {cfg : SimCfg D} {k : Nat} {l l' : PList D} {r r' : Rng D}
    (h : visit cfg k l r = .ok (l', r')) :
    ∃ p, l.items[k]? = some p ∧
      (∃ q, l'.items[k]? = some q ∧ q.time = (pushParticle cfg.push cfg.field cfg.dt p).time ∧
        (q.isAlive = true → p.isAlive = true)) ∧
      (∀ i q, i ≠ k → i < l.items.length → (l'.items[i]? = some q ↔ l.items[i]? = some q)) ∧
      (∀ i q, l.items.length ≤ i → l'.items[i]? = some q →
        q.time = (pushParticle cfg.push cfg.field cfg.dt p).time ∧ p.isAlive = true) := by
  unfold visit at h
  rw [Res.bind_eq_ok] at h
  obtain ⟨p, hp, h⟩ := h
  have hp := PList.get_eq_ok.mp hp
  have hlt : k < l.items.length := (List.getElem?_eq_some_iff.mp hp).1
  refine ⟨p, hp, ?_⟩
  have hpid := push_identity cfg.push cfg.field cfg.dt p
  generalize hq0 : pushParticle cfg.push cfg.field cfg.dt p = q0 at *
  -- invariant of the process loop
  have key := interactAll_induct (procs := cfg.procs) (k := k)
    (I := fun l1 _ => l.items.length ≤ l1.items.length ∧
      (∃ q, l1.items[k]? = some q ∧ q.time = q0.time ∧ (q.isAlive = true → p.isAlive = true)) ∧
      (∀ i q, i ≠ k → i < l.items.length → (l1.items[i]? = some q ↔ l.items[i]? = some q)) ∧
      (∀ i q, l.items.length ≤ i → l1.items[i]? = some q →
        q.time = q0.time ∧ p.isAlive = true)) ?_ ?_ h
  · exact key.2
  · intro proc _ l1 r1 q q' l2 r2 hk hI hint
    obtain ⟨new, he⟩ := interact_effect hint
    obtain ⟨hlen, ⟨q1, hq1, ht, ha⟩, hold, hnew⟩ := hI
    rw [hk] at hq1
    cases hq1
    rw [items_after hk he]
    have hlt1 : k < l1.items.length := lt_of_lt_of_le hlt hlen
    refine ⟨by simp; omega, ⟨q', ?_, ?_, ?_⟩, ?_, ?_⟩
    · rw [List.getElem?_append_left (by simpa using hlt1)]; simp [hlt1]
    · rw [he.same.time, ht]
    · intro hq'
      cases hqa : q.isAlive
      · rw [(he.dead hqa).1, hqa] at hq'; cases hq'
      · exact ha hqa
    · intro i x hik hi
      rw [List.getElem?_append_left (by simpa using lt_of_lt_of_le hi hlen),
        List.getElem?_set_ne (Ne.symm hik)]
      exact hold i x hik hi
    · intro i x hi hx
      rw [List.getElem?_append] at hx
      split at hx
      · rw [List.getElem?_set_ne (by omega)] at hx
        exact hnew i x hi hx
      · have hmem := List.mem_of_mem_take (List.mem_of_getElem? hx)
        obtain ⟨a, _⟩ := he.fresh x hmem
        refine ⟨by rw [a, ht], ?_⟩
        cases hqa : q.isAlive
        · rw [(he.dead hqa).2] at hmem; simp at hmem
        · exact ha hqa
  · refine ⟨by simp, ⟨q0, by simp [hlt], rfl, ?_⟩, ?_, ?_⟩
    · rw [hpid.2.2.2.2.2.1]; exact id
    · intro i q hik _
      rw [PList.set_items, List.getElem?_set_ne (Ne.symm hik)]
    · intro i q hi hq
      rw [PList.set_items] at hq
      have := (List.getElem?_eq_some_iff.mp hq).1
      simp at this; omega

/-! ## Counting steps -/

/-- `Steps cfg s m t`: `m` time steps lead from `s` to `t`, each taken because the end
time had not been reached. -/
inductive Steps (cfg : SimCfg D) (s : EvState D) : Nat → EvState D → Prop
  | zero : Steps cfg s 0 s
  | succ {m t t'} : Steps cfg s m t → (t.time <. cfg.timeEnd) = true →
      timeStep cfg t = .ok t' → Steps cfg s (m + 1) t'

theorem Steps.cons {cfg : SimCfg D} {s s1 t : EvState D} {m : Nat}
    (h0 : (s.time <. cfg.timeEnd) = true) (h1 : timeStep cfg s = .ok s1) (h : Steps cfg s1 m t) :
    Steps cfg s (m + 1) t := by
  induction h with
  | zero => exact .succ .zero h0 h1
  | succ _ a b ih => exact .succ ih a b

theorem Steps.reach {cfg : SimCfg D} {s t : EvState D} {m : Nat} (h : Steps cfg s m t) :
    Reach cfg s t := by
  induction h with
  | zero => exact .refl
  | succ _ _ h ih => exact .step ih h

theorem run_ok_iff {cfg : SimCfg D} {s t : EvState D} {n : Nat} :
    Run cfg s n (.ok t) ↔ Steps cfg s n t ∧ (t.time <. cfg.timeEnd) = false := by
  constructor
  · intro h
    generalize ho : (Res.ok t : Res (EvState D)) = o at h
    induction h with
    | done h => cases ho; exact ⟨.zero, h⟩
    | step h1 h2 _ ih => exact ⟨.cons h1 h2 (ih ho).1, (ih ho).2⟩
    | abort _ _ h3 => exact absurd ho.symm (h3 _)
  · rintro ⟨h, hend⟩
    have : ∀ {m u}, Steps cfg s m u → ∀ {j o}, Run cfg u j o → Run cfg s (m + j) o := by
      intro m u h
      induction h with
      | zero => intro j o h; simpa using h
      | @succ m u u' _ a b ih =>
        intro j o h
        have := ih (.step a b h)
        rwa [show m + (j + 1) = m + 1 + j by omega] at this
    exact this h (.done hend)

end QED
