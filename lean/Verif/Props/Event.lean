import Verif.Lemmas.Witness
import Mathlib.Algebra.Order.Floor.Semiring
import Mathlib.Algebra.BigOperators.Group.List.Basic

set_option linter.unusedSectionVars false
set_option autoImplicit false

/-!
# Properties C30 and C40 to C44: the event loop

`Reach cfg s s'` says that some number of time steps leads from `s` to `s'`;
`Steps cfg s m s'` counts them; `Run cfg s n o` says that the time loop started
in `s` ends after `n` steps with outcome `o`.
-/

namespace QED

open MCTools

section
variable {D : Type} [Dbl D]

/-! ## C30 Dead particles -/

/-- A dead particle stays exactly what it is for the rest of the event. -/
theorem C30_dead_forever (cfg : SimCfg D) (s s' : EvState D) (hr : Reach cfg s s') (k : Nat)
    (p : Particle D) (hk : s.list.items[k]? = some p) (hdead : p.isAlive = false) :
    s'.list.items[k]? = some p := by
  refine reach_induct (I := fun l _ => l.items[k]? = some p) ?_ ?_ hr hk
  · intro j l r q hj hI
    rw [PList.set_items]
    by_cases hjk : j = k
    · subst hjk
      rw [hj] at hI
      cases hI
      have hlt := (List.getElem?_eq_some_iff.mp hj).1
      rw [List.getElem?_set_self hlt]
      rcases push_effect cfg.push cfg.field cfg.dt p with ⟨_, h⟩ | ⟨h, _⟩
      · rw [h]
      · rw [hdead] at h; cases h
    · rw [List.getElem?_set_ne hjk]; exact hI
  · intro proc _ j l r q q' l' r' hj hI hint
    obtain ⟨new, he⟩ := interact_effect hint
    have hlt := (List.getElem?_eq_some_iff.mp hI).1
    rw [items_after hj he, List.getElem?_append_left (by simpa using hlt)]
    by_cases hjk : j = k
    · subst hjk
      rw [hj] at hI
      cases hI
      rw [List.getElem?_set_self hlt, (he.dead hdead).1]
    · rw [List.getElem?_set_ne hjk]; exact hI

theorem interact_dead (proc : Proc D) (p : Particle D) (l : PList D) (r : Rng D)
    (hdead : p.isAlive = false) : proc.interact p l r = .ok (p, l, r) := by
  cases proc with
  | stochastic cfg => simp [Proc.interact, stochasticInteract, hdead]
  | continuous cfg c => simp [Proc.interact, continuousInteract, hdead]
  | breitWheeler cfg => simp [Proc.interact, bwInteract, hdead]

/-- The turn of a dead particle in the particle loop does nothing at all: no particle is
changed or added, no random number is used, no error occurs. -/
theorem C30_dead_inert (cfg : SimCfg D) (k : Nat) (l : PList D) (r : Rng D) (p : Particle D)
    (hk : l.items[k]? = some p) (hdead : p.isAlive = false) : visit cfg k l r = .ok (l, r) := by
  have hset : l.set k p = l := by
    cases l
    simp only [PList.set, PList.mk.injEq, true_and]
    have hlt := (List.getElem?_eq_some_iff.mp hk)
    rw [← hlt.2]; exact List.set_getElem_self _
  have hget : l.get k = .ok p := PList.get_eq_ok.mpr hk
  unfold visit
  rw [hget]
  simp only [Res.ok_bind]
  rw [show pushParticle cfg.push cfg.field cfg.dt p = p by simp [pushParticle, hdead], hset]
  generalize cfg.procs = procs
  induction procs with
  | nil => rfl
  | cons proc rest ih =>
    rw [interactAll]
    unfold interactAt
    rw [hget]
    simp only [Res.ok_bind, interact_dead proc p l r hdead, hset]
    exact ih

/-! ## C44 Events only grow -/

/-- What stays the same about an entry of the list. -/
structure KeepsIdentity (p p' : Particle D) : Prop where
  mass : p'.mass = p.mass
  charge : p'.charge = p.charge
  kind : p'.kind = p.kind
  weight : p'.weight = p.weight
  noResurrection : p.isAlive = false → p'.isAlive = false

theorem C44_grow_and_keep_identity (cfg : SimCfg D) (s s' : EvState D) (hr : Reach cfg s s')
    (k : Nat) (p : Particle D) (hk : s.list.items[k]? = some p) :
    ∃ p', s'.list.items[k]? = some p' ∧ KeepsIdentity p p' := by
  refine reach_induct (I := fun l _ => ∃ p', l.items[k]? = some p' ∧ KeepsIdentity p p')
    ?_ ?_ hr ⟨p, hk, ⟨rfl, rfl, rfl, rfl, id⟩⟩
  · rintro j l r q hj ⟨p', hI, hid⟩
    rw [PList.set_items]
    by_cases hjk : j = k
    · subst hjk
      rw [hj] at hI
      cases hI
      have hlt := (List.getElem?_eq_some_iff.mp hj).1
      obtain ⟨a, b, c, d, _, f, _⟩ := push_identity cfg.push cfg.field cfg.dt q
      exact ⟨_, List.getElem?_set_self hlt, b.trans hid.mass, c.trans hid.charge,
        a.trans hid.kind, d.trans hid.weight, fun h => f.trans (hid.noResurrection h)⟩
    · exact ⟨p', by rw [List.getElem?_set_ne hjk]; exact hI, hid⟩
  · rintro proc _ j l r q q' l' r' hj ⟨p', hI, hid⟩ hint
    obtain ⟨new, he⟩ := interact_effect hint
    have hlt := (List.getElem?_eq_some_iff.mp hI).1
    rw [items_after hj he, List.getElem?_append_left (by simpa using hlt)]
    by_cases hjk : j = k
    · subst hjk
      rw [hj] at hI
      cases hI
      have hs := he.same
      refine ⟨q', List.getElem?_set_self hlt, hs.mass.trans hid.mass, hs.charge.trans hid.charge,
        hs.kind.trans hid.kind, hs.weight.trans hid.weight, fun h => ?_⟩
      have := hid.noResurrection h
      rw [(he.dead this).1]; exact this
    · exact ⟨p', by rw [List.getElem?_set_ne hjk]; exact hI, hid⟩

/-- In particular the list never gets shorter, and never longer than its capacity. -/
theorem C44_length (cfg : SimCfg D) (s s' : EvState D) (hr : Reach cfg s s') :
    s.list.nPart ≤ s'.list.nPart ∧
      (s.list.nPart ≤ s.list.maxParticles → s'.list.nPart ≤ s.list.maxParticles) :=
  ⟨(reach_grows hr).length, (reach_grows hr).cap⟩

/-! ## C40 Number of steps -/

/-- The number of steps does not depend on what happens to the particles: any two
events with the same time step and end time that run to completion make the same
number of steps, whatever their fields, processes, lists and draws, also in floating
point. -/
theorem C40_steps_independent (cfg cfg' : SimCfg D) (hdt : cfg.dt = cfg'.dt)
    (hT : cfg.timeEnd = cfg'.timeEnd) (s s' t t' : EvState D) (n n' : Nat)
    (htime : s.time = s'.time) (h : Run cfg s n (.ok t)) (h' : Run cfg' s' n' (.ok t')) :
    n = n' := by
  generalize ho : (Res.ok t : Res (EvState D)) = o at h
  generalize ho' : (Res.ok t' : Res (EvState D)) = o' at h'
  induction h generalizing s' n' with
  | done hd =>
    cases h' with
    | done => rfl
    | step h1 => rw [← htime, ← hT, hd] at h1; cases h1
    | abort _ _ h3 => exact absurd ho'.symm (h3 _)
  | step h1 h2 _ ih =>
    cases h' with
    | done hd => rw [← htime, ← hT, h1] at hd; cases hd
    | step h1' h2' h3' =>
      rw [ih _ _ ?_ ho h3']
      rw [(timeStep_advance h2).2, (timeStep_advance h2').2, htime, hdt]
    | abort _ _ h3 => exact absurd ho'.symm (h3 _)
  | abort _ _ h3 => exact absurd ho.symm (h3 _)

/-- Each step visits every particle of the list at most once: the loop over the
particles needs no more turns than the list can hold. -/
theorem C40_particle_loop_bounded (cfg : SimCfg D) (l : PList D) (r : Rng D) (turns : Nat)
    (hcap : l.nPart ≤ l.maxParticles) (hturns : l.maxParticles ≤ turns) :
    particleLoop cfg turns 0 l r = advance cfg l r :=
  particleLoop_fuel cfg hcap (by omega) (by omega)

theorem steps_time {cfg : SimCfg ℝ} {s t : EvState ℝ} {m : Nat} (h : Steps cfg s m t) :
    t.time = s.time + m * cfg.dt := by
  induction h with
  | zero => simp
  | succ _ _ h ih => rw [(timeStep_advance h).2, real_add, ih]; push_cast; ring

theorem steps_before_end {cfg : SimCfg ℝ} {s t : EvState ℝ} {m : Nat} (h : Steps cfg s m t) :
    ∀ j < m, s.time + j * cfg.dt < cfg.timeEnd := by
  induction h with
  | zero => intro j hj; omega
  | @succ m t t' h0 h1 _ ih =>
    intro j hj
    rcases Nat.lt_succ_iff_lt_or_eq.mp hj with hj | rfl
    · exact ih j hj
    · rw [← steps_time h0]; simpa using h1

end

/-- An event that runs to its end makes `⌈T / dt⌉` steps. -/
theorem C40_steps (cfg : SimCfg ℝ) (hdt : 0 < cfg.dt) (l : PList ℝ) (r : Rng ℝ)
    (hists : List (Hist ℝ)) (n : Nat) (s : EvState ℝ) (h : Run cfg (.init l r hists) n (.ok s)) :
    n = ⌈cfg.timeEnd / cfg.dt⌉₊ ∧ s.time = n * cfg.dt := by
  obtain ⟨hs, hend⟩ := run_ok_iff.mp h
  have ht := steps_time hs
  have hb := steps_before_end hs
  simp only [EvState.init, real_lit, Rat.cast_zero, zero_add] at ht hb
  refine ⟨?_, ht⟩
  have hend' : cfg.timeEnd ≤ n * cfg.dt := by
    rw [← ht]; simpa using hend
  apply le_antisymm
  · rcases Nat.eq_zero_or_pos n with rfl | hn
    · omega
    · by_contra hlt
      have hlt : ⌈cfg.timeEnd / cfg.dt⌉₊ < n := by omega
      have := hb _ hlt
      have h2 := Nat.le_ceil (cfg.timeEnd / cfg.dt)
      rw [div_le_iff₀ hdt] at h2
      linarith
  · rw [Nat.ceil_le, div_le_iff₀ hdt]; exact hend'

/-- Every event comes to an end: it makes at most `⌈T / dt⌉` steps, and stops earlier only
if a step ends the program. -/
theorem C40_terminates (cfg : SimCfg ℝ) (hdt : 0 < cfg.dt) (l : PList ℝ) (r : Rng ℝ)
    (hists : List (Hist ℝ)) :
    ∃ n o, Run cfg (.init l r hists) n o ∧ n ≤ ⌈cfg.timeEnd / cfg.dt⌉₊ := by
  have key : ∀ (m : Nat) (s : EvState ℝ), cfg.timeEnd ≤ s.time + m * cfg.dt →
      ∃ n o, Run cfg s n o ∧ n ≤ m := by
    intro m
    induction m with
    | zero =>
      intro s hs
      exact ⟨0, _, .done (by simpa using hs), le_refl _⟩
    | succ m ih =>
      intro s hs
      by_cases ht : s.time < cfg.timeEnd
      · cases h : timeStep cfg s with
        | ok s' =>
          obtain ⟨n, o, hn, hle⟩ := ih s' (by
            rw [(timeStep_advance h).2, real_add]; push_cast at hs; linarith)
          exact ⟨n + 1, o, .step (by simpa using ht) h hn, by omega⟩
        | exit c => exact ⟨1, _, .abort (by simpa using ht) h (by simp), by omega⟩
        | throw c => exact ⟨1, _, .abort (by simpa using ht) h (by simp), by omega⟩
        | ub c => exact ⟨1, _, .abort (by simpa using ht) h (by simp), by omega⟩
      · exact ⟨0, _, .done (by simpa using ht), by omega⟩
  apply key
  have h2 := Nat.le_ceil (cfg.timeEnd / cfg.dt)
  rw [div_le_iff₀ hdt] at h2
  simpa [EvState.init] using h2

/-- With a zero or negative time step the loop never reaches its end. -/
theorem C40_diverges (cfg : SimCfg ℝ) (hdt : cfg.dt ≤ 0) (hT : 0 < cfg.timeEnd) (l : PList ℝ)
    (r : Rng ℝ) (hists : List (Hist ℝ)) (n : Nat) (s : EvState ℝ) :
    ¬ Run cfg (.init l r hists) n (.ok s) := by
  intro h
  obtain ⟨hs, hend⟩ := run_ok_iff.mp h
  have ht := steps_time hs
  simp only [EvState.init, real_lit, Rat.cast_zero, zero_add] at ht
  have : cfg.timeEnd ≤ s.time := by simpa using hend
  have : (n : ℝ) * cfg.dt ≤ 0 := mul_nonpos_of_nonneg_of_nonpos (Nat.cast_nonneg n) hdt
  linarith

/-- Without processes nothing ends the program, so such events do run to their end. -/
example : ∃ (cfg : SimCfg ℝ) (s : EvState ℝ),
    0 < cfg.dt ∧ Run cfg (.init (PList.new "0" 5) ⟨fun _ => 1 / 2, 0⟩ []) 3 (.ok s) := by
  refine ⟨⟨lorentzForce, staticField ⟨0, 0, 0⟩ ⟨0, 0, 0⟩, 1, 5 / 2, []⟩,
    ⟨PList.new "0" 5, ⟨fun _ => 1 / 2, 0⟩, 0 + 1 + 1 + 1, 0, []⟩, by norm_num, ?_⟩
  have ha : ∀ (cfg : SimCfg ℝ) r, advance cfg (PList.new "0" 5) r = .ok (PList.new "0" 5, r) := by
    intro cfg r; rfl
  refine .step (s' := ⟨PList.new "0" 5, ⟨fun _ => 1 / 2, 0⟩, 0 + 1, 0, []⟩) ?_ ?_
    (.step (s' := ⟨PList.new "0" 5, ⟨fun _ => 1 / 2, 0⟩, 0 + 1 + 1, 0, []⟩) ?_ ?_
    (.step (s' := ⟨PList.new "0" 5, ⟨fun _ => 1 / 2, 0⟩, 0 + 1 + 1 + 1, 0, []⟩) ?_ ?_ (.done ?_)))
  all_goals first
    | (simp [timeStep, histStep, ha, EvState.init]; done)
    | (simp; norm_num)

/-! ## C43 Charge conservation -/

/-- Total charge of an event: every particle, alive or dead. -/
noncomputable def totalCharge (l : List (Particle ℝ)) : ℝ := (l.map Particle.charge).sum

theorem sum_set {l : List ℝ} {k : Nat} {a b : ℝ} (h : l[k]? = some a) :
    (l.set k b).sum = l.sum - a + b := by
  induction l generalizing k with
  | nil => simp at h
  | cons x xs ih =>
    cases k with
    | zero => simp at h; subst h; simp; ring
    | succ k => simp at h; simp [ih h]; ring

theorem C43_charge (cfg : SimCfg ℝ) (s s' : EvState ℝ) (hr : Reach cfg s s')
    (hfree : s'.list.nPart < s'.list.maxParticles) :
    totalCharge s'.list.items = totalCharge s.list.items := by
  have key : s'.list.items.length < s'.list.maxParticles →
      totalCharge s'.list.items = totalCharge s.list.items := by
    refine reach_induct (I := fun l _ => l.items.length < l.maxParticles →
      totalCharge l.items = totalCharge s.list.items) ?_ ?_ hr (fun _ => rfl)
    · intro k l r p hk hI hlen
      have hlen' : l.items.length < l.maxParticles := by simpa using hlen
      rw [← hI hlen', PList.set_items]
      unfold totalCharge
      rw [List.map_set, sum_set (a := p.charge) (by simp [hk]),
        (push_identity cfg.push cfg.field cfg.dt p).2.2.1]
      ring
    · intro proc _ k l r p p' l' r' hk hI hint hlen
      obtain ⟨new, he⟩ := interact_effect hint
      rw [items_after hk he] at hlen ⊢
      rw [PList.set_max, he.list, PList.addAll_max] at hlen
      simp only [List.length_append, List.length_set, List.length_take] at hlen
      have hall : new.take (l.maxParticles - l.items.length) = new := by
        apply List.take_of_length_le; omega
      rw [← hI (by omega), hall]
      have hnew : totalCharge new = 0 := by
        rcases he.kinds with ⟨h, _⟩ | ⟨ph, h, _, _, hc, _⟩ | ⟨pos, ele, h, _, _, hp, hm, _⟩
        · rw [h]; simp [totalCharge]
        · rw [h]; simp [totalCharge, hc]
        · rw [h]; simp [totalCharge, hp, hm]
      unfold totalCharge at hnew ⊢
      rw [List.map_append, List.sum_append, hnew, List.map_set,
        sum_set (a := p.charge) (by simp [hk]), he.same.charge]
      ring
  exact key hfree

theorem leptonKind_one : Particle.leptonKind (Dbl.lit 1 : ℝ) = .positron := by
  unfold Particle.leptonKind
  rw [if_neg]
  simp; norm_num

/-- Charge of the particles that are still alive. -/
noncomputable def aliveCharge (l : List (Particle ℝ)) : ℝ :=
  ((l.filter fun p => p.isAlive).map Particle.charge).sum

/-- In an event that starts from a source, the particles still alive carry the charge of
the primary: only photons die, and photons carry no charge. -/
theorem C43_alive_charge (cfg : SimCfg ℝ) (src src' : Source ℝ) (r r' : Rng ℝ) (l : PList ℝ)
    (hsrc : src.generateList r = .ok (l, src', r')) (hists : List (Hist ℝ)) (s : EvState ℝ)
    (hr : Reach cfg (.init l r' hists) s) (hfree : s.list.nPart < s.list.maxParticles) :
    aliveCharge s.list.items = totalCharge l.items := by
  rw [show totalCharge l.items = totalCharge s.list.items from (C43_charge cfg _ s hr hfree).symm]
  have hprim : ∀ p ∈ l.items, p.isAlive = true ∧ (p.kind = .photon → p.charge = 0) := by
    intro p hp
    unfold Source.generateList at hsrc
    split at hsrc
    · cases hsrc
    · simp only [Res.bind_eq_ok] at hsrc
      obtain ⟨_, _, _, _, _, _, _, _, _, _, _, _, part, hpart, h⟩ := hsrc
      simp only [Res.ok.injEq, Prod.mk.injEq] at h
      rw [← h.1] at hp
      have : p = part := by
        simpa [PList.add, PList.new, PList.defaultMax] using hp
      subst this
      unfold Source.mkParticle at hpart
      split at hpart
      · cases hpart; simp [Particle.newPhotonE, Particle.new]
      · split at hpart
        · cases hpart; simp [Particle.newLeptonE, Particle.new, Particle.leptonKind]
        · split at hpart
          · cases hpart
            simp only [Particle.newLeptonE, Particle.new, leptonKind_one]; simp
          · cases hpart
  have hinv : ∀ p ∈ s.list.items, (p.isAlive = false → p.charge = 0) ∧
      (p.kind = .photon → p.charge = 0) := by
    refine reach_forall (P := fun p => (p.isAlive = false → p.charge = 0) ∧
      (p.kind = .photon → p.charge = 0)) ?_ ?_ hr ?_
    · intro p hp
      obtain ⟨a, _, c, _, _, f, _⟩ := push_identity cfg.push cfg.field cfg.dt p
      rw [a, c, f]; exact hp
    · intro proc _ p l r p' l' r' new hp he _
      have hs := he.same
      constructor
      · rw [hs.charge, hs.kind]
        refine ⟨fun hd => ?_, hp.2⟩
        rcases he.kinds with ⟨_, h⟩ | ⟨_, _, _, _, _, _, h⟩ | ⟨_, _, _, _, _, _, _, h, _⟩
        · exact hp.1 (h ▸ hd)
        · exact hp.1 (h ▸ hd)
        · exact hp.2 h
      · intro q hq
        have hal := (he.fresh q hq).2.2.1
        refine ⟨fun hd => (by rw [hal] at hd; cases hd), fun hk => ?_⟩
        rcases he.kinds with ⟨h, _⟩ | ⟨ph, h, _, _, hc, _⟩ | ⟨pos, ele, h, _, _, hp1, hm, _, _, _, kp, ke, _⟩
        · rw [h] at hq; simp at hq
        · rw [h] at hq; simp at hq; rw [hq, hc]; simp
        · rw [h] at hq
          simp at hq
          rcases hq with rfl | rfl
          · rw [kp, leptonKind_one] at hk; cases hk
          · rw [ke] at hk; simp [Particle.leptonKind] at hk
    · intro p hp
      have := hprim p hp
      exact ⟨fun h => (by rw [this.1] at h; cases h), this.2⟩
  generalize s.list.items = items at hinv
  unfold aliveCharge totalCharge
  induction items with
  | nil => rfl
  | cons p ps ih =>
    have := ih fun q hq => hinv q (List.mem_cons_of_mem _ hq)
    cases h : p.isAlive
    · simp only [List.filter_cons, h, List.map_cons, List.sum_cons]
      rw [(hinv p List.mem_cons_self).1 h]
      simpa using this
    · simp only [List.filter_cons, h, List.map_cons, List.sum_cons, if_true]
      rw [this]

/-! ## C41 Histogram filling -/

section
variable {D : Type} [Dbl D]

/-- What has happened to the histograms after `j` steps: the first `c` have been filled
from the list at some earlier step, the others are untouched. -/
structure HistInv (cfg : SimCfg D) (s0 : EvState D) (j : Nat) (s : EvState D) : Prop where
  len : s.hists.length = s0.hists.length
  filled : ∀ k h0, k < s.histCount → s0.hists[k]? = some h0 → ∃ m t h, m < j ∧
    Steps cfg s0 m t ∧ fillHist h0 t.list.items = .ok h ∧ s.hists[k]? = some h ∧
    (h0.time <=. t.time) = true
  rest : ∀ k, s.histCount ≤ k → s.hists[k]? = s0.hists[k]?

theorem histInv_steps {cfg : SimCfg D} {s0 s : EvState D} {j : Nat} (h0 : s0.histCount = 0)
    (h : Steps cfg s0 j s) : HistInv cfg s0 j s := by
  induction h with
  | zero => exact ⟨rfl, fun k _ hk => (by omega), fun _ _ => rfl⟩
  | @succ j s s' hs _ hstep ih =>
    unfold timeStep at hstep
    rw [Res.bind_eq_ok] at hstep
    obtain ⟨s1, h1, hstep⟩ := hstep
    rw [Res.bind_eq_ok] at hstep
    obtain ⟨⟨l, r⟩, _, hstep⟩ := hstep
    simp only [Res.ok.injEq] at hstep
    have e1 : s'.hists = s1.hists := by rw [← hstep]
    have e2 : s'.histCount = s1.histCount := by rw [← hstep]
    unfold histStep at h1
    split at h1
    · simp only [Res.ok.injEq] at h1
      subst h1
      refine ⟨by rw [e1, ih.len], fun k h0 hk hh => ?_, fun k hk => ?_⟩
      · rw [e2] at hk
        obtain ⟨m, t, h, hm, a, b, c, d⟩ := ih.filled k h0 hk hh
        exact ⟨m, t, h, by omega, a, b, by rw [e1]; exact c, d⟩
      · rw [e1, ih.rest k (by rw [← e2]; exact hk)]
    · next h hh =>
      have hlt := (List.getElem?_eq_some_iff.mp hh).1
      split at h1
      · next hle =>
        rw [Res.bind_eq_ok] at h1
        obtain ⟨h', hfill, h1⟩ := h1
        simp only [Res.ok.injEq] at h1
        subst h1
        simp only at e1 e2
        refine ⟨by rw [e1]; simpa using ih.len, fun k hk0 hk hkk => ?_, fun k hk => ?_⟩
        · rw [e2] at hk
          rcases Nat.lt_succ_iff_lt_or_eq.mp hk with hk | rfl
          · obtain ⟨m, t, h, hm, a, b, c, d⟩ := ih.filled k hk0 hk hkk
            exact ⟨m, t, h, by omega, a, b, by rw [e1, List.getElem?_set_ne (by omega)]; exact c, d⟩
          · have := ih.rest _ (le_refl _)
            rw [hh, hkk] at this
            cases this
            exact ⟨j, s, h', by omega, hs, hfill, by rw [e1, List.getElem?_set_self hlt], hle⟩
        · rw [e2] at hk
          rw [e1, List.getElem?_set_ne (by omega)]
          exact ih.rest k (by omega)
      · simp only [Res.ok.injEq] at h1
        subst h1
        refine ⟨by rw [e1, ih.len], fun k h0 hk hh => ?_, fun k hk => ?_⟩
        · rw [e2] at hk
          obtain ⟨m, t, h, hm, a, b, c, d⟩ := ih.filled k h0 hk hh
          exact ⟨m, t, h, by omega, a, b, by rw [e1]; exact c, d⟩
        · rw [e1, ih.rest k (by rw [← e2]; exact hk)]

theorem fillRest_spec {l : PList D} {c : Nat} {hs hs' : List (Hist D)}
    (h : fillRest l c hs = .ok hs') : hs'.length = hs.length ∧
    (∀ k, k < c → hs'[k]? = hs[k]?) ∧
    (∀ k h0, c ≤ k → hs[k]? = some h0 → ∃ h1, fillHist h0 l.items = .ok h1 ∧ hs'[k]? = some h1) := by
  induction hs generalizing c hs' with
  | nil =>
    simp only [fillRest, Res.ok.injEq] at h
    subst h
    exact ⟨rfl, fun _ _ => rfl, fun k h0 _ hk => (by simp at hk)⟩
  | cons x xs ih =>
    cases c with
    | zero =>
      simp only [fillRest] at h
      rw [Res.bind_eq_ok] at h
      obtain ⟨x', hx, h⟩ := h
      rw [Res.bind_eq_ok] at h
      obtain ⟨xs', hxs, h⟩ := h
      simp only [Res.ok.injEq] at h
      subst h
      obtain ⟨a, b, c⟩ := ih hxs
      refine ⟨by simp [a], fun k hk => (by omega), fun k h0 _ hk => ?_⟩
      cases k with
      | zero => simp at hk; subst hk; exact ⟨x', hx, rfl⟩
      | succ k => simp at hk; simpa using c k h0 (by omega) hk
    | succ c =>
      simp only [fillRest] at h
      rw [Res.bind_eq_ok] at h
      obtain ⟨xs', hxs, h⟩ := h
      simp only [Res.ok.injEq] at h
      subst h
      obtain ⟨a, b, d⟩ := ih hxs
      refine ⟨by simp [a], fun k hk => ?_, fun k h0 hk0 hk => ?_⟩
      · cases k with
        | zero => rfl
        | succ k => simpa using b k (by omega)
      · cases k with
        | zero => omega
        | succ k => simp at hk; simpa using d k h0 (by omega) hk

/-- Every histogram is filled exactly once: its final content is the result of one pass
over the particles of the event at one point in time (after `m` of the `n` steps). If
`m < n` its time had come. -/
theorem C41_filled_once (cfg : SimCfg D) (l l' : PList D) (r r' : Rng D)
    (hists hists' : List (Hist D)) (n : Nat) (h : Event cfg l r hists n l' r' hists') :
    hists'.length = hists.length ∧
    ∀ (k : Nat) (h0 : Hist D), hists[k]? = some h0 → ∃ m t h1, m ≤ n ∧ Steps cfg (.init l r hists) m t ∧
      fillHist h0 t.list.items = .ok h1 ∧ hists'[k]? = some h1 ∧
      (m < n → (h0.time <=. t.time) = true) := by
  cases h with
  | @mk s _ hrun hrest =>
    obtain ⟨hs, _⟩ := run_ok_iff.mp hrun
    have inv := histInv_steps (s0 := .init l r hists) rfl hs
    obtain ⟨a, b, c⟩ := fillRest_spec hrest
    refine ⟨by rw [a, inv.len]; rfl, fun k h0 hk => ?_⟩
    by_cases hkc : k < s.histCount
    · obtain ⟨m, t, h1, hm, ht, hf, hk1, hle⟩ := inv.filled k h0 hkc hk
      exact ⟨m, t, h1, by omega, ht, hf, by rw [b k hkc]; exact hk1, fun _ => hle⟩
    · have hkc : s.histCount ≤ k := by omega
      obtain ⟨h1, hf, hk1⟩ := c k h0 hkc ((inv.rest k hkc).trans hk)
      exact ⟨n, s, h1, le_refl _, hs, hf, hk1, fun h => absurd h (lt_irrefl _)⟩

end

/-- The timing: with non-negative times, at least one step apart and increasing, each
histogram is filled from the list at the first step whose time is not before its time,
or after the last step if there is none. -/
theorem C41_timing (cfg : SimCfg ℝ) (hdt : 0 < cfg.dt) (l l' : PList ℝ) (r r' : Rng ℝ)
    (hists hists' : List (Hist ℝ)) (n : Nat) (h : Event cfg l r hists n l' r' hists')
    (hfirst : ∀ h0, hists[0]? = some h0 → 0 ≤ h0.time)
    (hapart : ∀ k a b, hists[k]? = some a → hists[k + 1]? = some b → a.time + cfg.dt ≤ b.time)
    (k : Nat) (h0 : Hist ℝ) (hk : hists[k]? = some h0) :
    ∃ m t h1, m ≤ n ∧ Steps cfg (.init l r hists) m t ∧ t.time = m * cfg.dt ∧
      fillHist h0 t.list.items = .ok h1 ∧ hists'[k]? = some h1 ∧
      (∀ j < m, j * cfg.dt < h0.time) ∧ (m < n → h0.time ≤ m * cfg.dt) := by
  have key : ∀ j s, Steps cfg (.init l r hists) j s →
      (∀ k h0, k < s.histCount → hists[k]? = some h0 → ∃ m t h, m < j ∧
        Steps cfg (.init l r hists) m t ∧ fillHist h0 t.list.items = .ok h ∧
        s.hists[k]? = some h ∧ (∀ i < m, i * cfg.dt < h0.time) ∧ h0.time ≤ m * cfg.dt) ∧
      (∀ h0, hists[s.histCount]? = some h0 → ∀ i < j, i * cfg.dt < h0.time) := by
    intro j s hs
    induction hs with
    | zero => exact ⟨fun k _ hk => absurd hk (Nat.not_lt_zero k), fun _ _ i hi => absurd hi (Nat.not_lt_zero i)⟩
    | @succ j s s' hs hlt hstep ih =>
      have inv := histInv_steps (s0 := .init l r hists) rfl hs
      have htime := steps_time hs
      simp only [EvState.init, real_lit, Rat.cast_zero, zero_add] at htime
      unfold timeStep at hstep
      rw [Res.bind_eq_ok] at hstep
      obtain ⟨s1, h1, hstep⟩ := hstep
      rw [Res.bind_eq_ok] at hstep
      obtain ⟨⟨l1, r1⟩, _, hstep⟩ := hstep
      simp only [Res.ok.injEq] at hstep
      have e1 : s'.hists = s1.hists := by rw [← hstep]
      have e2 : s'.histCount = s1.histCount := by rw [← hstep]
      rw [e1, e2]
      obtain ⟨ih1, ih2⟩ := ih
      have hrest := inv.rest s.histCount (le_refl _)
      change s.hists[s.histCount]? = hists[s.histCount]? at hrest
      have keep : ∀ (s1 : EvState ℝ), s1 = s →
          (∀ h0, hists[s.histCount]? = some h0 → j * cfg.dt < h0.time) →
          (∀ k h0, k < s1.histCount → hists[k]? = some h0 → ∃ m t h, m < j + 1 ∧
            Steps cfg (.init l r hists) m t ∧ fillHist h0 t.list.items = .ok h ∧
            s1.hists[k]? = some h ∧ (∀ i < m, i * cfg.dt < h0.time) ∧ h0.time ≤ m * cfg.dt) ∧
          (∀ h0, hists[s1.histCount]? = some h0 → ∀ i < j + 1, i * cfg.dt < h0.time) := by
        rintro s1 rfl hj
        refine ⟨fun k h0 hk hh => ?_, fun h0 hh i hi => ?_⟩
        · obtain ⟨m, t, h, hm, rest⟩ := ih1 k h0 hk hh
          exact ⟨m, t, h, by omega, rest⟩
        · rcases Nat.lt_succ_iff_lt_or_eq.mp hi with hi | rfl
          · exact ih2 h0 hh i hi
          · exact hj h0 hh
      unfold histStep at h1
      split at h1
      · next hnone =>
        simp only [Res.ok.injEq] at h1
        refine keep s1 h1.symm fun h0 hh => ?_
        rw [← hrest, hnone] at hh; cases hh
      · next h hh =>
        have hlt := (List.getElem?_eq_some_iff.mp hh).1
        split at h1
        · next hle =>
          rw [Res.bind_eq_ok] at h1
          obtain ⟨h', hfill, h1⟩ := h1
          simp only [Res.ok.injEq] at h1
          subst h1
          have hle : h.time ≤ j * cfg.dt := by rw [← htime]; simpa using hle
          rw [hrest] at hh
          refine ⟨fun k hk0 hk hkk => ?_, fun h2 hh2 i hi => ?_⟩
          · rcases Nat.lt_succ_iff_lt_or_eq.mp hk with hk | rfl
            · obtain ⟨m, t, h, hm, a, b, c, d⟩ := ih1 k hk0 hk hkk
              exact ⟨m, t, h, by omega, a, b, by
                show (s.hists.set s.histCount h')[k]? = _
                rw [List.getElem?_set_ne (by omega)]; exact c, d⟩
            · rw [hh] at hkk
              cases hkk
              exact ⟨j, s, h', by omega, hs, hfill, List.getElem?_set_self hlt, ih2 h hh, hle⟩
          · have ha := hapart _ h h2 hh hh2
            have hi : (i : ℝ) ≤ j := by exact_mod_cast Nat.lt_succ_iff.mp hi
            have hij : i * cfg.dt ≤ j * cfg.dt := mul_le_mul_of_nonneg_right hi hdt.le
            rcases Nat.eq_zero_or_pos j with rfl | hj
            · have h0t : 0 ≤ h.time := by
                rcases Nat.eq_zero_or_pos s.histCount with hc | hc
                · exact hfirst h (by rw [← hc]; exact hh)
                · obtain ⟨m, _, _, hm, _⟩ := ih1 (s.histCount - 1) (hists[s.histCount - 1]'(by
                    have := (List.getElem?_eq_some_iff.mp hh).1; omega)) (by omega) (by simp)
                  omega
              simp only [Nat.cast_zero, zero_mul] at hij
              linarith
            · have := ih2 h hh (j - 1) (by omega)
              rw [Nat.cast_sub hj] at this
              push_cast at this
              linarith
        · next hle =>
          simp only [Res.ok.injEq] at h1
          refine keep s1 h1.symm fun h0 hh0 => ?_
          rw [← hrest, hh] at hh0
          cases hh0
          rw [← htime]; simpa using hle
  cases h with
  | @mk s _ hrun hrest =>
    obtain ⟨hs, _⟩ := run_ok_iff.mp hrun
    have inv := histInv_steps (s0 := .init l r hists) rfl hs
    obtain ⟨_, b, c⟩ := fillRest_spec hrest
    obtain ⟨k1, k2⟩ := key n s hs
    have tm : ∀ {m t}, Steps cfg (.init l r hists) m t → t.time = m * cfg.dt := by
      intro m t ht
      have := steps_time ht
      simpa [EvState.init] using this
    by_cases hkc : k < s.histCount
    · obtain ⟨m, t, h1, hm, ht, hf, hk1, hlo, hhi⟩ := k1 k h0 hkc hk
      exact ⟨m, t, h1, by omega, ht, tm ht, hf, by rw [b k hkc]; exact hk1, hlo, fun _ => hhi⟩
    · have hkc : s.histCount ≤ k := by omega
      obtain ⟨h1, hf, hk1⟩ := c k h0 hkc ((inv.rest k hkc).trans hk)
      refine ⟨n, s, h1, le_refl _, hs, tm hs, hf, hk1, fun i hi => ?_, fun h => absurd h (lt_irrefl _)⟩
      -- later histograms have later times
      have mono : ∀ d h', hists[s.histCount + d]? = some h' → i * cfg.dt < h'.time := by
        intro d
        induction d with
        | zero => intro h' hh'; exact k2 h' hh' i hi
        | succ d ih =>
          intro h' hh'
          have hlt := (List.getElem?_eq_some_iff.mp hh').1
          have hprev : hists[s.histCount + d]? = some (hists[s.histCount + d]'(by omega)) := by
            rw [List.getElem?_eq_getElem]
          have := hapart _ _ _ hprev hh'
          have := ih _ hprev
          linarith
      exact mono (k - s.histCount) h0 (by rw [Nat.add_sub_cancel' hkc]; exact hk)

/-! ## C42 Clocks -/

section
variable {D : Type} [Dbl D]

/-- The part of C42 that holds: as long as a particle that was there at the start is
alive, its clock agrees with the simulation clock. Missing: secondaries, see
`C42_secondaries_ahead_partial` and `C42_refuted`. -/
theorem C42_primaries_partial (cfg : SimCfg D) (s s' : EvState D) (hr : Reach cfg s s')
    (hcap : s.list.nPart ≤ s.list.maxParticles) (k : Nat) (p p' : Particle D)
    (hk : s.list.items[k]? = some p) (ht : p.isAlive = true → p.time = s.time)
    (hk' : s'.list.items[k]? = some p') (halive : p'.isAlive = true) : p'.time = s'.time := by
  induction hr generalizing p' with
  | refl => rw [hk] at hk'; cases hk'; exact ht halive
  | @step s1 s2 hr hstep ih =>
    obtain ⟨hadv, htime⟩ := timeStep_advance hstep
    have hg := reach_grows hr
    obtain ⟨p1, hp1, hid⟩ := C44_grow_and_keep_identity cfg s s1 hr k p hk
    have hlt : k < s1.list.items.length := (List.getElem?_eq_some_iff.mp hp1).1
    have H := advance_index_induct
      (I := fun j l _ => ∃ q, l.items[k]? = some q ∧ (q.isAlive = true → p1.isAlive = true) ∧
        (q.isAlive = true → q.time = if k < j then p1.time +. cfg.dt else p1.time)) ?_
      (by rw [hg.max]; exact hg.cap hcap) ⟨p1, hp1, id, fun _ => by simp⟩ hadv
    · obtain ⟨j, hj, q, hq, ha, htq⟩ := H
      rw [hk'] at hq
      cases hq
      have hkj : k < j := lt_of_lt_of_le (List.getElem?_eq_some_iff.mp hk').1 hj
      rw [htq halive, if_pos hkj, ih p1 hp1 (ha halive), htime]
    · rintro j l r l' r' hjl ⟨q, hq, ha, htq⟩ hv
      obtain ⟨x, hx, ⟨y, hy, hyt, hya⟩, hold, _⟩ := visit_entries hv
      by_cases hjk : j = k
      · subst hjk
        rw [hx] at hq
        cases hq
        refine ⟨y, hy, fun h => ha (hya h), fun h => ?_⟩
        rw [hyt, push_time _ _ _ _ (hya h), htq (hya h), if_neg (lt_irrefl _),
          if_pos (Nat.lt_succ_self _)]
      · have hkl : k < l.items.length := (List.getElem?_eq_some_iff.mp hq).1
        refine ⟨q, (hold k q (Ne.symm hjk) hkl).mpr hq, ha, fun h => ?_⟩
        rw [htq h]
        have : k < j ↔ k < j + 1 := by omega
        simp only [this]

end

/-- What happens instead: every alive particle's clock is ahead of the simulation clock
by a whole number of steps, at least one if it was created during the event. -/
theorem C42_secondaries_ahead_partial (cfg : SimCfg ℝ) (s s' : EvState ℝ) (hr : Reach cfg s s')
    (hcap : s.list.nPart ≤ s.list.maxParticles)
    (ht : ∀ p ∈ s.list.items, p.isAlive = true → p.time = s.time) (i : Nat) (p : Particle ℝ)
    (hi : s'.list.items[i]? = some p) (halive : p.isAlive = true) :
    ∃ g : Nat, p.time = s'.time + g * cfg.dt ∧ (s.list.nPart ≤ i → 1 ≤ g) := by
  induction hr generalizing i p with
  | refl =>
    refine ⟨0, by simpa using ht p (List.mem_of_getElem? hi) halive, fun h => ?_⟩
    have := (List.getElem?_eq_some_iff.mp hi).1
    unfold PList.nPart at h; omega
  | @step s1 s2 hr hstep ih =>
    obtain ⟨hadv, htime⟩ := timeStep_advance hstep
    have hg := reach_grows hr
    have H := advance_index_induct
      (I := fun j l _ => s.list.nPart ≤ l.items.length ∧
        ∀ i q, l.items[i]? = some q → q.isAlive = true → ∃ g : Nat,
        q.time = s1.time + (if i < j then cfg.dt else 0) + g * cfg.dt ∧ (s.list.nPart ≤ i → 1 ≤ g))
      ?_ (by rw [hg.max]; exact hg.cap hcap) ⟨hg.length, ?_⟩ hadv
    · obtain ⟨j, hj, _, hI⟩ := H
      obtain ⟨g, hgt, hg1⟩ := hI i p hi halive
      have hij : i < j := lt_of_lt_of_le (List.getElem?_eq_some_iff.mp hi).1 hj
      exact ⟨g, by rw [hgt, if_pos hij, htime]; rfl, hg1⟩
    · rintro j l r l' r' hjl ⟨hlen, hI⟩ hv
      refine ⟨hlen.trans (visit_grows hv).length, fun i q hq hqa => ?_⟩
      obtain ⟨x, hx, ⟨y, hy, hyt, hya⟩, hold, hnew⟩ := visit_entries hv
      by_cases hil : i < l.items.length
      · by_cases hij : i = j
        · subst hij
          rw [hy] at hq
          cases hq
          obtain ⟨g, hgt, hg1⟩ := hI i x hx (hya hqa)
          refine ⟨g, ?_, hg1⟩
          rw [hyt, push_time _ _ _ _ (hya hqa), hgt, if_neg (lt_irrefl _),
            if_pos (Nat.lt_succ_self _), real_add]
          ring
        · obtain ⟨g, hgt, hg1⟩ := hI i q ((hold i q hij hil).mp hq) hqa
          refine ⟨g, ?_, hg1⟩
          have : i < j ↔ i < j + 1 := by omega
          simp only [← this]; exact hgt
      · obtain ⟨hqt, hxa⟩ := hnew i q (by omega) hq
        obtain ⟨g, hgt, hg1⟩ := hI j x hx hxa
        refine ⟨g + 1, ?_, fun _ => by omega⟩
        rw [hqt, push_time _ _ _ _ hxa, hgt, if_neg (lt_irrefl _), if_neg (by omega), real_add]
        push_cast; ring
    · intro i q hq hqa
      obtain ⟨g, hgt, hg1⟩ := ih i q hq hqa
      exact ⟨g, by simpa using hgt, hg1⟩

/-- C42 is false: in `Witness.cfg` a photon of a source-like list converts in its first
step, and at the end of that step the living positron is one time step ahead. -/
theorem C42_refuted : ∃ (cfg : SimCfg ℝ) (l : PList ℝ) (r : Rng ℝ) (s : EvState ℝ),
    l.items = [.newPhotonE 4 ⟨0, 0, 0⟩ ⟨0, 0, 1⟩ 1 0 true 0] ∧ r.Valid ∧ cfg.dt = 1 ∧
    timeStep cfg (.init l r []) = .ok s ∧
    ∃ p ∈ s.list.items, p.isAlive = true ∧ p.time ≠ s.time := by
  obtain ⟨ph, pos, ele, hstep, _, hpos, _⟩ := Witness.step_eq
  refine ⟨Witness.cfg, Witness.start, Witness.rng, _, ?_, Witness.rng_valid, rfl, hstep, pos, ?_,
    hpos, ?_⟩
  · simp [Witness.start, PList.add, PList.new, Witness.photon]
  · simp
  · obtain ⟨g, hg, hg1⟩ := C42_secondaries_ahead_partial Witness.cfg (.init Witness.start Witness.rng [])
      _ (.step .refl hstep) (by simp [EvState.init, Witness.start, PList.add, PList.new, PList.nPart])
      (by
        intro p hp _
        simp only [EvState.init, Witness.start, PList.add, PList.new] at hp ⊢
        simp at hp
        rw [hp]; simp [Witness.photon, Particle.newPhotonE, Particle.new])
      1 pos rfl hpos
    have : 1 ≤ g := hg1 (by simp [EvState.init, Witness.start, PList.add, PList.new, PList.nPart])
    have hgr : (1:ℝ) ≤ g := by exact_mod_cast this
    rw [hg]
    have : Witness.cfg.dt = 1 := rfl
    rw [this]
    intro h
    simp only at h
    linarith

/-- The hypotheses of C30, C42, C43 and C44 in a case with secondaries: the same event. -/
example : ∃ (cfg : SimCfg ℝ) (s s' : EvState ℝ), Reach cfg s s' ∧
    s.list.nPart = 1 ∧ s'.list.nPart = 3 ∧ s'.list.nPart < s'.list.maxParticles ∧
    (∃ p ∈ s'.list.items, p.isAlive = false) ∧ (∃ p ∈ s'.list.items, p.isAlive = true) := by
  obtain ⟨ph, pos, ele, hstep, hph, hpos, _⟩ := Witness.step_eq
  exact ⟨Witness.cfg, _, _, .step .refl hstep,
    by simp [EvState.init, Witness.start, PList.add, PList.new, PList.nPart], rfl,
    by simp [PList.nPart], ⟨ph, by simp, hph⟩, ⟨pos, by simp, hpos⟩⟩

/-- Two histograms, one due during the event and one after it. -/
example : ∃ (cfg : SimCfg ℝ) (l l' : PList ℝ) (r r' : Rng ℝ) (h1 h2 : Hist ℝ),
    0 < cfg.dt ∧ Event cfg l r [h1, h2] 1 l' r' [h1, h2] ∧ 0 ≤ h1.time ∧
      h1.time + cfg.dt ≤ h2.time := by
  refine ⟨⟨lorentzForce, staticField ⟨0, 0, 0⟩ ⟨0, 0, 0⟩, 1, 1, []⟩, PList.new "0" 5,
    PList.new "0" 5, ⟨fun _ => 1 / 2, 0⟩, ⟨fun _ => 1 / 2, 0⟩,
    .new "a" "Photon" "Energy" 0 0 1 10 0, .new "b" "Photon" "Energy" 7 0 1 10 0, one_pos, ?_, ?_, ?_⟩
  · let s : EvState ℝ := ⟨PList.new "0" 5, ⟨fun _ => 1 / 2, 0⟩, 0 + 1, 1,
      [.new "a" "Photon" "Energy" 0 0 1 10 0, .new "b" "Photon" "Energy" 7 0 1 10 0]⟩
    refine .mk (s := s) (.step (s' := s) ?_ ?_ (.done ?_)) ?_
    · simp [EvState.init]
    · have ha : ∀ (cfg : SimCfg ℝ) r, advance cfg (PList.new "0" 5) r = .ok (PList.new "0" 5, r) := by
        intro cfg r; rfl
      simp [timeStep, histStep, EvState.init, Hist.new, fillHist, PList.new] at ha ⊢
      rw [ha]
      simp [s, PList.new, Hist.new]
    · simp [s]
    · simp [s, fillRest, PList.new, fillHist]
  · simp [Hist.new]
  · simp [Hist.new]

end QED
