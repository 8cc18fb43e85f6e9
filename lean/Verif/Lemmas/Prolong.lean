import Verif.Props.Event

set_option autoImplicit false
set_option linter.unusedSectionVars false

/-!
# Runs with different end times
-/

namespace QED

open Dbl MCTools

variable {D : Type} [Dbl D]

/-- The same simulation with another end time. -/
def SimCfg.until (cfg : SimCfg D) (T : D) : SimCfg D := { cfg with timeEnd := T }

theorem particleLoop_until (cfg : SimCfg D) (T : D) : ∀ (fuel k : Nat) (l : PList D) (r : Rng D),
    particleLoop (cfg.until T) fuel k l r = particleLoop cfg fuel k l r
  | 0, _, _, _ => rfl
  | fuel + 1, k, l, r => by
    have hv : visit (cfg.until T) k l r = visit cfg k l r := rfl
    have ih : (fun x : PList D × Rng D => particleLoop (cfg.until T) fuel (k + 1) x.1 x.2) =
        fun x => particleLoop cfg fuel (k + 1) x.1 x.2 :=
      funext fun x => particleLoop_until cfg T fuel (k + 1) x.1 x.2
    unfold particleLoop
    rw [hv]
    exact congrArg (fun f => if k < l.nPart then visit cfg k l r >>= f else .ok (l, r)) ih

theorem timeStep_until (cfg : SimCfg D) (T : D) (s : EvState D) :
    timeStep (cfg.until T) s = timeStep cfg s := by
  unfold timeStep advance
  simp only [particleLoop_until]
  rfl

variable {cfg : SimCfg D} {T : D}

/-- After a run to its end, a run with a later end goes on. -/
theorem run_goes_on (hT : ∀ t : D, (t <. cfg.timeEnd) = true → (t <. T) = true) {s : EvState D}
    {n : Nat} {o₁ : Res (EvState D)} (h : Run cfg s n o₁) :
    ∀ s₁, o₁ = .ok s₁ → ∀ (n' : Nat) (o : Res (EvState D)),
      Run (cfg.until T) s (n + n') o ↔ Run (cfg.until T) s₁ n' o := by
  induction h with
  | done _ =>
    rintro s₁ h n' o
    cases h
    rw [Nat.zero_add]
  | @step s s' n o₂ hlt hs _ ih =>
    intro s₁ h n' o
    have hlt' : (s.time <. (cfg.until T).timeEnd) = true := hT _ hlt
    have hs' : timeStep (cfg.until T) s = .ok s' := (timeStep_until cfg T s).trans hs
    rw [← ih s₁ h n' o, Nat.add_right_comm]
    constructor
    · generalize hm : n + n' + 1 = m
      intro hr
      cases hr with
      | done h1 => rw [hlt'] at h1; cases h1
      | step _ h2 h3 =>
        rw [hs'] at h2
        cases Res.ok.inj h2
        rw [Nat.succ.inj hm]
        exact h3
      | abort _ h2 h3 => exact absurd (hs'.symm.trans h2).symm (h3 s')
    · intro hr
      exact .step hlt' hs' hr
  | abort _ _ hno => intro s₁ h; exact absurd h (hno s₁)

theorem run_aborts (hT : ∀ t : D, (t <. cfg.timeEnd) = true → (t <. T) = true) {s : EvState D}
    {n : Nat} {o : Res (EvState D)} (h : Run cfg s n o) (ho : ∀ s, o ≠ .ok s) :
    Run (cfg.until T) s n o := by
  induction h with
  | done _ => exact absurd rfl (ho _)
  | @step s s' n o₂ hlt hs _ ih =>
    exact .step (hT _ hlt) ((timeStep_until cfg T s).trans hs) (ih ho)
  | @abort s o hlt hs hno => exact .abort (hT _ hlt) ((timeStep_until cfg T s).trans hs) hno

/-- The number of steps of the longer run is at least that of the shorter one. -/
theorem run_longer (hT : ∀ t : D, (t <. cfg.timeEnd) = true → (t <. T) = true) {s : EvState D}
    {n : Nat} {o₁ : Res (EvState D)} (h : Run cfg s n o₁) :
    ∀ s₁, o₁ = .ok s₁ → ∀ (m : Nat) (o : Res (EvState D)), Run (cfg.until T) s m o → n ≤ m := by
  induction h with
  | done _ => intros; exact Nat.zero_le _
  | @step s s' n o₂ hlt hs _ ih =>
    intro s₁ h m o hr
    have hs' : timeStep (cfg.until T) s = .ok s' := (timeStep_until cfg T s).trans hs
    have hlt' : (s.time <. (cfg.until T).timeEnd) = true := hT _ hlt
    cases hr with
    | done h1 => rw [hlt'] at h1; cases h1
    | step _ h2 h3 =>
      rw [hs'] at h2
      cases Res.ok.inj h2
      exact Nat.succ_le_succ (ih s₁ h _ _ h3)
    | abort _ h2 h3 => exact absurd (hs'.symm.trans h2).symm (h3 s')
  | abort _ _ hno => intro s₁ h; exact absurd h (hno s₁)

/-- Histories only get longer. -/
structure Extends (p q : Particle D) : Prop where
  pos : p.posHistory <+: q.posHistory
  mom : p.momHistory <+: q.momHistory
  time : p.timeHistory <+: q.timeHistory
  gamma : p.gammaHistory <+: q.gammaHistory

theorem Extends.refl (p : Particle D) : Extends p p :=
  ⟨List.prefix_refl _, List.prefix_refl _, List.prefix_refl _, List.prefix_refl _⟩

theorem Extends.trans {p q r : Particle D} (h : Extends p q) (h' : Extends q r) : Extends p r :=
  ⟨h.pos.trans h'.pos, h.mom.trans h'.mom, h.time.trans h'.time, h.gamma.trans h'.gamma⟩

theorem extends_updateTrack (p : Particle D) (x m : V3 D) : Extends p (p.updateTrack x m) := by
  unfold Particle.updateTrack
  dsimp only
  split
  · exact ⟨List.prefix_append _ _, List.prefix_append _ _, List.prefix_append _ _,
      List.prefix_append _ _⟩
  · exact ⟨List.prefix_refl _, List.prefix_refl _, List.prefix_refl _, List.prefix_refl _⟩

theorem extends_push (push : PushMom D) (field : Field D) (dt : D) (p : Particle D) :
    Extends p (pushParticle push field dt p) := by
  rcases push_effect push field dt p with ⟨_, h⟩ | ⟨_, x, m, h⟩ <;> rw [h]
  · exact .refl p
  · obtain ⟨h1, h2, h3, h4⟩ := extends_updateTrack p x m
    exact ⟨h1, h2, h3, h4⟩

theorem extends_effect {p p' : Particle D} {l l' : PList D} {r r' : Rng D}
    {new : List (Particle D)} (h : Effect p l r p' l' r' new) : Extends p p' := by
  rcases h.history with ⟨_, h1, h2, h3, h4⟩ | ⟨m, _, h1, h2, h3, h4⟩
  · exact ⟨by rw [h1], by rw [h2], by rw [h3], by rw [h4]⟩
  · obtain ⟨e1, e2, e3, e4⟩ := extends_updateTrack p p.position m
    exact ⟨by rw [h1]; exact e1, by rw [h2]; exact e2, by rw [h3]; exact e3, by rw [h4]; exact e4⟩

theorem reach_extends {s s' : EvState D} (hr : Reach cfg s s') (k : Nat) (p : Particle D)
    (hk : s.list.items[k]? = some p) :
    ∃ p', s'.list.items[k]? = some p' ∧ Extends p p' := by
  refine reach_induct (I := fun l _ => ∃ p', l.items[k]? = some p' ∧ Extends p p')
    ?_ ?_ hr ⟨p, hk, .refl p⟩
  · rintro j l r q hj ⟨p', hI, hid⟩
    rw [PList.set_items]
    by_cases hjk : j = k
    · subst hjk
      rw [hj] at hI
      cases hI
      have hlt := (List.getElem?_eq_some_iff.mp hj).1
      exact ⟨_, List.getElem?_set_self hlt, hid.trans (extends_push _ _ _ _)⟩
    · exact ⟨p', by rw [List.getElem?_set_ne hjk]; exact hI, hid⟩
  · rintro proc _ j l r q q' l' r' hj ⟨p', hI, hid⟩ hint
    obtain ⟨new, he⟩ := interact_effect hint
    have hlt := (List.getElem?_eq_some_iff.mp hI).1
    rw [items_after hj he, List.getElem?_append_left (by simpa using hlt)]
    by_cases hjk : j = k
    · subst hjk
      rw [hj] at hI
      cases hI
      exact ⟨q', List.getElem?_set_self hlt, hid.trans (extends_effect he)⟩
    · exact ⟨p', by rw [List.getElem?_set_ne hjk]; exact hI, hid⟩

/-- Histograms that have been filled are not touched again. -/
theorem timeStep_hists {s s' : EvState D} (h : timeStep cfg s = .ok s') :
    s.histCount ≤ s'.histCount ∧ ∀ k < s.histCount, s'.hists[k]? = s.hists[k]? := by
  unfold timeStep at h
  rw [Res.bind_eq_ok] at h
  obtain ⟨s1, h1, h⟩ := h
  rw [Res.bind_eq_ok] at h
  obtain ⟨x, _, h⟩ := h
  have h := Res.ok.inj h
  have hs : s.histCount ≤ s1.histCount ∧ ∀ k < s.histCount, s1.hists[k]? = s.hists[k]? := by
    unfold histStep at h1
    cases he : s.hists[s.histCount]? with
    | none =>
      rw [he] at h1
      have h1 := Res.ok.inj h1
      rw [← h1]; exact ⟨le_refl _, fun _ _ => rfl⟩
    | some h0 =>
      rw [he] at h1
      dsimp only at h1
      split at h1
      · rw [Res.bind_eq_ok] at h1
        obtain ⟨h', _, h1⟩ := h1
        have h1 := Res.ok.inj h1
        rw [← h1]
        refine ⟨Nat.le_succ _, fun k hk => ?_⟩
        show (s.hists.set s.histCount h')[k]? = _
        rw [List.getElem?_set_ne (Nat.ne_of_gt hk)]
      · have h1 := Res.ok.inj h1
        rw [← h1]; exact ⟨le_refl _, fun _ _ => rfl⟩
  rw [← h]
  exact hs

theorem run_hists {s s' : EvState D} {n : Nat} (h : Run cfg s n (.ok s')) :
    s.histCount ≤ s'.histCount ∧ ∀ k < s.histCount, s'.hists[k]? = s.hists[k]? := by
  have hs := (run_ok_iff.mp h).1
  clear h
  induction hs with
  | zero => exact ⟨le_refl _, fun _ _ => rfl⟩
  | succ _ _ h2 ih =>
    obtain ⟨a, b⟩ := timeStep_hists h2
    exact ⟨ih.1.trans a, fun k hk => (b k (lt_of_lt_of_le hk ih.1)).trans (ih.2 k hk)⟩

end QED
