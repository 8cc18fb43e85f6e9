import Verif.Lemmas.Prolong
import Verif.Lemmas.Witness

set_option autoImplicit false
set_option linter.unusedSectionVars false

/-!
# C110: a longer run continues a shorter one

For any arithmetic, so for doubles, too.
-/

namespace QED

open Dbl MCTools

variable {D : Type} [Dbl D]

/-- If an event is run twice from the same start, once to a later end time, the longer run
passes through the final state of the shorter one and goes on from there. -/
theorem C110_run (cfg : SimCfg D) (T : D)
    (hT : ∀ t : D, (t <. cfg.timeEnd) = true → (t <. T) = true) (s s₁ : EvState D) (n : Nat)
    (h : Run cfg s n (.ok s₁)) (m : Nat) (o : Res (EvState D)) :
    Run { cfg with timeEnd := T } s m o ↔
      ∃ n', m = n + n' ∧ Run { cfg with timeEnd := T } s₁ n' o := by
  constructor
  · intro hr
    obtain ⟨n', rfl⟩ := Nat.exists_eq_add_of_le (run_longer hT h s₁ rfl m o hr)
    exact ⟨n', rfl, (run_goes_on hT h s₁ rfl n' o).mp hr⟩
  · rintro ⟨n', rfl, hr⟩
    exact (run_goes_on hT h s₁ rfl n' o).mpr hr

/-- What ends the shorter run early ends the longer one at the same step. -/
theorem C110_abort (cfg : SimCfg D) (T : D)
    (hT : ∀ t : D, (t <. cfg.timeEnd) = true → (t <. T) = true) (s : EvState D) (n : Nat)
    (o : Res (EvState D)) (ho : ∀ s, o ≠ .ok s) (h : Run cfg s n o) :
    Run { cfg with timeEnd := T } s n o :=
  run_aborts hT h ho

/-- In the output: every particle of the shorter run is in the longer run at the same place
with the same kind, mass, charge and weight, and its recorded track begins with the track of
the shorter run. Histograms filled before the end of the shorter run are the same; the others
show, in the shorter run, the particles at its end. -/
theorem C110_event (cfg : SimCfg D) (T : D)
    (hT : ∀ t : D, (t <. cfg.timeEnd) = true → (t <. T) = true) (l : PList D) (r : Rng D)
    (hists : List (Hist D)) (n₁ n₂ : Nat) (l₁ l₂ : PList D) (r₁ r₂ : Rng D)
    (hists₁ hists₂ : List (Hist D)) (h₁ : Event cfg l r hists n₁ l₁ r₁ hists₁)
    (h₂ : Event { cfg with timeEnd := T } l r hists n₂ l₂ r₂ hists₂) :
    n₁ ≤ n₂ ∧
    (∀ (k : Nat) (p : Particle D), l₁.items[k]? = some p → ∃ q, l₂.items[k]? = some q ∧
      q.kind = p.kind ∧ q.mass = p.mass ∧ q.charge = p.charge ∧ q.weight = p.weight ∧
      p.posHistory <+: q.posHistory ∧ p.momHistory <+: q.momHistory ∧
      p.timeHistory <+: q.timeHistory ∧ p.gammaHistory <+: q.gammaHistory) ∧
    ∃ c, (∀ k < c, hists₁[k]? = hists₂[k]?) ∧
      ∀ (k : Nat) (h0 : Hist D), c ≤ k → hists[k]? = some h0 →
        ∃ h1, fillHist h0 l₁.items = .ok h1 ∧ hists₁[k]? = some h1 := by
  cases h₁ with
  | @mk s₁ _ hr₁ hf₁ =>
    cases h₂ with
    | @mk s₂ _ hr₂ hf₂ =>
      obtain ⟨n', hn, hr'⟩ := (C110_run cfg T hT _ s₁ n₁ hr₁ n₂ _).mp hr₂
      refine ⟨by omega, ?_, s₁.histCount, ?_, ?_⟩
      · intro k p hk
        obtain ⟨q, hq, hid⟩ := C44_grow_and_keep_identity _ _ _ hr'.reach k p hk
        obtain ⟨q', hq', he⟩ := reach_extends hr'.reach k p hk
        rw [hq] at hq'
        cases hq'
        exact ⟨q, hq, hid.kind, hid.mass, hid.charge, hid.weight, he.pos, he.mom, he.time, he.gamma⟩
      · intro k hk
        obtain ⟨_, b₁, _⟩ := fillRest_spec hf₁
        obtain ⟨_, b₂, _⟩ := fillRest_spec hf₂
        obtain ⟨a, b⟩ := run_hists hr'
        rw [b₁ k hk, b₂ k (lt_of_lt_of_le hk a), b k hk]
      · intro k h0 hk h
        have inv := histInv_steps (s0 := .init l r hists) rfl (run_ok_iff.mp hr₁).1
        obtain ⟨_, _, c⟩ := fillRest_spec hf₁
        exact c k h0 hk (by rw [inv.rest k hk]; exact h)

/-- For real numbers the condition on the end times is that the second is not smaller. -/
theorem C110_end_times (T₁ T₂ : ℝ) :
    (∀ t : ℝ, (t <. T₁) = true → (t <. T₂) = true) ↔ T₁ ≤ T₂ := by
  simp only [real_lt, decide_eq_true_eq]
  exact ⟨fun h => le_of_forall_lt h, fun h t ht => lt_of_lt_of_le ht h⟩

/-- The event in which a photon converts, run for one step and for two. -/
example : ∃ (l₁ l₂ : PList ℝ) (r₁ r₂ : Rng ℝ),
    Event Witness.cfg Witness.start Witness.rng [] 1 l₁ r₁ [] ∧
      Event { Witness.cfg with timeEnd := 2 } Witness.start Witness.rng [] 2 l₂ r₂ [] ∧
      Witness.cfg.timeEnd < 2 := by
  obtain ⟨ph, pos, ele, hs, hph, -, -, -, -, -, -, kpos, kele⟩ := Witness.step_eq
  have h0 : visit Witness.cfg 0 ⟨"0", 10, [ph, pos, ele]⟩ ⟨fun _ => 1 / 2, 3⟩ =
      .ok (⟨"0", 10, [ph, pos, ele]⟩, ⟨fun _ => 1 / 2, 3⟩) :=
    C30_dead_inert _ _ _ _ ph rfl hph
  have h1 := Witness.visit_lepton Witness.cfg _ rfl 1 ⟨"0", 10, [ph, pos, ele]⟩
    ⟨fun _ => 1 / 2, 3⟩ pos rfl kpos
  set pos' := pushParticle Witness.cfg.push Witness.cfg.field Witness.cfg.dt pos
  have h2 := Witness.visit_lepton Witness.cfg _ rfl 2 ⟨"0", 10, [ph, pos', ele]⟩
    ⟨fun _ => 1 / 2, 3⟩ ele rfl kele
  set ele' := pushParticle Witness.cfg.push Witness.cfg.field Witness.cfg.dt ele
  have hadv : advance Witness.cfg ⟨"0", 10, [ph, pos, ele]⟩ ⟨fun _ => 1 / 2, 3⟩ =
      .ok (⟨"0", 10, [ph, pos', ele']⟩, ⟨fun _ => 1 / 2, 3⟩) := by
    unfold advance
    simp only [particleLoop]
    rw [if_pos (by simp [PList.nPart]), h0]
    simp only [Res.ok_bind]
    rw [if_pos (by simp [PList.nPart]), h1]
    simp only [Res.ok_bind, PList.set, List.set_cons_succ, List.set_cons_zero]
    rw [if_pos (by simp [PList.nPart]), h2]
    simp only [Res.ok_bind, PList.set, List.set_cons_succ, List.set_cons_zero]
    rw [if_neg (by simp [PList.nPart])]
  have hs2 : timeStep Witness.cfg ⟨⟨"0", 10, [ph, pos, ele]⟩, ⟨fun _ => 1 / 2, 3⟩, 1, 0, []⟩ =
      .ok ⟨⟨"0", 10, [ph, pos', ele']⟩, ⟨fun _ => 1 / 2, 3⟩, 2, 0, []⟩ := by
    unfold timeStep histStep
    simp only [List.getElem?_nil, Res.ok_bind, hadv]
    simp [Witness.cfg]; norm_num
  refine ⟨_, _, _, _, Event.mk (s := ⟨⟨"0", 10, [ph, pos, ele]⟩, ⟨fun _ => 1 / 2, 3⟩, 1, 0, []⟩)
    (.step ?_ hs (.done ?_)) rfl,
    Event.mk (s := ⟨⟨"0", 10, [ph, pos', ele']⟩, ⟨fun _ => 1 / 2, 3⟩, 2, 0, []⟩)
    (.step ?_ ((timeStep_until Witness.cfg 2 _).trans hs) (.step ?_
      ((timeStep_until Witness.cfg 2 _).trans hs2) (.done ?_))) rfl, ?_⟩
  · simp [EvState.init, Witness.cfg]
  · simp [Witness.cfg]
  · simp [EvState.init]
  · simp
  · simp
  · simp [Witness.cfg]

end QED
