import Verif.Lemmas.Sim
import Verif.Lemmas.Loop

set_option autoImplicit false
set_option linter.unusedSectionVars false

/-!
# Random numbers are only ever consumed

The position in the stream of raw draws never goes back.
-/

namespace QED

open MCTools

variable {D : Type} [Dbl D]

theorem storePhoton_pos (cfg : EmissionCfg D) (p : Particle D) (g : D) (l : PList D) (r : Rng D) :
    r.pos ≤ (storePhoton cfg p g l r).2.pos := by
  unfold storePhoton
  split
  · (split <;> simp [Rng.next]); omega
  · exact le_rfl

theorem stochastic_pos {cfg : EmissionCfg D} {p p' : Particle D} {l l' : PList D} {r r' : Rng D}
    (h : stochasticInteract cfg p l r = .ok (p', l', r')) : r.pos ≤ r'.pos := by
  unfold stochasticInteract at h
  by_cases h0 : (p.mass ==. Dbl.lit 0) || !p.isAlive
  · rw [if_pos h0] at h
    simp only [Res.ok.injEq, Prod.mk.injEq] at h
    rw [h.2.2]
  · rw [if_neg h0, Res.bind_eq_ok] at h
    obtain ⟨logh, _, h⟩ := h
    dsimp only at h
    split at h
    · rw [Res.bind_eq_ok] at h
      obtain ⟨chi, _, h⟩ := h
      simp only [Res.ok.injEq, Prod.mk.injEq] at h
      rw [← h.2.2]
      refine le_trans ?_ (Nat.le_succ _)
      refine le_trans (Nat.le_succ _) (storePhoton_pos cfg _ _ l r.next.2)
    · simp only [Res.ok.injEq, Prod.mk.injEq] at h
      rw [h.2.2]

theorem continuous_pos {cfg : EmissionCfg D} {c : Bool} {p p' : Particle D} {l l' : PList D}
    {r r' : Rng D} (h : continuousInteract cfg c p l r = .ok (p', l', r')) : r.pos ≤ r'.pos := by
  unfold continuousInteract at h
  by_cases h0 : (p.mass ==. Dbl.lit 0) || !p.isAlive
  · rw [if_pos h0] at h
    simp only [Res.ok.injEq, Prod.mk.injEq] at h
    rw [h.2.2]
  · rw [if_neg h0] at h
    dsimp only at h
    split at h
    · simp only [Res.ok.injEq, Prod.mk.injEq] at h
      rw [← h.2.2]; simp [Rng.next]
    · rw [Res.bind_eq_ok] at h
      obtain ⟨lc, _, h⟩ := h
      split at h <;> simp only [Res.ok.injEq, Prod.mk.injEq] at h <;> rw [← h.2.2] <;>
        simp [Rng.next] <;> omega

theorem bw_pos {cfg : BWCfg D} {p p' : Particle D} {l l' : PList D} {r r' : Rng D}
    (h : bwInteract cfg p l r = .ok (p', l', r')) : r.pos ≤ r'.pos := by
  unfold bwInteract at h
  split at h
  · simp only [Res.ok.injEq, Prod.mk.injEq] at h
    rw [h.2.2]
  · rw [Res.bind_eq_ok] at h
    obtain ⟨logt, _, h⟩ := h
    dsimp only at h
    split at h
    · rw [Res.bind_eq_ok] at h
      obtain ⟨s, _, h⟩ := h
      simp only [Res.ok.injEq, Prod.mk.injEq] at h
      rw [← h.2.2]; simp [Rng.next]; omega
    · simp only [Res.ok.injEq, Prod.mk.injEq] at h
      rw [h.2.2]

theorem interact_pos {proc : Proc D} {p p' : Particle D} {l l' : PList D} {r r' : Rng D}
    (h : proc.interact p l r = .ok (p', l', r')) : r.pos ≤ r'.pos := by
  cases proc with
  | stochastic cfg => exact stochastic_pos h
  | continuous cfg c => exact continuous_pos h
  | breitWheeler cfg => exact bw_pos h

theorem interactAt_pos {proc : Proc D} {k : Nat} {l l' : PList D} {r r' : Rng D}
    (h : interactAt proc k l r = .ok (l', r')) : r.pos ≤ r'.pos := by
  unfold interactAt at h
  rw [Res.bind_eq_ok] at h
  obtain ⟨p, _, h⟩ := h
  rw [Res.bind_eq_ok] at h
  obtain ⟨⟨p', l1, r1⟩, h1, h⟩ := h
  simp only [Res.ok.injEq, Prod.mk.injEq] at h
  rw [← h.2]
  exact interact_pos h1

theorem interactAll_pos {procs : List (Proc D)} {k : Nat} {l l' : PList D} {r r' : Rng D}
    (h : interactAll procs k l r = .ok (l', r')) : r.pos ≤ r'.pos := by
  induction procs generalizing l r with
  | nil =>
    simp only [interactAll, Res.ok.injEq, Prod.mk.injEq] at h
    rw [h.2]
  | cons proc rest ih =>
    rw [interactAll, Res.bind_eq_ok] at h
    obtain ⟨⟨l1, r1⟩, h1, h⟩ := h
    exact (interactAt_pos h1).trans (ih h)

theorem visit_pos {cfg : SimCfg D} {k : Nat} {l l' : PList D} {r r' : Rng D}
    (h : visit cfg k l r = .ok (l', r')) : r.pos ≤ r'.pos := by
  unfold visit at h
  rw [Res.bind_eq_ok] at h
  obtain ⟨p, _, h⟩ := h
  exact interactAll_pos h

theorem particleLoop_pos {cfg : SimCfg D} {fuel k : Nat} {l l' : PList D} {r r' : Rng D}
    (h : particleLoop cfg fuel k l r = .ok (l', r')) : r.pos ≤ r'.pos := by
  induction fuel generalizing k l r with
  | zero =>
    simp only [particleLoop, Res.ok.injEq, Prod.mk.injEq] at h
    rw [h.2]
  | succ fuel ih =>
    rw [particleLoop] at h
    split at h
    · rw [Res.bind_eq_ok] at h
      obtain ⟨⟨l1, r1⟩, h1, h⟩ := h
      exact (visit_pos h1).trans (ih h)
    · simp only [Res.ok.injEq, Prod.mk.injEq] at h
      rw [h.2]

theorem advance_pos {cfg : SimCfg D} {l l' : PList D} {r r' : Rng D}
    (h : advance cfg l r = .ok (l', r')) : r.pos ≤ r'.pos := particleLoop_pos h

theorem histStep_nil {s : EvState D} (h : s.hists = []) : histStep s = .ok s := by
  unfold histStep; rw [h]; rfl

theorem timeStep_nil {cfg : SimCfg D} {s t : EvState D} (hs : s.hists = []) :
    timeStep cfg s = .ok t ↔ ∃ l r, advance cfg s.list s.rng = .ok (l, r) ∧
      t = { s with list := l, rng := r, time := s.time +. cfg.dt } := by
  unfold timeStep
  rw [histStep_nil hs, Res.ok_bind, Res.bind_eq_ok]
  constructor
  · rintro ⟨⟨l, r⟩, h1, h2⟩
    exact ⟨l, r, h1, (Res.ok.inj h2).symm⟩
  · rintro ⟨l, r, h1, rfl⟩
    exact ⟨(l, r), h1, rfl⟩

end QED
