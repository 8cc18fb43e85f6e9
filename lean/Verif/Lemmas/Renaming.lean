import Verif.Lemmas.Draws
import Verif.Model.Source

set_option autoImplicit false
set_option linter.unusedSectionVars false

/-!
# The name of an event

The name of a particle list changes nothing in an event.
-/

namespace QED.Renaming

open Dbl MCTools

variable {D : Type} [Dbl D]

/-- The list under another name. -/
def ren (n : String) (l : PList D) : PList D := { l with name := n }

/-- What a process gives, with the list under another name. -/
def out (n : String) : Res (Particle D × PList D × Rng D) → Res (Particle D × PList D × Rng D)
  | .ok x => .ok (x.1, ren n x.2.1, x.2.2)
  | .exit c => .exit c
  | .throw w => .throw w
  | .ub w => .ub w

theorem add_ren (n : String) (l : PList D) (p : Particle D) : (ren n l).add p = ren n (l.add p) := by
  unfold PList.add ren
  dsimp only
  split_ifs <;> rfl

theorem out_bind {α : Type} (n : String) (x : Res α) (f : α → Res (Particle D × PList D × Rng D)) :
    out n (x >>= f) = x >>= fun a => out n (f a) := by
  cases x <;> rfl

theorem out_ite (n : String) (c : Prop) [Decidable c] (a b : Res (Particle D × PList D × Rng D)) :
    out n (if c then a else b) = if c then out n a else out n b := by
  split_ifs <;> rfl

theorem store_ren (n : String) (cfg : EmissionCfg D) (p : Particle D) (e : D) (l : PList D) (r : Rng D) :
    storePhoton cfg p e (ren n l) r = (ren n (storePhoton cfg p e l r).1, (storePhoton cfg p e l r).2) := by
  unfold storePhoton
  split_ifs
  · rw [add_ren]
  · rfl
  · rfl

theorem interact_ren (n : String) (proc : Proc D) (p : Particle D) (l : PList D) (r : Rng D) :
    proc.interact p (ren n l) r = out n (proc.interact p l r) := by
  cases proc with
  | stochastic cfg =>
    show stochasticInteract cfg p (ren n l) r = out n (stochasticInteract cfg p l r)
    unfold stochasticInteract
    simp only [out_ite, out_bind, store_ren]
    rfl
  | continuous cfg classical =>
    show continuousInteract cfg classical p (ren n l) r = out n (continuousInteract cfg classical p l r)
    unfold continuousInteract
    simp only [out_ite, out_bind, add_ren]
    rfl
  | breitWheeler cfg =>
    show bwInteract cfg p (ren n l) r = out n (bwInteract cfg p l r)
    unfold bwInteract
    simp only [out_ite, out_bind, add_ren]
    rfl

theorem interactAt_ren (n : String) {proc : Proc D} {k : Nat} {l l' : PList D} {r r' : Rng D}
    (h : interactAt proc k l r = .ok (l', r')) : interactAt proc k (ren n l) r = .ok (ren n l', r') := by
  unfold interactAt at h ⊢
  obtain ⟨p, hp, h⟩ := Res.bind_eq_ok.1 h
  obtain ⟨x, hx, h⟩ := Res.bind_eq_ok.1 h
  cases h
  have h1 : (ren n l).get k = .ok p := hp
  rw [h1]
  show proc.interact p (ren n l) r >>= _ = _
  rw [interact_ren, hx]
  rfl

theorem interactAll_ren (n : String) : ∀ {procs : List (Proc D)} {k : Nat} {l l' : PList D} {r r' : Rng D},
    interactAll procs k l r = .ok (l', r') → interactAll procs k (ren n l) r = .ok (ren n l', r')
  | [], _, _, _, _, _, h => by cases h; rfl
  | proc :: procs, k, l, l', r, r', h => by
    unfold interactAll at h ⊢
    obtain ⟨x, hx, h⟩ := Res.bind_eq_ok.1 h
    rw [interactAt_ren n hx]
    exact interactAll_ren n h

theorem visit_ren (n : String) {cfg : SimCfg D} {k : Nat} {l l' : PList D} {r r' : Rng D}
    (h : visit cfg k l r = .ok (l', r')) : visit cfg k (ren n l) r = .ok (ren n l', r') := by
  unfold visit at h ⊢
  obtain ⟨p, hp, h⟩ := Res.bind_eq_ok.1 h
  have h1 : (ren n l).get k = .ok p := hp
  rw [h1]
  exact interactAll_ren n h

theorem loop_ren (n : String) {cfg : SimCfg D} : ∀ {fuel k : Nat} {l l' : PList D} {r r' : Rng D},
    particleLoop cfg fuel k l r = .ok (l', r') → particleLoop cfg fuel k (ren n l) r = .ok (ren n l', r')
  | 0, _, _, _, _, _, h => by cases h; rfl
  | fuel + 1, k, l, l', r, r', h => by
    unfold particleLoop at h ⊢
    by_cases hk : k < l.nPart
    · rw [if_pos hk] at h
      rw [if_pos (show k < (ren n l).nPart from hk)]
      obtain ⟨x, hx, h⟩ := Res.bind_eq_ok.1 h
      rw [visit_ren n hx]
      exact loop_ren n h
    · rw [if_neg hk] at h
      rw [if_neg (show ¬k < (ren n l).nPart from hk)]
      cases h
      rfl

theorem timeLoop_ren (n : String) {cfg : SimCfg D} : ∀ {fuel : Nat} {s e : EvState D}, s.hists = [] →
    timeLoop cfg fuel s = some (.ok e) →
    timeLoop cfg fuel { s with list := ren n s.list } = some (.ok { e with list := ren n e.list })
  | 0, s, e, _, h => by
    unfold timeLoop at h ⊢
    by_cases ht : (s.time <. cfg.timeEnd) = true
    · rw [if_pos ht] at h
      cases h
    · rw [if_neg ht] at h ⊢
      cases h
      rfl
  | fuel + 1, s, e, hs, h => by
    unfold timeLoop at h ⊢
    by_cases ht : (s.time <. cfg.timeEnd) = true
    · rw [if_pos ht] at h ⊢
      cases hst : timeStep cfg s with
      | ok s' =>
        rw [hst] at h
        obtain ⟨l, r, ha, rfl⟩ := (timeStep_nil hs).mp hst
        have h2 : timeStep cfg { s with list := ren n s.list } =
            .ok { s with list := ren n l, rng := r, time := s.time +. cfg.dt } :=
          (timeStep_nil (s := { s with list := ren n s.list }) hs).mpr ⟨ren n l, r, loop_ren n ha, rfl⟩
        rw [h2]
        exact timeLoop_ren n (s := { s with list := l, rng := r, time := s.time +. cfg.dt }) hs h
      | exit c | throw c | ub c =>
        rw [hst] at h
        cases h
    · rw [if_neg ht] at h ⊢
      cases h
      rfl

end QED.Renaming
