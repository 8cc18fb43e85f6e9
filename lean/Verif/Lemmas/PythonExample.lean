import Verif.Lemmas.RunEnds
import Verif.Lemmas.Events
import Verif.Props.Event

set_option linter.unusedSectionVars false
set_option autoImplicit false

/-!
# Events without pair production
-/

namespace QED

open Dbl MCTools

variable {D : Type} [Dbl D]

/-- Emission adds photons only. -/
theorem emission_adds_photons {proc : Proc D}
    (hp : (∃ e, proc = .stochastic e) ∨ ∃ e c, proc = .continuous e c) {p : Particle D} {l : PList D}
    {r : Rng D} {p' : Particle D} {l' : PList D} {r' : Rng D}
    (h : proc.interact p l r = .ok (p', l', r')) :
    ∃ new, l' = l.addAll new ∧ ∀ q ∈ new, q.kind = .photon := by
  obtain ⟨new, he⟩ := interact_effect h
  refine ⟨new, he.list, ?_⟩
  rcases he.kinds with ⟨rfl, -⟩ | ⟨ph, rfl, hk, -⟩ | ⟨pos, ele, -, -, -, -, -, hk, ha, ha', -⟩
  · intro q hq; cases hq
  · intro q hq
    rw [List.mem_singleton.mp hq]
    exact hk
  · exfalso
    rcases hp with ⟨e, rfl⟩ | ⟨e, c, rfl⟩
    · rcases stochastic_cases h with ⟨-, rfl, -, -⟩ | ⟨-, delta, -, ⟨-, rfl, -⟩ | ⟨-, chi, u, v, -, -, -, -, rfl, -⟩⟩
      · rw [ha] at ha'; cases ha'
      · rw [show (p.updateOpticalDepth delta).isAlive = p.isAlive from rfl, ha] at ha'; cases ha'
      · unfold Particle.initOpticalDepth Particle.updateTrack at ha'
        dsimp only at ha'
        split at ha' <;> (change p.isAlive = false at ha'; rw [ha] at ha'; cases ha')
    · obtain ⟨rfl, -⟩ := continuous_cases h
      rw [ha] at ha'; cases ha'

/-- Without pair production an event of one particle ends with this particle and photons. -/
theorem only_photons_added {cfg : SimCfg D}
    (hp : ∀ proc ∈ cfg.procs, (∃ e, proc = .stochastic e) ∨ ∃ e c, proc = .continuous e c)
    {s s' : EvState D} (hr : Reach cfg s s') {p : Particle D} (hs : s.list.items = [p]) :
    ∃ p' ps, s'.list.items = p' :: ps ∧ KeepsIdentity p p' ∧ ∀ q ∈ ps, q.kind = .photon := by
  have key : ∃ p' ps, s'.list.items = p' :: ps ∧ ∀ q ∈ ps, q.kind = .photon := by
    refine reach_induct (I := fun l _ => ∃ p' ps, l.items = p' :: ps ∧ ∀ q ∈ ps, q.kind = .photon)
      ?_ ?_ hr ⟨p, [], hs, by simp⟩
    · rintro k l r q hk ⟨p', ps, hl, hps⟩
      rw [PList.set_items, hl]
      cases k with
      | zero => exact ⟨_, ps, rfl, hps⟩
      | succ k =>
        refine ⟨p', ps.set k _, rfl, fun x hx => ?_⟩
        rcases List.mem_or_eq_of_mem_set hx with h | rfl
        · exact hps x h
        · rw [hl, List.getElem?_cons_succ] at hk
          rw [(push_identity cfg.push cfg.field cfg.dt q).1]
          exact hps q (List.mem_of_getElem? hk)
    · rintro proc hm k l r q q' l' r' hk ⟨p', ps, hl, hps⟩ hint
      obtain ⟨new, rfl, hnew⟩ := emission_adds_photons (hp proc hm) hint
      obtain ⟨_, he⟩ := interact_effect hint
      rw [PList.set_items]
      obtain ⟨rest, hrest, hsub⟩ : ∃ rest, (l.addAll new).items = l.items ++ rest ∧ rest ⊆ new := by
        exact ⟨_, PList.addAll_items l new, List.take_subset _ _⟩
      rw [hrest, hl, List.cons_append]
      have hall : ∀ x ∈ ps ++ rest, x.kind = .photon := by
        intro x hx
        rcases List.mem_append.mp hx with h | h
        · exact hps x h
        · exact hnew x (hsub h)
      cases k with
      | zero => exact ⟨_, _, rfl, hall⟩
      | succ k =>
        refine ⟨p', (ps ++ rest).set k q', rfl, fun x hx => ?_⟩
        rcases List.mem_or_eq_of_mem_set hx with h | rfl
        · exact hall x h
        · rw [hl, List.getElem?_cons_succ] at hk
          rw [he.same.kind]
          exact hps q (List.mem_of_getElem? hk)
  obtain ⟨p', ps, h1, h2⟩ := key
  obtain ⟨q, hq, hid⟩ := C44_grow_and_keep_identity cfg s s' hr 0 p (by rw [hs]; rfl)
  rw [h1] at hq
  exact ⟨p', ps, h1, by rw [← Option.some.inj hq] at hid; exact hid, h2⟩

namespace RunMgr

/-- The `j`-th event comes from the `j`-th call of the source. -/
theorem events_nth {cfg : SimCfg D} {tid : Nat → Nat} {i : Nat} {s : Source D} {rs : Results D}
    {r : Rng D} {o : Res (List (PList D × PList D) × Results D × Rng D)}
    (h : Events cfg tid i s rs r o) : ∀ ls rs' r', o = .ok (ls, rs', r') → ∀ k, s.partCount = k →
      ∀ j l, ls[j]? = some l → ∃ ρ ρ' s'' n es, ({ s with partCount := k + j } : Source D).generateList ρ =
        .ok (l.1, s'', ρ') ∧ Run cfg (.init l.1 ρ' []) n (.ok es) ∧ es.list = l.2 := by
  induction h with
  | done hi => intro ls rs' r' ho k _ j l hl; cases ho; cases hl
  | @event i s rs r l s' r' rs1 n es rs2 ls rs3 r3 hi hg hin hrun hfin _ ih =>
    intro ls' rs' r'' ho k hk j x hx
    cases ho
    subst hk
    cases j with
    | zero =>
      cases Option.some.inj hx
      exact ⟨r, r', s', n, es, hg, hrun, rfl⟩
    | succ j =>
      have hs' : s' = { s with partCount := s.partCount + 1 } := by
        unfold Source.generateList at hg
        split at hg
        · cases hg
        · obtain ⟨_, _, hg⟩ := Res.bind_eq_ok.mp hg
          obtain ⟨_, _, hg⟩ := Res.bind_eq_ok.mp hg
          obtain ⟨_, _, hg⟩ := Res.bind_eq_ok.mp hg
          obtain ⟨_, _, hg⟩ := Res.bind_eq_ok.mp hg
          obtain ⟨_, _, hg⟩ := Res.bind_eq_ok.mp hg
          obtain ⟨_, _, hg⟩ := Res.bind_eq_ok.mp hg
          obtain ⟨_, _, hg⟩ := Res.bind_eq_ok.mp hg
          cases hg
          rfl
      obtain ⟨a, b, c, d, e, h1, h2⟩ := ih ls rs3 r3 rfl _ rfl j x hx
      rw [hs'] at h1
      refine ⟨a, b, c, d, e, ?_, h2⟩
      rw [← h1]
      congr 2
      dsimp only
      omega
  | later _ _ _ _ _ _ hno _ => intro ls rs' r' ho; exact absurd ho (hno _)
  | source _ _ => intro ls rs' r' ho; cases ho
  | sourceUb _ _ => intro ls rs' r' ho; cases ho
  | inputUb _ _ _ => intro ls rs' r' ho; cases ho
  | runUb _ _ _ _ => intro ls rs' r' ho; cases ho
  | runExit _ _ _ _ => intro ls rs' r' ho; cases ho
  | finalUb _ _ _ _ _ => intro ls rs' r' ho; cases ho

/-- If the loop leaves the program, the source or an event does. -/
theorem events_exit {cfg : SimCfg D} {tid : Nat → Nat} {i : Nat} {s : Source D} {rs : Results D}
    {r : Rng D} {o : Res (List (PList D × PList D) × Results D × Rng D)}
    (h : Events cfg tid i s rs r o) : ∀ c, o = .exit c → ∃ j ρ, i + j < s.nPart ∧
      (({ s with partCount := s.partCount + j } : Source D).generateList ρ = .exit c ∨
        ∃ l s'' ρ' n, ({ s with partCount := s.partCount + j } : Source D).generateList ρ =
          .ok (l, s'', ρ') ∧ Run cfg (.init l ρ' []) n (.exit c)) := by
  induction h with
  | done _ => intro c ho; cases ho
  | event _ _ _ _ _ _ _ => intro c ho; cases ho
  | @later i s rs r l s' r' rs1 n es rs2 o hi hg _ _ _ _ _ ih =>
    intro c ho
    have hs' : s' = { s with partCount := s.partCount + 1 } := by
      unfold Source.generateList at hg
      split at hg
      · cases hg
      · obtain ⟨_, _, hg⟩ := Res.bind_eq_ok.mp hg
        obtain ⟨_, _, hg⟩ := Res.bind_eq_ok.mp hg
        obtain ⟨_, _, hg⟩ := Res.bind_eq_ok.mp hg
        obtain ⟨_, _, hg⟩ := Res.bind_eq_ok.mp hg
        obtain ⟨_, _, hg⟩ := Res.bind_eq_ok.mp hg
        obtain ⟨_, _, hg⟩ := Res.bind_eq_ok.mp hg
        obtain ⟨_, _, hg⟩ := Res.bind_eq_ok.mp hg
        cases hg
        rfl
    obtain ⟨j, ρ, hj, hx⟩ := ih c ho
    rw [hs'] at hx hj
    refine ⟨j + 1, ρ, by dsimp only at hj; omega, ?_⟩
    have : s.partCount + (j + 1) = s.partCount + 1 + j := by omega
    rw [this]
    exact hx
  | source hi hg => intro c ho; cases ho; exact ⟨0, _, hi, .inl hg⟩
  | sourceUb _ _ => intro c ho; cases ho
  | inputUb _ _ _ => intro c ho; cases ho
  | runUb _ _ _ _ => intro c ho; cases ho
  | runExit hi hg _ hr => intro c ho; cases ho; exact ⟨0, _, hi, .inr ⟨_, _, _, _, hg, hr⟩⟩
  | finalUb _ _ _ _ _ => intro c ho; cases ho

end RunMgr
end QED
