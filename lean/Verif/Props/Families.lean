import Verif.Lemmas.Merge
import Verif.Lemmas.FamilyWitness

set_option autoImplicit false
set_option linter.unusedSectionVars false

/-!
# C111: particles do not influence each other

The initial particles are divided into families by tags. `l.family b tags` is the list with
the particles of family `b` only. All but the last theorem hold in any arithmetic.
-/

namespace QED

open Dbl MCTools

variable {D : Type} [Dbl D] {τ : Type} [DecidableEq τ]

/-- An event falls apart into the events of its families: the secondaries and the random
numbers used can be shared out so that each family, simulated alone with its numbers, takes the
same number of steps and ends with exactly its particles. The list must not have filled up. -/
theorem C111_split_partial (cfg : SimCfg D) (l : PList D) (r : Rng D) (hists : List (Hist D))
    (n : Nat) (l' : PList D) (r' : Rng D) (hists' : List (Hist D))
    (h : Event cfg l r hists n l' r' hists') (hroom : l'.items.length < l'.maxParticles)
    (tags : List τ) (htags : tags.length = l.items.length) :
    ∃ (new : List τ) (draws : List D) (dtags : List τ),
      (tags ++ new).length = l'.items.length ∧ dtags.length = draws.length ∧
      r.Begins draws ∧ r' = r.skip draws.length ∧
      ∀ (b : τ) (rb : Rng D), rb.Begins (select b dtags draws) →
        Event cfg (l.family b tags) rb [] n (l'.family b (tags ++ new))
          (rb.skip (select b dtags draws).length) [] := by
  cases h with
  | mk hr hf =>
    obtain ⟨e, ds, dm, hd, he, hb, hr', hl⟩ := run_families hr hroom tags htags
    exact ⟨e, ds, dm, he, hd, hb, hr', fun b rb hrb => .mk (hl b rb hrb) rfl⟩

/-- Conversely, events of families that together fit in the list can be put together: there is
a sequence of random numbers, made of those of the families, for which the particles simulated
together end as they do alone. -/
theorem C111_merge_partial [Fintype τ] [Nonempty τ] (cfg : SimCfg D) (l : PList D) (tags : List τ)
    (htags : tags.length = l.items.length) (n : Nat) (R R' : τ → Rng D) (L : τ → PList D)
    (h : ∀ b, Event cfg (l.family b tags) (R b) [] n (L b) (R' b) [])
    (hroom : ∑ b, (L b).items.length < l.maxParticles) :
    ∃ (new : List τ) (draws : List D) (dtags : List τ) (l' : PList D),
      (tags ++ new).length = l'.items.length ∧ dtags.length = draws.length ∧
      (∀ b, (R b).Begins (select b dtags draws) ∧
        R' b = (R b).skip (select b dtags draws).length ∧ L b = l'.family b (tags ++ new)) ∧
      ∀ r : Rng D, r.Begins draws → Event cfg l r [] n l' (r.skip draws.length) [] := by
  have h1 : ∀ b, ∃ s : EvState D, Run cfg ⟨l.family b tags, R b, lit 0, 0, []⟩ n (.ok s) ∧
      s.list = L b ∧ s.rng = R' b := by
    intro b
    have hb := h b
    generalize ho : ([] : List (Hist D)) = o at hb
    generalize hL : L b = L' at hb
    generalize hR : R' b = R'' at hb
    cases hb with
    | @mk s _ hr hf => exact ⟨s, hr, rfl, rfl⟩
  choose S hS hSl hSr using h1
  obtain ⟨e, ds, dm, L', t', hd, he, hB, hW⟩ := run_merge n hS htags (by simpa only [hSl] using hroom)
  refine ⟨e, ds, dm, L', he, hd, fun b => ?_, fun r hr => .mk (hW r hr) rfl⟩
  obtain ⟨b1, b2⟩ := hB b
  refine ⟨b1, ?_, ?_⟩
  · rw [← hSr b, b2]
  · rw [← hSl b, b2]

/-- Without processes every particle takes its own path: after `n` steps it has been pushed
`n` times, whatever else is in the list, and no random number has been used. -/
theorem C111_no_processes (cfg : SimCfg D) (hp : cfg.procs = []) (l : PList D) (r : Rng D)
    (hists : List (Hist D)) (n : Nat) (l' : PList D) (r' : Rng D) (hists' : List (Hist D))
    (hcap : l.items.length ≤ l.maxParticles) (h : Event cfg l r hists n l' r' hists') :
    l'.items = l.items.map (pushParticle cfg.push cfg.field cfg.dt)^[n] ∧ r' = r := by
  have hadv : ∀ (l l' : PList D) (r r' : Rng D), l.items.length ≤ l.maxParticles →
      advance cfg l r = .ok (l', r') →
      l'.items = l.items.map (pushParticle cfg.push cfg.field cfg.dt) ∧ r' = r ∧
        l'.maxParticles = l.maxParticles := by
    intro l l' r r' hcap h
    have key := advance_index_induct (cfg := cfg) (I := fun k l1 r1 =>
      l1.items = (l.items.take k).map (pushParticle cfg.push cfg.field cfg.dt) ++ l.items.drop k ∧
        r1 = r ∧ l1.maxParticles = l.maxParticles) ?_ hcap (by simp) h
    · obtain ⟨k, hk, h1, h2, h3⟩ := key
      have : l.items.length ≤ k := by
        have := congrArg List.length h1
        simp only [List.length_append, List.length_map, List.length_take, List.length_drop] at this
        omega
      rw [List.take_of_length_le this, List.drop_of_length_le this, List.append_nil] at h1
      exact ⟨h1, h2, h3⟩
    · intro k l1 r1 l2 r2 hk ⟨h1, h2, h3⟩ hv
      have hkl : k < l.items.length := by
        have := congrArg List.length h1
        simp only [List.length_append, List.length_map, List.length_take, List.length_drop] at this
        omega
      have hget : l1.items[k]? = some l.items[k] := by
        rw [h1, List.getElem?_append_right (by simp), List.length_map, List.length_take,
          Nat.min_eq_left hkl.le, Nat.sub_self, List.getElem?_drop, Nat.add_zero,
          List.getElem?_eq_getElem hkl]
      unfold visit at hv
      rw [PList.get_eq_ok.mpr hget, hp] at hv
      simp only [Res.ok_bind, interactAll, Res.ok.injEq, Prod.mk.injEq] at hv
      obtain ⟨rfl, rfl⟩ := hv
      refine ⟨?_, h2, h3⟩
      rw [PList.set_items, h1, List.set_append, if_neg (by simp), List.length_map,
        List.length_take, Nat.min_eq_left hkl.le, Nat.sub_self, List.drop_eq_getElem_cons hkl,
        List.set_cons_zero, List.take_add_one, List.getElem?_eq_getElem hkl]
      simp only [Option.toList_some, List.map_append, List.map_cons, List.map_nil,
        List.append_assoc, List.cons_append, List.nil_append]
  have hrun : ∀ (s s' : EvState D) (n : Nat), s.list.items.length ≤ s.list.maxParticles →
      Run cfg s n (.ok s') →
      s'.list.items = s.list.items.map (pushParticle cfg.push cfg.field cfg.dt)^[n] ∧
        s'.rng = s.rng := by
    intro s s' n hc hr
    generalize ho : (Res.ok s' : Res (EvState D)) = o at hr
    induction hr with
    | done _ => cases ho; simp
    | step _ h2 _ ih =>
      obtain ⟨h3, h4, h5⟩ := hadv _ _ _ _ hc (timeStep_advance h2).1
      obtain ⟨i1, i2⟩ := ih (by rw [h3, h5]; simpa using hc) ho
      refine ⟨?_, i2.trans h4⟩
      rw [i1, h3, List.map_map, Function.iterate_succ]
    | abort _ _ h3 => exact absurd ho.symm (h3 _)
  cases h with
  | mk hr hf => exact hrun _ _ n hcap hr

/-- When the list fills up, particles do influence each other: of two photons that both convert
when alone, only the first leaves a pair when they share a list of four places. -/
theorem C111_refuted : ∃ (cfg : SimCfg ℝ) (p : Particle ℝ) (r : Rng ℝ) (both alone : PList ℝ)
    (r₁ r₂ : Rng ℝ), (∀ i, r.draw i = 1 / 2) ∧
      Event cfg ⟨"0", 4, [p]⟩ r [] 1 alone r₁ [] ∧ alone.items.length = 3 ∧
      Event cfg ⟨"0", 4, [p, p]⟩ r [] 1 both r₂ [] ∧ both.items.length = 4 := by
  obtain ⟨l, r1, h1, h2⟩ := Witness.alone
  obtain ⟨l', r2, h3, h4⟩ := Witness.crowded
  exact ⟨_, _, _, l', l, r1, r2, fun _ => rfl, h1, h2, h3, h4⟩

/-- An event without processes: two photons fly for one step. -/
example : ∃ l' : PList ℝ, Event { Witness.cfg with procs := [] }
    ⟨"0", 10, [Witness.photon, Witness.photon]⟩ Witness.rng [] 1 l' Witness.rng [] ∧
      l'.items.length = 2 := by
  let q := pushParticle Witness.cfg.push Witness.cfg.field Witness.cfg.dt Witness.photon
  refine ⟨⟨"0", 10, [q, q]⟩, Event.mk (s := ⟨⟨"0", 10, [q, q]⟩, Witness.rng, 1, 0, []⟩)
    (.step (by simp [EvState.init, Witness.cfg]) ?_ (.done (by simp [Witness.cfg]))) rfl, rfl⟩
  · simp [q, timeStep, histStep, EvState.init, advance, particleLoop, visit, interactAll, PList.get,
      PList.set, PList.nPart, Witness.cfg]

/-- Two photons that both convert, in a list with room: each is a family of its own. -/
example : ∃ (l' : PList ℝ) (r' : Rng ℝ),
    Event Witness.cfg ⟨"0", 10, [Witness.photon, Witness.photon]⟩ (Witness.halves 0) [] 1 l' r' [] ∧
      l'.items.length < l'.maxParticles ∧ [false, true].length = 2 := by
  obtain ⟨l, r, h1, h2, h3⟩ := Witness.roomy
  exact ⟨l, r, h1, by omega, rfl⟩

/-- The events of the two photons alone, as needed to put them together. -/
example : ∃ (R' : Bool → Rng ℝ) (L : Bool → PList ℝ),
    (∀ b, Event Witness.cfg
      ((⟨"0", 10, [Witness.photon, Witness.photon]⟩ : PList ℝ).family b [false, true])
      (Witness.halves 0) [] 1 (L b) (R' b) []) ∧ ∑ b, (L b).items.length < 10 := by
  obtain ⟨l, r, h1, h2, h3⟩ := Witness.roomy
  obtain ⟨new, ds, dt, hl, hd, hb, hr, h⟩ := C111_split_partial _ _ _ _ _ _ _ _ h1 (by omega)
    [false, true] rfl
  have hds : ∀ d ∈ ds, d = 1 / 2 := by
    intro d hd
    obtain ⟨i, hi⟩ := List.mem_iff_getElem?.mp hd
    exact (hb i d hi).symm
  have hsel : ∀ (b : Bool) (m : List Bool) (xs : List ℝ), (∀ d ∈ xs, d = 1 / 2) →
      ∀ d ∈ select b m xs, d = 1 / 2 := by
    intro b m
    induction m with
    | nil => intro xs _ d hd; simp at hd
    | cons c m ih =>
      intro xs hx d hd
      cases xs with
      | nil => simp at hd
      | cons x xs =>
        have ih' := ih xs (fun d hd => hx d (List.mem_cons_of_mem _ hd)) d
        rw [select_cons] at hd
        split at hd
        · rcases List.mem_cons.mp hd with rfl | hd
          · exact hx d List.mem_cons_self
          · exact ih' hd
        · exact ih' hd
  refine ⟨_, _, fun b => h b (Witness.halves 0) ?_, ?_⟩
  · intro i d hd
    exact (hsel b dt ds hds d (List.mem_of_getElem? hd)).symm
  · have := sum_select (τ := Bool) ([false, true] ++ new) l.items hl
    simp only [PList.family]
    rw [this, h2]; norm_num

end QED
