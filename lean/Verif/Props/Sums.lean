import Verif.Lemmas.Sums
import Verif.Props.LargeNumbers

set_option autoImplicit false

/-!
# C161: the histograms of a run are the sums of those of its events
-/

namespace QED

open Dbl MCTools Main Sums

/-- C161 for the events of a source: each event fills the histograms as it would fill empty ones, if it were the only one
to be recorded. At the end each bin holds what it held before and the sum over the events; the entries are counted in the
same way, modulo `2 ^ 32`. -/
theorem C161_events (cfg : SimCfg ℝ) (fuel : Nat) (output tracking : Bool) :
    ∀ (k j : Nat) (s s' : Source ℝ) (w w' : World ℝ), (∀ h ∈ w.hists, h.entries < 2 ^ 32) →
      runEvents cfg fuel output tracking k j (s, w) = (some (.ok (s', w')) : Timed _) →
      w'.hists.map Hist.blank = w.hists.map Hist.blank ∧
      ∃ gss, gss.length = k ∧
        EachAlone cfg fuel output tracking (w.hists.map Hist.blank) j (s, w.rng, w.out) gss (s', w'.rng, w'.out) ∧
        ∀ i, (∀ b, bin w'.hists i b = bin w.hists i b + (gss.map fun gs => bin gs i b).sum) ∧
          entriesOf w'.hists i = (entriesOf w.hists i + (gss.map fun gs => entriesOf gs i).sum) % 2 ^ 32
  | 0, j, s, s', w, w', he, h => by
    cases Res.ok.inj (Option.some.inj h)
    refine ⟨rfl, [], rfl, .nil, fun i => ⟨fun b => by simp, ?_⟩⟩
    unfold entriesOf
    cases hi : w.hists[i]? with
    | none => simp
    | some x =>
      have := he x (List.mem_of_getElem? hi)
      simp only [Option.map_some, Option.getD_some, List.map_nil, List.sum_nil]
      omega
  | k + 1, j, s, s', w, w', he, h => by
    unfold runEvents at h
    obtain ⟨⟨s1, w1⟩, h1, h2⟩ := Timed.bind_eq.mp h
    have h1' : runEvent cfg fuel output tracking j
        (s, ⟨w.rng, List.zipWith plus w.hists (w.hists.map Hist.blank), w.out⟩) = (some (.ok (s1, w1)) : Timed _) := by
      rw [zipWith_blank he]; exact h1
    obtain ⟨gs, e1, e2, r1⟩ := runEvent_plus (ready_blank w.hists) h1'
    obtain ⟨sm, bl⟩ := Ready.small r1.1
    dsimp only at e1 e2
    rw [← e2] at sm bl
    obtain ⟨b1, gss, l1, a1, t1⟩ := C161_events cfg fuel output tracking k (j + 1) s1 s' w1 w' sm h2
    have bl' := bl.trans r1.2
    rw [bl'] at b1 a1
    refine ⟨b1, gs :: gss, by simp [l1], .cons e1 a1, fun i => ⟨fun b => ?_, ?_⟩⟩
    · rw [(t1 i).1 b, e2, (bin_plus r1.1 i b).1, List.map_cons, List.sum_cons, add_assoc]
    · rw [(t1 i).2, e2, (bin_plus r1.1 i 0).2, List.map_cons, List.sum_cons]
      omega

/-- C161 for the sources of a run. -/
theorem C161_sources (cfg : SimCfg ℝ) (fuel : Nat) (tracking : Bool) :
    ∀ (ss : List (Source ℝ × Bool)) (w w' : World ℝ), (∀ h ∈ w.hists, h.entries < 2 ^ 32) →
      runSources cfg fuel tracking ss w = (some (.ok w') : Timed _) →
      w'.hists.map Hist.blank = w.hists.map Hist.blank ∧
      ∃ gss, SourcesAlone cfg fuel tracking (w.hists.map Hist.blank) ss (w.rng, w.out) gss (w'.rng, w'.out) ∧
        ∀ i, (∀ b, bin w'.hists i b = bin w.hists i b + (gss.map fun gs => bin gs i b).sum) ∧
          entriesOf w'.hists i = (entriesOf w.hists i + (gss.map fun gs => entriesOf gs i).sum) % 2 ^ 32
  | [], w, w', he, h => by
    cases Res.ok.inj (Option.some.inj h)
    refine ⟨rfl, [], .nil, fun i => ⟨fun b => by simp, ?_⟩⟩
    unfold entriesOf
    cases hi : w.hists[i]? with
    | none => simp
    | some x =>
      have := he x (List.mem_of_getElem? hi)
      simp only [Option.map_some, Option.getD_some, List.map_nil, List.sum_nil]
      omega
  | s :: ss, w, w', he, h => by
    unfold runSources at h
    obtain ⟨w1, h1, h2⟩ := Timed.bind_eq.mp h
    have h1' : runSource cfg fuel tracking s
        ⟨w.rng, List.zipWith plus w.hists (w.hists.map Hist.blank), w.out⟩ = (some (.ok w1) : Timed _) := by
      rw [zipWith_blank he]; exact h1
    obtain ⟨gs, e1, e2, r1⟩ := runSource_plus (ready_blank w.hists) h1'
    obtain ⟨sm, bl⟩ := Ready.small r1.1
    rw [← e2] at sm bl
    obtain ⟨b1, gss, a1, t1⟩ := C161_sources cfg fuel tracking ss w1 w' sm h2
    have bl' := bl.trans r1.2
    rw [bl'] at b1 a1
    refine ⟨b1, gs :: gss, .cons e1 a1, fun i => ⟨fun b => ?_, ?_⟩⟩
    · rw [(t1 i).1 b, e2, (bin_plus r1.1 i b).1, List.map_cons, List.sum_cons, add_assoc]
    · rw [(t1 i).2, e2, (bin_plus r1.1 i 0).2, List.map_cons, List.sum_cons]
      omega

namespace Sums

theorem bin_makeHists (garbage : Nat → Nat) : ∀ (hs : List (HistogramParams ℝ)) (n i b : Nat),
    bin (makeHists garbage n hs) i b = 0
  | [], n, i, b => by simp [makeHists, bin]
  | h :: hs, n, 0, b => by
    simp only [makeHists, bin, List.getElem?_cons_zero, Option.map_some, Option.getD_some, makeHist, Hist.new]
    rw [List.getElem?_replicate]
    split <;> simp
  | h :: hs, n, i + 1, b => by
    have := bin_makeHists garbage hs (n + 1) i b
    simpa [makeHists, bin] using this

theorem makeHists_small {garbage : Nat → Nat} (hg : ∀ i, garbage i < 2 ^ 32) : ∀ (hs : List (HistogramParams ℝ)) (n : Nat),
    ∀ h ∈ makeHists garbage n hs, h.entries < 2 ^ 32
  | [], n, h, hh => by simp [makeHists] at hh
  | x :: hs, n, h, hh => by
    rcases List.mem_cons.mp hh with rfl | hh
    · exact hg n
    · exact makeHists_small hg hs (n + 1) h hh

end Sums

/-- C161 for the program: when its sources have been simulated, each bin of each histogram holds the sum over the sources
of what each would give by itself, whatever was in the memory of the histograms. -/
theorem C161_run (cfg : SimCfg ℝ) (fuel : Nat) (tracking : Bool) (ss : List (Source ℝ × Bool)) (r : Rng ℝ) (o : OutMgr ℝ)
    (garbage : Nat → Nat) (hg : ∀ i, garbage i < 2 ^ 32) (hs : List (HistogramParams ℝ)) (w' : World ℝ)
    (h : runSources cfg fuel tracking ss ⟨r, makeHists garbage 0 hs, o⟩ = (some (.ok w') : Timed _)) :
    ∃ gss, SourcesAlone cfg fuel tracking ((makeHists garbage 0 hs).map Hist.blank) ss (r, o) gss (w'.rng, w'.out) ∧
      ∀ i b, bin w'.hists i b = (gss.map fun gs => bin gs i b).sum := by
  obtain ⟨-, gss, h1, h2⟩ := C161_sources cfg fuel tracking ss _ w' (makeHists_small hg hs 0) h
  exact ⟨gss, h1, fun i b => by rw [(h2 i).1 b, bin_makeHists, zero_add]⟩

namespace SumsWitness

open LargeWitness (cfg)

/-- Three bins for the energies of photons, with what is in the second one. -/
noncomputable def hist (e : Nat) (v : ℝ) : Hist ℝ :=
  ⟨"energies", "Energy", "Photon", 3, e, 0, [0, 3 / 2, 3], [0, v, 0]⟩

/-- Two photons of energy 1 along the axis. -/
noncomputable def source (c : Nat) : Source ℝ :=
  ⟨"Photon", 2, ⟨0, 0, 0⟩, ⟨0, 0, 1⟩, [0, 0], [0, 0], [0, 0], [0, 0], [0, 0], [1, 1], c,
    ⟨1, 0, 0, 0, 1, 0, 0, 0, 1⟩, false⟩

noncomputable def photon (u : ℝ) : Particle ℝ :=
  .newPhotonE 1 (((source 0).rotation.mulVec ⟨0, 0, 0⟩).add (source 0).position)
    ((source 0).rotation.mulVec (Source.sphere 0 0)) (lit 1) (lit 0) false u

theorem fills (e : Nat) (v u : ℝ) : fillHist (hist e v) [photon u] = .ok (hist (Hist.incr e) (v + 1)) := by
  have hd : (source 0).rotation.mulVec (Source.sphere 0 0) = (⟨0, 0, 1⟩ : V3 ℝ) := by
    simp [source, Source.sphere, M3.mulVec, M3.acc3]
  have he : (photon u).energy = 1 := by
    unfold photon
    rw [hd]
    simp [Particle.newPhotonE, Particle.new, Particle.energy, V3.mag, V3.dot, V3.smul, V3.norm, V3.divs]
  have hn : (photon u).name = "Photon" := rfl
  unfold fillHist
  rw [if_pos (by rw [hn]; rfl), Hist.appParticle, if_neg (by simp [hist]), he]
  norm_num [Hist.count, hist, rd, Numerics.usub, Numerics.arrayIndex, Numerics.scanLow, fillHist]

theorem event (j c e : Nat) (hc : c < 2) (v : ℝ) (r : Rng ℝ) (o : OutMgr ℝ) : ∃ s, s.1 = source (c + 1) ∧
    s.2.hists = [hist (Hist.incr e) (v + 1)] ∧
    runEvent cfg 0 false false j (source c, ⟨r, [hist e v], o⟩) = (some (.ok s) : Timed _) := by
  have hg : (source c).generateList r = .ok (PList.add (PList.new (toString c) PList.defaultMax) (photon r.next.1),
      source (c + 1), r.next.2) := by
    obtain rfl | rfl : c = 0 ∨ c = 1 := by omega
    · rfl
    · rfl
  have ht : ∀ l r hs, timeLoop cfg 0 (.init l r hs) = some (.ok (.init l r hs)) := fun l r hs =>
    if_neg (by simp [EvState.init, cfg])
  refine ⟨(source (c + 1), ⟨r.next.2, [hist (Hist.incr e) (v + 1)], o⟩), rfl, rfl, ?_⟩
  unfold runEvent
  refine Timed.bind_eq.mpr ⟨_, congrArg some hg, ?_⟩
  dsimp only
  refine Timed.bind_eq.mpr ⟨o, rfl, ?_⟩
  refine Timed.bind_eq.mpr ⟨_, ht _ _ _, ?_⟩
  refine Timed.bind_eq.mpr ⟨[hist (Hist.incr e) (v + 1)], ?_, ?_⟩
  · refine congrArg some ?_
    show (fillHist (hist e v) [photon r.next.1] >>= _) = _
    rw [fills]
    rfl
  · exact Timed.bind_eq.mpr ⟨o, rfl, rfl⟩

end SumsWitness

open SumsWitness in open LargeWitness (cfg) in
/-- Two photons in the same bin. -/
example (r : Rng ℝ) (o : OutMgr ℝ) : ∃ s' w',
    runEvents cfg 0 false false 2 0 (source 0, ⟨r, [hist 0 0], o⟩) =
      (some (.ok (s', w')) : Timed _) ∧ bin w'.hists 0 1 = 2 ∧ entriesOf w'.hists 0 = 2 ∧
    ∃ gss : List (List (Hist ℝ)), gss.length = 2 ∧ (gss.map fun gs => bin gs 0 1).sum = 2 := by
  obtain ⟨⟨s1, w1⟩, a1, b1, h1⟩ := event 0 0 0 (by norm_num) 0 r o
  obtain ⟨⟨s2, w2⟩, a2, b2, h2⟩ := event 1 1 1 (by norm_num) 1 w1.rng w1.out
  obtain ⟨r1, hs1, o1⟩ := w1
  dsimp only at a1 b1 a2 b2 h2
  subst a1 b1
  have h : runEvents cfg 0 false false 2 0 (source 0, ⟨r, [hist 0 0], o⟩) =
      (some (.ok (s2, w2)) : Timed _) := by
    unfold runEvents
    refine Timed.bind_eq.mpr ⟨_, h1, ?_⟩
    unfold runEvents
    refine Timed.bind_eq.mpr ⟨_, ?_, rfl⟩
    rw [← h2]
    norm_num [Hist.incr]
  have hb : bin w2.hists 0 1 = 2 := by rw [b2]; norm_num [bin, hist]
  refine ⟨s2, w2, h, hb, by rw [b2]; norm_num [entriesOf, hist, Hist.incr], ?_⟩
  obtain ⟨-, gss, l, -, t⟩ := C161_events cfg 0 false false 2 0 _ _ _ _ (by simp [hist]) h
  refine ⟨gss, l, ?_⟩
  have := (t 0).1 1
  rw [hb] at this
  simpa [bin, hist] using this.symm

end QED
