import Verif.Spec.Sums
import Verif.Lemmas.Sim
import Verif.Lemmas.Program

set_option autoImplicit false

/-!
# Adding a constant to the histograms of a run
-/

namespace QED.Sums

open Dbl Main MCTools

/-- The counts of `a` added to the histogram `g`. -/
def plus (a g : Hist ℝ) : Hist ℝ :=
  { g with entries := (a.entries + g.entries) % 2 ^ 32, values := List.zipWith (· + ·) a.values g.values }

def Fits (a g : Hist ℝ) : Prop := a.values.length = g.values.length

theorem count_plus {a g h : Hist ℝ} {x : ℝ} (hf : Fits a g) (h1 : (plus a g).count x = .ok h) :
    ∃ g', g.count x = .ok g' ∧ h = plus a g' ∧ Fits a g' ∧ g'.blank = g.blank := by
  unfold Hist.count at h1 ⊢
  dsimp only at h1 ⊢
  have ei : Hist.incr ((a.entries + g.entries) % 2 ^ 32) = (a.entries + Hist.incr g.entries) % 2 ^ 32 := by
    unfold Hist.incr; omega
  obtain ⟨first, e1, h1⟩ := Res.bind_eq_ok.1 h1
  obtain ⟨last, e2, h1⟩ := Res.bind_eq_ok.1 h1
  have e1' : rd g.centres 0 = .ok first := e1
  have e2' : rd g.centres (Numerics.usub g.nBins 1) = .ok last := e2
  rw [e1', Res.ok_bind, e2', Res.ok_bind]
  by_cases hc : ((first <. x) && (x <. last)) = true
  · rw [if_pos hc] at h1 ⊢
    obtain ⟨k, e3, h1⟩ := Res.bind_eq_ok.1 h1
    obtain ⟨v, e4, h1⟩ := Res.bind_eq_ok.1 h1
    have e3' : Numerics.arrayIndex g.centres x = .ok k := e3
    rw [e3', Res.ok_bind]
    have e4' : rd (List.zipWith (· + ·) a.values g.values) k = .ok v := e4
    have hv : (List.zipWith (· + ·) a.values g.values)[k]? = some v := by
      unfold rd at e4'
      split at e4'
      · cases e4'; assumption
      · cases e4'
    have hk : k < g.values.length := by
      have := (List.getElem?_eq_some_iff.mp hv).1
      rw [List.length_zipWith] at this
      omega
    have hka : k < a.values.length := by unfold Fits at hf; omega
    have e5 : rd g.values k = .ok g.values[k] := by
      unfold rd
      rw [List.getElem?_eq_getElem hk]
    have hv' : v = a.values[k] + g.values[k] := by
      obtain ⟨_, h⟩ := List.getElem?_eq_some_iff.mp hv
      rw [← h, List.getElem_zipWith]
    rw [show rd ({ g with entries := Hist.incr g.entries } : Hist ℝ).values k = rd g.values k from rfl, e5, Res.ok_bind]
    refine ⟨_, rfl, ?_, ?_, ?_⟩
    · cases h1
      have : (List.zipWith (· + ·) a.values g.values).set k (v + 1) =
          List.zipWith (· + ·) a.values (g.values.set k (g.values[k] + 1)) := by
        apply List.ext_getElem
        · simp
        · intro i h1 h2
          rw [List.getElem_set, List.getElem_zipWith, List.getElem_zipWith, List.getElem_set]
          split
          · rename_i h; subst h; rw [hv']; ring
          · rfl
      unfold plus
      simp only [real_add, real_lit, Rat.cast_one]
      rw [← this]
      congr 1
    · unfold Fits at hf ⊢
      simp [hf]
    · unfold Hist.blank
      simp
  · rw [if_neg hc] at h1 ⊢
    refine ⟨_, rfl, ?_, hf, rfl⟩
    cases h1
    unfold plus
    congr 1

theorem fillHist_plus {a : Hist ℝ} : ∀ (ps : List (Particle ℝ)) {g h : Hist ℝ}, Fits a g →
    fillHist (plus a g) ps = .ok h →
    ∃ g', fillHist g ps = .ok g' ∧ h = plus a g' ∧ Fits a g' ∧ g'.blank = g.blank
  | [], g, h, hf, h1 => by
    cases h1
    exact ⟨g, rfl, rfl, hf, rfl⟩
  | p :: ps, g, h, hf, h1 => by
    have hcons : ∀ h : Hist ℝ, fillHist h (p :: ps) =
        ((if h.particle = p.name then h.appParticle p else .ok h) >>= fun h => fillHist h ps) := by
      intro h
      rw [fillHist]
      split <;> rfl
    rw [hcons] at h1
    rw [hcons]
    obtain ⟨x, h2, h1⟩ := Res.bind_eq_ok.1 h1
    have : ∃ g1, (if g.particle = p.name then g.appParticle p else .ok g) = .ok g1 ∧ x = plus a g1 ∧ Fits a g1 ∧
        g1.blank = g.blank := by
      by_cases hp : g.particle = p.name
      · rw [if_pos hp]
        rw [if_pos (show (plus a g).particle = p.name from hp)] at h2
        unfold Hist.appParticle at h2 ⊢
        by_cases h0 : g.nBins = 0
        · rw [if_pos (show (plus a g).nBins = 0 from h0)] at h2; cases h2
        · rw [if_neg (show (plus a g).nBins ≠ 0 from h0)] at h2
          rw [if_neg h0]
          exact count_plus hf h2
      · rw [if_neg hp]
        rw [if_neg (show ¬ (plus a g).particle = p.name from hp)] at h2
        cases h2
        exact ⟨g, rfl, rfl, hf, rfl⟩
    obtain ⟨g1, e1, rfl, f1, b1⟩ := this
    obtain ⟨g', e2, e3, f2, b2⟩ := fillHist_plus ps f1 h1
    exact ⟨g', by rw [e1]; exact e2, e3, f2, b2.trans b1⟩

/-- The state `t` with the histograms `as` added. -/
def over (as : List (Hist ℝ)) (t : EvState ℝ) : EvState ℝ := { t with hists := List.zipWith plus as t.hists }

/-- The histograms have the settings of `bs`, and sizes that fit to `as`. -/
def Ready (as gs bs : List (Hist ℝ)) : Prop := List.Forall₂ Fits as gs ∧ gs.map Hist.blank = bs

theorem forall₂_set {α β : Type} {R : α → β → Prop} : ∀ {as : List α} {bs : List β} {k : Nat} {a : α} {b : β},
    List.Forall₂ R as bs → as[k]? = some a → R a b → List.Forall₂ R as (bs.set k b)
  | _, _, _, _, _, .nil, h, _ => by simp at h
  | _, _, 0, _, _, .cons _ hs, h, hr => by
    simp only [List.getElem?_cons_zero, Option.some.injEq] at h
    subst h
    exact .cons hr hs
  | _, _, k + 1, _, _, .cons h1 hs, h, hr => by
    simp only [List.getElem?_cons_succ] at h
    exact .cons h1 (forall₂_set hs h hr)

theorem zipWith_set {as : List (Hist ℝ)} {gs : List (Hist ℝ)} {k : Nat} {a g : Hist ℝ} (ha : as[k]? = some a) :
    (List.zipWith plus as gs).set k (plus a g) = List.zipWith plus as (gs.set k g) := by
  apply List.ext_getElem?
  intro i
  rw [List.getElem?_set, List.getElem?_zipWith, List.getElem?_zipWith, List.getElem?_set]
  by_cases h : k = i
  · subst h
    rw [if_pos rfl, if_pos rfl, ha]
    have hk := (List.getElem?_eq_some_iff.mp ha).1
    by_cases hg : k < gs.length
    · rw [if_pos (by simp; omega), if_pos hg]
    · rw [if_neg (by simp; omega), if_neg hg]
  · rw [if_neg h, if_neg h]

theorem map_set_blank {gs : List (Hist ℝ)} {k : Nat} {g g' : Hist ℝ} (hg : gs[k]? = some g) (hb : g'.blank = g.blank) :
    (gs.set k g').map Hist.blank = gs.map Hist.blank := by
  rw [List.map_set, hb]
  apply List.ext_getElem?
  intro i
  rw [List.getElem?_set]
  by_cases h : k = i
  · subst h
    obtain ⟨h1, h2⟩ := List.getElem?_eq_some_iff.mp hg
    simp [h1, ← h2]
  · rw [if_neg h]

theorem histStep_plus {as bs : List (Hist ℝ)} {t s' : EvState ℝ} (hr : Ready as t.hists bs)
    (h : histStep (over as t) = .ok s') : ∃ t', histStep t = .ok t' ∧ s' = over as t' ∧ Ready as t'.hists bs := by
  unfold histStep at h ⊢
  have e : (over as t).hists[(over as t).histCount]? = (List.zipWith plus as t.hists)[t.histCount]? := rfl
  rw [e, List.getElem?_zipWith] at h
  have hl := hr.1.length_eq
  cases hg : t.hists[t.histCount]? with
  | none =>
    rw [hg] at h
    cases ha : as[t.histCount]? <;>
    · rw [ha] at h
      cases h
      exact ⟨t, rfl, rfl, hr⟩
  | some g =>
    have hk := (List.getElem?_eq_some_iff.mp hg).1
    have ha : as[t.histCount]? = some as[t.histCount] := List.getElem?_eq_getElem (by omega)
    generalize as[t.histCount] = a at ha
    have hf : Fits a g := List.forall₂_iff_get.mp hr.1 |>.2 |> fun H => by
      obtain ⟨h1, e1⟩ := List.getElem?_eq_some_iff.mp ha
      obtain ⟨h2, e2⟩ := List.getElem?_eq_some_iff.mp hg
      have := H t.histCount h1 h2
      simp only [List.get_eq_getElem] at this
      rwa [e1, e2] at this
    rw [hg, ha] at h
    dsimp only at h ⊢
    have et : (over as t).time = t.time := rfl
    by_cases hc : (g.time <=. t.time) = true
    · rw [if_pos hc]
      rw [if_pos (show ((plus a g).time <=. (over as t).time) = true from hc)] at h
      obtain ⟨x, h1, h⟩ := Res.bind_eq_ok.1 h
      obtain ⟨g', e1, rfl, f1, b1⟩ := fillHist_plus _ hf h1
      rw [show fillHist g t.list.items = .ok g' from e1, Res.ok_bind]
      cases h
      refine ⟨_, rfl, ?_, forall₂_set hr.1 ha f1, (map_set_blank hg b1).trans hr.2⟩
      unfold over
      dsimp only
      rw [zipWith_set ha]
    · rw [if_neg hc]
      rw [if_neg (show ¬ ((plus a g).time <=. (over as t).time) = true from hc)] at h
      cases h
      exact ⟨t, rfl, rfl, hr⟩

theorem timeStep_plus {cfg : SimCfg ℝ} {as bs : List (Hist ℝ)} {t s' : EvState ℝ} (hr : Ready as t.hists bs)
    (h : timeStep cfg (over as t) = .ok s') :
    ∃ t', timeStep cfg t = .ok t' ∧ s' = over as t' ∧ Ready as t'.hists bs := by
  unfold timeStep at h ⊢
  obtain ⟨x, h1, h⟩ := Res.bind_eq_ok.1 h
  obtain ⟨t1, e1, rfl, r1⟩ := histStep_plus hr h1
  obtain ⟨⟨l, r⟩, h2, h⟩ := Res.bind_eq_ok.1 h
  cases h
  rw [e1, Res.ok_bind, show advance cfg t1.list t1.rng = .ok (l, r) from h2, Res.ok_bind]
  exact ⟨_, rfl, rfl, r1⟩

theorem timeLoop_plus {cfg : SimCfg ℝ} {as bs : List (Hist ℝ)} : ∀ (fuel : Nat) {t s' : EvState ℝ},
    Ready as t.hists bs → timeLoop cfg fuel (over as t) = some (.ok s') →
    ∃ t', timeLoop cfg fuel t = some (.ok t') ∧ s' = over as t' ∧ Ready as t'.hists bs
  | 0, t, s', hr, h => by
    unfold timeLoop at h ⊢
    by_cases hc : (t.time <. cfg.timeEnd) = true
    · rw [if_pos (show ((over as t).time <. cfg.timeEnd) = true from hc)] at h; cases h
    · rw [if_neg (show ¬ ((over as t).time <. cfg.timeEnd) = true from hc)] at h
      rw [if_neg hc]
      cases h
      exact ⟨t, rfl, rfl, hr⟩
  | fuel + 1, t, s', hr, h => by
    unfold timeLoop at h ⊢
    by_cases hc : (t.time <. cfg.timeEnd) = true
    · rw [if_pos (show ((over as t).time <. cfg.timeEnd) = true from hc)] at h
      rw [if_pos hc]
      cases h1 : timeStep cfg (over as t) with
      | ok s1 =>
        rw [h1] at h
        obtain ⟨t1, e1, rfl, r1⟩ := timeStep_plus hr h1
        rw [e1]
        exact timeLoop_plus fuel r1 h
      | exit c => rw [h1] at h; cases h
      | throw c => rw [h1] at h; cases h
      | ub c => rw [h1] at h; cases h
    · rw [if_neg (show ¬ ((over as t).time <. cfg.timeEnd) = true from hc)] at h
      rw [if_neg hc]
      cases h
      exact ⟨t, rfl, rfl, hr⟩

theorem fillRest_plus (l : PList ℝ) : ∀ {as gs hs : List (Hist ℝ)} (c : Nat), List.Forall₂ Fits as gs →
    fillRest l c (List.zipWith plus as gs) = .ok hs →
    ∃ gs', fillRest l c gs = .ok gs' ∧ hs = List.zipWith plus as gs' ∧ List.Forall₂ Fits as gs' ∧
      gs'.map Hist.blank = gs.map Hist.blank
  | _, _, _, c, .nil, h => by
    cases c <;> (cases h; exact ⟨[], rfl, rfl, .nil, rfl⟩)
  | _, _, _, c + 1, .cons (a := a) (b := g) (l₁ := as) (l₂ := gs) h1 hf, h => by
    rw [List.zipWith_cons_cons] at h
    unfold fillRest at h ⊢
    obtain ⟨x, h2, h⟩ := Res.bind_eq_ok.1 h
    obtain ⟨gs', e1, rfl, f1, b1⟩ := fillRest_plus l c hf h2
    cases h
    rw [e1, Res.ok_bind]
    exact ⟨_, rfl, rfl, .cons h1 f1, by simp [b1]⟩
  | _, _, _, 0, .cons (a := a) (b := g) (l₁ := as) (l₂ := gs) h1 hf, h => by
    rw [List.zipWith_cons_cons] at h
    unfold fillRest at h ⊢
    obtain ⟨y, h3, h⟩ := Res.bind_eq_ok.1 h
    obtain ⟨x, h2, h⟩ := Res.bind_eq_ok.1 h
    obtain ⟨g', e0, rfl, f0, b0⟩ := fillHist_plus _ h1 h3
    obtain ⟨gs', e1, rfl, f1, b1⟩ := fillRest_plus l 0 hf h2
    cases h
    rw [e0, Res.ok_bind, e1, Res.ok_bind]
    exact ⟨_, rfl, rfl, .cons f0 f1, by simp [b0, b1]⟩

theorem runEvent_plus {cfg : SimCfg ℝ} {fuel : Nat} {output tracking : Bool} {j : Nat} {s : Source ℝ} {r : Rng ℝ}
    {o : OutMgr ℝ} {as gs bs : List (Hist ℝ)} {z : Source ℝ × World ℝ} (hr : Ready as gs bs)
    (h : runEvent cfg fuel output tracking j (s, ⟨r, List.zipWith plus as gs, o⟩) = (some (.ok z) : Timed _)) :
    ∃ gs', runEvent cfg fuel output tracking j (s, ⟨r, gs, o⟩) =
        (some (.ok (z.1, ⟨z.2.rng, gs', z.2.out⟩)) : Timed _) ∧
      z.2.hists = List.zipWith plus as gs' ∧ Ready as gs' bs := by
  unfold runEvent at h
  obtain ⟨⟨l, source, rng⟩, e1, h⟩ := Timed.bind_eq.mp h
  dsimp only at h
  obtain ⟨out1, e2, h⟩ := Timed.bind_eq.mp h
  obtain ⟨e, e3, h⟩ := Timed.bind_eq.mp h
  obtain ⟨hists, e4, h⟩ := Timed.bind_eq.mp h
  obtain ⟨out2, e5, h⟩ := Timed.bind_eq.mp h
  obtain rfl := Res.ok.inj (Option.some.inj h)
  obtain ⟨t, f3, rfl, r1⟩ := timeLoop_plus (t := .init l rng gs) fuel hr e3
  obtain ⟨gs', f4, f5, f6, f7⟩ := fillRest_plus t.list t.histCount r1.1 (Res.ok.inj (congrArg Res.ok (Option.some.inj e4)) :)
  refine ⟨gs', ?_, f5, f6, f7.trans r1.2⟩
  unfold runEvent
  refine Timed.bind_eq.mpr ⟨_, e1, ?_⟩
  dsimp only
  refine Timed.bind_eq.mpr ⟨_, e2, ?_⟩
  refine Timed.bind_eq.mpr ⟨t, f3, ?_⟩
  refine Timed.bind_eq.mpr ⟨gs', congrArg some f4, ?_⟩
  exact Timed.bind_eq.mpr ⟨out2, e5, rfl⟩

theorem runEvents_plus {cfg : SimCfg ℝ} {fuel : Nat} {output tracking : Bool} {as bs : List (Hist ℝ)} :
    ∀ (k j : Nat) {s : Source ℝ} {r : Rng ℝ} {o : OutMgr ℝ} {gs : List (Hist ℝ)} {z : Source ℝ × World ℝ},
    Ready as gs bs →
    runEvents cfg fuel output tracking k j (s, ⟨r, List.zipWith plus as gs, o⟩) = (some (.ok z) : Timed _) →
    ∃ gs', runEvents cfg fuel output tracking k j (s, ⟨r, gs, o⟩) =
        (some (.ok (z.1, ⟨z.2.rng, gs', z.2.out⟩)) : Timed _) ∧
      z.2.hists = List.zipWith plus as gs' ∧ Ready as gs' bs
  | 0, j, s, r, o, gs, z, hr, h => by
    obtain rfl := Res.ok.inj (Option.some.inj h)
    exact ⟨gs, rfl, rfl, hr⟩
  | k + 1, j, s, r, o, gs, z, hr, h => by
    unfold runEvents at h ⊢
    obtain ⟨⟨s1, w1⟩, h1, h2⟩ := Timed.bind_eq.mp h
    obtain ⟨gs1, e1, e2, r1⟩ := runEvent_plus hr h1
    obtain ⟨rng1, hists1, out1⟩ := w1
    dsimp only at e2
    subst e2
    obtain ⟨gs', e3, e4, r2⟩ := runEvents_plus k (j + 1) r1 h2
    exact ⟨gs', Timed.bind_eq.mpr ⟨_, e1, e3⟩, e4, r2⟩

theorem runSource_plus {cfg : SimCfg ℝ} {fuel : Nat} {tracking : Bool} {s : Source ℝ × Bool} {r : Rng ℝ}
    {o : OutMgr ℝ} {as gs bs : List (Hist ℝ)} {z : World ℝ} (hr : Ready as gs bs)
    (h : runSource cfg fuel tracking s ⟨r, List.zipWith plus as gs, o⟩ = (some (.ok z) : Timed _)) :
    ∃ gs', runSource cfg fuel tracking s ⟨r, gs, o⟩ = (some (.ok ⟨z.rng, gs', z.out⟩) : Timed _) ∧
      z.hists = List.zipWith plus as gs' ∧ Ready as gs' bs := by
  unfold runSource at h ⊢
  obtain ⟨⟨s1, w1⟩, h1, h2⟩ := Timed.bind_eq.mp h
  dsimp only at h2
  obtain ⟨o1, h3, h4⟩ := Timed.bind_eq.mp h2
  obtain rfl := Res.ok.inj (Option.some.inj h4)
  obtain ⟨gs', e1, e2, r1⟩ := runEvents_plus _ _ hr h1
  exact ⟨gs', Timed.bind_eq.mpr ⟨_, e1, Timed.bind_eq.mpr ⟨o1, h3, rfl⟩⟩, e2, r1⟩

theorem fits_blank (h : Hist ℝ) : Fits h h.blank := by simp [Fits, Hist.blank]

theorem blank_blank (h : Hist ℝ) : h.blank.blank = h.blank := by simp [Hist.blank]

theorem plus_blank {h : Hist ℝ} (he : h.entries < 2 ^ 32) : plus h h.blank = h := by
  have e1 : (h.entries + 0) % 2 ^ 32 = h.entries := by omega
  have e2 : List.zipWith (· + ·) h.values (h.values.map fun _ => (0 : ℝ)) = h.values := by
    apply List.ext_getElem <;> simp
  unfold plus Hist.blank
  dsimp only
  rw [e2, e1]

theorem blank_plus {a g : Hist ℝ} (hf : Fits a g) : (plus a g).blank = g.blank := by
  unfold Fits at hf
  unfold plus Hist.blank
  dsimp only
  congr 1
  apply List.ext_getElem <;> simp [hf]

theorem ready_blank (hs : List (Hist ℝ)) : Ready hs (hs.map Hist.blank) (hs.map Hist.blank) := by
  constructor
  · rw [List.forall₂_map_right_iff, List.forall₂_same]
    exact fun h _ => fits_blank h
  · simp [Function.comp_def, blank_blank]

theorem zipWith_blank : ∀ {hs : List (Hist ℝ)}, (∀ h ∈ hs, h.entries < 2 ^ 32) →
    List.zipWith plus hs (hs.map Hist.blank) = hs
  | [], _ => rfl
  | h :: hs, he => by
    rw [List.map_cons, List.zipWith_cons_cons, plus_blank (he h (by simp)),
      zipWith_blank fun x hx => he x (by simp [hx])]

theorem Ready.small : ∀ {as gs : List (Hist ℝ)}, List.Forall₂ Fits as gs →
    (∀ h ∈ List.zipWith plus as gs, h.entries < 2 ^ 32) ∧
      (List.zipWith plus as gs).map Hist.blank = gs.map Hist.blank
  | _, _, .nil => by simp
  | _, _, .cons h1 hs => by
    obtain ⟨a, b⟩ := Ready.small hs
    rw [List.zipWith_cons_cons, List.map_cons, List.map_cons, blank_plus h1, b]
    refine ⟨fun h hh => ?_, rfl⟩
    rcases List.mem_cons.mp hh with rfl | hh
    · exact Nat.mod_lt _ (by norm_num)
    · exact a h hh

theorem bin_plus : ∀ {as gs : List (Hist ℝ)}, List.Forall₂ Fits as gs → ∀ i b,
    bin (List.zipWith plus as gs) i b = bin as i b + bin gs i b ∧
      entriesOf (List.zipWith plus as gs) i = (entriesOf as i + entriesOf gs i) % 2 ^ 32
  | _, _, .nil, i, b => by simp [bin, entriesOf]
  | _, _, .cons (a := a) (b := g) h1 hs, i + 1, b => by
    have := bin_plus hs i b
    simpa [bin, entriesOf] using this
  | _, _, .cons (a := a) (b := g) h1 hs, 0, b => by
    unfold Fits at h1
    refine ⟨?_, by simp [entriesOf, plus]⟩
    simp only [bin, List.zipWith_cons_cons, List.getElem?_cons_zero, Option.map_some, Option.getD_some, plus]
    rw [List.getElem?_zipWith]
    by_cases hb : b < a.values.length
    · rw [List.getElem?_eq_getElem hb, List.getElem?_eq_getElem (by omega)]
      rfl
    · rw [List.getElem?_eq_none (by omega), List.getElem?_eq_none (by omega)]
      simp

end QED.Sums
