import Verif.Spec.Watching
import Verif.Lemmas.Mirror
import Verif.Lemmas.ProgramRun
import Verif.Lemmas.Draws

set_option autoImplicit false
set_option linter.unusedSectionVars false

/-!
# The event loop with and without records
-/

namespace QED

open Dbl MCTools

namespace Watch

variable {D : Type} [Dbl D]

theorem gamma_bare (p : Particle D) : p.bare.gamma = p.gamma := rfl

theorem energy_bare (p : Particle D) : p.bare.energy = p.energy := rfl

theorem updateTrack_bare (p : Particle D) (x q : V3 D) :
    p.bare.updateTrack x q = (p.updateTrack x q).bare := by
  unfold Particle.updateTrack
  by_cases ht : p.tracking
  · simp only [ht, if_true]; rfl
  · simp only [ht]; rfl

theorem updateTrack_time_bare (p : Particle D) (x q : V3 D) (dt : D) :
    (p.bare.updateTrack x q).updateTime dt = ((p.updateTrack x q).updateTime dt).bare := by
  rw [updateTrack_bare]; rfl

theorem push_bare (push : PushMom D) (f : Field D) (dt : D) (p : Particle D) :
    pushParticle push f dt p.bare = (pushParticle push f dt p).bare := by
  unfold pushParticle
  have ha : p.bare.isAlive = p.isAlive := rfl
  have hm : p.bare.mass = p.mass := rfl
  have hc : p.bare.charge = p.charge := rfl
  have ht : p.bare.time = p.time := rfl
  have hx : p.bare.position = p.position := rfl
  have hq : p.bare.momentum = p.momentum := rfl
  rw [ha, hm, hc, ht, hx, hq]
  split
  · rfl
  · split
    · dsimp only
      rw [updateTrack_time_bare]
    · dsimp only
      rw [updateTrack_time_bare]

/-! ## Lists -/

theorem nPart_bare (l : PList D) : l.bare.nPart = l.nPart := by
  simp [PList.nPart, PList.bare]

theorem add_bare (l : PList D) (p : Particle D) : l.bare.add p.bare = (l.add p).bare := by
  unfold PList.add
  simp only [PList.bare, List.length_map]
  split <;> simp

theorem set_bare (l : PList D) (k : Nat) (p : Particle D) :
    l.bare.set k p.bare = (l.set k p).bare := by
  simp only [PList.set, PList.bare, List.map_set]

theorem get_bare (l : PList D) (k : Nat) :
    l.bare.get k = l.get k >>= fun p => .ok p.bare := by
  unfold PList.get
  simp only [PList.bare, List.getElem?_map]
  cases l.items[k]? with
  | none => simp only [Option.map_none]; by_cases hk : k < l.maxParticles <;> simp [hk]
  | some p => rfl

/-! ## Processes -/

theorem storePhoton_bare (cfg : EmissionCfg D) (p : Particle D) (e : D) (l : PList D) (r : Rng D) :
    storePhoton { cfg with track := false } p.bare e l.bare r =
      ((storePhoton cfg p e l r).1.bare, (storePhoton cfg p e l r).2) := by
  unfold storePhoton
  dsimp only
  split
  · split
    · rw [← add_bare]; rfl
    · rfl
  · rfl

/-- The outcome of an interaction without records. -/
def out (x : Particle D × PList D × Rng D) : Res (Particle D × PList D × Rng D) :=
  .ok (x.1.bare, x.2.1.bare, x.2.2)

theorem stochastic_bare (cfg : EmissionCfg D) (p : Particle D) (l : PList D) (r : Rng D) :
    stochasticInteract { cfg with track := false } p.bare l.bare r =
      stochasticInteract cfg p l r >>= out := by
  unfold stochasticInteract
  have ha : p.bare.isAlive = p.isAlive := rfl
  have hm : p.bare.mass = p.mass := rfl
  rw [ha, hm]
  split
  · rfl
  · have hl : ∀ η : D, emissionLogh { cfg with track := false } η = emissionLogh cfg η := fun _ => rfl
    have hc : ∀ η u : D, calculateChi { cfg with track := false } η u = calculateChi cfg η u :=
      fun _ _ => rfl
    have he : ∀ p : Particle D, calculateEta cfg.field p.bare = calculateEta cfg.field p := fun _ => rfl
    dsimp only
    rw [he, hl]
    cases emissionLogh cfg (calculateEta cfg.field p) with
    | exit c => rfl
    | throw w => rfl
    | ub w => rfl
    | ok logh =>
      simp only [Res.ok_bind]
      rw [gamma_bare, show ∀ d, p.bare.updateOpticalDepth d = (p.updateOpticalDepth d).bare from
        fun _ => rfl]
      generalize p.updateOpticalDepth
        (emissionDelta cfg.dt (calculateEta cfg.field p) logh p.gamma) = q
      have hd : q.bare.opticalDepth = q.opticalDepth := rfl
      have hx : q.bare.position = q.position := rfl
      have hq : q.bare.momentum = q.momentum := rfl
      have hn : q.bare.direction = q.direction := rfl
      rw [hd]
      split
      · rw [hc]
        cases calculateChi cfg (calculateEta cfg.field p) r.next.1 with
        | exit c => rfl
        | throw w => rfl
        | ub w => rfl
        | ok chi =>
          simp only [Res.ok_bind]
          rw [gamma_bare, hn, hx, hq, updateTrack_bare, storePhoton_bare]
          rfl
      · rfl

theorem continuous_bare (cfg : EmissionCfg D) (classical : Bool) (p : Particle D) (l : PList D)
    (r : Rng D) :
    continuousInteract { cfg with track := false } classical p.bare l.bare r =
      continuousInteract cfg classical p l r >>= out := by
  unfold continuousInteract
  have ha : p.bare.isAlive = p.isAlive := rfl
  have hm : p.bare.mass = p.mass := rfl
  have hl : ∀ η u : D, continuousLoghChi { cfg with track := false } classical η u =
    continuousLoghChi cfg classical η u := fun _ _ => rfl
  have he : ∀ p : Particle D, calculateEta cfg.field p.bare = calculateEta cfg.field p := fun _ => rfl
  rw [ha, hm]
  split
  · rfl
  · dsimp only
    split
    · rfl
    · rw [he, hl]
      cases continuousLoghChi cfg classical (calculateEta cfg.field p) r.next.2.next.1 with
      | exit c => rfl
      | throw w => rfl
      | ub w => rfl
      | ok lc =>
        rw [Res.ok_bind, Res.ok_bind, gamma_bare]
        split
        · rw [Res.ok_bind, out, ← add_bare]; rfl
        · rfl

theorem bw_bare (cfg : BWCfg D) (p : Particle D) (l : PList D) (r : Rng D) :
    bwInteract { cfg with track := false } p.bare l.bare r = bwInteract cfg p l r >>= out := by
  unfold bwInteract
  have ha : p.bare.isAlive = p.isAlive := rfl
  have hn : p.bare.typeName = p.typeName := rfl
  have hs : ∀ χ u : D, bwSplit { cfg with track := false } χ u = bwSplit cfg χ u := fun _ _ => rfl
  have hx : ∀ p : Particle D, bwChi cfg.field p.bare = bwChi cfg.field p := fun _ => rfl
  rw [ha, hn]
  split
  · rfl
  · dsimp only
    rw [hx]
    cases Numerics.interpolate1D cfg.tAxis cfg.tData (log10 (bwChi cfg.field p)) with
    | exit c => rfl
    | throw w => rfl
    | ub w => rfl
    | ok logt =>
      simp only [Res.ok_bind]
      rw [energy_bare, show ∀ d, p.bare.updateOpticalDepth d = (p.updateOpticalDepth d).bare from
        fun _ => rfl]
      generalize p.updateOpticalDepth
        (bwDelta cfg.dt (bwChi cfg.field p) logt p.energy) = q
      have hd : q.bare.opticalDepth = q.opticalDepth := rfl
      rw [hd]
      split
      · rw [hs]
        cases bwSplit cfg (bwChi cfg.field p) r.next.1 with
        | exit c => rfl
        | throw w => rfl
        | ub w => rfl
        | ok split =>
          simp only [Res.ok_bind, out]
          rw [energy_bare, ← add_bare, ← add_bare]
          rfl
      · rfl

theorem interact_bare (pr : Proc D) (p : Particle D) (l : PList D) (r : Rng D) :
    pr.bare.interact p.bare l.bare r = pr.interact p l r >>= out := by
  cases pr with
  | stochastic cfg => exact stochastic_bare cfg p l r
  | continuous cfg cl => exact continuous_bare cfg cl p l r
  | breitWheeler cfg => exact bw_bare cfg p l r

/-! ## The loops -/

/-- The outcome of a loop over particles without records. -/
def lout (x : PList D × Rng D) : Res (PList D × Rng D) := .ok (x.1.bare, x.2)

theorem interactAt_bare (pr : Proc D) (k : Nat) (l : PList D) (r : Rng D) :
    interactAt pr.bare k l.bare r = interactAt pr k l r >>= lout := by
  unfold interactAt
  rw [get_bare]
  cases l.get k with
  | exit c => rfl
  | throw w => rfl
  | ub w => rfl
  | ok p =>
    simp only [Res.ok_bind]
    rw [interact_bare]
    cases pr.interact p l r with
    | exit c => rfl
    | throw w => rfl
    | ub w => rfl
    | ok x =>
      simp only [Res.ok_bind, out, lout]
      rw [set_bare]

theorem interactAll_bare : ∀ (prs : List (Proc D)) (k : Nat) (l : PList D) (r : Rng D),
      interactAll (prs.map Proc.bare) k l.bare r = interactAll prs k l r >>= lout
  | [], _, _, _ => rfl
  | pr :: prs, k, l, r => by
    rw [List.map_cons]
    unfold interactAll
    rw [interactAt_bare]
    cases interactAt pr k l r with
    | exit c => rfl
    | throw w => rfl
    | ub w => rfl
    | ok x => simp only [Res.ok_bind, lout]; exact interactAll_bare prs k x.1 x.2

theorem visit_bare (cfg : SimCfg D) (k : Nat) (l : PList D) (r : Rng D) :
    visit cfg.bare k l.bare r = visit cfg k l r >>= lout := by
  unfold visit
  rw [get_bare]
  cases l.get k with
  | exit c => rfl
  | throw w => rfl
  | ub w => rfl
  | ok p =>
    simp only [Res.ok_bind, SimCfg.bare]
    rw [push_bare, set_bare, interactAll_bare]

theorem particleLoop_bare (cfg : SimCfg D) :
    ∀ (fuel k : Nat) (l : PList D) (r : Rng D),
      particleLoop cfg.bare fuel k l.bare r = particleLoop cfg fuel k l r >>= lout := by
  intro fuel
  induction fuel with
  | zero => intro k l r; rfl
  | succ fuel ih =>
    intro k l r
    unfold particleLoop
    rw [nPart_bare]
    split
    · rw [visit_bare]
      cases visit cfg k l r with
      | exit c => rfl
      | throw w => rfl
      | ub w => rfl
      | ok x => simp only [Res.ok_bind, lout]; exact ih (k + 1) x.1 x.2
    · rfl

theorem advance_bare (cfg : SimCfg D) (l : PList D) (r : Rng D) :
    advance cfg.bare l.bare r = advance cfg l r >>= lout :=
  particleLoop_bare cfg l.maxParticles 0 l r

theorem appParticle_bare (h : Hist D) (p : Particle D) :
    h.appParticle p.bare = h.appParticle p := rfl

theorem fillHist_bare : ∀ (ps : List (Particle D)) (h : Hist D),
    fillHist h (ps.map Particle.bare) = fillHist h ps
  | [], _ => rfl
  | p :: ps, h => by
    have hn : p.bare.name = p.name := rfl
    rw [List.map_cons, fillHist, fillHist, hn, appParticle_bare]
    have ih : (fun h => fillHist h (ps.map Particle.bare)) = fun h => fillHist h ps :=
      funext fun h => fillHist_bare ps h
    rw [ih]

/-- The state of an event without tracks. -/
def state (s : EvState D) : EvState D := { s with list := s.list.bare }

theorem histStep_bare (s : EvState D) :
    histStep (state s) = histStep s >>= fun s => .ok (state s) := by
  unfold histStep
  have h1 : (state s).hists = s.hists := rfl
  have h2 : (state s).histCount = s.histCount := rfl
  have h3 : (state s).time = s.time := rfl
  have h4 : (state s).list.items = s.list.items.map Particle.bare := rfl
  rw [h1, h2, h3, h4]
  cases s.hists[s.histCount]? with
  | none => rfl
  | some h =>
    dsimp only
    split
    · rw [fillHist_bare]
      cases fillHist h s.list.items with
      | exit c => rfl
      | throw w => rfl
      | ub w => rfl
      | ok h' => rfl
    · rfl

theorem fillRest_bare (l : PList D) : ∀ (hs : List (Hist D)) (c : Nat),
    fillRest l.bare c hs = fillRest l c hs
  | [], c => by cases c <;> rfl
  | h :: hs, c + 1 => by
    rw [fillRest, fillRest, fillRest_bare l hs c]
  | h :: hs, 0 => by
    have h4 : l.bare.items = l.items.map Particle.bare := rfl
    rw [fillRest, fillRest, h4, fillHist_bare, fillRest_bare l hs 0]

theorem timeStep_bare (cfg : SimCfg D) (s : EvState D) :
    timeStep cfg.bare (state s) = timeStep cfg s >>= fun s => .ok (state s) := by
  unfold timeStep
  rw [histStep_bare]
  cases histStep s with
  | exit c => rfl
  | throw w => rfl
  | ub w => rfl
  | ok s =>
    simp only [Res.ok_bind]
    have h1 : (state s).list = s.list.bare := rfl
    have h2 : (state s).rng = s.rng := rfl
    rw [h1, h2, advance_bare]
    cases advance cfg s.list s.rng with
    | exit c => rfl
    | throw w => rfl
    | ub w => rfl
    | ok x => rfl

/-- An outcome without tracks. -/
def outcome (o : Res (EvState D)) : Res (EvState D) := o >>= fun s => .ok (state s)

theorem timeLoop_bare (cfg : SimCfg D) : ∀ (fuel : Nat) (s : EvState D),
    timeLoop cfg.bare fuel (state s) = (timeLoop cfg fuel s).map outcome
  | 0, s => by
    unfold timeLoop
    rw [show (state s).time = s.time from rfl, show cfg.bare.timeEnd = cfg.timeEnd from rfl]
    split <;> rfl
  | fuel + 1, s => by
    unfold timeLoop
    rw [show (state s).time = s.time from rfl, show cfg.bare.timeEnd = cfg.timeEnd from rfl,
      timeStep_bare]
    split
    · cases timeStep cfg s with
      | exit c => rfl
      | throw w => rfl
      | ub w => rfl
      | ok s' => exact timeLoop_bare cfg fuel s'
    · rfl

theorem run_bare {cfg : SimCfg D} {s : EvState D} {n : Nat} {o : Res (EvState D)}
    (hr : Run cfg s n o) : Run cfg.bare (state s) n (outcome o) := by
  induction hr with
  | done hd => exact .done hd
  | step hlt hs _ ih =>
    refine .step hlt ?_ ih
    rw [timeStep_bare, hs]; rfl
  | abort hlt hs hno =>
    refine .abort hlt ?_ ?_
    · rw [timeStep_bare, hs]; rfl
    · rename_i o
      intro s' he
      cases o with
      | ok a => exact hno a rfl
      | exit c => cases he
      | throw w => cases he
      | ub w => cases he

theorem run_bare_inv {cfg : SimCfg D} {s' : EvState D} {n : Nat}
    {o' : Res (EvState D)} (hr : Run cfg.bare s' n o') :
    ∀ s, s' = state s → ∃ o, Run cfg s n o ∧ o' = outcome o := by
  induction hr with
  | done hd =>
    rintro s rfl
    exact ⟨.ok s, .done hd, rfl⟩
  | step hlt hs _ ih =>
    rintro s rfl
    rw [timeStep_bare] at hs
    cases e : timeStep cfg s with
    | exit c => rw [e] at hs; cases hs
    | throw w => rw [e] at hs; cases hs
    | ub w => rw [e] at hs; cases hs
    | ok s1 =>
      rw [e] at hs
      obtain ⟨o, ho, hoo⟩ := ih s1 (Res.ok.inj hs).symm
      exact ⟨o, .step hlt e ho, hoo⟩
  | abort hlt hs hno =>
    rintro s rfl
    rw [timeStep_bare] at hs
    refine ⟨timeStep cfg s, .abort hlt rfl ?_, hs.symm⟩
    intro s1 e
    rw [e] at hs
    exact hno _ hs.symm

section events

variable {cfg cfg' : SimCfg D} {l l' : PList D} {r r' : Rng D} {hists hists' : List (Hist D)} {n : Nat}

theorem event_bare (he : Event cfg l r hists n l' r' hists') :
    Event cfg.bare l.bare r hists n l'.bare r' hists' := by
  cases he with
  | mk hr hf =>
    exact Event.mk (s := state _) (run_bare hr) (by
      rw [show (state _).list = PList.bare _ from rfl, fillRest_bare]; exact hf)

theorem event_bare_inv {l₁ : PList D} (he : Event cfg.bare l.bare r hists n l₁ r' hists') :
    ∃ l', l₁ = l'.bare ∧ Event cfg l r hists n l' r' hists' := by
  cases he with
  | mk hr hf =>
    obtain ⟨o, ho, heq⟩ := run_bare_inv hr (.init l r hists) rfl
    cases o with
    | exit c => cases heq
    | throw w => cases heq
    | ub w => cases heq
    | ok s =>
      obtain rfl := Res.ok.inj heq
      refine ⟨s.list, rfl, Event.mk ho ?_⟩
      rw [show (state s).list = s.list.bare from rfl, fillRest_bare] at hf
      exact hf

end events

/-! ## Histograms -/

/-- The state of an event without histograms. -/
def plain (s : EvState D) : EvState D := { s with hists := [], histCount := 0 }

theorem histStep_keeps {s s' : EvState D} (h : histStep s = .ok s') :
    s'.list = s.list ∧ s'.rng = s.rng ∧ s'.time = s.time := by
  unfold histStep at h
  split at h
  · obtain rfl := Res.ok.inj h; exact ⟨rfl, rfl, rfl⟩
  · split at h
    · obtain ⟨h', -, h⟩ := Res.bind_eq_ok.mp h
      obtain rfl := Res.ok.inj h; exact ⟨rfl, rfl, rfl⟩
    · obtain rfl := Res.ok.inj h; exact ⟨rfl, rfl, rfl⟩

theorem timeStep_plain {cfg : SimCfg D} {s s' : EvState D} (h : timeStep cfg s = .ok s') :
    timeStep cfg (plain s) = .ok (plain s') := by
  unfold timeStep at h ⊢
  obtain ⟨s1, h1, h⟩ := Res.bind_eq_ok.mp h
  obtain ⟨⟨l, r⟩, h2, h⟩ := Res.bind_eq_ok.mp h
  obtain rfl := Res.ok.inj h
  obtain ⟨e1, e2, e3⟩ := histStep_keeps h1
  rw [histStep_nil rfl, Res.ok_bind, show (plain s).list = s.list from rfl,
    show (plain s).rng = s.rng from rfl, ← e1, ← e2, h2, Res.ok_bind]
  dsimp only [plain]
  rw [e3]

theorem run_plain {cfg : SimCfg D} {s : EvState D} {n : Nat} {o : Res (EvState D)}
    (hr : Run cfg s n o) : ∀ s', o = .ok s' → Run cfg (plain s) n (.ok (plain s')) := by
  induction hr with
  | done hd => intro s' h; obtain rfl := Res.ok.inj h; exact .done hd
  | step hlt hs _ ih => intro s' h; exact .step hlt (timeStep_plain hs) (ih s' h)
  | abort _ _ hno => intro s' h; exact absurd h (hno s')

theorem Usable.shaped {h : Hist D} (u : h.Usable) : h.Shaped := ⟨u.centres, u.values, u.small⟩

theorem count_usable {h h' : Hist D} {x : D} (u : h.Usable) (hc : h.count x = .ok h') : h'.Usable := by
  obtain ⟨h1, e, hs⟩ := Hist.count_total (Usable.shaped u) u.bins x
  rw [e] at hc
  obtain rfl := Res.ok.inj hc
  have hn : h1.nBins = h.nBins := by
    unfold Hist.count at e
    dsimp only at e
    obtain ⟨_, _, e⟩ := Res.bind_eq_ok.mp e
    obtain ⟨_, _, e⟩ := Res.bind_eq_ok.mp e
    split at e
    · obtain ⟨_, _, e⟩ := Res.bind_eq_ok.mp e
      obtain ⟨_, _, e⟩ := Res.bind_eq_ok.mp e
      obtain rfl := Res.ok.inj e; rfl
    · obtain rfl := Res.ok.inj e; rfl
  exact ⟨by rw [hn]; exact u.bins, hs.small, hs.centres, hs.values⟩

theorem fillHist_usable : ∀ (ps : List (Particle D)) {h : Hist D}, h.Usable →
    ∃ h', fillHist h ps = .ok h' ∧ h'.Usable
  | [], h, u => ⟨h, rfl, u⟩
  | p :: ps, h, u => by
    unfold fillHist
    split
    · unfold Hist.appParticle
      rw [if_neg (by have := u.bins; omega)]
      obtain ⟨h', hh, -⟩ := Hist.count_total (Usable.shaped u) u.bins p.energy
      rw [hh, Res.ok_bind]
      exact fillHist_usable ps (count_usable u hh)
    · rw [Res.ok_bind]; exact fillHist_usable ps u

theorem histStep_usable {s : EvState D} (hu : ∀ h ∈ s.hists, h.Usable) :
    ∃ s', histStep s = .ok s' ∧ ∀ h ∈ s'.hists, h.Usable := by
  unfold histStep
  split
  · exact ⟨s, rfl, hu⟩
  · next h hh =>
    split
    · obtain ⟨h', e, u⟩ := fillHist_usable s.list.items (hu h (List.mem_of_getElem? hh))
      rw [e]
      refine ⟨_, rfl, fun g hg => ?_⟩
      rcases List.mem_or_eq_of_mem_set hg with hg | rfl
      · exact hu g hg
      · exact u
    · exact ⟨s, rfl, hu⟩

theorem fillRest_usable (l : PList D) : ∀ (hs : List (Hist D)) (c : Nat), (∀ h ∈ hs, h.Usable) →
    ∃ hs', fillRest l c hs = .ok hs'
  | [], c, _ => by cases c <;> exact ⟨[], rfl⟩
  | h :: hs, c + 1, hu => by
    obtain ⟨hs', e⟩ := fillRest_usable l hs c fun g hg => hu g (List.mem_cons_of_mem _ hg)
    exact ⟨h :: hs', by rw [fillRest, e]; rfl⟩
  | h :: hs, 0, hu => by
    obtain ⟨hs', e⟩ := fillRest_usable l hs 0 fun g hg => hu g (List.mem_cons_of_mem _ hg)
    obtain ⟨h', e', -⟩ := fillHist_usable l.items (hu h List.mem_cons_self)
    exact ⟨h' :: hs', by rw [fillRest, e', Res.ok_bind, e]; rfl⟩

theorem run_watched {cfg : SimCfg D} {t : EvState D} {n : Nat} {o : Res (EvState D)}
    (hr : Run cfg t n o) : ∀ t', o = .ok t' → ∀ s : EvState D, t = plain s →
      (∀ h ∈ s.hists, h.Usable) →
      ∃ s', t' = plain s' ∧ Run cfg s n (.ok s') ∧ ∀ h ∈ s'.hists, h.Usable := by
  induction hr with
  | done hd =>
    rintro t' h s rfl hu
    obtain rfl := Res.ok.inj h
    exact ⟨s, rfl, .done hd, hu⟩
  | @step t t1 n o hlt hs hrun ih =>
    rintro t' h s rfl hu
    obtain ⟨s1, e1, hu1⟩ := histStep_usable hu
    obtain ⟨k1, k2, k3⟩ := histStep_keeps e1
    have hstep := hs
    obtain ⟨l, r, hadv, he⟩ := (timeStep_nil rfl).mp hs
    have hs2 : timeStep cfg s = .ok { s1 with list := l, rng := r, time := s1.time +. cfg.dt } := by
      unfold timeStep
      rw [e1, Res.ok_bind, k1, k2]
      change (advance cfg (plain s).list (plain s).rng >>= _) = _
      rw [hadv]
      rfl
    obtain ⟨s', a, b, c⟩ := ih t' h { s1 with list := l, rng := r, time := s1.time +. cfg.dt } (by
      rw [he]; dsimp only [plain]; rw [k3]) hu1
    exact ⟨s', a, .step hlt hs2 b, c⟩
  | abort _ _ hno => intro t' h; exact absurd h (hno t')

/-! ## The program -/

open Main OutMgr

theorem generateList_bare (s : Source D) (r : Rng D) :
    s.bare.generateList r = s.generateList r >>= fun x => .ok (x.1.bare, x.2.1.bare, x.2.2) := by
  unfold Source.generateList
  by_cases hc : s.partCount = s.nPart
  · rw [if_pos hc, if_pos (show s.bare.partCount = s.bare.nPart from hc)]; rfl
  rw [if_neg hc, if_neg (show ¬ s.bare.partCount = s.bare.nPart from hc)]
  dsimp only
  rw [show s.bare.partCount = s.partCount from rfl, show s.bare.xPos = s.xPos from rfl,
    show s.bare.yPos = s.yPos from rfl, show s.bare.zPos = s.zPos from rfl,
    show s.bare.thetaDir = s.thetaDir from rfl, show s.bare.phiDir = s.phiDir from rfl,
    show s.bare.energy = s.energy from rfl, show s.bare.rotation = s.rotation from rfl,
    show s.bare.position = s.position from rfl]
  have hm : ∀ (e : D) (x d : V3 D) (u : D), s.bare.mkParticle e x d u =
      s.mkParticle e x d u >>= fun p => .ok p.bare := by
    intro e x d u
    unfold Source.mkParticle
    rw [show s.bare.type = s.type from rfl]
    split
    · rfl
    · split
      · rfl
      · split <;> rfl
  generalize rd s.xPos s.partCount = a
  rcases a with a | a | a | a <;> try rfl
  simp only [Res.ok_bind]
  generalize rd s.yPos s.partCount = b
  rcases b with b | b | b | b <;> try rfl
  simp only [Res.ok_bind]
  generalize rd s.zPos s.partCount = c
  rcases c with c | c | c | c <;> try rfl
  simp only [Res.ok_bind]
  generalize rd s.thetaDir s.partCount = d
  rcases d with d | d | d | d <;> try rfl
  simp only [Res.ok_bind]
  generalize rd s.phiDir s.partCount = e
  rcases e with e | e | e | e <;> try rfl
  simp only [Res.ok_bind]
  generalize rd s.energy s.partCount = f
  rcases f with f | f | f | f <;> try rfl
  simp only [Res.ok_bind]
  rw [hm]
  generalize s.mkParticle _ _ _ _ = g
  rcases g with g | g | g | g <;> rfl

theorem storePrimary_bare (m : OutMgr D) (l : PList D) (j : Nat) :
    m.bare.storePrimary l.bare j = m.storePrimary l j >>= fun m => .ok m.bare := by
  unfold storePrimary
  rw [get_bare]
  cases l.get 0 with
  | exit c => rfl
  | throw w => rfl
  | ub w => rfl
  | ok p =>
    simp only [Res.ok_bind]
    rw [show row j p.bare = row j p from rfl]
    cases (Buf.new 8 : Buf D).writeRow 0 (row j p) with
    | exit c => rfl
    | throw w => rfl
    | ub w => rfl
    | ok b =>
      simp only [Res.ok_bind]
      rw [show m.bare.primary = m.primary from rfl]
      cases vset m.primary j (some b) with
      | exit c => rfl
      | throw w => rfl
      | ub w => rfl
      | ok b => rfl

theorem countName_bare (name : String) : ∀ (ps : List (Particle D)) (n : Nat),
    countName name (ps.map Particle.bare) n = countName name ps n
  | [], _ => rfl
  | p :: ps, n => by
    rw [List.map_cons, countName, countName, countName_bare name ps]; rfl

theorem fillAll_bare (j : Nat) : ∀ (ps : List (Particle D)) (s : Fill D),
    fillAll j s (ps.map Particle.bare) = fillAll j s ps
  | [], _ => rfl
  | p :: ps, s => by
    rw [List.map_cons, fillAll, fillAll, show fillOne j s p.bare = fillOne j s p from rfl,
      show (fun s => fillAll j s (ps.map Particle.bare)) = fun s => fillAll j s ps from
        funext fun s => fillAll_bare j ps s]

theorem storeFinal_bare (m : OutMgr D) (l : PList D) (j : Nat) :
    m.bare.storeFinal l.bare j = m.storeFinal l j >>= fun m => .ok m.bare := by
  unfold storeFinal
  rw [show l.bare.items = l.items.map Particle.bare from rfl, countName_bare, countName_bare,
    countName_bare, fillAll_bare]
  rw [show m.bare.electronCount = m.electronCount from rfl,
    show m.bare.positronCount = m.positronCount from rfl, show m.bare.photonCount = m.photonCount from rfl,
    show m.bare.electron = m.electron from rfl, show m.bare.positron = m.positron from rfl,
    show m.bare.photon = m.photon from rfl]
  generalize fillAll j _ l.items = a
  rcases a with s | a | a | a <;> try rfl
  simp only [Res.ok_bind]
  generalize vset m.electronCount _ _ = a
  rcases a with a | a | a | a <;> try rfl
  simp only [Res.ok_bind]
  generalize vset m.positronCount _ _ = b
  rcases b with b | b | b | b <;> try rfl
  simp only [Res.ok_bind]
  generalize vset m.photonCount _ _ = c
  rcases c with c | c | c | c <;> try rfl
  simp only [Res.ok_bind]
  generalize vset m.electron _ _ = d
  rcases d with d | d | d | d <;> try rfl
  simp only [Res.ok_bind]
  generalize vset m.positron _ _ = e
  rcases e with e | e | e | e <;> try rfl
  simp only [Res.ok_bind]
  generalize vset m.photon _ _ = f
  rcases f with f | f | f | f <;> rfl

/-- The source and the results without tracks. -/
def world (s : Source D × World D) : Source D × World D :=
  (s.1.bare, ⟨s.2.rng, s.2.hists, s.2.out.bare⟩)

/-- An outcome without tracks. -/
def worlds (o : Res (Source D × World D)) : Res (Source D × World D) := o >>= fun s => .ok (world s)

theorem runEvent_bare (cfg : SimCfg D) (fuel : Nat) (output tracking : Bool) (j : Nat)
    (s : Source D × World D) :
    runEvent cfg.bare fuel output false j (world s) =
      (Option.map worlds (runEvent cfg fuel output tracking j s) : Timed _) := by
  unfold runEvent
  rw [show (world s).1 = s.1.bare from rfl, show (world s).2.rng = s.2.rng from rfl,
    show (world s).2.hists = s.2.hists from rfl, show (world s).2.out = s.2.out.bare from rfl,
    generateList_bare]
  generalize s.1.generateList s.2.rng = a
  rcases a with ⟨l, source, rng⟩ | a | a | a <;> try rfl
  simp only [Res.ok_bind]
  rw [Timed.ok_bind, Timed.ok_bind]
  dsimp only
  have h1 : storePrimaryIf output s.2.out.bare l.bare j =
      storePrimaryIf output s.2.out l j >>= fun m => .ok m.bare := by
    unfold storePrimaryIf
    split
    · exact storePrimary_bare _ _ _
    · rfl
  rw [h1]
  generalize storePrimaryIf output s.2.out l j = a
  rcases a with out | a | a | a <;> try rfl
  simp only [Res.ok_bind]
  rw [Timed.ok_bind, Timed.ok_bind]
  rw [show EvState.init l.bare rng s.2.hists = state (.init l rng s.2.hists) from rfl, timeLoop_bare]
  generalize timeLoop cfg fuel (.init l rng s.2.hists) = a
  rcases a with _ | (e | a | a | a) <;> try rfl
  show Timed.bind (Timed.lift (fillRest e.list.bare e.histCount e.hists)) _ =
    Option.map worlds (Timed.bind (Timed.lift (fillRest e.list e.histCount e.hists)) _)
  rw [fillRest_bare]
  generalize fillRest e.list e.histCount e.hists = a
  rcases a with hists | a | a | a <;> try rfl
  have h2 : storeFinalIf output out.bare e.list.bare j =
      storeFinalIf output out e.list j >>= fun m => .ok m.bare := by
    unfold storeFinalIf
    split
    · exact storeFinal_bare _ _ _
    · rfl
  show Timed.bind (Timed.lift (storeFinalIf output out.bare e.list.bare j)) _ =
    Option.map worlds (Timed.bind (Timed.lift (storeFinalIf output out e.list j)) _)
  rw [h2]
  generalize storeFinalIf output out e.list j = a
  rcases a with out' | a | a | a <;> try rfl
  show some (Res.ok _) = some (Res.ok _)
  cases tracking <;> rfl

theorem runEvents_bare (cfg : SimCfg D) (fuel : Nat) (output tracking : Bool) :
    ∀ (k j : Nat) (s : Source D × World D),
    runEvents cfg.bare fuel output false k j (world s) =
      (Option.map worlds (runEvents cfg fuel output tracking k j s) : Timed _)
  | 0, _, _ => rfl
  | k + 1, j, s => by
    unfold runEvents
    rw [runEvent_bare cfg fuel output tracking]
    generalize runEvent cfg fuel output tracking j s = a
    rcases a with _ | (e | a | a | a) <;> try rfl
    exact runEvents_bare cfg fuel output tracking k (j + 1) e

/-- Without output the same events happen. -/
theorem runEvents_silent (cfg : SimCfg D) (fuel : Nat) (tracking : Bool) :
    ∀ (k j : Nat) (s s' : Source D × World D) (out : OutMgr D),
    runEvents cfg fuel true tracking k j s = (some (.ok s') : Timed _) →
    ∃ out', runEvents cfg fuel false tracking k j (s.1, ⟨s.2.rng, s.2.hists, out⟩) =
      (some (.ok (s'.1, ⟨s'.2.rng, s'.2.hists, out'⟩)) : Timed _)
  | 0, j, s, s', out, h => by
    obtain rfl := Res.ok.inj (Option.some.inj h)
    exact ⟨out, rfl⟩
  | k + 1, j, s, s', out, h => by
    unfold runEvents at h ⊢
    obtain ⟨s1, h1, h2⟩ := Timed.bind_eq.mp h
    unfold runEvent at h1
    obtain ⟨⟨l, source, rng⟩, e1, h1⟩ := Timed.bind_eq.mp h1
    dsimp only at h1
    obtain ⟨out1, -, h1⟩ := Timed.bind_eq.mp h1
    obtain ⟨e, e2, h1⟩ := Timed.bind_eq.mp h1
    obtain ⟨hists, e3, h1⟩ := Timed.bind_eq.mp h1
    obtain ⟨out2, -, h1⟩ := Timed.bind_eq.mp h1
    obtain rfl := Res.ok.inj (Option.some.inj h1)
    obtain ⟨out', h3⟩ := runEvents_silent cfg fuel tracking k (j + 1) _ s' (storeTrackIf tracking out e.list j) h2
    refine ⟨out', ?_⟩
    rw [← h3]
    have : runEvent cfg fuel false tracking j (s.1, ⟨s.2.rng, s.2.hists, out⟩) =
        (some (.ok (source, ⟨e.rng, hists, storeTrackIf tracking out e.list j⟩)) : Timed _) := by
      unfold runEvent
      refine Timed.bind_eq.mpr ⟨_, e1, ?_⟩
      dsimp only
      refine Timed.bind_eq.mpr ⟨out, rfl, ?_⟩
      refine Timed.bind_eq.mpr ⟨e, e2, ?_⟩
      refine Timed.bind_eq.mpr ⟨hists, e3, ?_⟩
      exact Timed.bind_eq.mpr ⟨out, rfl, rfl⟩
    rw [this]
    rfl

end Watch

end QED
