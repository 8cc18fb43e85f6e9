import Verif.Spec.Conjugation
import Verif.Lemmas.Signs
import Verif.Lemmas.Sim

set_option autoImplicit false
set_option linter.unusedSectionVars false

/-!
# The event loop under exchange of electrons and positrons
-/

namespace QED

open Dbl MCTools

namespace Conj

variable {D : Type} [Dbl D] [SignLaws D]

/-! ## Forces -/

/-- The force on the opposite charge in the reversed field. -/
def Even (push : PushMom D) : Prop :=
  ∀ mass charge p e b, push mass (-. charge) p e.opp b.opp = push mass charge p e b

theorem opp_add (a b : V3 D) : a.opp.add b.opp = (a.add b).opp := by
  simp only [V3.opp, V3.add, SignLaws.add_neg]

theorem opp_sub (a b : V3 D) : a.opp.sub b.opp = (a.sub b).opp := by
  simp only [V3.opp, V3.sub, SignLaws.sub_neg]

theorem opp_smul (s : D) (a : V3 D) : a.opp.smul s = (a.smul s).opp := by
  simp only [V3.opp, V3.smul, SignLaws.mul_neg]

theorem smul_opp (s : D) (a : V3 D) : a.smul (-. s) = (a.smul s).opp := by
  simp only [V3.opp, V3.smul, SignLaws.neg_mul]

theorem opp_divs (s : D) (a : V3 D) : a.opp.divs s = (a.divs s).opp := by
  simp only [V3.opp, V3.divs, SignLaws.neg_div]

theorem opp_opp (a : V3 D) : a.opp.opp = a := by
  simp only [V3.opp, SignLaws.neg_neg]

theorem cross_opp (a b : V3 D) : a.cross b.opp = (a.cross b).opp := by
  simp only [V3.opp, V3.cross, SignLaws.mul_neg, SignLaws.sub_neg]

theorem opp_dot (a b : V3 D) : a.opp.dot b = -. (a.dot b) := by
  simp only [V3.opp, V3.dot, SignLaws.neg_mul, SignLaws.add_neg]

theorem dot_neg_right (a b : V3 D) : a.dot b.opp = -. (a.dot b) := by
  simp only [V3.opp, V3.dot, SignLaws.mul_neg, SignLaws.add_neg]

theorem opp_mag2 (a : V3 D) : a.opp.mag2 = a.mag2 := by
  show a.opp.dot a.opp = a.dot a
  rw [opp_dot, dot_neg_right, SignLaws.neg_neg]

theorem opp_mag (a : V3 D) : a.opp.mag = a.mag := by
  unfold V3.mag
  rw [opp_dot, dot_neg_right, SignLaws.neg_neg]

theorem lorentz_even : Even (lorentzForce (D := D)) := by
  intro mass charge p e b
  unfold lorentzForce
  rw [cross_opp, opp_divs, opp_add, opp_smul, smul_opp, opp_opp]

theorem perp_opp (d e b : V3 D) (β : D) :
    (e.opp.sub (d.smul (e.opp.dot d))).add ((d.cross b.opp).smul β) =
    ((e.sub (d.smul (e.dot d))).add ((d.cross b).smul β)).opp := by
  rw [opp_dot, smul_opp, opp_sub, cross_opp, opp_smul, opp_add]

theorem perp_neg (d e b : V3 D) (β : D) :
    ((e.opp.sub (d.smul (e.opp.dot d))).add ((d.cross b.opp).smul β)).mag2 =
    ((e.sub (d.smul (e.dot d))).add ((d.cross b).smul β)).mag2 := by
  rw [perp_opp, opp_mag2]

theorem perp_neg' (d e b : V3 D) :
    ((e.opp.sub (d.smul (e.opp.dot d))).add (d.cross b.opp)).mag =
    ((e.sub (d.smul (e.dot d))).add (d.cross b)).mag := by
  rw [opp_dot, smul_opp, opp_sub, cross_opp, opp_add, opp_mag]

theorem pushEta_even (mass : D) (p e b : V3 D) :
    pushEta mass p (e.opp) (b.opp) = pushEta mass p e b := by
  unfold pushEta
  dsimp only
  rw [perp_neg, dot_neg_right, SignLaws.sq_neg]

theorem landau_even : Even (landauForce (D := D)) := by
  intro mass charge p e b
  unfold landauForce landauReaction
  dsimp only
  rw [lorentz_even, pushEta_even]

theorem modLandau_even : Even (modLandauForce (D := D)) := by
  intro mass charge p e b
  unfold modLandauForce modLandauReaction
  dsimp only
  rw [lorentz_even, pushEta_even]

theorem rk4_conj {push : PushMom D} (hp : Even push) (f : Field D)
    (dt mass charge time : D) (x p : V3 D) :
    rk4 push f.conj dt mass (-. charge) time x p = rk4 push f dt mass charge time x p := by
  have hpf : ∀ (t : D) (x p : V3 D), push mass (-. charge) p (f.conj t x).1 (f.conj t x).2 =
      push mass charge p (f t x).1 (f t x).2 := fun t x p => hp _ _ _ _ _
  unfold rk4
  dsimp only
  simp only [hpf]

/-! ## Particles -/

theorem gamma_conj (p : Particle D) : p.conj.gamma = p.gamma := by
  rcases p with ⟨k, _⟩
  cases k <;> rfl

theorem energy_conj (p : Particle D) : p.conj.energy = p.energy := by
  rcases p with ⟨k, _⟩
  cases k <;> rfl

theorem beta_conj (p : Particle D) : p.conj.beta = p.beta := by
  rcases p with ⟨k, _⟩
  cases k <;> rfl

theorem updateTrack_conj (p : Particle D) (x q : V3 D) :
    p.conj.updateTrack x q = (p.updateTrack x q).conj := by
  have hg := gamma_conj { p with position := x, momentum := q }
  unfold Particle.updateTrack
  by_cases ht : p.tracking
  · have ht' : p.conj.tracking = true := ht
    simp only [ht, ht', if_true]
    simp only [Particle.conj, ht] at hg ⊢
    rw [← hg]
  · have ht' : ¬ p.conj.tracking = true := ht
    simp only [ht, ht']
    rfl

theorem push_conj {push : PushMom D} (hp : Even push) (f : Field D) (dt : D) (p : Particle D) :
    pushParticle push f.conj dt p.conj = (pushParticle push f dt p).conj := by
  unfold pushParticle
  have ha : p.conj.isAlive = p.isAlive := rfl
  have hm : p.conj.mass = p.mass := rfl
  have hc : p.conj.charge = -. p.charge := rfl
  have ht : p.conj.time = p.time := rfl
  have hx : p.conj.position = p.position := rfl
  have hq : p.conj.momentum = p.momentum := rfl
  rw [ha, hm, hc, ht, hx, hq]
  split
  · rfl
  · split
    · dsimp only
      rw [updateTrack_conj]; rfl
    · dsimp only
      rw [rk4_conj hp, updateTrack_conj]; rfl

/-! ## Lists -/

theorem nPart_conj (l : PList D) : l.conj.nPart = l.nPart := by
  simp [PList.nPart, PList.conj]

theorem add_conj (l : PList D) (p : Particle D) : l.conj.add p.conj = (l.add p).conj := by
  unfold PList.add
  simp only [PList.conj, List.length_map]
  split <;> simp

theorem set_conj (l : PList D) (k : Nat) (p : Particle D) :
    l.conj.set k p.conj = (l.set k p).conj := by
  simp only [PList.set, PList.conj, List.map_set]

theorem get_conj (l : PList D) (k : Nat) :
    l.conj.get k = l.get k >>= fun p => .ok p.conj := by
  unfold PList.get
  simp only [PList.conj, List.getElem?_map]
  cases l.items[k]? with
  | none => simp only [Option.map_none]; by_cases hk : k < l.maxParticles <;> simp [hk]
  | some p => rfl

/-! ## Processes -/

theorem newPhotonE_conj (e w t : D) (x d : V3 D) (tr : Bool) (u : D) :
    (Particle.newPhotonE e x d w t tr u).conj = Particle.newPhotonE e x d w t tr u := by
  simp [Particle.newPhotonE, Particle.new, Particle.conj, Kind.conj, SignLaws.neg_zero]

theorem calculateEta_conj (f : Field D) (p : Particle D) :
    calculateEta f.conj p.conj = calculateEta f p := by
  unfold calculateEta
  have hd : p.conj.direction = p.direction := rfl
  have h1 : (f.conj p.time p.position).1 = (f p.time p.position).1.opp := rfl
  have h2 : (f.conj p.time p.position).2 = (f p.time p.position).2.opp := rfl
  have ht : p.conj.time = p.time := rfl
  have hx : p.conj.position = p.position := rfl
  dsimp only
  rw [hd, ht, hx, h1, h2, gamma_conj, beta_conj, perp_neg, dot_neg_right, SignLaws.sq_neg]

theorem bwChi_conj (f : Field D) (p : Particle D) : bwChi f.conj p = bwChi f p := by
  unfold bwChi
  have h1 : (f.conj p.time p.position).1 = (f p.time p.position).1.opp := rfl
  have h2 : (f.conj p.time p.position).2 = (f p.time p.position).2.opp := rfl
  dsimp only
  rw [h1, h2, perp_neg']

theorem storePhoton_conj (cfg : EmissionCfg D) (f' : Field D) (p : Particle D) (e : D)
    (l : PList D) (r : Rng D) :
    storePhoton { cfg with field := f' } p.conj e l.conj r =
      ((storePhoton cfg p e l r).1.conj, (storePhoton cfg p e l r).2) := by
  unfold storePhoton
  have ht : p.conj.time = p.time := rfl
  have hx : p.conj.position = p.position := rfl
  have hw : p.conj.weight = p.weight := rfl
  have hd : p.conj.direction = p.direction := rfl
  rw [ht, hx, hw, hd]
  dsimp only
  rw [← newPhotonE_conj, add_conj, newPhotonE_conj]
  split
  · split <;> rfl
  · rfl

/-- The exchanged outcome of an interaction. -/
def out (x : Particle D × PList D × Rng D) : Res (Particle D × PList D × Rng D) :=
  .ok (x.1.conj, x.2.1.conj, x.2.2)

theorem stochastic_conj (cfg : EmissionCfg D) (p : Particle D) (l : PList D) (r : Rng D) :
    stochasticInteract { cfg with field := cfg.field.conj } p.conj l.conj r =
      stochasticInteract cfg p l r >>= out := by
  unfold stochasticInteract
  have ha : p.conj.isAlive = p.isAlive := rfl
  have hm : p.conj.mass = p.mass := rfl
  rw [ha, hm]
  split
  · rfl
  · have hl : ∀ η : D, emissionLogh { cfg with field := cfg.field.conj } η = emissionLogh cfg η :=
      fun _ => rfl
    have hc : ∀ η u : D, calculateChi { cfg with field := cfg.field.conj } η u =
      calculateChi cfg η u := fun _ _ => rfl
    dsimp only
    rw [calculateEta_conj, hl]
    cases emissionLogh cfg (calculateEta cfg.field p) with
    | exit c => rfl
    | throw w => rfl
    | ub w => rfl
    | ok logh =>
      simp only [Res.ok_bind]
      have hu : ∀ d : D, p.conj.updateOpticalDepth d = (p.updateOpticalDepth d).conj :=
        fun _ => rfl
      rw [gamma_conj, hu]
      generalize p.updateOpticalDepth
        (emissionDelta cfg.dt (calculateEta cfg.field p) logh p.gamma) = q
      have hd : q.conj.opticalDepth = q.opticalDepth := rfl
      have hx : q.conj.position = q.position := rfl
      have hq : q.conj.momentum = q.momentum := rfl
      have hdir : q.conj.direction = q.direction := rfl
      rw [hd]
      split
      · rw [hc]
        cases calculateChi cfg (calculateEta cfg.field p) r.next.1 with
        | exit c => rfl
        | throw w => rfl
        | ub w => rfl
        | ok chi =>
          simp only [Res.ok_bind]
          rw [gamma_conj, hdir, hx, hq, updateTrack_conj, storePhoton_conj]
          rfl
      · rfl

theorem continuous_conj (cfg : EmissionCfg D) (classical : Bool) (p : Particle D) (l : PList D)
    (r : Rng D) :
    continuousInteract { cfg with field := cfg.field.conj } classical p.conj l.conj r =
      continuousInteract cfg classical p l r >>= out := by
  unfold continuousInteract
  have ha : p.conj.isAlive = p.isAlive := rfl
  have hm : p.conj.mass = p.mass := rfl
  have ht : p.conj.time = p.time := rfl
  have hx : p.conj.position = p.position := rfl
  have hw : p.conj.weight = p.weight := rfl
  have hdir : p.conj.direction = p.direction := rfl
  have hl : ∀ η u : D, continuousLoghChi { cfg with field := cfg.field.conj } classical η u =
    continuousLoghChi cfg classical η u := fun _ _ => rfl
  rw [ha, hm, ht, hx, hw, hdir]
  split
  · rfl
  · dsimp only
    split
    · rfl
    · rw [calculateEta_conj, hl]
      cases continuousLoghChi cfg classical (calculateEta cfg.field p) r.next.2.next.1 with
      | exit c => rfl
      | throw w => rfl
      | ub w => rfl
      | ok lc =>
        rw [Res.ok_bind, Res.ok_bind, gamma_conj]
        rw [← newPhotonE_conj, add_conj, newPhotonE_conj]
        split <;> rfl

theorem interact_conj {pr : Proc D} (h : pr.Radiates) (p : Particle D) (l : PList D)
    (r : Rng D) : pr.conj.interact p.conj l.conj r = pr.interact p l r >>= out := by
  cases pr with
  | stochastic cfg => exact stochastic_conj cfg p l r
  | continuous cfg cl => exact continuous_conj cfg cl p l r
  | breitWheeler cfg => exact h.elim

/-! ## The loops -/

/-- The exchanged outcome of a loop over particles. -/
def lout (x : PList D × Rng D) : Res (PList D × Rng D) := .ok (x.1.conj, x.2)

theorem interactAt_conj {pr : Proc D} (h : pr.Radiates) (k : Nat) (l : PList D)
    (r : Rng D) : interactAt pr.conj k l.conj r = interactAt pr k l r >>= lout := by
  unfold interactAt
  rw [get_conj]
  cases l.get k with
  | exit c => rfl
  | throw w => rfl
  | ub w => rfl
  | ok p =>
    simp only [Res.ok_bind]
    rw [interact_conj h]
    cases pr.interact p l r with
    | exit c => rfl
    | throw w => rfl
    | ub w => rfl
    | ok x =>
      simp only [Res.ok_bind, out, lout]
      rw [set_conj]

theorem interactAll_conj : ∀ {prs : List (Proc D)}, (∀ pr ∈ prs, pr.Radiates) →
    ∀ (k : Nat) (l : PList D) (r : Rng D),
      interactAll (prs.map Proc.conj) k l.conj r = interactAll prs k l r >>= lout
  | [], _, _, _, _ => rfl
  | pr :: prs, h, k, l, r => by
    rw [List.map_cons]
    unfold interactAll
    rw [interactAt_conj (h pr List.mem_cons_self)]
    cases interactAt pr k l r with
    | exit c => rfl
    | throw w => rfl
    | ub w => rfl
    | ok x =>
      simp only [Res.ok_bind, lout]
      exact interactAll_conj (fun q hq => h q (List.mem_cons_of_mem _ hq)) k x.1 x.2

/-- What the exchange needs of a simulation: one of the pushers of the program and no
pair production. -/
structure Ok (cfg : SimCfg D) : Prop where
  pusher : cfg.push = lorentzForce ∨ cfg.push = landauForce ∨ cfg.push = modLandauForce
  procs : ∀ pr ∈ cfg.procs, pr.Radiates

theorem Ok.even {cfg : SimCfg D} (h : Ok cfg) : Even cfg.push := by
  rcases h.pusher with e | e | e <;> rw [e]
  · exact lorentz_even
  · exact landau_even
  · exact modLandau_even

theorem visit_conj {cfg : SimCfg D} (h : Ok cfg) (k : Nat) (l : PList D) (r : Rng D) :
    visit cfg.conj k l.conj r = visit cfg k l r >>= lout := by
  unfold visit
  rw [get_conj]
  cases l.get k with
  | exit c => rfl
  | throw w => rfl
  | ub w => rfl
  | ok p =>
    simp only [Res.ok_bind]
    have h1 : cfg.conj.push = cfg.push := rfl
    have h2 : cfg.conj.field = cfg.field.conj := rfl
    have h3 : cfg.conj.dt = cfg.dt := rfl
    have h4 : cfg.conj.procs = cfg.procs.map Proc.conj := rfl
    rw [h1, h2, h3, h4, push_conj h.even, set_conj, interactAll_conj h.procs]

theorem particleLoop_conj {cfg : SimCfg D} (h : Ok cfg) :
    ∀ (fuel k : Nat) (l : PList D) (r : Rng D),
      particleLoop cfg.conj fuel k l.conj r = particleLoop cfg fuel k l r >>= lout := by
  intro fuel
  induction fuel with
  | zero => intro k l r; rfl
  | succ fuel ih =>
    intro k l r
    unfold particleLoop
    rw [nPart_conj]
    split
    · rw [visit_conj h]
      cases visit cfg k l r with
      | exit c => rfl
      | throw w => rfl
      | ub w => rfl
      | ok x => simp only [Res.ok_bind, lout]; exact ih (k + 1) x.1 x.2
    · rfl

theorem advance_conj {cfg : SimCfg D} (h : Ok cfg) (l : PList D) (r : Rng D) :
    advance cfg.conj l.conj r = advance cfg l r >>= lout :=
  particleLoop_conj h l.maxParticles 0 l r

theorem conjName_conjName (s : String) : conjName (conjName s) = s := by
  unfold conjName
  by_cases h1 : s = "Electron"
  · subst h1; decide
  · by_cases h2 : s = "Positron"
    · subst h2; decide
    · simp [h1, h2]

theorem name_conj (p : Particle D) : p.conj.name = conjName p.name := by
  rcases p with ⟨k, _⟩
  cases k <;> simp [Particle.conj, Particle.name, Kind.conj, conjName]

theorem conjName_eq_iff (s t : String) : conjName s = conjName t ↔ s = t :=
  ⟨fun h => by rw [← conjName_conjName s, h, conjName_conjName], fun h => by rw [h]⟩

theorem count_conj (h : Hist D) (x : D) :
    h.conj.count x = h.count x >>= fun h => .ok h.conj := by
  unfold Hist.count
  simp only [Hist.conj]
  cases rd h.centres 0 with
  | exit c => rfl
  | throw w => rfl
  | ub w => rfl
  | ok first =>
    simp only [Res.ok_bind]
    cases rd h.centres (Numerics.usub h.nBins 1) with
    | exit c => rfl
    | throw w => rfl
    | ub w => rfl
    | ok last =>
      simp only [Res.ok_bind]
      split
      · cases Numerics.arrayIndex h.centres x with
        | exit c => rfl
        | throw w => rfl
        | ub w => rfl
        | ok i =>
          simp only [Res.ok_bind]
          cases rd h.values i <;> rfl
      · rfl

theorem appParticle_conj (h : Hist D) (p : Particle D) :
    h.conj.appParticle p.conj = h.appParticle p >>= fun h => .ok h.conj := by
  unfold Hist.appParticle
  rw [energy_conj, count_conj]
  have : h.conj.nBins = h.nBins := rfl
  rw [this]
  by_cases hn : h.nBins = 0 <;> simp [hn]

theorem fillHist_conj : ∀ (ps : List (Particle D)) (h : Hist D),
    fillHist h.conj (ps.map Particle.conj) = fillHist h ps >>= fun h => .ok h.conj
  | [], _ => rfl
  | p :: ps, h => by
    have hn : (h.conj.particle = p.conj.name) ↔ (h.particle = p.name) := by
      rw [name_conj]; exact conjName_eq_iff _ _
    rw [List.map_cons, fillHist, fillHist]
    by_cases hp : h.particle = p.name
    · rw [if_pos hp, if_pos (hn.mpr hp), appParticle_conj]
      cases h.appParticle p with
      | exit c => rfl
      | throw w => rfl
      | ub w => rfl
      | ok h' => simp only [Res.ok_bind]; exact fillHist_conj ps h'
    · rw [if_neg hp, if_neg (fun c => hp (hn.mp c))]
      simp only [Res.ok_bind]; exact fillHist_conj ps h

theorem histStep_conj (s : EvState D) :
    histStep s.conj = histStep s >>= fun s => .ok s.conj := by
  unfold histStep
  have h1 : s.conj.hists = s.hists.map Hist.conj := rfl
  have h2 : s.conj.histCount = s.histCount := rfl
  have h3 : s.conj.time = s.time := rfl
  have h4 : s.conj.list.items = s.list.items.map Particle.conj := rfl
  rw [h1, h2, h3, h4, List.getElem?_map]
  cases s.hists[s.histCount]? with
  | none => rfl
  | some h =>
    have h5 : h.conj.time = h.time := rfl
    simp only [Option.map_some]
    rw [h5]
    split
    · rw [fillHist_conj]
      cases fillHist h s.list.items with
      | exit c => rfl
      | throw w => rfl
      | ub w => rfl
      | ok h' =>
        simp only [Res.ok_bind, EvState.conj, List.map_set]
    · rfl

theorem fillRest_conj (l : PList D) : ∀ (hs : List (Hist D)) (c : Nat),
    fillRest l.conj c (hs.map Hist.conj) =
      fillRest l c hs >>= fun hs => .ok (hs.map Hist.conj)
  | [], c => by cases c <;> rfl
  | h :: hs, c + 1 => by
    rw [List.map_cons, fillRest, fillRest, fillRest_conj l hs c]
    cases fillRest l c hs <;> rfl
  | h :: hs, 0 => by
    have h4 : l.conj.items = l.items.map Particle.conj := rfl
    rw [List.map_cons, fillRest, fillRest, h4, fillHist_conj]
    cases fillHist h l.items with
    | exit c => rfl
    | throw w => rfl
    | ub w => rfl
    | ok h' =>
      simp only [Res.ok_bind]
      rw [fillRest_conj l hs 0]
      cases fillRest l 0 hs <;> rfl

theorem timeStep_conj {cfg : SimCfg D} (h : Ok cfg) (s : EvState D) :
    timeStep cfg.conj s.conj = timeStep cfg s >>= fun s => .ok s.conj := by
  unfold timeStep
  rw [histStep_conj]
  cases histStep s with
  | exit c => rfl
  | throw w => rfl
  | ub w => rfl
  | ok s =>
    simp only [Res.ok_bind]
    have h1 : s.conj.list = s.list.conj := rfl
    have h2 : s.conj.rng = s.rng := rfl
    rw [h1, h2, advance_conj h]
    cases advance cfg s.list s.rng with
    | exit c => rfl
    | throw w => rfl
    | ub w => rfl
    | ok x => rfl

theorem run_conj {cfg : SimCfg D} (h : Ok cfg) {s : EvState D} {n : Nat}
    {o : Res (EvState D)} (hr : Run cfg s n o) :
    Run cfg.conj s.conj n (o >>= fun s => .ok s.conj) := by
  induction hr with
  | done hd => exact .done hd
  | step hlt hs _ ih =>
    refine .step hlt ?_ ih
    rw [timeStep_conj h, hs]; rfl
  | abort hlt hs hno =>
    refine .abort hlt ?_ ?_
    · rw [timeStep_conj h, hs]
    · rename_i o
      intro s' he
      cases o with
      | ok a => exact hno a rfl
      | exit c => cases he
      | throw w => cases he
      | ub w => cases he

/-! ## The exchange undoes itself -/

theorem kind_conj (k : Kind) : k.conj.conj = k := by cases k <;> rfl

theorem part_conj (p : Particle D) : p.conj.conj = p := by
  simp [Particle.conj, kind_conj, SignLaws.neg_neg]

theorem list_conj (l : PList D) : l.conj.conj = l := by
  simp [PList.conj, Function.comp_def, part_conj]

theorem field_conj (f : Field D) : f.conj.conj = f := by
  funext t x; simp [Field.conj, opp_opp]

theorem proc_conj (pr : Proc D) : pr.conj.conj = pr := by
  cases pr <;> simp [Proc.conj, field_conj]

theorem cfg_conj (cfg : SimCfg D) : cfg.conj.conj = cfg := by
  simp [SimCfg.conj, field_conj, Function.comp_def, proc_conj]

theorem hist_conj (h : Hist D) : h.conj.conj = h := by
  simp [Hist.conj, conjName_conjName]

theorem state_conj (s : EvState D) : s.conj.conj = s := by
  simp [EvState.conj, list_conj, Function.comp_def, hist_conj]

theorem Ok.conj {cfg : SimCfg D} (h : Ok cfg) : Ok cfg.conj :=
  ⟨h.pusher, by
    intro pr hpr
    obtain ⟨q, hq, rfl⟩ := List.mem_map.mp hpr
    have := h.procs q hq
    cases q <;> trivial⟩

/-! ## Pairs -/

theorem bw_field_conj (cfg : BWCfg D) (p : Particle D) (l : PList D) (r : Rng D) :
    bwInteract { cfg with field := cfg.field.conj } p l r = bwInteract cfg p l r := by
  unfold bwInteract
  have hs : ∀ χ u : D, bwSplit { cfg with field := cfg.field.conj } χ u = bwSplit cfg χ u :=
    fun _ _ => rfl
  dsimp only
  rw [bwChi_conj]
  simp only [hs]

end Conj

end QED
