import Verif.Spec.Mirror
import Verif.Lemmas.Signs
import Verif.Lemmas.Sim

set_option autoImplicit false
set_option linter.unusedSectionVars false

/-!
# The event loop in mirrors
-/

namespace QED

open Dbl MCTools

namespace Mirror

variable {D : Type} [Dbl D] [SignLaws D] (m : Mirror)

/-! ## Vectors -/

theorem flip_add (s : Bool) (a b : D) : flip s (a +. b) = flip s a +. flip s b := by
  cases s <;> simp [flip, SignLaws.add_neg]

theorem flip_sub (s : Bool) (a b : D) : flip s (a -. b) = flip s a -. flip s b := by
  cases s <;> simp [flip, SignLaws.sub_neg]

theorem flip_mul (s : Bool) (a b : D) : flip s (a *. b) = a *. flip s b := by
  cases s <;> simp [flip, SignLaws.mul_neg]

theorem flip_muls (s : Bool) (a b : D) : flip s (a *. b) = flip s a *. b := by
  cases s <;> simp [flip, SignLaws.neg_mul]

theorem flip_div (s : Bool) (a b : D) : flip s (a /. b) = flip s a /. b := by
  cases s <;> simp [flip, SignLaws.neg_div]

theorem flip_flip (s t : Bool) (a : D) : flip s (flip t a) = flip (s ^^ t) a := by
  cases s <;> cases t <;> simp [flip, SignLaws.neg_neg]

theorem flip_mul_flip (s t : Bool) (a b : D) : flip s a *. flip t b = flip (s ^^ t) (a *. b) := by
  rw [← flip_mul, ← flip_muls, flip_flip, Bool.xor_comm]

theorem vec_add (a b : V3 D) : m.vec (a.add b) = (m.vec a).add (m.vec b) := by
  simp only [vec, V3.add, flip_add]

theorem vec_sub (a b : V3 D) : m.vec (a.sub b) = (m.vec a).sub (m.vec b) := by
  simp only [vec, V3.sub, flip_sub]

theorem vec_smul (s : D) (a : V3 D) : m.vec (a.smul s) = (m.vec a).smul s := by
  simp only [vec, V3.smul, flip_mul]

theorem vec_muls (s : D) (a : V3 D) : m.vec (a.muls s) = (m.vec a).muls s := by
  simp only [vec, V3.muls, flip_muls]

theorem vec_divs (s : D) (a : V3 D) : m.vec (a.divs s) = (m.vec a).divs s := by
  simp only [vec, V3.divs, flip_div]

theorem flip_false (a : D) : flip false a = a := rfl

theorem vec_dot (a b : V3 D) : (m.vec a).dot (m.vec b) = a.dot b := by
  simp only [vec, V3.dot, flip_mul_flip, Bool.xor_self, flip_false]

theorem vec_mag2 (a : V3 D) : (m.vec a).mag2 = a.mag2 := m.vec_dot a a

theorem vec_mag (a : V3 D) : (m.vec a).mag = a.mag := by
  unfold V3.mag; rw [m.vec_dot]

theorem vec_norm (a : V3 D) : (m.vec a).norm = m.vec a.norm := by
  unfold V3.norm; rw [m.vec_divs, m.vec_mag]

/-- The magnetic field enters through a cross product only. -/
theorem vec_crossB (a b : V3 D) : (m.vec a).cross (m.axial b) = m.vec (a.cross b) := by
  rcases m with ⟨_ | _, _ | _, _ | _⟩ <;>
    simp [vec, axial, flip, V3.cross, SignLaws.neg_mul, SignLaws.mul_neg, SignLaws.neg_neg, SignLaws.sub_neg]

/-! ## Pushers -/

/-- The force turns with the axes. -/
def Turns (push : PushMom D) : Prop :=
  ∀ mass charge p e b, push mass charge (m.vec p) (m.vec e) (m.axial b) =
    m.vec (push mass charge p e b)

theorem pushGamma_vec (mass : D) (p : V3 D) : pushGamma mass (m.vec p) = pushGamma mass p := by
  unfold pushGamma; rw [m.vec_mag2]

theorem pushPosition_vec (mass : D) (p : V3 D) :
    pushPosition mass (m.vec p) = m.vec (pushPosition mass p) := by
  unfold pushPosition; rw [m.pushGamma_vec, m.vec_divs]

theorem lorentz_turns : m.Turns (lorentzForce (D := D)) := by
  intro mass charge p e b
  unfold lorentzForce
  rw [m.vec_crossB, m.pushGamma_vec, ← m.vec_divs, ← m.vec_add, ← m.vec_smul]

/-- The transverse field seen along the direction of motion. -/
theorem perp_vec (dir e b : V3 D) (β : D) :
    ((((m.vec e).sub ((m.vec dir).smul ((m.vec e).dot (m.vec dir)))).add
      (((m.vec dir).cross (m.axial b)).smul β))) =
    m.vec ((e.sub (dir.smul (e.dot dir))).add ((dir.cross b).smul β)) := by
  rw [m.vec_dot, m.vec_crossB, ← m.vec_smul, ← m.vec_sub, ← m.vec_smul, ← m.vec_add]

theorem pushEta_vec (mass : D) (p e b : V3 D) :
    pushEta mass (m.vec p) (m.vec e) (m.axial b) = pushEta mass p e b := by
  unfold pushEta
  dsimp only
  rw [m.pushGamma_vec, m.vec_norm, m.perp_vec, m.vec_mag2, m.vec_dot]

theorem landau_turns : m.Turns (landauForce (D := D)) := by
  intro mass charge p e b
  unfold landauForce landauReaction
  dsimp only
  rw [m.lorentz_turns, m.pushEta_vec, m.vec_norm, ← m.vec_smul, ← m.vec_add]

theorem modLandau_turns : m.Turns (modLandauForce (D := D)) := by
  intro mass charge p e b
  unfold modLandauForce modLandauReaction
  dsimp only
  rw [m.lorentz_turns, m.pushEta_vec, m.vec_norm, ← m.vec_smul, ← m.vec_add]

theorem rk4_moved {push : PushMom D} (hp : m.Turns push) {f f' : Field D} (hf : m.Fields f f')
    (dt mass charge time : D) (x p : V3 D) :
    rk4 push f' dt mass charge time (m.vec x) (m.vec p) =
      (m.vec (rk4 push f dt mass charge time x p).1,
        m.vec (rk4 push f dt mass charge time x p).2) := by
  have hpf : ∀ (t : D) (x p : V3 D), push mass charge (m.vec p) (f' t (m.vec x)).1
      (f' t (m.vec x)).2 = m.vec (push mass charge p (f t x).1 (f t x).2) :=
    fun t x p => by rw [hf t x]; exact hp _ _ _ _ _
  unfold rk4
  dsimp only
  simp only [m.pushPosition_vec, ← m.vec_muls, ← m.vec_divs, ← m.vec_add, hpf,
    ← m.vec_smul]

theorem gamma_part (p : Particle D) : (m.part p).gamma = p.gamma := by
  rcases p with ⟨k, _⟩
  cases k <;> simp only [Particle.gamma, part, m.vec_mag, m.vec_mag2]

theorem energy_part (p : Particle D) : (m.part p).energy = p.energy := by
  have h := m.gamma_part p
  rcases p with ⟨k, _⟩
  cases k
  · simp only [Particle.energy, part, m.vec_mag]
  · simp only [Particle.energy, h]; rfl
  · simp only [Particle.energy, h]; rfl

theorem beta_part (p : Particle D) : (m.part p).beta = p.beta := by
  have h := m.gamma_part p
  rcases p with ⟨k, _⟩
  cases k <;> simp only [Particle.beta, part] at h ⊢ <;> rw [h]

theorem direction_part (p : Particle D) : (m.part p).direction = m.vec p.direction :=
  m.vec_norm p.momentum

theorem updateTrack_part (p : Particle D) (x q : V3 D) :
    (m.part p).updateTrack (m.vec x) (m.vec q) = m.part (p.updateTrack x q) := by
  have hg := m.gamma_part { p with position := x, momentum := q }
  unfold Particle.updateTrack
  by_cases ht : p.tracking
  · have ht' : (m.part p).tracking = true := ht
    simp only [ht, ht', if_true]
    simp only [part, List.map_append, List.map_cons, List.map_nil, ht] at hg ⊢
    rw [← hg]
  · have ht' : ¬ (m.part p).tracking = true := ht
    simp only [ht, ht']
    rfl

theorem updateTime_part (p : Particle D) (dt : D) :
    (m.part p).updateTime dt = m.part (p.updateTime dt) := by
  rfl

theorem push_part {push : PushMom D} (hp : m.Turns push) {f f' : Field D} (hf : m.Fields f f')
    (dt : D) (p : Particle D) :
    pushParticle push f' dt (m.part p) = m.part (pushParticle push f dt p) := by
  unfold pushParticle
  have ha : (m.part p).isAlive = p.isAlive := rfl
  have hm : (m.part p).mass = p.mass := rfl
  have hc : (m.part p).charge = p.charge := rfl
  have ht : (m.part p).time = p.time := rfl
  have hx : (m.part p).position = m.vec p.position := rfl
  have hq : (m.part p).momentum = m.vec p.momentum := rfl
  rw [ha, hm, hc, ht, hx, hq]
  split
  · rfl
  · split
    · dsimp only
      rw [m.vec_mag, ← m.vec_smul, ← m.vec_add, m.updateTrack_part, m.updateTime_part]
    · dsimp only
      rw [m.rk4_moved hp hf, m.updateTrack_part, m.updateTime_part]

/-! ## Lists -/

theorem nPart_list (l : PList D) : (m.list l).nPart = l.nPart := by
  simp [PList.nPart, list]

theorem add_list (l : PList D) (p : Particle D) :
    (m.list l).add (m.part p) = m.list (l.add p) := by
  unfold PList.add
  simp only [list, List.length_map]
  split <;> simp

theorem set_list (l : PList D) (k : Nat) (p : Particle D) :
    (m.list l).set k (m.part p) = m.list (l.set k p) := by
  simp only [PList.set, list, List.map_set]

theorem get_list (l : PList D) (k : Nat) :
    (m.list l).get k = l.get k >>= fun p => .ok (m.part p) := by
  unfold PList.get
  simp only [list, List.getElem?_map]
  cases l.items[k]? with
  | none => simp only [Option.map_none]; by_cases hk : k < l.maxParticles <;> simp [hk]
  | some p => rfl

/-! ## Processes -/

theorem newPhotonE_part (e w t : D) (x d : V3 D) (tr : Bool) (u : D) :
    Particle.newPhotonE e (m.vec x) (m.vec d) w t tr u =
      m.part (Particle.newPhotonE e x d w t tr u) := by
  simp only [Particle.newPhotonE, Particle.new, part, m.vec_norm, m.vec_smul, List.map_nil]

theorem pairLepton_part (c e : D) (p : Particle D) (tr : Bool) (u : D) :
    pairLepton c e (m.part p) tr u = m.part (pairLepton c e p tr u) := by
  unfold pairLepton
  rw [m.direction_part]
  simp only [Particle.newLepton, Particle.new, part, m.vec_smul, List.map_nil]

theorem calculateEta_part {f f' : Field D} (hf : m.Fields f f') (p : Particle D) :
    calculateEta f' (m.part p) = calculateEta f p := by
  unfold calculateEta
  have ht : (m.part p).time = p.time := rfl
  have hx : (m.part p).position = m.vec p.position := rfl
  dsimp only
  rw [ht, hx, hf, m.direction_part, m.gamma_part, m.beta_part]
  dsimp only
  rw [m.perp_vec, m.vec_mag2, m.vec_dot]

theorem bwChi_part {f f' : Field D} (hf : m.Fields f f') (p : Particle D) :
    bwChi f' (m.part p) = bwChi f p := by
  unfold bwChi
  have ht : (m.part p).time = p.time := rfl
  have hx : (m.part p).position = m.vec p.position := rfl
  dsimp only
  rw [ht, hx, hf, m.direction_part, m.energy_part]
  dsimp only
  rw [m.vec_dot, m.vec_crossB, ← m.vec_smul, ← m.vec_sub, ← m.vec_add, m.vec_mag]

theorem depth_part (p : Particle D) (d : D) :
    (m.part p).updateOpticalDepth d = m.part (p.updateOpticalDepth d) := rfl

theorem initDepth_part (p : Particle D) (u : D) :
    (m.part p).initOpticalDepth u = m.part (p.initOpticalDepth u) := rfl

theorem kill_part (p : Particle D) : (m.part p).kill = m.part p.kill := rfl

theorem storePhoton_moved (cfg : EmissionCfg D) (f' : Field D) (p : Particle D) (e : D)
    (l : PList D) (r : Rng D) :
    storePhoton { cfg with field := f' } (m.part p) e (m.list l) r =
      (m.list (storePhoton cfg p e l r).1, (storePhoton cfg p e l r).2) := by
  unfold storePhoton
  have ht : (m.part p).time = p.time := rfl
  have hx : (m.part p).position = m.vec p.position := rfl
  have hw : (m.part p).weight = p.weight := rfl
  rw [ht, hx, hw, m.direction_part]
  dsimp only
  rw [m.newPhotonE_part, m.add_list]
  split
  · split <;> rfl
  · rfl

/-- The moved outcome of an interaction. -/
def out (x : Particle D × PList D × Rng D) : Res (Particle D × PList D × Rng D) :=
  .ok (m.part x.1, m.list x.2.1, x.2.2)

theorem stochastic_moved (cfg : EmissionCfg D) {f' : Field D} (hf : m.Fields cfg.field f')
    (p : Particle D) (l : PList D) (r : Rng D) :
    stochasticInteract { cfg with field := f' } (m.part p) (m.list l) r =
      stochasticInteract cfg p l r >>= m.out := by
  unfold stochasticInteract
  have ha : (m.part p).isAlive = p.isAlive := rfl
  have hm : (m.part p).mass = p.mass := rfl
  rw [ha, hm]
  split
  · rfl
  · have hl : ∀ η : D, emissionLogh { cfg with field := f' } η = emissionLogh cfg η := fun _ => rfl
    have hc : ∀ η u : D, calculateChi { cfg with field := f' } η u = calculateChi cfg η u :=
      fun _ _ => rfl
    dsimp only
    rw [m.calculateEta_part hf, hl]
    cases emissionLogh cfg (calculateEta cfg.field p) with
    | exit c => rfl
    | throw w => rfl
    | ub w => rfl
    | ok logh =>
      simp only [Res.ok_bind]
      rw [m.gamma_part, m.depth_part]
      generalize p.updateOpticalDepth
        (emissionDelta cfg.dt (calculateEta cfg.field p) logh p.gamma) = q
      have hd : (m.part q).opticalDepth = q.opticalDepth := rfl
      have hx : (m.part q).position = m.vec q.position := rfl
      have hq : (m.part q).momentum = m.vec q.momentum := rfl
      rw [hd]
      split
      · rw [hc]
        cases calculateChi cfg (calculateEta cfg.field p) r.next.1 with
        | exit c => rfl
        | throw w => rfl
        | ub w => rfl
        | ok chi =>
          simp only [Res.ok_bind]
          rw [m.gamma_part, m.direction_part, hx, hq, ← m.vec_smul, ← m.vec_sub,
            m.updateTrack_part, m.storePhoton_moved]
          rfl
      · rfl

theorem continuous_moved (cfg : EmissionCfg D) {f' : Field D} (hf : m.Fields cfg.field f')
    (classical : Bool) (p : Particle D) (l : PList D) (r : Rng D) :
    continuousInteract { cfg with field := f' } classical (m.part p) (m.list l) r =
      continuousInteract cfg classical p l r >>= m.out := by
  unfold continuousInteract
  have ha : (m.part p).isAlive = p.isAlive := rfl
  have hm : (m.part p).mass = p.mass := rfl
  have ht : (m.part p).time = p.time := rfl
  have hx : (m.part p).position = m.vec p.position := rfl
  have hw : (m.part p).weight = p.weight := rfl
  have hl : ∀ η u : D, continuousLoghChi { cfg with field := f' } classical η u =
    continuousLoghChi cfg classical η u := fun _ _ => rfl
  rw [ha, hm, ht, hx, hw]
  split
  · rfl
  · dsimp only
    split
    · rfl
    · rw [m.calculateEta_part hf, hl]
      cases continuousLoghChi cfg classical (calculateEta cfg.field p) r.next.2.next.1 with
      | exit c => rfl
      | throw w => rfl
      | ub w => rfl
      | ok lc =>
        rw [Res.ok_bind, Res.ok_bind, m.gamma_part, m.direction_part]
        rw [m.newPhotonE_part, m.add_list]
        split <;> rfl

theorem bw_moved (cfg : BWCfg D) {f' : Field D} (hf : m.Fields cfg.field f')
    (p : Particle D) (l : PList D) (r : Rng D) :
    bwInteract { cfg with field := f' } (m.part p) (m.list l) r =
      bwInteract cfg p l r >>= m.out := by
  unfold bwInteract
  have ha : (m.part p).isAlive = p.isAlive := rfl
  have hn : (m.part p).typeName = p.typeName := rfl
  have hs : ∀ χ u : D, bwSplit { cfg with field := f' } χ u = bwSplit cfg χ u := fun _ _ => rfl
  rw [ha, hn]
  split
  · rfl
  · dsimp only
    rw [m.bwChi_part hf]
    cases Numerics.interpolate1D cfg.tAxis cfg.tData (log10 (bwChi cfg.field p)) with
    | exit c => rfl
    | throw w => rfl
    | ub w => rfl
    | ok logt =>
      simp only [Res.ok_bind]
      rw [m.energy_part, m.depth_part]
      generalize p.updateOpticalDepth
        (bwDelta cfg.dt (bwChi cfg.field p) logt p.energy) = q
      have hd : (m.part q).opticalDepth = q.opticalDepth := rfl
      rw [hd]
      split
      · rw [hs]
        cases bwSplit cfg (bwChi cfg.field p) r.next.1 with
        | exit c => rfl
        | throw w => rfl
        | ub w => rfl
        | ok split =>
          simp only [Res.ok_bind]
          rw [m.energy_part, m.pairLepton_part, m.pairLepton_part, m.add_list, m.add_list,
            m.kill_part]
          rfl
      · rfl

theorem interact_moved {pr pr' : Proc D} (h : m.Procs pr pr') (p : Particle D) (l : PList D)
    (r : Rng D) :
    pr'.interact (m.part p) (m.list l) r = pr.interact p l r >>= m.out := by
  cases h with
  | stochastic cfg f' hf => exact m.stochastic_moved cfg hf p l r
  | continuous cfg f' cl hf => exact m.continuous_moved cfg hf cl p l r
  | breitWheeler cfg f' hf => exact m.bw_moved cfg hf p l r

/-! ## The loops -/

/-- The moved outcome of a loop over particles. -/
def lout (x : PList D × Rng D) : Res (PList D × Rng D) := .ok (m.list x.1, x.2)

theorem interactAt_moved {pr pr' : Proc D} (h : m.Procs pr pr') (k : Nat) (l : PList D)
    (r : Rng D) :
    interactAt pr' k (m.list l) r = interactAt pr k l r >>= m.lout := by
  unfold interactAt
  rw [m.get_list]
  cases l.get k with
  | exit c => rfl
  | throw w => rfl
  | ub w => rfl
  | ok p =>
    simp only [Res.ok_bind]
    rw [m.interact_moved h]
    cases pr.interact p l r with
    | exit c => rfl
    | throw w => rfl
    | ub w => rfl
    | ok x =>
      simp only [Res.ok_bind, out, lout]
      rw [m.set_list]

theorem interactAll_moved {prs prs' : List (Proc D)} (h : List.Forall₂ m.Procs prs prs') :
    ∀ (k : Nat) (l : PList D) (r : Rng D),
      interactAll prs' k (m.list l) r = interactAll prs k l r >>= m.lout := by
  induction h with
  | nil => intro k l r; rfl
  | cons h _ ih =>
    intro k l r
    unfold interactAll
    rw [m.interactAt_moved h]
    cases interactAt _ k l r with
    | exit c => rfl
    | throw w => rfl
    | ub w => rfl
    | ok x => simp only [Res.ok_bind, lout]; exact ih k x.1 x.2

theorem Sims.turns {m : Mirror} {cfg cfg' : SimCfg D} (h : m.Sims cfg cfg') :
    m.Turns cfg.push := by
  rcases h.pusher with e | e | e <;> rw [e]
  · exact m.lorentz_turns
  · exact m.landau_turns
  · exact m.modLandau_turns

variable {m}

theorem visit_moved {cfg cfg' : SimCfg D} (h : m.Sims cfg cfg') (k : Nat) (l : PList D)
    (r : Rng D) : visit cfg' k (m.list l) r = visit cfg k l r >>= m.lout := by
  unfold visit
  rw [m.get_list]
  cases l.get k with
  | exit c => rfl
  | throw w => rfl
  | ub w => rfl
  | ok p =>
    simp only [Res.ok_bind]
    rw [h.push, h.dt, m.push_part h.turns h.field, m.set_list, m.interactAll_moved h.procs]

theorem particleLoop_moved {cfg cfg' : SimCfg D} (h : m.Sims cfg cfg') :
    ∀ (fuel k : Nat) (l : PList D) (r : Rng D),
      particleLoop cfg' fuel k (m.list l) r = particleLoop cfg fuel k l r >>= m.lout := by
  intro fuel
  induction fuel with
  | zero => intro k l r; rfl
  | succ fuel ih =>
    intro k l r
    unfold particleLoop
    rw [m.nPart_list]
    split
    · rw [visit_moved h]
      cases visit cfg k l r with
      | exit c => rfl
      | throw w => rfl
      | ub w => rfl
      | ok x => simp only [Res.ok_bind, lout]; exact ih (k + 1) x.1 x.2
    · rfl

theorem advance_moved {cfg cfg' : SimCfg D} (h : m.Sims cfg cfg') (l : PList D) (r : Rng D) :
    advance cfg' (m.list l) r = advance cfg l r >>= m.lout :=
  particleLoop_moved h l.maxParticles 0 l r

variable (m)

theorem appParticle_moved (h : Hist D) (p : Particle D) :
    h.appParticle (m.part p) = h.appParticle p := by
  unfold Hist.appParticle
  rw [m.energy_part]

theorem fillHist_moved : ∀ (ps : List (Particle D)) (h : Hist D),
    fillHist h (ps.map m.part) = fillHist h ps
  | [], _ => rfl
  | p :: ps, h => by
    have hn : (m.part p).name = p.name := rfl
    rw [List.map_cons, fillHist, fillHist, hn, m.appParticle_moved]
    have ih : (fun h => fillHist h (ps.map m.part)) = fun h => fillHist h ps :=
      funext fun h => fillHist_moved ps h
    rw [ih]

theorem histStep_moved (s : EvState D) :
    histStep (m.state s) = histStep s >>= fun s => .ok (m.state s) := by
  unfold histStep
  have h1 : (m.state s).hists = s.hists := rfl
  have h2 : (m.state s).histCount = s.histCount := rfl
  have h3 : (m.state s).time = s.time := rfl
  have h4 : (m.state s).list.items = s.list.items.map m.part := rfl
  rw [h1, h2, h3, h4]
  cases s.hists[s.histCount]? with
  | none => rfl
  | some h =>
    dsimp only
    split
    · rw [m.fillHist_moved]
      cases fillHist h s.list.items with
      | exit c => rfl
      | throw w => rfl
      | ub w => rfl
      | ok h' => rfl
    · rfl

theorem fillRest_moved (l : PList D) : ∀ (hs : List (Hist D)) (c : Nat),
    fillRest (m.list l) c hs = fillRest l c hs
  | [], c => by cases c <;> rfl
  | h :: hs, c + 1 => by
    rw [fillRest, fillRest, fillRest_moved l hs c]
  | h :: hs, 0 => by
    have h4 : (m.list l).items = l.items.map m.part := rfl
    rw [fillRest, fillRest, h4, m.fillHist_moved, fillRest_moved l hs 0]

variable {m}

theorem timeStep_moved {cfg cfg' : SimCfg D} (h : m.Sims cfg cfg') (s : EvState D) :
    timeStep cfg' (m.state s) = timeStep cfg s >>= fun s => .ok (m.state s) := by
  unfold timeStep
  rw [m.histStep_moved]
  cases histStep s with
  | exit c => rfl
  | throw w => rfl
  | ub w => rfl
  | ok s =>
    simp only [Res.ok_bind]
    have h1 : (m.state s).list = m.list s.list := rfl
    have h2 : (m.state s).rng = s.rng := rfl
    rw [h1, h2, advance_moved h, h.dt]
    cases advance cfg s.list s.rng with
    | exit c => rfl
    | throw w => rfl
    | ub w => rfl
    | ok x => rfl

theorem run_moved {cfg cfg' : SimCfg D} (h : m.Sims cfg cfg') {s : EvState D} {n : Nat}
    {o : Res (EvState D)} (hr : Run cfg s n o) :
    Run cfg' (m.state s) n (o >>= fun s => .ok (m.state s)) := by
  induction hr with
  | done hd => exact .done (by rw [h.timeEnd]; exact hd)
  | step hlt hs _ ih =>
    refine .step (by rw [h.timeEnd]; exact hlt) ?_ ih
    rw [timeStep_moved h, hs]; rfl
  | abort hlt hs hno =>
    refine .abort (by rw [h.timeEnd]; exact hlt) ?_ ?_
    · rw [timeStep_moved h, hs]
    · rename_i o
      intro s' he
      cases o with
      | ok a => exact hno a rfl
      | exit c => cases he
      | throw w => cases he
      | ub w => cases he

/-- Every run of the moved simulation is a moved run. -/
theorem run_moved_inv {cfg cfg' : SimCfg D} (h : m.Sims cfg cfg') {s' : EvState D} {n : Nat}
    {o' : Res (EvState D)} (hr : Run cfg' s' n o') :
    ∀ s, s' = m.state s →
      ∃ o, Run cfg s n o ∧ o' = o >>= fun s => .ok (m.state s) := by
  induction hr with
  | done hd =>
    rintro s rfl
    exact ⟨.ok s, .done (by rw [← h.timeEnd]; exact hd), rfl⟩
  | step hlt hs _ ih =>
    rintro s rfl
    rw [timeStep_moved h] at hs
    cases e : timeStep cfg s with
    | exit c => rw [e] at hs; cases hs
    | throw w => rw [e] at hs; cases hs
    | ub w => rw [e] at hs; cases hs
    | ok s1 =>
      rw [e] at hs
      obtain ⟨o, ho, hoo⟩ := ih s1 (Res.ok.inj hs).symm
      exact ⟨o, .step (by rw [← h.timeEnd]; exact hlt) e ho, hoo⟩
  | abort hlt hs hno =>
    rintro s rfl
    rw [timeStep_moved h] at hs
    refine ⟨timeStep cfg s, .abort (by rw [← h.timeEnd]; exact hlt) rfl ?_, hs.symm⟩
    intro s1 e
    rw [e] at hs
    exact hno _ hs.symm

variable (m)

/-! ## Mirrors of fields -/

theorem vec_vec (a : V3 D) : m.vec (m.vec a) = a := by
  simp only [vec, flip_flip, Bool.xor_self, flip_false]

theorem part_part (p : Particle D) : m.part (m.part p) = p := by
  have h : (m.vec ∘ m.vec : V3 D → V3 D) = id := funext m.vec_vec
  rcases p with ⟨⟩
  simp only [part, vec_vec, List.map_map, h, List.map_id]

theorem list_list (l : PList D) : m.list (m.list l) = l := by
  have h : (m.part ∘ m.part : Particle D → Particle D) = id := funext m.part_part
  rcases l with ⟨⟩
  simp only [list, List.map_map, h, List.map_id]

theorem list_injective {l l' : PList D} (h : m.list l = m.list l') : l = l' := by
  have := congrArg m.list h
  rwa [list_list, list_list] at this

/-! ## Events -/

section events

variable {m} {cfg cfg' : SimCfg D} {l l' : PList D} {r r' : Rng D} {hists hists' : List (Hist D)} {n : Nat}

theorem event_moved (h : m.Sims cfg cfg') (he : Event cfg l r hists n l' r' hists') :
    Event cfg' (m.list l) r hists n (m.list l') r' hists' := by
  cases he with
  | mk hr hf =>
    have hr' := run_moved h hr
    rw [Res.ok_bind] at hr'
    exact Event.mk hr' (by rw [show (m.state _).list = m.list _ from rfl, m.fillRest_moved]
                           exact hf)

theorem event_moved_inv (h : m.Sims cfg cfg') {l₁ : PList D}
    (he : Event cfg' (m.list l) r hists n l₁ r' hists') :
    ∃ l', l₁ = m.list l' ∧ Event cfg l r hists n l' r' hists' := by
  cases he with
  | mk hr hf =>
    obtain ⟨o, ho, heq⟩ := run_moved_inv h hr (.init l r hists) rfl
    cases o with
    | exit c => cases heq
    | throw w => cases heq
    | ub w => cases heq
    | ok s =>
      obtain rfl := Res.ok.inj heq
      refine ⟨s.list, rfl, Event.mk ho ?_⟩
      rw [show (m.state s).list = m.list s.list from rfl, m.fillRest_moved] at hf
      exact hf

/-- An event has one outcome. -/
theorem run_functional {s : EvState D} {n : Nat} {o : Res (EvState D)} (h : Run cfg s n o) :
    ∀ {n' : Nat} {o' : Res (EvState D)}, Run cfg s n' o' → o = o' := by
  induction h with
  | done hd =>
    intro n' o' h'
    cases h' with
    | done _ => rfl
    | step hlt _ _ => rw [hd] at hlt; cases hlt
    | abort hlt _ _ => rw [hd] at hlt; cases hlt
  | step hlt hs _ ih =>
    intro n' o' h'
    cases h' with
    | done hd => rw [hd] at hlt; cases hlt
    | step _ hs' hr' =>
      rw [hs] at hs'
      obtain rfl := Res.ok.inj hs'
      exact ih hr'
    | abort _ hs' hno => exact absurd (hs'.symm.trans hs) (hno _)
  | abort hlt hs hno =>
    intro n' o' h'
    cases h' with
    | done hd => rw [hd] at hlt; cases hlt
    | step _ hs' _ => exact absurd (hs.symm.trans hs') (hno _)
    | abort _ hs' _ => exact hs.symm.trans hs'

theorem event_functional {n₂ : Nat} {l₂ : PList D} {r₂ : Rng D} {hists₂ : List (Hist D)}
    (h : Event cfg l r hists n l' r' hists') (h' : Event cfg l r hists n₂ l₂ r₂ hists₂) : l' = l₂ := by
  cases h with
  | mk hr _ =>
    cases h' with
    | mk hr' _ =>
      have := Res.ok.inj (run_functional hr hr')
      rw [this]

end events

/-- Every field has a mirror image. -/
theorem fields_image (f : Field D) :
    m.Fields f fun t x => (m.vec (f t (m.vec x)).1, m.axial (f t (m.vec x)).2) := by
  intro t x
  dsimp only
  rw [vec_vec]

end Mirror

end QED
