import Verif.Spec.Motions
import Verif.Lemmas.Fields
import Verif.Lemmas.Sim

set_option autoImplicit false

/-!
# The event loop under a change of axes, origin and clock
-/

namespace QED

open Dbl MCTools

namespace Motion

variable (m : Motion)

/-! ## Vectors -/

theorem lin_zero : m.lin ⟨0, 0, 0⟩ = ⟨0, 0, 0⟩ := by
  have h := m.lin_smul 0 ⟨0, 0, 0⟩
  simpa [V3.smul] using h

theorem lin_muls (s : ℝ) (a : V3 ℝ) : m.lin (a.muls s) = (m.lin a).muls s := by
  have e : ∀ b : V3 ℝ, b.muls s = b.smul s := fun b => by
    ext <;> simp [V3.muls, V3.smul, mul_comm]
  rw [e, e, m.lin_smul]

theorem lin_divs (s : ℝ) (a : V3 ℝ) : m.lin (a.divs s) = (m.lin a).divs s := by
  have e : ∀ b : V3 ℝ, b.divs s = b.smul s⁻¹ := fun b => by
    ext <;> simp [V3.divs, V3.smul, div_eq_inv_mul]
  rw [e, e, m.lin_smul]

theorem lin_sub (a b : V3 ℝ) : m.lin (a.sub b) = (m.lin a).sub (m.lin b) := by
  have e : ∀ c d : V3 ℝ, c.sub d = c.add (d.smul (-1)) := fun c d => by
    ext <;> simp [V3.sub, V3.add, V3.smul, sub_eq_add_neg]
  rw [e, e, m.lin_add, m.lin_smul]

theorem lin_mag2 (a : V3 ℝ) : (m.lin a).mag2 = a.mag2 := m.lin_dot a a

theorem lin_mag (a : V3 ℝ) : (m.lin a).mag = a.mag := by
  unfold V3.mag; rw [m.lin_dot]

theorem lin_norm (a : V3 ℝ) : (m.lin a).norm = m.lin a.norm := by
  unfold V3.norm; rw [m.lin_divs, m.lin_mag]

/-- The magnetic field enters through a cross product only. -/
theorem lin_crossB (a b : V3 ℝ) :
    (m.lin a).cross ((m.lin b).smul m.parity) = m.lin (a.cross b) := by
  rw [m.lin_cross]
  ext <;> simp [V3.cross, V3.smul] <;> ring

theorem point_add (x a : V3 ℝ) : m.point (x.add a) = (m.point x).add (m.lin a) := by
  unfold point; rw [m.lin_add]
  ext <;> simp [V3.add] <;> ring

/-! ## Pushers -/

/-- The force turns with the axes. -/
def Turns (push : PushMom ℝ) : Prop :=
  ∀ mass charge p e b, push mass charge (m.lin p) (m.lin e) ((m.lin b).smul m.parity) =
    m.lin (push mass charge p e b)

theorem pushGamma_lin (mass : ℝ) (p : V3 ℝ) : pushGamma mass (m.lin p) = pushGamma mass p := by
  unfold pushGamma; rw [m.lin_mag2]

theorem pushPosition_lin (mass : ℝ) (p : V3 ℝ) :
    pushPosition mass (m.lin p) = m.lin (pushPosition mass p) := by
  unfold pushPosition; rw [m.pushGamma_lin, m.lin_divs]

theorem lorentz_turns : m.Turns lorentzForce := by
  intro mass charge p e b
  unfold lorentzForce
  rw [m.lin_crossB, m.pushGamma_lin, ← m.lin_divs, ← m.lin_add, ← m.lin_smul]

/-- The transverse field seen along the direction of motion. -/
theorem perp_lin (dir e b : V3 ℝ) (β : ℝ) :
    ((((m.lin e).sub ((m.lin dir).smul ((m.lin e).dot (m.lin dir)))).add
      (((m.lin dir).cross ((m.lin b).smul m.parity)).smul β))) =
    m.lin ((e.sub (dir.smul (e.dot dir))).add ((dir.cross b).smul β)) := by
  rw [m.lin_dot, m.lin_crossB, ← m.lin_smul, ← m.lin_sub, ← m.lin_smul, ← m.lin_add]

theorem pushEta_lin (mass : ℝ) (p e b : V3 ℝ) :
    pushEta mass (m.lin p) (m.lin e) ((m.lin b).smul m.parity) = pushEta mass p e b := by
  unfold pushEta
  dsimp only
  rw [m.pushGamma_lin, m.lin_norm, m.perp_lin, m.lin_mag2, m.lin_dot]

theorem landau_turns : m.Turns landauForce := by
  intro mass charge p e b
  unfold landauForce landauReaction
  dsimp only
  rw [m.lorentz_turns, m.pushEta_lin, m.lin_norm, ← m.lin_smul, ← m.lin_add]

theorem modLandau_turns : m.Turns modLandauForce := by
  intro mass charge p e b
  unfold modLandauForce modLandauReaction
  dsimp only
  rw [m.lorentz_turns, m.pushEta_lin, m.lin_norm, ← m.lin_smul, ← m.lin_add]

theorem rk4_moved {push : PushMom ℝ} (hp : m.Turns push) {f f' : Field ℝ} (hf : m.Fields f f')
    (dt mass charge time : ℝ) (x p : V3 ℝ) :
    rk4 push f' dt mass charge (time + m.delay) (m.point x) (m.lin p) =
      (m.point (rk4 push f dt mass charge time x p).1,
        m.lin (rk4 push f dt mass charge time x p).2) := by
  have hpf : ∀ (t : ℝ) (x p : V3 ℝ), push mass charge (m.lin p) (f' (t + m.delay) (m.point x)).1
      (f' (t + m.delay) (m.point x)).2 = m.lin (push mass charge p (f t x).1 (f t x).2) :=
    fun t x p => by rw [hf t x]; exact hp _ _ _ _ _
  have ht : ∀ a : ℝ, time + m.delay +. a = (time +. a) + m.delay := fun a => by
    simp only [real_add]; ring
  unfold rk4
  dsimp only
  simp only [ht, m.pushPosition_lin, ← m.lin_muls, ← m.lin_divs, ← m.point_add, hpf,
    ← m.lin_add, ← m.lin_smul]

theorem gamma_part (p : Particle ℝ) : (m.part p).gamma = p.gamma := by
  rcases p with ⟨k, _⟩
  cases k <;> simp only [Particle.gamma, part, m.lin_mag, m.lin_mag2]

theorem energy_part (p : Particle ℝ) : (m.part p).energy = p.energy := by
  have h := m.gamma_part p
  rcases p with ⟨k, _⟩
  cases k
  · simp only [Particle.energy, part, m.lin_mag]
  · simp only [Particle.energy, h]; rfl
  · simp only [Particle.energy, h]; rfl

theorem beta_part (p : Particle ℝ) : (m.part p).beta = p.beta := by
  have h := m.gamma_part p
  rcases p with ⟨k, _⟩
  cases k <;> simp only [Particle.beta, part] at h ⊢ <;> rw [h]

theorem direction_part (p : Particle ℝ) : (m.part p).direction = m.lin p.direction :=
  m.lin_norm p.momentum

theorem updateTrack_part (p : Particle ℝ) (x q : V3 ℝ) :
    (m.part p).updateTrack (m.point x) (m.lin q) = m.part (p.updateTrack x q) := by
  have hg := m.gamma_part { p with position := x, momentum := q }
  unfold Particle.updateTrack
  by_cases ht : p.tracking
  · have ht' : (m.part p).tracking = true := ht
    simp only [ht, ht', if_true]
    simp only [part, List.map_append, List.map_cons, List.map_nil, ht] at hg ⊢
    rw [← hg]
  · have ht' : ¬ (m.part p).tracking = true := ht
    simp only [ht, ht']
    rfl

theorem updateTime_part (p : Particle ℝ) (dt : ℝ) :
    (m.part p).updateTime dt = m.part (p.updateTime dt) := by
  simp only [Particle.updateTime, part, real_add, add_right_comm]

theorem push_part {push : PushMom ℝ} (hp : m.Turns push) {f f' : Field ℝ} (hf : m.Fields f f')
    (dt : ℝ) (p : Particle ℝ) :
    pushParticle push f' dt (m.part p) = m.part (pushParticle push f dt p) := by
  unfold pushParticle
  have ha : (m.part p).isAlive = p.isAlive := rfl
  have hm : (m.part p).mass = p.mass := rfl
  have hc : (m.part p).charge = p.charge := rfl
  have ht : (m.part p).time = p.time + m.delay := rfl
  have hx : (m.part p).position = m.point p.position := rfl
  have hq : (m.part p).momentum = m.lin p.momentum := rfl
  rw [ha, hm, hc, ht, hx, hq]
  split
  · rfl
  · split
    · dsimp only
      rw [m.lin_mag, ← m.lin_smul, ← m.point_add, m.updateTrack_part, m.updateTime_part]
    · dsimp only
      rw [m.rk4_moved hp hf, m.updateTrack_part, m.updateTime_part]

/-! ## Lists -/

theorem nPart_list (l : PList ℝ) : (m.list l).nPart = l.nPart := by
  simp [PList.nPart, list]

theorem add_list (l : PList ℝ) (p : Particle ℝ) :
    (m.list l).add (m.part p) = m.list (l.add p) := by
  unfold PList.add
  simp only [list, List.length_map]
  split <;> simp

theorem set_list (l : PList ℝ) (k : Nat) (p : Particle ℝ) :
    (m.list l).set k (m.part p) = m.list (l.set k p) := by
  simp only [PList.set, list, List.map_set]

theorem get_list (l : PList ℝ) (k : Nat) :
    (m.list l).get k = l.get k >>= fun p => .ok (m.part p) := by
  unfold PList.get
  simp only [list, List.getElem?_map]
  cases l.items[k]? with
  | none => simp only [Option.map_none]; by_cases hk : k < l.maxParticles <;> simp [hk]
  | some p => rfl

/-! ## Processes -/

theorem newPhotonE_part (e w t : ℝ) (x d : V3 ℝ) (tr : Bool) (u : ℝ) :
    Particle.newPhotonE e (m.point x) (m.lin d) w (t + m.delay) tr u =
      m.part (Particle.newPhotonE e x d w t tr u) := by
  simp only [Particle.newPhotonE, Particle.new, part, m.lin_norm, m.lin_smul, List.map_nil]

theorem pairLepton_part (c e : ℝ) (p : Particle ℝ) (tr : Bool) (u : ℝ) :
    pairLepton c e (m.part p) tr u = m.part (pairLepton c e p tr u) := by
  unfold pairLepton
  rw [m.direction_part]
  simp only [Particle.newLepton, Particle.new, part, m.lin_smul, List.map_nil]

theorem calculateEta_part {f f' : Field ℝ} (hf : m.Fields f f') (p : Particle ℝ) :
    calculateEta f' (m.part p) = calculateEta f p := by
  unfold calculateEta
  have ht : (m.part p).time = p.time + m.delay := rfl
  have hx : (m.part p).position = m.point p.position := rfl
  dsimp only
  rw [ht, hx, hf, m.direction_part, m.gamma_part, m.beta_part]
  dsimp only
  rw [m.perp_lin, m.lin_mag2, m.lin_dot]

theorem bwChi_part {f f' : Field ℝ} (hf : m.Fields f f') (p : Particle ℝ) :
    bwChi f' (m.part p) = bwChi f p := by
  unfold bwChi
  have ht : (m.part p).time = p.time + m.delay := rfl
  have hx : (m.part p).position = m.point p.position := rfl
  dsimp only
  rw [ht, hx, hf, m.direction_part, m.energy_part]
  dsimp only
  rw [m.lin_dot, m.lin_crossB, ← m.lin_smul, ← m.lin_sub, ← m.lin_add, m.lin_mag]

theorem depth_part (p : Particle ℝ) (d : ℝ) :
    (m.part p).updateOpticalDepth d = m.part (p.updateOpticalDepth d) := rfl

theorem initDepth_part (p : Particle ℝ) (u : ℝ) :
    (m.part p).initOpticalDepth u = m.part (p.initOpticalDepth u) := rfl

theorem kill_part (p : Particle ℝ) : (m.part p).kill = m.part p.kill := rfl

theorem storePhoton_moved (cfg : EmissionCfg ℝ) (f' : Field ℝ) (p : Particle ℝ) (e : ℝ)
    (l : PList ℝ) (r : Rng ℝ) :
    storePhoton { cfg with field := f' } (m.part p) e (m.list l) r =
      (m.list (storePhoton cfg p e l r).1, (storePhoton cfg p e l r).2) := by
  unfold storePhoton
  have ht : (m.part p).time = p.time + m.delay := rfl
  have hx : (m.part p).position = m.point p.position := rfl
  have hw : (m.part p).weight = p.weight := rfl
  rw [ht, hx, hw, m.direction_part]
  dsimp only
  rw [m.newPhotonE_part, m.add_list]
  split
  · split <;> rfl
  · rfl

/-- The moved outcome of an interaction. -/
noncomputable def out (x : Particle ℝ × PList ℝ × Rng ℝ) : Res (Particle ℝ × PList ℝ × Rng ℝ) :=
  .ok (m.part x.1, m.list x.2.1, x.2.2)

theorem stochastic_moved (cfg : EmissionCfg ℝ) {f' : Field ℝ} (hf : m.Fields cfg.field f')
    (p : Particle ℝ) (l : PList ℝ) (r : Rng ℝ) :
    stochasticInteract { cfg with field := f' } (m.part p) (m.list l) r =
      stochasticInteract cfg p l r >>= m.out := by
  unfold stochasticInteract
  have ha : (m.part p).isAlive = p.isAlive := rfl
  have hm : (m.part p).mass = p.mass := rfl
  rw [ha, hm]
  split
  · rfl
  · have hl : ∀ η : ℝ, emissionLogh { cfg with field := f' } η = emissionLogh cfg η := fun _ => rfl
    have hc : ∀ η u : ℝ, calculateChi { cfg with field := f' } η u = calculateChi cfg η u :=
      fun _ _ => rfl
    dsimp only
    rw [m.calculateEta_part hf, hl]
    cases emissionLogh cfg (calculateEta cfg.field p) with
    | exit c => rfl
    | throw w => rfl
    | ub w => rfl
    | ok logh =>
      simp only [Res.ok_bind]
      rw [m.gamma_part, m.depth_part]
      generalize p.updateOpticalDepth
        (emissionDelta cfg.dt (calculateEta cfg.field p) logh p.gamma) = q
      have hd : (m.part q).opticalDepth = q.opticalDepth := rfl
      have hx : (m.part q).position = m.point q.position := rfl
      have hq : (m.part q).momentum = m.lin q.momentum := rfl
      rw [hd]
      split
      · rw [hc]
        cases calculateChi cfg (calculateEta cfg.field p) r.next.1 with
        | exit c => rfl
        | throw w => rfl
        | ub w => rfl
        | ok chi =>
          simp only [Res.ok_bind]
          rw [m.gamma_part, m.direction_part, hx, hq, ← m.lin_smul, ← m.lin_sub,
            m.updateTrack_part, m.storePhoton_moved]
          rfl
      · rfl

theorem continuous_moved (cfg : EmissionCfg ℝ) {f' : Field ℝ} (hf : m.Fields cfg.field f')
    (classical : Bool) (p : Particle ℝ) (l : PList ℝ) (r : Rng ℝ) :
    continuousInteract { cfg with field := f' } classical (m.part p) (m.list l) r =
      continuousInteract cfg classical p l r >>= m.out := by
  unfold continuousInteract
  have ha : (m.part p).isAlive = p.isAlive := rfl
  have hm : (m.part p).mass = p.mass := rfl
  have ht : (m.part p).time = p.time + m.delay := rfl
  have hx : (m.part p).position = m.point p.position := rfl
  have hw : (m.part p).weight = p.weight := rfl
  have hl : ∀ η u : ℝ, continuousLoghChi { cfg with field := f' } classical η u =
    continuousLoghChi cfg classical η u := fun _ _ => rfl
  rw [ha, hm, ht, hx, hw]
  split
  · rfl
  · dsimp only
    split
    · rfl
    · rw [m.calculateEta_part hf, hl]
      cases continuousLoghChi cfg classical (calculateEta cfg.field p) r.next.2.next.1 with
      | exit c => rfl
      | throw w => rfl
      | ub w => rfl
      | ok lc =>
        rw [Res.ok_bind, Res.ok_bind, m.gamma_part, m.direction_part]
        rw [m.newPhotonE_part, m.add_list]
        split <;> rfl

theorem bw_moved (cfg : BWCfg ℝ) {f' : Field ℝ} (hf : m.Fields cfg.field f')
    (p : Particle ℝ) (l : PList ℝ) (r : Rng ℝ) :
    bwInteract { cfg with field := f' } (m.part p) (m.list l) r =
      bwInteract cfg p l r >>= m.out := by
  unfold bwInteract
  have ha : (m.part p).isAlive = p.isAlive := rfl
  have hn : (m.part p).typeName = p.typeName := rfl
  have hs : ∀ χ u : ℝ, bwSplit { cfg with field := f' } χ u = bwSplit cfg χ u := fun _ _ => rfl
  rw [ha, hn]
  split
  · rfl
  · dsimp only
    rw [m.bwChi_part hf]
    cases Numerics.interpolate1D cfg.tAxis cfg.tData (log10 (bwChi cfg.field p)) with
    | exit c => rfl
    | throw w => rfl
    | ub w => rfl
    | ok logt =>
      simp only [Res.ok_bind]
      rw [m.energy_part, m.depth_part]
      generalize p.updateOpticalDepth
        (bwDelta cfg.dt (bwChi cfg.field p) logt p.energy) = q
      have hd : (m.part q).opticalDepth = q.opticalDepth := rfl
      rw [hd]
      split
      · rw [hs]
        cases bwSplit cfg (bwChi cfg.field p) r.next.1 with
        | exit c => rfl
        | throw w => rfl
        | ub w => rfl
        | ok split =>
          simp only [Res.ok_bind]
          rw [m.energy_part, m.pairLepton_part, m.pairLepton_part, m.add_list, m.add_list,
            m.kill_part]
          rfl
      · rfl

theorem interact_moved {pr pr' : Proc ℝ} (h : m.Procs pr pr') (p : Particle ℝ) (l : PList ℝ)
    (r : Rng ℝ) :
    pr'.interact (m.part p) (m.list l) r = pr.interact p l r >>= m.out := by
  cases h with
  | stochastic cfg f' hf => exact m.stochastic_moved cfg hf p l r
  | continuous cfg f' cl hf => exact m.continuous_moved cfg hf cl p l r
  | breitWheeler cfg f' hf => exact m.bw_moved cfg hf p l r

/-! ## The loops -/

/-- The moved outcome of a loop over particles. -/
noncomputable def lout (x : PList ℝ × Rng ℝ) : Res (PList ℝ × Rng ℝ) := .ok (m.list x.1, x.2)

theorem interactAt_moved {pr pr' : Proc ℝ} (h : m.Procs pr pr') (k : Nat) (l : PList ℝ)
    (r : Rng ℝ) :
    interactAt pr' k (m.list l) r = interactAt pr k l r >>= m.lout := by
  unfold interactAt
  rw [m.get_list]
  cases l.get k with
  | exit c => rfl
  | throw w => rfl
  | ub w => rfl
  | ok p =>
    simp only [Res.ok_bind]
    rw [m.interact_moved h]
    cases pr.interact p l r with
    | exit c => rfl
    | throw w => rfl
    | ub w => rfl
    | ok x =>
      simp only [Res.ok_bind, out, lout]
      rw [m.set_list]

theorem interactAll_moved {prs prs' : List (Proc ℝ)} (h : List.Forall₂ m.Procs prs prs') :
    ∀ (k : Nat) (l : PList ℝ) (r : Rng ℝ),
      interactAll prs' k (m.list l) r = interactAll prs k l r >>= m.lout := by
  induction h with
  | nil => intro k l r; rfl
  | cons h _ ih =>
    intro k l r
    unfold interactAll
    rw [m.interactAt_moved h]
    cases interactAt _ k l r with
    | exit c => rfl
    | throw w => rfl
    | ub w => rfl
    | ok x => simp only [Res.ok_bind, lout]; exact ih k x.1 x.2

theorem Sims.turns {m : Motion} {cfg cfg' : SimCfg ℝ} (h : m.Sims cfg cfg') :
    m.Turns cfg.push := by
  rcases h.pusher with e | e | e <;> rw [e]
  · exact m.lorentz_turns
  · exact m.landau_turns
  · exact m.modLandau_turns

variable {m}

theorem visit_moved {cfg cfg' : SimCfg ℝ} (h : m.Sims cfg cfg') (k : Nat) (l : PList ℝ)
    (r : Rng ℝ) : visit cfg' k (m.list l) r = visit cfg k l r >>= m.lout := by
  unfold visit
  rw [m.get_list]
  cases l.get k with
  | exit c => rfl
  | throw w => rfl
  | ub w => rfl
  | ok p =>
    simp only [Res.ok_bind]
    rw [h.push, h.dt, m.push_part h.turns h.field, m.set_list, m.interactAll_moved h.procs]

theorem particleLoop_moved {cfg cfg' : SimCfg ℝ} (h : m.Sims cfg cfg') :
    ∀ (fuel k : Nat) (l : PList ℝ) (r : Rng ℝ),
      particleLoop cfg' fuel k (m.list l) r = particleLoop cfg fuel k l r >>= m.lout := by
  intro fuel
  induction fuel with
  | zero => intro k l r; rfl
  | succ fuel ih =>
    intro k l r
    unfold particleLoop
    rw [m.nPart_list]
    split
    · rw [visit_moved h]
      cases visit cfg k l r with
      | exit c => rfl
      | throw w => rfl
      | ub w => rfl
      | ok x => simp only [Res.ok_bind, lout]; exact ih (k + 1) x.1 x.2
    · rfl

theorem advance_moved {cfg cfg' : SimCfg ℝ} (h : m.Sims cfg cfg') (l : PList ℝ) (r : Rng ℝ) :
    advance cfg' (m.list l) r = advance cfg l r >>= m.lout :=
  particleLoop_moved h l.maxParticles 0 l r

variable (m)

theorem appParticle_moved (h : Hist ℝ) (p : Particle ℝ) :
    h.appParticle (m.part p) = h.appParticle p := by
  unfold Hist.appParticle
  rw [m.energy_part]

theorem fillHist_moved : ∀ (ps : List (Particle ℝ)) (h : Hist ℝ),
    fillHist h (ps.map m.part) = fillHist h ps
  | [], _ => rfl
  | p :: ps, h => by
    have hn : (m.part p).name = p.name := rfl
    rw [List.map_cons, fillHist, fillHist, hn, m.appParticle_moved]
    have ih : (fun h => fillHist h (ps.map m.part)) = fun h => fillHist h ps :=
      funext fun h => fillHist_moved ps h
    rw [ih]

theorem histStep_moved (s : EvState ℝ) :
    histStep (m.state s) = histStep s >>= fun s => .ok (m.state s) := by
  unfold histStep
  have h1 : (m.state s).hists = s.hists := rfl
  have h2 : (m.state s).histCount = s.histCount := rfl
  have h3 : (m.state s).time = s.time := rfl
  have h4 : (m.state s).list.items = s.list.items.map m.part := rfl
  rw [h1, h2, h3, h4]
  cases s.hists[s.histCount]? with
  | none => rfl
  | some h =>
    dsimp only
    split
    · rw [m.fillHist_moved]
      cases fillHist h s.list.items with
      | exit c => rfl
      | throw w => rfl
      | ub w => rfl
      | ok h' => rfl
    · rfl

theorem fillRest_moved (l : PList ℝ) : ∀ (hs : List (Hist ℝ)) (c : Nat),
    fillRest (m.list l) c hs = fillRest l c hs
  | [], c => by cases c <;> rfl
  | h :: hs, c + 1 => by
    rw [fillRest, fillRest, fillRest_moved l hs c]
  | h :: hs, 0 => by
    have h4 : (m.list l).items = l.items.map m.part := rfl
    rw [fillRest, fillRest, h4, m.fillHist_moved, fillRest_moved l hs 0]

variable {m}

theorem timeStep_moved {cfg cfg' : SimCfg ℝ} (h : m.Sims cfg cfg') (s : EvState ℝ) :
    timeStep cfg' (m.state s) = timeStep cfg s >>= fun s => .ok (m.state s) := by
  unfold timeStep
  rw [m.histStep_moved]
  cases histStep s with
  | exit c => rfl
  | throw w => rfl
  | ub w => rfl
  | ok s =>
    simp only [Res.ok_bind]
    have h1 : (m.state s).list = m.list s.list := rfl
    have h2 : (m.state s).rng = s.rng := rfl
    rw [h1, h2, advance_moved h, h.dt]
    cases advance cfg s.list s.rng with
    | exit c => rfl
    | throw w => rfl
    | ub w => rfl
    | ok x => rfl

theorem run_moved {cfg cfg' : SimCfg ℝ} (h : m.Sims cfg cfg') {s : EvState ℝ} {n : Nat}
    {o : Res (EvState ℝ)} (hr : Run cfg s n o) :
    Run cfg' (m.state s) n (o >>= fun s => .ok (m.state s)) := by
  induction hr with
  | done hd => exact .done (by rw [h.timeEnd]; exact hd)
  | step hlt hs _ ih =>
    refine .step (by rw [h.timeEnd]; exact hlt) ?_ ih
    rw [timeStep_moved h, hs]; rfl
  | abort hlt hs hno =>
    refine .abort (by rw [h.timeEnd]; exact hlt) ?_ ?_
    · rw [timeStep_moved h, hs]
    · rename_i o
      intro s' he
      cases o with
      | ok a => exact hno a rfl
      | exit c => cases he
      | throw w => cases he
      | ub w => cases he

/-- Every run of the moved simulation is a moved run. -/
theorem run_moved_inv {cfg cfg' : SimCfg ℝ} (h : m.Sims cfg cfg') {s' : EvState ℝ} {n : Nat}
    {o' : Res (EvState ℝ)} (hr : Run cfg' s' n o') :
    ∀ s, s' = m.state s →
      ∃ o, Run cfg s n o ∧ o' = o >>= fun s => .ok (m.state s) := by
  induction hr with
  | done hd =>
    rintro s rfl
    exact ⟨.ok s, .done (by rw [← h.timeEnd]; exact hd), rfl⟩
  | step hlt hs _ ih =>
    rintro s rfl
    rw [timeStep_moved h] at hs
    cases e : timeStep cfg s with
    | exit c => rw [e] at hs; cases hs
    | throw w => rw [e] at hs; cases hs
    | ub w => rw [e] at hs; cases hs
    | ok s1 =>
      rw [e] at hs
      obtain ⟨o, ho, hoo⟩ := ih s1 (Res.ok.inj hs).symm
      exact ⟨o, .step (by rw [← h.timeEnd]; exact hlt) e ho, hoo⟩
  | abort hlt hs hno =>
    rintro s rfl
    rw [timeStep_moved h] at hs
    refine ⟨timeStep cfg s, .abort (by rw [← h.timeEnd]; exact hlt) rfl ?_, hs.symm⟩
    intro s1 e
    rw [e] at hs
    exact hno _ hs.symm

/-! ## Motions from matrices -/

/-- Orthogonal matrices turn cross products up to their determinant. -/
theorem orthogonal_cross {M : M3 ℝ} (h : M.toMat.transpose * M.toMat = 1) (a b : V3 ℝ) :
    M.mulVec (a.cross b) = ((M.mulVec a).cross (M.mulVec b)).smul M.toMat.det := by
  have h2 : M.toMat * M.toMat.transpose = 1 := mul_eq_one_comm.mp h
  -- the adjugate is the transpose times the determinant
  have hadj : M.toMat.adjugate = M.toMat.det • M.toMat.transpose := by
    have e := Matrix.adjugate_mul M.toMat
    calc M.toMat.adjugate = M.toMat.adjugate * (M.toMat * M.toMat.transpose) := by rw [h2, mul_one]
      _ = M.toMat.det • M.toMat.transpose := by
        rw [← mul_assoc, e, Matrix.smul_mul, one_mul]
  have hd : M.toMat.det * M.toMat.det = 1 := by
    have e := congrArg Matrix.det h
    rwa [Matrix.det_mul, Matrix.det_transpose, Matrix.det_one] at e
  generalize M.toMat.det = d at hadj hd
  have e := fun i j => congrFun (congrFun hadj i) j
  have e00 := e 0 0
  have e01 := e 0 1
  have e02 := e 0 2
  have e10 := e 1 0
  have e11 := e 1 1
  have e12 := e 1 2
  have e20 := e 2 0
  have e21 := e 2 1
  have e22 := e 2 2
  rw [Matrix.adjugate_fin_three] at e00 e01 e02 e10 e11 e12 e20 e21 e22
  simp [M3.toMat, Matrix.transpose] at e00 e01 e02 e10 e11 e12 e20 e21 e22
  ext <;> simp only [M3.mulVec, M3.acc3, V3.cross, V3.smul, real_add, real_mul, real_sub, real_lit,
    Rat.cast_zero, zero_add]
  · linear_combination (-d) * ((a.y * b.z - a.z * b.y) * e00 + (a.z * b.x - a.x * b.z) * e10 +
      (a.x * b.y - a.y * b.x) * e20) - (M.m00 * (a.y * b.z - a.z * b.y) +
      M.m01 * (a.z * b.x - a.x * b.z) + M.m02 * (a.x * b.y - a.y * b.x)) * hd
  · linear_combination (-d) * ((a.y * b.z - a.z * b.y) * e01 + (a.z * b.x - a.x * b.z) * e11 +
      (a.x * b.y - a.y * b.x) * e21) - (M.m10 * (a.y * b.z - a.z * b.y) +
      M.m11 * (a.z * b.x - a.x * b.z) + M.m12 * (a.x * b.y - a.y * b.x)) * hd
  · linear_combination (-d) * ((a.y * b.z - a.z * b.y) * e02 + (a.z * b.x - a.x * b.z) * e12 +
      (a.x * b.y - a.y * b.x) * e22) - (M.m20 * (a.y * b.z - a.z * b.y) +
      M.m21 * (a.z * b.x - a.x * b.z) + M.m22 * (a.x * b.y - a.y * b.x)) * hd

theorem orthogonal_dot {M : M3 ℝ} (h : M.toMat.transpose * M.toMat = 1) (a b : V3 ℝ) :
    (M.mulVec a).dot (M.mulVec b) = a.dot b := by
  rw [dot_eq, dot_eq, toVec_mulVec, toVec_mulVec, Matrix.dotProduct_mulVec,
    ← Matrix.mulVec_transpose, Matrix.mulVec_mulVec, h, Matrix.one_mulVec]

/-- The motion with a given orthogonal matrix, displacement and delay. -/
noncomputable def ofMatrix (M : M3 ℝ) (h : M.toMat.transpose * M.toMat = 1) (shift : V3 ℝ)
    (delay : ℝ) : Motion where
  lin := M.mulVec
  shift := shift
  delay := delay
  parity := M.toMat.det
  lin_add a b := by ext <;> simp [M3.mulVec, M3.acc3, V3.add] <;> ring
  lin_smul s a := mulVec_smul M a s
  lin_dot a b := orthogonal_dot h a b
  lin_cross a b := orthogonal_cross h a b
  parity_sq := by
    have e := congrArg Matrix.det h
    rwa [Matrix.det_mul, Matrix.det_transpose, Matrix.det_one] at e

/-- The field seen with the new axes, origin and clock. -/
noncomputable def matrixField (M : M3 ℝ) (shift : V3 ℝ) (delay : ℝ) (f : Field ℝ) : Field ℝ :=
  fun t x =>
    let M' : M3 ℝ := ⟨M.m00, M.m10, M.m20, M.m01, M.m11, M.m21, M.m02, M.m12, M.m22⟩
    let y := f (t - delay) (M'.mulVec (x.sub shift))
    (M.mulVec y.1, (M.mulVec y.2).smul M.toMat.det)

theorem matrixField_moved {M : M3 ℝ} (h : M.toMat.transpose * M.toMat = 1) (shift : V3 ℝ)
    (delay : ℝ) (f : Field ℝ) :
    (ofMatrix M h shift delay).Fields f (matrixField M shift delay f) := by
  intro t x
  have hx : (⟨M.m00, M.m10, M.m20, M.m01, M.m11, M.m21, M.m02, M.m12, M.m22⟩ : M3 ℝ).mulVec
      (((ofMatrix M h shift delay).point x).sub shift) = x := by
    have hs : ((ofMatrix M h shift delay).point x).sub shift = M.mulVec x := by
      ext <;> simp [point, ofMatrix, V3.add, V3.sub]
    rw [hs]
    apply toVec_injective
    have ht : (⟨M.m00, M.m10, M.m20, M.m01, M.m11, M.m21, M.m02, M.m12, M.m22⟩ : M3 ℝ).toMat =
        M.toMat.transpose := by
      ext i j; fin_cases i <;> fin_cases j <;> simp [M3.toMat, Matrix.transpose]
    rw [toVec_mulVec, toVec_mulVec, ht, Matrix.mulVec_mulVec, h, Matrix.one_mulVec]
  unfold matrixField
  dsimp only
  rw [hx, show t + (ofMatrix M h shift delay).delay - delay = t from by simp [ofMatrix]]
  rfl

/-- A displacement in space and time without turning. -/
noncomputable def translation (shift : V3 ℝ) (delay : ℝ) : Motion where
  lin := id
  shift := shift
  delay := delay
  parity := 1
  lin_add _ _ := rfl
  lin_smul _ _ := rfl
  lin_dot _ _ := rfl
  lin_cross a b := by ext <;> simp [V3.smul]
  parity_sq := by norm_num

end Motion

end QED
