import Verif.Model.Program
import Verif.Lemmas.Sim
import Verif.Lemmas.Radiation

set_option autoImplicit false
set_option linter.unusedSectionVars false

/-!
Computations that read the stream of random numbers one by one, and the mean over the stream of what two of them in
succession give.
-/

namespace QED.Independence

open MCTools MeasureTheory

section generic

variable {D : Type} [Dbl D] {α β γ : Type}

/-- `X` reads at most `K` random numbers in succession, and what it gives depends on these only. `put a r` is the result
`a` with the generator `r`; all results satisfy `P`. -/
inductive Local (P : α → Prop) (put : α → Rng D → β) : Nat → (Rng D → Timed β) → Prop
  | leaf {K X} (o : Timed α) (hP : ∀ a, o = some (.ok a) → P a)
      (hX : ∀ r, X r = Timed.bind o fun a => some (.ok (put a r))) : Local P put K X
  | node {K X} (Y : D → Rng D → Timed β) (hY : ∀ u, Local P put K (Y u)) (hX : ∀ r, X r = Y r.next.1 r.next.2) :
      Local P put (K + 1) X

variable {P : α → Prop} {put : α → Rng D → β} {K L : Nat} {X X' : Rng D → Timed β}

theorem Local.congr (h : ∀ r, X r = X' r) (hX : Local P put K X') : Local P put K X := by
  rwa [show X = X' from funext h]

theorem Local.mono (h : Local P put K X) : ∀ {L : Nat}, K ≤ L → Local P put L X := by
  induction h with
  | leaf o hP hX => exact fun _ => .leaf o hP hX
  | @node K X Y hY hX ih =>
    intro L hL
    obtain ⟨M, rfl⟩ : ∃ M, L = M + 1 := ⟨L - 1, by omega⟩
    exact .node Y (fun u => ih u (by omega)) hX

theorem Local.ret {a : α} (h : P a) (hX : ∀ r, X r = some (.ok (put a r))) : Local P put K X :=
  .leaf (some (.ok a)) (by rintro b ⟨⟩; exact h) hX

theorem Local.draw {Y : D → Rng D → Timed β} (hX : ∀ r, X r = Y r.next.1 r.next.2) (h : ∀ u, Local P put K (Y u)) :
    Local P put (K + 1) X := .node Y h hX

/-- A part without random numbers. -/
theorem Local.res {x : Timed γ} {W : γ → Rng D → Timed β} (hX : ∀ r, X r = Timed.bind x fun y => W y r)
    (h : ∀ y, x = some (.ok y) → Local P put K (W y)) : Local P put K X := by
  refine Local.congr hX ?_
  match x, h with
  | none, _ => exact .leaf none (by rintro a ⟨⟩) fun r => rfl
  | some (.ok y), h => exact h y rfl
  | some (.exit c), _ => exact .leaf (some (.exit c)) (by rintro a ⟨⟩) fun r => rfl
  | some (.throw w), _ => exact .leaf (some (.throw w)) (by rintro a ⟨⟩) fun r => rfl
  | some (.ub w), _ => exact .leaf (some (.ub w)) (by rintro a ⟨⟩) fun r => rfl

/-- One after the other. -/
theorem Local.bind {α' β' : Type} {P' : α' → Prop} {put' : α' → Rng D → β'} {Z : β → Timed β'}
    {V : Rng D → Timed β'} (h : Local P put K X) (hV : ∀ r, V r = Timed.bind (X r) Z)
    (hZ : ∀ a, P a → Local P' put' L fun r => Z (put a r)) : Local P' put' (K + L) V := by
  induction h generalizing V with
  | @leaf K X o hP hX =>
    refine Local.mono (K := L) (Local.res (x := o) (W := fun a r => Z (put a r)) (fun r => ?_) fun a ha => hZ a (hP a ha))
      (by omega)
    rw [hV, hX]
    match o with
    | none => rfl
    | some (.ok y) => rfl
    | some (.exit c) => rfl
    | some (.throw w) => rfl
    | some (.ub w) => rfl
  | @node K X Y hY hX ih =>
    rw [show K + 1 + L = K + L + 1 by omega]
    exact .node (fun u r => Timed.bind (Y u r) Z) (fun u => ih u fun r => rfl) fun r => by rw [hV, hX]

theorem lift_bind {α β : Type} (x : Res α) (f : α → Res β) :
    (some (x >>= f) : Timed β) = Timed.bind (some x) fun a => some (f a) := by
  cases x <;> rfl

/-! ## The processes -/

def put3 (a : Particle D × PList D) (r : Rng D) : Particle D × PList D × Rng D := (a.1, a.2, r)

def put2 (l : PList D) (r : Rng D) : PList D × Rng D := (l, r)

theorem add_max (l : PList D) (p : Particle D) : (l.add p).maxParticles = l.maxParticles := by
  unfold PList.add
  split <;> rfl

variable {mx : Nat}

/-- The end of an emission. -/
def emitted (e : EmissionCfg D) (q : Particle D) (g : D) (l : PList D) (r : Rng D) : Particle D × PList D × Rng D :=
  let stored := storePhoton e q g l r
  (q.initOpticalDepth stored.2.next.1, stored.1, stored.2.next.2)

theorem emitted_local (e : EmissionCfg D) (q : Particle D) (g : D) (l : PList D) (hl : l.maxParticles = mx) :
    Local (fun a : Particle D × PList D => a.2.maxParticles = mx) put3 3 fun r => some (.ok (emitted e q g l r)) := by
  by_cases h1 : (e.eMin <. g) = true
  · refine Local.draw (Y := fun u r => some (.ok (if e.sampleFrac <. u then
      (q.initOpticalDepth r.next.2.next.1, l.add (Particle.newPhotonE g q.position q.direction
        (q.weight /. e.sampleFrac) q.time e.track r.next.1), r.next.2.next.2)
      else (q.initOpticalDepth r.next.1, l, r.next.2)))) (fun r => ?_) fun u => ?_
    · unfold emitted storePhoton
      dsimp only
      rw [if_pos h1]
      split <;> rfl
    · by_cases h2 : (e.sampleFrac <. u) = true
      · simp only [if_pos h2]
        refine Local.draw (Y := fun v r => some (.ok (q.initOpticalDepth r.next.1, l.add (Particle.newPhotonE g q.position
          q.direction (q.weight /. e.sampleFrac) q.time e.track v), r.next.2))) (fun r => rfl) fun v => ?_
        refine Local.draw (Y := fun w r => some (.ok (q.initOpticalDepth w, l.add (Particle.newPhotonE g q.position
          q.direction (q.weight /. e.sampleFrac) q.time e.track v), r))) (fun r => rfl) fun w => ?_
        exact Local.ret (a := (_, _)) ((add_max _ _).trans hl) fun r => rfl
      · simp only [if_neg h2]
        refine Local.draw (Y := fun w r => some (.ok (q.initOpticalDepth w, l, r))) (fun r => rfl) fun w => ?_
        exact Local.ret (a := (_, _)) hl fun r => rfl
  · refine Local.draw (Y := fun w r => some (.ok (q.initOpticalDepth w, l, r))) (fun r => ?_) fun w =>
      Local.ret (a := (_, _)) hl fun r => rfl
    unfold emitted storePhoton
    dsimp only
    rw [if_neg h1]

theorem stochastic_local (e : EmissionCfg D) (p : Particle D) (l : PList D) (hl : l.maxParticles = mx) :
    Local (fun a : Particle D × PList D => a.2.maxParticles = mx) put3 4 fun r => some (stochasticInteract e p l r) := by
  by_cases h0 : ((p.mass ==. Dbl.lit 0) || !p.isAlive) = true
  · refine Local.ret (a := (p, l)) hl fun r => ?_
    unfold stochasticInteract
    rw [if_pos h0]
    rfl
  let q := fun logh => p.updateOpticalDepth (emissionDelta e.dt (calculateEta e.field p) logh p.gamma)
  let g := fun logh chi => Dbl.lit 2 *. chi *. (q logh).gamma /. calculateEta e.field p
  refine Local.res (x := some (emissionLogh e (calculateEta e.field p))) (W := fun logh r =>
    some (if (q logh).opticalDepth <. Dbl.lit 0 then calculateChi e (calculateEta e.field p) r.next.1 >>= fun chi =>
      .ok (emitted e ((q logh).updateTrack (q logh).position ((q logh).momentum.sub ((q logh).direction.smul
        (g logh chi)))) (g logh chi) l r.next.2) else .ok (q logh, l, r))) (fun r => ?_) fun logh _ => ?_
  · unfold stochasticInteract
    rw [if_neg h0]
    exact lift_bind _ _
  by_cases h1 : ((q logh).opticalDepth <. Dbl.lit 0) = true
  · simp only [if_pos h1]
    refine Local.draw (Y := fun u r => some (calculateChi e (calculateEta e.field p) u >>= fun chi =>
      .ok (emitted e ((q logh).updateTrack (q logh).position ((q logh).momentum.sub ((q logh).direction.smul
        (g logh chi)))) (g logh chi) l r))) (fun r => rfl) fun u => ?_
    exact Local.res (fun r => lift_bind _ _) fun chi _ => emitted_local _ _ _ _ hl
  · simp only [if_neg h1]
    exact Local.ret (a := (_, _)) hl fun r => rfl

theorem continuous_local (e : EmissionCfg D) (c : Bool) (p : Particle D) (l : PList D) (hl : l.maxParticles = mx) :
    Local (fun a : Particle D × PList D => a.2.maxParticles = mx) put3 4 fun r => some (continuousInteract e c p l r) := by
  by_cases h0 : ((p.mass ==. Dbl.lit 0) || !p.isAlive) = true
  · refine Local.ret (a := (p, l)) hl fun r => ?_
    unfold continuousInteract
    rw [if_pos h0]
    rfl
  let g := fun lc : D × D => Dbl.lit 2 *. lc.2 *. p.gamma /. calculateEta e.field p
  let x := fun (lc : D × D) u => Particle.newPhotonE (g lc) p.position p.direction
    (p.weight *. emissionDelta e.dt (calculateEta e.field p) lc.1 p.gamma /. e.sampleFrac) p.time e.track u
  refine Local.mono (K := 3) (Local.draw (Y := fun u r => some (if e.sampleFrac <. u then .ok (p, l, r)
    else continuousLoghChi e c (calculateEta e.field p) r.next.1 >>= fun lc =>
      if e.eMin <. g lc then .ok (p, l.add (x lc r.next.2.next.1), r.next.2.next.2) else .ok (p, l, r.next.2)))
    (fun r => ?_) fun u => ?_) (by omega)
  · unfold continuousInteract
    rw [if_neg h0]
  by_cases h1 : (e.sampleFrac <. u) = true
  · simp only [if_pos h1]
    exact Local.ret (a := (_, _)) hl fun r => rfl
  · simp only [if_neg h1]
    refine Local.draw (Y := fun u r => some (continuousLoghChi e c (calculateEta e.field p) u >>= fun lc =>
      if e.eMin <. g lc then .ok (p, l.add (x lc r.next.1), r.next.2) else .ok (p, l, r))) (fun r => rfl) fun u => ?_
    refine Local.res (fun r => lift_bind _ _) fun lc _ => ?_
    by_cases h2 : (e.eMin <. g lc) = true
    · simp only [if_pos h2]
      refine Local.draw (Y := fun u r => some (.ok (p, l.add (x lc u), r))) (fun r => rfl) fun u => ?_
      exact Local.ret (a := (_, _)) ((add_max _ _).trans hl) fun r => rfl
    · simp only [if_neg h2]
      exact Local.ret (a := (_, _)) hl fun r => rfl

theorem bw_local (w : BWCfg D) (p : Particle D) (l : PList D) (hl : l.maxParticles = mx) :
    Local (fun a : Particle D × PList D => a.2.maxParticles = mx) put3 4 fun r => some (bwInteract w p l r) := by
  by_cases h0 : p.typeName ≠ "Photon" ∨ p.isAlive = false
  · refine Local.ret (a := (p, l)) hl fun r => ?_
    unfold bwInteract
    rw [if_pos h0]
    rfl
  let q := fun logt => p.updateOpticalDepth (bwDelta w.dt (bwChi w.field p) logt p.energy)
  let a := fun logt split u => pairLepton (Dbl.lit 1) (split *. (q logt).energy) (q logt) w.track u
  let b := fun logt split u => pairLepton (Dbl.lit (-1)) ((Dbl.lit 1 -. split) *. (q logt).energy) (q logt) w.track u
  refine Local.res (x := some (Numerics.interpolate1D w.tAxis w.tData (Dbl.log10 (bwChi w.field p))))
    (W := fun logt r => some (if (q logt).opticalDepth <. Dbl.lit 0 then bwSplit w (bwChi w.field p) r.next.1 >>= fun split =>
      .ok ((q logt).kill, (l.add (a logt split r.next.2.next.1)).add (b logt split r.next.2.next.2.next.1),
        r.next.2.next.2.next.2) else .ok (q logt, l, r))) (fun r => ?_) fun logt _ => ?_
  · unfold bwInteract
    rw [if_neg h0]
    exact lift_bind _ _
  by_cases h1 : ((q logt).opticalDepth <. Dbl.lit 0) = true
  · simp only [if_pos h1]
    refine Local.draw (Y := fun u r => some (bwSplit w (bwChi w.field p) u >>= fun split =>
      .ok ((q logt).kill, (l.add (a logt split r.next.1)).add (b logt split r.next.2.next.1), r.next.2.next.2)))
      (fun r => rfl) fun u => ?_
    refine Local.res (fun r => lift_bind _ _) fun split _ => ?_
    refine Local.draw (Y := fun u r => some (.ok ((q logt).kill, (l.add (a logt split u)).add (b logt split r.next.1),
      r.next.2))) (fun r => rfl) fun u => ?_
    refine Local.draw (Y := fun v r => some (.ok ((q logt).kill, (l.add (a logt split u)).add (b logt split v), r)))
      (fun r => rfl) fun v => ?_
    exact Local.ret (a := (_, _)) ((add_max _ _).trans ((add_max _ _).trans hl)) fun r => rfl
  · simp only [if_neg h1]
    exact Local.ret (a := (_, _)) hl fun r => rfl

theorem interact_local (proc : Proc D) (p : Particle D) (l : PList D) (hl : l.maxParticles = mx) :
    Local (fun a : Particle D × PList D => a.2.maxParticles = mx) put3 4 fun r => some (proc.interact p l r) := by
  cases proc with
  | stochastic e => exact stochastic_local e p l hl
  | continuous e c => exact continuous_local e c p l hl
  | breitWheeler w => exact bw_local w p l hl

/-! ## The event -/

theorem interactAt_local (proc : Proc D) (k : Nat) (l : PList D) (hl : l.maxParticles = mx) :
    Local (fun l : PList D => l.maxParticles = mx) put2 4 fun r => some (interactAt proc k l r) := by
  refine Local.res (x := some (l.get k)) (W := fun p r => some (proc.interact p l r >>= fun x =>
    .ok (x.2.1.set k x.1, x.2.2))) (fun r => lift_bind _ _) fun p _ => ?_
  refine Local.bind (L := 0) (interact_local proc p l hl) (fun r => lift_bind _ _) fun a ha => ?_
  exact Local.ret (a := a.2.set k a.1) ha fun r => rfl

theorem interactAll_local (procs : List (Proc D)) (k : Nat) : ∀ (l : PList D), l.maxParticles = mx →
    Local (fun l : PList D => l.maxParticles = mx) put2 (4 * procs.length) fun r => some (interactAll procs k l r) := by
  induction procs with
  | nil => exact fun l hl => Local.ret (a := l) hl fun r => rfl
  | cons proc procs ih =>
    intro l hl
    rw [List.length_cons, Nat.mul_succ, Nat.add_comm]
    exact Local.bind (interactAt_local proc k l hl) (fun r => lift_bind _ _) fun a ha => ih a ha

theorem visit_local (cfg : SimCfg D) (k : Nat) (l : PList D) (hl : l.maxParticles = mx) :
    Local (fun l : PList D => l.maxParticles = mx) put2 (4 * cfg.procs.length) fun r => some (visit cfg k l r) :=
  Local.res (x := some (l.get k)) (fun _ => lift_bind _ _) fun p _ => interactAll_local cfg.procs k (l.set k _) hl

theorem loop_local (cfg : SimCfg D) (fuel : Nat) : ∀ (k : Nat) (l : PList D), l.maxParticles = mx →
    Local (fun l : PList D => l.maxParticles = mx) put2 (4 * cfg.procs.length * fuel) fun r =>
      some (particleLoop cfg fuel k l r) := by
  induction fuel with
  | zero => exact fun k l hl => Local.ret (a := l) hl fun r => rfl
  | succ fuel ih =>
    intro k l hl
    by_cases h : k < l.nPart
    · rw [Nat.mul_succ, Nat.add_comm]
      refine Local.bind (visit_local cfg k l hl) (Z := fun x => some (particleLoop cfg fuel (k + 1) x.1 x.2))
        (fun r => ?_) fun a ha => ih (k + 1) a ha
      rw [particleLoop, if_pos h]
      exact lift_bind _ _
    · refine Local.ret (a := l) hl fun r => ?_
      rw [particleLoop, if_neg h]
      rfl

/-- The state with another generator. -/
def putS (s : EvState D) (r : Rng D) : EvState D := { s with rng := r }

theorem histStep_put (s : EvState D) (r : Rng D) : histStep (putS s r) = (histStep s >>= fun s' => .ok (putS s' r)) := by
  unfold histStep
  have e : (putS s r).hists[(putS s r).histCount]? = s.hists[s.histCount]? := rfl
  rw [e]
  cases s.hists[s.histCount]? with
  | none => rfl
  | some h =>
    dsimp only
    by_cases hh : (h.time <=. s.time) = true
    · have e2 : (h.time <=. (putS s r).time) = true := hh
      rw [if_pos hh, if_pos e2]
      show (fillHist h s.list.items >>= _) = ((fillHist h s.list.items >>= _) >>= _)
      cases fillHist h s.list.items <;> rfl
    · have e2 : ¬ (h.time <=. (putS s r).time) = true := hh
      rw [if_neg hh, if_neg e2]
      rfl

theorem timeStep_local (cfg : SimCfg D) (s : EvState D) (hs : s.list.maxParticles = mx) :
    Local (fun s : EvState D => s.list.maxParticles = mx) putS (4 * cfg.procs.length * mx) fun r =>
      some (timeStep cfg (putS s r)) := by
  refine Local.res (x := some (histStep s)) (W := fun s' r => some (advance cfg s'.list r >>= fun x =>
    .ok { s' with list := x.1, rng := x.2, time := s'.time +. cfg.dt })) (fun r => ?_) fun s' hs' => ?_
  · unfold timeStep
    rw [histStep_put]
    cases histStep s <;> rfl
  · have hl : s'.list = s.list := (histStep_list (Option.some.inj hs')).1
    have hm : s'.list.maxParticles = mx := by rw [hl, hs]
    refine Local.bind (L := 0) (Local.congr (X' := fun r => some (particleLoop cfg mx 0 s'.list r)) (fun r => ?_)
      (loop_local cfg mx 0 s'.list hm)) (fun r => lift_bind _ _) fun a ha => ?_
    · unfold advance
      rw [hm]
    · exact Local.ret (a := { s' with list := a, time := s'.time +. cfg.dt }) ha fun r => rfl

theorem timeLoop_local (cfg : SimCfg D) (fuel : Nat) : ∀ s : EvState D, s.list.maxParticles = mx →
    Local (fun s : EvState D => s.list.maxParticles = mx) putS (4 * cfg.procs.length * mx * fuel) fun r =>
      timeLoop cfg fuel (putS s r) := by
  induction fuel with
  | zero =>
    intro s hs
    by_cases h : (s.time <. cfg.timeEnd) = true
    · refine .leaf none (by rintro a ⟨⟩) fun r => ?_
      have : ((putS s r).time <. cfg.timeEnd) = true := h
      rw [timeLoop, if_pos this]
      rfl
    · refine Local.ret (a := s) hs fun r => ?_
      have : ¬ ((putS s r).time <. cfg.timeEnd) = true := h
      rw [timeLoop, if_neg this]
  | succ fuel ih =>
    intro s hs
    by_cases h : (s.time <. cfg.timeEnd) = true
    · rw [Nat.mul_succ, Nat.add_comm]
      refine Local.bind (timeStep_local cfg s hs) (Z := timeLoop cfg fuel) (fun r => ?_) fun a ha => ih a ha
      have : ((putS s r).time <. cfg.timeEnd) = true := h
      rw [timeLoop, if_pos this]
      cases timeStep cfg (putS s r) <;> rfl
    · refine Local.ret (a := s) hs fun r => ?_
      have : ¬ ((putS s r).time <. cfg.timeEnd) = true := h
      rw [timeLoop, if_neg this]

def putL (x : PList D × Source D) (r : Rng D) : PList D × Source D × Rng D := (x.1, x.2, r)

theorem generate_max {s s' : Source D} {l : PList D} {r r' : Rng D} (h : s.generateList r = .ok (l, s', r')) :
    l.maxParticles = PList.defaultMax := by
  unfold Source.generateList at h
  split at h
  · cases h
  · simp only [Res.bind_eq_ok] at h
    obtain ⟨_, _, _, _, _, _, _, _, _, _, _, _, p, _, h⟩ := h
    cases h
    exact add_max _ _

theorem generate_next {s s' : Source D} {l : PList D} {r r' : Rng D} (h : s.generateList r = .ok (l, s', r')) :
    s' = { s with partCount := s.partCount + 1 } := by
  unfold Source.generateList at h
  split at h
  · cases h
  · simp only [Res.bind_eq_ok] at h
    obtain ⟨_, _, _, _, _, _, _, _, _, _, _, _, p, _, h⟩ := h
    cases h
    rfl

theorem generate_local (s : Source D) : Local (fun x : PList D × Source D => x.1.maxParticles = PList.defaultMax ∧
    x.2 = { s with partCount := s.partCount + 1 }) putL 1 fun r => some (s.generateList r) := by
  by_cases h : s.partCount = s.nPart
  · refine .leaf (some (.exit 1)) (by rintro a ⟨⟩) fun r => ?_
    unfold Source.generateList
    rw [if_pos h]
    rfl
  · refine Local.draw (Y := fun u r => some (Source.generateList s ⟨fun _ => u, 0⟩ >>= fun x => .ok (x.1, x.2.1, r)))
      (fun r => ?_) fun u => ?_
    · unfold Source.generateList
      rw [if_neg h, if_neg h]
      dsimp only
      cases rd s.xPos s.partCount <;> try rfl
      cases rd s.yPos s.partCount <;> try rfl
      cases rd s.zPos s.partCount <;> try rfl
      cases rd s.thetaDir s.partCount <;> try rfl
      cases rd s.phiDir s.partCount <;> try rfl
      cases rd s.energy s.partCount <;> try rfl
      simp only [Res.ok_bind]
      simp only [Rng.next]
      generalize s.mkParticle _ _ _ _ = z
      cases z <;> rfl
    · refine Local.res (fun r => lift_bind _ _) fun x hx => ?_
      exact Local.ret (a := (x.1, x.2.1)) ⟨generate_max (Option.some.inj hx), generate_next (Option.some.inj hx)⟩ fun r => rfl

/-- A source and what a run has recorded so far, with another generator. -/
def putW (x : Source D × Main.World D) (r : Rng D) : Source D × Main.World D := (x.1, { x.2 with rng := r })

/-- The number of random numbers that an event can use. -/
def most (cfg : SimCfg D) (fuel : Nat) : Nat := 1 + 4 * cfg.procs.length * PList.defaultMax * fuel

theorem runEvent_local (cfg : SimCfg D) (fuel : Nat) (output tracking : Bool) (j : Nat) (x : Source D × Main.World D) :
    Local (fun y => y.1 = { x.1 with partCount := x.1.partCount + 1 }) putW (most cfg fuel) fun r =>
      Main.runEvent cfg fuel output tracking j (putW x r) := by
  refine Local.bind (generate_local x.1) (Z := fun a => Timed.bind (some (Main.storePrimaryIf output x.2.out a.1 j))
    fun out => Timed.bind (timeLoop cfg fuel (.init a.1 a.2.2 x.2.hists)) fun e =>
      Timed.bind (some (fillRest e.list e.histCount e.hists)) fun hists =>
        Timed.bind (some (Main.storeFinalIf output out e.list j)) fun out =>
          some (.ok (a.2.1, ⟨e.rng, hists, Main.storeTrackIf tracking out e.list j⟩))) (fun r => rfl) fun a ha => ?_
  refine Local.res (x := some (Main.storePrimaryIf output x.2.out a.1 j)) (W := fun out r =>
    Timed.bind (timeLoop cfg fuel (putS (.init a.1 ⟨fun _ => Dbl.lit 0, 0⟩ x.2.hists) r)) fun e =>
      Timed.bind (some (fillRest e.list e.histCount e.hists)) fun hists =>
        Timed.bind (some (Main.storeFinalIf output out e.list j)) fun out =>
          some (.ok (a.2, ⟨e.rng, hists, Main.storeTrackIf tracking out e.list j⟩))) (fun r => rfl) fun out _ => ?_
  refine Local.bind (L := 0) (timeLoop_local cfg fuel (.init a.1 ⟨fun _ => Dbl.lit 0, 0⟩ x.2.hists) ha.1) (fun r => rfl)
    fun e he => ?_
  refine Local.res (x := some (fillRest e.list e.histCount e.hists)) (fun r => rfl) fun hists _ => ?_
  refine Local.res (x := some (Main.storeFinalIf output out e.list j)) (fun r => rfl) fun out' _ => ?_
  exact Local.ret (a := (a.2, ⟨⟨fun _ => Dbl.lit 0, 0⟩, hists, Main.storeTrackIf tracking out' e.list j⟩)) ha.2
    fun r => rfl

theorem runEvents_local (cfg : SimCfg D) (fuel : Nat) (output tracking : Bool) (k : Nat) :
    ∀ (j : Nat) (x : Source D × Main.World D), Local (fun y => y.1 = { x.1 with partCount := x.1.partCount + k }) putW
      (most cfg fuel * k) fun r => Main.runEvents cfg fuel output tracking k j (putW x r) := by
  induction k with
  | zero => exact fun j x => Local.ret (a := x) rfl fun r => rfl
  | succ k ih =>
    intro j x
    rw [Nat.mul_succ, Nat.add_comm (most cfg fuel * k)]
    refine Local.bind (runEvent_local cfg fuel output tracking j x)
      (Z := fun y => Main.runEvents cfg fuel output tracking k (j + 1) y) (fun r => rfl) fun a ha => ?_
    have := ih (j + 1) a
    rw [ha] at this
    dsimp only at this
    rw [show x.1.partCount + 1 + k = x.1.partCount + (k + 1) by omega] at this
    exact this

end generic

/-! ## Averages -/

/-- The generator that gives `us` after `pre`. -/
noncomputable def reading (pre us : List ℝ) : Rng ℝ := ⟨fun i => (pre ++ us).getD i 0, pre.length⟩

theorem reading_next (pre us : List ℝ) (u : ℝ) :
    (reading pre (u :: us)).next.1 = u ∧ (reading pre (u :: us)).next.2 = reading (pre ++ [u]) us := by
  constructor
  · simp [reading, Rng.next]
  · simp [reading, Rng.next]

section averages

variable {α β α' β' : Type} {P : α → Prop} {put : α → Rng ℝ → β} {K L : Nat} {X : Rng ℝ → Timed β}

/-- The mean of what a computation gives does not depend on the place in the stream. -/
theorem average_local (h : Local P put K X) (f : Timed β → ENNReal)
    (hf : ∀ a r r', f (some (.ok (put a r))) = f (some (.ok (put a r')))) :
    ∃ v, ∀ (N : Nat) (pre : List ℝ), K ≤ N → (average N fun us => f (X (reading pre us))) = v := by
  induction h with
  | @leaf K X o hP hX =>
    refine ⟨f (X (reading [] [])), fun N pre _ => ?_⟩
    rw [← average_const N (f (X (reading [] [])))]
    congr 1
    funext us
    rw [hX, hX]
    match o with
    | none => rfl
    | some (.ok a) => exact hf a _ _
    | some (.exit c) => rfl
    | some (.throw w) => rfl
    | some (.ub w) => rfl
  | @node K X Y hY hX ih =>
    choose v hv using ih
    refine ⟨∫⁻ u in Set.Ico (0 : ℝ) 1, v u, fun N pre hN => ?_⟩
    obtain ⟨M, rfl⟩ : ∃ M, N = M + 1 := ⟨N - 1, by omega⟩
    rw [average_succ]
    refine lintegral_congr fun u => ?_
    rw [← hv u M (pre ++ [u]) (by omega)]
    congr 1
    funext us
    rw [hX, (reading_next pre us u).1, (reading_next pre us u).2]

theorem average_mul (c : ENNReal) (hc : c ≠ ⊤) (N : Nat) (F : List ℝ → ENNReal) :
    (average N fun us => c * F us) = c * average N F := by
  induction N generalizing F with
  | zero => rfl
  | succ N ih =>
    rw [average_succ, average_succ, ← lintegral_const_mul' _ _ hc]
    exact lintegral_congr fun u => ih _

theorem average_le_one {N : Nat} {F : List ℝ → ENNReal} (h : ∀ us, F us ≤ 1) : average N F ≤ 1 := by
  induction N generalizing F with
  | zero => exact h _
  | succ N ih =>
    rw [average_succ]
    calc (∫⁻ u in Set.Ico (0 : ℝ) 1, average N fun us => F (u :: us))
        ≤ ∫⁻ _ in Set.Ico (0 : ℝ) 1, 1 := lintegral_mono fun u => ih fun us => h _
      _ = 1 := lintegral_unit 1

/-- What comes next is independent of what a computation gives. -/
theorem average_product (h : Local P put K X) (f : Timed β → ENNReal) (F : Timed β → ENNReal) (H : Rng ℝ → ENNReal)
    (hf : ∀ a r r', f (some (.ok (put a r))) = f (some (.ok (put a r')))) (hft : ∀ b, f b ≠ ⊤)
    (hF : ∀ a r, P a → F (some (.ok (put a r))) = f (some (.ok (put a r))) * H r)
    (hf0 : ∀ o, (∀ b, o ≠ some (.ok b)) → F o = 0 ∧ f o = 0) {v : ENNReal} (hv : v ≠ ⊤)
    (hH : ∀ (N : Nat) (pre : List ℝ), L ≤ N → (average N fun us => H (reading pre us)) = v) :
    ∀ (N : Nat) (pre : List ℝ), K + L ≤ N → (average N fun us => F (X (reading pre us))) =
      (average N fun us => f (X (reading pre us))) * v := by
  induction h with
  | @leaf K X o hP hX =>
    intro N pre hN
    by_cases ho : ∃ a, o = some (.ok a)
    · obtain ⟨a, rfl⟩ := ho
      have e1 : ∀ us, F (X (reading pre us)) = f (X (reading [] [])) * H (reading pre us) := by
        intro us
        rw [hX, hX]
        exact (hF a _ (hP a rfl)).trans (by rw [hf a _ (reading [] [])]; rfl)
      have e2 : ∀ us, f (X (reading pre us)) = f (X (reading [] [])) := by
        intro us
        rw [hX, hX]
        exact hf a _ _
      simp only [e1, e2]
      rw [average_mul _ (hft _), hH N pre (by omega), average_const]
    · have e : ∀ r, ∀ b, X r ≠ some (.ok b) := by
        intro r b
        rw [hX]
        match o, ho with
        | none, _ => exact fun h => by cases h
        | some (.ok a), ho => exact absurd ⟨a, rfl⟩ ho
        | some (.exit c), _ => exact fun h => by cases h
        | some (.throw c), _ => exact fun h => by cases h
        | some (.ub c), _ => exact fun h => by cases h
      simp only [fun us => (hf0 _ (e (reading pre us))).1, fun us => (hf0 _ (e (reading pre us))).2]
      rw [average_const, zero_mul]
  | @node K X Y hY hX ih =>
    intro N pre hN
    obtain ⟨M, rfl⟩ : ∃ M, N = M + 1 := ⟨N - 1, by omega⟩
    rw [average_succ, average_succ, ← lintegral_mul_const' _ _ hv]
    refine lintegral_congr fun u => ?_
    have := ih u M (pre ++ [u]) (by omega)
    simp only [hX, fun us => (reading_next pre us u).1, fun us => (reading_next pre us u).2]
    exact this

end averages

end QED.Independence
