import Verif.Lemmas.Draws
import Verif.Spec.Survival
import Verif.Props.Event
import Verif.Props.Particles
import Mathlib.MeasureTheory.Measure.Lebesgue.Basic

set_option autoImplicit false

/-!
# A single particle until its first interaction
-/

namespace QED

open MCTools

/-- The same particle with another optical depth. -/
def Particle.withDepth (p : Particle ℝ) (d : ℝ) : Particle ℝ := { p with opticalDepth := d }

theorem push_withDepth (push : PushMom ℝ) (field : Field ℝ) (dt : ℝ) (p : Particle ℝ) (d : ℝ) :
    pushParticle push field dt (p.withDepth d) = (pushParticle push field dt p).withDepth d := by
  unfold pushParticle Particle.withDepth Particle.updateTrack Particle.updateTime
  dsimp only
  split_ifs <;> rfl

theorem withDepth_withDepth (p : Particle ℝ) (d e : ℝ) :
    (p.withDepth d).withDepth e = p.withDepth e := rfl

theorem pushes_succ (cfg : SimCfg ℝ) (p : Particle ℝ) (k : Nat) :
    pushes cfg p (k + 1) = pushParticle cfg.push cfg.field cfg.dt (pushes cfg p k) :=
  Function.iterate_succ_apply' _ _ _

theorem pushes_identity (cfg : SimCfg ℝ) (p : Particle ℝ) (k : Nat) :
    (pushes cfg p k).kind = p.kind ∧ (pushes cfg p k).mass = p.mass ∧
      (pushes cfg p k).isAlive = p.isAlive := by
  induction k with
  | zero => exact ⟨rfl, rfl, rfl⟩
  | succ k ih =>
    rw [pushes_succ]
    obtain ⟨h1, h2, _, _, _, h3, _⟩ :=
      push_identity cfg.push cfg.field cfg.dt (pushes cfg p k)
    exact ⟨h1.trans ih.1, h2.trans ih.2.1, h3.trans ih.2.2⟩

/-- The processes take `δ` off the depth of `q`, and draw random numbers exactly if this
makes the depth negative. -/
structure Takes (procs : List (Proc ℝ)) (q : Particle ℝ) (δ : ℝ) : Prop where
  keeps : ∀ (d : ℝ) (nm : String) (mx : Nat) (r : Rng ℝ), δ ≤ d →
    interactAll procs 0 ⟨nm, mx, [q.withDepth d]⟩ r = .ok (⟨nm, mx, [q.withDepth (d - δ)]⟩, r)
  fires : ∀ (d : ℝ) (nm : String) (mx : Nat) (r : Rng ℝ) (l' : PList ℝ) (r' : Rng ℝ), d < δ →
    interactAll procs 0 ⟨nm, mx, [q.withDepth d]⟩ r = .ok (l', r') → r.pos < r'.pos

theorem advance_keeps {cfg : SimCfg ℝ} {p : Particle ℝ} {δ d : ℝ} {nm : String} {mx : Nat}
    {r : Rng ℝ} (hmx : 0 < mx)
    (h : Takes cfg.procs (pushParticle cfg.push cfg.field cfg.dt p) δ) (hd : δ ≤ d) :
    advance cfg ⟨nm, mx, [p.withDepth d]⟩ r =
      .ok (⟨nm, mx, [(pushParticle cfg.push cfg.field cfg.dt p).withDepth (d - δ)]⟩, r) := by
  unfold advance
  obtain ⟨f, rfl⟩ := Nat.exists_eq_succ_of_ne_zero hmx.ne'
  show particleLoop cfg (f + 1) 0 _ r = _
  rw [particleLoop, if_pos (by simp [PList.nPart])]
  have hv : visit cfg 0 ⟨nm, f + 1, [p.withDepth d]⟩ r =
      .ok (⟨nm, f + 1, [(pushParticle cfg.push cfg.field cfg.dt p).withDepth (d - δ)]⟩, r) := by
    show interactAll cfg.procs 0
      ⟨nm, f + 1, [pushParticle cfg.push cfg.field cfg.dt (p.withDepth d)]⟩ r = _
    rw [push_withDepth]
    exact h.keeps d nm (f + 1) r hd
  rw [Nat.succ_eq_add_one, hv, Res.ok_bind]
  cases f with
  | zero => rfl
  | succ f =>
    show particleLoop cfg (f + 1) 1 _ r = _
    rw [particleLoop, if_neg (by simp [PList.nPart])]

theorem advance_fires {cfg : SimCfg ℝ} {p : Particle ℝ} {δ d : ℝ} {nm : String} {mx : Nat}
    {r r' : Rng ℝ} {l' : PList ℝ} (hmx : 0 < mx)
    (h : Takes cfg.procs (pushParticle cfg.push cfg.field cfg.dt p) δ) (hd : d < δ)
    (ha : advance cfg ⟨nm, mx, [p.withDepth d]⟩ r = .ok (l', r')) : r.pos < r'.pos := by
  unfold advance at ha
  obtain ⟨f, rfl⟩ := Nat.exists_eq_succ_of_ne_zero hmx.ne'
  change particleLoop cfg (f + 1) 0 _ r = _ at ha
  rw [particleLoop, if_pos (by simp [PList.nPart]), Res.bind_eq_ok] at ha
  obtain ⟨⟨l1, r1⟩, h1, h2⟩ := ha
  change interactAll cfg.procs 0
    ⟨nm, f + 1, [pushParticle cfg.push cfg.field cfg.dt (p.withDepth d)]⟩ r = _ at h1
  rw [push_withDepth] at h1
  exact (h.fires d nm (f + 1) r l1 r1 hd h1).trans_le (particleLoop_pos h2)

/-- The outcome of `n` time steps for a particle of initial depth `d`. -/
theorem steps_single {cfg : SimCfg ℝ} {p : Particle ℝ} {δ : Nat → ℝ} {d : ℝ} {nm : String}
    {mx : Nat} {r : Rng ℝ} {n : Nat} (hmx : 0 < mx)
    (hδ : ∀ k < n, 0 ≤ δ k) (h : ∀ k < n, Takes cfg.procs (pushes cfg p (k + 1)) (δ k)) :
    ∀ m ≤ n, ∀ t, Steps cfg (.init ⟨nm, mx, [p.withDepth d]⟩ r []) m t → t.hists = [] ∧
      ((d < ∑ k ∈ Finset.range m, δ k ∧ r.pos < t.rng.pos) ∨
       ((m = 0 ∨ ∑ k ∈ Finset.range m, δ k ≤ d) ∧ t.rng = r ∧
        t.list = ⟨nm, mx, [(pushes cfg p m).withDepth (d - ∑ k ∈ Finset.range m, δ k)]⟩)) := by
  intro m
  induction m with
  | zero =>
    intro _ t ht
    cases ht
    exact ⟨rfl, .inr ⟨.inl rfl, rfl, by simp [pushes, EvState.init]⟩⟩
  | succ m ih =>
    intro hm t ht
    cases ht with
    | @succ _ s _ hs htime hstep =>
      obtain ⟨hh, hcase⟩ := ih (by omega) s hs
      obtain ⟨l, r', hadv, rfl⟩ := (timeStep_nil hh).mp hstep
      have hT := h m (by omega)
      rw [pushes_succ] at hT
      refine ⟨hh, ?_⟩
      rw [Finset.sum_range_succ]
      rcases hcase with ⟨h1, h2⟩ | ⟨_, h2, h3⟩
      · left
        exact ⟨by have := hδ m (by omega); linarith, h2.trans_le (advance_pos hadv)⟩
      · rw [h2, h3] at hadv
        by_cases hd : δ m ≤ d - ∑ k ∈ Finset.range m, δ k
        · right
          rw [advance_keeps hmx hT hd] at hadv
          simp only [Res.ok.injEq, Prod.mk.injEq] at hadv
          refine ⟨.inr (by linarith), hadv.2.symm, ?_⟩
          rw [pushes_succ, ← sub_sub]
          exact hadv.1.symm
        · left
          push Not at hd
          exact ⟨by linarith, advance_fires hmx hT hd hadv⟩

theorem steps_single_exists {cfg : SimCfg ℝ} {p : Particle ℝ} {δ : Nat → ℝ} {d : ℝ} {nm : String}
    {mx : Nat} {r : Rng ℝ} {n : Nat} (hmx : 0 < mx)
    (hδ : ∀ k < n, 0 ≤ δ k) (h : ∀ k < n, Takes cfg.procs (pushes cfg p (k + 1)) (δ k))
    (hend : ∀ k < n, (k : ℝ) * cfg.dt < cfg.timeEnd) :
    ∀ m ≤ n, ∑ k ∈ Finset.range m, δ k ≤ d →
      ∃ t, Steps cfg (.init ⟨nm, mx, [p.withDepth d]⟩ r []) m t := by
  intro m
  induction m with
  | zero => intro _ _; exact ⟨_, .zero⟩
  | succ m ih =>
    intro hm hsum
    rw [Finset.sum_range_succ] at hsum
    have := hδ m (by omega)
    obtain ⟨s, hs⟩ := ih (by omega) (by linarith)
    obtain ⟨hh, hcase⟩ := steps_single hmx hδ h m (by omega) s hs
    rcases hcase with ⟨h1, _⟩ | ⟨_, h2, h3⟩
    · linarith
    have hT := h m (by omega)
    rw [pushes_succ] at hT
    have hadv := advance_keeps (nm := nm) (r := r) hmx hT
      (d := d - ∑ k ∈ Finset.range m, δ k) (by linarith)
    rw [← h3] at hadv
    rw [← h2] at hadv
    refine ⟨_, .succ hs ?_ ((timeStep_nil hh).mpr ⟨_, _, hadv, rfl⟩)⟩
    have ht := steps_time hs
    rw [show (EvState.init ⟨nm, mx, [p.withDepth d]⟩ r []).time = (0 : ℝ) by
      simp [EvState.init]] at ht
    rw [ht]
    simpa using hend m (by omega)

/-! ## When the processes take a given increment -/

theorem interactAll_append (a b : List (Proc ℝ)) (k : Nat) (l : PList ℝ) (r : Rng ℝ) :
    interactAll (a ++ b) k l r = interactAll a k l r >>= fun x => interactAll b k x.1 x.2 := by
  induction a generalizing l r with
  | nil => rfl
  | cons x a ih =>
    show (interactAt x k l r >>= _) = (interactAt x k l r >>= _) >>= _
    cases hx : interactAt x k l r with
    | ok y => rw [Res.ok_bind, Res.ok_bind]; exact ih y.1 y.2
    | exit c => rfl
    | throw w => rfl
    | ub w => rfl

theorem interactAll_idle {procs : List (Proc ℝ)} {q : Particle ℝ} {nm : String} {mx : Nat}
    {r : Rng ℝ} (h : ∀ x ∈ procs, ∀ l, x.interact q l r = .ok (q, l, r)) :
    interactAll procs 0 ⟨nm, mx, [q]⟩ r = .ok (⟨nm, mx, [q]⟩, r) := by
  induction procs with
  | nil => rfl
  | cons x procs ih =>
    rw [interactAll]
    have : interactAt x 0 ⟨nm, mx, [q]⟩ r = .ok (⟨nm, mx, [q]⟩, r) := by
      show (x.interact q ⟨nm, mx, [q]⟩ r >>= _) = _
      rw [h x (by simp), Res.ok_bind]; rfl
    rw [this, Res.ok_bind]
    exact ih fun y hy => h y (by simp [hy])

/-- One process that takes `δ`, among others that do nothing to the particle. -/
theorem takes_of_process {pre post : List (Proc ℝ)} {x : Proc ℝ} {q : Particle ℝ} {δ : ℝ}
    (hidle : ∀ y ∈ pre ++ post, ∀ d l r, y.interact (q.withDepth d) l r = .ok (q.withDepth d, l, r))
    (hkeep : ∀ d l r, δ ≤ d → x.interact (q.withDepth d) l r = .ok (q.withDepth (d - δ), l, r))
    (hfire : ∀ d l r p' l' r', d < δ → x.interact (q.withDepth d) l r = .ok (p', l', r') →
      r.pos < r'.pos) :
    Takes (pre ++ x :: post) q δ := by
  constructor
  · intro d nm mx r hd
    rw [interactAll_append, interactAll_idle fun y hy l => hidle y (by simp [hy]) d l r, Res.ok_bind,
      interactAll]
    have : interactAt x 0 ⟨nm, mx, [q.withDepth d]⟩ r =
        .ok (⟨nm, mx, [q.withDepth (d - δ)]⟩, r) := by
      show (x.interact (q.withDepth d) ⟨nm, mx, [q.withDepth d]⟩ r >>= _) = _
      rw [hkeep d _ r hd, Res.ok_bind]; rfl
    rw [this, Res.ok_bind]
    exact interactAll_idle fun y hy l => hidle y (by simp [hy]) _ l r
  · intro d nm mx r l' r' hd h
    rw [interactAll_append, interactAll_idle fun y hy l => hidle y (by simp [hy]) d l r, Res.ok_bind,
      interactAll, Res.bind_eq_ok] at h
    obtain ⟨⟨l1, r1⟩, h1, h2⟩ := h
    change (x.interact (q.withDepth d) ⟨nm, mx, [q.withDepth d]⟩ r >>= _) = _ at h1
    rw [Res.bind_eq_ok] at h1
    obtain ⟨⟨p', l2, r2⟩, h3, h4⟩ := h1
    simp only [Res.ok.injEq, Prod.mk.injEq] at h4
    have := hfire d _ r p' l2 r2 hd h3
    rw [h4.2] at this
    exact this.trans_le (interactAll_pos h2)

theorem stochastic_takes {pre post : List (Proc ℝ)} {e : EmissionCfg ℝ} {q : Particle ℝ} {logh : ℝ}
    (hidle : ∀ y ∈ pre ++ post, ∃ b, y = .breitWheeler b) (hk : q.kind ≠ .photon)
    (hm : q.mass ≠ 0) (ha : q.isAlive = true)
    (hl : emissionLogh e (calculateEta e.field q) = .ok logh) :
    Takes (pre ++ .stochastic e :: post) q
      (emissionDelta e.dt (calculateEta e.field q) logh q.gamma) := by
  have h0 : ∀ d, ¬ ((((q.withDepth d).mass ==. Dbl.lit 0) || !(q.withDepth d).isAlive) = true) := by
    intro d
    simp [Particle.withDepth, hm, ha]
  have hl' : ∀ d, emissionLogh e (calculateEta e.field (q.withDepth d)) = .ok logh := fun d => hl
  refine takes_of_process ?_ ?_ ?_
  · intro y hy d l r
    obtain ⟨b, rfl⟩ := hidle y hy
    show bwInteract b (q.withDepth d) l r = _
    unfold bwInteract
    rw [if_pos]
    left
    show q.typeName ≠ "Photon"
    unfold Particle.typeName
    split <;> simp_all
  · intro d l r hd
    show stochasticInteract e (q.withDepth d) l r = _
    unfold stochasticInteract
    rw [if_neg (h0 d)]
    dsimp only
    rw [hl' d, Res.ok_bind, if_neg]
    · rfl
    · show ¬ ((d -. emissionDelta e.dt (calculateEta e.field q) logh q.gamma <. Dbl.lit 0) = true)
      have : ¬ (d - emissionDelta e.dt (calculateEta e.field q) logh q.gamma < 0) := by linarith
      simpa using this
  · intro d l r p' l' r' hd h
    change stochasticInteract e (q.withDepth d) l r = _ at h
    unfold stochasticInteract at h
    rw [if_neg (h0 d)] at h
    dsimp only at h
    rw [hl' d, Res.ok_bind, if_pos, Res.bind_eq_ok] at h
    · obtain ⟨chi, _, h⟩ := h
      simp only [Res.ok.injEq, Prod.mk.injEq] at h
      rw [← h.2.2]
      refine lt_of_le_of_lt ?_ (Nat.lt_succ_self _)
      exact le_trans (Nat.le_succ _) (storePhoton_pos e _ _ l r.next.2)
    · show (d -. emissionDelta e.dt (calculateEta e.field q) logh q.gamma <. Dbl.lit 0) = true
      have : d - emissionDelta e.dt (calculateEta e.field q) logh q.gamma < 0 := by linarith
      simpa using this

theorem bw_takes {pre post : List (Proc ℝ)} {b : BWCfg ℝ} {q : Particle ℝ} {logt : ℝ}
    (hidle : ∀ y ∈ pre ++ post, (∃ e, y = .stochastic e) ∨ ∃ e c, y = .continuous e c)
    (hk : q.kind = .photon) (hm : q.mass = 0) (ha : q.isAlive = true)
    (hl : Numerics.interpolate1D b.tAxis b.tData (Dbl.log10 (bwChi b.field q)) = .ok logt) :
    Takes (pre ++ .breitWheeler b :: post) q (bwDelta b.dt (bwChi b.field q) logt q.energy) := by
  have ht : ∀ d, ¬ ((q.withDepth d).typeName ≠ "Photon" ∨ (q.withDepth d).isAlive = false) := by
    intro d
    simp [Particle.withDepth, Particle.typeName, hk, ha]
  have hl' : ∀ d, Numerics.interpolate1D b.tAxis b.tData
      (Dbl.log10 (bwChi b.field (q.withDepth d))) = .ok logt := fun d => hl
  refine takes_of_process ?_ ?_ ?_
  · intro y hy d l r
    have h0 : (((q.withDepth d).mass ==. Dbl.lit 0) || !(q.withDepth d).isAlive) = true := by
      simp [Particle.withDepth, hm]
    rcases hidle y hy with ⟨e, rfl⟩ | ⟨e, c, rfl⟩
    · show stochasticInteract e (q.withDepth d) l r = _
      unfold stochasticInteract
      rw [if_pos h0]
    · show continuousInteract e c (q.withDepth d) l r = _
      unfold continuousInteract
      rw [if_pos h0]
  · intro d l r hd
    show bwInteract b (q.withDepth d) l r = _
    unfold bwInteract
    rw [if_neg (ht d)]
    dsimp only
    rw [hl' d, Res.ok_bind, if_neg]
    · rfl
    · show ¬ ((d -. bwDelta b.dt (bwChi b.field q) logt q.energy <. Dbl.lit 0) = true)
      have : ¬ (d - bwDelta b.dt (bwChi b.field q) logt q.energy < 0) := by linarith
      simpa using this
  · intro d l r p' l' r' hd h
    change bwInteract b (q.withDepth d) l r = _ at h
    unfold bwInteract at h
    rw [if_neg (ht d)] at h
    dsimp only at h
    rw [hl' d, Res.ok_bind, if_pos, Res.bind_eq_ok] at h
    · obtain ⟨s, _, h⟩ := h
      simp only [Res.ok.injEq, Prod.mk.injEq] at h
      rw [← h.2.2]
      simp only [Rng.next]
      omega
    · show (d -. bwDelta b.dt (bwChi b.field q) logt q.energy <. Dbl.lit 0) = true
      have : d - bwDelta b.dt (bwChi b.field q) logt q.energy < 0 := by linarith
      simpa using this

/-! ## The exponential law of the drawn depth -/

theorem initDepth_ge {u s : ℝ} (hu : u < 1) : s ≤ initDepth u ↔ 1 - Real.exp (-s) ≤ u := by
  simp only [initDepth, real_mul, real_lit, real_log, real_sub]
  push_cast
  have h1 : 0 < 1 - u := by linarith
  constructor
  · intro h
    have : Real.log (1 - u) ≤ -s := by linarith
    have := (Real.log_le_iff_le_exp h1).mp this
    linarith
  · intro h
    have : 1 - u ≤ Real.exp (-s) := by linarith
    have := (Real.log_le_iff_le_exp h1).mpr this
    linarith

theorem volume_initDepth {s : ℝ} (hs : 0 ≤ s) :
    MeasureTheory.volume {u : ℝ | 0 ≤ u ∧ u < 1 ∧ s ≤ initDepth u} =
      ENNReal.ofReal (Real.exp (-s)) := by
  have he : Real.exp (-s) ≤ 1 := Real.exp_le_one_iff.mpr (by linarith)
  have : {u : ℝ | 0 ≤ u ∧ u < 1 ∧ s ≤ initDepth u} = Set.Ico (1 - Real.exp (-s)) 1 := by
    ext u
    simp only [Set.mem_ofPred_eq, Set.mem_Ico]
    constructor
    · rintro ⟨_, h1, h2⟩
      exact ⟨(initDepth_ge h1).mp h2, h1⟩
    · rintro ⟨h1, h2⟩
      exact ⟨by linarith, h2, (initDepth_ge h2).mpr h1⟩
  rw [this, Real.volume_Ico]
  congr 1
  ring

end QED
