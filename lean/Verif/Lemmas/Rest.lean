import Verif.Spec.Rest
import Verif.Lemmas.F64Straight
import Verif.Lemmas.Processes
import Verif.Lemmas.Events

set_option autoImplicit false
set_option exponentiation.threshold 2000

/-! # What is not a number stays so -/

namespace QED

open Dbl F64

namespace Rest

theorem nan_iff {a : F64} : a = F64.nan ↔ a.1 = .nan := ⟨fun h => by rw [h]; rfl, fun h => Subtype.ext h⟩

theorem nan_val : (F64.nan).1 = .nan := rfl

@[simp] theorem nan_add (a : F64) : F64.nan +. a = F64.nan := by
  rw [nan_iff]; show F64.rnd (XR.nan +. a.1) = _; simp [F64.rnd]
@[simp] theorem add_nan (a : F64) : a +. F64.nan = F64.nan := by
  rw [nan_iff]; show F64.rnd (a.1 +. XR.nan) = _; simp [F64.rnd]
@[simp] theorem nan_sub (a : F64) : F64.nan -. a = F64.nan := by
  rw [nan_iff]; show F64.rnd (XR.nan -. a.1) = _; simp [F64.rnd]
@[simp] theorem sub_nan (a : F64) : a -. F64.nan = F64.nan := by
  rw [nan_iff]; show F64.rnd (a.1 -. XR.nan) = _; simp [F64.rnd]
@[simp] theorem nan_mul (a : F64) : F64.nan *. a = F64.nan := by
  rw [nan_iff]; show F64.rnd (XR.nan *. a.1) = _; simp [F64.rnd]
@[simp] theorem mul_nan (a : F64) : a *. F64.nan = F64.nan := by
  rw [nan_iff]; show F64.rnd (a.1 *. XR.nan) = _; simp [F64.rnd]
@[simp] theorem nan_div (a : F64) : F64.nan /. a = F64.nan := by
  rw [nan_iff]; show F64.rnd (XR.nan /. a.1) = _; simp [F64.rnd]
@[simp] theorem div_nan (a : F64) : a /. F64.nan = F64.nan := by
  rw [nan_iff]; show F64.rnd (a.1 /. XR.nan) = _; simp [F64.rnd]
@[simp] theorem sqrt_nan : (Dbl.sqrt F64.nan) = F64.nan := rfl
@[simp] theorem log10_nan : (Dbl.log10 F64.nan) = F64.nan := rfl
@[simp] theorem nan_lt (a : F64) : (F64.nan <. a) = false := by
  show (XR.nan <. a.1) = false; simp
@[simp] theorem lt_nan (a : F64) : (a <. F64.nan) = false := by
  show (a.1 <. XR.nan) = false; simp

/-- Infinite or not a number. -/
def Wild (a : F64) : Prop := a.1 = .pinf ∨ a.1 = .ninf ∨ a.1 = .nan

theorem infSign_wild (x : ℝ) : F64.rnd (XR.infSign x) = .pinf ∨ F64.rnd (XR.infSign x) = .ninf ∨
    F64.rnd (XR.infSign x) = .nan := by
  unfold XR.infSign
  split_ifs <;> simp [F64.rnd]

theorem wild_div {a b : F64} (hb : b.1 = .fin 0) : Wild (a /. b) := by
  show F64.rnd (a.1 /. b.1) = _ ∨ F64.rnd (a.1 /. b.1) = _ ∨ F64.rnd (a.1 /. b.1) = _
  rw [hb]
  cases a.1 with
  | fin x =>
    have : (XR.fin x /. XR.fin 0) = XR.infSign x := by show XR.div _ _ = _; simp [XR.div]
    rw [this]; exact infSign_wild x
  | pinf => left; show F64.rnd (XR.div _ _) = _; simp [XR.div, F64.rnd]
  | ninf => right; left; show F64.rnd (XR.div _ _) = _; simp [XR.div, F64.rnd]
  | nan => right; right; show F64.rnd (XR.div _ _) = _; simp [XR.div, F64.rnd]

theorem wild_mul {a b : F64} (ha : Wild a) : Wild (a *. b) := by
  show F64.rnd (XR.mul a.1 b.1) = _ ∨ F64.rnd (XR.mul a.1 b.1) = _ ∨ F64.rnd (XR.mul a.1 b.1) = _
  rcases ha with h | h | h <;> rw [h] <;> cases b.1 <;> simp only [XR.mul] <;>
    first | exact infSign_wild _ | simp [F64.rnd]

theorem wild_sub {a b : F64} (ha : Wild a) (hb : Wild b) : Wild (a -. b) := by
  show F64.rnd (a.1 -. b.1) = _ ∨ F64.rnd (a.1 -. b.1) = _ ∨ F64.rnd (a.1 -. b.1) = _
  rcases ha with h | h | h <;> rcases hb with h' | h' | h' <;> rw [h, h'] <;>
    simp [Dbl.sub, XR.add, XR.neg, F64.rnd]

theorem zero_mul_wild {a b : F64} (ha : a.1 = .fin 0) (hb : Wild b) : a *. b = F64.nan := by
  rw [nan_iff]
  show F64.rnd (XR.mul a.1 b.1) = _
  rw [ha]
  rcases hb with h | h | h <;> rw [h] <;> simp [XR.mul, XR.infSign, F64.rnd]

/-! ## Momenta -/

/-- So small that its square underflows. -/
def Tiny (p : V3 F64) : Prop := ∃ a, p.At a ∧ ∀ i, |a i| ≤ (1 / 2) ^ 550

theorem square_tiny {a : F64} {x : ℝ} (ha : a.1 = .fin x) (hx : |x| ≤ (1 / 2) ^ 550) : (a *. a).1 = .fin 0 := by
  have h : |x * x| ≤ 2 ^ (-1100 : ℤ) := by
    rw [abs_mul]
    calc |x| * |x| ≤ (1 / 2) ^ 550 * (1 / 2) ^ 550 := mul_le_mul hx hx (abs_nonneg _) (by positivity)
      _ = 2 ^ (-1100 : ℤ) := by
        rw [← pow_add, zpow_neg, show (1100 : ℤ) = ((1100 : ℕ) : ℤ) by norm_num, zpow_natCast, one_div, inv_pow]
  refine mul_at ha ha (h.trans_lt ?_) (FlightWitness.round_tiny h)
  calc (2 : ℝ) ^ (-1100 : ℤ) < 2 ^ (1023 : ℤ) := zpow_lt_zpow_right₀ (by norm_num) (by norm_num)
    _ = _ := by norm_cast

theorem tiny_mag2 {p : V3 F64} (h : Tiny p) : p.mag2.1 = .fin 0 := by
  obtain ⟨a, ⟨hx, hy, hz⟩, ha⟩ := h
  exact zero_add_at (zero_add_at (square_tiny hx (ha 0)) (square_tiny hy (ha 1))) (square_tiny hz (ha 2))

theorem sqrt_zero_at {a : F64} (h : a.1 = .fin 0) : (Dbl.sqrt a).1 = .fin 0 :=
  sqrt_at h le_rfl (by simp) (by simp)

theorem sqrt_one_at {a : F64} (h : a.1 = .fin 1) : (Dbl.sqrt a).1 = .fin 1 := by
  have h1 : (1 : ℝ) < 2 ^ 1023 := one_lt_pow₀ (by norm_num) (by norm_num)
  refine sqrt_at h zero_le_one (by simpa using h1) ?_
  rw [Real.sqrt_one]
  exact round_form_eq (by simpa using form_zpow (e := 0) (by norm_num))

theorem tiny_dir {p : V3 F64} (h : Tiny p) : Wild p.norm.x ∧ Wild p.norm.y ∧ Wild p.norm.z := by
  have hm : p.mag.1 = .fin 0 := sqrt_zero_at (tiny_mag2 h)
  exact ⟨wild_div hm, wild_div hm, wild_div hm⟩

theorem one_sq_at {m : F64} (h : m.1 = .fin 1) : (m *. m).1 = .fin 1 := one_mul_at h h

theorem gamma_one {m : F64} (h : m.1 = .fin 0) : (Dbl.sqrt (lit 1 +. m /. (lit 1 *. lit 1))).1 = .fin 1 :=
  sqrt_one_at (add_zero_at one_val (div_one_at h (one_sq_at one_val)))

theorem beta_zero {g : F64} (h : g.1 = .fin 1) : (Dbl.sqrt (lit 1 -. lit 1 /. (g *. g))).1 = .fin 0 := by
  refine sqrt_zero_at (sub_at one_val (div_one_at one_val (one_sq_at h)) ?_ ?_) <;> simp

/-- The quantum parameter, with the Lorentz factor `g` and the speed `b` of a particle that moves along `d`. -/
theorem eta_nan {d e m : V3 F64} {b g : F64} (hb : b.1 = .fin 0) (hx : Wild d.x) (hy : Wild d.y) (hz : Wild d.z) :
    Dbl.sqrt (((e.sub (d.smul (e.dot d))).add ((d.cross m).smul b)).mag2 +. pow (d.dot e) (lit 2) /. (g *. g)) *. g =
      F64.nan := by
  have c : (d.cross m).smul b = ⟨F64.nan, F64.nan, F64.nan⟩ := by
    show V3.mk _ _ _ = _
    rw [V3.mk.injEq]
    exact ⟨zero_mul_wild hb (wild_sub (wild_mul hy) (wild_mul hz)),
      zero_mul_wild hb (wild_sub (wild_mul hz) (wild_mul hx)), zero_mul_wild hb (wild_sub (wild_mul hx) (wild_mul hy))⟩
  rw [c]
  simp [V3.add, V3.mag2, V3.dot]

theorem eta_lost {d e m : V3 F64} {b g : F64} (h : d.Lost) :
    Dbl.sqrt (((e.sub (d.smul (e.dot d))).add ((d.cross m).smul b)).mag2 +. pow (d.dot e) (lit 2) /. (g *. g)) *. g =
      F64.nan := by
  obtain ⟨hx, hy, hz⟩ := h
  simp [V3.add, V3.mag2, V3.dot, V3.sub, V3.smul, hx, hy, hz]

theorem norm_lost {p : V3 F64} (h : p.Lost) : p.norm.Lost := by
  obtain ⟨hx, hy, hz⟩ := h
  simp [V3.Lost, V3.norm, V3.divs, hx, hy, hz]

theorem smul_lost (v : V3 F64) : (v.smul F64.nan).Lost := by simp [V3.Lost, V3.smul]

theorem lost_smul {v : V3 F64} (h : v.Lost) (s : F64) : (v.smul s).Lost := by
  obtain ⟨hx, hy, hz⟩ := h
  simp [V3.Lost, V3.smul, hx, hy, hz]

theorem lost_muls {v : V3 F64} (h : v.Lost) (s : F64) : (v.muls s).Lost := by
  obtain ⟨hx, hy, hz⟩ := h
  simp [V3.Lost, V3.muls, hx, hy, hz]

theorem lost_divs {v : V3 F64} (h : v.Lost) (s : F64) : (v.divs s).Lost := by
  obtain ⟨hx, hy, hz⟩ := h
  simp [V3.Lost, V3.divs, hx, hy, hz]

theorem add_lost (v : V3 F64) {w : V3 F64} (h : w.Lost) : (v.add w).Lost := by
  obtain ⟨hx, hy, hz⟩ := h
  simp [V3.Lost, V3.add, hx, hy, hz]

theorem lost_add {v : V3 F64} (w : V3 F64) (h : v.Lost) : (v.add w).Lost := by
  obtain ⟨hx, hy, hz⟩ := h
  simp [V3.Lost, V3.add, hx, hy, hz]

/-- The momenta that the pushers with radiation reaction cannot handle. -/
def Spoiled (p : V3 F64) : Prop := Tiny p ∨ p.Lost

theorem pushEta_nan {p : V3 F64} (h : Spoiled p) (e b : V3 F64) : pushEta (lit 1) p e b = F64.nan := by
  rcases h with h | h
  · obtain ⟨hx, hy, hz⟩ := tiny_dir h
    exact eta_nan (beta_zero (gamma_one (tiny_mag2 h))) hx hy hz
  · exact eta_lost (norm_lost h)

theorem force_lost {push : PushMom F64} (hp : push = landauForce ∨ push = modLandauForce) {p : V3 F64} (h : Spoiled p)
    (c : F64) (e b : V3 F64) : (push (lit 1) c p e b).Lost := by
  rcases hp with rfl | rfl
  · refine add_lost _ ?_
    unfold landauReaction
    rw [pushEta_nan h]
    simpa using smul_lost _
  · refine add_lost _ ?_
    unfold modLandauReaction
    rw [pushEta_nan h]
    simpa using smul_lost _

/-- One push loses the particle. -/
theorem rk4_lost {push : PushMom F64} (hp : push = landauForce ∨ push = modLandauForce) {mom : V3 F64}
    (h : Spoiled mom) (field : Field F64) (dt c t : F64) (pos : V3 F64) :
    (rk4 push field dt (lit 1) c t pos mom).1.Lost ∧ (rk4 push field dt (lit 1) c t pos mom).2.Lost := by
  unfold rk4
  dsimp only
  set f1 := field t pos
  set posK1 := pushPosition (lit 1 : F64) mom
  set momK1 := push (lit 1) c mom f1.1 f1.2
  have h1 : momK1.Lost := force_lost hp h c _ _
  set f2 := field (t +. dt /. lit 2) (pos.add ((posK1.muls dt).divs (lit 2)))
  set mom2 := mom.add ((momK1.muls dt).divs (lit 2))
  have h2 : mom2.Lost := add_lost _ (lost_divs (lost_muls h1 _) _)
  set posK2 := pushPosition (lit 1 : F64) mom2
  have k2 : posK2.Lost := lost_divs h2 _
  refine ⟨add_lost _ (lost_smul (lost_add _ (lost_add _ (add_lost _ (lost_smul k2 _)))) _),
    add_lost _ (lost_smul (lost_add _ (lost_add _ (lost_add _ h1))) _)⟩

theorem energy_lost {p : Particle F64} (hk : p.kind ≠ .photon) (h : p.momentum.Lost) : p.energy = F64.nan := by
  obtain ⟨hx, hy, hz⟩ := h
  have hg : p.gamma = F64.nan := by
    unfold Particle.gamma
    split
    · exact absurd ‹_› hk
    · simp [V3.mag2, V3.dot, hx, hy, hz]
  unfold Particle.energy
  split
  · exact absurd ‹_› hk
  · rw [hg]; simp

/-! ## Emission -/

/-- What the tables of the emission rate have to fulfil. -/
def Tables (e : EmissionCfg F64) : Prop :=
  e.hAxis.length = e.hData.length ∧ 2 ≤ e.hAxis.length ∧ e.hAxis.length < 2 ^ 32

/-- A lepton that has been at rest, or is now. -/
def Muted (p : Particle F64) : Prop :=
  p.isAlive = true ∧ p.kind ≠ .photon ∧ p.mass = lit 1 ∧ (Tiny p.momentum ∨ p.opticalDepth = F64.nan)

theorem calculateEta_nan {p : Particle F64} (hk : p.kind ≠ .photon) (hm : p.mass = lit 1) (h : Tiny p.momentum)
    (field : Field F64) : calculateEta field p = F64.nan := by
  have hg : p.gamma.1 = .fin 1 := by
    unfold Particle.gamma
    split
    · exact absurd ‹_› hk
    · rw [hm]; exact gamma_one (tiny_mag2 h)
  have hb : p.beta.1 = .fin 0 := by
    unfold Particle.beta
    split
    · exact absurd ‹_› hk
    · exact beta_zero hg
  obtain ⟨hx, hy, hz⟩ := tiny_dir h
  exact eta_nan hb hx hy hz

theorem muted_interact {e : EmissionCfg F64} (he : Tables e) {p : Particle F64} (h : Muted p) (l : PList F64)
    (r : MCTools.Rng F64) : stochasticInteract e p l r = .ok ({ p with opticalDepth := F64.nan }, l, r) := by
  obtain ⟨ha, hk, hm, hd⟩ := h
  obtain ⟨logh, hl⟩ : ∃ logh, emissionLogh e (calculateEta e.field p) = .ok logh := by
    unfold emissionLogh
    split
    · exact ⟨_, rfl⟩
    · exact interpolate1D_ok _ _ _ he.1 he.2.1 he.2.2
  have hdelta : p.opticalDepth -. emissionDelta e.dt (calculateEta e.field p) logh p.gamma = F64.nan := by
    rcases hd with hd | hd
    · rw [calculateEta_nan hk hm hd]
      simp [emissionDelta]
    · rw [hd]; simp
  have hne : ((p.mass ==. lit 0) || !p.isAlive) = false := by
    rw [ha, hm]
    show ((lit 1 : F64).1 ==. (lit 0 : F64).1 || false) = false
    rw [one_val, zero_val]
    simp
  unfold stochasticInteract
  rw [hne]
  simp only [Bool.false_eq_true, if_false]
  rw [hl, Res.ok_bind]
  have hq : p.updateOpticalDepth (emissionDelta e.dt (calculateEta e.field p) logh p.gamma) =
      { p with opticalDepth := F64.nan } := by
    unfold Particle.updateOpticalDepth
    rw [hdelta]
  rw [hq, if_neg]
  simp

theorem lepton_bw {p : Particle F64} (hk : p.kind ≠ .photon) (b : BWCfg F64) (l : PList F64) (r : MCTools.Rng F64) :
    bwInteract b p l r = .ok (p, l, r) := by
  unfold bwInteract
  rw [if_pos]
  left
  unfold Particle.typeName
  split
  · exact absurd ‹_› hk
  · decide

/-- One time step of an event of one muted lepton. -/
theorem advance_muted {cfg : SimCfg F64} {e : EmissionCfg F64} {b : BWCfg F64}
    (hp : cfg.procs = [.stochastic e, .breitWheeler b]) (he : Tables e) {p : Particle F64}
    (h : Muted (pushParticle cfg.push cfg.field cfg.dt p)) (nm : String) {mx : Nat} (hmx : 0 < mx) (r : MCTools.Rng F64) :
    advance cfg ⟨nm, mx, [p]⟩ r =
      .ok (⟨nm, mx, [{ pushParticle cfg.push cfg.field cfg.dt p with opticalDepth := F64.nan }]⟩, r) := by
  set q := pushParticle cfg.push cfg.field cfg.dt p with hq
  have hv : visit cfg 0 ⟨nm, mx, [p]⟩ r = .ok (⟨nm, mx, [{ q with opticalDepth := F64.nan }]⟩, r) := by
    unfold visit
    show interactAll _ _ (⟨nm, mx, [q]⟩ : PList F64) r = _
    rw [hp, interactAll]
    have h1 : interactAt (.stochastic e) 0 (⟨nm, mx, [q]⟩ : PList F64) r =
        .ok (⟨nm, mx, [{ q with opticalDepth := F64.nan }]⟩, r) := by
      show (stochasticInteract e q _ r).bind _ = _
      rw [muted_interact he h]
      rfl
    rw [h1, Res.ok_bind]
    show interactAll _ _ (⟨nm, mx, [{ q with opticalDepth := F64.nan }]⟩ : PList F64) r = _
    rw [interactAll]
    have h2 : interactAt (.breitWheeler b) 0 (⟨nm, mx, [{ q with opticalDepth := F64.nan }]⟩ : PList F64) r =
        .ok (⟨nm, mx, [{ q with opticalDepth := F64.nan }]⟩, r) := by
      show (bwInteract b { q with opticalDepth := F64.nan } _ r).bind _ = _
      rw [lepton_bw (show ({ q with opticalDepth := F64.nan } : Particle F64).kind ≠ .photon from h.2.1)]
      rfl
    rw [h2, Res.ok_bind]
    rfl
  obtain ⟨m, rfl⟩ : ∃ m, mx = m + 1 := ⟨mx - 1, by omega⟩
  unfold advance
  show particleLoop cfg (m + 1) 0 _ r = _
  rw [particleLoop, if_pos (by simp [PList.nPart]), hv, Res.ok_bind]
  cases m with
  | zero => rfl
  | succ m =>
    show particleLoop cfg (m + 1) 1 _ r = _
    rw [particleLoop, if_neg (by simp [PList.nPart])]

theorem push_depth (push : PushMom F64) (field : Field F64) (dt : F64) (p : Particle F64) (d : F64) :
    pushParticle push field dt { p with opticalDepth := d } = { pushParticle push field dt p with opticalDepth := d } := by
  unfold pushParticle Particle.updateTrack Particle.updateTime
  dsimp only
  split_ifs <;> rfl

theorem iterate_depth (push : PushMom F64) (field : Field F64) (dt : F64) (n : Nat) (p : Particle F64) (d : F64) :
    (pushParticle push field dt)^[n] { p with opticalDepth := d } =
      { (pushParticle push field dt)^[n] p with opticalDepth := d } := by
  induction n generalizing p with
  | zero => rfl
  | succ n ih => rw [Function.iterate_succ_apply, push_depth, ih, Function.iterate_succ_apply]

theorem muted_push {p : Particle F64} (ha : p.isAlive = true) (hk : p.kind ≠ .photon) (hm : p.mass = lit 1)
    (hd : p.opticalDepth = F64.nan) (push : PushMom F64) (field : Field F64) (dt : F64) :
    Muted (pushParticle push field dt p) := by
  obtain ⟨h1, h2, -, -, -, h6, h7⟩ := push_identity push field dt p
  exact ⟨h6.trans ha, h1 ▸ hk, h2.trans hm, .inr (h7.trans hd)⟩

/-- A run of one muted lepton. -/
theorem run_muted {cfg : SimCfg F64} {e : EmissionCfg F64} {b : BWCfg F64}
    (hp : cfg.procs = [.stochastic e, .breitWheeler b]) (he : Tables e) {nm : String} {mx : Nat} (hmx : 0 < mx)
    {s : EvState F64} {n : Nat} {o : Res (EvState F64)} (h : Run cfg s n o) :
    ∀ (p : Particle F64) (s' : EvState F64), s.list = ⟨nm, mx, [p]⟩ → Muted (pushParticle cfg.push cfg.field cfg.dt p) →
      o = .ok s' → s'.rng = s.rng ∧
        ∃ d, s'.list = ⟨nm, mx, [{ (pushParticle cfg.push cfg.field cfg.dt)^[n] p with opticalDepth := d }]⟩ := by
  induction h with
  | done _ =>
    intro p s' hs _ ho
    cases ho
    exact ⟨rfl, p.opticalDepth, hs⟩
  | @step s s₁ n o _ h2 _ ih =>
    intro p s' hs hq ho
    obtain ⟨ha, -⟩ := timeStep_advance h2
    rw [hs, advance_muted hp he hq nm hmx, Res.ok.injEq, Prod.mk.injEq] at ha
    obtain ⟨h3, d, h4⟩ := ih _ s' ha.1.symm (muted_push (by exact hq.1) (by exact hq.2.1) (by exact hq.2.2.1) rfl _ _ _) ho
    refine ⟨h3.trans ha.2.symm, d, ?_⟩
    rw [h4, iterate_depth, Function.iterate_succ_apply]
  | abort _ _ h3 =>
    intro p s' _ _ ho
    exact absurd ho (h3 s')

/-- A muted lepton does not stop the run. -/
theorem timeStep_muted {cfg : SimCfg F64} {e : EmissionCfg F64} {b : BWCfg F64}
    (hp : cfg.procs = [.stochastic e, .breitWheeler b]) (he : Tables e) {p : Particle F64}
    (h : Muted (pushParticle cfg.push cfg.field cfg.dt p)) (nm : String) {mx : Nat} (hmx : 0 < mx) (r : MCTools.Rng F64)
    (t : F64) : timeStep cfg ⟨⟨nm, mx, [p]⟩, r, t, 0, []⟩ =
      .ok ⟨⟨nm, mx, [{ pushParticle cfg.push cfg.field cfg.dt p with opticalDepth := F64.nan }]⟩, r, t +. cfg.dt, 0, []⟩ := by
  unfold timeStep histStep
  show (advance cfg ⟨nm, mx, [p]⟩ r).bind _ = _
  rw [advance_muted hp he h nm hmx]
  rfl

end Rest

end QED
