import Verif.Spec.Quiet
import Verif.Lemmas.Moving
import Verif.Lemmas.Outside

set_option autoImplicit false
set_option exponentiation.threshold 2000

/-! # Leptons without a field -/

namespace QED

open Dbl F64

namespace Rest

/-- Taking away zero changes nothing. -/
theorem sub_zero_any (a : F64) {z : F64} (hz : z.1 = .fin 0) : a -. z = a := by
  apply Subtype.ext
  show F64.rnd (a.1 -. z.1) = a.1
  rw [hz]
  rcases h : a.1 with x | _ | _ | _
  · show F64.rnd (.fin (x - 0)) = _
    rw [sub_zero, rnd_rep (a.2 x h)]
  · rfl
  · rfl
  · rfl

/-- The quantum parameter without a field. -/
theorem eta_zero {field : Field F64} {p : Particle F64} (hp : Travelling p) (h : NoField field p) :
    (calculateEta field p).1 = .fin 0 ∧ AtLeastOne p.gamma 403 := by
  obtain ⟨hk, hm, ⟨a, ha, lo, hi⟩, -⟩ := hp
  obtain ⟨⟨ex, ey, ez⟩, bx, bY, bz⟩ := h
  have hi' : len a ≤ 2 ^ 500 := hi.trans (pow_le_pow_right₀ (by norm_num) (by norm_num))
  obtain ⟨⟨dx, hx, -⟩, ⟨dy, hy, -⟩, ⟨dz, hz, -⟩⟩ := dir_fits ha lo hi'
  have c : ∀ i, |a i| ≤ 2 ^ 200 := fun i => (Flight.comp_le a i).trans hi
  have hm2 : FitsPos p.momentum.mag2 402 :=
    mag2_pos (k := 200) ⟨_, ha.1, c 0⟩ ⟨_, ha.2.1, c 1⟩ ⟨_, ha.2.2, c 2⟩ (by norm_num)
  have hg0 : AtLeastOne (Dbl.sqrt (lit 1 +. p.momentum.mag2 /. (lit 1 *. lit 1))) 403 := gamma_fits hm2 (by norm_num)
  have eg : p.gamma = Dbl.sqrt (lit 1 +. p.momentum.mag2 /. (lit 1 *. lit 1)) := by
    unfold Particle.gamma
    split
    · exact absurd ‹_› hk
    · rw [hm]
  have eb : p.beta = Dbl.sqrt (lit 1 -. lit 1 /. (p.gamma *. p.gamma)) := by
    unfold Particle.beta
    split
    · exact absurd ‹_› hk
    · rfl
  have hg : AtLeastOne p.gamma 403 := eg ▸ hg0
  obtain ⟨b, hb, -, -⟩ : FitsPos p.beta 0 := eb ▸ beta_fits hg (by norm_num)
  refine ⟨?_, hg⟩
  have add0 : ∀ {u v : F64}, u.1 = .fin 0 → v.1 = .fin 0 → (u +. v).1 = .fin 0 := fun hu hv => add_zero_at hu hv
  have sub0 : ∀ {u v : F64}, u.1 = .fin 0 → v.1 = .fin 0 → (u -. v).1 = .fin 0 := fun hu hv => by
    rw [sub_zero_any _ hv, hu]
  have hdot : ((field p.time p.position).1.dot p.momentum.norm).1 = .fin 0 :=
    add0 (add0 (zero_mul_at ex hx) (zero_mul_at ey hy)) (zero_mul_at ez hz)
  have hdot' : (p.momentum.norm.dot (field p.time p.position).1).1 = .fin 0 :=
    add0 (add0 (mul_zero_at hx ex) (mul_zero_at hy ey)) (mul_zero_at hz ez)
  have comp : ∀ {c u v w v' w' : F64} {x y z : ℝ}, c.1 = .fin 0 → u.1 = .fin x → v.1 = .fin y → w.1 = .fin 0 →
      v'.1 = .fin z → w'.1 = .fin 0 → (c -. ((field p.time p.position).1.dot p.momentum.norm *. u) +.
        p.beta *. (v *. w -. v' *. w')).1 = .fin 0 := by
    intro c u v w v' w' x y z hc hu hv hw hv' hw'
    exact add0 (sub0 hc (zero_mul_at hdot hu)) (mul_zero_at hb (sub0 (mul_zero_at hv hw) (mul_zero_at hv' hw')))
  have h1 := comp ex hx hy bz hz bY
  have h2 := comp ey hy hz bx hx bz
  have h3 := comp ez hz hx bY hy bx
  have hmag : (((field p.time p.position).1.sub (p.momentum.norm.smul ((field p.time p.position).1.dot p.momentum.norm))).add
      ((p.momentum.norm.cross (field p.time p.position).2).smul p.beta)).mag2.1 = .fin 0 :=
    add0 (add0 (zero_mul_at h1 h1) (zero_mul_at h2 h2)) (zero_mul_at h3 h3)
  obtain ⟨gg, hgg, hg1, -⟩ := hg.mul hg (by norm_num)
  obtain ⟨g, hgv, -, -⟩ := id hg
  have hpow : (Dbl.pow (p.momentum.norm.dot (field p.time p.position).1) (lit 2)).1 = .fin 0 := by
    show F64.rnd (XR.pow _ (lit 2 : F64).1) = _
    rw [hdot', two_val]
    simp only [XR.pow]
    rw [if_neg (by norm_num), if_pos trivial, if_pos (by norm_num), rnd_fin (by norm_num), F64.round_zero]
  have hq := zero_div_at hpow hgg (by linarith)
  have hs : (Dbl.sqrt ((((field p.time p.position).1.sub (p.momentum.norm.smul
      ((field p.time p.position).1.dot p.momentum.norm))).add ((p.momentum.norm.cross (field p.time p.position).2).smul
        p.beta)).mag2 +. Dbl.pow (p.momentum.norm.dot (field p.time p.position).1) (lit 2) /. (p.gamma *. p.gamma))).1 =
      .fin 0 := by
    refine sqrt_at (add0 hmag hq) le_rfl ?_ ?_
    · rw [Real.sqrt_zero]; norm_num
    · rw [Real.sqrt_zero, F64.round_zero]
  exact zero_mul_at hs hgv

theorem zero_div_void {a : F64} (b : F64) (ha : a.1 = .fin 0) : Void (a /. b) := by
  rcases fin_or_wild b with ⟨y, hy⟩ | hb
  · rcases eq_or_ne y 0 with rfl | h0
    · right
      rw [nan_iff]
      show F64.rnd (XR.div a.1 b.1) = _
      rw [ha, hy]
      simp [XR.div, XR.infSign, F64.rnd]
    · exact .inl (zero_div_at ha hy h0)
  · unfold Void
    rw [nan_iff]
    show F64.rnd (XR.div a.1 b.1) = _ ∨ F64.rnd (XR.div a.1 b.1) = _
    rw [ha]
    rcases hb with hb | hb | hb <;> rw [hb]
    · left; simp only [XR.div]; rw [rnd_fin (by norm_num), F64.round_zero]
    · left; simp only [XR.div]; rw [rnd_fin (by norm_num), F64.round_zero]
    · right; rfl

theorem void_div_zero {a b : F64} (ha : Void a) (hb : b.1 = .fin 0) : a /. b = F64.nan := by
  rcases ha with ha | ha
  · rw [nan_iff]
    show F64.rnd (XR.div a.1 b.1) = _
    rw [ha, hb]
    simp [XR.div, XR.infSign, F64.rnd]
  · rw [ha]; simp

theorem not_massless {p : Particle F64} (hm : p.mass = lit 1) (ha : p.isAlive = true) :
    ((p.mass ==. lit 0) || !p.isAlive) = false := by
  rw [ha, hm]
  show ((lit 1 : F64).1 ==. (lit 0 : F64).1 || false) = false
  rw [one_val, zero_val]
  simp

/-- Quantum emission leaves a lepton without a field as it is. -/
theorem quiet_stochastic {e : EmissionCfg F64} {p : Particle F64} (hp : Travelling p) (h : NoField e.field p)
    (hdt : ∃ τ, e.dt.1 = .fin τ ∧ |τ| ≤ 2 ^ 50) (l : PList F64) (r : MCTools.Rng F64) :
    stochasticInteract e p l r = .ok (p, l, r) := by
  rcases ha : p.isAlive with _ | _
  · unfold stochasticInteract
    rw [if_pos (by simp [ha])]
  obtain ⟨he, hg⟩ := eta_zero hp h
  obtain ⟨τ, ht, t1⟩ := hdt
  have hl : emissionLogh e (calculateEta e.field p) = .ok (lit 0.7193) := by
    unfold emissionLogh
    rw [if_pos]
    show ((calculateEta e.field p).1 <. (lit 1e-12 : F64).1) = true
    have hv : (lit 1e-12 : F64).1 = .fin (F64.round (1e-12 : ℚ)) := by
      show F64.rnd (.fin (((1e-12 : ℚ)) : ℝ)) = _
      rw [rnd_fin (by norm_num [abs_of_pos])]
    have hpos : 0 < F64.round (((1e-12 : ℚ)) : ℝ) := by
      have := le_round (show Form (1 / 2 ^ 60 : ℝ) from ⟨1, -60, by norm_num, by norm_num, by norm_num⟩)
        (show 1 / 2 ^ 60 ≤ (((1e-12 : ℚ)) : ℝ) by norm_num)
      linarith
    rw [he, hv]
    simpa using hpos
  have litone : ∀ (q : ℚ) (k : ℕ), 1 ≤ (q : ℝ) → |(q : ℝ)| ≤ 2 ^ k → k ≤ 1000 → AtLeastOne (lit q) k := by
    intro q k h1 h hk
    refine ⟨_, ?_, le_round form_one h1, (le_abs_self _).trans (round_bound h)⟩
    show F64.rnd (.fin (q : ℝ)) = _
    rw [rnd_fin (below h (by omega))]
  have litfits : ∀ (q : ℚ) (k : ℕ), |(q : ℝ)| ≤ 2 ^ k → k ≤ 1000 → Fits (lit q) k := by
    intro q k h hk
    refine ⟨_, ?_, round_bound h⟩
    show F64.rnd (.fin (q : ℝ)) = _
    rw [rnd_fin (below h (by omega))]
  have f1 : Fits e.dt 50 := ⟨τ, ht, t1⟩
  have f2 : Fits (Dbl.sqrt (lit 3 : F64)) 2 := by
    refine (FitsPos.sqrt (k := 2) ?_ (by norm_num)).fits
    exact (litone 3 2 (by norm_num) (by norm_num) (by norm_num)).pos
  have f3 : Fits (Units.alpha : F64) 0 := litfits 0.0072973525664 0 (by norm_num [abs_of_pos]) (by norm_num)
  obtain ⟨x, hx, -⟩ := (f1.mul f2 (by norm_num)).mul f3 (by norm_num)
  obtain ⟨y, hy⟩ : ∃ y, (Dbl.pow (lit 10 : F64) (lit 0.7193)).1 = .fin y := by
    have h10 : (lit 10 : F64).1 = .fin ((10 : ℚ) : ℝ) := lit_val (by exact_mod_cast rep_small (n := 10) (by norm_num))
    obtain ⟨L, hL, hL1⟩ := litfits 0.7193 0 (by norm_num [abs_of_pos]) (by norm_num)
    have hb : |(10 : ℝ) ^ L| ≤ 2 ^ 4 := by
      rw [abs_of_pos (by positivity)]
      calc (10 : ℝ) ^ L ≤ 10 ^ (1 : ℝ) := Real.rpow_le_rpow_of_exponent_le (by norm_num) (by
            have := (abs_le.mp hL1).2; simpa using this)
        _ ≤ 2 ^ 4 := by norm_num
    refine ⟨F64.round ((10 : ℝ) ^ L), ?_⟩
    show F64.rnd (XR.pow (lit 10 : F64).1 (lit 0.7193 : F64).1) = _
    rw [h10, hL]
    simp only [XR.pow]
    rw [if_pos (by norm_num), show (((10 : ℚ) : ℝ)) = 10 by norm_num, rnd_fin (below hb (by norm_num))]
  obtain ⟨w, hw, hw1, -⟩ : AtLeastOne (p.gamma *. lit 2 *. Units.pi : F64) (403 + 1 + 2) :=
    (hg.mul (litone 2 1 (by norm_num) (by norm_num) (by norm_num)) (by norm_num)).mul
      (litone 3.14159265359 2 (by norm_num) (by norm_num [abs_of_pos]) (by norm_num)) (by norm_num)
  have hd : (emissionDelta e.dt (calculateEta e.field p) (lit 0.7193) p.gamma).1 = .fin 0 :=
    zero_div_at (zero_mul_at (mul_zero_at hx he) hy) hw (by linarith)
  have hq : p.updateOpticalDepth (emissionDelta e.dt (calculateEta e.field p) (lit 0.7193) p.gamma) = p := by
    unfold Particle.updateOpticalDepth
    rw [sub_zero_any _ hd]
  unfold stochasticInteract
  rw [not_massless hp.mass ha]
  simp only [Bool.false_eq_true, if_false]
  rw [hl, Res.ok_bind]
  rw [hq, if_neg]
  simp [hp.depth]

/-- Nor does classical or semiclassical emission do anything to it. -/
theorem quiet_continuous {e : EmissionCfg F64} {c : Bool} {p : Particle F64} (hp : Travelling p) (h : NoField e.field p)
    {l l' : PList F64} {r r' : MCTools.Rng F64} {p' : Particle F64}
    (hi : continuousInteract e c p l r = .ok (p', l', r')) : p' = p ∧ l' = l := by
  obtain ⟨he, -⟩ := eta_zero hp h
  unfold continuousInteract at hi
  by_cases h1 : ((p.mass ==. lit 0) || !p.isAlive) = true
  · rw [if_pos h1] at hi
    cases hi; exact ⟨rfl, rfl⟩
  rw [if_neg h1] at hi
  dsimp only at hi
  by_cases h2 : (e.sampleFrac <. r.next.1) = true
  · rw [if_pos h2] at hi
    cases hi; exact ⟨rfl, rfl⟩
  · rw [if_neg h2, Res.bind_eq_ok] at hi
    obtain ⟨⟨logh, chi⟩, hlc, hi⟩ := hi
    have hlt : ((calculateEta e.field p <. lit 1e-12) || c) = true := by
      have : (calculateEta e.field p <. lit 1e-12) = true := by
        show ((calculateEta e.field p).1 <. (lit 1e-12 : F64).1) = true
        have hv : (lit 1e-12 : F64).1 = .fin (F64.round (1e-12 : ℚ)) := by
          show F64.rnd (.fin (((1e-12 : ℚ)) : ℝ)) = _
          rw [rnd_fin (by norm_num [abs_of_pos])]
        have hpos : 0 < F64.round (((1e-12 : ℚ)) : ℝ) := by
          have := le_round (show Form (1 / 2 ^ 60 : ℝ) from ⟨1, -60, by norm_num, by norm_num, by norm_num⟩)
            (show 1 / 2 ^ 60 ≤ (((1e-12 : ℚ)) : ℝ) by norm_num)
          linarith
        rw [he, hv]
        simpa using hpos
      rw [this, Bool.true_or]
    have hchi : Void chi := by
      unfold continuousLoghChi at hlc
      rw [if_pos hlt, Res.bind_eq_ok] at hlc
      obtain ⟨a0, -, hlc⟩ := hlc
      dsimp only at hlc
      rw [Res.bind_eq_ok] at hlc
      obtain ⟨cc, -, hlc⟩ := hlc
      have := (Prod.mk.inj (Res.ok.inj hlc)).2
      rw [← this]
      exact mul_void _ (zero_div_void _ he)
    have hE : lit 2 *. chi *. p.gamma /. calculateEta e.field p = F64.nan :=
      void_div_zero ((mul_void _ hchi).mul _) he
    rw [hE, if_neg] at hi
    · cases hi; exact ⟨rfl, rfl⟩
    · show ¬ (e.eMin.1 <. XR.nan) = true
      simp

/-- No process does anything to it. -/
theorem quiet_interact {q : Particle F64} (hq : Travelling q) {proc : Proc F64} (h : proc.NoField q)
    {l l' : PList F64} {r r' : MCTools.Rng F64} {p' : Particle F64}
    (hi : proc.interact q l r = .ok (p', l', r')) : p' = q ∧ l' = l := by
  cases proc with
  | stochastic e =>
    replace hi : stochasticInteract e q l r = _ := hi
    rw [quiet_stochastic hq h.1 h.2] at hi
    cases hi; exact ⟨rfl, rfl⟩
  | continuous e c => exact quiet_continuous hq h hi
  | breitWheeler b =>
    replace hi : bwInteract b q l r = _ := hi
    rw [lepton_bw hq.kind] at hi
    cases hi; exact ⟨rfl, rfl⟩

theorem set_same {l : PList F64} {k : Nat} {q : Particle F64} (h : l.items[k]? = some q) : l.set k q = l := by
  unfold PList.set
  obtain ⟨hlt, he⟩ := List.getElem?_eq_some_iff.mp h
  rw [← he, List.set_getElem_self]

theorem quiet_all {q : Particle F64} (hq : Travelling q) {procs : List (Proc F64)} (h : ∀ proc ∈ procs, proc.NoField q)
    {l l' : PList F64} {r r' : MCTools.Rng F64} {k : Nat} (hk : l.items[k]? = some q)
    (hi : interactAll procs k l r = .ok (l', r')) : l' = l := by
  induction procs generalizing r with
  | nil => cases hi; rfl
  | cons proc procs ih =>
    rw [interactAll, Res.bind_eq_ok] at hi
    obtain ⟨⟨l1, r1⟩, h1, h2⟩ := hi
    unfold interactAt at h1
    rw [Res.bind_eq_ok] at h1
    obtain ⟨q', hq', h1⟩ := h1
    have : q' = q := by
      unfold PList.get at hq'
      rw [hk] at hq'
      exact (Res.ok.inj hq').symm
    subst this
    rw [Res.bind_eq_ok] at h1
    obtain ⟨⟨p', l2, r2⟩, h3, h4⟩ := h1
    obtain ⟨rfl, rfl⟩ := quiet_interact hq (h proc (by simp)) h3
    have e1 : l1 = l2 := by
      have := (Prod.mk.inj (Res.ok.inj h4)).1
      rw [← this]
      exact set_same hk
    subst e1
    exact ih (fun proc hp => h proc (by simp [hp])) h2

/-- One time step of leptons without a field. -/
theorem quiet_loop {cfg : SimCfg F64} {fuel : Nat} {nm : String} {mx : Nat} :
    ∀ {before after : List (Particle F64)} {r r' : MCTools.Rng F64} {l' : PList F64}, after.length ≤ fuel →
      (∀ p ∈ after, Travelling (pushParticle cfg.push cfg.field cfg.dt p) ∧
        ∀ proc ∈ cfg.procs, proc.NoField (pushParticle cfg.push cfg.field cfg.dt p)) →
      particleLoop cfg fuel before.length ⟨nm, mx, before ++ after⟩ r = .ok (l', r') →
      l' = ⟨nm, mx, before ++ after.map (pushParticle cfg.push cfg.field cfg.dt)⟩ := by
  induction fuel with
  | zero =>
    intro before after r r' l' hlen _ h
    obtain rfl : after = [] := by simpa using hlen
    cases h
    rfl
  | succ fuel ih =>
    intro before after r r' l' hlen hq h
    rw [particleLoop] at h
    cases after with
    | nil =>
      rw [if_neg (by simp [PList.nPart])] at h
      cases h
      rfl
    | cons p after =>
      rw [if_pos (by simp [PList.nPart]), Res.bind_eq_ok] at h
      obtain ⟨⟨l1, r1⟩, h1, h2⟩ := h
      have hget : (⟨nm, mx, before ++ p :: after⟩ : PList F64).get before.length = .ok p := by
        unfold PList.get
        simp
      have hset : (⟨nm, mx, before ++ p :: after⟩ : PList F64).set before.length
          (pushParticle cfg.push cfg.field cfg.dt p) =
          ⟨nm, mx, (before ++ [pushParticle cfg.push cfg.field cfg.dt p]) ++ after⟩ := by
        unfold PList.set
        simp
      obtain ⟨hp, hn⟩ := hq p (by simp)
      unfold visit at h1
      rw [hget, Res.ok_bind, hset] at h1
      have e1 := quiet_all hp hn (by simp) h1
      subst e1
      have := ih (before := before ++ [pushParticle cfg.push cfg.field cfg.dt p]) (by simpa using hlen)
        (fun p hp => hq p (by simp [hp])) (by simpa using h2)
      rw [this]
      simp

/-- A whole run of leptons without a field. -/
theorem quiet_run {cfg : SimCfg F64} {nm : String} {mx : Nat} {s : EvState F64} {n : Nat} {o : Res (EvState F64)}
    (h : Run cfg s n o) : ∀ (ps : List (Particle F64)) (s' : EvState F64), s.list = ⟨nm, mx, ps⟩ → ps.length ≤ mx →
      (∀ p ∈ ps, ∀ k, 1 ≤ k → k ≤ n → Travelling ((pushParticle cfg.push cfg.field cfg.dt)^[k] p) ∧
        ∀ proc ∈ cfg.procs, proc.NoField ((pushParticle cfg.push cfg.field cfg.dt)^[k] p)) → o = .ok s' →
      s'.list = ⟨nm, mx, ps.map (pushParticle cfg.push cfg.field cfg.dt)^[n]⟩ := by
  induction h with
  | done _ =>
    intro ps s' hs _ _ ho
    cases ho
    rw [hs]
    simp
  | @step s s₁ n o _ h2 _ ih =>
    intro ps s' hs hlen hq ho
    obtain ⟨ha, -⟩ := timeStep_advance h2
    rw [hs] at ha
    unfold advance at ha
    have := quiet_loop (before := []) (after := ps) hlen (fun p hp => hq p hp 1 le_rfl (by omega)) ha
    rw [List.nil_append] at this
    have h3 := ih (ps.map (pushParticle cfg.push cfg.field cfg.dt)) s' this (by simpa using hlen) (by
      intro p hp k h1 hk
      obtain ⟨p0, hp0, rfl⟩ := List.mem_map.mp hp
      rw [← Function.iterate_succ_apply]
      exact hq p0 hp0 (k + 1) (by omega) (by omega)) ho
    rw [h3, List.map_map]
    congr 1
  | abort _ _ h3 =>
    intro ps s' _ _ _ ho
    exact absurd ho (h3 s')

/-- With quantum sampling nothing is drawn and nothing fails. -/
theorem quiet_sampled {q : Particle F64} (hq : Travelling q) {procs : List (Proc F64)} (h : ∀ proc ∈ procs, proc.NoField q)
    (hs : ∀ proc ∈ procs, proc.Sampled) {l : PList F64} (r : MCTools.Rng F64) {k : Nat} (hk : l.items[k]? = some q) :
    interactAll procs k l r = .ok (l, r) := by
  induction procs with
  | nil => rfl
  | cons proc procs ih =>
    have h1 : proc.interact q l r = .ok (q, l, r) := by
      cases proc with
      | stochastic e =>
        have he : Proc.NoField q (.stochastic e) := h (.stochastic e) List.mem_cons_self
        exact quiet_stochastic hq he.1 he.2 l r
      | continuous e c =>
        have he : (Proc.continuous e c).Sampled := hs (.continuous e c) List.mem_cons_self
        exact False.elim he
      | breitWheeler b => exact lepton_bw hq.kind b l r
    have h2 : interactAt proc k l r = .ok (l, r) := by
      unfold interactAt
      have : l.get k = .ok q := by
        unfold PList.get
        rw [hk]
      rw [this, Res.ok_bind, h1, Res.ok_bind]
      show Res.ok (l.set k q, r) = _
      rw [set_same hk]
    rw [interactAll, h2, Res.ok_bind]
    exact ih (fun proc hp => h proc (by simp [hp])) (fun proc hp => hs proc (by simp [hp]))

theorem quiet_loop_sampled {cfg : SimCfg F64} (hs : ∀ proc ∈ cfg.procs, proc.Sampled) {fuel : Nat} {nm : String}
    {mx : Nat} (r : MCTools.Rng F64) :
    ∀ {before after : List (Particle F64)}, after.length ≤ fuel →
      (∀ p ∈ after, Travelling (pushParticle cfg.push cfg.field cfg.dt p) ∧
        ∀ proc ∈ cfg.procs, proc.NoField (pushParticle cfg.push cfg.field cfg.dt p)) →
      particleLoop cfg fuel before.length ⟨nm, mx, before ++ after⟩ r =
        .ok (⟨nm, mx, before ++ after.map (pushParticle cfg.push cfg.field cfg.dt)⟩, r) := by
  induction fuel with
  | zero =>
    intro before after hlen _
    obtain rfl : after = [] := by simpa using hlen
    rfl
  | succ fuel ih =>
    intro before after hlen hq
    rw [particleLoop]
    cases after with
    | nil =>
      rw [if_neg (by simp [PList.nPart])]
      rfl
    | cons p after =>
      have hget : (⟨nm, mx, before ++ p :: after⟩ : PList F64).get before.length = .ok p := by
        unfold PList.get
        simp
      have hset : (⟨nm, mx, before ++ p :: after⟩ : PList F64).set before.length
          (pushParticle cfg.push cfg.field cfg.dt p) =
          ⟨nm, mx, (before ++ [pushParticle cfg.push cfg.field cfg.dt p]) ++ after⟩ := by
        unfold PList.set
        simp
      obtain ⟨hp, hn⟩ := hq p (by simp)
      have hv : visit cfg before.length ⟨nm, mx, before ++ p :: after⟩ r =
          .ok (⟨nm, mx, (before ++ [pushParticle cfg.push cfg.field cfg.dt p]) ++ after⟩, r) := by
        unfold visit
        rw [hget, Res.ok_bind, hset]
        exact quiet_sampled hp hn hs r (by simp)
      rw [if_pos (by simp [PList.nPart]), hv, Res.ok_bind]
      have := ih (before := before ++ [pushParticle cfg.push cfg.field cfg.dt p]) (after := after) (by simpa using hlen)
        (fun p hp => hq p (by simp [hp]))
      rw [List.length_append] at this
      simpa using this

theorem quiet_run_sampled {cfg : SimCfg F64} (hs : ∀ proc ∈ cfg.procs, proc.Sampled) {nm : String} {mx : Nat}
    {s : EvState F64} {n : Nat} {o : Res (EvState F64)}
    (h : Run cfg s n o) : ∀ (ps : List (Particle F64)) (s' : EvState F64), s.list = ⟨nm, mx, ps⟩ → ps.length ≤ mx →
      (∀ p ∈ ps, ∀ k, 1 ≤ k → k ≤ n → Travelling ((pushParticle cfg.push cfg.field cfg.dt)^[k] p) ∧
        ∀ proc ∈ cfg.procs, proc.NoField ((pushParticle cfg.push cfg.field cfg.dt)^[k] p)) → o = .ok s' →
      s'.rng = s.rng := by
  induction h with
  | done _ =>
    intro ps s' _ _ _ ho
    cases ho
    rfl
  | @step s s₁ n o _ h2 _ ih =>
    intro ps s' hl hlen hq ho
    obtain ⟨ha, -⟩ := timeStep_advance h2
    rw [hl] at ha
    unfold advance at ha
    have := quiet_loop_sampled hs (nm := nm) (mx := mx) s.rng (before := []) (after := ps) hlen
      (fun p hp => hq p hp 1 le_rfl (by omega))
    rw [List.nil_append] at this
    rw [show (([] : List (Particle F64)).length) = 0 from rfl] at this
    rw [this] at ha
    obtain ⟨e1, e2⟩ := Prod.mk.inj (Res.ok.inj ha)
    rw [e2]
    exact ih (ps.map (pushParticle cfg.push cfg.field cfg.dt)) s' e1.symm (by simpa using hlen) (by
      intro p hp k h1 hk
      obtain ⟨p0, hp0, rfl⟩ := List.mem_map.mp hp
      rw [← Function.iterate_succ_apply]
      exact hq p0 hp0 (k + 1) (by omega) (by omega)) ho
  | abort _ _ h3 =>
    intro ps s' _ _ _ ho
    exact absurd ho (h3 s')

end Rest

end QED
