import Verif.Lemmas.Moving

set_option autoImplicit false
set_option exponentiation.threshold 2000

/-!
# C151: leptons at rest

In double precision. The direction of a momentum is the momentum over its length, so for a lepton at rest it is not a
number, and neither is the quantum parameter computed from it.
-/

namespace QED

open Dbl F64 Rest

/-- C151, the part that holds: for a lepton that moves, with a momentum between 2⁻⁴⁰⁰ and 2²⁰⁰ and in fields up to
2²⁰⁰ in the code's units, the quantum parameter is a number, for the pushers and for emission, and the optical depth
stays one. Missing: slower leptons, see the refutations. -/
theorem C151_moving_partial {e : EmissionCfg F64} {p : Particle F64} (hk : p.kind ≠ .photon) (hm : p.mass = lit 1)
    {a : Fin 3 → ℝ} (ha : p.momentum.At a) (lo : (1 / 2) ^ 400 ≤ len a) (hi : len a ≤ 2 ^ 200)
    {E B : Fin 3 → ℝ} (hE : (e.field p.time p.position).1.At E) (hB : (e.field p.time p.position).2.At B)
    (bE : ∀ i, |E i| ≤ 2 ^ 200) (bB : ∀ i, |B i| ≤ 2 ^ 200) :
    (∃ η, 0 ≤ η ∧ (calculateEta e.field p).1 = .fin η ∧
      (pushEta p.mass p.momentum (e.field p.time p.position).1 (e.field p.time p.position).2).1 = .fin η) ∧
    ∀ (τ d L : ℝ) (logh : F64), e.dt.1 = .fin τ → 0 ≤ τ → τ ≤ 2 ^ 50 → p.opticalDepth.1 = .fin d → |d| ≤ 2 ^ 900 →
      emissionLogh e (calculateEta e.field p) = .ok logh → logh.1 = .fin L → |L| ≤ 30 →
      ∃ d', (p.updateOpticalDepth (emissionDelta e.dt (calculateEta e.field p) logh p.gamma)).opticalDepth.1 =
        .fin d' := by
  have hi' : len a ≤ 2 ^ 500 := hi.trans (pow_le_pow_right₀ (by norm_num) (by norm_num))
  obtain ⟨dx, dy, dz⟩ := dir_fits ha lo hi'
  have c : ∀ i, |a i| ≤ 2 ^ 200 := fun i => (Flight.comp_le a i).trans hi
  have hm2 : FitsPos p.momentum.mag2 402 :=
    mag2_pos (k := 200) ⟨_, ha.1, c 0⟩ ⟨_, ha.2.1, c 1⟩ ⟨_, ha.2.2, c 2⟩ (by norm_num)
  have hg0 : AtLeastOne (Dbl.sqrt (lit 1 +. p.momentum.mag2 /. (lit 1 *. lit 1))) 403 := gamma_fits hm2 (by norm_num)
  have eg : p.gamma = Dbl.sqrt (lit 1 +. p.momentum.mag2 /. (lit 1 *. lit 1)) := by
    unfold Particle.gamma
    split
    · exact absurd ‹_› hk
    · rw [hm]
  have eb : p.beta = Dbl.sqrt (lit 1 -. lit 1 /. (p.gamma *. p.gamma)) := by
    unfold Particle.beta
    split
    · exact absurd ‹_› hk
    · rfl
  have hg : AtLeastOne p.gamma 403 := eg ▸ hg0
  have hb : FitsPos p.beta 0 := eb ▸ beta_fits hg (by norm_num)
  have heta : FitsPos (calculateEta e.field p) 820 :=
    eta_fits dx dy dz ⟨_, hE.1, bE 0⟩ ⟨_, hE.2.1, bE 1⟩ ⟨_, hE.2.2, bE 2⟩ ⟨_, hB.1, bB 0⟩ ⟨_, hB.2.1, bB 1⟩
      ⟨_, hB.2.2, bB 2⟩ hb hg
  have hsame : pushEta p.mass p.momentum (e.field p.time p.position).1 (e.field p.time p.position).2 =
      calculateEta e.field p := by
    unfold pushEta calculateEta
    dsimp only
    rw [eb, eg, hm]
    rfl
  obtain ⟨η, h1, h2, h2'⟩ := id heta
  refine ⟨⟨η, h2, h1, hsame ▸ h1⟩, ?_⟩
  intro τ d L logh ht t0 t1 hd hd1 _ hL hL1
  have litfits : ∀ (q : ℚ) (k : ℕ), |(q : ℝ)| ≤ 2 ^ k → k ≤ 1000 → Fits (lit q) k := by
    intro q k h hk
    refine ⟨_, ?_, round_bound h⟩
    show F64.rnd (.fin (q : ℝ)) = _
    rw [rnd_fin (below h (by omega))]
  have litone : ∀ (q : ℚ) (k : ℕ), 1 ≤ (q : ℝ) → |(q : ℝ)| ≤ 2 ^ k → k ≤ 1000 → AtLeastOne (lit q) k := by
    intro q k h1 h hk
    refine ⟨_, ?_, le_round form_one h1, (le_abs_self _).trans (round_bound h)⟩
    show F64.rnd (.fin (q : ℝ)) = _
    rw [rnd_fin (below h (by omega))]
  have f1 : Fits e.dt 50 := ⟨τ, ht, by rwa [abs_of_nonneg t0]⟩
  have f2 : Fits (Dbl.sqrt (lit 3 : F64)) 2 := by
    refine (FitsPos.sqrt (k := 2) ?_ (by norm_num)).fits
    obtain ⟨x, a1, a2, a3⟩ := litone 3 2 (by norm_num) (by norm_num) (by norm_num)
    exact ⟨x, a1, by linarith, a3⟩
  have f3 : Fits (Units.alpha : F64) 0 := litfits 0.0072973525664 0 (by norm_num [abs_of_pos]) (by norm_num)
  have f5 : Fits (Dbl.pow (lit 10 : F64) logh) 100 := by
    obtain ⟨x, a1, -, -⟩ := litone 10 4 (by norm_num) (by norm_num) (by norm_num)
    have hx : x = 10 := by
      have h10 : (lit 10 : F64).1 = .fin ((10 : ℚ) : ℝ) := lit_val (by exact_mod_cast rep_small (n := 10) (by norm_num))
      rw [h10] at a1
      rw [← XR.fin.inj a1]; norm_num
    have hp : |(10 : ℝ) ^ L| ≤ 2 ^ 100 := by
      rw [abs_of_pos (by positivity)]
      calc (10 : ℝ) ^ L ≤ 10 ^ (30 : ℝ) := Real.rpow_le_rpow_of_exponent_le (by norm_num) (abs_le.mp hL1).2
        _ = 10 ^ 30 := by rw [show (30 : ℝ) = ((30 : ℕ) : ℝ) by norm_num, Real.rpow_natCast]
        _ ≤ 2 ^ 100 := by norm_num
    refine ⟨_, ?_, round_bound hp⟩
    show F64.rnd (XR.pow (lit 10 : F64).1 logh.1) = _
    rw [a1, hx, hL]
    simp only [XR.pow]
    rw [if_pos (by norm_num), rnd_fin (below hp (by norm_num))]
  have f6 : AtLeastOne (p.gamma *. lit 2 *. Units.pi : F64) (403 + 1 + 2) :=
    (hg.mul (litone 2 1 (by norm_num) (by norm_num) (by norm_num)) (by norm_num)).mul
      (litone 3.14159265359 2 (by norm_num) (by norm_num [abs_of_pos]) (by norm_num)) (by norm_num)
  have f7 := ((((f1.mul f2 (by norm_num)).mul f3 (by norm_num)).mul heta.fits (by norm_num)).mul f5 (by norm_num)).div f6
    (by norm_num)
  have f8 : Fits p.opticalDepth 972 := Fits.mono (j := 900) ⟨d, hd, hd1⟩ (by norm_num)
  obtain ⟨y, h3, -⟩ := f8.sub f7 (by norm_num)
  exact ⟨y, h3⟩

/-- C151 is false with radiation reaction: whatever the field and the time step, even without any field, the first push
of a lepton at rest loses it. Its position, momentum and energy are no numbers from then on. -/
theorem C151_reaction_refuted {push : PushMom F64} (hp : push ∈ [landauForce, modLandauForce]) (field : Field F64)
    (dt : F64) {p : Particle F64} (h : Resting p) (n : Nat) : ((pushParticle push field dt)^[n + 1] p).Lost := by
  obtain ⟨ha, hk, hm, ht⟩ := h
  have hp' : push = landauForce ∨ push = modLandauForce := by simpa using hp
  have one : ∀ {q : Particle F64}, q.isAlive = true → q.kind ≠ .photon → q.mass = lit 1 → Spoiled q.momentum →
      (pushParticle push field dt q).Lost := by
    intro q ha hk hm hs
    obtain ⟨l1, l2⟩ := rk4_lost hp' hs field dt q.charge q.time q.position
    have hne : ¬ (q.mass ==. lit 0) = true := by
      rw [hm]
      show ¬ ((lit 1 : F64).1 ==. (lit 0 : F64).1) = true
      rw [one_val, zero_val]
      simp
    have e1 : (pushParticle push field dt q).position = (rk4 push field dt (lit 1) q.charge q.time q.position q.momentum).1 ∧
        (pushParticle push field dt q).momentum = (rk4 push field dt (lit 1) q.charge q.time q.position q.momentum).2 := by
      unfold pushParticle
      rw [if_neg (by simp [ha]), if_neg hne, hm]
      unfold Particle.updateTrack Particle.updateTime
      dsimp only
      split_ifs <;> exact ⟨rfl, rfl⟩
    refine ⟨e1.1 ▸ l1, e1.2 ▸ l2, energy_lost ?_ (e1.2 ▸ l2)⟩
    rw [(push_identity push field dt q).1]
    exact hk
  have all : ((pushParticle push field dt)^[n + 1] p).isAlive = true ∧ ((pushParticle push field dt)^[n + 1] p).kind ≠ .photon ∧
      ((pushParticle push field dt)^[n + 1] p).mass = lit 1 ∧ ((pushParticle push field dt)^[n + 1] p).Lost := by
    induction n with
    | zero =>
      obtain ⟨i1, i2, -, -, -, i6, -⟩ := push_identity push field dt p
      exact ⟨i6.trans ha, i1 ▸ hk, i2.trans hm, one ha hk hm (.inl ht)⟩
    | succ n ih =>
      rw [Function.iterate_succ_apply']
      obtain ⟨i1, i2, -, -, -, i6, -⟩ := push_identity push field dt ((pushParticle push field dt)^[n + 1] p)
      exact ⟨i6.trans ih.1, i1 ▸ ih.2.1, i2.trans ih.2.2.1, one ih.1 ih.2.1 ih.2.2.1 (.inr ih.2.2.2.2.1)⟩
  exact all.2.2.2

/-- C151 is false of quantum emission: a lepton that still rests after the first time step never emits anything in the
whole event, however strong the fields are that it meets later and whatever the random numbers. It is pushed
`n` times, nothing else happens, and no random number is drawn. -/
theorem C151_silent_refuted {cfg : SimCfg F64} {e : EmissionCfg F64} {b : BWCfg F64}
    (hp : cfg.procs = [.stochastic e, .breitWheeler b]) (hn : e.hAxis.length = e.hData.length)
    (h2 : 2 ≤ e.hAxis.length) (hl : e.hAxis.length < 2 ^ 32) {p : Particle F64}
    (h : Resting (pushParticle cfg.push cfg.field cfg.dt p)) (nm : String) {mx : Nat} (hmx : 0 < mx)
    (r : MCTools.Rng F64) (hists : List (Hist F64)) (n : Nat) (l' : PList F64) (r' : MCTools.Rng F64)
    (hists' : List (Hist F64)) (he : Event cfg ⟨nm, mx, [p]⟩ r hists n l' r' hists') :
    r' = r ∧ ∃ d, l'.items = [{ (pushParticle cfg.push cfg.field cfg.dt)^[n] p with opticalDepth := d }] := by
  obtain ⟨hrun, -⟩ := he
  obtain ⟨h1, d, h3⟩ := run_muted hp ⟨hn, h2, hl⟩ hmx hrun p _ rfl ⟨h.1, h.2.1, h.2.2.1, .inl h.2.2.2⟩ rfl
  exact ⟨h1, d, by rw [h3]⟩

/-! ## An electron that waits for a field -/

namespace RestWitness

/-- The zero vector. -/
noncomputable def z : V3 F64 := ⟨lit 0, lit 0, lit 0⟩

/-- No field up to time 1, then a strong one. -/
noncomputable def field : Field F64 := fun t _ =>
  if t <=. lit 1 then (z, z) else (⟨lit 1048576, lit 0, lit 0⟩, z)

/-- An electron at rest. -/
noncomputable def electron : Particle F64 := .newLepton (lit 1) (lit (-1)) z z (lit 1) (lit 0) false (lit (1 / 2))

/-- Tables of constant rate. -/
noncomputable def emission : EmissionCfg F64 :=
  { field := field, dt := lit 1, track := false, sampleFrac := lit 1, eMin := lit 0
    hAxis := [lit 0, lit 1], hData := [lit 0, lit 0], etaAxis := [], chiAxis := [], phEnTable := [] }

/-- Pair production, with tables that are never looked at. -/
noncomputable def pairs : BWCfg F64 :=
  { field := field, dt := lit 1, track := false, tAxis := [], tData := [], chiAxis := [], fractAxis := [], fractTable := [] }

/-- Two steps of length 1. -/
noncomputable def cfg : SimCfg F64 := ⟨lorentzForce, field, lit 1, lit 2, [.stochastic emission, .breitWheeler pairs]⟩

theorem z_at : z.At (fun _ => 0) := ⟨zero_val, zero_val, zero_val⟩

theorem kind_ne : electron.kind ≠ .photon := by
  show Particle.leptonKind (lit (-1) : F64) ≠ _
  unfold Particle.leptonKind
  split <;> simp

theorem resting : Resting electron :=
  ⟨rfl, kind_ne, rfl, _, z_at, fun _ => by rw [abs_zero]; positivity⟩

theorem zz : (lit 0 +. lit 0 : F64) = lit 0 := Flight.eq_of_val (add_zero_at zero_val zero_val) zero_val

theorem zm {a : F64} {x : ℝ} (h : a.1 = .fin x) : (lit 0 *. a) = lit 0 := Flight.eq_of_val (zero_mul_at zero_val h) zero_val

theorem mz {a : F64} {x : ℝ} (h : a.1 = .fin x) : (a *. lit 0) = lit 0 := Flight.eq_of_val (mul_zero_at h zero_val) zero_val

theorem dz {a : F64} {x : ℝ} (h : a.1 = .fin x) (hx : x ≠ 0) : (lit 0 /. a) = lit 0 :=
  Flight.eq_of_val (zero_div_at zero_val h hx) zero_val

theorem gamma_z : (lit 1 *. pushGamma (lit 1) z : F64).1 = .fin 1 :=
  one_mul_at one_val (gamma_one (tiny_mag2 ⟨_, z_at, fun _ => by rw [abs_zero]; positivity⟩))

theorem velocity_z : pushPosition (lit 1) z = z := by
  show V3.mk _ _ _ = V3.mk _ _ _
  rw [V3.mk.injEq]
  exact ⟨dz gamma_z one_ne_zero, dz gamma_z one_ne_zero, dz gamma_z one_ne_zero⟩

theorem force_z : lorentzForce (lit 1) (lit (-1)) z z z = z :=
  Flight.no_force z_at Flight.minus_val gamma_z one_pos

theorem add_z : z.add z = z := by
  show V3.mk _ _ _ = V3.mk _ _ _
  rw [V3.mk.injEq]
  exact ⟨zz, zz, zz⟩

theorem smul_z {a : F64} {x : ℝ} (h : a.1 = .fin x) : z.smul a = z := by
  show V3.mk _ _ _ = V3.mk _ _ _
  rw [V3.mk.injEq]
  exact ⟨mz h, mz h, mz h⟩

theorem muls_z {a : F64} {x : ℝ} (h : a.1 = .fin x) : z.muls a = z := by
  show V3.mk _ _ _ = V3.mk _ _ _
  rw [V3.mk.injEq]
  exact ⟨zm h, zm h, zm h⟩

theorem divs_z {a : F64} {x : ℝ} (h : a.1 = .fin x) (hx : x ≠ 0) : z.divs a = z := by
  show V3.mk _ _ _ = V3.mk _ _ _
  rw [V3.mk.injEq]
  exact ⟨dz h hx, dz h hx, dz h hx⟩

theorem half_val : ∃ h, (lit 1 /. lit 2 : F64).1 = .fin h ∧ h ≤ 1 := by
  refine ⟨_, div_at one_val two_val two_ne_zero (below (k := 0) (by norm_num [abs_of_pos]) (by norm_num)) rfl, ?_⟩
  exact round_le form_one (by norm_num)

theorem off {t : F64} {x : ℝ} (h : t.1 = .fin x) (hx : x ≤ 1) (y : V3 F64) : field t y = (z, z) := by
  unfold field
  rw [if_pos]
  show (t.1 <=. (lit 1 : F64).1) = true
  rw [h, one_val]
  simpa using hx

theorem rk4_z : rk4 lorentzForce field (lit 1) (lit 1) (lit (-1)) (lit 0) z z = (z, z) := by
  obtain ⟨h, h1, h2⟩ := half_val
  unfold rk4
  have f1 : ∀ y, field (lit 0) y = (z, z) := off zero_val zero_le_one
  have f2 : ∀ y, field (lit 0 +. lit 1 /. lit 2) y = (z, z) := off (zero_add_at zero_val h1) h2
  have f3 : ∀ y, field (lit 0 +. lit 1) y = (z, z) := off (zero_add_at zero_val one_val) le_rfl
  obtain ⟨s, hs⟩ : ∃ s, (lit 1 /. lit 6 : F64).1 = .fin s :=
    ⟨_, div_at one_val six_val (by norm_num) (below (k := 0) (by norm_num [abs_of_pos]) (by norm_num)) rfl⟩
  simp only [f1, f2, f3, velocity_z, force_z, muls_z one_val, divs_z two_val two_ne_zero, add_z, smul_z two_val, smul_z hs]

theorem push_z : pushParticle lorentzForce field (lit 1) electron = electron.updateTime (lit 1) := by
  unfold pushParticle
  rw [if_neg (by simp [electron, Particle.newLepton, Particle.new]), if_neg]
  · show (electron.updateTrack (rk4 lorentzForce field (lit 1) (lit 1) (lit (-1)) (lit 0) z z).1
      (rk4 lorentzForce field (lit 1) (lit 1) (lit (-1)) (lit 0) z z).2).updateTime _ = _
    rw [rk4_z]
    rfl
  · show ¬ ((lit 1 : F64).1 ==. (lit 0 : F64).1) = true
    rw [one_val, zero_val]
    simp

/-- The electron still rests after the first step. -/
theorem still : Resting (pushParticle cfg.push cfg.field cfg.dt electron) := by
  show Resting (pushParticle lorentzForce field (lit 1) electron)
  rw [push_z]
  exact resting

theorem two_sum : (lit 1 +. lit 1 : F64).1 = .fin 2 := by
  refine add_at one_val one_val (below (k := 1) (by norm_num [abs_of_pos]) (by norm_num)) ?_
  rw [show (1 : ℝ) + 1 = 2 ^ 1 by norm_num, round_form_eq (form_two 1)]
  norm_num

end RestWitness

open RestWitness in
/-- The hypotheses of `C151_silent_refuted`: there is an event of two time steps. In the second the field is strong. -/
example : Resting (pushParticle cfg.push cfg.field cfg.dt electron) ∧
    (cfg.field (lit 2) z).1.At ![1048576, 0, 0] ∧
    ∀ r : MCTools.Rng F64, ∃ l', Event cfg ⟨"e", 10, [electron]⟩ r [] 2 l' r [] := by
  refine ⟨still, ?_, fun r => ?_⟩
  · have : cfg.field (lit 2) z = (⟨lit 1048576, lit 0, lit 0⟩, z) := by
      show field (lit 2) z = _
      unfold field
      rw [if_neg]
      show ¬ ((lit 2 : F64).1 <=. (lit 1 : F64).1) = true
      rw [two_val, one_val]
      simp
    rw [this]
    refine ⟨?_, zero_val, zero_val⟩
    have := lit_val (q := 1048576) (by exact_mod_cast rep_small (n := 1048576) (by norm_num))
    rw [this]
    norm_num
  · have ht : Tables emission := ⟨rfl, le_rfl, by norm_num [emission]⟩
    have m1 : Muted (pushParticle cfg.push cfg.field cfg.dt electron) :=
      ⟨still.1, still.2.1, still.2.2.1, .inl still.2.2.2⟩
    have s1 := timeStep_muted (cfg := cfg) (e := emission) (b := pairs) rfl ht m1 "e" (mx := 10) (by norm_num) r (lit 0)
    have m2 := muted_push (p := { pushParticle cfg.push cfg.field cfg.dt electron with opticalDepth := F64.nan })
      m1.1 m1.2.1 m1.2.2.1 rfl cfg.push cfg.field cfg.dt
    have s2 := timeStep_muted (cfg := cfg) (e := emission) (b := pairs) rfl ht m2 "e" (mx := 10) (by norm_num) r
      (lit 0 +. cfg.dt)
    have t1 : (lit 0 +. cfg.dt : F64).1 = .fin 1 := zero_add_at zero_val one_val
    have e1 : (lit 0 +. cfg.dt : F64) = lit 1 := Flight.eq_of_val t1 one_val
    have lt1 : ((lit 0 : F64) <. cfg.timeEnd) = true := by
      show ((lit 0 : F64).1 <. (lit 2 : F64).1) = true
      rw [zero_val, two_val]; simp
    have lt2 : ((lit 0 +. cfg.dt : F64) <. cfg.timeEnd) = true := by
      show ((lit 0 +. cfg.dt : F64).1 <. (lit 2 : F64).1) = true
      rw [t1, two_val]; simp
    have lt3 : ((lit 0 +. cfg.dt +. cfg.dt : F64) <. cfg.timeEnd) = false := by
      rw [e1]
      show ((lit 1 +. lit 1 : F64).1 <. (lit 2 : F64).1) = false
      rw [two_sum, two_val]; simp
    exact ⟨_, .mk (.step lt1 s1 (.step lt2 s2 (.done lt3))) rfl⟩

open RestWitness in
/-- An electron at rest, as in `C151_reaction_refuted`. -/
example : Resting electron := resting

open RestWitness in
/-- The hypotheses of `C151_moving_partial`, for an electron that moves along x in the strong field. -/
example : let p : Particle F64 := .newLepton (lit 1) (lit (-1)) z ⟨lit 1, lit 0, lit 0⟩ (lit 1) (lit 2) false (lit (1 / 2))
    p.kind ≠ .photon ∧ p.mass = lit 1 ∧ (∃ a : Fin 3 → ℝ, p.momentum.At a ∧ (1 / 2) ^ 400 ≤ len a ∧ len a ≤ 2 ^ 200) ∧
    ∃ E B : Fin 3 → ℝ, (emission.field p.time p.position).1.At E ∧ (emission.field p.time p.position).2.At B ∧
      (∀ i, |E i| ≤ 2 ^ 200) ∧ ∀ i, |B i| ≤ 2 ^ 200 := by
  have hl : len ![(1 : ℝ), 0, 0] = 1 := by simp [len]
  have hf : emission.field (lit 2) z = (⟨lit 1048576, lit 0, lit 0⟩, z) := by
    show field (lit 2) z = _
    unfold field
    rw [if_neg]
    show ¬ ((lit 2 : F64).1 <=. (lit 1 : F64).1) = true
    rw [two_val, one_val]
    simp
  refine ⟨kind_ne, rfl, ⟨![1, 0, 0], ⟨one_val, zero_val, zero_val⟩, ?_, ?_⟩, ![1048576, 0, 0], fun _ => 0, ?_, ?_, ?_, ?_⟩
  · rw [hl]; norm_num
  · rw [hl]; norm_num
  · show (emission.field (lit 2) z).1.At _
    rw [hf]
    refine ⟨?_, zero_val, zero_val⟩
    rw [show (lit 1048576 : F64).1 = .fin ((1048576 : ℚ) : ℝ) from
      lit_val (by exact_mod_cast rep_small (n := 1048576) (by norm_num))]
    norm_num
  · show (emission.field (lit 2) z).2.At _
    rw [hf]
    exact z_at
  · intro i
    fin_cases i <;> norm_num
  · intro i
    norm_num

end QED
