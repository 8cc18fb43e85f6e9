import Verif.Lemmas.Example
import Verif.Props.Program
import Verif.Props.Shipped
import Verif.Props.Fields
import Verif.Props.Units
import Verif.Props.RunSetup
import Verif.Lemmas.Draws

set_option autoImplicit false

/-!
# Property C122: the shipped example

`exampleLines` are the lines of `example/example.ini`, `exampleInput` what they ask for.
-/

namespace QED

open Ini FileParser Main MCTools OutMgr Matrix _root_.QED.Units

/-- C122, the input: the example is read with the values written in it. -/
theorem C122_read : parse (Reader.ofFile (fileOf exampleLines)) = .ok exampleInput :=
  Example.parsed_input

/-- The laser pulse of the example. -/
noncomputable def examplePulse : GaussField ℝ :=
  let u : UnitsSystem ℝ := unitsSI
  .new (2e14 / u.refEField) (8e-7 / u.refLength) (1e-14 / u.refTime) (5e-6 / u.refLength) 0
    ⟨0, 0, 1e-5 / u.refLength⟩ ⟨0, 0, 0⟩

theorem example_setup (t : Tables ℝ) : setup t exampleInput = .ok
    { push := landauForce
      field := examplePulse.getField
      dt := 1e-17 / (unitsSI : UnitsSystem ℝ).refTime
      timeEnd := 1e-13 / (unitsSI : UnitsSystem ℝ).refTime
      procs := [.continuous (emissionCfg t examplePulse.getField
        (1e-17 / (unitsSI : UnitsSystem ℝ).refTime) 0.1 0 false) true] } := by
  have h1 : ∀ e : EmissionCfg ℝ, makeEmission e "Classical" = .ok (landauForce, .continuous e true) :=
    fun e => if_pos (Or.inl rfl)
  have h2 : makePhysics t exampleInput.general exampleInput.physics examplePulse.getField = .ok
      (landauForce, [.continuous (emissionCfg t examplePulse.getField
        (1e-17 / (unitsSI : UnitsSystem ℝ).refTime) 0.1 0 false) true]) := by
    unfold makePhysics
    show (makeEmission _ "Classical" >>= _) = _
    rw [h1, Res.ok_bind]
    exact if_neg (show ¬ false = true by decide)
  unfold setup
  show (Res.ok examplePulse.getField >>= _) = _
  rw [Res.ok_bind, h2, Res.ok_bind]
  rfl

theorem example_start (t : Tables ℝ) (files : List Char → Option (List Char)) (path : List Char)
    (hp : ∃ stem, path = stem ++ ".ini".toList) (hf : files path = some (fileOf exampleLines))
    (cfg : SimCfg ℝ) (hc : setup t exampleInput = .ok cfg) :
    start t files [path] = .ok (exampleInput, cfg) := by
  unfold start
  rw [(C69_runs_iff [path] path).mpr ⟨rfl, hp⟩, Res.ok_bind, hf]
  show (Res.ok (Reader.ofFile (fileOf exampleLines)) >>= _) = _
  rw [Res.ok_bind, C122_read, Res.ok_bind, hc, Res.ok_bind]

/-- C122, the set-up: given to the program under any name that ends in `.ini`, the example is accepted. It
is simulated with radiation reaction as in classical physics, with photons but without pairs, with the
pulse, time step and end time asked for. -/
theorem C122_setup (t : Tables ℝ) (files : List Char → Option (List Char)) (path : List Char)
    (hp : ∃ stem, path = stem ++ ".ini".toList) (hf : files path = some (fileOf exampleLines)) :
    ∃ cfg e, start t files [path] = .ok (exampleInput, cfg) ∧
      cfg.push = landauForce ∧ cfg.field = examplePulse.getField ∧
      cfg.dt = 1e-17 / (unitsSI : UnitsSystem ℝ).refTime ∧
      cfg.timeEnd = 1e-13 / (unitsSI : UnitsSystem ℝ).refTime ∧
      cfg.procs = [.continuous e true] ∧ e.field = cfg.field ∧ e.dt = cfg.dt ∧
      e.sampleFrac = 0.1 ∧ e.eMin = 0 :=
  ⟨_, _, example_start t files path hp hf _ (example_setup t), rfl, rfl, rfl, rfl, rfl, rfl, rfl, rfl,
    rfl⟩

theorem steps_det {cfg : SimCfg ℝ} {s t t' : EvState ℝ} {n : Nat} (h : Steps cfg s n t)
    (h' : Steps cfg s n t') : t = t' := by
  induction h generalizing t' with
  | zero => cases h'; rfl
  | succ _ _ h3 ih =>
    cases h' with
    | succ a _ c =>
      rw [ih a] at h3
      exact Res.ok.inj (h3.symm.trans c)

/-- C122, the steps: an event of the example that ends takes exactly ten thousand time steps. -/
theorem C122_steps (t : Tables ℝ) (cfg : SimCfg ℝ) (hc : setup t exampleInput = .ok cfg) (l : PList ℝ)
    (r : Rng ℝ) (hists : List (Hist ℝ)) (n : Nat) (s : EvState ℝ)
    (h : Run cfg (.init l r hists) n (.ok s)) : n = 10000 := by
  have ht := si_pos.1
  rw [example_setup] at hc
  obtain rfl := Res.ok.inj hc
  have := (C40_steps _ (by dsimp only; positivity) l r hists n s h).1
  rw [this]
  dsimp only
  rw [div_div_div_cancel_right₀ ht.ne']
  norm_num

/-- C122, the histograms: in an event of the example that ends, the histogram `start` is filled from the
primary and the histogram `end` from the particles after the last step. -/
theorem C122_histograms (t : Tables ℝ) (cfg : SimCfg ℝ) (hc : setup t exampleInput = .ok cfg)
    (garbage : Nat → Nat) (l l' : PList ℝ) (r r' : Rng ℝ) (hists' : List (Hist ℝ)) (n : Nat)
    (h : Event cfg l r (makeHists garbage 0 exampleInput.histograms) n l' r' hists') :
    ∃ first last first' last', makeHists garbage 0 exampleInput.histograms = [first, last] ∧
      first.name = "start" ∧ last.name = "end" ∧ hists' = [first', last'] ∧
      fillHist first l.items = .ok first' ∧ fillHist last l'.items = .ok last' := by
  have ht := si_pos.1
  have hdt : cfg.dt = 1e-17 / (unitsSI : UnitsSystem ℝ).refTime := by
    rw [example_setup] at hc; rw [← Res.ok.inj hc]
  have hpos : 0 < cfg.dt := by rw [hdt]; positivity
  have hend : (1e-13 / (unitsSI : UnitsSystem ℝ).refTime : ℝ) = 10000 * cfg.dt := by
    rw [hdt]; ring
  obtain ⟨s, hrun, hl'⟩ : ∃ s, Run cfg (.init l r (makeHists garbage 0 exampleInput.histograms)) n
      (.ok s) ∧ s.list = l' := by
    cases h with
    | @mk s _ hrun _ => exact ⟨s, hrun, rfl⟩
  have hn := C122_steps t cfg hc _ _ _ _ _ hrun
  have hhists : makeHists garbage 0 exampleInput.histograms =
      [makeHist exampleInput.histograms[0] (garbage 0),
       makeHist exampleInput.histograms[1] (garbage 1)] := rfl
  have hlen := (C41_filled_once cfg l l' r r' _ _ n h).1
  have key := C41_timing cfg hpos l l' r r' _ _ n h
    (by rw [hhists]
        intro h0 hh
        obtain rfl := Option.some.inj hh
        exact le_refl _)
    (by rw [hhists]
        intro k a b ha hb
        match k with
        | 0 =>
          obtain rfl := Option.some.inj ha
          obtain rfl := Option.some.inj hb
          show (0 : ℝ) + cfg.dt ≤ 1e-13 / (unitsSI : UnitsSystem ℝ).refTime
          rw [hend]; linarith
        | k + 1 => simp at hb)
  obtain ⟨m1, t1, h1, hm1, hs1, -, hf1, hk1, hb1, -⟩ := key 0 _ (by rw [hhists]; rfl)
  obtain ⟨m2, t2, h2, hm2, hs2, -, hf2, hk2, -, hb2⟩ := key 1 _ (by rw [hhists]; rfl)
  have e1 : m1 = 0 := by
    by_contra hne
    have := hb1 0 (by omega)
    change ((0 : ℕ) : ℝ) * cfg.dt < 0 at this
    simp at this
  have e2 : m2 = n := by
    by_contra hne
    have := hb2 (by omega)
    change 1e-13 / (unitsSI : UnitsSystem ℝ).refTime ≤ m2 * cfg.dt at this
    rw [hend] at this
    have h3 : (10000 : ℝ) ≤ m2 := le_of_mul_le_mul_right this hpos
    have h4 : 10000 ≤ m2 := by exact_mod_cast h3
    omega
  subst e1
  subst e2
  have a1 : t1.list = l := by cases hs1; rfl
  have a2 : t2.list = l' := by
    have := steps_det hs2 (run_ok_iff.mp hrun).1
    rw [this, hl']
  rw [a1] at hf1
  rw [a2] at hf2
  refine ⟨_, _, h1, h2, hhists, rfl, rfl, ?_, hf1, hf2⟩
  rw [hhists] at hlen
  match hists', hlen, hk1, hk2 with
  | [a, b], _, hk1, hk2 =>
    obtain rfl := Option.some.inj hk1
    obtain rfl := Option.some.inj hk2
    rfl

theorem down_ne {a : ℝ} (ha : 0 < a) : ((⟨0, 0, 0⟩ : V3 ℝ).sub ⟨0, 0, a⟩).toVec ≠ 0 := by
  intro h
  have := congrFun h 2
  simp [V3.toVec, V3.sub] at this
  exact ha.ne' this

theorem down_norm {a : ℝ} (ha : 0 < a) : ((⟨0, 0, 0⟩ : V3 ℝ).sub ⟨0, 0, a⟩).norm = ⟨0, 0, -1⟩ := by
  have hm : ((⟨0, 0, 0⟩ : V3 ℝ).sub ⟨0, 0, a⟩).mag = a := by
    simp [V3.mag, V3.sub, V3.dot, ha.le]
  unfold V3.norm
  rw [hm]
  simp [V3.sub, V3.divs, ha.ne']

theorem up_ne {a : ℝ} (ha : 0 < a) : (⟨0, 0, a⟩ : V3 ℝ).toVec ≠ 0 := by
  intro h
  have := congrFun h 2
  simp [V3.toVec] at this
  exact ha.ne' this

theorem up_len {a : ℝ} (ha : 0 < a) : len (⟨0, 0, a⟩ : V3 ℝ).toVec = a := by
  simp [len, V3.toVec, ha.le]

/-- C122, the collision: the pulse of the example has its full strength at the origin after the time light
takes for the 10 µm from its start, before the end of the simulation, and is nowhere and never stronger. It
is a transverse wave that travels along `-z`, against the electrons. -/
theorem C122_collision :
    let u : UnitsSystem ℝ := unitsSI
    let arrival := 1e-5 / u.refLength
    arrival = 1e-5 / cSI / u.refTime ∧ arrival < 1e-13 / u.refTime ∧
    len (examplePulse.getField arrival ⟨0, 0, 0⟩).1.toVec = 2e14 / u.refEField ∧
    ∀ (t : ℝ) (x : V3 ℝ), len (examplePulse.getField t x).1.toVec ≤ 2e14 / u.refEField ∧
      (examplePulse.amplitude t x ≠ 0 → IsLightWave ![0, 0, -1] (examplePulse.getField t x).1.toVec
        (examplePulse.getField t x).2.toVec) := by
  obtain ⟨ht, hl, he, -, -⟩ := si_pos
  have hrel : (unitsSI : UnitsSystem ℝ).refLength = cSI * (unitsSI : UnitsSystem ℝ).refTime :=
    C74_relations.1
  have hc := consts_pos.1
  have hp : 0 < 1e-5 / (unitsSI : UnitsSystem ℝ).refLength := by positivity
  obtain ⟨h1, h2⟩ := C23_origin_partial (2e14 / (unitsSI : UnitsSystem ℝ).refEField)
    (8e-7 / (unitsSI : UnitsSystem ℝ).refLength) (1e-14 / (unitsSI : UnitsSystem ℝ).refTime)
    (5e-6 / (unitsSI : UnitsSystem ℝ).refLength) 0 (by positivity) (by positivity) (by positivity)
    (by positivity) _ (up_ne hp)
  rw [up_len hp] at h1
  refine ⟨?_, ?_, h1, fun t x => ⟨h2 t x, fun hne => ?_⟩⟩
  · rw [hrel, div_div]
  · rw [hrel, ← div_div]
    apply div_lt_div_of_pos_right _ ht
    unfold cSI SI_c
    norm_num
  · have key := (C21_gauss_iff (2e14 / (unitsSI : UnitsSystem ℝ).refEField)
      (8e-7 / (unitsSI : UnitsSystem ℝ).refLength) (1e-14 / (unitsSI : UnitsSystem ℝ).refTime)
      (5e-6 / (unitsSI : UnitsSystem ℝ).refLength) 0 _ _ (down_ne hp)
      (Or.inr (by rw [down_norm hp]; rfl)) t x hne).mpr (by simp)
    rw [down_norm hp] at key
    exact key

/-- C122, the beam: the source of the example gives a hundred events of one electron each. It starts about
10 µm below the origin, displaced by normal draws of 1 µm across and 5 fs along the beam, and moves along `z`
with a normally distributed momentum. -/
theorem C122_beam (raw : RawDraws ℝ) (hr : raw.Sized 100) (p : ParticleParams ℝ)
    (hp : p ∈ exampleInput.particles) (r : Rng ℝ) :
    let u : UnitsSystem ℝ := unitsSI
    ∃ (s s' : Source ℝ) (r' : Rng ℝ) (ls : List (PList ℝ)),
      makeSource exampleInput.general p raw = .ok s ∧ s.calls 100 r = .ok (ls, s', r') ∧ ls.length = 100 ∧
      ∀ (i : Nat) (l : PList ℝ), ls[i]? = some l → ∃ q zx zy zz ze, l.items = [q] ∧ q.kind = .electron ∧
        raw.zx[i]? = some zx ∧ raw.zy[i]? = some zy ∧ raw.zz[i]? = some zz ∧ raw.rawE[i]? = some ze ∧
        q.position = ⟨1e-6 * zx / u.refLength, 1e-6 * zy / u.refLength,
          5e-15 * zz / u.refTime - 1e-5 / u.refLength⟩ ∧
        q.momentum = ⟨0, 0, (8.176e-12 + 8.176e-13 * ze) / u.refEnergy⟩ := by
  intro u
  have hp1 : p.number = 100 ∧ p.type = "electron" ∧ p.distro = "gaussian" ∧ p.divergence = 0 ∧
      p.direction = ⟨0, 0, 1⟩ ∧ p.radius = 1e-6 / u.refLength ∧ p.duration = 5e-15 / u.refTime ∧
      p.position = ⟨0, 0, -1e-5 / u.refLength⟩ ∧ p.energy1 = 8.176e-12 / u.refEnergy ∧
      p.energy2 = 8.176e-13 / u.refEnergy := by
    simp only [exampleInput, List.mem_singleton] at hp
    subst hp
    exact ⟨rfl, rfl, rfl, rfl, rfl, rfl, rfl, rfl, rfl, rfl⟩
  obtain ⟨p1, p2, p3, p4, p5, p6, p7, p8, p9, p10⟩ := hp1
  obtain ⟨s, hs, -, -, -⟩ := (makeSource_total angleInOrder exampleInput.general p raw
    (by rw [p1]; exact hr)).1 (Or.inl p3)
  have hz : (⟨0, 0, 1⟩ : V3 ℝ).norm = ⟨0, 0, 1⟩ := by
    simp [V3.norm, V3.mag, V3.dot, V3.divs]
  have hrot : ((⟨0, 0, 1⟩ : V3 ℝ).rotateToAxis V3.ez) = ⟨1, 0, 0, 0, 1, 0, 0, 0, 1⟩ := by
    have he : (V3.ez : V3 ℝ) = ⟨0, 0, 1⟩ := by simp [V3.ez]
    rw [rotateToAxis_eq_rodrigues (by rw [he, hz]; norm_num [V3.add, V3.mag2, V3.dot]), he, hz]
    simp [rodrigues, V3.cross, V3.dot, skewMat, M3.add, M3.mul, M3.muls, M3.ideneity, M3.zeros, M3.acc3]
  obtain ⟨ls, s', r', h1, h2, h3⟩ := C91_source exampleInput.general p raw s hs (by rw [p1]; exact hr)
    .electron (by rw [p2]; decide) r 100 (by rw [p1])
  refine ⟨s, s', r', ls, hs, h1, h2, fun i l hi => ?_⟩
  obtain ⟨q, q1, q2, -, zx, zy, zz, zt, phi, en, a1, a2, a3, -, a5, a6, a7⟩ := h3 i l hi
  rw [C91_gaussian_energy _ p raw s hs (Or.inl p3), List.getElem?_map] at a5
  obtain ⟨ze, hze, rfl⟩ := Option.map_eq_some_iff.mp a5
  refine ⟨q, zx, zy, zz, ze, q1, q2, a1, a2, a3, hze, ?_, ?_⟩
  · rw [a6, p5, hz, hrot, p6, p7, p8]
    simp only [M3.mulVec, M3.acc3, V3.add, real_add, real_mul, real_lit]
    congr 1 <;> push_cast <;> ring
  · rw [a7, p5, hz, hrot, p4, p9, p10]
    have : (⟨1, 0, 0, 0, 1, 0, 0, 0, 1⟩ : M3 ℝ).mulVec ⟨Real.sin (0 * zt) * Real.cos phi,
        Real.sin (0 * zt) * Real.sin phi, Real.cos (0 * zt)⟩ = ⟨0, 0, 1⟩ := by
      simp [M3.mulVec, M3.acc3]
    rw [this, hz]
    simp only [V3.smul, real_mul]
    congr 1 <;> ring

/-! ## The outcome -/

theorem Timed.bind_ne_none {α β : Type} {x : Timed α} {f : α → Timed β} (hx : x ≠ none)
    (hf : ∀ a, f a ≠ none) : (x >>= f) ≠ none := by
  match h : x with
  | none => exact absurd rfl hx
  | some (.ok a) => exact hf a
  | some (.exit c) => exact Option.some_ne_none _
  | some (.throw c) => exact Option.some_ne_none _
  | some (.ub c) => exact Option.some_ne_none _

theorem Timed.lift_ne_none {α : Type} (x : Res α) : Timed.lift x ≠ none := Option.some_ne_none _

/-- If the fuel is enough for every event it is enough for the run. -/
theorem run_ne_none (input : Input ℝ) (cfg : SimCfg ℝ) (fuel : Nat)
    (h : ∀ (l : PList ℝ) (r : Rng ℝ) (hists : List (Hist ℝ)), timeLoop cfg fuel (.init l r hists) ≠ none)
    (raws : Nat → Nat → RawDraws ℝ) (garbage : Nat → Nat) (rng : Rng ℝ) :
    run input cfg raws garbage rng fuel ≠ none := by
  have hev : ∀ output tracking k j (s : Source ℝ × World ℝ),
      runEvents cfg fuel output tracking k j s ≠ none := by
    intro output tracking k
    induction k with
    | zero => intro j s; exact Option.some_ne_none _
    | succ k ih =>
      intro j s
      unfold runEvents
      refine Timed.bind_ne_none ?_ fun s' => ih (j + 1) s'
      unfold runEvent
      exact Timed.bind_ne_none (Timed.lift_ne_none _) fun _ => Timed.bind_ne_none (Timed.lift_ne_none _)
        fun _ => Timed.bind_ne_none (h _ _ _) fun _ => Timed.bind_ne_none (Timed.lift_ne_none _) fun _ =>
        Timed.bind_ne_none (Timed.lift_ne_none _) fun _ => Option.some_ne_none _
  have hss : ∀ tracking (ss : List (Source ℝ × Bool)) (w : World ℝ),
      runSources cfg fuel tracking ss w ≠ none := by
    intro tracking ss
    induction ss with
    | nil => intro w; exact Option.some_ne_none _
    | cons s ss ih =>
      intro w
      unfold runSources
      refine Timed.bind_ne_none ?_ fun w' => ih w'
      unfold runSource
      exact Timed.bind_ne_none (hev _ _ _ _ _) fun _ => Timed.bind_ne_none (Timed.lift_ne_none _)
        fun _ => Option.some_ne_none _
  unfold run
  exact Timed.bind_ne_none (Timed.lift_ne_none _) fun _ => Timed.bind_ne_none (Timed.lift_ne_none _)
    fun _ => Timed.bind_ne_none (hss _ _ _) fun _ => Timed.bind_ne_none (Timed.lift_ne_none _)
    fun _ => Option.some_ne_none _

/-- Ten thousand steps are enough for every event of the example. -/
theorem example_fuel (t : Tables ℝ) (cfg : SimCfg ℝ) (hc : setup t exampleInput = .ok cfg) (fuel : Nat)
    (hfuel : 10000 ≤ fuel) (l : PList ℝ) (r : Rng ℝ) (hists : List (Hist ℝ)) :
    timeLoop cfg fuel (.init l r hists) ≠ none := by
  have ht := si_pos.1
  have hdt : cfg.dt = 1e-17 / (unitsSI : UnitsSystem ℝ).refTime := by
    rw [example_setup] at hc; rw [← Res.ok.inj hc]
  have hend : cfg.timeEnd = 10000 * cfg.dt := by
    rw [hdt]
    rw [example_setup] at hc; rw [← Res.ok.inj hc]
    dsimp only
    ring
  have key : ∀ (m : Nat) (s : EvState ℝ), cfg.timeEnd ≤ s.time + m * cfg.dt →
      timeLoop cfg m s ≠ none := by
    intro m
    induction m with
    | zero =>
      intro s hs
      rw [timeLoop, if_neg (by simpa using hs)]
      exact Option.some_ne_none _
    | succ m ih =>
      intro s hs
      rw [timeLoop]
      split
      · cases hstep : timeStep cfg s with
        | ok s' =>
          refine ih s' ?_
          rw [(timeStep_advance hstep).2, real_add]
          push_cast at hs
          linarith
        | exit c => exact Option.some_ne_none _
        | throw c => exact Option.some_ne_none _
        | ub c => exact Option.some_ne_none _
      · exact Option.some_ne_none _
  refine key fuel _ ?_
  have hf : (10000 : ℝ) ≤ fuel := by exact_mod_cast hfuel
  have hpos : 0 < cfg.dt := by rw [hdt]; positivity
  rw [hend]
  show (10000 : ℝ) * cfg.dt ≤ ((0 : ℚ) : ℝ) + fuel * cfg.dt
  rw [Rat.cast_zero, zero_add]
  exact mul_le_mul_of_nonneg_right hf hpos.le

/-- C122 is false: with the tables that come with the program, the shipped example never ends normally,
whatever the random numbers, so its results are lost. Every run of it ends, with an error code or an
uncaught exception. -/
theorem C122_refuted (dir : List Char) (t : Tables ℝ)
    (ht : LoadedFrom t (some dir) (Shipped.tables dir))
    (files : List Char → Option (List Char)) (path : List Char)
    (hp : ∃ stem, path = stem ++ ".ini".toList) (hf : files path = some (fileOf exampleLines))
    (raws : Nat → Nat → RawDraws ℝ) (hr : ∀ i n, (raws i n).Sized n) (garbage : Nat → Nat)
    (rng : Rng ℝ) (fuel : Nat) (hfuel : 10000 ≤ fuel) :
    (∃ c, program t files [path] raws garbage rng fuel = some (.exit c)) ∨
    ∃ w, program t files [path] raws garbage rng fuel = some (.throw w) := by
  obtain ⟨cfg, hc⟩ : ∃ cfg, setup t exampleInput = .ok cfg := ⟨_, example_setup t⟩
  have hs := example_start t files path hp hf cfg hc
  have hgood := C98_good dir t ht
  have hsome : program t files [path] raws garbage rng fuel ≠ none := by
    unfold program
    rw [hs]
    exact run_ne_none _ cfg fuel (example_fuel t cfg hc fuel hfuel) raws garbage rng
  have hok := C93_refuted angleInOrder t hgood files [path] raws hr garbage rng fuel exampleInput cfg hs
    (Or.inl (by simp [exampleInput]))
  have hub := C94_undefined_iff_partial angleInOrder t hgood files [path] raws hr garbage rng fuel
  match h : program t files [path] raws garbage rng fuel with
  | none => exact absurd h hsome
  | some (.ok f) => exact absurd h (hok f)
  | some (.exit c) => exact Or.inl ⟨c, rfl⟩
  | some (.throw w) => exact Or.inr ⟨w, rfl⟩
  | some (.ub w) =>
    obtain ⟨x, hx, p, hp, hn⟩ := hub.mp ⟨w, h⟩
    rw [hs] at hx
    obtain rfl := Res.ok.inj hx
    simp only [exampleInput, List.mem_singleton] at hp
    subst hp
    exact absurd (Or.inl rfl) hn

/-! ## The hypotheses can be met -/

/-- The tables and random numbers of `C122_refuted` exist. -/
example (dir : List Char) : (∃ t : Tables ℝ, LoadedFrom t (some dir) (Shipped.tables dir)) ∧
    (∃ files : List Char → Option (List Char), files "example.ini".toList = some (fileOf exampleLines)) ∧
    (∃ stem, "example.ini".toList = stem ++ ".ini".toList) ∧
    ∃ raws : Nat → Nat → RawDraws ℝ, ∀ i n, (raws i n).Sized n :=
  ⟨C98_loaded dir, ⟨fun _ => some (fileOf exampleLines), rfl⟩, ⟨"example".toList, rfl⟩,
    fun _ n => ⟨List.replicate n 0, List.replicate n 0, List.replicate n 0, List.replicate n 0,
      List.replicate n 0, List.replicate n 0⟩, fun _ n => by simp [RawDraws.Sized]⟩

theorem fillHist_skip (h : Hist ℝ) : ∀ ps : List (Particle ℝ), (∀ p ∈ ps, h.particle ≠ p.name) →
    fillHist h ps = .ok h
  | [], _ => rfl
  | p :: ps, hne => by
    rw [fillHist, if_neg (hne p (.head _)), Res.ok_bind]
    exact fillHist_skip h ps fun q hq => hne q (.tail _ hq)

/-- Of a photon, histograms of electrons take nothing. -/
structure PhotonAlone (s : EvState ℝ) : Prop where
  one : ∃ p : Particle ℝ, s.list.items = [p] ∧ p.mass = 0 ∧ p.kind = .photon
  room : 1 ≤ s.list.maxParticles
  others : ∀ h ∈ s.hists, h.particle = "Electron"

theorem PhotonAlone.fill {s : EvState ℝ} (hs : PhotonAlone s) (h : Hist ℝ) (hm : h ∈ s.hists) :
    fillHist h s.list.items = .ok h := by
  obtain ⟨p, hl, -, hk⟩ := hs.one
  apply fillHist_skip
  rw [hl]
  intro q hq
  rw [List.mem_singleton.mp hq, hs.others h hm]
  simp [Particle.name, hk]

theorem PhotonAlone.step {cfg : SimCfg ℝ} {t : Tables ℝ} (hc : setup t exampleInput = .ok cfg)
    {s : EvState ℝ} (hs : PhotonAlone s) : ∃ s', timeStep cfg s = .ok s' ∧ PhotonAlone s' := by
  obtain ⟨p, hl, hm, hk⟩ := hs.one
  obtain ⟨s1, p1, e1, e2, e3, e4, -, -⟩ := photon_step (cfg := cfg) (setup_procs hc rfl).2.2
    { s with hists := [] } p hl hm hs.room rfl
  obtain ⟨q, hq, hid⟩ := C44_grow_and_keep_identity cfg { s with hists := [] } s1 (.step .refl e1) 0 p
    (by rw [hl]; rfl)
  obtain ⟨l, r, hadv, rfl⟩ := (timeStep_nil rfl).mp e1
  have hqp : q = p1 := by
    rw [e2] at hq
    exact (Option.some.inj hq).symm
  subst hqp
  obtain ⟨c, hstep⟩ : ∃ c, histStep s = .ok { s with histCount := c } := by
    unfold histStep
    split
    · exact ⟨s.histCount, rfl⟩
    · rename_i h hk
      have hmem := List.mem_of_getElem? hk
      split
      · rw [hs.fill h hmem, Res.ok_bind]
        refine ⟨s.histCount + 1, ?_⟩
        obtain ⟨hlt, rfl⟩ := List.getElem?_eq_some_iff.mp hk
        rw [List.set_getElem_self]
      · exact ⟨s.histCount, rfl⟩
  refine ⟨{ s with list := l, rng := r, time := s.time +. cfg.dt, histCount := c }, ?_,
    ⟨_, e2, e3, hid.kind.trans hk⟩, e4, hs.others⟩
  unfold timeStep
  rw [hstep, Res.ok_bind]
  change advance cfg s.list s.rng = _ at hadv
  dsimp only
  rw [hadv]
  rfl

theorem PhotonAlone.run {cfg : SimCfg ℝ} {t : Tables ℝ} (hc : setup t exampleInput = .ok cfg)
    {s : EvState ℝ} {n : Nat} {o : Res (EvState ℝ)} (h : Run cfg s n o) (hs : PhotonAlone s) :
    ∃ s', o = .ok s' ∧ PhotonAlone s' := by
  induction h with
  | done _ => exact ⟨_, rfl, hs⟩
  | step _ h2 _ ih =>
    obtain ⟨s', e, hs'⟩ := hs.step hc
    rw [h2] at e
    exact ih (Res.ok.inj e ▸ hs')
  | abort _ h2 h3 =>
    obtain ⟨s', e, -⟩ := hs.step hc
    exact absurd (h2.symm.trans e) (h3 s')

theorem fillRest_same (l : PList ℝ) : ∀ (hs : List (Hist ℝ)) (c : Nat),
    (∀ h ∈ hs, fillHist h l.items = .ok h) → fillRest l c hs = .ok hs
  | [], _, _ => by rw [fillRest]
  | h :: hs, 0, hf => by
    rw [fillRest, hf h (.head _), Res.ok_bind, fillRest_same l hs 0 fun a ha => hf a (.tail _ ha)]
    rfl
  | h :: hs, c + 1, hf => by
    rw [fillRest, fillRest_same l hs c fun a ha => hf a (.tail _ ha)]
    rfl

/-- Events of the example run to their end: one whose primary is a photon does. -/
example (t : Tables ℝ) (cfg : SimCfg ℝ) (hc : setup t exampleInput = .ok cfg) (r : Rng ℝ)
    (garbage : Nat → Nat) : ∃ l l' r' hists' n,
      Event cfg l r (makeHists garbage 0 exampleInput.histograms) n l' r' hists' := by
  let l : PList ℝ := ⟨"0", 5, [Particle.newPhoton ⟨0, 0, 0⟩ ⟨0, 0, 1⟩ 1 0 false (1 / 2)]⟩
  have hpos : 0 < cfg.dt := by
    have ht := si_pos.1
    rw [example_setup] at hc
    rw [← Res.ok.inj hc]
    dsimp only
    positivity
  obtain ⟨n, o, hrun, -⟩ := C40_terminates cfg hpos l r (makeHists garbage 0 exampleInput.histograms)
  obtain ⟨s, rfl, hs⟩ := PhotonAlone.run hc hrun ⟨⟨_, rfl, Rat.cast_zero, rfl⟩, (by decide : 1 ≤ 5), by
    intro h hm
    have e : makeHists garbage 0 exampleInput.histograms =
      [makeHist exampleInput.histograms[0] (garbage 0),
       makeHist exampleInput.histograms[1] (garbage 1)] := rfl
    replace hm : h ∈ [makeHist exampleInput.histograms[0] (garbage 0),
      makeHist exampleInput.histograms[1] (garbage 1)] := e ▸ hm
    rcases List.mem_cons.mp hm with rfl | hm
    · rfl
    · rw [List.mem_singleton.mp hm]
      rfl⟩
  exact ⟨l, _, _, _, n, .mk hrun (fillRest_same _ _ _ hs.fill)⟩

end QED
