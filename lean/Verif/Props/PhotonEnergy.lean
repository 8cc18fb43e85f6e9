import Verif.Props.Numerics
import Verif.Props.Emission

set_option autoImplicit false

/-!
# Property C38: the energy of emitted photons
-/

namespace QED

open MCTools Numerics

/-- A row of cumulative probabilities `t` over `log10 chi` values `c`: never decreasing, up to 1; if it does
not start at 0, it starts with a proper increase in both. -/
structure CdfRow (t c : List ℝ) : Prop extends MonoTable t c where
  last : t.getLast? = some 1
  first : t.head? = some 0 ∨ ∀ t0 t1 c0 c1, t[0]? = some t0 → t[1]? = some t1 → c[0]? = some c0 →
    c[1]? = some c1 → t0 < t1 ∧ c0 ≤ c1

/-- Emission tables as C38 supposes them. Row `i` belongs to eta `10 ^ etaAxis[i]`; no chi in
it exceeds half of that. -/
structure HalfEtaTables (cfg : EmissionCfg ℝ) : Prop where
  sorted : cfg.etaAxis.Pairwise (· < ·)
  three : 3 ≤ cfg.etaAxis.length
  small : cfg.etaAxis.length < 2 ^ 32
  rows : cfg.phEnTable.length = cfg.etaAxis.length ∧ cfg.chiAxis.length = cfg.etaAxis.length
  row : ∀ (i : Nat) (t c : List ℝ), cfg.phEnTable[i]? = some t → cfg.chiAxis[i]? = some c →
    CdfRow t c
  half : ∀ (i : Nat) (c : List ℝ) (a : ℝ), cfg.chiAxis[i]? = some c → cfg.etaAxis[i]? = some a →
    ∀ x ∈ c, (10:ℝ) ^ x ≤ 10 ^ a / 2

theorem row_value_le {t c : List ℝ} (ht : CdfRow t c) {u : ℝ} (hu0 : 0 ≤ u) (hu1 : u < 1) {M : ℝ}
    (hM : ∀ x ∈ c, x ≤ M) : ∃ v, interpolate1D t c u = .ok v ∧ v ≤ M := by
  have hn := ht.two
  have hc := ht.len
  have e1 : t[t.length - 1] = 1 := by
    have h1 := ht.last
    rw [List.getLast?_eq_getElem?, List.getElem?_eq_getElem (by omega)] at h1
    simpa using h1
  by_cases hu : t[0] ≤ u
  · obtain ⟨i, hi, hd, _, _, y, hy, _, _, hle⟩ := C05_interior_ties ht.toMonoTable u hu
      (by rw [e1]; exact hu1)
    exact ⟨y, hy, hle.trans (max_le (hM _ (List.getElem_mem _)) (hM _ (List.getElem_mem _)))⟩
  · have hu' := not_le.mp hu
    rcases ht.first with h0 | h0
    · rw [List.head?_eq_getElem?, List.getElem?_eq_getElem (by omega)] at h0
      have : t[0] = 0 := by simpa using h0
      rw [this] at hu'
      exact absurd hu0 (not_le.mpr hu')
    · obtain ⟨h1, h2⟩ := h0 t[0] t[1] c[0] c[1] (List.getElem?_eq_getElem _) (List.getElem?_eq_getElem _)
        (List.getElem?_eq_getElem _) (List.getElem?_eq_getElem _)
      refine ⟨c[0] + (c[1] - c[0]) * ((u - t[0]) / (t[1] - t[0])), ?_, ?_⟩
      · unfold interpolate1D
        dsimp only
        rw [rd_ok (show 0 < t.length by omega)]
        simp only [Res.ok_bind, real_lt, hu', decide_true, if_true]
        rw [rd_ok (show 0 < c.length by omega), rd_ok (show 1 < c.length by omega),
          rd_ok (show 1 < t.length by omega)]
        simp only [Res.ok_bind, real_add, real_sub, real_mul, real_div]
      · have : (u - t[0]) / (t[1] - t[0]) ≤ 0 := div_nonpos_of_nonpos_of_nonneg (by linarith) (by linarith)
        have h3 := mul_nonpos_of_nonneg_of_nonpos (sub_nonneg.2 h2) this
        have := hM c[0] (List.getElem_mem _)
        linarith

/-- The sampled chi is at most half of eta, for eta inside the table. -/
theorem chi_le_half {cfg : EmissionCfg ℝ} (ht : HalfEtaTables cfg) {eta u chi : ℝ} (hpos : 0 < eta)
    (hu0 : 0 ≤ u) (hu1 : u < 1)
    (hlow : ∀ a : ℝ, cfg.etaAxis[0]? = some a → (10:ℝ) ^ a ≤ eta)
    (h : calculateChi cfg eta u = .ok chi) : chi ≤ eta / 2 := by
  have h3 := ht.three
  have h10 : (1:ℝ) < 10 := by norm_num
  set q := Real.logb 10 eta with hq
  have hqe : (10:ℝ) ^ q = eta := Real.rpow_logb (by norm_num) (by norm_num) hpos
  have h0 : cfg.etaAxis[0] ≤ q := by
    have := hlow cfg.etaAxis[0] (List.getElem?_eq_getElem (by omega))
    rw [← hqe] at this
    exact (Real.rpow_le_rpow_left_iff h10).mp this
  by_cases hin : q ≤ cfg.etaAxis[cfg.etaAxis.length - 2]
  · obtain ⟨low, f, hlow', hc, f0, f1, hqf⟩ := C08_bracket_partial ht.sorted (by omega) ht.small q h0
      hin h3
    unfold calculateChi at h
    have hc' : closestPoints cfg.etaAxis (Dbl.log10 eta) = .ok (low, f) := hc
    rw [hc'] at h
    simp only [Res.ok_bind] at h
    have l1 : low < cfg.phEnTable.length := by rw [ht.rows.1]; omega
    have l2 : low < cfg.chiAxis.length := by rw [ht.rows.2]; omega
    have l3 : low + 1 < cfg.phEnTable.length := by rw [ht.rows.1]; omega
    have l4 : low + 1 < cfg.chiAxis.length := by rw [ht.rows.2]; omega
    rw [rd_ok l1, rd_ok l2, rd_ok l3, rd_ok l4] at h
    simp only [Res.ok_bind] at h
    have hrow : ∀ (i : Nat) (hi1 : i < cfg.phEnTable.length) (hi2 : i < cfg.chiAxis.length)
        (hi3 : i < cfg.etaAxis.length),
        ∃ v, interpolate1D cfg.phEnTable[i] cfg.chiAxis[i] u = .ok v ∧
          v ≤ cfg.etaAxis[i] - Real.logb 10 2 := by
      intro i hi1 hi2 hi3
      refine row_value_le (ht.row i _ _ (List.getElem?_eq_getElem hi1)
        (List.getElem?_eq_getElem hi2)) hu0 hu1 ?_
      intro x hx
      have := ht.half i _ _ (List.getElem?_eq_getElem hi2) (List.getElem?_eq_getElem hi3) x hx
      rw [← Real.rpow_le_rpow_left_iff h10, Real.rpow_sub (by norm_num),
        Real.rpow_logb (by norm_num) (by norm_num) (by norm_num)]
      exact this
    obtain ⟨v1, e1, b1⟩ := hrow low l1 l2 (by omega)
    obtain ⟨v2, e2, b2⟩ := hrow (low + 1) l3 l4 (by omega)
    rw [e1, Res.ok_bind, e2, Res.ok_bind] at h
    simp only [Res.ok.injEq, real_pow, real_lit, real_add, real_mul, real_sub] at h
    push_cast at h
    rw [← h]
    have hle : (1 - f) * v1 + f * v2 ≤ q - Real.logb 10 2 := by
      rw [hqf]
      nlinarith [mul_le_mul_of_nonneg_left b1 (by linarith : 0 ≤ 1 - f),
        mul_le_mul_of_nonneg_left b2 f0]
    calc (10:ℝ) ^ ((1 - f) * v1 + f * v2) ≤ 10 ^ (q - Real.logb 10 2) :=
          (Real.rpow_le_rpow_left_iff h10).mpr hle
      _ = eta / 2 := by
          rw [Real.rpow_sub (by norm_num), hqe,
            Real.rpow_logb (by norm_num) (by norm_num) (by norm_num)]
  · have := C08_last_interval_refuted ht.sorted (by omega) ht.small q (not_le.mp hin)
    unfold calculateChi at h
    have hc' : closestPoints cfg.etaAxis (Dbl.log10 eta) = .exit (-1) := this
    rw [hc'] at h
    cases h

/-- Whenever the sampled chi is at most half of eta, the lepton loses at most its own energy, and a stored
photon has at most that energy. -/
theorem energy_of_half {cfg : EmissionCfg ℝ} {p : Particle ℝ}
    {l : PList ℝ} {r : Rng ℝ} (hr : r.Valid) (hk : p.kind ≠ .photon) (hmass : p.mass = 1)
    (hp : p.momentum ≠ ⟨0, 0, 0⟩) (heta : 0 < calculateEta cfg.field p)
    (hhalf : ∀ u chi : ℝ, 0 ≤ u → u < 1 → calculateChi cfg (calculateEta cfg.field p) u = .ok chi →
      chi ≤ calculateEta cfg.field p / 2)
    {p' : Particle ℝ} {l' : PList ℝ} {r' : Rng ℝ}
    (h : stochasticInteract cfg p l r = .ok (p', l', r')) :
    (p.momentum.sub p'.momentum).mag ≤ p.energy ∧
    ∀ ph, l'.items = l.items ++ [ph] → ph.energy ≤ p.energy := by
  have hgpos : 0 ≤ p.gamma := by
    unfold Particle.gamma; split <;> exact Real.sqrt_nonneg _
  have hen : p.energy = p.gamma := by
    unfold Particle.energy
    split
    · next h => exact absurd h hk
    · rw [hmass]; simp
  have hbound : ∀ delta g, Emits cfg p (r.draw r.pos) delta g → |g| ≤ p.energy := by
    intro delta g he
    obtain ⟨chi, hc, rfl⟩ := he.energy
    have hv := hr r.pos
    simp only [real_le, real_lt, real_lit, decide_eq_true_eq] at hv
    push_cast at hv
    have hle := hhalf _ _ hv.1 hv.2 hc
    have hchi : 0 ≤ chi := by
      unfold calculateChi at hc
      simp only [Res.bind_eq_ok] at hc
      obtain ⟨_, _, _, _, _, _, _, _, _, _, _, _, _, _, hc⟩ := hc
      simp only [Res.ok.injEq, real_pow, real_lit] at hc
      rw [← hc]; positivity
    rw [hen]
    simp only [real_lit, real_mul, real_div]
    push_cast
    rw [abs_of_nonneg (by positivity), div_le_iff₀ heta]
    nlinarith
  have hen0 : 0 ≤ p.energy := by rw [hen]; exact hgpos
  constructor
  · rcases stochastic_emits h with ⟨hm, _⟩ | ⟨delta, g, he⟩
    · rw [hm]
      have : (p.momentum.sub p.momentum).mag = 0 := by simp [V3.mag, V3.dot, V3.sub]
      rw [this]; exact hen0
    · rw [stochastic_emit he] at h
      simp only [Res.ok.injEq, Prod.mk.injEq] at h
      have hm : p'.momentum = p.momentum.sub (p.direction.smul g) := by
        rw [← h.1]; exact (recoiled_fields p delta g).2.2.2
      have hd : p.momentum.sub p'.momentum = p.direction.smul g := by
        rw [hm]; ext <;> simp [V3.sub]
      have hunit : p.direction.dot p.direction = 1 := V3.norm_dot_self hp
      rw [hd, V3.smul_unit_mag hunit]
      exact hbound _ _ he
  · intro ph hadd
    obtain ⟨delta, g, u, he, _, _, rfl⟩ := store_cases h hadd
    refine le_trans ?_ (hbound _ _ he)
    by_cases hp' : p'.direction = ⟨0, 0, 0⟩
    · show (p'.direction.norm.smul g).mag ≤ _
      rw [hp']
      simp [V3.norm, V3.divs, V3.smul, V3.mag, V3.dot]
    · rw [photonE_energy _ _ _ hp']

/-- What holds: if eta is not below the table, the lepton loses at most its own energy, and
a stored photon has at most that energy. Missing from C38: eta below the table. -/
theorem C38_energy_partial {cfg : EmissionCfg ℝ} (ht : HalfEtaTables cfg) {p : Particle ℝ}
    {l : PList ℝ} {r : Rng ℝ} (hr : r.Valid) (hk : p.kind ≠ .photon) (hmass : p.mass = 1)
    (hp : p.momentum ≠ ⟨0, 0, 0⟩) (heta : 0 < calculateEta cfg.field p)
    (hlow : ∀ a : ℝ, cfg.etaAxis[0]? = some a → (10:ℝ) ^ a ≤ calculateEta cfg.field p)
    {p' : Particle ℝ} {l' : PList ℝ} {r' : Rng ℝ}
    (h : stochasticInteract cfg p l r = .ok (p', l', r')) :
    (p.momentum.sub p'.momentum).mag ≤ p.energy ∧
    ∀ ph, l'.items = l.items ++ [ph] → ph.energy ≤ p.energy :=
  energy_of_half hr hk hmass hp heta (fun _ _ h0 h1 hc => chi_le_half ht heta h0 h1 hlow hc) h

/-- The tables of `Witness.emCfg` with `chi = eta / 2` at the first eta satisfy the
hypotheses. -/
example : HalfEtaTables (Witness.emCfg (1 / 2) (1 / 4) 0) ∧
    calculateEta (Witness.emCfg (1 / 2) (1 / 4) 0).field Witness.electron = 1 ∧
    (∀ a : ℝ, (Witness.emCfg (1 / 2) (1 / 4) 0).etaAxis[0]? = some a → (10:ℝ) ^ a ≤ 1) := by
  refine ⟨⟨by simp [Witness.emCfg], by simp [Witness.emCfg], by simp [Witness.emCfg],
    by simp [Witness.emCfg], ?_, ?_⟩, Witness.eta_eq _ _ _, ?_⟩
  · intro i t c h1 h2
    have h1 : t ∈ (Witness.emCfg (1 / 2) (1 / 4) 0).phEnTable := List.mem_of_getElem? h1
    have h2 : c ∈ (Witness.emCfg (1 / 2) (1 / 4) 0).chiAxis := List.mem_of_getElem? h2
    simp [Witness.emCfg] at h1 h2
    subst h1 h2
    exact ⟨⟨rfl, by simp, by simp, by norm_num⟩, by simp, by simp⟩
  · intro i c a h1 h2 x hx
    have h1 : c ∈ (Witness.emCfg (1 / 2) (1 / 4) 0).chiAxis := List.mem_of_getElem? h1
    have h2 : a ∈ (Witness.emCfg (1 / 2) (1 / 4) 0).etaAxis := List.mem_of_getElem? h2
    simp only [Witness.emCfg, List.mem_cons, List.not_mem_nil, or_false, or_self] at h1 h2
    subst h1
    simp only [List.mem_cons, List.not_mem_nil, or_false, or_self] at hx
    subst hx
    rw [Real.rpow_logb (by norm_num) (by norm_num) (by norm_num)]
    rcases h2 with rfl | rfl | rfl <;> norm_num
  · intro a h
    simp [Witness.emCfg] at h
    subst h; simp

/-! ### Below the table -/

/-- Two wide rows: chi between `10 ^ -1 / 2` and `1 / 2` at eta 1, and between `10 ^ -99 / 2`
and `10 / 2` at eta 10. -/
noncomputable def wideCfg : EmissionCfg ℝ where
  field := staticField ⟨Real.sqrt 2 / 20, 0, 0⟩ ⟨0, 0, 0⟩
  dt := 1
  track := false
  sampleFrac := 1 / 4
  eMin := 0
  hAxis := [-2, 1]
  hData := [0, 0]
  etaAxis := [0, 1, 2]
  chiAxis := [[-1 - Real.logb 10 2, 0 - Real.logb 10 2], [-99 - Real.logb 10 2, 1 - Real.logb 10 2],
    [1 - Real.logb 10 2, 2 - Real.logb 10 2]]
  phEnTable := [[0, 1], [0, 1], [0, 1]]

theorem wideCfg_tables : HalfEtaTables wideCfg := by
  have h2 : (0:ℝ) < Real.logb 10 2 := Real.logb_pos (by norm_num) (by norm_num)
  have hx : ∀ x a : ℝ, x ≤ a → (10:ℝ) ^ (x - Real.logb 10 2) ≤ 10 ^ a / 2 := by
    intro x a hxa
    rw [Real.rpow_sub (by norm_num), Real.rpow_logb (by norm_num) (by norm_num) (by norm_num)]
    have := (Real.rpow_le_rpow_left_iff (show (1:ℝ) < 10 by norm_num)).mpr hxa
    linarith
  refine ⟨by simp [wideCfg], by simp [wideCfg], by simp [wideCfg], by simp [wideCfg], ?_, ?_⟩
  · intro i t c h1 h2
    have h1 : t ∈ wideCfg.phEnTable := List.mem_of_getElem? h1
    have h2 : c ∈ wideCfg.chiAxis := List.mem_of_getElem? h2
    simp only [wideCfg, List.mem_cons, List.not_mem_nil, or_false, or_self] at h1 h2
    subst h1
    rcases h2 with rfl | rfl | rfl <;> exact ⟨⟨rfl, by simp, by simp, by norm_num⟩, by simp, by simp⟩
  · intro i c a h1 h2 x hx'
    match i with
    | 0 =>
      simp only [wideCfg, List.getElem?_cons_zero, Option.some.injEq] at h1 h2
      subst h1 h2
      simp only [List.mem_cons, List.not_mem_nil, or_false] at hx'
      rcases hx' with rfl | rfl <;> exact hx _ _ (by norm_num)
    | 1 =>
      simp only [wideCfg, List.getElem?_cons_zero, List.getElem?_cons_succ, Option.some.injEq] at h1 h2
      subst h1 h2
      simp only [List.mem_cons, List.not_mem_nil, or_false] at hx'
      rcases hx' with rfl | rfl <;> exact hx _ _ (by norm_num)
    | 2 =>
      simp only [wideCfg, List.getElem?_cons_zero, List.getElem?_cons_succ, Option.some.injEq] at h1 h2
      subst h1 h2
      simp only [List.mem_cons, List.not_mem_nil, or_false] at hx'
      rcases hx' with rfl | rfl <;> exact hx _ _ (by norm_num)
    | n + 3 => simp [wideCfg] at h1

theorem wide_eta : calculateEta wideCfg.field Witness.electron = 1 / 10 := by
  unfold calculateEta
  rw [Witness.electron_direction, Witness.electron_gamma]
  simp only [wideCfg, staticField, V3.dot, V3.smul, V3.sub, V3.cross, V3.add, V3.mag2, real_add,
    real_mul, real_sub, real_sqrt, real_lit, real_pow, real_div]
  have h2 : Real.sqrt 2 * Real.sqrt 2 = 2 := Real.mul_self_sqrt (by norm_num)
  norm_num
  rw [← sq, Real.sqrt_sq (by positivity)]
  rw [div_mul_eq_mul_div, h2]; norm_num

/-- C38 is false below the table: with the draw 1/2 an electron of eta 1/10 emits a photon
of `10 ^ 49` times its energy, extrapolated from the first two rows. -/
theorem C38_refuted :
    HalfEtaTables wideCfg ∧ ∃ (l : PList ℝ) (r : Rng ℝ) (p' : Particle ℝ) (l' : PList ℝ) (r' : Rng ℝ)
      (ph : Particle ℝ), r.Valid ∧
      stochasticInteract wideCfg Witness.electron l r = .ok (p', l', r') ∧
      l'.items = l.items ++ [ph] ∧ Witness.electron.energy < ph.energy := by
  refine ⟨wideCfg_tables, ?_⟩
  have hlog : Real.logb 10 (1 / 10) = -1 := by
    rw [one_div, Real.logb_inv, Real.logb_self_eq_one (by norm_num)]
  have hl : emissionLogh wideCfg (1 / 10 : ℝ) = .ok 0 := by
    unfold emissionLogh
    rw [if_neg (by simp only [real_lit, real_lt]; norm_num), real_log10, hlog]
    norm_num [interpolate1D, wideCfg, firstAbove, usub, rd]
  have hc : calculateChi wideCfg (1 / 10 : ℝ) (1 / 2) = .ok (10 ^ (48:ℝ) / 2) := by
    have e1 : closestPoints wideCfg.etaAxis (Dbl.log10 (1 / 10 : ℝ)) = .ok (0, -1) := by
      rw [real_log10, hlog]
      norm_num [closestPoints, wideCfg, scanLow, usub, rd]
    have e2 : ∀ a b : ℝ, interpolate1D [0, 1] [a, b] (1 / 2) = .ok ((a + b) / 2) := by
      intro a b
      norm_num [interpolate1D, firstAbove, usub, rd]
      ring
    unfold calculateChi
    rw [e1]
    simp only [Res.ok_bind, wideCfg, rd, List.getElem?_cons_zero, List.getElem?_cons_succ, e2]
    simp only [real_pow, real_lit, real_add, real_mul, real_sub]
    push_cast
    rw [show (1 - -1) * ((-1 - Real.logb 10 2 + (0 - Real.logb 10 2)) / 2) +
      -1 * ((-99 - Real.logb 10 2 + (1 - Real.logb 10 2)) / 2) = 48 - Real.logb 10 2 by ring,
      Real.rpow_sub (by norm_num), Real.rpow_logb (by norm_num) (by norm_num) (by norm_num)]
  have h2 : (0:ℝ) < Real.sqrt 2 := by positivity
  set g : ℝ := 2 * (10 ^ (48:ℝ) / 2) * Real.sqrt 2 / (1 / 10) with hg
  have hgval : g = 10 ^ 49 * Real.sqrt 2 := by
    rw [hg, show ((48:ℝ)) = ((48:ℕ):ℝ) by norm_num, Real.rpow_natCast]; ring
  have he : Emits wideCfg Witness.electron (Witness.rng.draw Witness.rng.pos)
      (emissionDelta wideCfg.dt (1 / 10 : ℝ) 0 (Real.sqrt 2)) g := by
    refine ⟨by simp [Witness.electron, Particle.newLepton, Particle.new], rfl, ⟨0, ?_, ?_⟩, ?_,
      10 ^ (48:ℝ) / 2, ?_, ?_⟩
    · rw [wide_eta]; exact hl
    · rw [wide_eta, Witness.electron_gamma]
    · rw [Witness.electron_depth]
      have : 0 < emissionDelta wideCfg.dt (1 / 10 : ℝ) 0 (Real.sqrt 2) := by
        simp only [emissionDelta, wideCfg, Units.alpha, Units.pi, real_lit, real_mul, real_sqrt,
          real_div, real_pow]
        norm_num
      simpa using this
    · rw [wide_eta]; exact hc
    · rw [wide_eta, Witness.electron_gamma, hg]; simp
  have hs := stochastic_emit (l := PList.new "0" 10) (r := Witness.rng) he
  have hgpos : 0 < g := by rw [hgval]; positivity
  have hst := storePhoton.eq_1 wideCfg (recoiled Witness.electron
    (emissionDelta wideCfg.dt (1 / 10 : ℝ) 0 (Real.sqrt 2)) g) g (PList.new "0" 10)
    Witness.rng.next.2
  rw [if_pos (by simpa [wideCfg] using hgpos), if_pos (by
    simp [wideCfg, Witness.rng, Rng.next]; norm_num)] at hst
  rw [hst] at hs
  refine ⟨PList.new "0" 10, Witness.rng, _, _, _, _, Witness.rng_valid, hs, rfl, ?_⟩
  have hs2 : Real.sqrt 2 < 2 := by rw [Real.sqrt_lt' (by norm_num)]; norm_num
  have hs1 : 1 < Real.sqrt 2 := by rw [Real.lt_sqrt (by norm_num)]; norm_num
  rw [photonE_energy, abs_of_pos hgpos, Witness.electron_energy, hgval]
  · nlinarith
  · apply V3.norm_ne_zero
    rw [(recoiled_fields _ _ _).2.2.2, Witness.electron_momentum, Witness.electron_direction]
    intro h0
    have := congrArg V3.z h0
    simp [V3.sub, V3.smul, hgval] at this
    nlinarith

end QED
