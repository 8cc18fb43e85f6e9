import Verif.Spec.Generations
import Verif.Lemmas.Emission
import Verif.Lemmas.Tally
import Verif.Spec.Radiation
import Verif.Props.Pushers
import Mathlib.Data.Nat.Log

set_option autoImplicit false

/-!
A lepton in a magnetic field and tables with which every lepton emits a photon and every photon makes a pair.
-/

namespace QED.Generations

open MCTools Numerics

/-! ## The settings -/

/-- The field strength: a quarter of the inverse time step. -/
noncomputable def strength (dt : ℝ) : ℝ := 1 / 4 / dt

/-- The magnetic field along y. -/
noncomputable def field (dt : ℝ) : Field ℝ := staticField ⟨0, 0, 0⟩ ⟨0, strength dt, 0⟩

/-- The first grid point, above all quantum parameters. -/
noncomputable def top (dt : ℝ) : ℝ := Real.logb 10 (6 * strength dt)

/-- The rates in the tables, high enough for a depth of `-log (1 - U)`. -/
noncomputable def height (U : ℝ) : ℝ := 20 * (1 - Real.log (1 - U)) / Units.alpha

/-- Emission: all photons have the parameter `4 * strength dt`. -/
noncomputable def em (dt f U : ℝ) : EmissionCfg ℝ where
  field := field dt
  dt := dt
  track := false
  sampleFrac := f
  eMin := 1
  hAxis := [0, 1]
  hData := [Real.logb 10 (height U), Real.logb 10 (height U)]
  etaAxis := [top dt, top dt + 1, top dt + 2]
  chiAxis := [[Real.logb 10 (4 * strength dt), Real.logb 10 (4 * strength dt)],
    [Real.logb 10 (4 * strength dt), Real.logb 10 (4 * strength dt)],
    [Real.logb 10 (4 * strength dt), Real.logb 10 (4 * strength dt)]]
  phEnTable := [[0, 1], [0, 1], [0, 1]]

/-- Pairs: both leptons get half of the energy. -/
noncomputable def bw (dt U : ℝ) : BWCfg ℝ where
  field := field dt
  dt := dt
  track := false
  tAxis := [0, 1]
  tData := [Real.logb 10 (height U), Real.logb 10 (height U)]
  chiAxis := [top dt, top dt + 1, top dt + 2]
  fractAxis := [1 / 2, 1 / 2]
  fractTable := [[0, 1], [0, 1], [0, 1]]

noncomputable def cfg (dt f U : ℝ) : SimCfg ℝ where
  push := lorentzForce
  field := field dt
  dt := dt
  timeEnd := dt
  procs := [.stochastic (em dt f U), .breitWheeler (bw dt U)]

theorem cfg_pairs (dt f U : ℝ) : QuantumPairs (cfg dt f U) (em dt f U) (bw dt U) :=
  ⟨rfl, rfl, ⟨rfl, rfl⟩, rfl, rfl⟩

/-! ## Lookups -/

theorem interp_const (c q : ℝ) : interpolate1D [0, 1] [c, c] q = .ok c := by
  unfold interpolate1D
  by_cases h0 : q < 0
  · simp [rd, h0]
  · by_cases h1 : 1 < q
    · simp [rd, h1, usub]
    · by_cases h2 : q < 1
      · simp [rd, h0, h2, usub, firstAbove]
      · simp [rd, h0, h2, usub, firstAbove]

theorem closest (a q : ℝ) (h : q ≤ a) : ∃ frac, closestPoints [a, a + 1, a + 2] q = .ok (0, frac) := by
  refine ⟨(q - a) / (a + 1 - a), ?_⟩
  simp [closestPoints, scanLow, usub, rd, not_lt.mpr h]

section lookups

variable {dt f U : ℝ}

theorem strength_pos (hdt : 0 < dt) : 0 < strength dt := by unfold strength; positivity

theorem height_pos (h0 : 0 < U) (h1 : U < 1) : 0 < height U := by
  have : Real.log (1 - U) < 0 := Real.log_neg (by linarith) (by linarith)
  have ha : 0 < (Units.alpha : ℝ) := by simp only [Units.alpha, real_lit]; norm_num
  unfold height
  have : 0 < 1 - Real.log (1 - U) := by linarith
  positivity

theorem log_le_top {x : ℝ} (h0 : 0 < x) (h1 : x ≤ 6 * strength dt) : Dbl.log10 x ≤ top dt := by
  show Real.logb 10 x ≤ _
  exact Real.logb_le_logb_of_le (by norm_num) h0 h1

theorem chi_eq (hdt : 0 < dt) {eta : ℝ} (h0 : 0 < eta) (h1 : eta ≤ 6 * strength dt) (u : ℝ) :
    calculateChi (em dt f U) eta u = .ok (4 * strength dt) := by
  obtain ⟨fr, h⟩ := closest (top dt) (Dbl.log10 eta) (log_le_top h0 h1)
  unfold calculateChi
  rw [show (em dt f U).etaAxis = [top dt, top dt + 1, top dt + 2] from rfl, h]
  simp only [Res.ok_bind]
  simp only [em, rd, List.getElem?_cons_zero, List.getElem?_cons_succ, Res.ok_bind, interp_const]
  have := strength_pos hdt
  simp only [real_lit, real_pow, real_mul, real_sub, real_add]
  rw [show ∀ c : ℝ, ((1 : ℚ) - fr) * c + fr * c = c by intro c; push_cast; ring]
  norm_num
  rw [Real.rpow_logb (by norm_num) (by norm_num) (by positivity)]

theorem split_eq {chi : ℝ} (h0 : 0 < chi) (h1 : chi ≤ 6 * strength dt) (u : ℝ) :
    bwSplit (bw dt U) chi u = .ok (1 / 2) := by
  obtain ⟨fr, h⟩ := closest (top dt) (Dbl.log10 chi) (log_le_top h0 h1)
  unfold bwSplit
  rw [show (bw dt U).chiAxis = [top dt, top dt + 1, top dt + 2] from rfl, h]
  simp only [Res.ok_bind]
  simp only [bw, rd, List.getElem?_cons_zero, List.getElem?_cons_succ, Res.ok_bind, interp_const]
  simp only [real_lit, real_mul, real_sub, real_add]
  rw [show ∀ c : ℝ, ((1 : ℚ) - fr) * c + fr * c = c by intro c; push_cast; ring]

theorem logh_eq (hdt : 0 < dt) (hdt1 : dt ≤ 1) {eta : ℝ} (h : strength dt ≤ eta) :
    emissionLogh (em dt f U) eta = .ok (Real.logb 10 (height U)) := by
  have h1 : 1 / 4 ≤ strength dt := by
    unfold strength
    rw [le_div_iff₀ hdt]
    linarith
  unfold emissionLogh
  rw [if_neg (by simp only [real_lit, real_lt]; norm_num; linarith)]
  exact interp_const _ _

end lookups

/-! ## The push -/

theorem gamma_bounds (p : V3 ℝ) : 0 < pushGamma (1 : ℝ) p ∧ |p.x| ≤ pushGamma (1 : ℝ) p ∧
    |p.z| ≤ pushGamma (1 : ℝ) p := by
  have h : pushGamma (1 : ℝ) p = √(1 + (p.x * p.x + p.y * p.y + p.z * p.z)) := by
    simp [pushGamma, V3.mag2, V3.dot]
  rw [h]
  refine ⟨Real.sqrt_pos.mpr (by nlinarith [sq_nonneg p.x, sq_nonneg p.y, sq_nonneg p.z]), ?_, ?_⟩ <;>
    apply Real.abs_le_sqrt <;> nlinarith [sq_nonneg p.x, sq_nonneg p.y, sq_nonneg p.z]

theorem force_bounds {q b : ℝ} (hq : |q| = 1) (hb : 0 ≤ b) (p : V3 ℝ) :
    |(lorentzForce 1 q p ⟨0, 0, 0⟩ ⟨0, b, 0⟩).x| ≤ b ∧ (lorentzForce 1 q p ⟨0, 0, 0⟩ ⟨0, b, 0⟩).y = 0 ∧
      |(lorentzForce 1 q p ⟨0, 0, 0⟩ ⟨0, b, 0⟩).z| ≤ b := by
  obtain ⟨h0, h1, h2⟩ := gamma_bounds p
  simp only [lorentzForce, V3.smul, V3.add, V3.divs, V3.cross, real_mul, real_add, real_sub, real_div, mul_zero, zero_add,
    one_mul, sub_zero, zero_sub, zero_div, true_and]
  rw [abs_mul, abs_mul, hq, one_mul, one_mul, abs_div, abs_div, abs_of_pos h0, abs_neg, abs_mul, abs_mul, abs_of_nonneg hb,
    div_le_iff₀ h0, div_le_iff₀ h0]
  constructor <;> nlinarith

theorem sum_bound {dt b k1 k2 k3 k4 : ℝ} (hdt : 0 < dt) (hb : b * dt = 1 / 4) (h1 : |k1| ≤ b) (h2 : |k2| ≤ b)
    (h3 : |k3| ≤ b) (h4 : |k4| ≤ b) : |dt / 6 * (k1 + 2 * k2 + 2 * k3 + k4)| ≤ 1 / 4 := by
  rw [abs_le] at *
  constructor <;> nlinarith

theorem rk4_bounds {q b dt : ℝ} (hq : |q| = 1) (hb : 0 ≤ b) (hdt : 0 < dt) (hbdt : b * dt = 1 / 4) (t : ℝ) (x p : V3 ℝ) :
    |(rk4 lorentzForce (staticField ⟨0, 0, 0⟩ ⟨0, b, 0⟩) dt 1 q t x p).2.x - p.x| ≤ 1 / 4 ∧
    (rk4 lorentzForce (staticField ⟨0, 0, 0⟩ ⟨0, b, 0⟩) dt 1 q t x p).2.y = p.y ∧
    |(rk4 lorentzForce (staticField ⟨0, 0, 0⟩ ⟨0, b, 0⟩) dt 1 q t x p).2.z - p.z| ≤ 1 / 4 := by
  unfold rk4 staticField
  dsimp only
  generalize ((lorentzForce 1 q p ⟨0, 0, 0⟩ ⟨0, b, 0⟩).muls dt).divs (Dbl.lit 2) = d1
  generalize hk2 : lorentzForce 1 q (p.add d1) (⟨0, 0, 0⟩ : V3 ℝ) ⟨0, b, 0⟩ = k2
  generalize hk3 : lorentzForce 1 q (p.add ((k2.muls dt).divs (Dbl.lit 2))) (⟨0, 0, 0⟩ : V3 ℝ) ⟨0, b, 0⟩ = k3
  obtain ⟨a1, a2, a3⟩ := force_bounds hq hb p
  obtain ⟨b1, b2, b3⟩ := force_bounds hq hb (p.add d1)
  obtain ⟨c1, c2, c3⟩ := force_bounds hq hb (p.add ((k2.muls dt).divs (Dbl.lit 2)))
  obtain ⟨d1, d2, d3⟩ := force_bounds hq hb (p.add (k3.muls dt))
  rw [hk2] at b1 b2 b3
  rw [hk3] at c1 c2 c3
  generalize lorentzForce 1 q p (⟨0, 0, 0⟩ : V3 ℝ) ⟨0, b, 0⟩ = k1 at *
  generalize lorentzForce 1 q (p.add (k3.muls dt)) (⟨0, 0, 0⟩ : V3 ℝ) ⟨0, b, 0⟩ = k4 at *
  simp only [V3.add, V3.smul, real_add, real_mul, real_div, real_lit]
  refine ⟨?_, ?_, ?_⟩
  · rw [add_sub_cancel_left]
    exact_mod_cast sum_bound hdt hbdt a1 b1 c1 d1
  · rw [a2, b2, c2, d2]
    push_cast
    ring
  · rw [add_sub_cancel_left]
    exact_mod_cast sum_bound hdt hbdt a3 b3 c3 d3

/-- A lepton that has just been made: 9 to 25 is the range of the square of its momentum. -/
structure FreshLepton (L : ℝ) (p : Particle ℝ) : Prop where
  kind : p.kind ≠ .photon
  mass : p.mass = 1
  charge : |p.charge| = 1
  alive : p.isAlive = true
  depth : p.opticalDepth ≤ L
  flat : p.momentum.y = 0
  low : 9 ≤ p.momentum.x ^ 2 + p.momentum.z ^ 2
  high : p.momentum.x ^ 2 + p.momentum.z ^ 2 ≤ 25

/-- The same for a photon. -/
structure FreshPhoton (L : ℝ) (p : Particle ℝ) : Prop where
  kind : p.kind = .photon
  mass : p.mass = 0
  alive : p.isAlive = true
  depth : p.opticalDepth ≤ L
  flat : p.momentum.y = 0
  low : 64 ≤ p.momentum.x ^ 2 + p.momentum.z ^ 2
  high : p.momentum.x ^ 2 + p.momentum.z ^ 2 ≤ 81

def Fresh (L : ℝ) (p : Particle ℝ) : Prop := FreshLepton L p ∨ FreshPhoton L p

theorem push_bounds {dt L : ℝ} (hdt : 0 < dt) {p : Particle ℝ} (h : FreshLepton L p) :
    (pushParticle lorentzForce (field dt) dt p).momentum.y = 0 ∧
    4 ≤ (pushParticle lorentzForce (field dt) dt p).momentum.x ^ 2 +
      (pushParticle lorentzForce (field dt) dt p).momentum.z ^ 2 ∧
    (pushParticle lorentzForce (field dt) dt p).momentum.x ^ 2 +
      (pushParticle lorentzForce (field dt) dt p).momentum.z ^ 2 ≤ 36 := by
  rw [(pushParticle_pos lorentzForce (field dt) dt p h.alive (by rw [h.mass]; norm_num)).2.1, h.mass]
  obtain ⟨h1, h2, h3⟩ := rk4_bounds h.charge (strength_pos hdt).le hdt (by
    unfold strength
    field_simp) p.time p.position p.momentum
  have hf : field dt = staticField ⟨0, 0, 0⟩ ⟨0, strength dt, 0⟩ := rfl
  rw [hf]
  have hl := h.low
  have hh := h.high
  rw [h.flat] at h2
  refine ⟨h2, ?_⟩
  generalize (rk4 lorentzForce (staticField ⟨0, 0, 0⟩ ⟨0, strength dt, 0⟩) dt 1 p.charge p.time p.position p.momentum).2
    = v at *
  generalize p.momentum = m at *
  obtain ⟨a, ha⟩ : ∃ a, v.x = m.x + a := ⟨v.x - m.x, by ring⟩
  obtain ⟨c, hc⟩ : ∃ c, v.z = m.z + c := ⟨v.z - m.z, by ring⟩
  rw [ha, add_sub_cancel_left] at h1
  rw [hc, add_sub_cancel_left] at h3
  rw [ha, hc]
  have a2 : a ^ 2 ≤ 1 / 16 := by rw [← sq_abs]; nlinarith [abs_nonneg a]
  have c2 : c ^ 2 ≤ 1 / 16 := by rw [← sq_abs]; nlinarith [abs_nonneg c]
  constructor
  · nlinarith [sq_nonneg (m.x / 2 + 2 * a), sq_nonneg (m.z / 2 + 2 * c)]
  · nlinarith [sq_nonneg (m.x / 2 - 2 * a), sq_nonneg (m.z / 2 - 2 * c)]

/-! ## Emission -/

/-- A lepton after the push. -/
structure Pushed (L : ℝ) (q : Particle ℝ) : Prop where
  kind : q.kind ≠ .photon
  mass : q.mass = 1
  alive : q.isAlive = true
  depth : q.opticalDepth ≤ L
  flat : q.momentum.y = 0
  low : 4 ≤ q.momentum.x ^ 2 + q.momentum.z ^ 2
  high : q.momentum.x ^ 2 + q.momentum.z ^ 2 ≤ 36

theorem pushed {dt L : ℝ} (hdt : 0 < dt) {p : Particle ℝ} (h : FreshLepton L p) :
    Pushed L (pushParticle lorentzForce (field dt) dt p) := by
  obtain ⟨h1, h2, h3⟩ := push_bounds hdt h
  obtain ⟨i1, i2, i3, i4, i5, i6, i7⟩ := push_identity lorentzForce (field dt) dt p
  exact ⟨by rw [i1]; exact h.kind, by rw [i2, h.mass], by rw [i6, h.alive], by rw [i7]; exact h.depth, h1, h2, h3⟩

/-- The momentum of a lepton after the push. -/
noncomputable def size (q : Particle ℝ) : ℝ := √(q.momentum.x ^ 2 + q.momentum.z ^ 2)

variable {dt f U L : ℝ}

theorem size_sq (q : Particle ℝ) : size q ^ 2 = q.momentum.x ^ 2 + q.momentum.z ^ 2 :=
  Real.sq_sqrt (by positivity)

theorem size_bounds {q : Particle ℝ} (h : Pushed L q) : 2 ≤ size q ∧ size q ≤ 6 := by
  constructor
  · exact Real.le_sqrt_of_sq_le (by norm_num; exact h.low)
  · exact Real.sqrt_le_iff.mpr ⟨by norm_num, by norm_num; exact h.high⟩

theorem mom_ne {v : V3 ℝ} (h : 4 ≤ v.x ^ 2 + v.z ^ 2) : v ≠ ⟨0, 0, 0⟩ := by
  rintro rfl
  norm_num at h

theorem gamma_eq {q : Particle ℝ} (h : Pushed L q) : q.gamma = √(1 + size q ^ 2) := by
  have : q.gamma = √(1 + (q.momentum.x * q.momentum.x + q.momentum.y * q.momentum.y + q.momentum.z * q.momentum.z)) := by
    unfold Particle.gamma
    split
    · exact absurd ‹_› h.kind
    · simp [h.mass, V3.mag2, V3.dot]
  rw [this, size_sq, h.flat]
  congr 1
  ring

theorem gamma_sq {q : Particle ℝ} (h : Pushed L q) : q.gamma ^ 2 = 1 + size q ^ 2 := by
  rw [gamma_eq h, Real.sq_sqrt (by positivity)]

theorem gamma_pos {q : Particle ℝ} (h : Pushed L q) : 0 < q.gamma := by
  rw [gamma_eq h]
  positivity

theorem dir_flat {v : V3 ℝ} (h : v.y = 0) : v.norm.y = 0 := by
  simp [V3.norm, V3.divs, h]

theorem eta_eq (hdt : 0 < dt) {q : Particle ℝ} (h : Pushed L q) : calculateEta (field dt) q = strength dt * size q := by
  have hb := strength_pos hdt
  have hs := size_bounds h
  have hg := gamma_sq h
  have hg0 := gamma_pos h
  have hd : q.direction.dot q.direction = 1 := V3.norm_dot_self (mom_ne h.low)
  have hf : q.direction.y = 0 := dir_flat h.flat
  have hbeta : q.beta = √(1 - 1 / (q.gamma * q.gamma)) := by
    unfold Particle.beta
    split
    · exact absurd ‹_› h.kind
    · simp
  have hbg : q.beta * q.gamma = size q := by
    rw [hbeta, ← Real.sqrt_sq hg0.le, ← Real.sqrt_mul' _ (sq_nonneg _), Real.sqrt_sq hg0.le]
    rw [show (1 - 1 / (q.gamma * q.gamma)) * q.gamma ^ 2 = q.gamma ^ 2 - 1 by field_simp, hg]
    rw [add_sub_cancel_left, Real.sqrt_sq (by linarith)]
  have hb0 : 0 ≤ q.beta := by rw [hbeta]; exact Real.sqrt_nonneg _
  unfold calculateEta field staticField
  dsimp only
  generalize q.direction = d at *
  simp only [V3.dot, real_mul, real_add, hf] at hd
  simp only [V3.add, V3.sub, V3.smul, V3.cross, V3.dot, V3.mag2, real_mul, real_add, real_sub, real_sqrt, real_div, real_pow,
    real_lit, hf, mul_zero, zero_mul, add_zero, zero_add, sub_zero, zero_sub]
  rw [show q.beta * -(d.z * strength dt) * (q.beta * -(d.z * strength dt)) +
      q.beta * (d.x * strength dt) * (q.beta * (d.x * strength dt)) + (0 : ℝ) ^ ((2 : ℚ) : ℝ) / (q.gamma * q.gamma) =
      (q.beta * strength dt) ^ 2 by
    rw [Real.zero_rpow (by norm_num)]
    linear_combination (q.beta * strength dt) ^ 2 * hd, Real.sqrt_sq (by positivity)]
  linear_combination strength dt * hbg

theorem strength_dt (hdt : 0 < dt) : strength dt * dt = 1 / 4 := by
  unfold strength
  field_simp

theorem alpha_pos : 0 < (Units.alpha : ℝ) := by simp only [Units.alpha, real_lit]; norm_num

/-- The depth that the tables are made for. -/
noncomputable def limit (U : ℝ) : ℝ := -Real.log (1 - U)

theorem limit_pos (h0 : 0 < U) (h1 : U < 1) : 0 < limit U := by
  have := Real.log_neg (show 0 < 1 - U by linarith) (by linarith)
  unfold limit
  linarith

theorem height_eq (U : ℝ) : height U * Units.alpha = 20 * (1 + limit U) := by
  have := alpha_pos
  unfold height limit
  field_simp
  ring

theorem emission_rate (hdt : 0 < dt) (h0 : 0 < U) (h1 : U < 1) {q : Particle ℝ} (h : Pushed (limit U) q) :
    limit U < emissionDelta dt (strength dt * size q) (Real.logb 10 (height U)) q.gamma := by
  have hl := limit_pos h0 h1
  have hb := strength_dt hdt
  have hh := height_eq U
  have hs := (size_bounds h).1
  have hg := gamma_sq h
  have hg0 := gamma_pos h
  have h3 : 17 / 10 ≤ √(3 : ℝ) := Real.le_sqrt_of_sq_le (by norm_num)
  have h8 : 8 / 10 * q.gamma ≤ size q := by nlinarith
  unfold emissionDelta
  simp only [real_mul, real_div, real_pow, real_sqrt, real_lit]
  push_cast
  rw [Real.rpow_logb (by norm_num) (by norm_num) (height_pos h0 h1)]
  have hpi : (Units.pi : ℝ) ≤ 63 / 20 ∧ 0 < (Units.pi : ℝ) := by
    simp only [Units.pi, real_lit]
    norm_num
  rw [lt_div_iff₀ (by have := hpi.2; positivity)]
  have e : dt * √3 * Units.alpha * (strength dt * size q) * height U = 5 * √3 * size q * (1 + limit U) := by
    calc _ = (strength dt * dt) * (height U * Units.alpha) * √3 * size q := by ring
      _ = _ := by rw [hb, hh]; ring
  rw [e]
  calc limit U * (q.gamma * 2 * Units.pi) ≤ limit U * (q.gamma * 2 * (63 / 20)) := by
        have := hpi.1
        gcongr
    _ ≤ 5 * (17 / 10) * (8 / 10 * q.gamma) * limit U := by nlinarith [mul_pos hl hg0]
    _ < 5 * (17 / 10) * (8 / 10 * q.gamma) * (1 + limit U) := by
        apply mul_lt_mul_of_pos_left <;> [linarith; positivity]
    _ ≤ 5 * √3 * size q * (1 + limit U) := by gcongr

theorem energy_bounds {q : Particle ℝ} (h : Pushed L q) : 8 ≤ 8 * q.gamma / size q ∧ 8 * q.gamma / size q ≤ 9 := by
  have hs := (size_bounds h).1
  have hg := gamma_sq h
  have hg0 := gamma_pos h
  rw [le_div_iff₀ (by linarith), div_le_iff₀ (by linarith)]
  constructor <;> nlinarith

theorem emits (hdt : 0 < dt) (hdt1 : dt ≤ 1) (h0 : 0 < U) (h1 : U < 1) {q : Particle ℝ} (h : Pushed (limit U) q) (u : ℝ) :
    ∃ delta, Emits (em dt f U) q u delta (8 * q.gamma / size q) := by
  have hb := strength_pos hdt
  have hs := size_bounds h
  have heta : calculateEta (em dt f U).field q = strength dt * size q := eta_eq hdt h
  refine ⟨emissionDelta dt (strength dt * size q) (Real.logb 10 (height U)) q.gamma, ?_, h.alive,
    ⟨_, by rw [heta]; exact logh_eq hdt hdt1 (by nlinarith), by rw [heta]; rfl⟩, ?_, 4 * strength dt, ?_, ?_⟩
  · simp [h.mass]
  · have := emission_rate hdt h0 h1 h
    have := h.depth
    simp only [real_lt, real_sub, real_lit]
    push_cast
    simp only [decide_eq_true_eq]
    linarith
  · rw [heta]
    exact chi_eq hdt (by nlinarith) (by nlinarith) u
  · rw [heta]
    simp only [real_mul, real_div, real_lit]
    push_cast
    have : size q ≠ 0 := by linarith
    field_simp
    ring

theorem depth_le (h1 : U < 1) {u : ℝ} (h : u < U) : initDepth u ≤ limit U := by
  unfold initDepth limit
  simp only [real_mul, real_lit, real_log, real_sub]
  push_cast
  have := Real.log_le_log (show 0 < 1 - U by linarith) (show 1 - U ≤ 1 - u by linarith)
  linarith

theorem along {v : V3 ℝ} (hf : v.y = 0) (hv : v ≠ ⟨0, 0, 0⟩) (g : ℝ) :
    (v.norm.norm.smul g).y = 0 ∧ (v.norm.norm.smul g).x ^ 2 + (v.norm.norm.smul g).z ^ 2 = g ^ 2 := by
  rw [V3.norm_norm hv]
  have h1 := V3.norm_dot_self hv
  have h2 := dir_flat hf
  generalize v.norm = d at *
  simp only [V3.dot, real_add, real_mul, h2] at h1
  simp only [V3.smul, real_mul, h2, mul_zero, true_and]
  linear_combination g ^ 2 * h1

theorem recoil_ne {q : Particle ℝ} (h : Pushed L q) {g : ℝ} (hg : 8 ≤ g) :
    (q.momentum.sub (q.direction.smul g)).y = 0 ∧ q.momentum.sub (q.direction.smul g) ≠ ⟨0, 0, 0⟩ := by
  have hs := size_bounds h
  have hd : q.direction.dot q.direction = 1 := V3.norm_dot_self (mom_ne h.low)
  have hf : q.direction.y = 0 := dir_flat h.flat
  have hsq := size_sq q
  generalize q.direction = d at *
  simp only [V3.dot, real_add, real_mul, hf] at hd
  simp only [V3.sub, V3.smul, real_mul, real_sub, hf, h.flat, mul_zero, sub_zero, true_and]
  intro h0
  simp only [V3.mk.injEq, true_and] at h0
  have : g ^ 2 = size q ^ 2 := by
    rw [hsq, show q.momentum.x = g * d.x by linarith [h0.1], show q.momentum.z = g * d.z by linarith [h0.2]]
    linear_combination -(g ^ 2) * hd
  nlinarith

theorem emission_photon {q : Particle ℝ} (h : Pushed L q) (h1 : U < 1) (delta w t : ℝ) (tr : Bool) {u : ℝ} (hu : u < U) :
    FreshPhoton (limit U) (Particle.newPhotonE (8 * q.gamma / size q) q.position
      (recoiled q delta (8 * q.gamma / size q)).direction w t tr u) := by
  obtain ⟨e1, e2⟩ := energy_bounds h
  obtain ⟨r1, r2⟩ := recoil_ne h e1
  have hm : (recoiled q delta (8 * q.gamma / size q)).momentum =
      q.momentum.sub (q.direction.smul (8 * q.gamma / size q)) := by
    unfold recoiled Particle.updateTrack
    split <;> rfl
  have hd : (recoiled q delta (8 * q.gamma / size q)).direction =
      (q.momentum.sub (q.direction.smul (8 * q.gamma / size q))).norm := by
    unfold Particle.direction
    rw [hm]
    rfl
  rw [hd]
  obtain ⟨a1, a2⟩ := along r1 r2 (8 * q.gamma / size q)
  refine ⟨rfl, by simp [Particle.newPhotonE, Particle.new], rfl, depth_le h1 hu, a1, ?_, ?_⟩
  · show 64 ≤ _ ^ 2 + _ ^ 2
    unfold Particle.newPhotonE Particle.new
    dsimp only
    rw [a2]
    nlinarith
  · unfold Particle.newPhotonE Particle.new
    dsimp only
    rw [a2]
    nlinarith

/-! ## Pairs -/

theorem photon_energy {q : Particle ℝ} (h : FreshPhoton L q) : q.energy ^ 2 = q.momentum.x ^ 2 + q.momentum.z ^ 2 ∧
    8 ≤ q.energy ∧ q.energy ≤ 9 := by
  have : q.energy = √(q.momentum.x ^ 2 + q.momentum.z ^ 2) := by
    unfold Particle.energy
    rw [h.kind]
    simp only [V3.mag, V3.dot, h.flat, real_add, real_mul, real_sqrt]
    congr 1
    ring
  rw [this]
  exact ⟨Real.sq_sqrt (by positivity), Real.le_sqrt_of_sq_le (by norm_num; exact h.low),
    Real.sqrt_le_iff.mpr ⟨by norm_num, by norm_num; exact h.high⟩⟩

theorem bwChi_eq (hdt : 0 < dt) {q : Particle ℝ} (h : FreshPhoton L q) :
    bwChi (field dt) q = 1 / 2 * q.energy * strength dt := by
  have hb := strength_pos hdt
  have hd : q.direction.dot q.direction = 1 := V3.norm_dot_self (mom_ne (by have := h.low; linarith))
  have hf : q.direction.y = 0 := dir_flat h.flat
  unfold bwChi field staticField
  dsimp only
  generalize q.direction = d at *
  simp only [V3.dot, real_mul, real_add, hf] at hd
  simp only [V3.add, V3.sub, V3.smul, V3.cross, V3.dot, V3.mag, real_mul, real_add, real_sub, real_sqrt, real_lit, hf,
    mul_zero, zero_mul, add_zero, zero_add, sub_zero, zero_sub]
  rw [show -(d.z * strength dt) * -(d.z * strength dt) + d.x * strength dt * (d.x * strength dt) = strength dt ^ 2 by
    linear_combination strength dt ^ 2 * hd, Real.sqrt_sq hb.le]
  norm_num

theorem pair_lepton {q : Particle ℝ} (h : FreshPhoton L q) (h1 : U < 1) (delta : ℝ) {c : ℝ} (hc : |c| = 1) (tr : Bool)
    {u : ℝ} (hu : u < U) :
    FreshLepton (limit U) (pairLepton c (1 / 2 * q.energy) (q.updateOpticalDepth delta) tr u) := by
  obtain ⟨e1, e2, e3⟩ := photon_energy h
  have hd : q.direction.dot q.direction = 1 := V3.norm_dot_self (mom_ne (by have := h.low; linarith))
  have hf : q.direction.y = 0 := dir_flat h.flat
  have hdir : (q.updateOpticalDepth delta).direction = q.direction := rfl
  have hsq : √(1 / 2 * q.energy * (1 / 2 * q.energy) - 1) ^ 2 = q.energy ^ 2 / 4 - 1 := by
    rw [Real.sq_sqrt (by nlinarith)]
    ring
  have hmom : (pairLepton c (1 / 2 * q.energy) (q.updateOpticalDepth delta) tr u).momentum =
      q.direction.smul √(1 / 2 * q.energy * (1 / 2 * q.energy) - 1) := by
    unfold pairLepton Particle.newLepton Particle.new
    dsimp only
    rw [hdir]
    simp only [real_sqrt, real_sub, real_mul, real_lit]
    push_cast
    rfl
  have hx : (q.direction.smul √(1 / 2 * q.energy * (1 / 2 * q.energy) - 1)).x ^ 2 +
      (q.direction.smul √(1 / 2 * q.energy * (1 / 2 * q.energy) - 1)).z ^ 2 = q.energy ^ 2 / 4 - 1 := by
    rw [← hsq]
    generalize √(1 / 2 * q.energy * (1 / 2 * q.energy) - 1) = s
    generalize q.direction = d at *
    simp only [V3.dot, real_mul, real_add, hf] at hd
    simp only [V3.smul, real_mul]
    linear_combination s ^ 2 * hd
  refine ⟨?_, ?_, hc, rfl, depth_le h1 hu, ?_, ?_, ?_⟩
  · unfold pairLepton Particle.newLepton Particle.new Particle.leptonKind
    dsimp only
    split <;> simp
  · simp [pairLepton, Particle.newLepton, Particle.new]
  · rw [hmom]
    simp [V3.smul, hf]
  · rw [hmom, hx]
    nlinarith
  · rw [hmom, hx]
    nlinarith

theorem pair_rate (hdt : 0 < dt) (h0 : 0 < U) (h1 : U < 1) {q : Particle ℝ} (h : FreshPhoton L q) :
    limit U < bwDelta dt (1 / 2 * q.energy * strength dt) (Real.logb 10 (height U)) q.energy := by
  have hl := limit_pos h0 h1
  have hb := strength_dt hdt
  have hh := height_eq U
  have he : q.energy ≠ 0 := by linarith [(photon_energy h).2.1]
  unfold bwDelta
  simp only [real_mul, real_div, real_pow, real_lit]
  push_cast
  rw [Real.rpow_logb (by norm_num) (by norm_num) (height_pos h0 h1)]
  rw [show dt * Units.alpha * (1 / 2 * q.energy * strength dt) * height U / q.energy =
    1 / 2 * (strength dt * dt) * (height U * Units.alpha) by field_simp, hb, hh]
  linarith

theorem converts (hdt : 0 < dt) (h0 : 0 < U) (h1 : U < 1) {q : Particle ℝ} (h : FreshPhoton (limit U) q) (l : PList ℝ)
    (r : Rng ℝ) : ∃ delta, bwInteract (bw dt U) q l r = .ok ((q.updateOpticalDepth delta).kill,
      (l.add (pairLepton (Dbl.lit 1) (1 / 2 * q.energy) (q.updateOpticalDepth delta) false r.next.2.next.1)).add
        (pairLepton (Dbl.lit (-1)) (1 / 2 * q.energy) (q.updateOpticalDepth delta) false r.next.2.next.2.next.1),
      r.next.2.next.2.next.2) := by
  have hb := strength_pos hdt
  obtain ⟨-, e2, e3⟩ := photon_energy h
  have hchi : bwChi (bw dt U).field q = 1 / 2 * q.energy * strength dt := bwChi_eq hdt h
  refine ⟨bwDelta dt (1 / 2 * q.energy * strength dt) (Real.logb 10 (height U)) q.energy, ?_⟩
  unfold bwInteract
  rw [if_neg (by simp [Particle.typeName, h.kind, h.alive])]
  dsimp only
  rw [hchi]
  have hi : interpolate1D (bw dt U).tAxis (bw dt U).tData (Dbl.log10 (1 / 2 * q.energy * strength dt)) =
    .ok (Real.logb 10 (height U)) := interp_const _ _
  rw [hi, Res.ok_bind]
  have hu := pair_rate hdt h0 h1 h
  have hd := h.depth
  have hdt' : (bw dt U).dt = dt := rfl
  rw [hdt']
  generalize hdel : bwDelta dt (1 / 2 * q.energy * strength dt) (Real.logb 10 (height U)) q.energy = delta at *
  rw [if_pos (show ((q.updateOpticalDepth delta).opticalDepth <. Dbl.lit 0) = true by
    simp only [Particle.updateOpticalDepth, real_lt, real_sub, real_lit]
    push_cast
    simp only [decide_eq_true_eq]
    linarith), split_eq (by positivity) (by nlinarith), Res.ok_bind]
  have e1 : (1 / 2 : ℝ) *. (q.updateOpticalDepth delta).energy = 1 / 2 * q.energy := rfl
  have e2 : ((Dbl.lit 1 : ℝ) -. (1 / 2 : ℝ)) *. (q.updateOpticalDepth delta).energy = 1 / 2 * q.energy := by
    show ((Dbl.lit 1 : ℝ) -. (1 / 2 : ℝ)) *. q.energy = 1 / 2 * q.energy
    simp only [real_lit, real_sub, real_mul]
    push_cast
    ring
  rw [e1, e2]
  rfl

/-! ## A turn of the loop -/

theorem push_time {p : Particle ℝ} (h : p.isAlive = true) :
    (pushParticle lorentzForce (field dt) dt p).time = p.time + dt := by
  unfold pushParticle
  rw [if_neg (by rw [h]; simp)]
  split
  · unfold Particle.updateTrack Particle.updateTime
    dsimp only
    split <;> rfl
  · unfold Particle.updateTrack Particle.updateTime
    dsimp only
    split <;> rfl

theorem lepton_visit (hdt : 0 < dt) (hdt1 : dt ≤ 1) (h0 : 0 < U) (h1 : U < 1) {p : Particle ℝ}
    (h : FreshLepton (limit U) p) (nm : String) (mx : Nat) (pre post : List (Particle ℝ)) {r : Rng ℝ}
    (hr : Between f U r 4) : ∃ (p' x : Particle ℝ) (r' : Rng ℝ), FreshPhoton (limit U) x ∧ p'.time = p.time + dt ∧
      x.time = p.time + dt ∧ r'.draw = r.draw ∧ r.pos ≤ r'.pos ∧ r'.pos ≤ r.pos + 4 ∧
      visit (cfg dt f U) pre.length ⟨nm, mx, pre ++ p :: post⟩ r =
        .ok ((⟨nm, mx, pre ++ p' :: post⟩ : PList ℝ).add x, r') := by
  have hq := pushed hdt h
  have ht := push_time (dt := dt) h.alive
  set q := pushParticle lorentzForce (field dt) dt p with hqd
  obtain ⟨delta, he⟩ := emits (f := f) hdt hdt1 h0 h1 hq (r.draw r.pos)
  have hstore := stochastic_emit (l := ⟨nm, mx, pre ++ q :: post⟩) (r := r) he
  set g := 8 * q.gamma / size q with hg
  obtain ⟨g1, g2⟩ := energy_bounds hq
  rw [← hg] at g1 g2
  have hpos := (recoiled_fields q delta g).1
  have hkind : (recoiled q delta g).kind = q.kind := by
    unfold recoiled Particle.updateTrack
    split <;> rfl
  have hst : storePhoton (em dt f U) (recoiled q delta g) g ⟨nm, mx, pre ++ q :: post⟩ r.next.2 =
      ((⟨nm, mx, pre ++ q :: post⟩ : PList ℝ).add (Particle.newPhotonE g (recoiled q delta g).position
        (recoiled q delta g).direction ((recoiled q delta g).weight /. f) (recoiled q delta g).time false
        (r.draw (r.pos + 2))), r.next.2.next.2.next.2) := by
    unfold storePhoton
    have hf : f < r.draw (r.pos + 1) := (hr (r.pos + 1) (by omega) (by omega)).1
    have e1 : ((em dt f U).eMin <. g) = true := by
      simp only [em, real_lt, decide_eq_true_eq]
      linarith
    have e2 : ((em dt f U).sampleFrac <. r.next.2.next.1) = true := by
      simp only [em, Rng.next, real_lt, decide_eq_true_eq]
      exact hf
    rw [if_pos e1, if_pos e2]
    rfl
  rw [hst] at hstore
  dsimp only at hstore
  have hfresh := emission_photon hq h1 delta ((recoiled q delta g).weight /. f) (recoiled q delta g).time false
    (hr (r.pos + 2) (by omega) (by omega)).2
  rw [← hg, ← hpos] at hfresh
  have htime : (recoiled q delta g).time = p.time + dt := (recoiled_fields q delta g).2.2.1.trans ht
  have hxt : (Particle.newPhotonE g (recoiled q delta g).position
    (recoiled q delta g).direction ((recoiled q delta g).weight /. f) (recoiled q delta g).time false
        (r.draw (r.pos + 2))).time = p.time + dt := htime
  generalize Particle.newPhotonE g (recoiled q delta g).position
    (recoiled q delta g).direction ((recoiled q delta g).weight /. f) (recoiled q delta g).time false
        (r.draw (r.pos + 2)) = x at *
  set p' := (recoiled q delta g).initOpticalDepth r.next.2.next.2.next.2.next.1 with hp'
  have hk : p'.typeName ≠ "Photon" := by
    have : p'.kind = q.kind := hkind
    unfold Particle.typeName
    rw [this]
    have := hq.kind
    revert this
    cases q.kind <;> simp
  refine ⟨p', x, r.next.2.next.2.next.2.next.2, hfresh, htime, hxt, rfl, ?_, ?_, ?_⟩
  · show r.pos ≤ r.pos + 1 + 1 + 1 + 1
    omega
  · show r.pos + 1 + 1 + 1 + 1 ≤ r.pos + 4
    omega
  have hget : ∀ (z : Particle ℝ) (t : List (Particle ℝ)), (⟨nm, mx, pre ++ z :: t⟩ : PList ℝ).get pre.length = .ok z := by
    intro z t
    rw [PList.get_eq_ok]
    simp
  have hset : ∀ z z' : Particle ℝ, (⟨nm, mx, pre ++ z :: post⟩ : PList ℝ).set pre.length z' =
      ⟨nm, mx, pre ++ z' :: post⟩ := by
    intro z z'
    unfold PList.set
    simp
  have hadd : ((⟨nm, mx, pre ++ q :: post⟩ : PList ℝ).add x).set pre.length p' =
      (⟨nm, mx, pre ++ p' :: post⟩ : PList ℝ).add x := by
    unfold PList.add PList.set
    simp only [List.length_append, List.length_cons]
    split <;> simp
  have hget2 : ((⟨nm, mx, pre ++ p' :: post⟩ : PList ℝ).add x).get pre.length = .ok p' := by
    unfold PList.add
    split
    · rw [PList.get_eq_ok]
      simp
    · exact hget _ _
  unfold visit
  rw [hget, Res.ok_bind]
  have e1 : pushParticle (cfg dt f U).push (cfg dt f U).field (cfg dt f U).dt p = q := rfl
  rw [e1, hset]
  have e2 : (cfg dt f U).procs = [.stochastic (em dt f U), .breitWheeler (bw dt U)] := rfl
  rw [e2, interactAll]
  have i1 : interactAt (.stochastic (em dt f U)) pre.length ⟨nm, mx, pre ++ q :: post⟩ r =
      .ok ((⟨nm, mx, pre ++ p' :: post⟩ : PList ℝ).add x, r.next.2.next.2.next.2.next.2) := by
    unfold interactAt
    rw [hget, Res.ok_bind]
    show (stochasticInteract (em dt f U) q ⟨nm, mx, pre ++ q :: post⟩ r >>= fun x =>
      Res.ok (x.2.1.set pre.length x.1, x.2.2)) = _
    rw [hstore, Res.ok_bind]
    dsimp only
    rw [hadd]
  rw [i1, Res.ok_bind]
  dsimp only
  rw [interactAll]
  have i2 : interactAt (.breitWheeler (bw dt U)) pre.length ((⟨nm, mx, pre ++ p' :: post⟩ : PList ℝ).add x)
      r.next.2.next.2.next.2.next.2 = .ok ((⟨nm, mx, pre ++ p' :: post⟩ : PList ℝ).add x,
        r.next.2.next.2.next.2.next.2) := by
    unfold interactAt
    rw [hget2, Res.ok_bind]
    show (bwInteract (bw dt U) p' _ _ >>= fun x => Res.ok (x.2.1.set pre.length x.1, x.2.2)) = _
    unfold bwInteract
    rw [if_pos (Or.inl hk), Res.ok_bind]
    dsimp only
    congr 2
    unfold PList.add PList.set
    split <;> simp
  rw [i2, Res.ok_bind]
  rfl

theorem photon_push {p : Particle ℝ} (h : FreshPhoton L p) :
    FreshPhoton L (pushParticle lorentzForce (field dt) dt p) := by
  obtain ⟨i1, i2, i3, i4, i5, i6, i7⟩ := push_identity lorentzForce (field dt) dt p
  have hm : (pushParticle lorentzForce (field dt) dt p).momentum = p.momentum := by
    unfold pushParticle
    rw [if_neg (by rw [h.alive]; simp), if_pos (by rw [h.mass]; simp)]
    unfold Particle.updateTrack Particle.updateTime
    dsimp only
    split <;> rfl
  exact ⟨by rw [i1, h.kind], by rw [i2, h.mass], by rw [i6, h.alive], by rw [i7]; exact h.depth, by rw [hm, h.flat],
    by rw [hm]; exact h.low, by rw [hm]; exact h.high⟩

theorem photon_visit (hdt : 0 < dt) (h0 : 0 < U) (h1 : U < 1) {p : Particle ℝ}
    (h : FreshPhoton (limit U) p) (nm : String) (mx : Nat) (pre post : List (Particle ℝ)) {r : Rng ℝ}
    (hr : Between f U r 4) : ∃ (p' x y : Particle ℝ) (r' : Rng ℝ), FreshLepton (limit U) x ∧ FreshLepton (limit U) y ∧
      p'.time = p.time + dt ∧ x.time = p.time + dt ∧ y.time = p.time + dt ∧ r'.draw = r.draw ∧ r.pos ≤ r'.pos ∧ r'.pos ≤ r.pos + 4 ∧
      visit (cfg dt f U) pre.length ⟨nm, mx, pre ++ p :: post⟩ r =
        .ok (((⟨nm, mx, pre ++ p' :: post⟩ : PList ℝ).add x).add y, r') := by
  have hq := photon_push (dt := dt) h
  have ht := push_time (dt := dt) h.alive
  set q := pushParticle lorentzForce (field dt) dt p with hqd
  obtain ⟨delta, hc⟩ := converts hdt h0 h1 hq ⟨nm, mx, pre ++ q :: post⟩ r
  have hx := pair_lepton hq h1 delta (c := Dbl.lit 1) (by simp [real_lit]) false (u := r.next.2.next.1)
    (hr (r.pos + 1) (by omega) (by omega)).2
  have hy := pair_lepton hq h1 delta (c := Dbl.lit (-1)) (by simp [real_lit]) false (u := r.next.2.next.2.next.1)
    (hr (r.pos + 2) (by omega) (by omega)).2
  have t1 : ((q.updateOpticalDepth delta).kill).time = p.time + dt := ht
  have t2 : (pairLepton (Dbl.lit 1) (1 / 2 * q.energy) (q.updateOpticalDepth delta) false r.next.2.next.1).time =
    p.time + dt := ht
  have t3 : (pairLepton (Dbl.lit (-1)) (1 / 2 * q.energy) (q.updateOpticalDepth delta) false
    r.next.2.next.2.next.1).time = p.time + dt := ht
  generalize pairLepton (Dbl.lit 1) (1 / 2 * q.energy) (q.updateOpticalDepth delta) false r.next.2.next.1 = x at *
  generalize pairLepton (Dbl.lit (-1)) (1 / 2 * q.energy) (q.updateOpticalDepth delta) false r.next.2.next.2.next.1 = y
    at *
  generalize (q.updateOpticalDepth delta).kill = p' at *
  refine ⟨p', x, y, r.next.2.next.2.next.2, hx, hy, t1, t2, t3, rfl, ?_, ?_, ?_⟩
  · show r.pos ≤ r.pos + 1 + 1 + 1
    omega
  · show r.pos + 1 + 1 + 1 ≤ r.pos + 4
    omega
  have hget : ∀ (z : Particle ℝ) (t : List (Particle ℝ)), (⟨nm, mx, pre ++ z :: t⟩ : PList ℝ).get pre.length = .ok z := by
    intro z t
    rw [PList.get_eq_ok]
    simp
  have hset : ∀ (z z' : Particle ℝ) (t : List (Particle ℝ)), (⟨nm, mx, pre ++ z :: t⟩ : PList ℝ).set pre.length z' =
      ⟨nm, mx, pre ++ z' :: t⟩ := by
    intro z z' t
    unfold PList.set
    simp
  have hadd : (((⟨nm, mx, pre ++ q :: post⟩ : PList ℝ).add x).add y).set pre.length p' =
      ((⟨nm, mx, pre ++ p' :: post⟩ : PList ℝ).add x).add y := by
    unfold PList.add PList.set
    simp only [List.length_append, List.length_cons]
    split <;> simp <;> split <;> simp
  unfold visit
  rw [hget, Res.ok_bind]
  have e1 : pushParticle (cfg dt f U).push (cfg dt f U).field (cfg dt f U).dt p = q := rfl
  rw [e1, hset]
  have e2 : (cfg dt f U).procs = [.stochastic (em dt f U), .breitWheeler (bw dt U)] := rfl
  rw [e2, interactAll]
  have i1 : interactAt (.stochastic (em dt f U)) pre.length ⟨nm, mx, pre ++ q :: post⟩ r =
      .ok (⟨nm, mx, pre ++ q :: post⟩, r) := by
    unfold interactAt
    rw [hget, Res.ok_bind]
    show (stochasticInteract (em dt f U) q ⟨nm, mx, pre ++ q :: post⟩ r >>= fun x =>
      Res.ok (x.2.1.set pre.length x.1, x.2.2)) = _
    unfold stochasticInteract
    rw [if_pos (by rw [hq.mass]; simp), Res.ok_bind]
    dsimp only
    rw [hset]
  rw [i1, Res.ok_bind]
  dsimp only
  rw [interactAll]
  have i2 : interactAt (.breitWheeler (bw dt U)) pre.length ⟨nm, mx, pre ++ q :: post⟩ r =
      .ok (((⟨nm, mx, pre ++ p' :: post⟩ : PList ℝ).add x).add y, r.next.2.next.2.next.2) := by
    unfold interactAt
    rw [hget, Res.ok_bind]
    show (bwInteract (bw dt U) q ⟨nm, mx, pre ++ q :: post⟩ r >>= fun x =>
      Res.ok (x.2.1.set pre.length x.1, x.2.2)) = _
    rw [hc, Res.ok_bind]
    dsimp only
    rw [hadd]
  rw [i2, Res.ok_bind]
  rfl

/-- A turn of the loop adds new particles unless the list is full. -/
theorem fresh_visit (hdt : 0 < dt) (hdt1 : dt ≤ 1) (h0 : 0 < U) (h1 : U < 1) {p : Particle ℝ}
    (h : Fresh (limit U) p) (nm : String) (mx : Nat) (pre post : List (Particle ℝ)) {r : Rng ℝ}
    (hmx : (pre ++ p :: post).length ≤ mx) (hr : Between f U r 4) :
    ∃ (p' : Particle ℝ) (new : List (Particle ℝ)) (r' : Rng ℝ), (∀ x ∈ new, Fresh (limit U) x ∧ x.time = p.time + dt) ∧
      p'.time = p.time + dt ∧ new.length ≤ 2 ∧
      (new = [] → (pre ++ p :: post).length = mx) ∧ (pre ++ p :: post).length + new.length ≤ mx ∧
      r'.draw = r.draw ∧ r.pos ≤ r'.pos ∧ r'.pos ≤ r.pos + 4 ∧
      visit (cfg dt f U) pre.length ⟨nm, mx, pre ++ p :: post⟩ r =
        .ok (⟨nm, mx, (pre ++ [p']) ++ (post ++ new)⟩, r') := by
  have hl : ∀ p', (pre ++ p' :: post).length = (pre ++ p :: post).length := by intro p'; simp
  rcases h with h | h
  · obtain ⟨p', x, r', a1, t1, t2, a2, a3, a4, a5⟩ := lepton_visit hdt hdt1 h0 h1 h nm mx pre post hr
    by_cases hm : (pre ++ p :: post).length < mx
    · refine ⟨p', [x], r', fun z hz => by rw [List.mem_singleton.mp hz]; exact ⟨Or.inr a1, t2⟩, t1, by simp, by simp, by simpa using hm, a2, a3, a4, a5.trans ?_⟩
      unfold PList.add
      dsimp only
      rw [hl, if_pos hm]
      simp
    · refine ⟨p', [], r', by simp, t1, by simp, fun _ => by omega, by simpa using hmx, a2, a3, a4, a5.trans ?_⟩
      unfold PList.add
      dsimp only
      rw [hl, if_neg hm]
      simp
  · obtain ⟨p', x, y, r', a0, a1, t1, t2, t3, a2, a3, a4, a5⟩ := photon_visit hdt h0 h1 h nm mx pre post hr
    by_cases hm : (pre ++ p :: post).length < mx
    · by_cases hm' : (pre ++ p :: post).length + 1 < mx
      · refine ⟨p', [x, y], r', ?_, t1, by simp, by simp, by simp at hm' ⊢; omega, a2, a3, a4, a5.trans ?_⟩
        · intro z hz
          simp only [List.mem_cons, List.not_mem_nil, or_false] at hz
          rcases hz with rfl | rfl
          · exact ⟨Or.inl a0, t2⟩
          · exact ⟨Or.inl a1, t3⟩
        · unfold PList.add
          dsimp only
          rw [hl, if_pos hm]
          dsimp only
          rw [List.length_append, hl, List.length_singleton, if_pos hm']
          simp
      · refine ⟨p', [x], r', fun z hz => by rw [List.mem_singleton.mp hz]; exact ⟨Or.inl a0, t2⟩, t1, by simp, by simp, by simpa using hm, a2, a3, a4, a5.trans ?_⟩
        unfold PList.add
        dsimp only
        rw [hl, if_pos hm]
        dsimp only
        rw [List.length_append, hl, List.length_singleton, if_neg hm']
        simp
    · refine ⟨p', [], r', by simp, t1, by simp, fun _ => by omega, by simpa using hmx, a2, a3, a4, a5.trans ?_⟩
      unfold PList.add
      dsimp only
      rw [hl, if_neg hm]
      dsimp only
      rw [hl, if_neg hm]
      simp

/-- Every particle's clock shows at least its generation. -/
def Clocked (dt : ℝ) (l : List (Particle ℝ)) : Prop := ∀ i p, l[i]? = some p → Nat.log 2 (i + 1) * dt ≤ p.time

theorem timed_step (hdt : 0 < dt) {pre post new : List (Particle ℝ)} {p p' : Particle ℝ} (h : Clocked dt (pre ++ p :: post))
    (hp : p'.time = p.time + dt) (hn : ∀ x ∈ new, x.time = p.time + dt) (hl : new.length ≤ 2)
    (hpost : post.length ≤ pre.length) : Clocked dt ((pre ++ [p']) ++ (post ++ new)) := by
  have h0 := h pre.length p (by simp)
  intro i q hq
  rw [← List.append_assoc] at hq
  by_cases hi : i < (pre ++ [p'] ++ post).length
  · rw [List.getElem?_append_left hi] at hq
    rw [List.append_assoc, List.singleton_append] at hq
    rcases lt_trichotomy i pre.length with h1 | h1 | h1
    · rw [List.getElem?_append_left h1] at hq
      exact h i q (by rw [List.getElem?_append_left h1]; exact hq)
    · subst h1
      simp only [List.getElem?_append_right le_rfl, Nat.sub_self, List.getElem?_cons_zero, Option.some.injEq] at hq
      rw [← hq, hp]
      linarith
    · rw [List.getElem?_append_right h1.le] at hq
      obtain ⟨j, hj⟩ : ∃ j, i - pre.length = j + 1 := ⟨i - pre.length - 1, by omega⟩
      refine h i q ?_
      rw [List.getElem?_append_right h1.le]
      rw [hj, List.getElem?_cons_succ] at hq ⊢
      exact hq
  · have hi' := not_lt.mp hi
    rw [List.getElem?_append_right hi'] at hq
    have hmem := List.mem_of_getElem? hq
    obtain ⟨hb, -⟩ := List.getElem?_eq_some_iff.mp hq
    rw [hn q hmem]
    simp only [List.length_append, List.length_singleton] at hb hi'
    have h1 : Nat.log 2 (i + 1) ≤ Nat.log 2 (pre.length + 1) + 1 := by
      rw [← Nat.log_mul_base (by norm_num) (by omega)]
      calc Nat.log 2 (i + 1) ≤ Nat.log 2 ((pre.length + 1) * 2 + 1) := Nat.log_mono_right (by omega)
        _ = Nat.log 2 ((pre.length + 1) * 2) := by
          rw [← Nat.log_div_mul_self 2 ((pre.length + 1) * 2 + 1)]
          congr 1
          omega
    have h2 : (Nat.log 2 (i + 1) : ℝ) ≤ Nat.log 2 (pre.length + 1) + 1 := by exact_mod_cast h1
    nlinarith

/-- The loop goes on until the list is full. -/
theorem fresh_loop (hdt : 0 < dt) (hdt1 : dt ≤ 1) (h0 : 0 < U) (h1 : U < 1) (nm : String) (mx fuel : Nat) :
    ∀ (pre post : List (Particle ℝ)) (r : Rng ℝ), (∀ x ∈ post, Fresh (limit U) x) →
      (post = [] → pre.length = mx) → pre.length + post.length ≤ mx → mx ≤ pre.length + fuel →
      post.length ≤ pre.length + 1 → Clocked dt (pre ++ post) →
      Between f U r (4 * fuel) → ∃ (l' : PList ℝ) (r' : Rng ℝ),
        particleLoop (cfg dt f U) fuel pre.length ⟨nm, mx, pre ++ post⟩ r = .ok (l', r') ∧ l'.items.length = mx ∧
          Clocked dt l'.items := by
  induction fuel with
  | zero =>
    intro pre post r _ _ h3 h4 _ ht _
    exact ⟨_, _, rfl, by simp; omega, ht⟩
  | succ fuel ih =>
    intro pre post r hf hne h3 h4 h5 ht hr
    cases post with
    | nil =>
      refine ⟨⟨nm, mx, pre ++ []⟩, r, ?_, by simpa using hne rfl, ht⟩
      rw [particleLoop, if_neg (by simp [PList.nPart])]
    | cons p post =>
      rw [List.length_cons] at h3 h5
      obtain ⟨p', new, r', a1, at1, at2, a2, a3, a4, a5, a6, a7⟩ := fresh_visit (f := f) hdt hdt1 h0 h1 (hf p (by simp))
        nm mx pre post (r := r) (by simpa using h3) (fun i hi hi' => hr i hi (by omega))
      simp only [List.length_append, List.length_cons] at a2 a3
      have hlen : (pre ++ [p']).length = pre.length + 1 := by simp
      obtain ⟨l', r'', b1, b2⟩ := ih (pre ++ [p']) (post ++ new) r' (by
          intro x hx
          rcases List.mem_append.mp hx with hx | hx
          · exact hf x (by simp [hx])
          · exact (a1 x hx).1) (by
          intro hnil
          obtain ⟨n1, n2⟩ := List.append_eq_nil_iff.mp hnil
          have := a2 n2
          rw [n1, List.length_nil] at this
          rw [hlen]
          omega) (by rw [hlen, List.length_append]; omega) (by rw [hlen]; omega)
          (by rw [hlen, List.length_append]; omega)
          (timed_step hdt ht at1 (fun x hx => (a1 x hx).2) at2 (by omega)) (by
          intro i hi hi'
          rw [a4]
          exact hr i (by omega) (by omega))
      refine ⟨l', r'', ?_, b2⟩
      rw [particleLoop, if_pos (by simp [PList.nPart]), a7, Res.ok_bind]
      dsimp only
      rw [← hlen]
      exact b1

/-! ## A single process -/

/-- The particles that a process acts on. -/
noncomputable def acts : Proc ℝ → Particle ℝ → Bool
  | .stochastic _, p => decide (p.mass ≠ 0)
  | .continuous _ _, p => decide (p.mass ≠ 0)
  | .breitWheeler _, p => decide (p.kind = .photon)

/-- The number of particles that it makes. -/
def yields : Proc ℝ → Nat
  | .stochastic _ => 1
  | .continuous _ _ => 1
  | .breitWheeler _ => 2

theorem add_adds (l : PList ℝ) (x : Particle ℝ) : (l.add x).name = l.name ∧
    (l.add x).maxParticles = l.maxParticles ∧ ∃ new : List (Particle ℝ), (l.add x).items = l.items ++ new ∧
      (∀ y ∈ new, y = x) ∧ new.length ≤ 1 := by
  refine ⟨?_, ?_, _, PList.add_items _ _, ?_, ?_⟩
  · unfold PList.add; split <;> rfl
  · unfold PList.add; split <;> rfl
  · intro y hy
    simpa using List.mem_of_mem_take hy
  · rw [List.length_take]
    exact min_le_right _ _

theorem interact_adds {proc : Proc ℝ} {p p' : Particle ℝ} {l l' : PList ℝ} {r r' : Rng ℝ}
    (h : proc.interact p l r = .ok (p', l', r')) :
    acts proc p' = acts proc p ∧ l'.name = l.name ∧ l'.maxParticles = l.maxParticles ∧
      ∃ new : List (Particle ℝ), l'.items = l.items ++ new ∧ (∀ x ∈ new, acts proc x = false) ∧
        new.length ≤ if acts proc p = true then yields proc else 0 := by
  cases proc with
  | stochastic e =>
    obtain ⟨a1, a2, a3, new, a4, a5, a6⟩ := Tally.interact_adds h
    refine ⟨by simp [acts, a1], a2, a3, new, a4, fun x hx => by simp [acts, a5 x hx], ?_⟩
    by_cases hm : p.mass = 0
    · simpa [acts, hm] using a6
    · simpa [acts, hm, yields] using a6
  | continuous e c =>
    obtain ⟨rfl, -, h1 | ⟨⟨hm, -⟩, -, logh, chi, u, -, -, -, h1⟩⟩ := continuous_cases h
    · exact ⟨rfl, by rw [h1], by rw [h1], [], by simp [h1], by simp, by simp⟩
    · obtain ⟨b1, b2, new, b3, b4, b5⟩ := add_adds l (Particle.newPhotonE (Dbl.lit 2 *. chi *. p'.gamma /.
        calculateEta e.field p') p'.position p'.direction (p'.weight *. emissionDelta e.dt (calculateEta e.field p') logh
          p'.gamma /. e.sampleFrac) p'.time e.track u)
      rw [h1]
      refine ⟨rfl, b1, b2, new, b3, fun x hx => ?_, ?_⟩
      · rw [b4 x hx]
        simp [acts, Particle.newPhotonE, Particle.new]
      · have hm0 : p'.mass ≠ 0 := by simpa using hm
        simpa [acts, hm0, yields] using b5
  | breitWheeler w =>
    rcases bw_cases h with ⟨-, rfl, rfl, -⟩ | ⟨⟨hk, -⟩, delta, logt, -, -, ⟨-, h1, rfl, -⟩ | ⟨-, h1, -, sp, u, v, -, -, -, h2⟩⟩
    · exact ⟨rfl, rfl, rfl, [], by simp, by simp, by simp⟩
    · exact ⟨by rw [h1]; rfl, rfl, rfl, [], by simp, by simp, by simp⟩
    · obtain ⟨b1, b2, new, b3, b4, b5⟩ := add_adds l (pairLepton (Dbl.lit 1) (sp *. p.energy) p w.track u)
      obtain ⟨c1, c2, new', c3, c4, c5⟩ := add_adds (l.add (pairLepton (Dbl.lit 1) (sp *. p.energy) p w.track u))
        (pairLepton (Dbl.lit (-1)) ((Dbl.lit 1 -. sp) *. p.energy) p w.track v)
      have hn : ∀ (c en : ℝ) (u : ℝ), acts (.breitWheeler w) (pairLepton c en p w.track u) = false := by
        intro c en u
        unfold acts pairLepton Particle.newLepton Particle.new Particle.leptonKind
        dsimp only
        split <;> simp
      rw [h2]
      refine ⟨by rw [h1]; rfl, c1.trans b1, c2.trans b2, new ++ new', by rw [c3, b3, List.append_assoc], fun x hx => ?_, ?_⟩
      · rcases List.mem_append.mp hx with hx | hx
        · rw [b4 x hx, hn]
        · rw [c4 x hx, hn]
      · simp only [acts, hk, decide_true, if_true, yields, List.length_append]
        omega

theorem push_acts (proc : Proc ℝ) (push : PushMom ℝ) (fld : Field ℝ) (dt : ℝ) (p : Particle ℝ) :
    acts proc (pushParticle push fld dt p) = acts proc p := by
  obtain ⟨i1, i2, -⟩ := push_identity push fld dt p
  cases proc <;> simp [acts, i1, i2]

theorem visit_adds {cfg : SimCfg ℝ} {proc : Proc ℝ} (hp : cfg.procs = [proc]) {nm : String} {mx : Nat}
    {pre post : List (Particle ℝ)} {p : Particle ℝ} {r r' : Rng ℝ} {l' : PList ℝ}
    (h : visit cfg pre.length ⟨nm, mx, pre ++ p :: post⟩ r = .ok (l', r')) :
    ∃ (p' : Particle ℝ) (new : List (Particle ℝ)), l' = ⟨nm, mx, (pre ++ [p']) ++ (post ++ new)⟩ ∧
      (∀ x ∈ new, acts proc x = false) ∧ new.length ≤ if acts proc p = true then yields proc else 0 := by
  unfold visit at h
  set q := pushParticle cfg.push cfg.field cfg.dt p with hq
  have hget : ∀ z : Particle ℝ, (⟨nm, mx, pre ++ z :: post⟩ : PList ℝ).get pre.length = .ok z := by
    intro z
    rw [PList.get_eq_ok]
    simp
  rw [hget, Res.ok_bind, hp, interactAll, Res.bind_eq_ok] at h
  obtain ⟨⟨l1, r1⟩, h1, h2⟩ := h
  have hset : (⟨nm, mx, pre ++ p :: post⟩ : PList ℝ).set pre.length q = ⟨nm, mx, pre ++ q :: post⟩ := by
    unfold PList.set
    simp
  rw [← hq, hset] at h1
  unfold interactAt at h1
  rw [hget, Res.ok_bind] at h1
  replace h1 : (proc.interact q ⟨nm, mx, pre ++ q :: post⟩ r >>= fun x =>
    Res.ok (x.2.1.set pre.length x.1, x.2.2)) = .ok (l1, r1) := h1
  rw [Res.bind_eq_ok] at h1
  obtain ⟨⟨p', l2, r2⟩, h3, h4⟩ := h1
  obtain ⟨-, a2, a3, new, a4, a5, a6⟩ := interact_adds h3
  cases h2
  cases h4
  rw [hq, push_acts] at a6
  refine ⟨p', new, ?_, a5, a6⟩
  unfold PList.set
  rw [a2, a3, a4]
  simp

theorem loop_adds {cfg : SimCfg ℝ} {proc : Proc ℝ} (hp : cfg.procs = [proc]) {fuel : Nat} {nm : String} {mx : Nat} :
    ∀ {pre post : List (Particle ℝ)} {r r' : Rng ℝ} {l' : PList ℝ},
      particleLoop cfg fuel pre.length ⟨nm, mx, pre ++ post⟩ r = .ok (l', r') →
      l'.items.length ≤ pre.length + post.length + yields proc * post.countP (acts proc) := by
  induction fuel with
  | zero =>
    intro pre post r r' l' h
    cases h
    simp
  | succ fuel ih =>
    intro pre post r r' l' h
    rw [particleLoop] at h
    cases post with
    | nil =>
      rw [if_neg (by simp [PList.nPart])] at h
      cases h
      simp
    | cons p post =>
      rw [if_pos (by simp [PList.nPart]), Res.bind_eq_ok] at h
      obtain ⟨⟨l1, r1⟩, h1, h2⟩ := h
      obtain ⟨p', new, rfl, h3, h4⟩ := visit_adds hp h1
      have hlen : (pre ++ [p']).length = pre.length + 1 := by simp
      rw [← hlen] at h2
      have g1 := ih h2
      have hz : new.countP (acts proc) = 0 := by
        rw [List.countP_eq_zero]
        intro x hx
        simp [h3 x hx]
      rw [hlen, List.length_append, List.countP_append, hz] at g1
      simp only [Nat.add_zero] at g1
      rw [List.length_cons, List.countP_cons]
      by_cases ha : acts proc p = true
      · rw [if_pos ha] at h4 ⊢
        rw [Nat.mul_add]
        omega
      · rw [if_neg ha] at h4 ⊢
        simp only [Nat.add_zero]
        omega

/-! ## The whole step -/

theorem timeStep_full (hdt : 0 < dt) (hdt1 : dt ≤ 1) (h0 : 0 < U) (h1 : U < 1) {p : Particle ℝ}
    (h : FreshLepton (limit U) p) (ht : 0 ≤ p.time) (nm : String) {mx : Nat} (hmx : 0 < mx)
    {r : Rng ℝ} (hr : Between f U r (4 * mx)) :
    ∃ t, timeStep (cfg dt f U) (.init ⟨nm, mx, [p]⟩ r []) = .ok t ∧ t.time = dt ∧
      t.list.items.length = mx ∧ ∃ q ∈ t.list.items, Nat.log 2 mx * dt ≤ q.time := by
  obtain ⟨l', r', a1, a2, a3⟩ := fresh_loop (f := f) hdt hdt1 h0 h1 nm mx mx [] [p] r
    (fun q hq => by rw [List.mem_singleton.mp hq]; exact Or.inl h) (by simp) (by simp; omega) (by simp)
    (by simp) (by
      intro i q hq
      cases i with
      | zero =>
        simp only [List.nil_append, List.getElem?_cons_zero, Option.some.injEq] at hq
        rw [← hq]
        simpa using ht
      | succ i => simp at hq) hr
  refine ⟨⟨l', r', (0 : ℝ) + dt, 0, []⟩, ?_, zero_add dt, a2, ?_⟩
  · have e1 : histStep (.init ⟨nm, mx, [p]⟩ r [] : EvState ℝ) = .ok (.init ⟨nm, mx, [p]⟩ r []) := rfl
    have e2 : advance (cfg dt f U) ⟨nm, mx, [p]⟩ r = .ok (l', r') := a1
    unfold timeStep
    rw [e1, Res.ok_bind]
    show (advance (cfg dt f U) ⟨nm, mx, [p]⟩ r >>= fun x => _) = _
    rw [e2, Res.ok_bind]
    simp [EvState.init, cfg]
  · obtain ⟨q, hq⟩ : ∃ q, l'.items[mx - 1]? = some q :=
      ⟨l'.items[mx - 1], List.getElem?_eq_getElem (by omega)⟩
    refine ⟨q, List.mem_of_getElem? hq, ?_⟩
    have := a3 (mx - 1) q hq
    rwa [Nat.sub_add_cancel hmx] at this

open MeasureTheory in
theorem likelihood_ge (hf : 0 ≤ f) (hU : U ≤ 1) : ∀ (N : Nat) (A : List ℝ → Prop),
    (∀ us : List ℝ, us.length = N → (∀ u ∈ us, f < u ∧ u < U) → A us) → ENNReal.ofReal (U - f) ^ N ≤ likelihood N A := by
  intro N
  induction N with
  | zero =>
    intro A h
    have : A [] := h [] rfl (by simp)
    simp [likelihood, average, indic, this]
  | succ N ih =>
    intro A h
    unfold likelihood
    rw [average]
    calc ENNReal.ofReal (U - f) ^ (N + 1) = ∫⁻ _ in Set.Ioo f U, ENNReal.ofReal (U - f) ^ N := by
          rw [setLIntegral_const, Real.volume_Ioo, pow_succ]
      _ ≤ ∫⁻ u in Set.Ioo f U, average N fun us => indic (A (u :: us)) := by
          refine setLIntegral_mono' measurableSet_Ioo fun u hu => ih _ fun us hl hus => ?_
          refine h _ (by simp [hl]) fun v hv => ?_
          rcases List.mem_cons.mp hv with rfl | hv
          · exact hu
          · exact hus v hv
      _ ≤ _ := lintegral_mono_set (show Set.Ioo f U ⊆ Set.Ico 0 1 from fun u hu => ⟨hf.trans hu.1.le, hu.2.trans_le hU⟩)

end QED.Generations
