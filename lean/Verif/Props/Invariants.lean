import Verif.Spec.Invariant
import Verif.Model.Processes
import Verif.Model.Pushers
import Verif.Lemmas.Witness
import Verif.Lemmas.Emission
import Verif.Props.Geometry
import Mathlib.Tactic.LinearCombination
import Mathlib.Tactic.FieldSimp
import Mathlib.Tactic.Ring
import Mathlib.Tactic.Linarith
import Mathlib.Tactic.Positivity

set_option autoImplicit false

/-!
# Property C102: eta and chi are the Lorentz-invariant quantum parameters
-/

namespace QED

open Dbl

/-- The quantum parameter written out. -/
theorem quantumParameter_eq (e b p : V3 ℝ) (t : ℝ) :
    quantumParameter (fieldTensor e b) (fourVector t p) =
      Real.sqrt ((t * e.x + (p.y * b.z - p.z * b.y)) ^ 2 + (t * e.y + (p.z * b.x - p.x * b.z)) ^ 2 +
        (t * e.z + (p.x * b.y - p.y * b.x)) ^ 2 - (p.x * e.x + p.y * e.y + p.z * e.z) ^ 2) := by
  unfold quantumParameter minkowski
  congr 1
  simp [metric, fieldTensor, fourVector, Matrix.mulVec, dotProduct, Fin.sum_univ_succ]
  ring

/-- The quantum parameter is the same in all inertial frames. -/
theorem quantumParameter_lorentz {L : Matrix (Fin 4) (Fin 4) ℝ} (hL : IsLorentz L)
    (F : Matrix (Fin 4) (Fin 4) ℝ) (p : Fin 4 → ℝ) :
    quantumParameter (L * F * L.transpose) (L.mulVec p) = quantumParameter F p := by
  have h1 : (L * F * L.transpose).mulVec (metric.mulVec (L.mulVec p)) =
      L.mulVec (F.mulVec (metric.mulVec p)) := by
    simp only [Matrix.mulVec_mulVec]
    rw [show L * F * L.transpose * (metric * L) = L * F * (L.transpose * metric * L) by
      simp only [Matrix.mul_assoc], hL, Matrix.mul_assoc]
  have h2 : ∀ a : Fin 4 → ℝ, minkowski (L.mulVec a) = minkowski a := by
    intro a
    unfold minkowski
    rw [Matrix.mulVec_mulVec, Matrix.dotProduct_mulVec, Matrix.vecMul_mulVec, ← Matrix.dotProduct_mulVec,
      ← Matrix.mul_assoc, hL]
  unfold quantumParameter
  rw [h1, h2]

/-- The squared transverse force in the code, for a unit vector `n`. -/
theorem transverse_square (e b n : V3 ℝ) (hn : n.x ^ 2 + n.y ^ 2 + n.z ^ 2 = 1) (v : ℝ) :
    ((e.sub (V3.smul (e.dot n) n)).add (V3.smul v (n.cross b))).mag2 =
      (e.x + v * (n.y * b.z - n.z * b.y)) ^ 2 + (e.y + v * (n.z * b.x - n.x * b.z)) ^ 2 +
        (e.z + v * (n.x * b.y - n.y * b.x)) ^ 2 - (n.x * e.x + n.y * e.y + n.z * e.z) ^ 2 := by
  simp only [V3.mag2, V3.dot, V3.add, V3.sub, V3.smul, V3.cross, real_add, real_sub, real_mul]
  linear_combination (n.x * e.x + n.y * e.y + n.z * e.z) ^ 2 * hn

/-- A vector that is not zero: its length, and its direction as a unit vector. -/
theorem unit_of_ne {p : V3 ℝ} (hp : p ≠ ⟨0, 0, 0⟩) :
    0 < p.mag ∧ p.mag ^ 2 = p.x ^ 2 + p.y ^ 2 + p.z ^ 2 ∧
      (p.norm.x ^ 2 + p.norm.y ^ 2 + p.norm.z ^ 2 = 1) ∧
      p.x = p.mag * p.norm.x ∧ p.y = p.mag * p.norm.y ∧ p.z = p.mag * p.norm.z := by
  have hpos : 0 < p.x ^ 2 + p.y ^ 2 + p.z ^ 2 := by
    by_contra h
    have hx := sq_nonneg p.x
    have hy := sq_nonneg p.y
    have hz := sq_nonneg p.z
    refine hp (V3.ext ?_ ?_ ?_)
    · exact pow_eq_zero_iff (two_ne_zero) |>.1 (by linarith)
    · exact pow_eq_zero_iff (two_ne_zero) |>.1 (by linarith)
    · exact pow_eq_zero_iff (two_ne_zero) |>.1 (by linarith)
  have hm : p.mag = Real.sqrt (p.x ^ 2 + p.y ^ 2 + p.z ^ 2) := by
    simp only [V3.mag, V3.dot, real_add, real_mul, real_sqrt]
    congr 1
    ring
  have h0 : 0 < p.mag := by rw [hm]; exact Real.sqrt_pos.2 hpos
  have h1 : p.mag ^ 2 = p.x ^ 2 + p.y ^ 2 + p.z ^ 2 := by rw [hm, Real.sq_sqrt hpos.le]
  refine ⟨h0, h1, ?_, ?_, ?_, ?_⟩
  · simp only [V3.norm, V3.divs, real_div]
    rw [div_pow, div_pow, div_pow, ← add_div, ← add_div, ← h1, div_self (by positivity)]
  all_goals simp only [V3.norm, V3.divs, real_div]; field_simp

/-- The Lorentz factor of a momentum, as in relativity. -/
noncomputable def lorentzFactor (m : ℝ) (p : V3 ℝ) : ℝ := Real.sqrt (1 + (p.x ^ 2 + p.y ^ 2 + p.z ^ 2) / m ^ 2)

theorem pushGamma_eq (m : ℝ) (p : V3 ℝ) : pushGamma m p = lorentzFactor m p := by
  simp only [pushGamma, lorentzFactor, V3.mag2, V3.dot, real_add, real_mul, real_div, real_sqrt, real_lit]
  push_cast
  congr 3 <;> ring

/-- C102 for the pushers: their eta is the quantum parameter of the four-velocity `(gamma, p / m)`. -/
theorem C102_push_eta (m : ℝ) (hm : 0 < m) (p e b : V3 ℝ) (hp : p ≠ ⟨0, 0, 0⟩) :
    pushEta m p e b = quantumParameter (fieldTensor e b)
      (fourVector (lorentzFactor m p) ⟨p.x / m, p.y / m, p.z / m⟩) := by
  obtain ⟨h0, h1, hn, hx, hy, hz⟩ := unit_of_ne hp
  have hg2 : lorentzFactor m p ^ 2 = 1 + p.mag ^ 2 / m ^ 2 := by
    rw [lorentzFactor, Real.sq_sqrt (by positivity), h1]
  have hg : 0 < lorentzFactor m p := Real.sqrt_pos.2 (by positivity)
  rw [quantumParameter_eq]
  unfold pushEta
  rw [pushGamma_eq]
  simp only [real_sqrt, real_add, real_sub, real_mul, real_div, real_lit, real_pow]
  generalize lorentzFactor m p = g at *
  generalize p.norm = n at *
  generalize p.mag = k at *
  have hv2 : 0 ≤ 1 - 1 / (g * g) := by
    rw [sub_nonneg, div_le_one (by positivity)]
    have : 0 ≤ k ^ 2 / m ^ 2 := by positivity
    nlinarith
  have hv : Real.sqrt (1 - 1 / (g * g)) = k / (m * g) := by
    rw [Real.sqrt_eq_iff_mul_self_eq hv2 (by positivity)]
    field_simp
    field_simp at hg2
    linarith
  push_cast
  rw [hv, transverse_square e b n hn]
  rw [← Real.sqrt_sq hg.le, ← Real.sqrt_mul' _ (by positivity), Real.sqrt_sq hg.le]
  congr 1
  rw [hx, hy, hz]
  simp only [V3.dot, real_add, real_mul, Real.rpow_two]
  obtain ⟨v, hkv⟩ : ∃ v, v = k / (m * g) := ⟨_, rfl⟩
  have hk : k = v * (m * g) := by rw [hkv]; field_simp
  have hvg : v ^ 2 * g ^ 2 = g ^ 2 - 1 := by
    rw [hk] at hg2
    field_simp at hg2
    linarith
  have q : ∀ a, k * a / m = v * g * a := by intro a; rw [hk]; field_simp
  have hd : ∀ a, a / (g * g) * g ^ 2 = a := by intro a; field_simp
  rw [← hkv, q, q, q, add_mul, hd]
  linear_combination ((n.x * e.x + n.y * e.y + n.z * e.z) ^ 2) * hvg

/-- C102 for emission: the eta of a lepton is the quantum parameter of its four-velocity. -/
theorem C102_eta_partial (field : Field ℝ) (p : Particle ℝ) (hk : p.kind ≠ .photon) (hm : 0 < p.mass)
    (hp : p.momentum ≠ ⟨0, 0, 0⟩) :
    calculateEta field p = quantumParameter
      (fieldTensor (field p.time p.position).1 (field p.time p.position).2)
      (fourVector (lorentzFactor p.mass p.momentum)
        ⟨p.momentum.x / p.mass, p.momentum.y / p.mass, p.momentum.z / p.mass⟩) := by
  rw [← C102_push_eta p.mass hm p.momentum _ _ hp]
  have hg : p.gamma = pushGamma p.mass p.momentum := by
    unfold Particle.gamma pushGamma
    split
    · contradiction
    · rfl
  have hb : p.beta = sqrt (lit 1 -. lit 1 /. (p.gamma *. p.gamma)) := by
    unfold Particle.beta
    split
    · contradiction
    · rfl
  unfold calculateEta pushEta
  rw [hb, hg]
  rfl

/-- C102 for pair production: the chi of a photon is half the quantum parameter of its four-momentum. -/
theorem C102_chi_partial (field : Field ℝ) (p : Particle ℝ) (hk : p.kind = .photon)
    (hp : p.momentum ≠ ⟨0, 0, 0⟩) :
    bwChi field p = quantumParameter (fieldTensor (field p.time p.position).1 (field p.time p.position).2)
      (fourVector p.energy p.momentum) / 2 := by
  have he : p.energy = p.momentum.mag := by unfold Particle.energy; rw [hk]
  obtain ⟨h0, h1, hn, hx, hy, hz⟩ := unit_of_ne hp
  have ht := transverse_square (field p.time p.position).1 (field p.time p.position).2 p.momentum.norm hn 1
  rw [quantumParameter_eq]
  unfold bwChi Particle.direction
  dsimp only
  rw [he]
  generalize (field p.time p.position).1 = e at *
  generalize (field p.time p.position).2 = b at *
  generalize p.momentum.norm = n at *
  have h1' : V3.smul 1 (n.cross b) = n.cross b := by simp [V3.smul]
  rw [h1'] at ht
  simp only [real_mul, real_lit]
  rw [show (((e.sub (V3.smul (e.dot n) n)).add (n.cross b)).mag : ℝ) =
    Real.sqrt (((e.sub (V3.smul (e.dot n) n)).add (n.cross b)).mag2) from rfl, ht, hx, hy, hz]
  generalize p.momentum.mag = k at *
  rw [mul_assoc]
  nth_rw 1 [← Real.sqrt_sq h0.le]
  rw [← Real.sqrt_mul (by positivity)]
  rw [show ((0.5 : ℚ) : ℝ) = 1 / 2 by norm_num, one_div, inv_mul_eq_div]
  congr 2
  ring

/-- C102 between inertial frames: a lepton with the same four-velocity, seen from two frames, has the same
eta in both. -/
theorem C102_frames_eta_partial {L : Matrix (Fin 4) (Fin 4) ℝ} (hL : IsLorentz L)
    (field field' : Field ℝ) (p p' : Particle ℝ)
    (hk : p.kind ≠ .photon) (hk' : p'.kind ≠ .photon) (hm : 0 < p.mass) (hm' : p'.mass = p.mass)
    (hp : p.momentum ≠ ⟨0, 0, 0⟩) (hp' : p'.momentum ≠ ⟨0, 0, 0⟩)
    (hmom : fourVector p'.energy p'.momentum = L.mulVec (fourVector p.energy p.momentum))
    (hfield : fieldTensor (field' p'.time p'.position).1 (field' p'.time p'.position).2 =
      L * fieldTensor (field p.time p.position).1 (field p.time p.position).2 * L.transpose) :
    calculateEta field' p' = calculateEta field p := by
  have key : ∀ q : Particle ℝ, q.kind ≠ .photon → 0 < q.mass →
      fourVector (lorentzFactor q.mass q.momentum)
        ⟨q.momentum.x / q.mass, q.momentum.y / q.mass, q.momentum.z / q.mass⟩ =
      q.mass⁻¹ • fourVector q.energy q.momentum := by
    intro q hq hqm
    have he : q.energy = q.mass * lorentzFactor q.mass q.momentum := by
      rw [← pushGamma_eq]
      unfold Particle.energy Particle.gamma pushGamma
      cases hc : q.kind with
      | photon => exact absurd hc hq
      | electron => rfl
      | positron => rfl
    rw [he]
    funext i
    fin_cases i <;> simp [fourVector] <;> field_simp
  rw [C102_eta_partial field p hk hm hp, C102_eta_partial field' p' hk' (by rw [hm']; exact hm) hp',
    key p hk hm, key p' hk' (by rw [hm']; exact hm), hm', hmom, ← Matrix.mulVec_smul, hfield,
    quantumParameter_lorentz hL]

/-- C102 between inertial frames: a photon has the same chi in both. -/
theorem C102_frames_chi_partial {L : Matrix (Fin 4) (Fin 4) ℝ} (hL : IsLorentz L)
    (field field' : Field ℝ) (p p' : Particle ℝ) (hk : p.kind = .photon) (hk' : p'.kind = .photon)
    (hp : p.momentum ≠ ⟨0, 0, 0⟩) (hp' : p'.momentum ≠ ⟨0, 0, 0⟩)
    (hmom : fourVector p'.energy p'.momentum = L.mulVec (fourVector p.energy p.momentum))
    (hfield : fieldTensor (field' p'.time p'.position).1 (field' p'.time p'.position).2 =
      L * fieldTensor (field p.time p.position).1 (field p.time p.position).2 * L.transpose) :
    bwChi field' p' = bwChi field p := by
  rw [C102_chi_partial field p hk hp, C102_chi_partial field' p' hk' hp', hmom, hfield,
    quantumParameter_lorentz hL]

/-- C102 is false for a particle at rest: the computed eta is not a number in any field, although the quantum
parameter of a particle at rest is the strength of the electric field. -/
theorem C102_rest_refuted :
    (∀ (field : Field XR) (p : Particle XR), p.momentum = ⟨.fin 0, .fin 0, .fin 0⟩ →
      calculateEta field p = .nan) ∧
    (∀ (m : XR) (e b : V3 XR), pushEta m ⟨.fin 0, .fin 0, .fin 0⟩ e b = .nan) ∧
    ∀ e b : V3 ℝ, quantumParameter (fieldTensor e b) (fourVector 1 ⟨0, 0, 0⟩) =
      Real.sqrt (e.x ^ 2 + e.y ^ 2 + e.z ^ 2) := by
  have hn : (⟨.fin 0, .fin 0, .fin 0⟩ : V3 XR).norm = ⟨.nan, .nan, .nan⟩ := C01_norm_zero_is_nan
  have hs : Dbl.sqrt (XR.nan) = .nan := rfl
  refine ⟨?_, ?_, ?_⟩
  · intro field p hp
    unfold calculateEta Particle.direction
    rw [hp, hn]
    simp [V3.mag2, V3.dot, V3.add, V3.sub, V3.smul, hs]
  · intro m e b
    unfold pushEta
    rw [hn]
    simp [V3.mag2, V3.dot, V3.add, V3.sub, V3.smul, hs]
  · intro e b
    rw [quantumParameter_eq]
    simp

/-- A boost along x with velocity 3/5. -/
theorem boost_lorentz : IsLorentz !![5 / 4, -3 / 4, 0, 0; -3 / 4, 5 / 4, 0, 0; 0, 0, 1, 0; 0, 0, 0, 1] := by
  unfold IsLorentz
  ext i j
  fin_cases i <;> fin_cases j <;>
    simp [metric, Matrix.mul_apply, Fin.sum_univ_succ] <;> norm_num

/-- A photon against the boost, in an electric field across it, that meets the hypotheses of
`C102_frames_chi_partial`. -/
example : ∃ (L : Matrix (Fin 4) (Fin 4) ℝ) (field field' : Field ℝ) (p p' : Particle ℝ), IsLorentz L ∧
    p.kind = .photon ∧ p'.kind = .photon ∧ p.momentum ≠ ⟨0, 0, 0⟩ ∧ p'.momentum ≠ ⟨0, 0, 0⟩ ∧
    p'.momentum ≠ p.momentum ∧
    fourVector p'.energy p'.momentum = L.mulVec (fourVector p.energy p.momentum) ∧
    fieldTensor (field' p'.time p'.position).1 (field' p'.time p'.position).2 =
      L * fieldTensor (field p.time p.position).1 (field p.time p.position).2 * L.transpose := by
  have e1 : ∀ k : ℝ, k < 0 → (⟨k, 0, 0⟩ : V3 ℝ).mag = -k := by
    intro k hk
    simp only [V3.mag, V3.dot, real_add, real_mul, real_sqrt, mul_zero, add_zero, Real.sqrt_mul_self_eq_abs,
      abs_of_neg hk]
  refine ⟨_, staticField ⟨0, 1, 0⟩ ⟨0, 0, 0⟩, staticField ⟨0, 5 / 4, 0⟩ ⟨0, 0, -3 / 4⟩,
    .newPhoton ⟨0, 0, 0⟩ ⟨-1, 0, 0⟩ 1 0 false 0, .newPhoton ⟨0, 0, 0⟩ ⟨-2, 0, 0⟩ 1 0 false 0,
    boost_lorentz, rfl, rfl, ?_, ?_, ?_, ?_, ?_⟩
  · simp [Particle.newPhoton, Particle.new]
  · simp [Particle.newPhoton, Particle.new]
  · simp [Particle.newPhoton, Particle.new]
  · rw [show (Particle.newPhoton (⟨0, 0, 0⟩ : V3 ℝ) ⟨-2, 0, 0⟩ 1 0 false 0).energy = 2 by
      show (⟨-2, 0, 0⟩ : V3 ℝ).mag = 2; rw [e1 _ (by norm_num)]; norm_num,
      show (Particle.newPhoton (⟨0, 0, 0⟩ : V3 ℝ) ⟨-1, 0, 0⟩ 1 0 false 0).energy = 1 by
      show (⟨-1, 0, 0⟩ : V3 ℝ).mag = 1; rw [e1 _ (by norm_num)]; norm_num]
    funext i
    fin_cases i <;> simp [fourVector, Particle.newPhoton, Particle.new, Matrix.mulVec, dotProduct,
      Fin.sum_univ_succ] <;> norm_num
  · ext i j
    fin_cases i <;> fin_cases j <;>
      simp [fieldTensor, staticField, Matrix.mul_apply, Fin.sum_univ_succ]

/-- An electron against the boost that meets the hypotheses of `C102_frames_eta_partial`. -/
example : ∃ (L : Matrix (Fin 4) (Fin 4) ℝ) (field field' : Field ℝ) (p p' : Particle ℝ), IsLorentz L ∧
    p.kind ≠ .photon ∧ p'.kind ≠ .photon ∧ 0 < p.mass ∧ p'.mass = p.mass ∧
    p.momentum ≠ ⟨0, 0, 0⟩ ∧ p'.momentum ≠ ⟨0, 0, 0⟩ ∧
    fourVector p'.energy p'.momentum = L.mulVec (fourVector p.energy p.momentum) ∧
    fieldTensor (field' p'.time p'.position).1 (field' p'.time p'.position).2 =
      L * fieldTensor (field p.time p.position).1 (field p.time p.position).2 * L.transpose := by
  have e1 : ∀ k g : ℝ, 0 < g → g * g = 1 + k * k →
      (Particle.newLepton (1 : ℝ) (-1) ⟨0, 0, 0⟩ ⟨k, 0, 0⟩ 1 0 false 0).energy = g := by
    intro k g hg h
    simp only [Particle.energy, Particle.gamma, Particle.newLepton, Particle.new, Particle.leptonKind, real_eq,
      real_lit, Rat.cast_neg, Rat.cast_one, decide_true, if_true, V3.mag2, V3.dot, real_add, real_mul, real_div,
      real_sqrt, mul_zero, add_zero, one_mul, mul_one, div_one]
    rw [← h, Real.sqrt_mul_self hg.le]
  refine ⟨_, staticField ⟨0, 1, 0⟩ ⟨0, 0, 0⟩, staticField ⟨0, 5 / 4, 0⟩ ⟨0, 0, -3 / 4⟩,
    .newLepton 1 (-1) ⟨0, 0, 0⟩ ⟨-3 / 4, 0, 0⟩ 1 0 false 0, .newLepton 1 (-1) ⟨0, 0, 0⟩ ⟨-15 / 8, 0, 0⟩ 1 0 false 0,
    boost_lorentz, ?_, ?_, ?_, rfl, ?_, ?_, ?_, ?_⟩
  · simp [Particle.newLepton, Particle.new, Particle.leptonKind]
  · simp [Particle.newLepton, Particle.new, Particle.leptonKind]
  · simp [Particle.newLepton, Particle.new]
  · simp [Particle.newLepton, Particle.new]
  · simp [Particle.newLepton, Particle.new]
  · rw [e1 (-15 / 8) (17 / 8) (by norm_num) (by norm_num), e1 (-3 / 4) (5 / 4) (by norm_num) (by norm_num)]
    funext i
    fin_cases i <;> simp [fourVector, Particle.newLepton, Particle.new, Matrix.mulVec, dotProduct,
      Fin.sum_univ_succ] <;> norm_num
  · ext i j
    fin_cases i <;> fin_cases j <;>
      simp [fieldTensor, staticField, Matrix.mul_apply, Fin.sum_univ_succ]

/-- An electron that meets the hypotheses of `C102_eta_partial`. -/
example : Witness.electron.kind ≠ .photon ∧ 0 < Witness.electron.mass ∧
    Witness.electron.momentum ≠ ⟨0, 0, 0⟩ := by
  refine ⟨?_, ?_, ?_⟩ <;> simp [Witness.electron, Particle.newLepton, Particle.new, Particle.leptonKind]

end QED
