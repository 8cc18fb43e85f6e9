import Verif.Lemmas.Maxwell
import Verif.Props.Fields
import Mathlib.Analysis.SpecialFunctions.Trigonometric.ArctanDeriv
import Mathlib.Analysis.SpecialFunctions.Pow.Continuity

set_option autoImplicit false

/-!
# Property C120: the lasers are solutions of Maxwell's equations

The equations are in `Spec/Maxwell.lean`.
-/

namespace QED

open Dbl Matrix

/-! ## Static fields and plane lasers -/

/-- Static fields are solutions. -/
theorem C120_static (e b : V3 ℝ) : Maxwell (staticField e b) := by
  intro t x
  have h : ∀ v : V3 ℝ, DifferentiableAt ℝ (fun _ : ℝ × (Fin 3 → ℝ) => v.toVec) (t, x) := fun v => by fun_prop
  refine ⟨h e, h b, ?_, ?_, ?_, ?_⟩ <;>
    simp [divergence, curl, partialDeriv, electric, magnetic, staticField]

theorem waveE_smul (m : M3 ℝ) (e0 phi : ℝ) : (waveE m e0 phi).toVec = e0 • (waveE m 1 phi).toVec := by
  rw [← toVec_smul]
  congr 1
  rw [waveE, waveE, ← mulVec_smul]
  congr 1
  ext <;> simp [V3.smul]

theorem waveB_smul (m : M3 ℝ) (e0 phi : ℝ) : (waveB m e0 phi).toVec = e0 • (waveB m 1 phi).toVec := by
  rw [← toVec_smul]
  congr 1
  rw [waveB, waveB, ← mulVec_smul]
  congr 1
  ext <;> simp [V3.smul]

/-- The plane laser as a plane wave. -/
theorem plane_is_wave (maxE wl phi : ℝ) {d : V3 ℝ} (hd : d.toVec ≠ 0) :
    electric (PlaneField.new maxE wl phi d).getField =
      planeWave (fun s => maxE * Real.cos (s * (2 * Units.pi / wl)))
        ((d.rotateToAxis V3.ez).inverse.mulVec V3.ez).toVec (waveE (d.rotateToAxis V3.ez) 1 phi).toVec ∧
    magnetic (PlaneField.new maxE wl phi d).getField =
      planeWave (fun s => maxE * Real.cos (s * (2 * Units.pi / wl)))
        ((d.rotateToAxis V3.ez).inverse.mulVec V3.ez).toVec (waveB (d.rotateToAxis V3.ez) 1 phi).toVec := by
  have hR := rotateToAxis_isRotation (v := d) (axis := V3.ez) (V3.ne_zero_of_toVec hd) (by simp)
  have hamp : ∀ (t : ℝ) (x : Fin 3 → ℝ),
      (PlaneField.new maxE wl phi d).amplitude t (V3.ofVec x) =
      maxE * Real.cos ((((d.rotateToAxis V3.ez).inverse.mulVec V3.ez).toVec ⬝ᵥ x - t) *
        (2 * Units.pi / wl)) := by
    intro t x
    simp only [PlaneField.amplitude, PlaneField.new, real_mul, real_cos, real_sub, real_div, real_lit]
    rw [mulVec_z hR, dot_eq]
    have : (V3.ofVec x).toVec = x := by ext i; fin_cases i <;> simp [V3.toVec, V3.ofVec]
    rw [this]
    push_cast
    rfl
  constructor <;> funext t x
  · rw [electric, PlaneField.getField_eq, waveE_smul, hamp]
    rfl
  · rw [magnetic, PlaneField.getField_eq, waveB_smul, hamp]
    rfl

/-- The plane laser is a solution exactly when its polarisation angle is a multiple of π, for every
direction, wavelength and non-zero amplitude. -/
theorem C120_plane_iff (maxE wl phi : ℝ) (hE : maxE ≠ 0) (hwl : wl ≠ 0) (d : V3 ℝ) (hd : d.toVec ≠ 0) :
    Maxwell (PlaneField.new maxE wl phi d).getField ↔ Real.sin phi = 0 := by
  have hR := rotateToAxis_isRotation (v := d) (axis := V3.ez) (V3.ne_zero_of_toVec hd) (by simp)
  have hpi : (Units.pi : ℝ) ≠ 0 := by simp [Units.pi]; norm_num
  have hk : 2 * (Units.pi : ℝ) / wl ≠ 0 := div_ne_zero (mul_ne_zero two_ne_zero hpi) hwl
  obtain ⟨κ, hκ⟩ : ∃ κ, κ = 2 * (Units.pi : ℝ) / wl := ⟨_, rfl⟩
  obtain ⟨m, hm⟩ : ∃ m, m = d.rotateToAxis V3.ez := ⟨_, rfl⟩
  have hg : ∀ s : ℝ, HasDerivAt (fun s => maxE * Real.cos (s * κ)) (maxE * (-Real.sin (s * κ) * κ)) s := by
    intro s
    have := (((hasDerivAt_id s).mul_const κ).cos).const_mul maxE
    simpa using this
  have key : (∀ t x, MaxwellAt (electric (PlaneField.new maxE wl phi d).getField)
      (magnetic (PlaneField.new maxE wl phi d).getField) t x) ↔
      ((m.inverse.mulVec V3.ez).toVec ⬝ᵥ (waveE m 1 phi).toVec = 0 ∧
        (m.inverse.mulVec V3.ez).toVec ⬝ᵥ (waveB m 1 phi).toVec = 0 ∧
        (m.inverse.mulVec V3.ez).toVec ⨯₃ (waveE m 1 phi).toVec = (waveB m 1 phi).toVec ∧
        (m.inverse.mulVec V3.ez).toVec ⨯₃ (waveB m 1 phi).toVec = -(waveE m 1 phi).toVec) := by
    rw [(plane_is_wave maxE wl phi hd).1, (plane_is_wave maxE wl phi hd).2, ← hκ, ← hm]
    constructor
    · intro h
      have h1 := (planeWave_maxwell (hg _)).mp (h (-(Real.pi / 2 / κ)) 0)
      refine h1.resolve_left ?_
      have h0 : κ ≠ 0 := hκ ▸ hk
      have : ((m.inverse.mulVec V3.ez).toVec ⬝ᵥ (0 : Fin 3 → ℝ) - -(Real.pi / 2 / κ)) * κ = Real.pi / 2 := by
        rw [dotProduct_zero]; field_simp; ring
      rw [this, Real.sin_pi_div_two]
      exact mul_ne_zero hE (mul_ne_zero (by norm_num) h0)
    · intro h t x
      exact (planeWave_maxwell (hg _)).mpr (Or.inr h)
  rw [Maxwell, key]
  rw [hm.symm] at hR
  have hcE : (m.inverse.mulVec V3.ez).toVec ⨯₃ (waveE m 1 phi).toVec =
      (m.inverse.mulVec ⟨-Real.sin phi, Real.cos phi, 0⟩).toVec := by
    rw [← toVec_cross, waveE, inverse_cross hR]
    congr 2
    ext <;> simp [V3.cross]
  have hcB : (m.inverse.mulVec V3.ez).toVec ⨯₃ (waveB m 1 phi).toVec =
      (m.inverse.mulVec ⟨-Real.cos phi, Real.sin phi, 0⟩).toVec := by
    rw [← toVec_cross, waveB, inverse_cross hR]
    congr 2
    ext <;> simp [V3.cross]
  have hback : ∀ a b : V3 ℝ, (m.inverse.mulVec a) = (m.inverse.mulVec b) → a.x = b.x := by
    intro a b hab
    have h1 := inverse_dot hR a ⟨1, 0, 0⟩
    rw [hab, inverse_dot hR b] at h1
    simpa [V3.dot] using h1.symm
  rw [hcE, hcB]
  constructor
  · rintro ⟨-, -, h3, -⟩
    have := hback _ _ (toVec_injective h3)
    simp at this
    linarith
  · intro hs
    refine ⟨?_, ?_, ?_, ?_⟩
    · rw [← dot_eq, waveE, inverse_dot hR]; simp [V3.dot]
    · rw [← dot_eq, waveB, inverse_dot hR]; simp [V3.dot]
    · rw [waveB]; simp [hs]
    · have : -(waveE m 1 phi).toVec = ((waveE m 1 phi).smul (-1)).toVec := by
        rw [toVec_smul]; simp
      rw [this, waveE, ← mulVec_smul]
      congr 2
      ext <;> simp [V3.smul, hs]

/-- What holds of C120: plane lasers with the polarisation angle 0. -/
theorem C120_plane_partial (maxE wl : ℝ) (hE : maxE ≠ 0) (hwl : wl ≠ 0) (d : V3 ℝ) (hd : d.toVec ≠ 0) :
    Maxwell (PlaneField.new maxE wl 0 d).getField :=
  (C120_plane_iff maxE wl 0 hE hwl d hd).mpr Real.sin_zero

/-- The full statement is false: a plane laser with the polarisation angle π/2 is not a solution. -/
theorem C120_plane_refuted :
    ¬ ∀ (maxE wl phi : ℝ) (d : V3 ℝ), maxE ≠ 0 → wl ≠ 0 → d.toVec ≠ 0 →
      Maxwell (PlaneField.new maxE wl phi d).getField := by
  intro h
  have := (C120_plane_iff 1 1 (Real.pi / 2) one_ne_zero one_ne_zero _ FieldWitness.z_ne).mp
    (h 1 1 (Real.pi / 2) _ one_ne_zero one_ne_zero FieldWitness.z_ne)
  rw [Real.sin_pi_div_two] at this
  exact one_ne_zero this

open FieldWitness in
/-- The hypotheses of the theorems on plane lasers can be met. -/
example : (5 : ℝ) ≠ 0 ∧ (7 : ℝ) ≠ 0 ∧ (⟨0, 0, 1⟩ : V3 ℝ).toVec ≠ 0 := ⟨by norm_num, by norm_num, z_ne⟩

/-! ## Gaussian and focusing lasers -/

/-- A laser along `z` needs no rotation. -/
theorem rot_pos_z {a : ℝ} (ha : 0 < a) :
    (⟨0, 0, a⟩ : V3 ℝ).rotateToAxis V3.ez = ⟨1, 0, 0, 0, 1, 0, 0, 0, 1⟩ := by
  have hmag : (⟨0, 0, a⟩ : V3 ℝ).mag = a := by
    simp only [V3.mag, V3.dot, real_add, real_mul, real_sqrt]
    rw [show (0 * 0 + 0 * 0 + a * a : ℝ) = a ^ 2 by ring, Real.sqrt_sq ha.le]
  have hn : (⟨0, 0, a⟩ : V3 ℝ).norm = ⟨0, 0, 1⟩ := by
    rw [V3.norm_real, hmag]
    ext <;> simp [ha.ne']
  have hez : (V3.ez : V3 ℝ).norm = V3.ez := V3.norm_of_unit (by simp [V3.dot])
  rw [rotateToAxis_eq_rodrigues (by
    rw [hn, hez]; simp [V3.add, V3.mag2, V3.dot]; norm_num), hn, hez]
  ext <;> simp [rodrigues, M3.add, M3.mul, M3.muls, M3.acc3, skewMat, M3.ideneity, M3.zeros,
    V3.cross]

theorem ident_mulVec (v : V3 ℝ) : (⟨1, 0, 0, 0, 1, 0, 0, 0, 1⟩ : M3 ℝ).mulVec v = v := by
  ext <;> simp [M3.mulVec, M3.acc3]

theorem ident_inverse : (⟨1, 0, 0, 0, 1, 0, 0, 0, 1⟩ : M3 ℝ).inverse = ⟨1, 0, 0, 0, 1, 0, 0, 0, 1⟩ := by
  ext <;> simp [M3.inverse, M3.det, M3.muls]

/-- No Gaussian laser along `z` is a solution: where its carrier vanishes, the magnetic field is zero at all
times, but the electric field has a curl. -/
theorem C120_gauss_refuted (maxE wl tau w phi : ℝ) (hE : maxE ≠ 0) (hwl : wl ≠ 0) (hw : w ≠ 0)
    (_htau : tau ≠ 0) (s f : V3 ℝ) (a : ℝ) (ha : 0 < a) (hz : f.sub s = ⟨0, 0, a⟩) :
    ¬ Maxwell (GaussField.new maxE wl tau w phi s f).getField := by
  intro h
  have hpi : (Units.pi : ℝ) ≠ 0 := by simp [Units.pi]; norm_num
  obtain ⟨κ, hκ⟩ : ∃ κ, κ = 2 * (Units.pi : ℝ) / wl := ⟨_, rfl⟩
  have hk : κ ≠ 0 := hκ ▸ div_ne_zero (mul_ne_zero two_ne_zero hpi) hwl
  have hdir : s.direction f = ⟨0, 0, a⟩ := hz
  obtain ⟨z, hzz⟩ : ∃ z, z = Real.pi / 2 / κ := ⟨_, rfl⟩
  have hzk : z * κ = Real.pi / 2 := by rw [hzz]; field_simp
  obtain ⟨A, hA⟩ : ∃ A : ℝ → V3 ℝ → ℝ, A = (GaussField.new maxE wl tau w phi s f).amplitude := ⟨_, rfl⟩
  have hfield : ∀ t x, (GaussField.new maxE wl tau w phi s f).getField t x =
      (⟨A t x * Real.cos phi, A t x * Real.sin phi, 0⟩, ⟨A t x * Real.sin phi, A t x * Real.cos phi, 0⟩) := by
    intro t x
    rw [GaussField.getField_eq, hdir, rot_pos_z ha, waveE, waveB, ident_inverse, ident_mulVec, ident_mulVec, hA]
  obtain ⟨ray, hray⟩ : ∃ ray, ray = κ * w * w / 2 := ⟨_, rfl⟩
  -- the amplitude on the axis
  obtain ⟨g, hg⟩ : ∃ g : ℝ → ℝ → ℝ, g = fun t y => maxE * (w / (w * Real.sqrt (1 + y * y / (ray * ray)))) *
      Real.exp (-1 * (t - (s.sub f).mag - y) * (t - (s.sub f).mag - y) / (tau * tau)) := ⟨_, rfl⟩
  have haxis : ∀ t y, A t ⟨0, 0, y⟩ = g t y * Real.cos (y * κ) := by
    intro t y
    rw [hA, hg]
    simp only [GaussField.amplitude, GaussField.new, hdir, rot_pos_z ha, ident_mulVec]
    simp only [real_mul, real_add, real_div, real_sqrt, real_exp, real_cos, real_sub, real_lit]
    rw [hray, hκ]
    push_cast
    simp only [mul_zero, add_zero, zero_mul, zero_div, Real.exp_zero, mul_one]
    ring
  have hsq : ∀ y : ℝ, 0 < Real.sqrt (1 + y * y / (ray * ray)) := by
    intro y
    apply Real.sqrt_pos.mpr
    have := div_nonneg (mul_self_nonneg y) (mul_self_nonneg ray)
    linarith
  have hcont : ContinuousAt (g 0) z := by
    rw [hg]
    have hq : ∀ y : ℝ, w * Real.sqrt (1 + y * y / (ray * ray)) ≠ 0 := fun y => mul_ne_zero hw (hsq y).ne'
    have : Continuous fun y : ℝ => maxE * (w / (w * Real.sqrt (1 + y * y / (ray * ray)))) *
      Real.exp (-1 * (0 - (s.sub f).mag - y) * (0 - (s.sub f).mag - y) / (tau * tau)) := by
      refine Continuous.mul (continuous_const.mul (Continuous.div continuous_const ?_ hq)) ?_
      · exact continuous_const.mul (Real.continuous_sqrt.comp (by fun_prop))
      · exact Real.continuous_exp.comp (by fun_prop)
    exact this.continuousAt
  have hgz : g 0 z ≠ 0 := by
    rw [hg]
    exact mul_ne_zero (mul_ne_zero hE (div_ne_zero hw (mul_ne_zero hw (hsq z).ne'))) (Real.exp_pos _).ne'
  have hc0 : Real.cos (z * κ) = 0 := by rw [hzk, Real.cos_pi_div_two]
  have hder : HasDerivAt (fun y => g 0 y * Real.cos (y * κ)) (g 0 z * -κ) z := by
    refine hasDerivAt_mul_zero hcont ?_ hc0
    have := ((hasDerivAt_id z).mul_const κ).cos
    simpa [hzk] using this
  have hup : ∀ y : ℝ, V3.ofVec (Function.update ![0, 0, z] 2 y) = ⟨0, 0, y⟩ := by
    intro y; ext <;> simp [V3.ofVec, Function.update]
  have hx : V3.ofVec ![0, 0, z] = ⟨0, 0, z⟩ := by ext <;> simp [V3.ofVec]
  have hM := (h 0 ![0, 0, z]).faraday
  have hB : (fun t => magnetic (GaussField.new maxE wl tau w phi s f).getField t ![0, 0, z]) = fun _ => 0 := by
    funext t
    rw [magnetic, hx, hfield, haxis, hc0]
    ext i; fin_cases i <;> simp [V3.toVec]
  rw [hB] at hM
  have hp : ∀ i j, partialDeriv i (fun y => electric (GaussField.new maxE wl tau w phi s f).getField 0 y j)
      ![0, 0, z] = deriv (fun r => (![A 0 (V3.ofVec (Function.update ![0, 0, z] i r)) * Real.cos phi,
        A 0 (V3.ofVec (Function.update ![0, 0, z] i r)) * Real.sin phi, 0] : Fin 3 → ℝ) j)
        ((![0, 0, z] : Fin 3 → ℝ) i) := by
    intro i j
    unfold partialDeriv electric
    simp only [hfield]
    rfl
  have h0 := congrFun hM 0
  have h1 := congrFun hM 1
  simp only [curl, hp] at h0 h1
  simp only [hup, haxis] at h0 h1
  have d1 := (hder.mul_const (Real.sin phi)).deriv
  have d2 := (hder.mul_const (Real.cos phi)).deriv
  simp [d1] at h0
  simp [d2] at h1
  have h2 := Real.sin_sq_add_cos_sq phi
  have hs : Real.sin phi = 0 := by
    rcases h0 with h0 | h0
    · exact absurd h0 (by simp [hgz, hk])
    · exact h0
  have hc : Real.cos phi = 0 := by
    rcases h1 with h1 | h1
    · exact absurd h1 (by simp [hgz, hk])
    · exact h1
  rw [hs, hc] at h2
  norm_num at h2

/-- The hypotheses of `C120_gauss_refuted` can be met. -/
example : (⟨0, 0, 0⟩ : V3 ℝ).sub ⟨0, 0, -3⟩ = ⟨0, 0, 3⟩ := by ext <;> simp [V3.sub]

namespace FocusField

/-- The focusing laser's field on the axis and across it, in the beam frame. -/
theorem beam_axis (f : FocusField ℝ) (t y : ℝ) :
    (f.beamField t ⟨0, 0, y⟩).1.x = f.envelope t ⟨0, 0, y⟩ *
      ((f.waist / (f.waist * Real.sqrt (1 + y / f.rayleigh * (y / f.rayleigh)))) ^ (((0 : ℚ) + 1 : ℚ) : ℝ) *
        Real.sin (f.waveNum * y + 1 * Real.arctan (y / f.rayleigh)) +
      f.eps ^ 4 / 8 * ((f.waist / (f.waist * Real.sqrt (1 + y / f.rayleigh * (y / f.rayleigh)))) ^
          (((2 : ℚ) + 1 : ℚ) : ℝ) *
        Real.sin (f.waveNum * y + 3 * Real.arctan (y / f.rayleigh)))) := by
  simp only [beamField, real_mul, real_add, real_div, real_sqrt, real_sub, real_lit, real_sin, real_cos, real_atan,
    real_pow]
  push_cast
  simp only [mul_zero, zero_mul, zero_div, add_zero, sub_zero]
  ring_nf

theorem beam_across (f : FocusField ℝ) (hw : f.waist ≠ 0) (t : ℝ) :
    ∃ G : ℝ → ℝ, Continuous G ∧ G 0 = f.eps - f.eps ^ 3 / 2 ∧
      ∀ x, (f.beamField t ⟨x, 0, 0⟩).1.z = f.envelope t ⟨x, 0, 0⟩ * G x * (x / f.waist) := by
  obtain ⟨C, hC⟩ : ∃ C : ℝ, C = 0 + f.rayleigh * f.rayleigh / (0 + 1e-99) := ⟨_, rfl⟩
  refine ⟨fun x => f.eps * Real.cos (f.waveNum * (0 - x * x / (2 * C))) + f.eps ^ 3 *
    (-Real.cos (f.waveNum * (0 - x * x / (2 * C))) / 2 +
      x * x / (f.waist * f.waist) * Real.cos (f.waveNum * (0 - x * x / (2 * C))) -
      x * x / (f.waist * f.waist) * (x * x / (f.waist * f.waist)) *
        Real.cos (f.waveNum * (0 - x * x / (2 * C))) / 4), by fun_prop, ?_, ?_⟩
  · simp
    ring
  · intro x
    simp only [beamField, real_mul, real_add, real_div, real_sqrt, real_sub, real_lit, real_sin, real_cos,
      real_atan, real_pow, real_neg]
    rw [hC]
    push_cast
    simp only [zero_add, zero_sub, zero_div, mul_zero, Real.arctan_zero, add_zero, Real.sqrt_one, mul_one,
      div_self hw, Real.one_rpow, one_mul]
    ring_nf

theorem beam_centre (f : FocusField ℝ) (t : ℝ) : (f.beamField t ⟨0, 0, 0⟩).2.toVec = 0 := by
  simp only [beamField, real_mul, real_add, real_div, real_sqrt, real_sub, real_lit, real_sin, real_cos, real_atan,
    real_pow]
  ext i
  fin_cases i <;> simp [V3.toVec]

theorem polarise_zero (v : V3 ℝ) : polarise 0 v = v := by
  ext <;> simp [polarise]

end FocusField

/-- No focusing laser along `z` with polarisation angle 0 is a solution: at the focus the magnetic field is zero
at all times, but the electric field has a curl when the pulse is there. -/
theorem C120_focusing_refuted (maxE wl tau w : ℝ) (hE : 1e-15 < maxE) (hwl : 0 < wl) (hw : 0 < w)
    (_htau : tau ≠ 0) (s f : V3 ℝ) (a : ℝ) (ha : 0 < a) (hz : f.sub s = ⟨0, 0, a⟩) :
    ¬ Maxwell (FocusField.new maxE wl tau w 0 s f).getField := by
  intro h
  have hpi : (0 : ℝ) < Units.pi := by simp [Units.pi]; norm_num
  have hdir : s.direction f = ⟨0, 0, a⟩ := hz
  obtain ⟨F, hF⟩ : ∃ F, F = FocusField.new maxE wl tau w 0 s f := ⟨_, rfl⟩
  rw [← hF] at h
  have hrot : F.rotation = ⟨1, 0, 0, 0, 1, 0, 0, 0, 1⟩ := by
    rw [hF]; simp only [FocusField.new]; rw [hdir, rot_pos_z ha]
  have hrotI : F.rotationInv = ⟨1, 0, 0, 0, 1, 0, 0, 0, 1⟩ := by
    rw [hF]; simp only [FocusField.new]; rw [hdir, rot_pos_z ha, ident_inverse]
  have hpol : F.polAngle = 0 := by rw [hF]; rfl
  have hfield : ∀ t x, F.getField t x = if F.envelope t x < 1e-15 then (⟨0, 0, 0⟩, ⟨0, 0, 0⟩)
      else F.beamField t x := by
    intro t x
    unfold FocusField.getField
    rw [hrot, hrotI, hpol]
    simp only [ident_mulVec, FocusField.polarise_zero]
    simp
  have hwn : 0 < F.waveNum := by
    rw [hF]; simp only [FocusField.new, real_mul, real_div, real_lit]
    exact div_pos (mul_pos (by norm_num) hpi) hwl
  have hwa : F.waist = w := by rw [hF]; rfl
  have hray : 0 < F.rayleigh := by
    have : F.rayleigh = F.waveNum * w * w / 2 := by rw [hF]; simp [FocusField.new]
    rw [this]; positivity
  have heps : F.eps = w / F.rayleigh := by rw [hF]; rfl
  obtain ⟨T, hT⟩ : ∃ T, T = F.t0 := ⟨_, rfl⟩
  have hmaxE : F.maxE = maxE := by rw [hF]; rfl
  have henv : Continuous fun x : ℝ => F.envelope T ⟨x, 0, 0⟩ := by
    simp only [FocusField.envelope, real_mul, real_add, real_div, real_sqrt, real_sub, real_lit, real_exp, real_neg]
    fun_prop
  have henv' : Continuous fun y : ℝ => F.envelope T ⟨0, 0, y⟩ := by
    simp only [FocusField.envelope, real_mul, real_add, real_div, real_sqrt, real_sub, real_lit, real_exp, real_neg]
    simp only [mul_zero, add_zero, neg_zero, zero_div, zero_sub]
    fun_prop
  have henv0 : F.envelope T ⟨0, 0, 0⟩ = maxE := by
    simp only [FocusField.envelope, real_mul, real_add, real_div, real_sqrt, real_sub, real_lit, real_exp, real_neg]
    rw [hT, hmaxE]
    simp
  have near : ∀ᶠ x in nhds (0 : ℝ), ¬ F.envelope T ⟨x, 0, 0⟩ < 1e-15 := by
    have := henv.continuousAt.eventually (lt_mem_nhds (show (1e-15 : ℝ) < F.envelope T ⟨0, 0, 0⟩ by
      rw [henv0]; exact hE))
    filter_upwards [this] with x hx using not_lt.mpr hx.le
  have near' : ∀ᶠ y in nhds (0 : ℝ), ¬ F.envelope T ⟨0, 0, y⟩ < 1e-15 := by
    have := henv'.continuousAt.eventually (lt_mem_nhds (show (1e-15 : ℝ) < F.envelope T ⟨0, 0, 0⟩ by
      rw [henv0]; exact hE))
    filter_upwards [this] with x hx using not_lt.mpr hx.le
  -- along the axis
  have hsqrt : ∀ y : ℝ, 0 < Real.sqrt (1 + y / F.rayleigh * (y / F.rayleigh)) := by
    intro y
    apply Real.sqrt_pos.mpr
    have := mul_self_nonneg (y / F.rayleigh)
    linarith
  have hbase : Continuous fun y : ℝ => F.waist / (F.waist * Real.sqrt (1 + y / F.rayleigh * (y / F.rayleigh))) := by
    refine Continuous.div continuous_const (continuous_const.mul (Real.continuous_sqrt.comp (by fun_prop))) ?_
    intro y
    exact mul_ne_zero (hwa ▸ hw.ne') (hsqrt y).ne'
  have hone : F.waist / (F.waist * Real.sqrt (1 + 0 / F.rayleigh * (0 / F.rayleigh))) = 1 := by
    rw [hwa]; simp [hw.ne']
  have hsin : ∀ c : ℝ, HasDerivAt (fun y => Real.sin (F.waveNum * y + c * Real.arctan (y / F.rayleigh)))
      (F.waveNum + c * (1 / F.rayleigh)) 0 := by
    intro c
    have h1 : HasDerivAt (fun y : ℝ => y / F.rayleigh) (1 / F.rayleigh) 0 :=
      (hasDerivAt_id (0 : ℝ)).div_const F.rayleigh
    have h2 : HasDerivAt (fun y : ℝ => F.waveNum * y + c * Real.arctan (y / F.rayleigh))
        (F.waveNum + c * (1 / F.rayleigh)) 0 := by
      have := ((hasDerivAt_id (0 : ℝ)).const_mul F.waveNum).fun_add (h1.arctan.const_mul c)
      simpa using this
    have h3 := h2.sin
    simpa using h3
  have hterm : ∀ (q c : ℝ), HasDerivAt (fun y =>
      (F.waist / (F.waist * Real.sqrt (1 + y / F.rayleigh * (y / F.rayleigh)))) ^ q *
        Real.sin (F.waveNum * y + c * Real.arctan (y / F.rayleigh)))
      (F.waveNum + c * (1 / F.rayleigh)) 0 := by
    intro q c
    have h1 : ContinuousAt (fun y : ℝ =>
        (F.waist / (F.waist * Real.sqrt (1 + y / F.rayleigh * (y / F.rayleigh)))) ^ q) 0 :=
      hbase.continuousAt.rpow_const (Or.inl (by rw [hone]; exact one_ne_zero))
    have h2 := hasDerivAt_mul_zero h1 (hsin c) (by simp)
    rw [hone, Real.one_rpow, one_mul] at h2
    exact h2
  have hlong : HasDerivAt (fun y => (F.getField T ⟨0, 0, y⟩).1.x)
      (maxE * ((F.waveNum + 1 * (1 / F.rayleigh)) + F.eps ^ 4 / 8 * (F.waveNum + 3 * (1 / F.rayleigh)))) 0 := by
    have h1 := (hterm (((0 : ℚ) + 1 : ℚ) : ℝ) 1).add ((hterm (((2 : ℚ) + 1 : ℚ) : ℝ) 3).const_mul (F.eps ^ 4 / 8))
    have h2 := hasDerivAt_mul_zero henv'.continuousAt h1 (by simp)
    rw [henv0] at h2
    refine h2.congr_of_eventuallyEq ?_
    filter_upwards [near'] with y hy
    rw [hfield, if_neg hy, FocusField.beam_axis]
    rfl
  -- across the axis
  have htrans : HasDerivAt (fun x => (F.getField T ⟨x, 0, 0⟩).1.z)
      (maxE * (F.eps - F.eps ^ 3 / 2) * (1 / F.waist)) 0 := by
    obtain ⟨G, hG, hG0, hz'⟩ := F.beam_across (hwa ▸ hw.ne') T
    have h1 : HasDerivAt (fun x => F.envelope T ⟨x, 0, 0⟩ * G x * (x / F.waist))
        (F.envelope T ⟨0, 0, 0⟩ * G 0 * (1 / F.waist)) 0 :=
      hasDerivAt_mul_zero (f := fun x => F.envelope T ⟨x, 0, 0⟩ * G x) (henv.mul hG).continuousAt
        ((hasDerivAt_id (0 : ℝ)).div_const F.waist) (by simp)
    rw [henv0, hG0] at h1
    refine h1.congr_of_eventuallyEq ?_
    filter_upwards [near] with x hx
    rw [hfield, if_neg hx, hz']
  have hB : (fun t => magnetic F.getField t 0) = fun _ => 0 := by
    funext t
    have : V3.ofVec 0 = (⟨0, 0, 0⟩ : V3 ℝ) := by ext <;> simp [V3.ofVec]
    rw [magnetic, this, hfield]
    split
    · ext i; fin_cases i <;> simp [V3.toVec]
    · exact FocusField.beam_centre F t
  have hM := congrFun (h T 0).faraday 1
  rw [hB] at hM
  have hup2 : ∀ y : ℝ, V3.ofVec (Function.update (0 : Fin 3 → ℝ) 2 y) = ⟨0, 0, y⟩ := by
    intro y; ext <;> simp [V3.ofVec, Function.update]
  have hup0 : ∀ y : ℝ, V3.ofVec (Function.update (0 : Fin 3 → ℝ) 0 y) = ⟨y, 0, 0⟩ := by
    intro y; ext <;> simp [V3.ofVec, Function.update]
  have hc : curl (electric F.getField T) 0 1 =
      deriv (fun y => (F.getField T ⟨0, 0, y⟩).1.x) 0 - deriv (fun x => (F.getField T ⟨x, 0, 0⟩).1.z) 0 := by
    simp only [curl, partialDeriv, electric, hup2, hup0]
    rfl
  rw [hc, hlong.deriv, htrans.deriv] at hM
  simp only [deriv_const', Pi.neg_apply, Pi.zero_apply, neg_zero] at hM
  have hmE : 0 < maxE := lt_trans (by norm_num) hE
  have hew : F.eps * (1 / F.waist) = 1 / F.rayleigh := by
    rw [heps, hwa]; field_simp
  have hexp : maxE * ((F.waveNum + 1 * (1 / F.rayleigh)) + F.eps ^ 4 / 8 * (F.waveNum + 3 * (1 / F.rayleigh))) -
      maxE * (F.eps - F.eps ^ 3 / 2) * (1 / F.waist) =
      maxE * (F.waveNum + F.eps ^ 4 / 8 * (F.waveNum + 3 * (1 / F.rayleigh)) +
        F.eps ^ 2 / 2 * (1 / F.rayleigh)) := by
    linear_combination (-maxE + maxE * F.eps ^ 2 / 2) * hew
  rw [hexp] at hM
  have : 0 < maxE * (F.waveNum + F.eps ^ 4 / 8 * (F.waveNum + 3 * (1 / F.rayleigh)) +
        F.eps ^ 2 / 2 * (1 / F.rayleigh)) := by positivity
  linarith

/-- The hypotheses of `C120_focusing_refuted` can be met. -/
example : (1e-15 : ℝ) < 1e-5 ∧ (⟨0, 0, 0⟩ : V3 ℝ).sub ⟨0, 0, -3⟩ = ⟨0, 0, 3⟩ :=
  ⟨by norm_num, by ext <;> simp [V3.sub]⟩

end QED
