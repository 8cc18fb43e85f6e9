import Verif.Lemmas.Fields
import Mathlib.Analysis.Real.Pi.Bounds

set_option autoImplicit false

/-!
# Properties C21 to C25: laser fields

All statements are over the reals. The propagation direction of the Gaussian and
the focusing laser is from its start point to its focus.
-/

namespace QED

/-- Specification of a plane electromagnetic wave at one point: `E` is orthogonal to the
propagation direction and to `B`, as long as `B`, and `E × B` points along the propagation
direction. -/
def IsLightWave (k E B : Fin 3 → ℝ) : Prop :=
  E ⬝ᵥ k = 0 ∧ E ⬝ᵥ B = 0 ∧ len E = len B ∧ ∃ c : ℝ, 0 ≤ c ∧ crossProduct E B = c • k

/-- The direction is `-z` itself or differs from it by more than `1e-5`. -/
def ClearOfMinusZ (d : V3 ℝ) : Prop :=
  1e-10 < len (d.norm.toVec + ![0, 0, 1]) ^ 2 ∨ d.norm.toVec = ![0, 0, -1]

theorem ClearOfMinusZ.iff {d : V3 ℝ} (h : ClearOfMinusZ d) :
    1e-10 < (d.norm.add V3.ez).mag2 ∨ d.norm = ⟨0, 0, -1⟩ := by
  rcases h with h | h
  · left
    rw [mag2_eq, toVec_add]
    simpa [V3.toVec] using h
  · right
    exact toVec_injective (by rw [h]; rfl)

theorem V3.ne_zero_of_toVec {d : V3 ℝ} (h : d.toVec ≠ 0) : d ≠ ⟨0, 0, 0⟩ := by
  rintro rfl; apply h; ext j; fin_cases j <;> simp [V3.toVec]

/-! ## C21 Laser fields are transverse electromagnetic waves -/

theorem wave_iff {m : M3 ℝ} (h : IsRotation m.toMat) (e0 phi : ℝ) (he : e0 ≠ 0) :
    IsLightWave (m.inverse.mulVec V3.ez).toVec (waveE m e0 phi).toVec (waveB m e0 phi).toVec ↔
      Real.sin phi = 0 := by
  have hk : (m.inverse.mulVec V3.ez).dot (m.inverse.mulVec V3.ez) = 1 := by
    rw [inverse_dot h]; simp [V3.dot]
  have he2 : 0 < e0 ^ 2 := by positivity
  constructor
  · rintro ⟨-, h2, -, c, hc, h4⟩
    rw [← dot_eq, wave_dot h] at h2
    rw [← toVec_cross, wave_cross h, toVec_smul] at h4
    have h5 := congrArg (fun v => v ⬝ᵥ (m.inverse.mulVec V3.ez).toVec) h4
    simp only [smul_dotProduct, smul_eq_mul] at h5
    rw [← dot_eq, hk, mul_one, mul_one] at h5
    have hs : Real.sin (2 * phi) = 0 := by
      rcases mul_eq_zero.mp h2 with h | h
      · exact absurd h he2.ne'
      · exact h
    have hc' : 0 ≤ Real.cos (2 * phi) := by
      rw [← h5] at hc
      exact nonneg_of_mul_nonneg_right hc he2
    have h6 := Real.sin_sq_add_cos_sq (2 * phi)
    rw [hs] at h6
    have h7 : Real.cos (2 * phi) = 1 := by nlinarith
    rw [Real.cos_two_mul', ← Real.sin_sq_add_cos_sq phi] at h7
    have : Real.sin phi ^ 2 = 0 := by linarith
    exact pow_eq_zero_iff (two_ne_zero) |>.mp this
  · intro hs
    refine ⟨?_, ?_, ?_, e0 ^ 2, he2.le, ?_⟩
    · rw [← dot_eq]; exact waveE_dot_k h _ _
    · rw [← dot_eq, wave_dot h, Real.sin_two_mul, hs]; ring
    · rw [← mag_eq, ← mag_eq, waveE_mag h, waveB_mag h]
    · rw [← toVec_cross, wave_cross h, toVec_smul, Real.cos_two_mul', hs]
      have := Real.sin_sq_add_cos_sq phi
      rw [hs] at this
      congr 1
      linear_combination e0 ^ 2 * this

/-- The plane laser is an electromagnetic wave at a point of non-zero amplitude exactly when
its polarisation angle is a multiple of π. -/
theorem C21_plane_iff (maxE wl phi : ℝ) (d : V3 ℝ) (hd : d.toVec ≠ 0) (hc : ClearOfMinusZ d)
    (t : ℝ) (x : V3 ℝ) (hne : (PlaneField.new maxE wl phi d).amplitude t x ≠ 0) :
    IsLightWave d.norm.toVec ((PlaneField.new maxE wl phi d).getField t x).1.toVec
      ((PlaneField.new maxE wl phi d).getField t x).2.toVec ↔ Real.sin phi = 0 := by
  have hd' := V3.ne_zero_of_toVec hd
  rw [PlaneField.getField_eq, ← inverse_ez hd' hc.iff]
  exact wave_iff (rotateToAxis_isRotation hd' (by simp)) _ _ hne

/-- The same for the Gaussian laser, whose direction is from start to focus. -/
theorem C21_gauss_iff (maxE wl tau w phi : ℝ) (s f : V3 ℝ) (hd : (f.sub s).toVec ≠ 0)
    (hc : ClearOfMinusZ (f.sub s)) (t : ℝ) (x : V3 ℝ)
    (hne : (GaussField.new maxE wl tau w phi s f).amplitude t x ≠ 0) :
    IsLightWave (f.sub s).norm.toVec ((GaussField.new maxE wl tau w phi s f).getField t x).1.toVec
      ((GaussField.new maxE wl tau w phi s f).getField t x).2.toVec ↔ Real.sin phi = 0 := by
  have hd' := V3.ne_zero_of_toVec hd
  have hdir : s.direction f = f.sub s := rfl
  rw [GaussField.getField_eq, hdir, ← inverse_ez hd' hc.iff]
  exact wave_iff (rotateToAxis_isRotation hd' (by simp)) _ _ hne

/-- What holds of C21 for every polarisation angle: both fields are orthogonal to the
propagation direction and equally strong. Missing: `E ⟂ B` and the direction of `E × B`, which
hold only for angles that are multiples of π, and directions within `1e-5` of `-z`. -/
theorem C21_transverse_partial (maxE wl tau w phi : ℝ) (d s f : V3 ℝ) (t : ℝ) (x : V3 ℝ) :
    (d.toVec ≠ 0 → ClearOfMinusZ d →
      ((PlaneField.new maxE wl phi d).getField t x).1.toVec ⬝ᵥ d.norm.toVec = 0 ∧
      ((PlaneField.new maxE wl phi d).getField t x).2.toVec ⬝ᵥ d.norm.toVec = 0 ∧
      len ((PlaneField.new maxE wl phi d).getField t x).1.toVec =
        len ((PlaneField.new maxE wl phi d).getField t x).2.toVec) ∧
    ((f.sub s).toVec ≠ 0 → ClearOfMinusZ (f.sub s) →
      ((GaussField.new maxE wl tau w phi s f).getField t x).1.toVec ⬝ᵥ (f.sub s).norm.toVec = 0 ∧
      ((GaussField.new maxE wl tau w phi s f).getField t x).2.toVec ⬝ᵥ (f.sub s).norm.toVec = 0 ∧
      len ((GaussField.new maxE wl tau w phi s f).getField t x).1.toVec =
        len ((GaussField.new maxE wl tau w phi s f).getField t x).2.toVec) := by
  constructor
  · intro hd hc
    have hd' := V3.ne_zero_of_toVec hd
    have hR := rotateToAxis_isRotation (v := d) (axis := V3.ez) hd' (by simp)
    rw [PlaneField.getField_eq, ← inverse_ez hd' hc.iff]
    refine ⟨?_, ?_, ?_⟩
    · rw [← dot_eq]; exact waveE_dot_k hR _ _
    · rw [← dot_eq]; exact waveB_dot_k hR _ _
    · rw [← mag_eq, ← mag_eq, waveE_mag hR, waveB_mag hR]
  · intro hd hc
    have hd' := V3.ne_zero_of_toVec hd
    have hR := rotateToAxis_isRotation (v := f.sub s) (axis := V3.ez) hd' (by simp)
    have hdir : s.direction f = f.sub s := rfl
    rw [GaussField.getField_eq, hdir, ← inverse_ez hd' hc.iff]
    refine ⟨?_, ?_, ?_⟩
    · rw [← dot_eq]; exact waveE_dot_k hR _ _
    · rw [← dot_eq]; exact waveB_dot_k hR _ _
    · rw [← mag_eq, ← mag_eq, waveE_mag hR, waveB_mag hR]

namespace FieldWitness

theorem norm_z : (⟨0, 0, 1⟩ : V3 ℝ).norm = ⟨0, 0, 1⟩ := V3.norm_of_unit (by simp [V3.dot])

theorem z_ne : (⟨0, 0, 1⟩ : V3 ℝ).toVec ≠ 0 := by
  intro h; simpa [V3.toVec] using congrFun h 2

theorem z_clear : ClearOfMinusZ ⟨0, 0, 1⟩ := by
  left
  rw [norm_z]
  simp only [V3.toVec, len]
  rw [Real.sq_sqrt (by positivity)]
  simp
  norm_num

theorem rot_z : (⟨0, 0, 1⟩ : V3 ℝ).rotateToAxis V3.ez = ⟨1, 0, 0, 0, 1, 0, 0, 0, 1⟩ := by
  have hez : (V3.ez : V3 ℝ).norm = V3.ez := V3.norm_of_unit (by simp [V3.dot])
  rw [rotateToAxis_eq_rodrigues (by
    rw [norm_z, hez]; simp [V3.add, V3.mag2, V3.dot]; norm_num), norm_z, hez]
  ext <;> simp [rodrigues, M3.add, M3.mul, M3.muls, M3.acc3, skewMat, M3.ideneity, M3.zeros,
    V3.cross]

theorem plane_amp (maxE wl phi : ℝ) :
    (PlaneField.new maxE wl phi ⟨0, 0, 1⟩).amplitude 0 ⟨0, 0, 0⟩ = maxE := by
  simp [PlaneField.amplitude, PlaneField.new, M3.mulVec, M3.acc3]

end FieldWitness

open FieldWitness in
/-- The hypotheses of the C21 theorems can be met, for a field that is not zero. -/
example : (⟨0, 0, 1⟩ : V3 ℝ).toVec ≠ 0 ∧ ClearOfMinusZ ⟨0, 0, 1⟩ ∧
    (PlaneField.new 5 1 0 ⟨0, 0, 1⟩ : PlaneField ℝ).amplitude 0 ⟨0, 0, 0⟩ ≠ 0 :=
  ⟨z_ne, z_clear, by rw [plane_amp]; norm_num⟩

open FieldWitness in
/-- The full statement is false: with polarisation angle π/2 the plane wave along `z` has
`E × B` against its propagation direction. -/
theorem C21_refuted :
    ¬ ∀ (maxE wl phi : ℝ) (d : V3 ℝ), d.toVec ≠ 0 → ∀ (t : ℝ) (x : V3 ℝ),
      IsLightWave d.norm.toVec ((PlaneField.new maxE wl phi d).getField t x).1.toVec
        ((PlaneField.new maxE wl phi d).getField t x).2.toVec := by
  intro h
  have := (C21_plane_iff 1 1 (Real.pi / 2) ⟨0, 0, 1⟩ z_ne z_clear 0 ⟨0, 0, 0⟩
    (by rw [plane_amp]; norm_num)).mp (h 1 1 (Real.pi / 2) _ z_ne 0 ⟨0, 0, 0⟩)
  rw [Real.sin_pi_div_two] at this
  norm_num at this

/-! ## C22 Laser field strength never exceeds the configured maximum -/

theorem plane_amplitude_le (maxE wl phi : ℝ) (d : V3 ℝ) (t : ℝ) (x : V3 ℝ) :
    |(PlaneField.new maxE wl phi d).amplitude t x| ≤ |maxE| := by
  simp only [PlaneField.amplitude, PlaneField.new, real_mul, real_cos]
  rw [abs_mul]
  exact mul_le_of_le_one_right (abs_nonneg _) (Real.abs_cos_le_one _)

/-- The factors of the Gaussian amplitude other than the peak field. -/
theorem gauss_amplitude_le (maxE wl tau w phi : ℝ) (hw : w ≠ 0) (s f : V3 ℝ) (t : ℝ) (x : V3 ℝ) :
    |(GaussField.new maxE wl tau w phi s f).amplitude t x| ≤ |maxE| := by
  simp only [GaussField.amplitude, GaussField.new, real_mul, real_cos, real_div, real_exp,
    real_add, real_sub, real_lit, real_sqrt]
  generalize hp : ((s.direction f).rotateToAxis V3.ez).mulVec x = p
  generalize hR : (2 : ℚ) * Units.pi / wl * w * w / (2 : ℚ) = R
  have h1 : |w / (w * Real.sqrt ((1 : ℚ) + p.z * p.z / (R * R)))| ≤ 1 := by
    have hs : 1 ≤ Real.sqrt ((1 : ℚ) + p.z * p.z / (R * R)) := by
      rw [Real.one_le_sqrt]
      have : 0 ≤ p.z * p.z / (R * R) := div_nonneg (mul_self_nonneg _) (mul_self_nonneg _)
      push_cast; linarith
    rw [div_mul_eq_div_div, div_self hw, abs_of_nonneg (by positivity)]
    exact div_le_one_of_le₀ hs (by positivity)
  have h2 : ∀ a b : ℝ, Real.exp (((-1 : ℚ) : ℝ) * (a * a + b * b) /
      (w * Real.sqrt ((1 : ℚ) + p.z * p.z / (R * R)) *
        (w * Real.sqrt ((1 : ℚ) + p.z * p.z / (R * R))))) ≤ 1 := by
    intro a b
    rw [Real.exp_le_one_iff]
    apply div_nonpos_of_nonpos_of_nonneg
    · push_cast; nlinarith [mul_self_nonneg a, mul_self_nonneg b]
    · exact mul_self_nonneg _
  have h3 : ∀ a : ℝ, Real.exp (((-1 : ℚ) : ℝ) * a * a / (tau * tau)) ≤ 1 := by
    intro a
    rw [Real.exp_le_one_iff]
    apply div_nonpos_of_nonpos_of_nonneg
    · push_cast; nlinarith [mul_self_nonneg a]
    · exact mul_self_nonneg _
  rw [abs_mul, abs_mul, abs_mul, abs_mul, Real.abs_exp, Real.abs_exp]
  have key : ∀ m a b c e : ℝ, 0 ≤ m → 0 ≤ a → a ≤ 1 → 0 ≤ b → b ≤ 1 → 0 ≤ c → c ≤ 1 → 0 ≤ e →
      e ≤ 1 → m * a * b * c * e ≤ m := by
    intro m a b c e hm ha ha1 hb hb1 hc hc1 he he1
    calc m * a * b * c * e ≤ m * 1 * 1 * 1 * 1 := by gcongr
      _ = m := by ring
  exact key _ _ _ _ _ (abs_nonneg _) (abs_nonneg _) h1 (Real.exp_pos _).le (h2 _ _)
    (abs_nonneg _) (Real.abs_cos_le_one _) (Real.exp_pos _).le (h3 _)

/-- At every time and position the electric field of the plane laser is at most the
configured peak field. -/
theorem C22_plane (maxE wl phi : ℝ) (hE : 0 ≤ maxE) (d : V3 ℝ) (hd : d.toVec ≠ 0) (t : ℝ)
    (x : V3 ℝ) : len ((PlaneField.new maxE wl phi d).getField t x).1.toVec ≤ maxE := by
  have hR := rotateToAxis_isRotation (v := d) (axis := V3.ez) (V3.ne_zero_of_toVec hd) (by simp)
  rw [PlaneField.getField_eq, ← mag_eq, waveE_mag hR]
  exact (plane_amplitude_le maxE wl phi d t x).trans (le_of_eq (abs_of_nonneg hE))

/-- The same for the Gaussian laser with non-zero wavelength, duration and waist. (In the
plane `z = -1e-99` of the beam frame the code divides by zero on the way to the phase; the
phase only enters through a cosine, so the bound does not depend on it.) -/
theorem C22_gauss (maxE wl tau w phi : ℝ) (hE : 0 ≤ maxE) (hw : w ≠ 0) (_hwl : wl ≠ 0)
    (_htau : tau ≠ 0) (s f : V3 ℝ)
    (hd : (f.sub s).toVec ≠ 0) (t : ℝ) (x : V3 ℝ) :
    len ((GaussField.new maxE wl tau w phi s f).getField t x).1.toVec ≤ maxE := by
  have hR := rotateToAxis_isRotation (v := f.sub s) (axis := V3.ez) (V3.ne_zero_of_toVec hd)
    (by simp)
  have hdir : s.direction f = f.sub s := rfl
  rw [GaussField.getField_eq, hdir, ← mag_eq, waveE_mag hR]
  exact (gauss_amplitude_le maxE wl tau w phi hw s f t x).trans (le_of_eq (abs_of_nonneg hE))

/-- The static field is the configured one everywhere and at all times, for any scalars. -/
theorem C22_static {D : Type} [Dbl D] (e b : V3 D) (t : D) (x : V3 D) :
    staticField e b t x = (e, b) := rfl

example : (0 : ℝ) ≤ 5 ∧ ((⟨0, 0, 1⟩ : V3 ℝ).sub ⟨0, 0, 0⟩).toVec ≠ 0 :=
  ⟨by norm_num, fun h => by simpa [V3.toVec, V3.sub] using congrFun h 2⟩

/-! ## C25 Plane laser is a travelling wave -/

/-- Full statement of C25 for one plane laser: shifting the point along the propagation
direction and the time by the same amount changes nothing, and only the component of the
position along the propagation direction matters. -/
def Travels (F : Field ℝ) (k : V3 ℝ) : Prop :=
  (∀ (t s : ℝ) (x : V3 ℝ), F (t + s) (x.add (k.smul s)) = F t x) ∧
    ∀ (t : ℝ) (x y : V3 ℝ), k.toVec ⬝ᵥ x.toVec = k.toVec ⬝ᵥ y.toVec → F t x = F t y

/-- What holds of C25: every direction that is not within `1e-5` of `-z`, or is `-z`. Missing:
the directions in between, for which the code uses `-z` instead. -/
theorem C25_plane_partial (maxE wl phi : ℝ) (d : V3 ℝ) (hd : d.toVec ≠ 0)
    (hc : ClearOfMinusZ d) : Travels (PlaneField.new maxE wl phi d).getField d.norm := by
  have hd' := V3.ne_zero_of_toVec hd
  have hR := rotateToAxis_isRotation (v := d) (axis := V3.ez) hd' (by simp)
  have hk := inverse_ez hd' hc.iff
  have hz : ∀ x : V3 ℝ, ((d.rotateToAxis V3.ez).mulVec x).z = d.norm.dot x := by
    intro x; rw [mulVec_z hR, hk]
  constructor
  · intro t s x
    rw [PlaneField.getField_eq, PlaneField.getField_eq]
    have : (PlaneField.new maxE wl phi d).amplitude (t + s) (x.add (d.norm.smul s)) =
        (PlaneField.new maxE wl phi d).amplitude t x := by
      simp only [PlaneField.amplitude, PlaneField.new, real_mul, real_cos, real_sub]
      have e : d.norm.dot (x.add (d.norm.smul s)) = d.norm.dot x + s * d.norm.dot d.norm := by
        simp only [V3.dot, V3.add, V3.smul, real_add, real_mul]; ring
      rw [hz, hz, e, V3.norm_dot_self hd']
      congr 3; ring
    rw [this]
  · intro t x y h
    rw [← dot_eq, ← dot_eq] at h
    rw [PlaneField.getField_eq, PlaneField.getField_eq]
    have : (PlaneField.new maxE wl phi d).amplitude t x =
        (PlaneField.new maxE wl phi d).amplitude t y := by
      simp only [PlaneField.amplitude, PlaneField.new, real_mul, real_cos, real_sub]
      rw [hz, hz, h]
    rw [this]

namespace FieldWitness

/-- A direction that differs from `-z` by about `2e-6`. -/
noncomputable def nearZ : V3 ℝ := ⟨2 * 10 ^ 6, 0, 1 - 10 ^ 12⟩

theorem nearZ_mag : nearZ.mag = 10 ^ 12 + 1 := by
  simp only [V3.mag, V3.dot, nearZ, real_add, real_mul, real_sqrt]
  rw [show (2 * 10 ^ 6 * (2 * 10 ^ 6) + 0 * 0 + (1 - 10 ^ 12) * (1 - 10 ^ 12) : ℝ) =
    (10 ^ 12 + 1) ^ 2 by norm_num, Real.sqrt_sq (by positivity)]

theorem nearZ_rot : nearZ.rotateToAxis V3.ez = ⟨-1, 0, 0, 0, 1, 0, 0, 0, -1⟩ := by
  have hez : (V3.ez : V3 ℝ).norm = V3.ez := V3.norm_of_unit (by simp [V3.dot])
  apply rotateToAxis_eq_diag
  rw [hez, V3.norm_real, nearZ_mag]
  simp [nearZ, V3.add, V3.mag2, V3.dot]
  norm_num

end FieldWitness

open FieldWitness in
/-- The full statement is false: in the direction `(2e6, 0, 1 - 1e12)` the wave does not
travel along its direction. -/
theorem C25_refuted :
    ¬ ∀ (maxE wl phi : ℝ) (d : V3 ℝ), d.toVec ≠ 0 →
      Travels (PlaneField.new maxE wl phi d).getField d.norm := by
  intro h
  have hd : nearZ.toVec ≠ 0 := by
    intro h; have := congrFun h 0; simp [V3.toVec, nearZ] at this
  have hR := rotateToAxis_isRotation (v := nearZ) (axis := V3.ez) (V3.ne_zero_of_toVec hd) (by simp)
  have e := (h 1 (2 * Units.pi) 0 nearZ hd).1 0 ((10 ^ 12 + 1) / 2) ⟨0, 0, 0⟩
  have e1 := congrArg (fun q => (Prod.fst q).mag) e
  simp only [PlaneField.getField_eq, waveE_mag hR] at e1
  have hpi : (2 : ℝ) * Units.pi ≠ 0 := by simp [Units.pi]; norm_num
  have hwave : ((2 : ℚ) : ℝ) * Units.pi / (2 * Units.pi) = 1 := by
    push_cast; exact div_self hpi
  simp only [PlaneField.amplitude, PlaneField.new, nearZ_rot, V3.norm_real, nearZ_mag, real_mul,
    real_cos, real_sub, real_div, real_lit, hwave] at e1
  simp [nearZ, M3.mulVec, M3.acc3, V3.add, V3.smul] at e1
  norm_num at e1
  have := Real.cos_one_le
  rw [abs_of_pos Real.cos_one_pos] at e1
  norm_num at this
  linarith

/-! ## C23 Laser focus lies at the configured focal point -/

/-- Full statement of C23 for a family of fields indexed by start point and focus. -/
def ShiftsWithFocus (F : V3 ℝ → V3 ℝ → Field ℝ) : Prop :=
  ∀ (s f : V3 ℝ), (f.sub s).toVec ≠ 0 → ∀ (a : V3 ℝ) (t : ℝ) (x : V3 ℝ),
    F (s.add a) (f.add a) t (x.add a) = F s f t x

theorem shift_sub (s f a : V3 ℝ) : (s.add a).sub (f.add a) = s.sub f := by
  ext <;> simp [V3.add, V3.sub]

theorem shift_direction (s f a : V3 ℝ) : (s.add a).direction (f.add a) = s.direction f := by
  ext <;> simp [V3.add, V3.direction]

/-- The code does the opposite: displacing start and focus together changes nothing, at any
point and time. The focus is always at the origin of coordinates. -/
theorem C23_ignores_position_refuted (maxE wl tau w phi : ℝ) (s f a : V3 ℝ) :
    (GaussField.new maxE wl tau w phi (s.add a) (f.add a)).getField =
      (GaussField.new maxE wl tau w phi s f).getField ∧
    (FocusField.new maxE wl tau w phi (s.add a) (f.add a)).getField =
      (FocusField.new maxE wl tau w phi s f).getField := by
  constructor
  · funext t x
    rw [GaussField.getField_eq, GaussField.getField_eq]
    have : (GaussField.new maxE wl tau w phi (s.add a) (f.add a)).amplitude t x =
        (GaussField.new maxE wl tau w phi s f).amplitude t x := by
      simp only [GaussField.amplitude, GaussField.new, shift_sub, shift_direction]
    rw [this, shift_direction]
  · have : FocusField.new maxE wl tau w phi (s.add a) (f.add a) =
        FocusField.new maxE wl tau w phi s f := by
      simp only [FocusField.new, shift_sub, shift_direction]
    rw [this]

/-- The peak of the Gaussian pulse: at the origin, when the pulse has travelled the distance
from start to focus. -/
theorem gauss_amplitude_origin (maxE wl tau w phi : ℝ) (hw : w ≠ 0) (s f : V3 ℝ) :
    (GaussField.new maxE wl tau w phi s f).amplitude (s.sub f).mag ⟨0, 0, 0⟩ = maxE := by
  have hp : ((s.direction f).rotateToAxis V3.ez).mulVec ⟨0, 0, 0⟩ = (⟨0, 0, 0⟩ : V3 ℝ) := by
    ext <;> simp [M3.mulVec, M3.acc3]
  simp only [GaussField.amplitude, GaussField.new, hp]
  simp [hw]

/-- What holds of C23: with the focus at the origin, the Gaussian pulse reaches its peak field
at the focus, at the time light needs from the start point, and is nowhere and at no time
stronger. Missing: any other focus, because of the theorem above. -/
theorem C23_origin_partial (maxE wl tau w phi : ℝ) (hE : 0 ≤ maxE) (hw : w ≠ 0) (hwl : wl ≠ 0)
    (htau : tau ≠ 0) (s : V3 ℝ) (hs : s.toVec ≠ 0) :
    len ((GaussField.new maxE wl tau w phi s ⟨0, 0, 0⟩).getField (len s.toVec) ⟨0, 0, 0⟩).1.toVec =
      maxE ∧
    ∀ (t : ℝ) (x : V3 ℝ),
      len ((GaussField.new maxE wl tau w phi s ⟨0, 0, 0⟩).getField t x).1.toVec ≤ maxE := by
  have hd : ((⟨0, 0, 0⟩ : V3 ℝ).sub s).toVec ≠ 0 := by
    intro h
    apply hs
    rw [toVec_sub] at h
    have : (⟨0, 0, 0⟩ : V3 ℝ).toVec = 0 := by ext i; fin_cases i <;> simp [V3.toVec]
    rw [this, zero_sub, neg_eq_zero] at h
    exact h
  refine ⟨?_, fun t x => C22_gauss maxE wl tau w phi hE hw hwl htau s _ hd t x⟩
  have hR := rotateToAxis_isRotation (v := (⟨0, 0, 0⟩ : V3 ℝ).sub s) (axis := V3.ez)
    (V3.ne_zero_of_toVec hd) (by simp)
  have hdir : s.direction ⟨0, 0, 0⟩ = (⟨0, 0, 0⟩ : V3 ℝ).sub s := rfl
  have hs0 : s.sub ⟨0, 0, 0⟩ = s := by ext <;> simp [V3.sub]
  have hamp := gauss_amplitude_origin maxE wl tau w phi hw s ⟨0, 0, 0⟩
  rw [hs0] at hamp
  rw [GaussField.getField_eq, hdir, ← mag_eq, waveE_mag hR, ← mag_eq, hamp, abs_of_nonneg hE]

example : ∃ s : V3 ℝ, s.toVec ≠ 0 := ⟨⟨0, 0, -3⟩, fun h => by
  simpa [V3.toVec] using congrFun h 2⟩

namespace FieldWitness

theorem exp_small {x : ℝ} (hx : x ≤ -50) : Real.exp x < 1e-15 := by
  have h1 : Real.exp x ≤ Real.exp (-(50 * 1)) := by
    rw [Real.exp_le_exp]; linarith
  have h2 : Real.exp (-(50 * 1)) = Real.exp (-1) ^ 50 := by
    rw [← Real.exp_nat_mul]; norm_num
  have h3 : Real.exp (-1) ≤ 1 / 2 := by
    rw [Real.exp_neg, ← one_div]
    exact one_div_le_one_div_of_le (by norm_num) (by linarith [Real.add_one_le_exp (1 : ℝ)])
  have h4 : Real.exp (-1) ^ 50 ≤ (1 / 2) ^ 50 := by gcongr
  have h5 : (1 / 2 : ℝ) ^ 50 < 1e-15 := by norm_num
  exact lt_of_le_of_lt (h1.trans (h2.le.trans h4)) h5

/-- Start point of the witness pulse; its focus is the origin. -/
noncomputable def start : V3 ℝ := ⟨0, 0, -1⟩

theorem dir_start : start.direction ⟨0, 0, 0⟩ = (⟨0, 0, 1⟩ : V3 ℝ) := by
  ext <;> simp [start, V3.direction]

/-- Wavelength giving wave number `k`. -/
noncomputable def wlOf (k : ℝ) : ℝ := 2 * Units.pi / k

theorem waveNum_wlOf {k : ℝ} (_hk : k ≠ 0) : ((2 : ℚ) : ℝ) * Units.pi / wlOf k = k := by
  have hpi : (Units.pi : ℝ) ≠ 0 := by simp [Units.pi]; norm_num
  unfold wlOf; push_cast; field_simp

theorem mag_start : (start.sub ⟨0, 0, 0⟩).mag = 1 := by
  simp [start, V3.sub, V3.mag, V3.dot]

/-- Wave number of the focusing witness: `k² = π/2`. -/
noncomputable def k0 : ℝ := Real.sqrt (Real.pi / 2)

theorem k0_pos : 0 < k0 := Real.sqrt_pos.mpr (by positivity)
theorem k0_sq : k0 * k0 = Real.pi / 2 := Real.mul_self_sqrt (by positivity)

/-- A focusing laser along `z` with focus at the origin. -/
noncomputable def focusing (phi : ℝ) : FocusField ℝ :=
  FocusField.new 1 (wlOf k0) 1 1 phi start ⟨0, 0, 0⟩

theorem focusing_eq (phi : ℝ) : focusing phi =
    { maxE := 1, waveLength := wlOf k0, tau := 1, waist := 1, polAngle := phi, waveNum := k0
      rayleigh := k0 / 2, eps := 1 / (k0 / 2), t0 := 1
      rotation := ⟨1, 0, 0, 0, 1, 0, 0, 0, 1⟩
      rotationInv := ⟨1, 0, 0, 0, 1, 0, 0, 0, 1⟩ } := by
  have hi : (⟨1, 0, 0, 0, 1, 0, 0, 0, 1⟩ : M3 ℝ).inverse = ⟨1, 0, 0, 0, 1, 0, 0, 0, 1⟩ := by
    simp [M3.inverse, M3.muls, M3.det]
  simp only [focusing, FocusField.new, dir_start, rot_z, hi, mag_start, real_mul, real_div, real_lit,
    waveNum_wlOf k0_pos.ne']
  simp

/-- One Rayleigh length behind the focus, on the axis. -/
noncomputable def point : V3 ℝ := ⟨0, 0, k0 / 2⟩

theorem env_point (phi : ℝ) : (focusing phi).envelope (1 + k0 / 2) point = 1 := by
  rw [focusing_eq]
  simp [FocusField.envelope, point]

theorem beam_point (phi : ℝ) : (focusing phi).beamField (1 + k0 / 2) point =
    (⟨1 / Real.sqrt 2, 0, 0⟩, ⟨0, 1 / Real.sqrt 2, 0⟩) := by
  have hr : k0 / 2 / (k0 / 2) = 1 := div_self (by have := k0_pos; positivity)
  have hphi : k0 * (k0 / 2) = Real.pi / 4 := by linear_combination k0_sq / 2
  have h1 : Real.sin (Real.pi / 4 + Real.pi / 4) = 1 := by
    rw [show Real.pi / 4 + Real.pi / 4 = Real.pi / 2 by ring, Real.sin_pi_div_two]
  have h3 : Real.sin (Real.pi / 4 + (2 + 1) * (Real.pi / 4)) = 0 := by
    rw [show Real.pi / 4 + (2 + 1) * (Real.pi / 4) = Real.pi by ring, Real.sin_pi]
  have henv := env_point phi
  simp only [FocusField.beamField, henv]
  rw [focusing_eq]
  simp [point, hr, hphi, h1, h3, Real.arctan_one, one_add_one_eq_two]

end FieldWitness

open FieldWitness in
/-- The full statement of C23 is false for the Gaussian laser. -/
theorem C23_gauss_refuted :
    ¬ ∀ (maxE wl tau w phi : ℝ), 
      ShiftsWithFocus fun s f => (GaussField.new maxE wl tau w phi s f).getField := by
  intro h
  have hd : ((⟨0, 0, 0⟩ : V3 ℝ).sub start).toVec ≠ 0 := by
    intro h; simpa [V3.toVec, V3.sub, start] using congrFun h 2
  have hR := rotateToAxis_isRotation (v := start.direction ⟨0, 0, 0⟩) (axis := V3.ez)
    (by rw [dir_start]; simp) (by simp)
  have e := h 1 1 1 1 0 start ⟨0, 0, 0⟩ hd ⟨1, 0, 0⟩ (start.sub ⟨0, 0, 0⟩).mag ⟨0, 0, 0⟩
  dsimp only at e
  rw [(C23_ignores_position_refuted 1 1 1 1 0 start ⟨0, 0, 0⟩ ⟨1, 0, 0⟩).1] at e
  have e1 := congrArg (fun q => (Prod.fst q).mag) e
  simp only [GaussField.getField_eq, waveE_mag hR,
    gauss_amplitude_origin 1 1 1 1 0 one_ne_zero start ⟨0, 0, 0⟩] at e1
  have hamp : |(GaussField.new 1 1 1 1 0 start ⟨0, 0, 0⟩).amplitude (start.sub ⟨0, 0, 0⟩).mag
      ((⟨0, 0, 0⟩ : V3 ℝ).add ⟨1, 0, 0⟩)| ≤ Real.exp (-1) := by
    simp only [GaussField.amplitude, GaussField.new, dir_start, rot_z, mag_start]
    simp [M3.mulVec, M3.acc3, V3.add]
    exact mul_le_of_le_one_right (Real.exp_pos _).le (Real.abs_cos_le_one _)
  rw [e1, abs_one] at hamp
  have : Real.exp (-1) < 1 := by rw [Real.exp_lt_one_iff]; norm_num
  linarith

open FieldWitness in
/-- The full statement of C23 is false for the focusing laser. -/
theorem C23_focusing_refuted :
    ¬ ∀ (maxE wl tau w phi : ℝ), 
      ShiftsWithFocus fun s f => (FocusField.new maxE wl tau w phi s f).getField := by
  intro h
  have hd : ((⟨0, 0, 0⟩ : V3 ℝ).sub start).toVec ≠ 0 := by
    intro h; simpa [V3.toVec, V3.sub, start] using congrFun h 2
  have e := h 1 (wlOf k0) 1 1 0 start ⟨0, 0, 0⟩ hd ⟨100, 0, 0⟩ (1 + k0 / 2) point
  dsimp only at e
  rw [(C23_ignores_position_refuted 1 (wlOf k0) 1 1 0 start ⟨0, 0, 0⟩ ⟨100, 0, 0⟩).2] at e
  have hrot : ∀ v : V3 ℝ, (⟨1, 0, 0, 0, 1, 0, 0, 0, 1⟩ : M3 ℝ).mulVec v = v := by
    intro v; ext <;> simp [M3.mulVec, M3.acc3]
  have hfar : ((focusing 0).envelope (1 + k0 / 2) (point.add ⟨100, 0, 0⟩)) < 1e-15 := by
    have hr : k0 / 2 / (k0 / 2) = 1 := div_self (by have := k0_pos; positivity)
    rw [focusing_eq]
    simp [FocusField.envelope, point, V3.add, hr, one_add_one_eq_two]
    exact exp_small (by norm_num)
  change (focusing 0).getField _ _ = (focusing 0).getField _ _ at e
  have hE : (focusing 0).getField (1 + k0 / 2) point = (⟨1 / Real.sqrt 2, 0, 0⟩, ⟨0, 1 / Real.sqrt 2, 0⟩) := by
    have hr1 : (focusing 0).rotation = ⟨1, 0, 0, 0, 1, 0, 0, 0, 1⟩ := by rw [focusing_eq]
    have hr2 : (focusing 0).rotationInv = ⟨1, 0, 0, 0, 1, 0, 0, 0, 1⟩ := by rw [focusing_eq]
    have hr3 : (focusing 0).polAngle = 0 := by rw [focusing_eq]
    simp only [FocusField.getField, hr1, hr2, hr3, hrot, env_point, beam_point]
    simp [FocusField.polarise]
    norm_num
  have hF : (focusing 0).getField (1 + k0 / 2) (point.add ⟨100, 0, 0⟩) =
      (⟨0, 0, 0⟩, ⟨0, 0, 0⟩) := by
    have hr1 : (focusing 0).rotation = ⟨1, 0, 0, 0, 1, 0, 0, 0, 1⟩ := by rw [focusing_eq]
    simp only [FocusField.getField, hr1, hrot]
    rw [if_pos (by simp; norm_num at hfar ⊢; exact hfar)]
    simp
  rw [hE, hF] at e
  have := congrArg (fun q => (Prod.fst q).x) e
  simp at this
  have h2 : (0 : ℝ) < Real.sqrt 2 := by positivity
  linarith

/-! ## C24 Focusing pulse: finite support and polarisation -/

/-- The pulse envelope of the documented field, at the point with coordinates `(x, y, z)` in
the frame of the beam: peak field times a Gaussian in radius (with the local beam width) and
in the distance to the pulse centre. -/
noncomputable def pulseEnvelope (maxE tau w R t0 t x y z : ℝ) : ℝ :=
  maxE * Real.exp (-(x ^ 2 + y ^ 2) / (w ^ 2 * (1 + (z / R) ^ 2)) - (t - t0 - z) ^ 2 / tau ^ 2)

/-- The field is exactly zero wherever the envelope is below `1e-15`. -/
theorem C24_support (maxE wl tau w phi : ℝ) (s f : V3 ℝ) (t : ℝ) (x : V3 ℝ)
    (h : let p := (((f.sub s).rotateToAxis V3.ez).mulVec x)
      pulseEnvelope maxE tau w (2 * Units.pi / wl * w ^ 2 / 2) (len (s.sub f).toVec) t p.x p.y p.z
        < 1e-15) :
    ((FocusField.new maxE wl tau w phi s f).getField t x).1.toVec = 0 ∧
      ((FocusField.new maxE wl tau w phi s f).getField t x).2.toVec = 0 := by
  have hdir : s.direction f = f.sub s := rfl
  have henv : (FocusField.new maxE wl tau w phi s f).envelope t
      (((f.sub s).rotateToAxis V3.ez).mulVec x) < 1e-15 := by
    dsimp only at h
    refine lt_of_eq_of_lt ?_ h
    simp only [FocusField.envelope, FocusField.new, pulseEnvelope, mag_eq, real_mul, real_exp,
      real_sub, real_div, real_neg, real_add, real_sqrt, real_lit]
    congr 2
    have hs : ∀ q : ℝ, Real.sqrt (1 + q * q) * Real.sqrt (1 + q * q) = 1 + q * q := fun q =>
      Real.mul_self_sqrt (by nlinarith [mul_self_nonneg q])
    push_cast
    rw [show ∀ a b : ℝ, w * a * (w * b) = w ^ 2 * (a * b) from fun a b => by ring, hs]
    rw [show 2 * Units.pi / wl * w * w / 2 = 2 * Units.pi / wl * w ^ 2 / 2 by ring]
    congr 2 <;> ring
  have : (FocusField.new maxE wl tau w phi s f).getField t x = (⟨0, 0, 0⟩, ⟨0, 0, 0⟩) := by
    unfold FocusField.getField
    have hr : (FocusField.new maxE wl tau w phi s f).rotation = (f.sub s).rotateToAxis V3.ez := rfl
    dsimp only
    rw [hr, if_pos (by simp; norm_num at henv ⊢; exact henv)]
    simp
  rw [this]
  constructor <;> ext i <;> fin_cases i <;> simp [V3.toVec]

open FieldWitness in
/-- Ten waists away from the axis the hypothesis of `C24_support` is met. -/
example : pulseEnvelope 1 1 1 1 0 0 10 0 0 < 1e-15 := by
  unfold pulseEnvelope
  rw [one_mul]
  exact exp_small (by norm_num)

open FieldWitness in
/-- The field is not zero everywhere, so the support statement is not empty. -/
example : (focusing 0).beamField (1 + k0 / 2) point ≠ (⟨0, 0, 0⟩, ⟨0, 0, 0⟩) := by
  rw [beam_point]
  intro h
  have := congrArg (fun q => (Prod.fst q).x) h
  simp at this

/-- Full statement of the second half of C24: changing the polarisation angle leaves the
magnitude of the field unchanged. -/
def MagnitudeKept (F : ℝ → Field ℝ) : Prop :=
  ∀ (phi : ℝ) (t : ℝ) (x : V3 ℝ), len (F phi t x).1.toVec = len (F 0 t x).1.toVec

open FieldWitness in
/-- The second half is false: one Rayleigh length behind the focus the witness laser has field
`1/√2` with polarisation angle 0, and none at all with angle π/2. -/
theorem C24_magnitude_refuted :
    ¬ ∀ (maxE wl tau w : ℝ) (s f : V3 ℝ), (f.sub s).toVec ≠ 0 →
      MagnitudeKept (fun phi => (FocusField.new maxE wl tau w phi s f).getField) := by
  intro h
  have hd : ((⟨0, 0, 0⟩ : V3 ℝ).sub start).toVec ≠ 0 := by
    intro h; simpa [V3.toVec, V3.sub, start] using congrFun h 2
  have e := h 1 (wlOf k0) 1 1 start ⟨0, 0, 0⟩ hd (Real.pi / 2) (1 + k0 / 2) point
  have hrot : ∀ v : V3 ℝ, (⟨1, 0, 0, 0, 1, 0, 0, 0, 1⟩ : M3 ℝ).mulVec v = v := by
    intro v; ext <;> simp [M3.mulVec, M3.acc3]
  change len ((focusing (Real.pi / 2)).getField _ _).1.toVec = len ((focusing 0).getField _ _).1.toVec at e
  have hE : ∀ phi, ((focusing phi).getField (1 + k0 / 2) point).1 =
      ⟨1 / Real.sqrt 2 * Real.cos phi, 1 / Real.sqrt 2 * Real.cos phi * Real.sin phi, 0⟩ := by
    intro phi
    have hr1 : (focusing phi).rotation = ⟨1, 0, 0, 0, 1, 0, 0, 0, 1⟩ := by rw [focusing_eq]
    have hr2 : (focusing phi).rotationInv = ⟨1, 0, 0, 0, 1, 0, 0, 0, 1⟩ := by rw [focusing_eq]
    have hr3 : (focusing phi).polAngle = phi := by rw [focusing_eq]
    simp only [FocusField.getField, hr1, hr2, hr3, hrot, env_point, beam_point]
    rw [if_neg (by simp; norm_num)]
    simp [FocusField.polarise]
  rw [hE, hE, ← mag_eq, ← mag_eq] at e
  simp [V3.mag, V3.dot] at e
  have h2 : (0 : ℝ) < Real.sqrt 2 := by positivity
  linarith

theorem polarise_mag (phi : ℝ) (v : V3 ℝ) (h : Real.sin phi = 0) :
    (FocusField.polarise phi v).mag = v.mag := by
  have hc := Real.sin_sq_add_cos_sq phi
  rw [h] at hc
  simp only [FocusField.polarise, V3.mag, V3.dot, real_add, real_mul, real_sub, real_sqrt,
    real_sin, real_cos, h]
  congr 1
  linear_combination (v.x ^ 2 + v.y ^ 2) * hc

/-- What holds of the second half: angles that are multiples of π keep the magnitudes of both
fields, and no angle changes the electric field along the beam. Missing: the magnitude for
all other angles. -/
theorem C24_polarisation_partial (maxE wl tau w phi : ℝ) (s f : V3 ℝ) (hd : (f.sub s).toVec ≠ 0)
    (hc : ClearOfMinusZ (f.sub s)) (t : ℝ) (x : V3 ℝ) :
    (Real.sin phi = 0 →
      len ((FocusField.new maxE wl tau w phi s f).getField t x).1.toVec =
        len ((FocusField.new maxE wl tau w 0 s f).getField t x).1.toVec ∧
      len ((FocusField.new maxE wl tau w phi s f).getField t x).2.toVec =
        len ((FocusField.new maxE wl tau w 0 s f).getField t x).2.toVec) ∧
    ((FocusField.new maxE wl tau w phi s f).getField t x).1.toVec ⬝ᵥ (f.sub s).norm.toVec =
      ((FocusField.new maxE wl tau w 0 s f).getField t x).1.toVec ⬝ᵥ (f.sub s).norm.toVec := by
  have hd' := V3.ne_zero_of_toVec hd
  have hR := rotateToAxis_isRotation (v := f.sub s) (axis := V3.ez) hd' (by simp)
  have hk := inverse_ez hd' hc.iff
  have hdir : s.direction f = f.sub s := rfl
  have henv : ∀ p, (FocusField.new maxE wl tau w phi s f).envelope t p =
      (FocusField.new maxE wl tau w 0 s f).envelope t p := fun _ => rfl
  have hbeam : ∀ p, (FocusField.new maxE wl tau w phi s f).beamField t p =
      (FocusField.new maxE wl tau w 0 s f).beamField t p := fun _ => rfl
  have hr : ∀ q, (FocusField.new maxE wl tau w q s f).rotation = (f.sub s).rotateToAxis V3.ez :=
    fun _ => rfl
  have hi : ∀ q, (FocusField.new maxE wl tau w q s f).rotationInv =
    ((f.sub s).rotateToAxis V3.ez).inverse := fun _ => rfl
  have hp : ∀ q, (FocusField.new maxE wl tau w q s f).polAngle = q := fun _ => rfl
  have hz : ∀ a : V3 ℝ, ((((f.sub s).rotateToAxis V3.ez).inverse).mulVec a).dot (f.sub s).norm =
      a.z := by
    intro a
    rw [← hk, inverse_dot hR]; simp [V3.dot]
  unfold FocusField.getField
  dsimp only
  simp only [henv, hbeam, hr, hi, hp]
  split
  · exact ⟨fun _ => ⟨rfl, rfl⟩, rfl⟩
  · refine ⟨fun h => ⟨?_, ?_⟩, ?_⟩
    · rw [← mag_eq, ← mag_eq, inverse_mag hR, inverse_mag hR, polarise_mag _ _ h,
        polarise_mag _ _ Real.sin_zero]
    · rw [← mag_eq, ← mag_eq, inverse_mag hR, inverse_mag hR, polarise_mag _ _ h,
        polarise_mag _ _ Real.sin_zero]
    · rw [← dot_eq, ← dot_eq, hz, hz]
      rfl

/-! ## C78 The laser field oscillates in time -/

/-- Full statement of C78 for a field: wherever it is non-zero at some time, there is a time
at which it points the opposite way. -/
def Oscillates (F : Field ℝ) : Prop :=
  ∀ (x : V3 ℝ) (t : ℝ), (F t x).1.toVec ≠ 0 →
    ∃ t', (F t' x).1.toVec ⬝ᵥ (F t x).1.toVec < 0

/-- The plane laser oscillates: after half a period the field is reversed. -/
theorem C78_plane_partial (maxE wl phi : ℝ) (hw : wl ≠ 0) (d : V3 ℝ) :
    Oscillates (PlaneField.new maxE wl phi d).getField := by
  intro x t hne
  have hpi : (Units.pi : ℝ) ≠ 0 := by simp [Units.pi]; norm_num
  have hk : ((2 : ℚ) : ℝ) * Units.pi / wl ≠ 0 := by
    push_cast; exact div_ne_zero (mul_ne_zero two_ne_zero hpi) hw
  refine ⟨t + Real.pi / (((2 : ℚ) : ℝ) * Units.pi / wl), ?_⟩
  have hamp : (PlaneField.new maxE wl phi d).amplitude
      (t + Real.pi / (((2 : ℚ) : ℝ) * Units.pi / wl)) x =
      -(PlaneField.new maxE wl phi d).amplitude t x := by
    simp only [PlaneField.amplitude, PlaneField.new, real_mul, real_cos, real_sub, real_div,
      real_lit]
    rw [← sub_sub, sub_mul, div_mul_cancel₀ _ hk, Real.cos_sub_pi]
    ring
  have hneg : ((PlaneField.new maxE wl phi d).getField
      (t + Real.pi / (((2 : ℚ) : ℝ) * Units.pi / wl)) x).1 =
      ((PlaneField.new maxE wl phi d).getField t x).1.smul (-1) := by
    rw [PlaneField.getField_eq, PlaneField.getField_eq, hamp]
    simp only [waveE]
    rw [← mulVec_smul]
    congr 1
    ext <;> simp [V3.smul]
  rw [hneg, toVec_smul, smul_dotProduct, smul_eq_mul, ← dot_eq]
  have := V3.dot_self_pos (V3.ne_zero_of_toVec hne)
  linarith

/-- The Gaussian and the focusing laser never oscillate: whatever the parameters, at a fixed
point the electric fields at any two times are never opposed. Only the envelope moves. -/
theorem C78_pulses_refuted (maxE wl tau w phi : ℝ) (s f : V3 ℝ) (hd : (f.sub s).toVec ≠ 0)
    (t t' : ℝ) (x : V3 ℝ) :
    0 ≤ ((GaussField.new maxE wl tau w phi s f).getField t' x).1.toVec ⬝ᵥ
        ((GaussField.new maxE wl tau w phi s f).getField t x).1.toVec ∧
    0 ≤ ((FocusField.new maxE wl tau w phi s f).getField t' x).1.toVec ⬝ᵥ
        ((FocusField.new maxE wl tau w phi s f).getField t x).1.toVec := by
  have hd' := V3.ne_zero_of_toVec hd
  have hR := rotateToAxis_isRotation (v := f.sub s) (axis := V3.ez) hd' (by simp)
  have hdir : s.direction f = f.sub s := rfl
  constructor
  · rw [GaussField.getField_eq, GaussField.getField_eq, hdir, ← dot_eq]
    simp only [waveE]
    rw [inverse_dot hR]
    have hs := Real.sin_sq_add_cos_sq phi
    have hprod : 0 ≤ (GaussField.new maxE wl tau w phi s f).amplitude t' x *
        (GaussField.new maxE wl tau w phi s f).amplitude t x := by
      simp only [GaussField.amplitude, real_mul, real_exp, real_cos]
      rw [mul_mul_mul_comm]
      exact mul_nonneg (mul_self_nonneg _) (mul_nonneg (Real.exp_pos _).le (Real.exp_pos _).le)
    simp only [V3.dot, real_add, real_mul]
    generalize (GaussField.new maxE wl tau w phi s f).amplitude t' x = a at *
    generalize (GaussField.new maxE wl tau w phi s f).amplitude t x = b at *
    have : a * Real.cos phi * (b * Real.cos phi) + a * Real.sin phi * (b * Real.sin phi) + 0 * 0 =
      a * b := by linear_combination a * b * hs
    rw [this]; exact hprod
  · generalize hF : FocusField.new maxE wl tau w phi s f = F
    have hr : F.rotation = (f.sub s).rotateToAxis V3.ez := by rw [← hF]; rfl
    have hi : F.rotationInv = ((f.sub s).rotateToAxis V3.ez).inverse := by rw [← hF]; rfl
    rw [← dot_eq]
    unfold FocusField.getField
    dsimp only
    split
    · simp [V3.dot]
    · next h1 =>
      split
      · simp [V3.dot]
      · next h2 =>
        dsimp only
        generalize F.rotation.mulVec x = p at *
        have e1 : 0 < F.envelope t' p := by
          have : ¬ F.envelope t' p < ((1e-15 : ℚ) : ℝ) := by simpa using h1
          exact lt_of_lt_of_le (by norm_num) (not_lt.mp this)
        have e2 : 0 < F.envelope t p := by
          have : ¬ F.envelope t p < ((1e-15 : ℚ) : ℝ) := by simpa using h2
          exact lt_of_lt_of_le (by norm_num) (not_lt.mp this)
        rw [hi, inverse_dot hR]
        have hx : F.envelope t p * (F.beamField t' p).1.x = F.envelope t' p * (F.beamField t p).1.x := by
          simp only [FocusField.beamField, real_mul]; ring
        have hy : F.envelope t p * (F.beamField t' p).1.y = F.envelope t' p * (F.beamField t p).1.y := by
          simp only [FocusField.beamField, real_mul]; ring
        have hz : F.envelope t p * (F.beamField t' p).1.z = F.envelope t' p * (F.beamField t p).1.z := by
          simp only [FocusField.beamField, real_mul]; ring
        generalize (F.beamField t' p).1 = u at *
        generalize (F.beamField t p).1 = v at *
        generalize F.envelope t p = a at *
        generalize F.envelope t' p = b at *
        have hpol : (FocusField.polarise F.polAngle u).smul a =
            (FocusField.polarise F.polAngle v).smul b := by
          simp only [FocusField.polarise, V3.smul, real_mul, real_add, real_sub, real_sin, real_cos]
          ext
          · linear_combination Real.cos F.polAngle * hx - Real.sin F.polAngle * hy
          · linear_combination Real.sin F.polAngle * (Real.cos F.polAngle * hx -
              Real.sin F.polAngle * hy) + Real.cos F.polAngle * hy
          · exact hz
        generalize FocusField.polarise F.polAngle u = U at *
        generalize FocusField.polarise F.polAngle v = W at *
        have hdot : a * U.dot W = b * W.dot W := by
          have := congrArg (fun q => q.dot W) hpol
          simp only [V3.dot, V3.smul, real_mul, real_add] at this ⊢
          linarith
        have hW := W.dot_self_nonneg
        by_contra hneg
        have : a * U.dot W < 0 := mul_neg_of_pos_of_neg e2 (not_le.mp hneg)
        have : 0 ≤ b * W.dot W := mul_nonneg e1.le hW
        linarith

open FieldWitness in
/-- A Gaussian pulse that is somewhere non-zero, so that its failure to oscillate contradicts
the full statement. -/
theorem C78_refuted : ¬ Oscillates (GaussField.new 1 1 1 1 0 start ⟨0, 0, 0⟩).getField := by
  intro h
  have hd : ((⟨0, 0, 0⟩ : V3 ℝ).sub start).toVec ≠ 0 := by
    intro h; simpa [V3.toVec, V3.sub, start] using congrFun h 2
  have hR := rotateToAxis_isRotation (v := start.direction ⟨0, 0, 0⟩) (axis := V3.ez)
    (by rw [dir_start]; simp) (by simp)
  obtain ⟨t', ht⟩ := h ⟨0, 0, 0⟩ (start.sub ⟨0, 0, 0⟩).mag (by
    intro h0
    have : len ((GaussField.new 1 1 1 1 0 start ⟨0, 0, 0⟩).getField (start.sub ⟨0, 0, 0⟩).mag
        ⟨0, 0, 0⟩).1.toVec = 1 := by
      rw [GaussField.getField_eq, ← mag_eq, waveE_mag hR,
        gauss_amplitude_origin 1 1 1 1 0 one_ne_zero start ⟨0, 0, 0⟩, abs_one]
    rw [h0] at this
    simp [len] at this)
  have := (C78_pulses_refuted 1 1 1 1 0 start ⟨0, 0, 0⟩ hd (start.sub ⟨0, 0, 0⟩).mag t'
    ⟨0, 0, 0⟩).1
  linarith

end QED
