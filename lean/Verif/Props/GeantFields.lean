import Verif.Spec.SIField
import Verif.Props.Fields
import Verif.Props.Units
import Verif.Props.GeantProcess

set_option autoImplicit false

/-!
# Property C119: fields given to the Geant4 emission process in SI units

`electricSI` and `magneticSI` in `Spec/SIField.lean` are what an SI observer measures.
-/

namespace QED

open Dbl G4 _root_.QED.Units
open scoped Matrix

/-! ## Static fields -/

/-- The static field in SI units is the given one times the reference field, about 1.3e18 times too strong
in the electric and 4.4e9 times in the magnetic part. -/
theorem C119_static_scale (e b : V3 ℝ) (T : ℝ) (X : V3 ℝ) :
    electricSI (setStaticField e b) T X = (1.3232855e18 : ℝ) • e.toVec ∧
    magneticSI (setStaticField e b) T X = (1.3232855e18 / 2.99792458e8 : ℝ) • b.toVec := by
  constructor
  · simp only [electricSI, setStaticField, staticField, unitsSI, SI_eSchw, real_lit]
    norm_num
  · simp only [magneticSI, setStaticField, staticField, unitsSI, SI_eSchw, SI_c, real_lit, real_div]
    norm_num

/-- A static field is the one asked for exactly when it is zero. -/
theorem C119_static_iff (e b : V3 ℝ) :
    (∀ T X, electricSI (setStaticField e b) T X = e.toVec ∧
      magneticSI (setStaticField e b) T X = b.toVec) ↔ e.toVec = 0 ∧ b.toVec = 0 := by
  have key : ∀ (c : ℝ) (v : Fin 3 → ℝ), c ≠ 1 → (c • v = v ↔ v = 0) := by
    intro c v hc
    constructor
    · intro h
      have h' : (c - 1) • v = 0 := by rw [sub_smul, one_smul, h, sub_self]
      exact (smul_eq_zero.mp h').resolve_left (sub_ne_zero.mpr hc)
    · rintro rfl; simp
  constructor
  · intro h
    have h0 := h 0 ⟨0, 0, 0⟩
    rw [(C119_static_scale e b _ _).1, (C119_static_scale e b _ _).2] at h0
    exact ⟨(key _ _ (by norm_num)).mp h0.1, (key _ _ (by norm_num)).mp h0.2⟩
  · rintro ⟨h1, h2⟩ T X
    rw [(C119_static_scale e b _ _).1, (C119_static_scale e b _ _).2]
    exact ⟨(key _ _ (by norm_num)).mpr h1, (key _ _ (by norm_num)).mpr h2⟩

/-- The full statement is false for static fields: one volt per metre along `x` is not given. -/
theorem C119_static_refuted :
    ¬ ∀ (e b : V3 ℝ) (T : ℝ) (X : V3 ℝ), electricSI (setStaticField e b) T X = e.toVec ∧
      magneticSI (setStaticField e b) T X = b.toVec := by
  intro h
  have := ((C119_static_iff ⟨1, 0, 0⟩ ⟨0, 0, 0⟩).mp (h _ _)).1
  simpa [V3.toVec] using congrFun this 0

/-! ## Plane lasers -/

/-- What holds of C119: the plane laser has the amplitude and the wavelength asked for, in SI units, moves
along its direction with the speed of light and its magnetic field is `1/c` times the electric one. (`π` is
the constant of the code, `C74_pi`. Missing: directions within `1e-5` of `-z`, see C25.) -/
theorem C119_plane_partial (maxE wl phi : ℝ) (hwl : wl ≠ 0) (d : V3 ℝ) (hd : d.toVec ≠ 0)
    (hc : ClearOfMinusZ d) (T : ℝ) (X : V3 ℝ) :
    len (electricSI (setPlaneField maxE wl phi d) T X) =
      |maxE * Real.cos (2 * Units.pi / wl * (d.norm.toVec ⬝ᵥ X.toVec - cSI * T))| ∧
    len (magneticSI (setPlaneField maxE wl phi d) T X) =
      len (electricSI (setPlaneField maxE wl phi d) T X) / cSI ∧
    electricSI (setPlaneField maxE wl phi d) T X ⬝ᵥ d.norm.toVec = 0 ∧
    magneticSI (setPlaneField maxE wl phi d) T X ⬝ᵥ d.norm.toVec = 0 := by
  obtain ⟨ht, hl, he, hb, -⟩ := si_pos
  obtain ⟨r1, -, r3, -, -, -⟩ := C74_relations
  have hcp := consts_pos.1
  have hd' := V3.ne_zero_of_toVec hd
  have hR := rotateToAxis_isRotation (v := d) (axis := V3.ez) hd' (by simp)
  have hk := inverse_ez hd' hc.iff
  have hz : ∀ x : V3 ℝ, ((d.rotateToAxis V3.ez).mulVec x).z = d.norm.dot x := by
    intro x; rw [mulVec_z hR, hk]
  have hamp : (unitsSI : UnitsSystem ℝ).refEField *
      (PlaneField.new (maxE / (unitsSI : UnitsSystem ℝ).refEField)
        (wl / (unitsSI : UnitsSystem ℝ).refLength) phi d).amplitude
        (T / (unitsSI : UnitsSystem ℝ).refTime) (X.divs (unitsSI : UnitsSystem ℝ).refLength) =
      maxE * Real.cos (2 * Units.pi / wl * (d.norm.toVec ⬝ᵥ X.toVec - cSI * T)) := by
    simp only [PlaneField.amplitude, PlaneField.new, real_mul, real_cos, real_sub, real_div, real_lit]
    rw [hz, dot_eq, toVec_divs, dotProduct_smul, smul_eq_mul, r1, ← mul_assoc,
      mul_div_cancel₀ _ he.ne']
    congr 2
    have := ht.ne'
    field_simp
    push_cast
    ring
  have tr := (C21_transverse_partial (maxE / (unitsSI : UnitsSystem ℝ).refEField)
    (wl / (unitsSI : UnitsSystem ℝ).refLength) 1 1 phi d ⟨0, 0, 0⟩ ⟨0, 0, 0⟩
    (T / (unitsSI : UnitsSystem ℝ).refTime) (X.divs (unitsSI : UnitsSystem ℝ).refLength)).1 hd hc
  obtain ⟨t1, t2, t3⟩ := tr
  have hset : ∀ t x, setPlaneField maxE wl phi d t x =
      (PlaneField.new (maxE / (unitsSI : UnitsSystem ℝ).refEField)
        (wl / (unitsSI : UnitsSystem ℝ).refLength) phi d).getField t x := fun _ _ => rfl
  refine ⟨?_, ?_, ?_, ?_⟩
  · rw [electricSI, hset, len_smul, PlaneField.getField_eq, ← mag_eq, waveE_mag hR, ← abs_mul, hamp]
  · rw [electricSI, magneticSI, hset, len_smul, len_smul, ← t3, abs_of_pos he, abs_of_pos hb, r3]
    field_simp
  · rw [electricSI, hset, smul_dotProduct, t1, smul_zero]
  · rw [magneticSI, hset, smul_dotProduct, t2, smul_zero]

open FieldWitness in
/-- The hypotheses of `C119_plane_partial` can be met: an optical laser along `z`. -/
example : (8e-7 : ℝ) ≠ 0 ∧ (⟨0, 0, 1⟩ : V3 ℝ).toVec ≠ 0 ∧ ClearOfMinusZ ⟨0, 0, 1⟩ :=
  ⟨by norm_num, z_ne, z_clear⟩

/-! ## Gaussian pulses -/

/-- The Gaussian pulse has the amplitude and the duration asked for, but takes the positions as multiples of
the internal unit of length: it passes its centre `1 / refFreq` seconds after the start for each metre from
start to focus, however far that is in metres. -/
theorem C119_gauss_scale (maxE wl tau w phi : ℝ) (hE : 0 ≤ maxE) (hw : w ≠ 0) (htau : tau ≠ 0)
    (s f : V3 ℝ) (hd : (f.sub s).toVec ≠ 0) (T : ℝ) :
    len (electricSI (setGaussianField maxE wl tau w phi s f) T ⟨0, 0, 0⟩) =
      maxE * Real.exp (-((T - len (s.sub f).toVec * si.refTime) / tau) ^ 2) := by
  obtain ⟨ht, hl, he, hb, -⟩ := si_pos
  have hR := rotateToAxis_isRotation (v := f.sub s) (axis := V3.ez) (V3.ne_zero_of_toVec hd) (by simp)
  have hdir : s.direction f = f.sub s := rfl
  have hX : (⟨0, 0, 0⟩ : V3 ℝ).divs (unitsSI : UnitsSystem ℝ).refLength = ⟨0, 0, 0⟩ := by
    ext <;> simp [V3.divs]
  have hset : ∀ t x, setGaussianField maxE wl tau w phi s f t x =
      (GaussField.new (maxE / (unitsSI : UnitsSystem ℝ).refEField)
        (wl / (unitsSI : UnitsSystem ℝ).refLength) (tau / (unitsSI : UnitsSystem ℝ).refTime)
        (w / (unitsSI : UnitsSystem ℝ).refLength) phi s f).getField t x := fun _ _ => rfl
  have hp : ((f.sub s).rotateToAxis V3.ez).mulVec ⟨0, 0, 0⟩ = (⟨0, 0, 0⟩ : V3 ℝ) := by
    ext <;> simp [M3.mulVec, M3.acc3]
  have hwr : w / (unitsSI : UnitsSystem ℝ).refLength ≠ 0 := div_ne_zero hw hl.ne'
  have hamp : (GaussField.new (maxE / (unitsSI : UnitsSystem ℝ).refEField)
        (wl / (unitsSI : UnitsSystem ℝ).refLength) (tau / (unitsSI : UnitsSystem ℝ).refTime)
        (w / (unitsSI : UnitsSystem ℝ).refLength) phi s f).amplitude
        (T / (unitsSI : UnitsSystem ℝ).refTime) ⟨0, 0, 0⟩ =
      maxE / (unitsSI : UnitsSystem ℝ).refEField *
        Real.exp (-((T - len (s.sub f).toVec * si.refTime) / tau) ^ 2) := by
    simp only [GaussField.amplitude, GaussField.new, hdir, hp, mag_eq]
    simp only [real_mul, real_add, real_div, real_sqrt, real_exp, real_cos, real_sub, real_lit]
    have e0 : (-((T - len (s.sub f).toVec * si.refTime) / tau) ^ 2) =
        (-1 : ℝ) * (T / (unitsSI : UnitsSystem ℝ).refTime - len (s.sub f).toVec) *
          (T / (unitsSI : UnitsSystem ℝ).refTime - len (s.sub f).toVec) /
          (tau / (unitsSI : UnitsSystem ℝ).refTime * (tau / (unitsSI : UnitsSystem ℝ).refTime)) := by
      have := ht.ne'
      simp only [si]
      field_simp
    rw [e0]
    simp [hwr]
  rw [electricSI, hX, hset, len_smul, GaussField.getField_eq, hdir, ← mag_eq, waveE_mag hR, hamp,
    abs_of_pos he, abs_of_nonneg (mul_nonneg (div_nonneg hE he.le) (Real.exp_pos _).le), ← mul_assoc,
    mul_div_cancel₀ _ he.ne']

/-- When light from the start point has reached the focus, the pulse has passed the centre long ago: its
field there is below the peak, for every start point, focus and duration. -/
theorem C119_gauss_refuted (maxE wl tau w phi : ℝ) (hE : 0 < maxE) (hw : w ≠ 0) (htau : tau ≠ 0)
    (s f : V3 ℝ) (hd : (f.sub s).toVec ≠ 0) :
    len (electricSI (setGaussianField maxE wl tau w phi s f) (len (s.sub f).toVec / cSI) ⟨0, 0, 0⟩) <
      maxE := by
  rw [C119_gauss_scale maxE wl tau w phi hE.le hw htau s f hd]
  have hL : 0 < len (s.sub f).toVec := by
    rw [← mag_eq]
    have hm : (s.sub f).mag = (f.sub s).mag := by
      simp only [V3.mag, V3.dot, V3.sub, real_add, real_mul, real_sqrt, real_sub]
      congr 1; ring
    rw [hm]
    exact V3.mag_pos (V3.ne_zero_of_toVec hd)
  have hne : (len (s.sub f).toVec / cSI - len (s.sub f).toVec * si.refTime) ≠ 0 := by
    rw [div_eq_mul_inv, ← mul_sub]
    refine mul_ne_zero hL.ne' ?_
    simp only [cSI, si, unitsSI, SI_c, SI_eSchw, SI_qe, SI_me, real_lit, real_div, real_mul]
    norm_num
  have hx : Real.exp (-((len (s.sub f).toVec / cSI - len (s.sub f).toVec * si.refTime) / tau) ^ 2) < 1 := by
    rw [Real.exp_lt_one_iff]
    have : 0 < ((len (s.sub f).toVec / cSI - len (s.sub f).toVec * si.refTime) / tau) ^ 2 := by
      have := div_ne_zero hne htau
      positivity
    linarith
  nlinarith

/-- The hypotheses of the two theorems can be met: a pulse of 30 fs that starts 10 µm before its focus. -/
example : (0 : ℝ) < 1e12 ∧ (2e-6 : ℝ) ≠ 0 ∧ (3e-14 : ℝ) ≠ 0 ∧
    ((⟨0, 0, 0⟩ : V3 ℝ).sub ⟨0, 0, -1e-5⟩).toVec ≠ 0 :=
  ⟨by norm_num, by norm_num, by norm_num, fun h => by
    have := congrFun h 2
    simp only [V3.toVec, V3.sub, real_sub] at this
    change (0 : ℝ) - -1e-5 = 0 at this
    norm_num at this⟩

/-! ## Where the field acts -/

/-- The lepton of the process starts where Geant4 has the track: its position in metres is that of the track
in millimetres. Its charge is that of the track. -/
theorem C119_position (t : G4.Track ℝ) (u : ℝ) :
    (unitsSI : UnitsSystem ℝ).refLength • (leptonOf t u).position.toVec = (1e-3 : ℝ) • t.position.toVec ∧
      (leptonOf t u).charge = t.charge := by
  obtain ⟨-, hl, -⟩ := si_pos
  refine ⟨?_, rfl⟩
  have h : (leptonOf t u).position.toVec =
      (1e-3 / (unitsSI : UnitsSystem ℝ).refLength) • t.position.toVec := by
    simp only [leptonOf, Particle.newLeptonE, Particle.new]
    funext i
    fin_cases i <;> simp [V3.toVec, V3.smul, unitsSI]
  rw [h, smul_smul, mul_div_cancel₀ _ hl.ne']

end QED
