import Verif.Spec.Pulse
import Verif.Spec.SIField
import Verif.Props.Units
import Verif.Props.Fields
import Verif.Props.Input

set_option autoImplicit false

/-!
# C129 A laser asked for in SI units
-/

namespace QED

open Dbl RunMgr _root_.QED.Units
open scoped Matrix

/-- Dividing by a positive number does not change the direction. -/
theorem norm_divs {a : V3 ℝ} {l : ℝ} (hl : 0 < l) : (a.divs l).norm = a.norm := by
  have hm : (a.divs l).mag = a.mag / l := by
    simp only [V3.mag, V3.dot, V3.divs, real_add, real_mul, real_sqrt, real_div]
    rw [show a.x / l * (a.x / l) + a.y / l * (a.y / l) + a.z / l * (a.z / l) =
      (a.x * a.x + a.y * a.y + a.z * a.z) / l ^ 2 by ring, Real.sqrt_div' _ (by positivity),
      Real.sqrt_sq hl.le]
  rw [V3.norm_real, V3.norm_real, hm]
  simp only [V3.divs, real_div]
  have := hl.ne'
  ext <;> simp only <;> rw [div_div_div_cancel_right₀ this]

theorem rotated_sq {m : M3 ℝ} (h : IsRotation m.toMat) (x : V3 ℝ) :
    (m.mulVec x).x * (m.mulVec x).x + (m.mulVec x).y * (m.mulVec x).y =
      x.toVec ⬝ᵥ x.toVec - (m.mulVec x).z * (m.mulVec x).z := by
  have := inverse_dot h (m.mulVec x) (m.mulVec x)
  rw [inverse_mulVec h] at this
  rw [dot_eq, dot_eq] at this
  rw [this]
  simp [V3.toVec, dotProduct, Fin.sum_univ_three]

/-- The coordinates of a place in the frame of the beam, in units of `l`. -/
theorem beam_coords {s f X : V3 ℝ} {l : ℝ} (hl : 0 < l) (hd : (f.sub s).toVec ≠ 0)
    (hc : ClearOfMinusZ (f.sub s)) :
    let R := ((s.divs l).direction (f.divs l)).rotateToAxis V3.ez
    IsRotation R.toMat ∧ (R.mulVec (X.divs l)).z = Pulse.axial s.toVec f.toVec X.toVec / l ∧
    (R.mulVec (X.divs l)).x * (R.mulVec (X.divs l)).x + (R.mulVec (X.divs l)).y * (R.mulVec (X.divs l)).y =
      Pulse.radialSq s.toVec f.toVec X.toVec / l ^ 2 := by
  intro R
  have hD : (s.divs l).direction (f.divs l) = (f.sub s).divs l := by
    simp only [V3.direction, V3.divs, V3.sub, real_sub, real_div]
    ext <;> simp only <;> ring
  have hd' := V3.ne_zero_of_toVec hd
  have hD0 : (s.divs l).direction (f.divs l) ≠ ⟨0, 0, 0⟩ := by
    rw [hD]
    intro h
    apply hd'
    simp only [V3.divs, real_div, V3.mk.injEq, div_eq_zero_iff, hl.ne', or_false] at h
    exact V3.ext h.1 h.2.1 h.2.2
  have hn : ((s.divs l).direction (f.divs l)).norm = (f.sub s).norm := by rw [hD, norm_divs hl]
  have hR : IsRotation R.toMat := rotateToAxis_isRotation hD0 (by simp)
  have hez := inverse_ez hD0 (by rw [hn]; exact hc.iff)
  rw [hn] at hez
  have hz : (R.mulVec (X.divs l)).z = Pulse.axial s.toVec f.toVec X.toVec / l := by
    rw [mulVec_z hR, hez, dot_eq, toVec_divs, dotProduct_smul, Pulse.axial, ← toVec_sub, ← mag_eq,
      V3.norm, toVec_divs, smul_dotProduct]
    simp only [smul_eq_mul]
    ring
  refine ⟨hR, hz, ?_⟩
  rw [rotated_sq hR, hz, toVec_divs, smul_dotProduct, dotProduct_smul, Pulse.radialSq]
  simp only [smul_eq_mul]
  ring

/-- The Gaussian pulse in any units of length `l`, time `t` and field `e` in which light has speed one. -/
theorem gauss_units {E0 wl tau w0 phi l t e : ℝ} {s f X : V3 ℝ} {T : ℝ} (hl : 0 < l) (ht : 0 < t)
    (he : 0 < e) (hlt : l = Pulse.c * t) (hd : (f.sub s).toVec ≠ 0) (hc : ClearOfMinusZ (f.sub s)) :
    e * len ((GaussField.new (E0 / e) (wl / l) (tau / t) (w0 / l) phi (s.divs l) (f.divs l)).getField
        (T / t) (X.divs l)).1.toVec =
      |Pulse.envelope E0 wl tau w0 s.toVec f.toVec X.toVec T *
        Real.cos (Pulse.phase wl w0 (1e-99 * l) s.toVec f.toVec X.toVec)| := by
  obtain ⟨hR, hz, hr⟩ := beam_coords (X := X) hl hd hc
  rw [GaussField.getField_eq, ← mag_eq, waveE_mag hR, ← abs_of_pos he, ← abs_mul, abs_of_pos he]
  congr 1
  simp only [GaussField.amplitude, GaussField.new]
  simp only [real_mul, real_add, real_div, real_sqrt, real_exp, real_cos, real_sub, real_lit]
  rw [hr, hz]
  set z := Pulse.axial s.toVec f.toVec X.toVec with hzd
  set r := Pulse.radialSq s.toVec f.toVec X.toVec with hrd
  have hl0 := hl.ne'
  have ht0 := ht.ne'
  have he0 := he.ne'
  have hk : (((2 : ℚ) : ℝ)) * Units.pi / (wl / l) = Pulse.waveNumber wl * l := by
    unfold Pulse.waveNumber
    push_cast
    rw [div_div_eq_mul_div]
    ring
  have hray : (((2 : ℚ) : ℝ)) * Units.pi / (wl / l) * (w0 / l) * (w0 / l) / (((2 : ℚ)) : ℝ) =
      Pulse.rayleigh wl w0 / l := by
    rw [hk]
    unfold Pulse.rayleigh
    push_cast
    field_simp
  have hspot : w0 / l * Real.sqrt (((1 : ℚ) : ℝ) + z / l * (z / l) /
      (Pulse.rayleigh wl w0 / l * (Pulse.rayleigh wl w0 / l))) = Pulse.spot wl w0 z / l := by
    unfold Pulse.spot
    rw [show ((1 : ℚ) : ℝ) + z / l * (z / l) / (Pulse.rayleigh wl w0 / l * (Pulse.rayleigh wl w0 / l)) =
      1 + (z / Pulse.rayleigh wl w0) ^ 2 by
        push_cast
        rw [show z / l * (z / l) = z ^ 2 / l ^ 2 by ring,
          show Pulse.rayleigh wl w0 / l * (Pulse.rayleigh wl w0 / l) = Pulse.rayleigh wl w0 ^ 2 / l ^ 2 by
            ring, div_div_div_cancel_right₀ (pow_ne_zero 2 hl0), div_pow]]
    ring
  rw [hray, hspot, hk]
  have hmag : ((s.divs l).sub (f.divs l)).mag = len (s.toVec - f.toVec) / l := by
    rw [show (s.divs l).sub (f.divs l) = (s.sub f).divs l by
      simp only [V3.divs, V3.sub, real_sub, real_div]; ext <;> simp only <;> ring, mag_eq, toVec_divs,
      len_smul, toVec_sub, abs_of_pos (inv_pos.mpr hl)]
    ring
  rw [hmag]
  have hcp : (0 : ℝ) < Pulse.c := by unfold Pulse.c; norm_num
  have hc0 := hcp.ne'
  have e1 : w0 / l / (Pulse.spot wl w0 z / l) = w0 / Pulse.spot wl w0 z :=
    div_div_div_cancel_right₀ hl0 _ _
  have e2 : (((-1 : ℚ)) : ℝ) * (r / l ^ 2) / (Pulse.spot wl w0 z / l * (Pulse.spot wl w0 z / l)) =
      -r / Pulse.spot wl w0 z ^ 2 := by
    push_cast
    rw [show Pulse.spot wl w0 z / l * (Pulse.spot wl w0 z / l) = Pulse.spot wl w0 z ^ 2 / l ^ 2 by ring,
      show (-1 : ℝ) * (r / l ^ 2) = -r / l ^ 2 by ring, div_div_div_cancel_right₀ (pow_ne_zero 2 hl0)]
  have e3 : z / l * (Pulse.waveNumber wl * l) + r / l ^ 2 * (Pulse.waveNumber wl * l) /
        (((2 : ℚ) : ℝ) * (z / l + Pulse.rayleigh wl w0 / l * (Pulse.rayleigh wl w0 / l) /
          (z / l + (((1e-99 : ℚ)) : ℝ)))) = Pulse.phase wl w0 (1e-99 * l) s.toVec f.toVec X.toVec := by
    unfold Pulse.phase
    rw [← hzd, ← hrd]
    congr 1
    · field_simp
    · have h1 : z / l + (((1e-99 : ℚ)) : ℝ) = (z + 1e-99 * l) / l := by
        push_cast
        rw [add_div, mul_div_cancel_right₀ _ hl0]
      rw [h1, show Pulse.rayleigh wl w0 / l * (Pulse.rayleigh wl w0 / l) / ((z + 1e-99 * l) / l) =
        Pulse.rayleigh wl w0 ^ 2 / (z + 1e-99 * l) / l by
          rw [div_div_eq_mul_div]
          field_simp]
      rw [← add_div]
      push_cast
      rw [show (2 : ℝ) * ((z + Pulse.rayleigh wl w0 ^ 2 / (z + 1e-99 * l)) / l) =
        2 * (z + Pulse.rayleigh wl w0 ^ 2 / (z + 1e-99 * l)) / l by ring,
        show r / l ^ 2 * (Pulse.waveNumber wl * l) = Pulse.waveNumber wl * r / l by field_simp,
        div_div_div_cancel_right₀ hl0]
  have e4 : (((-1 : ℚ)) : ℝ) * (T / t - len (s.toVec - f.toVec) / l - z / l) *
      (T / t - len (s.toVec - f.toVec) / l - z / l) / (tau / t * (tau / t)) =
      -((T - (len (s.toVec - f.toVec) + z) / Pulse.c) / tau) ^ 2 := by
    rw [show T / t - len (s.toVec - f.toVec) / l - z / l =
      (T - (len (s.toVec - f.toVec) + z) / Pulse.c) / t by rw [hlt]; field_simp; ring,
      show tau / t * (tau / t) = tau ^ 2 / t ^ 2 by ring]
    push_cast
    rw [show (-1 : ℝ) * ((T - (len (s.toVec - f.toVec) + z) / Pulse.c) / t) *
      ((T - (len (s.toVec - f.toVec) + z) / Pulse.c) / t) =
      -(T - (len (s.toVec - f.toVec) + z) / Pulse.c) ^ 2 / t ^ 2 by ring,
      div_div_div_cancel_right₀ (pow_ne_zero 2 ht0)]
    ring
  rw [e1, e2, e3, e4, Pulse.envelope, Pulse.temporal, ← hzd, ← hrd]
  field_simp

/-! ## C129 -/

theorem history_pulse {D : Type} [Dbl D] {m m' : Mgr D} {h : List (Call D × Outcome D)}
    (hh : History m h m') : (lastOf asPulse h = none →
        m'.fieldArgs = m.fieldArgs ∧ m'.fieldType = m.fieldType) ∧
      ∀ t a, lastOf asPulse h = some (t, a) → t ∈ fieldNames →
        m'.fieldArgs = a.convert ∧ m'.fieldType = t := by
  have keep : ∀ {m : Mgr D} {c : Call D} {o : Outcome D}, Does m c o → asPulse c = none →
      o.mgr.fieldArgs = m.fieldArgs ∧ o.mgr.fieldType = m.fieldType := by
    intro m c o h hn
    cases h with
    | setTime => exact ⟨rfl, rfl⟩
    | setField => cases hn
    | setPhysics =>
      simp only [Outcome.mgr, RunMgr.setPhysics]; split <;> exact ⟨rfl, rfl⟩
    | setGenerator => exact ⟨rfl, rfl⟩
    | setSampleFraction =>
      simp only [Outcome.mgr, RunMgr.setSampleFraction]; split <;> exact ⟨rfl, rfl⟩
    | usePairProduction => exact ⟨rfl, rfl⟩
    | beamOn hb => exact ⟨(beamOn_config hb).fieldArgs, (beamOn_config hb).fieldType⟩
  have set : ∀ {m : Mgr D} {c : Call D} {o : Outcome D} {t : String} {a : FieldArgs D}, Does m c o →
      asPulse c = some (t, a) → t ∈ fieldNames →
      o.mgr.fieldArgs = a.convert ∧ o.mgr.fieldType = t := by
    intro m c o t a h hs ht
    cases h <;> simp only [asPulse, reduceCtorEq, Option.some.injEq, Prod.mk.injEq] at hs
    obtain ⟨rfl, rfl⟩ := hs
    simp only [fieldNames, List.mem_cons, List.not_mem_nil, or_false] at ht
    simp only [Outcome.mgr, RunMgr.setField, if_pos ht, and_self]
  induction hh with
  | nil => exact ⟨fun _ => ⟨rfl, rfl⟩, fun t a ha => by cases ha⟩
  | @cons m c o h m' hd hh ih =>
    rw [lastOf_cons]
    refine ⟨?_, ?_⟩
    · intro hn
      rw [Option.or_eq_none_iff] at hn
      rw [(ih.1 hn.1).1, (ih.1 hn.1).2]
      exact keep hd hn.2
    · intro t a ha ht
      rw [Option.or_eq_some_iff] at ha
      rcases ha with ha | ⟨ha, hq⟩
      · exact ih.2 t a ha ht
      · rw [(ih.1 ha).1, (ih.1 ha).2]
        exact set hd hq ht

theorem ref_light : (unitsSI : UnitsSystem ℝ).refLength = Pulse.c * (unitsSI : UnitsSystem ℝ).refTime := by
  have := C74_relations.1
  rw [show (si : UnitsSystem ℝ) = unitsSI from rfl] at this
  rw [this]
  congr 1
  simp only [cSI, Pulse.c, SI_c, real_lit]
  norm_num

/-- A Gaussian pulse made from converted values, as an SI observer sees it: the pulse asked for, moved by
the vector from the focus to the origin. -/
theorem gauss_si {E0 wl tau w0 phi : ℝ} {s f : V3 ℝ} (hd : (f.sub s).toVec ≠ 0)
    (hc : ClearOfMinusZ (f.sub s)) (T : ℝ) (X : V3 ℝ) :
    len (electricSI (GaussField.new (E0 / (unitsSI : UnitsSystem ℝ).refEField)
        (wl / (unitsSI : UnitsSystem ℝ).refLength) (tau / (unitsSI : UnitsSystem ℝ).refTime)
        (w0 / (unitsSI : UnitsSystem ℝ).refLength) phi (s.divs (unitsSI : UnitsSystem ℝ).refLength)
        (f.divs (unitsSI : UnitsSystem ℝ).refLength)).getField T X) =
      Pulse.strength E0 wl tau w0 (1e-99 * (unitsSI : UnitsSystem ℝ).refLength) s.toVec f.toVec
        (X.toVec + f.toVec) T := by
  obtain ⟨ht, hl, he, -, -⟩ := si_pos
  rw [electricSI, len_smul, abs_of_pos he, gauss_units hl ht he ref_light hd hc, Pulse.strength,
    add_sub_cancel_right]

/-- What a Gaussian laser set from Python is, at every place and time and after every history of calls: a
pulse with the peak field, wavelength, duration and waist asked for, in SI units, that takes the time of
light from start to focus, but displaced by minus the focus. (The shift `1e-99` is that of
`GaussianEMField.cpp:34`. Missing: directions within `1e-5` of `-z`, see C25.) -/
theorem C129_python_displaced (fa : FieldArgs ℝ) (ga : GenArgs ℝ) (h : List (Call ℝ × Outcome ℝ))
    (m : Mgr ℝ) (hh : History (RunMgr.new fa ga) h m) (name : String) (a : FieldArgs ℝ)
    (ha : lastOf asPulse h = some (name, a)) (hn : name = "gaussian" ∨ name = "Gaussian")
    (hd : (a.focus.sub a.start).toVec ≠ 0) (hc : ClearOfMinusZ (a.focus.sub a.start)) (T : ℝ) (X : V3 ℝ) :
    len (electricSI (fieldOf m) T X) =
      Pulse.strength a.maxField a.wavelength a.duration a.waist
        (1e-99 * (unitsSI : UnitsSystem ℝ).refLength) a.start.toVec a.focus.toVec
        (X.toVec + a.focus.toVec) T := by
  obtain ⟨h1, h2⟩ := (history_pulse hh).2 name a ha (by
    rcases hn with rfl | rfl <;> simp [fieldNames])
  rw [← gauss_si (phi := a.polarisation) hd hc]
  unfold fieldOf
  rw [h2, if_pos hn, h1]
  rfl

/-- C129, the part that holds: a Gaussian laser with its focus at the origin is the pulse asked for. -/
theorem C129_python_partial (fa : FieldArgs ℝ) (ga : GenArgs ℝ) (h : List (Call ℝ × Outcome ℝ))
    (m : Mgr ℝ) (hh : History (RunMgr.new fa ga) h m) (name : String) (a : FieldArgs ℝ)
    (ha : lastOf asPulse h = some (name, a)) (hn : name = "gaussian" ∨ name = "Gaussian")
    (hd : (a.focus.sub a.start).toVec ≠ 0) (hc : ClearOfMinusZ (a.focus.sub a.start))
    (hf : a.focus.toVec = 0) (T : ℝ) (X : V3 ℝ) :
    len (electricSI (fieldOf m) T X) =
      Pulse.strength a.maxField a.wavelength a.duration a.waist
        (1e-99 * (unitsSI : UnitsSystem ℝ).refLength) a.start.toVec a.focus.toVec X.toVec T := by
  rw [C129_python_displaced fa ga h m hh name a ha hn hd hc, hf, add_zero]

/-- The same for input files: what is simulated is the pulse that the file describes in SI units, displaced
by minus the focus. -/
theorem C129_file_displaced (c : Ini.Config) (hw : c.WF) (inp : Input ℝ)
    (hp : FileParser.parse (Reader.ofFile (Ini.fileOf c.lines)) = .ok inp)
    (hsec : c.HasEntries "Field".toList)
    (hg : c.Says "Field".toList "field_type".toList "gaussian".toList) :
    ∃ (E0 wl tau w0 : ℝ) (s f : V3 ℝ) (field : Field ℝ),
      Ini.RealIs c "Field".toList "e_max" 0 E0 ∧ Ini.RealIs c "Field".toList "wavelength" 1 wl ∧
      Ini.RealIs c "Field".toList "duration" 1 tau ∧ Ini.RealIs c "Field".toList "waist" 1 w0 ∧
      Ini.VecIs c "Field".toList "start" s ∧ Ini.VecIs c "Field".toList "focus" f ∧
      Main.makeField inp.field = .ok field ∧
      ((f.sub s).toVec ≠ 0 → ClearOfMinusZ (f.sub s) → ∀ T X, len (electricSI field T X) =
        Pulse.strength E0 wl tau w0 (1e-99 * (unitsSI : UnitsSystem ℝ).refLength) s.toVec f.toVec
          (X.toVec + f.toVec) T) := by
  obtain ⟨ht, hl, he, -, -⟩ := si_pos
  obtain ⟨-, hfield, -⟩ := C79_parameters c hw inp hp
  have huniq : ∀ v, c.Says "Field".toList "field_type".toList v → v = "gaussian".toList := by
    intro v hv
    rw [← (get_of_says hw hv []).1, (get_of_says hw hg []).1]
  cases hx : inp.field with
  | unset => rw [hx] at hfield; exact absurd hsec hfield
  | static e b => rw [hx] at hfield; exact absurd (huniq _ hfield.1) (by decide)
  | plane a b c d => rw [hx] at hfield; exact absurd (huniq _ hfield.1) (by decide)
  | focusing a b c d e f g => rw [hx] at hfield; exact absurd (huniq _ hfield.1) (by decide)
  | gaussian maxE wl tau w0 pol s f =>
    rw [hx] at hfield
    obtain ⟨-, hpl⟩ := hfield
    refine ⟨_, _, _, _, _, _, _, hpl.maxE, hpl.wavelength, hpl.duration, hpl.waist, hpl.start, hpl.focus,
      rfl, fun hd hc T X => ?_⟩
    have hback : ∀ v : V3 ℝ, (Ini.inUnits v (unitsSI : UnitsSystem ℝ).refLength).divs
        (unitsSI : UnitsSystem ℝ).refLength = v := by
      intro v
      simp only [Ini.inUnits, V3.divs, real_div]
      ext <;> simp only <;> exact mul_div_cancel_right₀ _ hl.ne'
    rw [← gauss_si (phi := pol) hd hc, hback, hback, mul_div_cancel_right₀ _ he.ne',
      mul_div_cancel_right₀ _ hl.ne', mul_div_cancel_right₀ _ ht.ne', mul_div_cancel_right₀ _ hl.ne']

/-- When light from the start has reached the focus, a pulse has its peak field there, and less at twice that place. -/
theorem Pulse.less_elsewhere (E0 wl tau w0 d : ℝ) (hE : 0 < E0) (hwl : wl ≠ 0) (hw : w0 ≠ 0) (_htau : tau ≠ 0)
    (s f : V3 ℝ) (hd : (f.sub s).toVec ≠ 0) (hf : f.toVec ≠ 0) :
    Pulse.strength E0 wl tau w0 d s.toVec f.toVec f.toVec (len (s.toVec - f.toVec) / Pulse.c) = E0 ∧
    Pulse.strength E0 wl tau w0 d s.toVec f.toVec (f.toVec + f.toVec) (len (s.toVec - f.toVec) / Pulse.c) <
      E0 := by
  have hzero : f.toVec - f.toVec = 0 := sub_self _
  refine ⟨?_, ?_⟩
  · rw [Pulse.strength, hzero]
    have h1 : Pulse.axial s.toVec f.toVec 0 = 0 := by simp [Pulse.axial]
    have h2 : Pulse.radialSq s.toVec f.toVec 0 = 0 := by simp [Pulse.radialSq, h1]
    have h3 : Pulse.spot wl w0 0 = w0 := by simp [Pulse.spot]
    simp only [Pulse.envelope, Pulse.phase, Pulse.temporal, h1, h2, h3]
    simp [hw, abs_of_pos hE]
  · rw [Pulse.strength, add_sub_cancel_right]
    set z := Pulse.axial s.toVec f.toVec f.toVec with hz
    have hff : 0 < f.toVec ⬝ᵥ f.toVec := by
      rw [← dot_eq, ← V3.mag_sq]
      exact pow_pos (V3.mag_pos (V3.ne_zero_of_toVec hf)) 2
    have hv : 0 < len (f.toVec - s.toVec) := by
      rw [← toVec_sub, ← mag_eq]; exact V3.mag_pos (V3.ne_zero_of_toVec hd)
    have hr : 0 ≤ Pulse.radialSq s.toVec f.toVec f.toVec := by
      rw [Pulse.radialSq, Pulse.axial, div_pow, sub_nonneg, div_le_iff₀ (by positivity), len,
        Real.sq_sqrt (by positivity)]
      have := Finset.sum_mul_sq_le_sq_mul_sq Finset.univ (f.toVec - s.toVec) f.toVec
      simp only [Fin.sum_univ_three] at this
      simp only [dotProduct, Fin.sum_univ_three]
      nlinarith
    have hray : Pulse.rayleigh wl w0 ≠ 0 := by
      have hpi : (Units.pi : ℝ) ≠ 0 := by simp only [Units.pi, real_lit]; norm_num
      unfold Pulse.rayleigh Pulse.waveNumber
      positivity
    have hsq : 1 ≤ Real.sqrt (1 + (z / Pulse.rayleigh wl w0) ^ 2) := by
      rw [Real.one_le_sqrt]; have := sq_nonneg (z / Pulse.rayleigh wl w0); linarith
    have hratio : w0 / Pulse.spot wl w0 z = 1 / Real.sqrt (1 + (z / Pulse.rayleigh wl w0) ^ 2) := by
      rw [Pulse.spot]; field_simp
    have hspot : 0 < Pulse.spot wl w0 z ^ 2 := by
      have : Pulse.spot wl w0 z ≠ 0 := by rw [Pulse.spot]; positivity
      positivity
    have q1 : 0 < w0 / Pulse.spot wl w0 z ∧ w0 / Pulse.spot wl w0 z ≤ 1 := by
      rw [hratio]
      exact ⟨by positivity, by rw [div_le_one (by positivity)]; exact hsq⟩
    have q2 : Real.exp (-Pulse.radialSq s.toVec f.toVec f.toVec / Pulse.spot wl w0 z ^ 2) ≤ 1 := by
      rw [Real.exp_le_one_iff, div_nonpos_iff]
      exact .inr ⟨by linarith, hspot.le⟩
    have q3 : Pulse.temporal tau s.toVec f.toVec f.toVec (len (s.toVec - f.toVec) / Pulse.c) ≤ 1 := by
      rw [Pulse.temporal, Real.exp_le_one_iff]
      have := sq_nonneg ((len (s.toVec - f.toVec) / Pulse.c -
        (len (s.toVec - f.toVec) + Pulse.axial s.toVec f.toVec f.toVec) / Pulse.c) / tau)
      linarith
    have p2 := Real.exp_pos (-Pulse.radialSq s.toVec f.toVec f.toVec / Pulse.spot wl w0 z ^ 2)
    have p3 : 0 < Pulse.temporal tau s.toVec f.toVec f.toVec (len (s.toVec - f.toVec) / Pulse.c) :=
      Real.exp_pos _
    have hlt : w0 / Pulse.spot wl w0 z *
        Real.exp (-Pulse.radialSq s.toVec f.toVec f.toVec / Pulse.spot wl w0 z ^ 2) < 1 := by
      by_cases h0 : z = 0
      · have hr0 : 0 < Pulse.radialSq s.toVec f.toVec f.toVec := by
          rw [Pulse.radialSq, ← hz, h0]; simpa using hff
        have : Real.exp (-Pulse.radialSq s.toVec f.toVec f.toVec / Pulse.spot wl w0 z ^ 2) < 1 := by
          rw [Real.exp_lt_one_iff, div_neg_iff]
          exact .inr ⟨by linarith, hspot⟩
        nlinarith [q1.1, q1.2]
      · have : w0 / Pulse.spot wl w0 z < 1 := by
          rw [hratio, div_lt_one (by positivity), Real.lt_sqrt (by norm_num)]
          have : 0 < (z / Pulse.rayleigh wl w0) ^ 2 := by
            have := div_ne_zero h0 hray
            positivity
          linarith
        nlinarith [q1.1]
    rw [abs_mul]
    have henv : |Pulse.envelope E0 wl tau w0 s.toVec f.toVec f.toVec
        (len (s.toVec - f.toVec) / Pulse.c)| < E0 := by
      rw [Pulse.envelope, ← hz, abs_of_pos (by have := q1.1; positivity)]
      have hb : w0 / Pulse.spot wl w0 z *
          Real.exp (-Pulse.radialSq s.toVec f.toVec f.toVec / Pulse.spot wl w0 z ^ 2) *
          Pulse.temporal tau s.toVec f.toVec f.toVec (len (s.toVec - f.toVec) / Pulse.c) < 1 := by
        have := mul_pos q1.1 p2
        nlinarith
      calc _ = E0 * (w0 / Pulse.spot wl w0 z *
          Real.exp (-Pulse.radialSq s.toVec f.toVec f.toVec / Pulse.spot wl w0 z ^ 2) *
          Pulse.temporal tau s.toVec f.toVec f.toVec (len (s.toVec - f.toVec) / Pulse.c)) := by ring
        _ < E0 * 1 := by gcongr
        _ = E0 := mul_one _
    exact lt_of_le_of_lt (mul_le_of_le_one_right (abs_nonneg _) (Real.abs_cos_le_one _)) henv

/-- C129 is false of every Gaussian laser that is not focused at the origin: when light from the start has
reached the focus, the pulse asked for has its peak field there, and the one in use has less. -/
theorem C129_refuted (fa : FieldArgs ℝ) (ga : GenArgs ℝ) (h : List (Call ℝ × Outcome ℝ)) (m : Mgr ℝ)
    (hh : History (RunMgr.new fa ga) h m) (name : String) (a : FieldArgs ℝ)
    (ha : lastOf asPulse h = some (name, a)) (hn : name = "gaussian" ∨ name = "Gaussian")
    (hd : (a.focus.sub a.start).toVec ≠ 0) (hc : ClearOfMinusZ (a.focus.sub a.start)) (hE : 0 < a.maxField)
    (hwl : a.wavelength ≠ 0) (hw : a.waist ≠ 0) (htau : a.duration ≠ 0) (hf : a.focus.toVec ≠ 0) {T : ℝ}
    (hT : T = len (a.start.toVec - a.focus.toVec) / Pulse.c) :
    (∀ d, Pulse.strength a.maxField a.wavelength a.duration a.waist d a.start.toVec a.focus.toVec a.focus.toVec T =
      a.maxField) ∧
    len (electricSI (fieldOf m) T a.focus) < a.maxField := by
  rw [C129_python_displaced fa ga h m hh name a ha hn hd hc T a.focus, hT]
  exact ⟨fun d => (Pulse.less_elsewhere _ _ _ _ d hE hwl hw htau _ _ hd hf).1,
    (Pulse.less_elsewhere _ _ _ _ _ hE hwl hw htau _ _ hd hf).2⟩

open RunWitness FieldWitness in
/-- The hypotheses of the theorems on the run manager can be met: a pulse that starts one metre before the
origin. -/
example : ∃ h m, History (RunMgr.new fieldArgs genArgs) h m ∧
    ∃ a : FieldArgs ℝ, lastOf asPulse h = some ("gaussian", a) ∧ (a.focus.sub a.start).toVec ≠ 0 ∧
      ClearOfMinusZ (a.focus.sub a.start) ∧ a.focus.toVec = 0 := by
  have he : (⟨0, 0, 0⟩ : V3 ℝ).sub ⟨0, 0, -1⟩ = ⟨0, 0, 1⟩ := by ext <;> simp [V3.sub]
  refine ⟨_, _, .cons (.setField (t := "gaussian")
    (a := ⟨1e12, 8e-7, 3e-14, 2e-6, 0, ⟨0, 0, -1⟩, ⟨0, 0, 0⟩⟩)) .nil, _, rfl, ?_, ?_, ?_⟩
  · show ((⟨0, 0, 0⟩ : V3 ℝ).sub ⟨0, 0, -1⟩).toVec ≠ 0
    rw [he]; exact z_ne
  · show ClearOfMinusZ ((⟨0, 0, 0⟩ : V3 ℝ).sub ⟨0, 0, -1⟩)
    rw [he]; exact z_clear
  · funext i; fin_cases i <;> rfl

open RunWitness FieldWitness in
/-- The hypotheses of `C129_refuted` can be met: a pulse of 30 fs focused one metre from the origin. -/
example : ∃ h m, History (RunMgr.new fieldArgs genArgs) h m ∧
    ∃ a : FieldArgs ℝ, lastOf asPulse h = some ("gaussian", a) ∧ (a.focus.sub a.start).toVec ≠ 0 ∧
      ClearOfMinusZ (a.focus.sub a.start) ∧ 0 < a.maxField ∧ a.wavelength ≠ 0 ∧ a.waist ≠ 0 ∧ a.duration ≠ 0 ∧
      a.focus.toVec ≠ 0 := by
  have he : (⟨0, 0, 1⟩ : V3 ℝ).sub ⟨0, 0, 0⟩ = ⟨0, 0, 1⟩ := by ext <;> simp [V3.sub]
  refine ⟨_, _, .cons (.setField (t := "gaussian")
    (a := ⟨1e12, 8e-7, 3e-14, 2e-6, 0, ⟨0, 0, 0⟩, ⟨0, 0, 1⟩⟩)) .nil, _, rfl, ?_, ?_, ?_, ?_, ?_, ?_, ?_⟩
  · show ((⟨0, 0, 1⟩ : V3 ℝ).sub ⟨0, 0, 0⟩).toVec ≠ 0
    rw [he]; exact z_ne
  · show ClearOfMinusZ ((⟨0, 0, 1⟩ : V3 ℝ).sub ⟨0, 0, 0⟩)
    rw [he]; exact z_clear
  · show (0 : ℝ) < 1e12
    norm_num
  · show (8e-7 : ℝ) ≠ 0
    norm_num
  · show (2e-6 : ℝ) ≠ 0
    norm_num
  · show (3e-14 : ℝ) ≠ 0
    norm_num
  · exact z_ne

/-- A pulse of a file that starts at `z = -1` (metres). -/
def pulseConfig : Ini.Config :=
  [("General".toList, [("time_step".toList, "1e-18".toList), ("time_end".toList, "1e-15".toList),
      ("units".toList, "SI".toList)]),
    ("Field".toList, [("field_type".toList, "gaussian".toList), ("start".toList, "0 0 -1".toList)])]

open Ini FieldWitness in
/-- The hypotheses of `C129_file_displaced` can be met, and so can those of the formula in it. -/
example : pulseConfig.WF ∧ pulseConfig.HasEntries "Field".toList ∧
    pulseConfig.Says "Field".toList "field_type".toList "gaussian".toList ∧
    (∃ inp : Input ℝ, FileParser.parse (Reader.ofFile (fileOf pulseConfig.lines)) = .ok inp) ∧
    ∀ s f : V3 ℝ, VecIs pulseConfig "Field".toList "start" s → VecIs pulseConfig "Field".toList "focus" f →
      (f.sub s).toVec ≠ 0 ∧ ClearOfMinusZ (f.sub s) := by
  have h : pulseConfig.WF := Config.wfB_spec (by decide)
  have hm : _ ∈ pulseConfig := List.mem_cons_self
  have g1 : pulseConfig.Says "General".toList "time_step".toList "1e-18".toList :=
    ⟨_, hm, _, .head _, rfl, rfl, rfl⟩
  have g2 : pulseConfig.Says "General".toList "time_end".toList "1e-15".toList :=
    ⟨_, hm, _, .tail _ (.head _), rfl, rfl, rfl⟩
  have g3 : pulseConfig.Says "General".toList "units".toList "SI".toList :=
    ⟨_, hm, _, .tail _ (.tail _ (.head _)), rfl, rfl, rfl⟩
  have hm' : ("Field".toList, [("field_type".toList, "gaussian".toList),
    ("start".toList, "0 0 -1".toList)]) ∈ pulseConfig := List.mem_cons_of_mem _ List.mem_cons_self
  have f : pulseConfig.Says "Field".toList "field_type".toList "gaussian".toList :=
    ⟨_, hm', _, .head _, rfl, rfl, rfl⟩
  have st : pulseConfig.Says "Field".toList "start".toList "0 0 -1".toList :=
    ⟨_, hm', _, .tail _ (.head _), rfl, rfl, rfl⟩
  let n0 : Numeral := ⟨false, [0], none, none⟩
  let n1 : Numeral := ⟨true, [1], none, none⟩
  have w0 : n0.WF := ⟨Or.inl (by simp [n0]), by simp [n0]⟩
  have w1 : n1.WF := ⟨Or.inl (by simp [n1]), by simp [n1]⟩
  have ht : "0 0 -1".toList = n0.text ++ ' ' :: n0.text ++ ' ' :: n1.text := by decide
  refine ⟨h, ⟨_, hm', by simp⟩, f, ?_, ?_⟩
  · apply (C66_accepts_iff _).1.mpr
    refine ⟨(mem_sections_iff h _).mpr ⟨_, hm, by simp⟩, (get_of_says h g1 []).2,
      (get_of_says h g2 []).2, (get_of_says h g3 []).2, Or.inl (get_of_says h g3 []).1, fun _ => ?_,
      fun n _ _ => ?_⟩
    · refine Or.inr (Or.inr ⟨Or.inl (get_of_says h f []).1, ?_,
        vectorOk_of_silent h (by decide) (by decide)⟩)
      exact ⟨_, C65_three _ _ _ _ n0 n0 n1 w0 w0 w1 (Or.inl ((get_of_says h st []).1.trans ht))⟩
    · exact ⟨vectorOk_of_silent h (by decide) (by simp [silentB, pulseConfig, FileParser.numbered]),
        vectorOk_of_silent h (by decide) (by simp [silentB, pulseConfig, FileParser.numbered])⟩
  · intro s f hs hf
    have e1 := hs.2 n0 n0 n1 w0 w0 w1 (by rw [← ht]; exact st)
    have e2 := hf.1 (silentB_spec (by decide))
    have e3 : f.sub s = ⟨0, 0, 1⟩ := by
      rw [e1, e2]
      ext <;> simp [V3.sub, n0, n1, Numeral.value, Numeral.nat, Numeral.expVal]
    rw [e3]
    exact ⟨z_ne, z_clear⟩

end QED
