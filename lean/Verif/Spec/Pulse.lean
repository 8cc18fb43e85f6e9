import Verif.Model.Units
import Verif.Spec.Geometry
import Mathlib.Analysis.SpecialFunctions.Exp
import Mathlib.Analysis.SpecialFunctions.Trigonometric.Basic

set_option autoImplicit false

/-!
# A focused laser pulse in SI units

A pulse with peak field `E0` (V/m), wavelength `wl` (m), duration `tau` (s) and waist `w0` (m) that starts
at `s` and is focused at `f`, which it reaches when light from `s` does. Places `X` are relative to the focus,
except in `strength`.
-/

namespace QED.Pulse

open QED
open scoped Matrix

/-- The wave number, with the value of π in the code (`C74_pi`). -/
noncomputable def waveNumber (wl : ℝ) : ℝ := 2 * Units.pi / wl

/-- The Rayleigh length. -/
noncomputable def rayleigh (wl w0 : ℝ) : ℝ := waveNumber wl * w0 ^ 2 / 2

/-- The coordinate of `X` along the way from `s` to `f`. -/
noncomputable def axial (s f X : Fin 3 → ℝ) : ℝ := ((f - s) ⬝ᵥ X) / len (f - s)

/-- The square of the distance of `X` from the axis. -/
noncomputable def radialSq (s f X : Fin 3 → ℝ) : ℝ := X ⬝ᵥ X - axial s f X ^ 2

/-- The radius of the beam. -/
noncomputable def spot (wl w0 z : ℝ) : ℝ := w0 * Real.sqrt (1 + (z / rayleigh wl w0) ^ 2)

/-- The speed of light in m/s. -/
noncomputable def c : ℝ := 299792458

/-- The pulse in time: `exp (-((T - T0) / tau) ^ 2)`, where `T0` is when light that starts at `s` has gone
the distance from `s` to `f` and from the focus to the place. -/
noncomputable def temporal (tau : ℝ) (s f X : Fin 3 → ℝ) (T : ℝ) : ℝ :=
  Real.exp (-((T - (len (s - f) + axial s f X) / c) / tau) ^ 2)

/-- The largest field at the place and time. -/
noncomputable def envelope (E0 wl tau w0 : ℝ) (s f X : Fin 3 → ℝ) (T : ℝ) : ℝ :=
  E0 * (w0 / spot wl w0 (axial s f X)) * Real.exp (-radialSq s f X / spot wl w0 (axial s f X) ^ 2) *
    temporal tau s f X T

/-- The phase, with radius of curvature `z + zR ^ 2 / (z + d)`; `d` is zero in the textbooks. -/
noncomputable def phase (wl w0 d : ℝ) (s f X : Fin 3 → ℝ) : ℝ :=
  waveNumber wl * axial s f X + waveNumber wl * radialSq s f X /
    (2 * (axial s f X + rayleigh wl w0 ^ 2 / (axial s f X + d)))

/-- The length of the electric field of the pulse at the place `X`. -/
noncomputable def strength (E0 wl tau w0 d : ℝ) (s f X : Fin 3 → ℝ) (T : ℝ) : ℝ :=
  |envelope E0 wl tau w0 s f (X - f) T * Real.cos (phase wl w0 d s f (X - f))|

end QED.Pulse
