import Verif.Props.Order
import Mathlib.Analysis.SpecialFunctions.Trigonometric.Deriv
import Mathlib.Analysis.SpecialFunctions.Trigonometric.ArctanDeriv
import Mathlib.Analysis.SpecialFunctions.ExpDeriv

set_option autoImplicit false

/-!
# Property C121: where the fields of the program have four continuous derivatives
-/

namespace QED

open Dbl Set Matrix

/-- The components have four continuous derivatives. -/
def V3C4 (v : ℝ × (Fin 3 → ℝ) → V3 ℝ) (z : ℝ × (Fin 3 → ℝ)) : Prop :=
  ContDiffAt ℝ 4 (fun z => (v z).x) z ∧ ContDiffAt ℝ 4 (fun z => (v z).y) z ∧ ContDiffAt ℝ 4 (fun z => (v z).z) z

theorem V3C4.toVec {v : ℝ × (Fin 3 → ℝ) → V3 ℝ} {z : ℝ × (Fin 3 → ℝ)} (h : V3C4 v z) :
    ContDiffAt ℝ 4 (fun z => (v z).toVec) z := by
  refine contDiffAt_pi.2 fun i => ?_
  fin_cases i
  · exact h.1
  · exact h.2.1
  · exact h.2.2

theorem V3C4.mulVec {v : ℝ × (Fin 3 → ℝ) → V3 ℝ} {z : ℝ × (Fin 3 → ℝ)} (h : V3C4 v z) (m : M3 ℝ) :
    V3C4 (fun z => m.mulVec (v z)) z := by
  obtain ⟨h1, h2, h3⟩ := h
  refine ⟨?_, ?_, ?_⟩ <;> simp only [M3.mulVec, M3.acc3, real_add, real_mul] <;>
    exact ((contDiffAt_const.add (contDiffAt_const.mul h1)).add (contDiffAt_const.mul h2)).add
      (contDiffAt_const.mul h3)

theorem V3C4.position (z : ℝ × (Fin 3 → ℝ)) : V3C4 (fun z => V3.ofVec z.2) z :=
  ⟨((contDiff_apply ℝ ℝ 0).comp contDiff_snd).contDiffAt, ((contDiff_apply ℝ ℝ 1).comp contDiff_snd).contDiffAt,
    ((contDiff_apply ℝ ℝ 2).comp contDiff_snd).contDiffAt⟩

theorem V3C4.congr {v w : ℝ × (Fin 3 → ℝ) → V3 ℝ} {z : ℝ × (Fin 3 → ℝ)} (h : V3C4 v z)
    (he : w =ᶠ[nhds z] v) : V3C4 w z :=
  ⟨h.1.congr_of_eventuallyEq (he.mono fun _ hx => congrArg V3.x hx),
    h.2.1.congr_of_eventuallyEq (he.mono fun _ hx => congrArg V3.y hx),
    h.2.2.congr_of_eventuallyEq (he.mono fun _ hx => congrArg V3.z hx)⟩

theorem fieldC4_of {field : Field ℝ} {U : Set (ℝ × (Fin 3 → ℝ))}
    (h : ∀ z ∈ U, V3C4 (fun z => (field z.1 (V3.ofVec z.2)).1) z ∧ V3C4 (fun z => (field z.1 (V3.ofVec z.2)).2) z) :
    FieldC4 field U :=
  ⟨fun z hz => (h z hz).1.toVec.contDiffWithinAt, fun z hz => (h z hz).2.toVec.contDiffWithinAt⟩

/-- A wave of the plane and Gaussian kind is as smooth as its amplitude. -/
theorem wave_c4 {amp : ℝ × (Fin 3 → ℝ) → ℝ} {z : ℝ × (Fin 3 → ℝ)} (h : ContDiffAt ℝ 4 amp z) (a b : ℝ) (m : M3 ℝ) :
    V3C4 (fun z => m.mulVec ⟨amp z *. a, amp z *. b, lit 0⟩) z :=
  V3C4.mulVec (v := fun z => ⟨amp z *. a, amp z *. b, lit 0⟩)
    ⟨h.mul contDiffAt_const, h.mul contDiffAt_const, contDiffAt_const⟩ m

/-- C121 applies to static fields everywhere. -/
theorem C121_static (e b : V3 ℝ) : FieldC4 (staticField e b) univ :=
  ⟨contDiffOn_const (c := e.toVec), contDiffOn_const (c := b.toVec)⟩

/-- C121 applies to plane waves everywhere. -/
theorem C121_plane (f : PlaneField ℝ) : FieldC4 f.getField univ := by
  refine fieldC4_of fun z _ => ?_
  have h : ContDiffAt ℝ 4 (fun z : ℝ × (Fin 3 → ℝ) => f.amplitude z.1 (V3.ofVec z.2)) z := by
    simp only [PlaneField.amplitude, real_mul, real_cos, real_sub]
    have := ((V3C4.position z).mulVec f.rotation).2.2
    exact contDiffAt_const.mul ((this.sub contDiffAt_fst).mul contDiffAt_const).cos
  exact ⟨wave_c4 h _ _ _, wave_c4 h _ _ _⟩

/-- The coordinate along the beam. -/
noncomputable def alongBeam (m : M3 ℝ) (z : ℝ × (Fin 3 → ℝ)) : ℝ := (m.mulVec (V3.ofVec z.2)).z

theorem alongBeam_c4 (m : M3 ℝ) (z : ℝ × (Fin 3 → ℝ)) : ContDiffAt ℝ 4 (alongBeam m) z :=
  ((V3C4.position z).mulVec m).2.2

theorem offFocus_open (m : M3 ℝ) : IsOpen {z | alongBeam m z + 1e-99 ≠ 0} :=
  isOpen_ne_fun (continuous_iff_continuousAt.2 fun z => (alongBeam_c4 m z).continuousAt.add continuousAt_const)
    continuous_const

/-- The curvature of the wave fronts as the code computes it does not vanish. -/
theorem curvature_ne {r z : ℝ} (hr : 1e-99 < r) (hz : z + 1e-99 ≠ 0) : z + r * r / (z + 1e-99) ≠ 0 := by
  intro h
  field_simp at h
  norm_num at h hr
  nlinarith [sq_nonneg (z + 1e-99 / 2)]

/-- C121 applies to the Gaussian pulse away from its focal plane: with a Rayleigh length above `1e-99`, its field has
four continuous derivatives wherever the code does not divide by zero. -/
theorem C121_gauss_partial (f : GaussField ℝ) (hw : 0 < f.waist) (hr : 1e-99 < f.waveNum * f.waist * f.waist / 2) :
    FieldC4 f.getField {z | alongBeam f.rotation z + 1e-99 ≠ 0} := by
  refine fieldC4_of fun z hz => ?_
  obtain ⟨hx, hy, hzz⟩ := (V3C4.position z).mulVec f.rotation
  have h : ContDiffAt ℝ 4 (fun z : ℝ × (Fin 3 → ℝ) => f.amplitude z.1 (V3.ofVec z.2)) z := by
    simp only [GaussField.amplitude, real_mul, real_cos, real_sub, real_add, real_div, real_sqrt, real_exp, real_lit]
    push_cast
    have hz' : (f.rotation.mulVec (V3.ofVec z.2)).z + 1e-99 ≠ 0 := hz
    have hc := curvature_ne hr hz'
    have hr2 := (hx.mul hx).add (hy.mul hy)
    have hcurv := hzz.add ((contDiffAt_const (c := f.waveNum * f.waist * f.waist / 2 *
      (f.waveNum * f.waist * f.waist / 2))).div (hzz.add contDiffAt_const) hz')
    have hrad : 0 < 1 + (f.rotation.mulVec (V3.ofVec z.2)).z * (f.rotation.mulVec (V3.ofVec z.2)).z /
        (f.waveNum * f.waist * f.waist / 2 * (f.waveNum * f.waist * f.waist / 2)) := by
      have h1 := mul_self_nonneg (f.rotation.mulVec (V3.ofVec z.2)).z
      have h2 := mul_self_nonneg (f.waveNum * f.waist * f.waist / 2)
      positivity
    have hwaist := (contDiffAt_const (c := f.waist)).mul
      (((contDiffAt_const (c := (1 : ℝ))).add ((hzz.mul hzz).div_const _)).sqrt hrad.ne')
    have hwn := (mul_pos hw (Real.sqrt_pos.2 hrad)).ne'
    have ht := ((contDiffAt_fst (𝕜 := ℝ) (n := 4) (p := z)).sub
      (contDiffAt_const (c := (f.startPos.sub f.focusPos).mag))).sub hzz
    refine ((((contDiffAt_const.mul (contDiffAt_const.div hwaist hwn)).mul
      ((contDiffAt_const.mul hr2).div (hwaist.mul hwaist) (mul_self_ne_zero.2 hwn)).exp).mul
      ((hzz.mul contDiffAt_const).add ((hr2.mul contDiffAt_const).div (contDiffAt_const.mul hcurv)
        (mul_ne_zero two_ne_zero hc))).cos).mul
      (((contDiffAt_const.mul ht).mul ht).div_const _).exp)
  exact ⟨wave_c4 h _ _ _, wave_c4 h _ _ _⟩

/-- The Gaussian pulse with the curvature `1 / R = (z + 1e-99) / (z² + 1e-99 z + zR²)`, which needs no division by zero
in the focal plane. -/
noncomputable def gaussThroughFocus (f : GaussField ℝ) : Field ℝ := fun t x =>
  let p := f.rotation.mulVec x
  let t0 := (f.startPos.sub f.focusPos).mag
  let r2 := p.x * p.x + p.y * p.y
  let rayleigh := f.waveNum * f.waist * f.waist / 2
  let bend := (p.z + 1e-99) / (p.z * p.z + 1e-99 * p.z + rayleigh * rayleigh)
  let width := f.waist * Real.sqrt (1 + p.z * p.z / (rayleigh * rayleigh))
  let amp := f.maxE * (f.waist / width) * Real.exp (-1 * r2 / (width * width)) *
    Real.cos (p.z * f.waveNum + r2 * f.waveNum / 2 * bend) *
    Real.exp (-1 * (t - t0 - p.z) * (t - t0 - p.z) / (f.tau * f.tau))
  (f.rotationInv.mulVec ⟨amp * Real.cos f.polAngle, amp * Real.sin f.polAngle, 0⟩,
    f.rotationInv.mulVec ⟨amp * Real.sin f.polAngle, amp * Real.cos f.polAngle, 0⟩)

/-- C121 for the Gaussian pulse across its focal plane: off the plane `z = -1e-99`, in which the code divides by zero,
its field is that of a pulse with four continuous derivatives everywhere. -/
theorem C121_gauss_focus_partial (f : GaussField ℝ) (hw : 0 < f.waist)
    (hr : 1e-99 < f.waveNum * f.waist * f.waist / 2) :
    FieldC4 (gaussThroughFocus f) univ ∧
    ∀ t x, (f.rotation.mulVec x).z + 1e-99 ≠ 0 → f.getField t x = gaussThroughFocus f t x := by
  constructor
  · refine fieldC4_of fun z _ => ?_
    obtain ⟨hx, hy, hzz⟩ := (V3C4.position z).mulVec f.rotation
    have hr2 := (hx.mul hx).add (hy.mul hy)
    have hden : (f.rotation.mulVec (V3.ofVec z.2)).z * (f.rotation.mulVec (V3.ofVec z.2)).z +
        1e-99 * (f.rotation.mulVec (V3.ofVec z.2)).z +
        f.waveNum * f.waist * f.waist / 2 * (f.waveNum * f.waist * f.waist / 2) ≠ 0 := by
      norm_num at hr ⊢
      nlinarith [sq_nonneg ((f.rotation.mulVec (V3.ofVec z.2)).z + 1e-99 / 2)]
    have hbend := (hzz.add (contDiffAt_const (c := (1e-99 : ℝ)))).div
      (((hzz.mul hzz).add ((contDiffAt_const (c := (1e-99 : ℝ))).mul hzz)).add
        (contDiffAt_const (c := f.waveNum * f.waist * f.waist / 2 * (f.waveNum * f.waist * f.waist / 2)))) hden
    have hrad : 0 < 1 + (f.rotation.mulVec (V3.ofVec z.2)).z * (f.rotation.mulVec (V3.ofVec z.2)).z /
        (f.waveNum * f.waist * f.waist / 2 * (f.waveNum * f.waist * f.waist / 2)) := by
      have h1 := mul_self_nonneg (f.rotation.mulVec (V3.ofVec z.2)).z
      have h2 := mul_self_nonneg (f.waveNum * f.waist * f.waist / 2)
      positivity
    have hwaist := (contDiffAt_const (c := f.waist)).mul
      (((contDiffAt_const (c := (1 : ℝ))).add ((hzz.mul hzz).div_const
        (f.waveNum * f.waist * f.waist / 2 * (f.waveNum * f.waist * f.waist / 2)))).sqrt hrad.ne')
    have hwn := (mul_pos hw (Real.sqrt_pos.2 hrad)).ne'
    have ht := ((contDiffAt_fst (𝕜 := ℝ) (n := 4) (p := z)).sub
      (contDiffAt_const (c := (f.startPos.sub f.focusPos).mag))).sub hzz
    have h := ((((contDiffAt_const (c := f.maxE)).mul ((contDiffAt_const (c := f.waist)).div hwaist hwn)).mul
      (((contDiffAt_const (c := (-1 : ℝ))).mul hr2).div (hwaist.mul hwaist) (mul_self_ne_zero.2 hwn)).exp).mul
      ((hzz.mul (contDiffAt_const (c := f.waveNum))).add
        (((hr2.mul (contDiffAt_const (c := f.waveNum))).div_const 2).mul hbend)).cos).mul
      ((((contDiffAt_const (c := (-1 : ℝ))).mul ht).mul ht).div_const (f.tau * f.tau)).exp
    have w := fun a b => wave_c4 h a b f.rotationInv
    simp only [real_lit, Rat.cast_zero, real_mul] at w
    exact ⟨w _ _, w _ _⟩
  · intro t x hz
    have hbend : ∀ a : ℝ, a / (2 * ((f.rotation.mulVec x).z + f.waveNum * f.waist * f.waist / 2 *
          (f.waveNum * f.waist * f.waist / 2) / ((f.rotation.mulVec x).z + 1e-99))) =
        a / 2 * (((f.rotation.mulVec x).z + 1e-99) / ((f.rotation.mulVec x).z * (f.rotation.mulVec x).z +
          1e-99 * (f.rotation.mulVec x).z + f.waveNum * f.waist * f.waist / 2 *
          (f.waveNum * f.waist * f.waist / 2))) := by
      intro a
      generalize f.waveNum * f.waist * f.waist / 2 = r at hr
      generalize (f.rotation.mulVec x).z = z at hz
      have hc := curvature_ne hr hz
      have hsum : z + r * r / (z + 1e-99) = (z * z + 1e-99 * z + r * r) / (z + 1e-99) := by
        rw [eq_div_iff hz, add_mul, div_mul_cancel₀ _ hz]
        ring
      rw [hsum, ← div_div, div_div_eq_mul_div, mul_div_assoc]
    simp only [GaussField.getField, GaussField.amplitude, gaussThroughFocus, real_mul, real_cos, real_sin, real_sub,
      real_add, real_div, real_sqrt, real_exp, real_lit]
    push_cast
    rw [hbend]

section Focusing

variable {z : ℝ × (Fin 3 → ℝ)}

theorem beam_ex {e0 xe rho2 s0 s2 s3 s4 s5 s6 : ℝ × (Fin 3 → ℝ) → ℝ} (eps : ℝ) (h0 : ContDiffAt ℝ 4 e0 z)
    (hx : ContDiffAt ℝ 4 xe z) (hr : ContDiffAt ℝ 4 rho2 z) (k0 : ContDiffAt ℝ 4 s0 z) (k2 : ContDiffAt ℝ 4 s2 z)
    (k3 : ContDiffAt ℝ 4 s3 z) (k4 : ContDiffAt ℝ 4 s4 z) (k5 : ContDiffAt ℝ 4 s5 z) (k6 : ContDiffAt ℝ 4 s6 z) :
    ContDiffAt ℝ 4 (fun z => e0 z *. (s0 z +. eps *. eps *. (xe z *. xe z *. s2 z -. rho2 z *. rho2 z *. s3 z /. lit 4)
    +. eps *. eps *. eps *. eps
      *. (s2 z /. lit 8 -. rho2 z *. s3 z /. lit 4
        -. rho2 z *. (rho2 z -. lit 16 *. xe z *. xe z) *. s4 z /. lit 16
        -. rho2 z *. rho2 z *. (rho2 z +. lit 2 *. xe z *. xe z) *. s5 z /. lit 8
        +. rho2 z *. rho2 z *. rho2 z *. rho2 z *. s6 z /. lit 32))) z := by
  simp only [real_add, real_sub, real_mul, real_div, div_eq_mul_inv]
  fun_prop

theorem beam_ey {e0 xe ye rho2 s2 s4 s5 : ℝ × (Fin 3 → ℝ) → ℝ} (eps : ℝ) (h0 : ContDiffAt ℝ 4 e0 z)
    (hx : ContDiffAt ℝ 4 xe z) (hy : ContDiffAt ℝ 4 ye z) (hr : ContDiffAt ℝ 4 rho2 z) (k2 : ContDiffAt ℝ 4 s2 z)
    (k4 : ContDiffAt ℝ 4 s4 z) (k5 : ContDiffAt ℝ 4 s5 z) :
    ContDiffAt ℝ 4 (fun z => e0 z *. xe z *. ye z *. (eps *. eps *. s2 z +. eps *. eps *. eps *. eps
    *. (rho2 z *. s4 z -. rho2 z *. rho2 z *. s5 z /. lit 4))) z := by
  simp only [real_add, real_sub, real_mul, real_div, div_eq_mul_inv]
  fun_prop

theorem beam_ez {e0 xe rho2 c1 c2 c3 c4 : ℝ × (Fin 3 → ℝ) → ℝ} (eps : ℝ) (h0 : ContDiffAt ℝ 4 e0 z)
    (hx : ContDiffAt ℝ 4 xe z) (hr : ContDiffAt ℝ 4 rho2 z) (k1 : ContDiffAt ℝ 4 c1 z) (k2 : ContDiffAt ℝ 4 c2 z)
    (k3 : ContDiffAt ℝ 4 c3 z) (k4 : ContDiffAt ℝ 4 c4 z) :
    ContDiffAt ℝ 4 (fun z => e0 z *. xe z *. (eps *. c1 z +. eps *. eps *. eps *. ((-. c2 z) /. lit 2
    +. rho2 z *. c3 z -. rho2 z *. rho2 z *. c4 z /. lit 4))) z := by
  simp only [real_add, real_sub, real_mul, real_div, real_neg, div_eq_mul_inv]
  fun_prop

theorem beam_by {e0 rho2 s0 s2 s3 s4 s5 s6 : ℝ × (Fin 3 → ℝ) → ℝ} (eps : ℝ) (h0 : ContDiffAt ℝ 4 e0 z)
    (hr : ContDiffAt ℝ 4 rho2 z) (k0 : ContDiffAt ℝ 4 s0 z) (k2 : ContDiffAt ℝ 4 s2 z)
    (k3 : ContDiffAt ℝ 4 s3 z) (k4 : ContDiffAt ℝ 4 s4 z) (k5 : ContDiffAt ℝ 4 s5 z) (k6 : ContDiffAt ℝ 4 s6 z) :
    ContDiffAt ℝ 4 (fun z => e0 z *. (s0 z +. eps *. eps *. (rho2 z *. s2 z /. lit 2 -. rho2 z *. rho2 z *. s3 z /. lit 4)
    +. eps *. eps *. eps *. eps *. ((-. s2 z) /. lit 8 +. rho2 z *. s3 z /. lit 4
      +. lit 5 *. rho2 z *. rho2 z *. s4 z /. lit 16 -. rho2 z *. rho2 z *. rho2 z *. s5 z /. lit 4
      +. rho2 z *. rho2 z *. rho2 z *. rho2 z *. s6 z /. lit 32))) z := by
  simp only [real_add, real_sub, real_mul, real_div, real_neg, div_eq_mul_inv]
  fun_prop

theorem beam_bz {e0 ye rho2 c1 c2 c3 c4 : ℝ × (Fin 3 → ℝ) → ℝ} (eps : ℝ) (h0 : ContDiffAt ℝ 4 e0 z)
    (hy : ContDiffAt ℝ 4 ye z) (hr : ContDiffAt ℝ 4 rho2 z) (k1 : ContDiffAt ℝ 4 c1 z) (k2 : ContDiffAt ℝ 4 c2 z)
    (k3 : ContDiffAt ℝ 4 c3 z) (k4 : ContDiffAt ℝ 4 c4 z) :
    ContDiffAt ℝ 4 (fun z => e0 z *. ye z *. (eps *. c1 z +. eps *. eps *. eps *. (c2 z /. lit 2
    +. rho2 z *. c3 z /. lit 2 -. rho2 z *. rho2 z *. c4 z /. lit 4))) z := by
  simp only [real_add, real_sub, real_mul, real_div, div_eq_mul_inv]
  fun_prop

theorem width_pos {f : FocusField ℝ} (hw : 0 < f.waist) (ze : ℝ) :
    0 < 1 + ze * ze ∧ 0 < f.waist * Real.sqrt (1 + ze * ze) := by
  have h := mul_self_nonneg ze
  have h1 : 0 < 1 + ze * ze := by positivity
  exact ⟨h1, mul_pos hw (Real.sqrt_pos.2 h1)⟩

theorem envelope_c4 (f : FocusField ℝ) (hw : 0 < f.waist) {v : ℝ × (Fin 3 → ℝ) → V3 ℝ} (hv : V3C4 v z) :
    ContDiffAt ℝ 4 (fun z => f.envelope z.1 (v z)) z := by
  obtain ⟨hx, hy, hz⟩ := hv
  simp only [FocusField.envelope, real_add, real_sub, real_mul, real_div, real_neg, real_sqrt, real_exp, real_lit]
  push_cast
  obtain ⟨h1, h2⟩ := width_pos hw ((v z).z / f.rayleigh)
  have hze := hz.div_const f.rayleigh
  have hwd := (contDiffAt_const (c := f.waist)).mul
    (((contDiffAt_const (c := (1 : ℝ))).add (hze.mul hze)).sqrt h1.ne')
  have ht := ((contDiffAt_fst (𝕜 := ℝ) (n := 4) (p := z)).sub (contDiffAt_const (c := f.t0))).sub hz
  exact contDiffAt_const.mul (((((hx.mul hx).add (hy.mul hy)).neg.div (hwd.mul hwd)
    (mul_self_ne_zero.2 h2.ne'))).sub ((ht.mul ht).div_const _)).exp

/-- The expansion of the focused pulse has four continuous derivatives off the focal plane. -/
theorem beam_c4 (f : FocusField ℝ) (hw : 0 < f.waist) (hr : 1e-99 < f.rayleigh) {v : ℝ × (Fin 3 → ℝ) → V3 ℝ}
    (hv : V3C4 v z) (hf : (v z).z + 1e-99 ≠ 0) :
    V3C4 (fun z => (f.beamField z.1 (v z)).1) z ∧ V3C4 (fun z => (f.beamField z.1 (v z)).2) z := by
  have he := envelope_c4 f hw hv
  obtain ⟨hx, hy, hz⟩ := hv
  have hxe : ContDiffAt ℝ 4 (fun z => (v z).x /. f.waist) z := hx.div_const f.waist
  have hye : ContDiffAt ℝ 4 (fun z => (v z).y /. f.waist) z := hy.div_const f.waist
  have hze : ContDiffAt ℝ 4 (fun z => (v z).z /. f.rayleigh) z := hz.div_const f.rayleigh
  have hr2 := (hx.mul hx).add (hy.mul hy)
  have hrho : ContDiffAt ℝ 4 (fun z => ((v z).x *. (v z).x +. (v z).y *. (v z).y) /. (f.waist *. f.waist)) z :=
    hr2.div_const (f.waist * f.waist)
  obtain ⟨h1, h2⟩ := width_pos hw ((v z).z / f.rayleigh)
  have hwd : ContDiffAt ℝ 4 (fun z => f.waist * Real.sqrt (1 + (v z).z / f.rayleigh * ((v z).z / f.rayleigh))) z :=
    contDiffAt_const.mul ((contDiffAt_const.add (hze.mul hze)).sqrt h1.ne')
  have hcurv := hz.add ((contDiffAt_const (c := f.rayleigh * f.rayleigh)).div
    (hz.add (contDiffAt_const (c := (1e-99 : ℝ)))) hf)
  have hphi := (contDiffAt_const (c := f.waveNum)).mul (hz.sub (hr2.div ((contDiffAt_const (c := (2 : ℝ))).mul hcurv)
    (mul_ne_zero two_ne_zero (curvature_ne hr hf))))
  have hpow : ∀ c : ℝ, ContDiffAt ℝ 4 (fun z => (f.waist /
      (f.waist * Real.sqrt (1 + (v z).z / f.rayleigh * ((v z).z / f.rayleigh)))) ^ c) z := fun c =>
    (contDiffAt_const.div hwd h2.ne').rpow_const_of_ne (div_pos hw h2).ne'
  have hang : ∀ c : ℝ, ContDiffAt ℝ 4 (fun z => f.waveNum * ((v z).z - ((v z).x * (v z).x + (v z).y * (v z).y) /
      (2 * ((v z).z + f.rayleigh * f.rayleigh / ((v z).z + 1e-99)))) +
      c * Real.arctan ((v z).z / f.rayleigh)) z := fun c => hphi.add (contDiffAt_const.mul hze.arctan)
  have hs : ∀ q : ℚ, ContDiffAt ℝ 4 (fun z => Dbl.pow (f.waist /. (f.waist *. Dbl.sqrt (lit 1 +. (v z).z /. f.rayleigh *.
      ((v z).z /. f.rayleigh)))) (lit q) *. Dbl.sin (f.waveNum *. ((v z).z -. ((v z).x *. (v z).x +. (v z).y *. (v z).y) /.
      (lit 2 *. ((v z).z +. f.rayleigh *. f.rayleigh /. ((v z).z +. lit 1e-99)))) +.
      lit q *. Dbl.atan ((v z).z /. f.rayleigh))) z := by
    intro q
    have := (hpow (q : ℝ)).mul (hang (q : ℝ)).sin
    simp only [real_add, real_sub, real_mul, real_div, real_sqrt, real_lit, real_pow, real_sin, real_atan]
    push_cast
    exact this
  have hc : ∀ q : ℚ, ContDiffAt ℝ 4 (fun z => Dbl.pow (f.waist /. (f.waist *. Dbl.sqrt (lit 1 +. (v z).z /. f.rayleigh *.
      ((v z).z /. f.rayleigh)))) (lit q) *. Dbl.cos (f.waveNum *. ((v z).z -. ((v z).x *. (v z).x +. (v z).y *. (v z).y) /.
      (lit 2 *. ((v z).z +. f.rayleigh *. f.rayleigh /. ((v z).z +. lit 1e-99)))) +.
      lit q *. Dbl.atan ((v z).z /. f.rayleigh))) z := by
    intro q
    have := (hpow (q : ℝ)).mul (hang (q : ℝ)).cos
    simp only [real_add, real_sub, real_mul, real_div, real_sqrt, real_lit, real_pow, real_cos, real_atan]
    push_cast
    exact this
  exact ⟨⟨beam_ex f.eps he hxe hrho (hs _) (hs _) (hs _) (hs _) (hs _) (hs _),
      beam_ey f.eps he hxe hye hrho (hs _) (hs _) (hs _),
      beam_ez f.eps he hxe hrho (hc _) (hc _) (hc _) (hc _)⟩,
    contDiffAt_const, beam_by f.eps he hrho (hs _) (hs _) (hs _) (hs _) (hs _) (hs _),
    beam_bz f.eps he hye hrho (hc _) (hc _) (hc _) (hc _)⟩

theorem polarise_c4 (a : ℝ) {v : ℝ × (Fin 3 → ℝ) → V3 ℝ} (hv : V3C4 v z) :
    V3C4 (fun z => FocusField.polarise a (v z)) z := by
  obtain ⟨hx, hy, hz⟩ := hv
  have h1 := (hx.mul (contDiffAt_const (c := Real.cos a))).sub (hy.mul (contDiffAt_const (c := Real.sin a)))
  exact ⟨h1, (h1.mul (contDiffAt_const (c := Real.sin a))).add (hy.mul (contDiffAt_const (c := Real.cos a))), hz⟩

/-- C121 applies to the focused pulse away from its focal plane and from the surface at which the code cuts it off. -/
theorem C121_focusing_partial (f : FocusField ℝ) (hw : 0 < f.waist) (hr : 1e-99 < f.rayleigh) :
    FieldC4 f.getField {z | alongBeam f.rotation z + 1e-99 ≠ 0 ∧
      f.envelope z.1 (f.rotation.mulVec (V3.ofVec z.2)) ≠ 1e-15} := by
  refine fieldC4_of fun z hz => ?_
  have hv := (V3C4.position z).mulVec f.rotation
  have henv := (envelope_c4 f hw hv).continuousAt
  rcases lt_or_gt_of_ne hz.2 with h | h
  · have hev : ∀ᶠ x in nhds z, f.getField x.1 (V3.ofVec x.2) = (⟨0, 0, 0⟩, ⟨0, 0, 0⟩) := by
      filter_upwards [henv.eventually_lt continuousAt_const h] with x hx
      simp only [FocusField.getField]
      rw [if_pos (by simpa using hx)]
      simp
    exact ⟨V3C4.congr (v := fun _ => ⟨0, 0, 0⟩) ⟨contDiffAt_const, contDiffAt_const, contDiffAt_const⟩
        (hev.mono fun x hx => by simp only [hx]),
      V3C4.congr (v := fun _ => ⟨0, 0, 0⟩) ⟨contDiffAt_const, contDiffAt_const, contDiffAt_const⟩
        (hev.mono fun x hx => by simp only [hx])⟩
  · have hev : ∀ᶠ x in nhds z, f.getField x.1 (V3.ofVec x.2) =
        (f.rotationInv.mulVec (FocusField.polarise f.polAngle
          (f.beamField x.1 (f.rotation.mulVec (V3.ofVec x.2))).1),
        f.rotationInv.mulVec (FocusField.polarise f.polAngle
          (f.beamField x.1 (f.rotation.mulVec (V3.ofVec x.2))).2)) := by
      filter_upwards [continuousAt_const.eventually_lt henv h] with x hx
      simp only [FocusField.getField]
      rw [if_neg (by simpa using hx.le)]
    obtain ⟨hb1, hb2⟩ := beam_c4 f hw hr hv hz.1
    exact ⟨V3C4.congr ((polarise_c4 f.polAngle hb1).mulVec f.rotationInv) (hev.mono fun x hx => by simp only [hx]),
      V3C4.congr ((polarise_c4 f.polAngle hb2).mulVec f.rotationInv) (hev.mono fun x hx => by simp only [hx])⟩

end Focusing

namespace OrderWitness

/-- An electron of unit mass and momentum along z. -/
noncomputable def electron : Particle ℝ := Particle.newLepton 1 (-1) ⟨0, 0, 0⟩ ⟨0, 0, 1⟩ 1 0 false 0

/-- A unit electric field along z, against the electron's charge. -/
def field : Field ℝ := staticField ⟨0, 0, -1⟩ ⟨0, 0, 0⟩

/-- The motion under a constant force `F` along z. -/
noncomputable def track (F s : ℝ) : Phase :=
  (![0, 0, (Real.sqrt (1 + (1 + F * s) ^ 2) - Real.sqrt 2) / F], ![0, 0, 1 + F * s])

theorem dot_z (a : ℝ) : (![0, 0, a] : Fin 3 → ℝ) ⬝ᵥ ![0, 0, a] = a ^ 2 := by
  simp [dotProduct, Fin.sum_univ_three]
  ring

theorem track_start (F : ℝ) : track F electron.time = (electron.position.toVec, electron.momentum.toVec) := by
  simp only [track, electron, Particle.newLepton, Particle.new, V3.toVec, mul_zero, add_zero]
  norm_num

theorem track_deriv {F : ℝ} (hF : 0 < F) {force : ℝ → (Fin 3 → ℝ) → (Fin 3 → ℝ) → Fin 3 → ℝ}
    (hforce : ∀ s x (a : ℝ), 0 < a → force s x ![0, 0, a] = ![0, 0, F]) (s : ℝ) (hs : 0 ≤ s) (S : Set ℝ) :
    HasDerivWithinAt (track F) (motion 1 force s (track F s)) S s := by
  have hp : 0 < 1 + F * s := by positivity
  have h1 : HasDerivAt (fun s => 1 + F * s) F s := by
    simpa using ((hasDerivAt_id s).const_mul F).const_add 1
  have h2 : HasDerivAt (fun s => (Real.sqrt (1 + (1 + F * s) ^ 2) - Real.sqrt 2) / F)
      ((Real.sqrt (1 + (1 + F * s) ^ 2))⁻¹ * (1 + F * s)) s := by
    have hpos : 0 < 1 + (1 + F * s) ^ 2 := by positivity
    have := ((((h1.fun_pow 2).const_add 1).sqrt hpos.ne').sub_const (Real.sqrt 2)).div_const F
    have e : (Real.sqrt (1 + (1 + F * s) ^ 2))⁻¹ * (1 + F * s) =
        ((2 : ℕ) : ℝ) * (1 + F * s) ^ (2 - 1) * F / (2 * Real.sqrt (1 + (1 + F * s) ^ 2)) / F := by
      have := (Real.sqrt_pos.2 hpos).ne'
      norm_num
      field_simp
    rw [e]
    exact this
  have hm : motion 1 force s (track F s) =
      (![0, 0, (Real.sqrt (1 + (1 + F * s) ^ 2))⁻¹ * (1 + F * s)], ![0, 0, F]) := by
    have hv : velocity 1 ![0, 0, 1 + F * s] = ![0, 0, (Real.sqrt (1 + (1 + F * s) ^ 2))⁻¹ * (1 + F * s)] := by
      rw [velocity, dot_z, one_pow]
      funext i
      fin_cases i <;> simp
    rw [← hv, ← hforce s (track F s).1 _ hp]
    rfl
  rw [hm]
  refine (HasDerivAt.prodMk (hasDerivAt_pi.2 fun i => ?_) (hasDerivAt_pi.2 fun i => ?_)).hasDerivWithinAt
  · fin_cases i
    · exact hasDerivAt_const _ _
    · exact hasDerivAt_const _ _
    · exact h2
  · fin_cases i
    · exact hasDerivAt_const _ _
    · exact hasDerivAt_const _ _
    · exact h1

theorem eta_one (s : ℝ) (x : Fin 3 → ℝ) (a : ℝ) : etaAt 1 field s x ![0, 0, a] = 1 := by
  have hd : 0 ≤ 1 + a ^ 2 / 1 ^ 2 := by positivity
  rw [etaAt_eq, etaSq, dot_z]
  simp only [electric, magnetic, field, staticField, V3.toVec, Matrix.cons_val]
  rw [Real.sqrt_eq_one]
  have := Real.sq_sqrt hd
  norm_num at this ⊢
  rw [this]
  ring

theorem lorentz_one (s : ℝ) (x : Fin 3 → ℝ) (a : ℝ) : lorentz 1 (-1) field s x ![0, 0, a] = ![0, 0, 1] := by
  funext i
  fin_cases i <;> simp [lorentz, electric, magnetic, field, staticField, V3.toVec, cross_apply]

/-- The size of the reaction force for eta = 1. -/
theorem reaction_one (g : ℝ → ℝ) (s : ℝ) (x : Fin 3 → ℝ) (a : ℝ) (ha : 0 < a) :
    reactionForce g 1 (-1) field s x ![0, 0, a] = ![0, 0, 1 - 2 / 3 * (Units.alpha : ℝ) * g 1] := by
  rw [reactionForce, eta_one, lorentz_one, dot_z, Real.sqrt_sq ha.le]
  funext i
  fin_cases i
  · simp
  · simp
  · simp
    field_simp

theorem alpha_eq : (Units.alpha : ℝ) = 0.0072973525664 := by
  simp only [Units.alpha, real_lit]
  norm_num

theorem gaunt_one : 0 ≤ gauntFactor 1 ∧ gauntFactor 1 ≤ 1 := by
  have h : (1 : ℝ) ≤ 1 + 4.8 * (1 + 1) * Real.log (1 + 1.7 * 1) + 2.44 * 1 ^ 2 := by
    have : 0 ≤ Real.log (1 + 1.7 * 1) := Real.log_nonneg (by norm_num)
    linarith
  exact ⟨Real.rpow_nonneg (by linarith) _, Real.rpow_le_one_of_one_le_of_nonpos h (by norm_num)⟩

end OrderWitness

open OrderWitness in
/-- The hypotheses of `C121_lorentz` hold for an electron accelerated along its motion. -/
example : ∃ y : ℝ → Phase, FourthOrder lorentzForce OrderWitness.field electron 1 y := by
  refine ⟨track 1, C121_lorentz isOpen_univ (C121_static _ _) electron rfl ?_ (track_start 1) ?_ fun _ _ => mem_univ _⟩
  · simp [electron, Particle.newLepton, Particle.new]
  · intro s hs
    refine track_deriv one_pos (fun s x a _ => ?_) s ?_ _
    · exact lorentz_one s x a
    · exact hs.1

open OrderWitness in
/-- The hypotheses of `C121_landau` and `C121_modified` hold for the same electron, with a reaction force. -/
example : (∃ y : ℝ → Phase, FourthOrder landauForce OrderWitness.field electron 1 y) ∧
    ∃ y : ℝ → Phase, FourthOrder modLandauForce OrderWitness.field electron 1 y := by
  have hm : (0 : ℝ) < electron.mass := by simp [electron, Particle.newLepton, Particle.new]
  have h1 : (0 : ℝ) < 1 - 2 / 3 * (Units.alpha : ℝ) * (fun _ : ℝ => (1 : ℝ)) 1 := by
    rw [alpha_eq]
    norm_num
  have h2 : (0 : ℝ) < 1 - 2 / 3 * (Units.alpha : ℝ) * gauntFactor 1 := by
    rw [alpha_eq]
    have := gaunt_one.2
    linarith
  have hne : ∀ F : ℝ, 0 < F → ∀ s : ℝ, 0 ≤ s → (track F s).2 ≠ 0 := by
    intro F hF s hs h
    have := congrFun h 2
    simp only [track, Matrix.cons_val, Pi.zero_apply] at this
    nlinarith [mul_nonneg hF.le hs]
  constructor
  · refine ⟨track (1 - 2 / 3 * (Units.alpha : ℝ) * (fun _ : ℝ => (1 : ℝ)) 1), C121_landau isOpen_univ (C121_static _ _) electron rfl hm (track_start _) ?_ ?_⟩
    · exact fun s hs => track_deriv h1 (reaction_one _) s hs.1 _
    · exact fun s hs => ⟨mem_univ _, hne _ h1 s hs.1⟩
  · refine ⟨track (1 - 2 / 3 * (Units.alpha : ℝ) * gauntFactor 1), C121_modified isOpen_univ (C121_static _ _) electron rfl hm (track_start _) ?_ ?_⟩
    · exact fun s hs => track_deriv h2 (reaction_one _) s hs.1 _
    · refine fun s hs => ⟨mem_univ _, hne _ h2 s hs.1, ?_⟩
      have : etaAt electron.mass OrderWitness.field s (track (1 - 2 / 3 * (Units.alpha : ℝ) * gauntFactor 1) s).1
          (track (1 - 2 / 3 * (Units.alpha : ℝ) * gauntFactor 1) s).2 = 1 := eta_one s _ _
      exact this.symm ▸ one_ne_zero

/-- A pulse that meets the hypotheses of `C121_gauss_partial` and `C121_gauss_focus_partial`. -/
example : ∃ f : GaussField ℝ, f.maxE ≠ 0 ∧ 0 < f.waist ∧ 1e-99 < f.waveNum * f.waist * f.waist / 2 ∧
    ∃ z, alongBeam f.rotation z + 1e-99 ≠ 0 := by
  refine ⟨⟨1, 1, 1, 1, 0, 1, ⟨1, 0, 0, 0, 1, 0, 0, 0, 1⟩, ⟨1, 0, 0, 0, 1, 0, 0, 0, 1⟩, ⟨0, 0, 0⟩, ⟨0, 0, 0⟩⟩, one_ne_zero,
    one_pos, by norm_num, (0, 0), ?_⟩
  simp [alongBeam, M3.mulVec, M3.acc3, V3.ofVec]
  norm_num

/-- A pulse that meets the hypotheses of `C121_focusing_partial`, with a point of each kind it speaks of. -/
example : ∃ f : FocusField ℝ, 0 < f.waist ∧ 1e-99 < f.rayleigh ∧ ∃ z : ℝ × (Fin 3 → ℝ),
    alongBeam f.rotation z + 1e-99 ≠ 0 ∧ f.envelope z.1 (f.rotation.mulVec (V3.ofVec z.2)) ≠ 1e-15 := by
  refine ⟨⟨1, 1, 1, 1, 0, 1, 1, 1, 0, ⟨1, 0, 0, 0, 1, 0, 0, 0, 1⟩, ⟨1, 0, 0, 0, 1, 0, 0, 0, 1⟩⟩,
    one_pos, by norm_num, (0, 0), ?_, ?_⟩
  · simp [alongBeam, M3.mulVec, M3.acc3, V3.ofVec]
    norm_num
  · simp [FocusField.envelope, M3.mulVec, M3.acc3, V3.ofVec]
    norm_num

end QED
