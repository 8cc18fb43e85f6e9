import Verif.Lemmas.Extended
import Verif.Props.OrderFields

set_option autoImplicit false

/-!
# The pulses in their focal plane

In the plane `z = -1e-99` the code divides by zero. In arithmetic with infinities the wave fronts are then flat, as they
should be.
-/

namespace QED

open Dbl XR Set Matrix

namespace Extended

/-- The curvature of the wave fronts. -/
noncomputable def bend (R z : ℝ) : ℝ := (z + 1e-99) / (z * z + 1e-99 * z + R * R)

theorem bend_den {R : ℝ} (hR : 1e-99 < R) (z : ℝ) : z * z + 1e-99 * z + R * R ≠ 0 := by
  norm_num at hR ⊢
  nlinarith [sq_nonneg (z + 1e-99 / 2)]

/-- Dividing by twice the radius of curvature, as the code does. -/
theorem over_curvature {R : ℝ} (hR : 1e-99 < R) (a z : ℝ) :
    (fin a /. ((lit 2 : XR) *. (fin z +. fin R *. fin R /. (fin z +. (lit 1e-99 : XR))))) = fin (a / 2 * bend R z) := by
  have hR0 : 0 < R := lt_trans (by norm_num) hR
  have hl : (fin z +. (lit 1e-99 : XR)) = fin (z + 1e-99) := by
    rw [lit_eq, add_fin]
    norm_num
  rw [mul_fin, hl]
  by_cases hz : z + 1e-99 = 0
  · rw [hz, div_zero]
    have h1 : infSign (R * R) = pinf := by simp [infSign, hR0]
    have h2 : (lit 2 : XR) *. (fin z +. pinf) = pinf := by
      change XR.mul (fin ((2 : ℚ) : ℝ)) pinf = pinf
      simp [XR.mul, infSign]
    rw [h1, h2, bend, hz]
    change fin 0 = _
    simp
  · have hc := curvature_ne hR hz
    rw [div_fin _ _ hz, add_fin, lit_eq, mul_fin, div_fin _ _ (mul_ne_zero (by norm_num) hc)]
    congr 1
    have hsum : z + R * R / (z + 1e-99) = (z * z + 1e-99 * z + R * R) / (z + 1e-99) := by
      rw [eq_div_iff hz, add_mul, div_mul_cancel₀ _ hz]
      ring
    rw [hsum, ← div_div, div_div_eq_mul_div, mul_div_assoc, bend]
    push_cast
    rfl

theorem gauss_extends (f : GaussField ℝ) (hw : 0 < f.waist) (hr : 1e-99 < f.waveNum * f.waist * f.waist / 2)
    (ht : f.tau ≠ 0) : f.inXR.getField.Extends (gaussThroughFocus f) := by
  intro t x
  have hr0 : 0 < f.waveNum * f.waist * f.waist / 2 := lt_trans (by norm_num) hr
  have ha : f.inXR.amplitude (fin t) x.inXR = fin (
      let p := f.rotation.mulVec x
      let t0 := (f.startPos.sub f.focusPos).mag
      let r2 := p.x * p.x + p.y * p.y
      let rayleigh := f.waveNum * f.waist * f.waist / 2
      let width := f.waist * Real.sqrt (1 + p.z * p.z / (rayleigh * rayleigh))
      f.maxE * (f.waist / width) * Real.exp (-1 * r2 / (width * width)) *
        Real.cos (p.z * f.waveNum + r2 * f.waveNum / 2 * bend rayleigh p.z) *
        Real.exp (-1 * (t - t0 - p.z) * (t - t0 - p.z) / (f.tau * f.tau))) := by
    unfold GaussField.amplitude
    have e1 : f.inXR.rotation.mulVec x.inXR = (f.rotation.mulVec x).inXR := mulVec_ext x f.rotation
    have e2 : (f.inXR.startPos.sub f.inXR.focusPos).mag = fin (f.startPos.sub f.focusPos).mag := by
      have h1 : f.inXR.startPos = f.startPos.inXR := rfl
      have h2 : f.inXR.focusPos = f.focusPos.inXR := rfl
      rw [h1, h2, sub_ext, mag_ext]
    rw [e1, e2]
    generalize f.rotation.mulVec x = p
    generalize (f.startPos.sub f.focusPos).mag = t0
    have e3 : (f.inXR.waveNum *. f.inXR.waist *. f.inXR.waist /. (lit 2 : XR)) = fin (f.waveNum * f.waist * f.waist / 2) := by
      change (fin f.waveNum *. fin f.waist *. fin f.waist /. (lit 2 : XR)) = _
      rw [mul_fin, mul_fin, lit_eq, div_fin _ _ (by norm_num)]
      norm_num
    dsimp only
    rw [e3]
    generalize hR : f.waveNum * f.waist * f.waist / 2 = R at hr hr0
    have hrad : 0 < 1 + p.z * p.z / (R * R) := by
      have := mul_self_nonneg p.z
      positivity
    have hwd : 0 < f.waist * Real.sqrt (1 + p.z * p.z / (R * R)) := mul_pos hw (Real.sqrt_pos.2 hrad)
    have e4 : (f.inXR.waist *. Dbl.sqrt ((lit 1 : XR) +. p.inXR.z *. p.inXR.z /. (fin R *. fin R))) =
        fin (f.waist * Real.sqrt (1 + p.z * p.z / (R * R))) := by
      change (fin f.waist *. Dbl.sqrt ((lit 1 : XR) +. fin p.z *. fin p.z /. (fin R *. fin R))) = _
      rw [mul_fin, mul_fin, div_fin _ _ (mul_pos hr0 hr0).ne', lit_eq, add_fin, sqrt_fin _ (by push_cast; exact hrad.le),
        mul_fin]
      norm_num
    rw [e4]
    generalize f.waist * Real.sqrt (1 + p.z * p.z / (R * R)) = width at hwd
    change fin f.maxE *. (fin f.waist /. fin width) *.
      Dbl.exp ((lit (-1) : XR) *. (fin p.x *. fin p.x +. fin p.y *. fin p.y) /. (fin width *. fin width)) *.
      Dbl.cos (fin p.z *. fin f.waveNum +. (fin p.x *. fin p.x +. fin p.y *. fin p.y) *. fin f.waveNum /.
        ((lit 2 : XR) *. (fin p.z +. fin R *. fin R /. (fin p.z +. (lit 1e-99 : XR))))) *.
      Dbl.exp ((lit (-1) : XR) *. (fin t -. fin t0 -. fin p.z) *. (fin t -. fin t0 -. fin p.z) /. (fin f.tau *. fin f.tau)) = _
    have e5 : ((fin p.x *. fin p.x +. fin p.y *. fin p.y) *. fin f.waveNum) =
      fin ((p.x * p.x + p.y * p.y) * f.waveNum) := rfl
    rw [e5, over_curvature hr]
    simp only [lit_eq, mul_fin, sub_fin, add_fin, div_fin _ _ hwd.ne', div_fin _ _ (mul_pos hwd hwd).ne',
      div_fin _ _ (mul_self_ne_zero.2 ht), exp_fin, cos_fin]
    norm_num
  unfold GaussField.getField
  rw [ha]
  unfold gaussThroughFocus bend
  dsimp only
  generalize f.maxE * _ * _ * _ * _ = amp
  have v1 : ∀ a b : ℝ, (⟨fin a, fin b, lit 0⟩ : V3 XR) = V3.inXR ⟨a, b, 0⟩ := by
    intro a b
    simp [V3.inXR]
  have h1 : (fin amp *. Dbl.cos f.inXR.polAngle) = fin (amp * Real.cos f.polAngle) := rfl
  have h2 : (fin amp *. Dbl.sin f.inXR.polAngle) = fin (amp * Real.sin f.polAngle) := rfl
  have h3 : f.inXR.rotationInv = f.rotationInv.inXR := rfl
  rw [h1, h2, h3, v1, v1, mulVec_ext, mulVec_ext]

/-! ## The focused pulse -/

section Beam
variable {D : Type} [Dbl D]

/-- The field of the focused pulse in the beam frame, with the phase `phi` of its wave fronts given. -/
def beamWith (f : FocusField D) (time : D) (p : V3 D) (phi : D) : V3 D × V3 D :=
  let xe := p.x /. f.waist
  let ye := p.y /. f.waist
  let ze := p.z /. f.rayleigh
  let r2 := p.x *. p.x +. p.y *. p.y
  let rho2 := r2 /. (f.waist *. f.waist)
  let phiG := atan ze
  let w := f.waist *. sqrt (lit 1 +. ze *. ze)
  let e0 := f.envelope time p
  let s (i : Nat) : D :=
    pow (f.waist /. w) (lit ((i : ℚ) + 1)) *. sin (phi +. lit ((i : ℚ) + 1) *. phiG)
  let c (i : Nat) : D :=
    pow (f.waist /. w) (lit ((i : ℚ) + 1)) *. cos (phi +. lit ((i : ℚ) + 1) *. phiG)
  let eps := f.eps
  let ex := e0 *. (s 0 +. eps *. eps *. (xe *. xe *. s 2 -. rho2 *. rho2 *. s 3 /. lit 4)
    +. eps *. eps *. eps *. eps
      *. (s 2 /. lit 8 -. rho2 *. s 3 /. lit 4
        -. rho2 *. (rho2 -. lit 16 *. xe *. xe) *. s 4 /. lit 16
        -. rho2 *. rho2 *. (rho2 +. lit 2 *. xe *. xe) *. s 5 /. lit 8
        +. rho2 *. rho2 *. rho2 *. rho2 *. s 6 /. lit 32))
  let ey := e0 *. xe *. ye *. (eps *. eps *. s 2 +. eps *. eps *. eps *. eps
    *. (rho2 *. s 4 -. rho2 *. rho2 *. s 5 /. lit 4))
  let ez := e0 *. xe *. (eps *. c 1 +. eps *. eps *. eps *. ((-. c 2) /. lit 2
    +. rho2 *. c 3 -. rho2 *. rho2 *. c 4 /. lit 4))
  let bx := lit 0
  let bY := e0 *. (s 0 +. eps *. eps *. (rho2 *. s 2 /. lit 2 -. rho2 *. rho2 *. s 3 /. lit 4)
    +. eps *. eps *. eps *. eps *. ((-. s 2) /. lit 8 +. rho2 *. s 3 /. lit 4
      +. lit 5 *. rho2 *. rho2 *. s 4 /. lit 16 -. rho2 *. rho2 *. rho2 *. s 5 /. lit 4
      +. rho2 *. rho2 *. rho2 *. rho2 *. s 6 /. lit 32))
  let bz := e0 *. ye *. (eps *. c 1 +. eps *. eps *. eps *. (c 2 /. lit 2
    +. rho2 *. c 3 /. lit 2 -. rho2 *. rho2 *. c 4 /. lit 4))
  (⟨ex, ey, ez⟩, ⟨bx, bY, bz⟩)

theorem beamField_eq (f : FocusField D) (time : D) (p : V3 D) :
    f.beamField time p = beamWith f time p (f.waveNum *. (p.z -. (p.x *. p.x +. p.y *. p.y) /.
      (lit 2 *. (p.z +. f.rayleigh *. f.rayleigh /. (p.z +. lit 1e-99))))) := rfl

end Beam

variable {z : ℝ × (Fin 3 → ℝ)}

theorem beamWith_c4 (f : FocusField ℝ) (hw : 0 < f.waist) {v : ℝ × (Fin 3 → ℝ) → V3 ℝ} (hv : V3C4 v z)
    {phi : ℝ × (Fin 3 → ℝ) → ℝ} (hphi : ContDiffAt ℝ 4 phi z) :
    V3C4 (fun z => (beamWith f z.1 (v z) (phi z)).1) z ∧ V3C4 (fun z => (beamWith f z.1 (v z) (phi z)).2) z := by
  have he := envelope_c4 f hw hv
  obtain ⟨hx, hy, hz⟩ := hv
  have hxe : ContDiffAt ℝ 4 (fun z => (v z).x /. f.waist) z := hx.div_const f.waist
  have hye : ContDiffAt ℝ 4 (fun z => (v z).y /. f.waist) z := hy.div_const f.waist
  have hze : ContDiffAt ℝ 4 (fun z => (v z).z /. f.rayleigh) z := hz.div_const f.rayleigh
  have hr2 := (hx.mul hx).add (hy.mul hy)
  have hrho : ContDiffAt ℝ 4 (fun z => ((v z).x *. (v z).x +. (v z).y *. (v z).y) /. (f.waist *. f.waist)) z :=
    hr2.div_const (f.waist * f.waist)
  obtain ⟨h1, h2⟩ := width_pos hw ((v z).z / f.rayleigh)
  have hwd : ContDiffAt ℝ 4 (fun z => f.waist * Real.sqrt (1 + (v z).z / f.rayleigh * ((v z).z / f.rayleigh))) z :=
    contDiffAt_const.mul ((contDiffAt_const.add (hze.mul hze)).sqrt h1.ne')
  have hpow : ∀ c : ℝ, ContDiffAt ℝ 4 (fun z => (f.waist /
      (f.waist * Real.sqrt (1 + (v z).z / f.rayleigh * ((v z).z / f.rayleigh)))) ^ c) z := fun c =>
    (contDiffAt_const.div hwd h2.ne').rpow_const_of_ne (div_pos hw h2).ne'
  have hang : ∀ c : ℝ, ContDiffAt ℝ 4 (fun z => phi z +
      c * Real.arctan ((v z).z / f.rayleigh)) z := fun c => hphi.add (contDiffAt_const.mul hze.arctan)
  have hs : ∀ q : ℚ, ContDiffAt ℝ 4 (fun z => Dbl.pow (f.waist /. (f.waist *. Dbl.sqrt (lit 1 +. (v z).z /. f.rayleigh *.
      ((v z).z /. f.rayleigh)))) (lit q) *. Dbl.sin (phi z +. lit q *. Dbl.atan ((v z).z /. f.rayleigh))) z := by
    intro q
    have := (hpow (q : ℝ)).mul (hang (q : ℝ)).sin
    simp only [real_add, real_mul, real_div, real_sqrt, real_lit, real_pow, real_sin, real_atan]
    push_cast
    exact this
  have hc : ∀ q : ℚ, ContDiffAt ℝ 4 (fun z => Dbl.pow (f.waist /. (f.waist *. Dbl.sqrt (lit 1 +. (v z).z /. f.rayleigh *.
      ((v z).z /. f.rayleigh)))) (lit q) *. Dbl.cos (phi z +. lit q *. Dbl.atan ((v z).z /. f.rayleigh))) z := by
    intro q
    have := (hpow (q : ℝ)).mul (hang (q : ℝ)).cos
    simp only [real_add, real_mul, real_div, real_sqrt, real_lit, real_pow, real_cos, real_atan]
    push_cast
    exact this
  exact ⟨⟨beam_ex f.eps he hxe hrho (hs _) (hs _) (hs _) (hs _) (hs _) (hs _),
      beam_ey f.eps he hxe hye hrho (hs _) (hs _) (hs _),
      beam_ez f.eps he hxe hrho (hc _) (hc _) (hc _) (hc _)⟩,
    contDiffAt_const, beam_by f.eps he hrho (hs _) (hs _) (hs _) (hs _) (hs _) (hs _),
    beam_bz f.eps he hye hrho (hc _) (hc _) (hc _) (hc _)⟩

/-- The phase of the wave fronts without a division by zero. -/
noncomputable def smoothPhase (f : FocusField ℝ) (p : V3 ℝ) : ℝ :=
  f.waveNum * (p.z - (p.x * p.x + p.y * p.y) / 2 * bend f.rayleigh p.z)

theorem smoothPhase_c4 (f : FocusField ℝ) (hr : 1e-99 < f.rayleigh) {v : ℝ × (Fin 3 → ℝ) → V3 ℝ} (hv : V3C4 v z) :
    ContDiffAt ℝ 4 (fun z => smoothPhase f (v z)) z := by
  obtain ⟨hx, hy, hz⟩ := hv
  have hb := (hz.add (contDiffAt_const (c := (1e-99 : ℝ)))).div
    (((hz.mul hz).add ((contDiffAt_const (c := (1e-99 : ℝ))).mul hz)).add
      (contDiffAt_const (c := f.rayleigh * f.rayleigh))) (bend_den hr (v z).z)
  exact contDiffAt_const.mul (hz.sub ((((hx.mul hx).add (hy.mul hy)).div_const 2).mul hb))

/-- The focused pulse without a division by zero. -/
noncomputable def focusThroughFocus (f : FocusField ℝ) : Field ℝ := fun t x =>
  let p := f.rotation.mulVec x
  if f.envelope t p < 1e-15 then (⟨0, 0, 0⟩, ⟨0, 0, 0⟩)
  else
    let eb := beamWith f t p (smoothPhase f p)
    (f.rotationInv.mulVec (FocusField.polarise f.polAngle eb.1),
      f.rotationInv.mulVec (FocusField.polarise f.polAngle eb.2))

theorem focusThroughFocus_c4 (f : FocusField ℝ) (hw : 0 < f.waist) (hr : 1e-99 < f.rayleigh) :
    FieldC4 (focusThroughFocus f) {z | f.envelope z.1 (f.rotation.mulVec (V3.ofVec z.2)) ≠ 1e-15} := by
  refine fieldC4_of fun z hz => ?_
  have hv := (V3C4.position z).mulVec f.rotation
  have henv := (envelope_c4 f hw hv).continuousAt
  rcases lt_or_gt_of_ne hz with h | h
  · have hev : ∀ᶠ x in nhds z, focusThroughFocus f x.1 (V3.ofVec x.2) = (⟨0, 0, 0⟩, ⟨0, 0, 0⟩) := by
      filter_upwards [henv.eventually_lt continuousAt_const h] with x hx
      simp only [focusThroughFocus]
      rw [if_pos hx]
    exact ⟨V3C4.congr (v := fun _ => ⟨0, 0, 0⟩) ⟨contDiffAt_const, contDiffAt_const, contDiffAt_const⟩
        (hev.mono fun x hx => by simp only [hx]),
      V3C4.congr (v := fun _ => ⟨0, 0, 0⟩) ⟨contDiffAt_const, contDiffAt_const, contDiffAt_const⟩
        (hev.mono fun x hx => by simp only [hx])⟩
  · have hev : ∀ᶠ x in nhds z, focusThroughFocus f x.1 (V3.ofVec x.2) =
        (f.rotationInv.mulVec (FocusField.polarise f.polAngle
          (beamWith f x.1 (f.rotation.mulVec (V3.ofVec x.2)) (smoothPhase f (f.rotation.mulVec (V3.ofVec x.2)))).1),
        f.rotationInv.mulVec (FocusField.polarise f.polAngle
          (beamWith f x.1 (f.rotation.mulVec (V3.ofVec x.2)) (smoothPhase f (f.rotation.mulVec (V3.ofVec x.2)))).2)) := by
      filter_upwards [continuousAt_const.eventually_lt henv h] with x hx
      simp only [focusThroughFocus]
      rw [if_neg (not_lt.2 hx.le)]
    obtain ⟨hb1, hb2⟩ := beamWith_c4 f hw hv (smoothPhase_c4 f hr hv)
    exact ⟨V3C4.congr ((polarise_c4 f.polAngle hb1).mulVec f.rotationInv) (hev.mono fun x hx => by simp only [hx]),
      V3C4.congr ((polarise_c4 f.polAngle hb2).mulVec f.rotationInv) (hev.mono fun x hx => by simp only [hx])⟩

theorem width_ext (f : FocusField ℝ) (hr : f.rayleigh ≠ 0) (p : V3 ℝ) :
    (f.inXR.waist *. Dbl.sqrt ((lit 1 : XR) +. (p.inXR.z /. f.inXR.rayleigh) *. (p.inXR.z /. f.inXR.rayleigh))) =
      fin (f.waist *. Dbl.sqrt (lit 1 +. (p.z /. f.rayleigh) *. (p.z /. f.rayleigh))) := by
  change (fin f.waist *. Dbl.sqrt ((lit 1 : XR) +. (fin p.z /. fin f.rayleigh) *. (fin p.z /. fin f.rayleigh))) = _
  have h1 := mul_self_nonneg (p.z / f.rayleigh)
  rw [div_fin _ _ hr, mul_fin, lit_eq, add_fin, sqrt_fin _ (by push_cast; positivity), mul_fin]
  rfl

theorem envelope_ext (f : FocusField ℝ) (hw : 0 < f.waist) (hr : f.rayleigh ≠ 0) (ht : f.tau ≠ 0) (t : ℝ) (p : V3 ℝ) :
    f.inXR.envelope (fin t) p.inXR = fin (f.envelope t p) := by
  unfold FocusField.envelope
  dsimp only
  rw [width_ext f hr p]
  have hwd := (width_pos hw (p.z / f.rayleigh)).2
  have e : f.waist *. Dbl.sqrt (lit 1 +. (p.z /. f.rayleigh) *. (p.z /. f.rayleigh)) =
      f.waist * Real.sqrt (1 + p.z / f.rayleigh * (p.z / f.rayleigh)) := by simp
  rw [e]
  generalize f.waist * Real.sqrt (1 + p.z / f.rayleigh * (p.z / f.rayleigh)) = w at hwd
  change fin f.maxE *. Dbl.exp ((-. (fin p.x *. fin p.x +. fin p.y *. fin p.y)) /. (fin w *. fin w) -.
    (fin t -. fin f.t0 -. fin p.z) *. (fin t -. fin f.t0 -. fin p.z) /. (fin f.tau *. fin f.tau)) = _
  simp only [mul_fin, sub_fin, add_fin, neg_fin, div_fin _ _ (mul_pos hwd hwd).ne',
    div_fin _ _ (mul_self_ne_zero.2 ht), exp_fin]
  rfl

theorem beamWith_ext (f : FocusField ℝ) (hw : 0 < f.waist) (hr : f.rayleigh ≠ 0) (ht : f.tau ≠ 0) (t : ℝ) (p : V3 ℝ)
    (phi : ℝ) : beamWith f.inXR (fin t) p.inXR (fin phi) =
      ((beamWith f t p phi).1.inXR, (beamWith f t p phi).2.inXR) := by
  unfold beamWith
  dsimp only
  rw [width_ext f hr p, envelope_ext f hw hr ht]
  have hwd : 0 < f.waist *. Dbl.sqrt (lit 1 +. (p.z /. f.rayleigh) *. (p.z /. f.rayleigh)) := by
    have := (width_pos hw (p.z / f.rayleigh)).2
    simpa using this
  generalize f.envelope t p = e0
  generalize f.waist *. Dbl.sqrt (lit 1 +. (p.z /. f.rayleigh) *. (p.z /. f.rayleigh)) = w at hwd
  have e1 : (f.inXR.waist /. fin w) = fin (f.waist / w) := div_fin _ _ hwd.ne'
  have e2 : (p.inXR.x /. f.inXR.waist) = fin (p.x / f.waist) := div_fin _ _ hw.ne'
  have e3 : (p.inXR.y /. f.inXR.waist) = fin (p.y / f.waist) := div_fin _ _ hw.ne'
  have e4 : (p.inXR.z /. f.inXR.rayleigh) = fin (p.z / f.rayleigh) := div_fin _ _ hr
  have e5 : ((p.inXR.x *. p.inXR.x +. p.inXR.y *. p.inXR.y) /. (f.inXR.waist *. f.inXR.waist)) =
      fin ((p.x * p.x + p.y * p.y) / (f.waist * f.waist)) := div_fin _ _ (mul_pos hw hw).ne'
  have e6 : f.inXR.eps = fin f.eps := rfl
  rw [e1, e2, e3, e4, e5, e6]
  have hq := div_pos hw hwd
  have hS : ∀ q : ℚ, Dbl.pow (fin (f.waist / w)) (lit q : XR) *. Dbl.sin (fin phi +. (lit q : XR) *. Dbl.atan (fin (p.z / f.rayleigh))) =
      fin (Dbl.pow (f.waist /. w) (lit q) *. Dbl.sin (phi +. lit q *. Dbl.atan (p.z /. f.rayleigh))) := by
    intro q
    rw [lit_eq, pow_fin _ _ hq, atan_fin, mul_fin, add_fin, sin_fin, mul_fin]
    rfl
  have hC : ∀ q : ℚ, Dbl.pow (fin (f.waist / w)) (lit q : XR) *. Dbl.cos (fin phi +. (lit q : XR) *. Dbl.atan (fin (p.z / f.rayleigh))) =
      fin (Dbl.pow (f.waist /. w) (lit q) *. Dbl.cos (phi +. lit q *. Dbl.atan (p.z /. f.rayleigh))) := by
    intro q
    rw [lit_eq, pow_fin _ _ hq, atan_fin, mul_fin, add_fin, cos_fin, mul_fin]
    rfl
  simp only [hS, hC]
  have r1 : (p.x /. f.waist) = p.x / f.waist := rfl
  have r2 : (p.y /. f.waist) = p.y / f.waist := rfl
  have r3 : ((p.x *. p.x +. p.y *. p.y) /. (f.waist *. f.waist)) = (p.x * p.x + p.y * p.y) / (f.waist * f.waist) := rfl
  rw [r1, r2, r3]
  generalize p.x / f.waist = xe
  generalize p.y / f.waist = ye
  generalize (p.x * p.x + p.y * p.y) / (f.waist * f.waist) = rho2
  generalize f.eps = eps
  generalize Dbl.pow (f.waist /. w) (lit ((0 : ℕ) + 1)) *. _ = s0
  have d2 : ∀ a : ℝ, (fin a /. fin (lit 2 : ℝ)) = fin (a /. lit 2) := fun a => div_fin _ _ (by simp)
  have d4 : ∀ a : ℝ, (fin a /. fin (lit 4 : ℝ)) = fin (a /. lit 4) := fun a => div_fin _ _ (by simp)
  have d8 : ∀ a : ℝ, (fin a /. fin (lit 8 : ℝ)) = fin (a /. lit 8) := fun a => div_fin _ _ (by simp)
  have d16 : ∀ a : ℝ, (fin a /. fin (lit 16 : ℝ)) = fin (a /. lit 16) := fun a => div_fin _ _ (by simp)
  have d32 : ∀ a : ℝ, (fin a /. fin (lit 32 : ℝ)) = fin (a /. lit 32) := fun a => div_fin _ _ (by simp)
  have l5 : (lit 5 : XR) = fin (lit 5 : ℝ) := rfl
  have l16 : (lit 16 : XR) = fin (lit 16 : ℝ) := rfl
  have l2 : (lit 2 : XR) = fin (lit 2 : ℝ) := rfl
  have l4 : (lit 4 : XR) = fin (lit 4 : ℝ) := rfl
  have l8 : (lit 8 : XR) = fin (lit 8 : ℝ) := rfl
  have l32 : (lit 32 : XR) = fin (lit 32 : ℝ) := rfl
  have l0 : (lit 0 : XR) = fin (lit 0 : ℝ) := rfl
  have ad : ∀ a b : ℝ, (fin a +. fin b) = fin (a +. b) := fun _ _ => rfl
  have ml : ∀ a b : ℝ, (fin a *. fin b) = fin (a *. b) := fun _ _ => rfl
  have sb : ∀ a b : ℝ, (fin a -. fin b) = fin (a -. b) := fun a b => sub_fin a b
  have ng : ∀ a : ℝ, (-. fin a) = fin (-. a) := fun _ => rfl
  simp only [d2, d4, d8, d16, d32, l5, l16, l2, l4, l8, l32, l0, ad, ml, sb, ng, V3.inXR]

theorem polarise_ext (a : ℝ) (v : V3 ℝ) :
    FocusField.polarise (fin a) v.inXR = (FocusField.polarise a v).inXR := by
  simp [FocusField.polarise, V3.inXR]

theorem focus_extends (f : FocusField ℝ) (hw : 0 < f.waist) (hr : 1e-99 < f.rayleigh) (ht : f.tau ≠ 0) :
    f.inXR.getField.Extends (focusThroughFocus f) := by
  intro t x
  have hr0 : f.rayleigh ≠ 0 := (lt_trans (by norm_num) hr).ne'
  unfold FocusField.getField focusThroughFocus
  dsimp only
  have e1 : f.inXR.rotation.mulVec x.inXR = (f.rotation.mulVec x).inXR := mulVec_ext x f.rotation
  rw [e1]
  generalize f.rotation.mulVec x = p
  rw [envelope_ext f hw hr0 ht, beamField_eq]
  have e2 : f.inXR.waveNum *. (p.inXR.z -. (p.inXR.x *. p.inXR.x +. p.inXR.y *. p.inXR.y) /.
      ((lit 2 : XR) *. (p.inXR.z +. f.inXR.rayleigh *. f.inXR.rayleigh /. (p.inXR.z +. (lit 1e-99 : XR))))) =
      fin (smoothPhase f p) := by
    change fin f.waveNum *. (fin p.z -. fin (p.x * p.x + p.y * p.y) /.
      ((lit 2 : XR) *. (fin p.z +. fin f.rayleigh *. fin f.rayleigh /. (fin p.z +. (lit 1e-99 : XR))))) = _
    rw [over_curvature hr, sub_fin, mul_fin]
    rfl
  rw [e2, beamWith_ext f hw hr0 ht]
  have e3 : f.inXR.rotationInv = f.rotationInv.inXR := rfl
  have e4 : f.inXR.polAngle = fin f.polAngle := rfl
  have e5 : (fin (f.envelope t p) <. (lit 1e-15 : XR)) = decide (f.envelope t p < 1e-15) := by
    rw [lit_eq, lt_fin]
    norm_num
  rw [e3, e4, e5, polarise_ext, polarise_ext, mulVec_ext, mulVec_ext]
  have z0 : (⟨lit 0, lit 0, lit 0⟩ : V3 XR) = V3.inXR ⟨0, 0, 0⟩ := by simp [V3.inXR]
  rw [z0]
  by_cases h : f.envelope t p < 1e-15
  · simp only [h, decide_true, if_true]
  · simp only [h, decide_false, Bool.false_eq_true, if_false]

end Extended

end QED
