import Verif.Lemmas.FocalPlane
import Verif.Lemmas.LocalMotion
import Mathlib.Analysis.Real.Pi.Bounds

set_option autoImplicit false

/-!
# Property C121: through the focus of the pulses, and at the edge of the focused pulse

In the focal plane the code divides by zero, so the statements here are about arithmetic with infinities (`XR`).
-/

namespace QED

open Dbl XR Set Matrix Extended

/-- The track computed in arithmetic with infinities stays real and follows the motion `y` over the time `T` to fourth
order. -/
def FourthOrderX (push : PushMom XR) (field : Field XR) (p : Particle ℝ) (T : ℝ) (y : ℝ → Phase) : Prop :=
  ∃ C δ, 0 < δ ∧ ∀ dt, 0 ≤ dt → dt ≤ δ → ∀ n : Nat, n * dt ≤ T →
    ∃ r : Particle ℝ, (pushParticle push field (.fin dt))^[n] p.inXR = r.inXR ∧ r.time = p.time + n * dt ∧
    ∀ i, |r.position.toVec i - (y r.time).1 i| ≤ C * dt ^ 4 ∧ |r.momentum.toVec i - (y r.time).2 i| ≤ C * dt ^ 4

theorem fourthOrderX_of {field : Field XR} {field' : Field ℝ} (hf : Field.Extends field field') {p : Particle ℝ}
    (hm : 0 < p.mass) (hk : p.kind ≠ .photon) {T : ℝ} {y : ℝ → Phase} (h : FourthOrder lorentzForce field' p T y) :
    FourthOrderX lorentzForce field p T y := by
  obtain ⟨C, δ, hδ, h⟩ := h
  refine ⟨C, δ, hδ, fun dt h0 h1 n hn => ⟨_, track_ext hf dt p hm hk (fun k e b => lorentzForce_ext hm.ne' _ k e b) n, ?_⟩⟩
  exact h dt h0 h1 n hn

/-- C121 for the Gaussian pulse, through its focus too: there is one field with four continuous derivatives everywhere
whose values the code computes at every time and place, and the computed track of every living lepton follows its motion
in that field to fourth order. -/
theorem C121_gauss (f : GaussField ℝ) (hw : 0 < f.waist) (hr : 1e-99 < f.waveNum * f.waist * f.waist / 2)
    (ht : f.tau ≠ 0) :
    ∃ field : Field ℝ, FieldC4 field univ ∧ f.inXR.getField.Extends field ∧
      ∀ (p : Particle ℝ) (T : ℝ) (y : ℝ → Phase), p.isAlive = true → 0 < p.mass → p.kind ≠ .photon →
        y p.time = (p.position.toVec, p.momentum.toVec) →
        (∀ s ∈ Icc p.time (p.time + T),
          HasDerivWithinAt y (motion p.mass (lorentz p.mass p.charge field) s (y s)) (Icc p.time (p.time + T)) s) →
        FourthOrderX lorentzForce f.inXR.getField p T y := by
  have hx := gauss_extends f hw hr ht
  have hc := (C121_gauss_focus_partial f hw hr).1
  exact ⟨_, hc, hx, fun p T y ha hm hk h0 hy =>
    fourthOrderX_of hx hm hk (C121_lorentz isOpen_univ hc p ha hm h0 hy fun _ _ => mem_univ _)⟩

/-- C121 for the focused pulse, through its focus too, for leptons that stay off the surface at which the code cuts the
pulse off. -/
theorem C121_focusing_focus_partial (f : FocusField ℝ) (hw : 0 < f.waist) (hr : 1e-99 < f.rayleigh) (ht : f.tau ≠ 0) :
    ∃ field : Field ℝ, FieldC4 field {z | f.envelope z.1 (f.rotation.mulVec (V3.ofVec z.2)) ≠ 1e-15} ∧
      f.inXR.getField.Extends field ∧
      ∀ (p : Particle ℝ) (T : ℝ) (y : ℝ → Phase), p.isAlive = true → 0 < p.mass → p.kind ≠ .photon →
        y p.time = (p.position.toVec, p.momentum.toVec) →
        (∀ s ∈ Icc p.time (p.time + T),
          HasDerivWithinAt y (motion p.mass (lorentz p.mass p.charge field) s (y s)) (Icc p.time (p.time + T)) s) →
        (∀ s ∈ Icc p.time (p.time + T), f.envelope s (f.rotation.mulVec (V3.ofVec (y s).1)) ≠ 1e-15) →
        FourthOrderX lorentzForce f.inXR.getField p T y := by
  have hx := focus_extends f hw hr ht
  have hc := focusThroughFocus_c4 f hw hr
  have hU : IsOpen {z : ℝ × (Fin 3 → ℝ) | f.envelope z.1 (f.rotation.mulVec (V3.ofVec z.2)) ≠ 1e-15} :=
    isOpen_ne_fun (continuous_iff_continuousAt.2 fun z =>
      (envelope_c4 f hw ((V3C4.position z).mulVec f.rotation)).continuousAt) continuous_const
  exact ⟨_, hc, hx, fun p T y ha hm hk h0 hy hs => fourthOrderX_of hx hm hk (C121_lorentz hU hc p ha hm h0 hy hs)⟩

/-- The hypotheses of `C121_gauss` are met by an electron that starts in the focal plane itself and leaves it. -/
example : ∃ (f : GaussField ℝ) (p : Particle ℝ) (T : ℝ) (y : ℝ → Phase), f.maxE ≠ 0 ∧ p.charge = -1 ∧
    (f.rotation.mulVec p.position).z + 1e-99 = 0 ∧ p.momentum.z ≠ 0 ∧ 0 < T ∧
    FourthOrderX lorentzForce f.inXR.getField p T y := by
  have hr : (1e-99 : ℝ) < 1 * 1 * 1 / 2 := by norm_num
  obtain ⟨field, hc, -, h⟩ := C121_gauss ⟨1, 1, 1, 1, 0, 1, ⟨1, 0, 0, 0, 1, 0, 0, 0, 1⟩, ⟨1, 0, 0, 0, 1, 0, 0, 0, 1⟩,
    ⟨0, 0, -1⟩, ⟨0, 0, 0⟩⟩ one_pos hr one_ne_zero
  have hm : (0 : ℝ) < (Particle.newLepton 1 (-1) ⟨1, 0, -1e-99⟩ ⟨0, 0, 1⟩ 1 0 false 0 : Particle ℝ).mass := one_pos
  obtain ⟨T, y, hT, h0, hy, -⟩ := local_motion isOpen_univ hc hm (-1) 0
    ((⟨1, 0, -1e-99⟩ : V3 ℝ).toVec, (⟨0, 0, 1⟩ : V3 ℝ).toVec) (mem_univ _)
  refine ⟨_, Particle.newLepton 1 (-1) ⟨1, 0, -1e-99⟩ ⟨0, 0, 1⟩ 1 0 false 0, T, y, one_ne_zero, rfl, ?_, one_ne_zero, hT,
    h _ T y rfl hm ?_ h0 hy⟩
  · simp [M3.mulVec, M3.acc3, Particle.newLepton, Particle.new]
  · simp [Particle.newLepton, Particle.new, Particle.leptonKind]

/-- The hypotheses of `C121_focusing_focus_partial` are met by an electron that starts in the focal plane, inside the
pulse. -/
example : ∃ (f : FocusField ℝ) (p : Particle ℝ) (T : ℝ) (y : ℝ → Phase), f.maxE ≠ 0 ∧ p.charge = -1 ∧
    (f.rotation.mulVec p.position).z + 1e-99 = 0 ∧ p.momentum.z ≠ 0 ∧ 0 < T ∧
    FourthOrderX lorentzForce f.inXR.getField p T y := by
  have hr : (1e-99 : ℝ) < 1 := by norm_num
  obtain ⟨field, hc, -, h⟩ := C121_focusing_focus_partial ⟨1, 1, 1, 1, 0, 1, 1, 1, 0, ⟨1, 0, 0, 0, 1, 0, 0, 0, 1⟩,
    ⟨1, 0, 0, 0, 1, 0, 0, 0, 1⟩⟩ one_pos hr one_ne_zero
  have hU : IsOpen {z : ℝ × (Fin 3 → ℝ) | (⟨1, 1, 1, 1, 0, 1, 1, 1, 0, ⟨1, 0, 0, 0, 1, 0, 0, 0, 1⟩,
      ⟨1, 0, 0, 0, 1, 0, 0, 0, 1⟩⟩ : FocusField ℝ).envelope z.1
        ((⟨1, 0, 0, 0, 1, 0, 0, 0, 1⟩ : M3 ℝ).mulVec (V3.ofVec z.2)) ≠ 1e-15} :=
    isOpen_ne_fun (continuous_iff_continuousAt.2 fun z =>
      (envelope_c4 _ one_pos ((V3C4.position z).mulVec _)).continuousAt) continuous_const
  have hm : (0 : ℝ) < (Particle.newLepton 1 (-1) ⟨0, 0, -1e-99⟩ ⟨0, 0, 1⟩ 1 0 false 0 : Particle ℝ).mass := one_pos
  obtain ⟨T, y, hT, h0, hy, hmem⟩ := local_motion hU hc hm (-1) 0
    ((⟨0, 0, -1e-99⟩ : V3 ℝ).toVec, (⟨0, 0, 1⟩ : V3 ℝ).toVec) (by
      have e : V3.ofVec (⟨0, 0, -1e-99⟩ : V3 ℝ).toVec = ⟨0, 0, -1e-99⟩ := rfl
      change FocusField.envelope _ _ _ ≠ _
      rw [e]
      simp only [FocusField.envelope, M3.mulVec, M3.acc3, real_add, real_mul, real_sub, real_div, real_neg, real_exp,
        real_lit, real_sqrt]
      norm_num
      have := Real.add_one_le_exp (-(1 / 10 ^ 198 : ℝ))
      norm_num at this
      intro h
      linarith)
  refine ⟨_, Particle.newLepton 1 (-1) ⟨0, 0, -1e-99⟩ ⟨0, 0, 1⟩ 1 0 false 0, T, y, one_ne_zero, rfl, ?_, one_ne_zero, hT,
    h _ T y rfl hm ?_ h0 hy hmem⟩
  · simp [M3.mulVec, M3.acc3, Particle.newLepton, Particle.new]
  · simp [Particle.newLepton, Particle.new, Particle.leptonKind]

namespace CutWitness

/-- A pulse along z whose envelope at the place `(0, 0, 1)` reaches the cut-off at time one. -/
noncomputable def pulse : FocusField ℝ :=
  FocusField.new (1e-15 * Real.exp 1) (2 * Units.pi) 1 2 0 ⟨0, 0, -1⟩ ⟨0, 0, 0⟩

/-- An electron at rest there at time zero. -/
noncomputable def electron : Particle ℝ := Particle.newLepton 1 (-1) ⟨0, 0, 1⟩ ⟨0, 0, 0⟩ 1 0 false 0

theorem pi_ne : (Units.pi : ℝ) ≠ 0 := by
  simp only [Units.pi, real_lit]
  norm_num

theorem rot : (⟨0, 0, 1⟩ : V3 ℝ).rotateToAxis V3.ez = ⟨1, 0, 0, 0, 1, 0, 0, 0, 1⟩ := by
  have h1 : V3.norm (⟨0, 0, 1⟩ : V3 ℝ) = ⟨0, 0, 1⟩ := by simp [V3.norm, V3.divs, V3.mag, V3.dot]
  have h2 : V3.norm (V3.ez : V3 ℝ) = ⟨0, 0, 1⟩ := by simp [V3.ez, V3.norm, V3.divs, V3.mag, V3.dot]
  unfold V3.rotateToAxis
  rw [h1, h2]
  have h3 : (((⟨0, 0, 1⟩ : V3 ℝ).add ⟨0, 0, 1⟩).mag2 <=. (lit 1e-10 : ℝ)) = false := by
    simp [V3.add, V3.mag2, V3.dot]
    norm_num
  rw [h3]
  simp [V3.cross, V3.dot, skewMat, M3.zeros, M3.ideneity, M3.add, M3.mul, M3.muls, M3.acc3]

theorem pulse_eq : pulse =
    { maxE := 1e-15 * Real.exp 1, waveLength := 2 * Units.pi, tau := 1, waist := 2, polAngle := 0,
      waveNum := 1, rayleigh := 2, eps := 1, t0 := 1, rotation := ⟨1, 0, 0, 0, 1, 0, 0, 0, 1⟩,
      rotationInv := ⟨1, 0, 0, 0, 1, 0, 0, 0, 1⟩ } := by
  have hd : V3.direction (⟨0, 0, -1⟩ : V3 ℝ) ⟨0, 0, 0⟩ = ⟨0, 0, 1⟩ := by simp [V3.direction]
  unfold pulse FocusField.new
  dsimp only
  rw [hd, rot]
  have hw : (lit 2 *. (Units.pi : ℝ) /. (2 * Units.pi)) = 1 := by
    simpa using pi_ne
  rw [hw]
  simp [V3.mag, V3.sub, V3.dot, M3.inverse, M3.det, M3.muls]

theorem envelope_at (t : ℝ) : pulse.envelope t ⟨0, 0, 1⟩ = 1e-15 * Real.exp (1 - (t - 2) * (t - 2)) := by
  rw [pulse_eq]
  simp only [FocusField.envelope, real_mul, real_exp, real_sub, real_div, real_neg, real_add]
  rw [mul_assoc, ← Real.exp_add]
  congr 2
  ring_nf

theorem rot_at : pulse.rotation.mulVec (⟨0, 0, 1⟩ : V3 ℝ) = ⟨0, 0, 1⟩ := by
  rw [pulse_eq]
  simp [M3.mulVec, M3.acc3]

/-- There is no field at the electron's place before time one. -/
theorem before {t : ℝ} (h : t < 1) : pulse.getField t ⟨0, 0, 1⟩ = (⟨0, 0, 0⟩, ⟨0, 0, 0⟩) := by
  unfold FocusField.getField
  dsimp only
  rw [rot_at, envelope_at]
  have h1 : Real.exp (1 - (t - 2) * (t - 2)) < 1 := Real.exp_lt_one_iff.2 (by nlinarith)
  have h2 : ((1e-15 * Real.exp (1 - (t - 2) * (t - 2))) <. (lit 1e-15 : ℝ)) = true := by
    simp only [real_lt, real_lit, decide_eq_true_eq]
    push_cast
    nlinarith
  rw [h2]
  simp

/-- At time one there is a field across the beam. -/
theorem after : ∃ (E B : ℝ), 0 < E ∧ pulse.getField 1 ⟨0, 0, 1⟩ = (⟨E, 0, 0⟩, ⟨0, B, 0⟩) := by
  unfold FocusField.getField
  dsimp only
  rw [rot_at, envelope_at]
  have h2 : ((1e-15 * Real.exp (1 - (1 - 2) * (1 - 2))) <. (lit 1e-15 : ℝ)) = false := by
    simp only [real_lt, real_lit, decide_eq_false_iff_not]
    norm_num
  rw [h2]
  have a0 : 0 < Real.arctan (1 / 2) := Real.arctan_pos.2 (by norm_num)
  have a1 : Real.arctan (1 / 2) ≤ 1 / 2 := by
    have := Real.lt_tan a0 (Real.arctan_lt_pi_div_two _)
    rw [Real.tan_arctan] at this
    exact this.le
  have p3 := Real.pi_gt_three
  have s1 : 0 < Real.sin (1 + Real.arctan (1 / 2)) := Real.sin_pos_of_pos_of_lt_pi (by linarith) (by linarith)
  have s3 : 0 < Real.sin (1 + 3 * Real.arctan (1 / 2)) := Real.sin_pos_of_pos_of_lt_pi (by linarith) (by linarith)
  have q0 : (0 : ℝ) < 2 / (2 * Real.sqrt (1 + 1 / 2 * (1 / 2))) := by positivity
  generalize hq : (2 : ℝ) / (2 * Real.sqrt (1 + 1 / 2 * (1 / 2))) = q at q0
  simp only [Bool.false_eq_true, if_false]
  rw [pulse_eq]
  simp only [FocusField.beamField, FocusField.envelope, FocusField.polarise, M3.mulVec, M3.acc3, real_add, real_mul,
    real_sub, real_div, real_neg, real_sqrt, real_exp, real_cos, real_sin, real_pow, real_atan, real_lit, Rat.cast_zero, Rat.cast_one,
    Rat.cast_ofNat, zero_mul, mul_zero, zero_div, add_zero, zero_add, sub_zero, one_mul, mul_one, Real.cos_zero, Real.sin_zero,
    neg_zero, hq]
  refine ⟨_, _, ?_, rfl⟩
  norm_num
  positivity

/-- A step of a particle at rest that meets a field only at its end. -/
theorem rest_step {field : Field ℝ} {s dt : ℝ} {x e b : V3 ℝ} (h1 : field s x = (⟨0, 0, 0⟩, ⟨0, 0, 0⟩))
    (h2 : field (s + dt / 2) x = (⟨0, 0, 0⟩, ⟨0, 0, 0⟩)) (h3 : field (s + dt) x = (e, b)) :
    rk4 lorentzForce field dt 1 (-1) s x ⟨0, 0, 0⟩ = (x, ⟨-(dt / 6 * e.x), -(dt / 6 * e.y), -(dt / 6 * e.z)⟩) := by
  have l : ∀ e b : V3 ℝ, lorentzForce 1 (-1) ⟨0, 0, 0⟩ e b = ⟨-e.x, -e.y, -e.z⟩ := by
    intro e b
    simp [lorentzForce, V3.smul, V3.add, V3.cross, V3.divs]
  have v : pushPosition (1 : ℝ) ⟨0, 0, 0⟩ = ⟨0, 0, 0⟩ := by simp [pushPosition, V3.divs]
  have d2 : s +. dt /. lit 2 = s + dt / 2 := by simp
  have d1 : s +. dt = s + dt := rfl
  have z1 : (⟨0, 0, 0⟩ : V3 ℝ).divs (lit 2) = ⟨0, 0, 0⟩ := by simp [V3.divs]
  have z2 : V3.muls (⟨0, 0, 0⟩ : V3 ℝ) dt = ⟨0, 0, 0⟩ := by simp [V3.muls]
  have z3 : x.add (⟨0, 0, 0⟩ : V3 ℝ) = x := by simp [V3.add]
  have z4 : (⟨0, 0, 0⟩ : V3 ℝ).add ⟨0, 0, 0⟩ = ⟨0, 0, 0⟩ := by simp [V3.add]
  have z5 : (⟨-0, -0, -0⟩ : V3 ℝ) = ⟨0, 0, 0⟩ := by simp
  have z6 : V3.smul (lit 2 : ℝ) ⟨0, 0, 0⟩ = ⟨0, 0, 0⟩ := by simp [V3.smul]
  unfold rk4
  simp only [d2, d1, v, z1, z2, z3, h1, h2, h3, l, z5, z4, z6]
  refine Prod.ext ?_ ?_
  · simp [V3.smul, V3.add]
  · simp [V3.smul, V3.add]

/-- The electron at a later time. -/
noncomputable def at_ (s : ℝ) : Particle ℝ := { electron with time := s }

theorem step_before {s dt : ℝ} (h0 : 0 ≤ dt) (h : s + dt < 1) :
    pushParticle lorentzForce pulse.getField dt (at_ s) = at_ (s + dt) := by
  have r := rest_step (field := pulse.getField) (before (t := s) (by linarith)) (before (t := s + dt / 2) (by linarith)) (before h)
  unfold pushParticle
  have hm : ((at_ s).mass ==. (lit 0 : ℝ)) = false := by simp [at_, electron, Particle.newLepton, Particle.new]
  have ha : (at_ s).isAlive = true := rfl
  have hr : rk4 lorentzForce pulse.getField dt (at_ s).mass (at_ s).charge (at_ s).time (at_ s).position (at_ s).momentum =
    (⟨0, 0, 1⟩, ⟨-(dt / 6 * 0), -(dt / 6 * 0), -(dt / 6 * 0)⟩) := r
  rw [hm, ha, hr]
  simp [Particle.updateTrack, Particle.updateTime, at_, electron, Particle.newLepton, Particle.new]

theorem steps_before {n : ℕ} {dt : ℝ} (h0 : 0 ≤ dt) (h : n * dt < 1) :
    (pushParticle lorentzForce pulse.getField dt)^[n] electron = at_ (n * dt) := by
  induction n with
  | zero => simp [at_, electron, Particle.newLepton, Particle.new]
  | succ n ih =>
    push_cast at h ⊢
    rw [Function.iterate_succ_apply', ih (by nlinarith), step_before h0 (by linarith)]
    exact congrArg at_ (by ring)

theorem last_step {E B : ℝ} (hE : pulse.getField 1 ⟨0, 0, 1⟩ = (⟨E, 0, 0⟩, ⟨0, B, 0⟩)) {s dt : ℝ} (h0 : 0 < dt)
    (h : s + dt = 1) :
    (pushParticle lorentzForce pulse.getField dt (at_ s)).momentum = ⟨-(dt / 6 * E), 0, 0⟩ := by
  have r := rest_step (field := pulse.getField) (before (t := s) (by linarith)) (before (t := s + dt / 2) (by linarith))
    (show pulse.getField (s + dt) _ = ((⟨E, 0, 0⟩ : V3 ℝ), (⟨0, B, 0⟩ : V3 ℝ)) by rw [h]; exact hE)
  unfold pushParticle
  have hm : ((at_ s).mass ==. (lit 0 : ℝ)) = false := by simp [at_, electron, Particle.newLepton, Particle.new]
  have ha : (at_ s).isAlive = true := rfl
  have hr : rk4 lorentzForce pulse.getField dt (at_ s).mass (at_ s).charge (at_ s).time (at_ s).position (at_ s).momentum =
    (⟨0, 0, 1⟩, ⟨-(dt / 6 * E), -(dt / 6 * 0), -(dt / 6 * 0)⟩) := r
  rw [hm, ha, hr]
  simp [Particle.updateTrack, Particle.updateTime, at_, electron, Particle.newLepton, Particle.new]

theorem at_cut {E B : ℝ} (hE : pulse.getField 1 ⟨0, 0, 1⟩ = (⟨E, 0, 0⟩, ⟨0, B, 0⟩)) {n : ℕ} (hn : 0 < n) :
    ((pushParticle lorentzForce pulse.getField (1 / n))^[n] electron).momentum = ⟨-(E / 6 / n), 0, 0⟩ := by
  obtain ⟨k, rfl⟩ : ∃ k, n = k + 1 := ⟨n - 1, by omega⟩
  have hp : (0 : ℝ) < ((k + 1 : ℕ) : ℝ) := by exact_mod_cast hn
  have hk : (k : ℝ) * (1 / ((k + 1 : ℕ) : ℝ)) + 1 / ((k + 1 : ℕ) : ℝ) = 1 := by
    field_simp
    push_cast
    ring
  have h0 : (0 : ℝ) < 1 / ((k + 1 : ℕ) : ℝ) := by positivity
  rw [Function.iterate_succ_apply', steps_before h0.le (by linarith), last_step hE h0 hk]
  congr 2
  ring

/-- Being at rest is a motion of the electron until then. -/
theorem rests (s : ℝ) (hs : s < 1) (S : Set ℝ) : HasDerivWithinAt (fun _ : ℝ => ((![0, 0, 1], 0) : Phase))
    (motion 1 (lorentz 1 (-1) pulse.getField) s (![0, 0, 1], 0)) S s := by
  have : motion 1 (lorentz 1 (-1) pulse.getField) s (![0, 0, 1], 0) = 0 := by
    have e : V3.ofVec ![0, 0, 1] = ⟨0, 0, 1⟩ := rfl
    simp only [motion, velocity, lorentz, electric, magnetic, e, before hs]
    refine Prod.ext ?_ ?_
    · simp
    · funext i
      fin_cases i <;> simp [V3.toVec]
  rw [this]
  exact hasDerivWithinAt_const _ _ _

end CutWitness

open CutWitness in
/-- C121 is false of the focused pulse where the code cuts it off. The electron of the witness is at rest in a place
that the pulse reaches, by the code's cut-off, at time one. Being at rest solves its equations of motion at all times
before; the momentum computed for time one in `n` steps is off by a constant times the step `1 / n`. -/
theorem C121_cut_refuted :
    ∃ (f : FocusField ℝ) (p : Particle ℝ) (y : ℝ → Phase) (c : ℝ),
      f = FocusField.new (1e-15 * Real.exp 1) (2 * Units.pi) 1 2 0 ⟨0, 0, -1⟩ ⟨0, 0, 0⟩ ∧
      p = Particle.newLepton 1 (-1) ⟨0, 0, 1⟩ ⟨0, 0, 0⟩ 1 0 false 0 ∧
      y p.time = (p.position.toVec, p.momentum.toVec) ∧ ContinuousOn y (Icc 0 1) ∧
      (∀ s ∈ Ico (0 : ℝ) 1,
        HasDerivWithinAt y (motion p.mass (lorentz p.mass p.charge f.getField) s (y s)) (Icc 0 1) s) ∧
      c ≠ 0 ∧
      (∀ n : ℕ, 0 < n →
        ((pushParticle lorentzForce f.getField (1 / n))^[n] p).momentum.toVec 0 - (y 1).2 0 = c * (1 / n)) ∧
      ¬ FourthOrder lorentzForce f.getField p 1 y := by
  obtain ⟨E, B, hE, hf⟩ := after
  have hc : ∀ n : ℕ, 0 < n → ((pushParticle lorentzForce pulse.getField (1 / n))^[n] electron).momentum.toVec 0 -
      ((![0, 0, 1], 0) : Phase).2 0 = -(E / 6) * (1 / n) := by
    intro n hn
    rw [at_cut hf hn]
    simp [V3.toVec]
    ring
  refine ⟨pulse, electron, fun _ => (![0, 0, 1], 0), -(E / 6), rfl, rfl, ?_, continuousOn_const, ?_, ?_, hc, ?_⟩
  · refine Prod.ext ?_ ?_
    · rfl
    · funext i
      fin_cases i <;> rfl
  · exact fun s hs => rests s hs.2 _
  · intro h
    linarith
  · rintro ⟨C, δ, hδ, h⟩
    obtain ⟨n, hn⟩ := exists_nat_gt (max (1 / δ) (6 * |C| / E + 1))
    have h1 : 1 / δ < n := lt_of_le_of_lt (le_max_left _ _) hn
    have h2 : 6 * |C| / E + 1 < n := lt_of_le_of_lt (le_max_right _ _) hn
    have hq : 0 ≤ 6 * |C| / E := by positivity
    have hn1 : (1 : ℝ) < n := by linarith
    have hn0 : 0 < n := by
      have : (0 : ℝ) < n := by linarith
      exact_mod_cast this
    have hnp : (0 : ℝ) < n := by linarith
    have hd : (1 : ℝ) / n ≤ δ := by
      rw [div_le_iff₀ hnp]
      rw [div_lt_iff₀ hδ] at h1
      linarith
    have hk := (h (1 / n) (by positivity) hd n (by rw [mul_one_div_cancel hnp.ne'])).2 0
    have hk := hk.2
    have e := hc n hn0
    dsimp only at e hk
    rw [e, abs_mul, abs_neg, abs_of_pos (by positivity : 0 < E / 6), abs_of_pos (by positivity : (0 : ℝ) < 1 / n)] at hk
    -- `E / 6 ≤ C / n³`
    have h3 : E / 6 * (n : ℝ) ^ 3 ≤ C := by
      have := mul_le_mul_of_nonneg_right hk (by positivity : (0 : ℝ) ≤ (n : ℝ) ^ 4)
      have e1 : C * (1 / (n : ℝ)) ^ 4 * (n : ℝ) ^ 4 = C := by field_simp
      have e2 : E / 6 * (1 / (n : ℝ)) * (n : ℝ) ^ 4 = E / 6 * (n : ℝ) ^ 3 := by field_simp
      linarith
    have h4 : (n : ℝ) ≤ (n : ℝ) ^ 3 := by nlinarith [mul_pos hnp hnp]
    have h5 : 6 * |C| < n * E := by
      have : 6 * |C| / E < n := by linarith
      rwa [div_lt_iff₀ hE] at this
    have h6 := le_abs_self C
    nlinarith

end QED
