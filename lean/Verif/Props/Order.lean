import Verif.Spec.Reaction
import Verif.Lemmas.RungeKuttaGlobal
import Verif.Props.Convergence
import Mathlib.Analysis.SpecialFunctions.Sqrt
import Mathlib.Analysis.SpecialFunctions.Pow.Deriv
import Mathlib.Analysis.SpecialFunctions.Log.Deriv

set_option autoImplicit false

/-!
# Property C121: the pushers are of fourth order
-/

namespace QED

open Dbl Matrix Set

/-- The computed track of `p` under a pusher follows the motion `y` over the time `T` to fourth order: for steps
`dt` below some size, no component of the position or momentum after `n` pushes, with `n dt` at most `T`, is off by
more than a constant times `dt⁴`. -/
def FourthOrder (push : PushMom ℝ) (field : Field ℝ) (p : Particle ℝ) (T : ℝ) (y : ℝ → Phase) : Prop :=
  ∃ C δ, 0 < δ ∧ ∀ dt, 0 ≤ dt → dt ≤ δ → ∀ n : Nat, n * dt ≤ T →
    let r := (pushParticle push field dt)^[n] p
    r.time = p.time + n * dt ∧
    ∀ i, |r.position.toVec i - (y r.time).1 i| ≤ C * dt ^ 4 ∧ |r.momentum.toVec i - (y r.time).2 i| ≤ C * dt ^ 4

/-- The equations of motion in the form the code solves them. -/
noncomputable def codeMotion (push : PushMom ℝ) (field : Field ℝ) (m q : ℝ) : ℝ → Phase → Phase :=
  motion m fun s x k => (push m q (V3.ofVec k) (field s (V3.ofVec x)).1 (field s (V3.ofVec x)).2).toVec

theorem fourthOrder_of (push : PushMom ℝ) (field : Field ℝ) (p : Particle ℝ) (ha : p.isAlive = true) (hm : 0 < p.mass)
    {W : Set (ℝ × Phase)} (hW : IsOpen W)
    (hf : ContDiffOn ℝ 4 (fun z : ℝ × Phase => codeMotion push field p.mass p.charge z.1 z.2) W) {T : ℝ} {y : ℝ → Phase}
    (hy0 : y p.time = (p.position.toVec, p.momentum.toVec))
    (hy : ∀ s ∈ Icc p.time (p.time + T),
      HasDerivWithinAt y (codeMotion push field p.mass p.charge s (y s)) (Icc p.time (p.time + T)) s)
    (hmem : ∀ s ∈ Icc p.time (p.time + T), (s, y s) ∈ W) : FourthOrder push field p T y := by
  obtain ⟨C, δ, hδ, h⟩ := rk_fourth hW hf hy hmem
  refine ⟨C, δ, hδ, fun dt h0 h1 n hn => ?_⟩
  obtain ⟨c1, c2, -⟩ := C103_pushes push field dt p ha hm n
  refine ⟨c2, ?_⟩
  have := h dt h0 h1 n hn
  rw [hy0] at this
  unfold codeMotion at this
  rw [← c1, ← c2] at this
  intro i
  have f1 := (norm_fst_le _).trans this
  have f2 := (norm_snd_le _).trans this
  exact ⟨(norm_le_pi_norm _ i).trans f1, (norm_le_pi_norm _ i).trans f2⟩

theorem momentum_contDiff (i : Fin 3) : ContDiff ℝ 4 fun z : ℝ × Phase => z.2.2 i :=
  (contDiff_apply ℝ ℝ i).comp (contDiff_snd.comp contDiff_snd)

theorem dot_contDiff : ContDiff ℝ 4 fun z : ℝ × Phase => z.2.2 ⬝ᵥ z.2.2 := by
  have : (fun z : ℝ × Phase => z.2.2 ⬝ᵥ z.2.2) =
      fun z => z.2.2 0 * z.2.2 0 + z.2.2 1 * z.2.2 1 + z.2.2 2 * z.2.2 2 := by
    funext z
    simp [dotProduct, Fin.sum_univ_three]
  rw [this]
  have h := momentum_contDiff
  exact (((h 0).mul (h 0)).add ((h 1).mul (h 1))).add ((h 2).mul (h 2))

theorem dot_self_nonneg (p : Fin 3 → ℝ) : 0 ≤ p ⬝ᵥ p := by
  simp [dotProduct, Fin.sum_univ_three]
  nlinarith [mul_self_nonneg (p 0), mul_self_nonneg (p 1), mul_self_nonneg (p 2)]

theorem dot_self_pos {p : Fin 3 → ℝ} (hp : p ≠ 0) : 0 < p ⬝ᵥ p := by
  rcases (dot_self_nonneg p).lt_or_eq with h | h
  · exact h
  · exfalso
    apply hp
    simp only [dotProduct, Fin.sum_univ_three] at h
    have h0 := mul_self_nonneg (p 0)
    have h1 := mul_self_nonneg (p 1)
    have h2 := mul_self_nonneg (p 2)
    have e0 : p 0 = 0 := mul_self_eq_zero.1 (by linarith)
    have e1 : p 1 = 0 := mul_self_eq_zero.1 (by linarith)
    have e2 : p 2 = 0 := mul_self_eq_zero.1 (by linarith)
    funext i
    fin_cases i
    · exact e0
    · exact e1
    · exact e2

theorem velocity_contDiff {m : ℝ} (hm : 0 < m) : ContDiff ℝ 4 fun z : ℝ × Phase => velocity m z.2.2 := by
  unfold velocity
  have h1 : ContDiff ℝ 4 fun z : ℝ × Phase => Real.sqrt (m ^ 2 + z.2.2 ⬝ᵥ z.2.2) := by
    refine (contDiff_const.add dot_contDiff).sqrt fun z => ?_
    have := dot_self_nonneg z.2.2
    positivity
  refine (h1.inv fun z => ?_).smul (contDiff_snd.comp contDiff_snd)
  have := dot_self_nonneg z.2.2
  positivity

section Smooth

variable {field : Field ℝ} {U : Set (ℝ × (Fin 3 → ℝ))}

theorem field_at (hU : IsOpen U) (hf : FieldC4 field U) {z : ℝ × Phase} (hz : (z.1, z.2.1) ∈ U) :
    ContDiffAt ℝ 4 (fun z : ℝ × Phase => electric field z.1 z.2.1) z ∧
    ContDiffAt ℝ 4 (fun z : ℝ × Phase => magnetic field z.1 z.2.1) z := by
  have hp : ContDiffAt ℝ 4 (fun z : ℝ × Phase => (z.1, z.2.1)) z :=
    (contDiff_fst.prodMk (contDiff_fst.comp contDiff_snd)).contDiffAt
  exact ⟨ContDiffAt.comp (g := fun z : ℝ × (Fin 3 → ℝ) => electric field z.1 z.2) z
      (hf.1.contDiffAt (hU.mem_nhds hz)) hp,
    ContDiffAt.comp (g := fun z : ℝ × (Fin 3 → ℝ) => magnetic field z.1 z.2) z
      (hf.2.contDiffAt (hU.mem_nhds hz)) hp⟩

theorem lorentz_at (hU : IsOpen U) (hf : FieldC4 field U) {m : ℝ} (hm : 0 < m) (q : ℝ) {z : ℝ × Phase}
    (hz : (z.1, z.2.1) ∈ U) : ContDiffAt ℝ 4 (fun z : ℝ × Phase => lorentz m q field z.1 z.2.1 z.2.2) z := by
  obtain ⟨hE, hB⟩ := field_at hU hf hz
  unfold lorentz
  have hv : ContDiffAt ℝ 4 (fun z : ℝ × Phase => velocity m z.2.2) z := (velocity_contDiff hm).contDiffAt
  have hc : ContDiffAt ℝ 4 (fun z : ℝ × Phase => velocity m z.2.2 ⨯₃ magnetic field z.1 z.2.1) z := by
    have v := contDiffAt_pi.1 hv
    have b := contDiffAt_pi.1 hB
    refine contDiffAt_pi.2 fun i => ?_
    fin_cases i
    · exact (((v 1).mul (b 2)).sub ((v 2).mul (b 1))).congr_of_eventuallyEq
        (Filter.Eventually.of_forall fun z => by simp [cross_apply])
    · exact (((v 2).mul (b 0)).sub ((v 0).mul (b 2))).congr_of_eventuallyEq
        (Filter.Eventually.of_forall fun z => by simp [cross_apply])
    · exact (((v 0).mul (b 1)).sub ((v 1).mul (b 0))).congr_of_eventuallyEq
        (Filter.Eventually.of_forall fun z => by simp [cross_apply])
  exact (hE.add hc).const_smul q

/-- The square under the root in eta. -/
noncomputable def etaSq (m : ℝ) (field : Field ℝ) (t : ℝ) (x p : Fin 3 → ℝ) : ℝ :=
  (Real.sqrt (1 + p ⬝ᵥ p / m ^ 2) * electric field t x 0 +
      (m⁻¹ * p 1 * magnetic field t x 2 - m⁻¹ * p 2 * magnetic field t x 1)) ^ 2 +
    (Real.sqrt (1 + p ⬝ᵥ p / m ^ 2) * electric field t x 1 +
      (m⁻¹ * p 2 * magnetic field t x 0 - m⁻¹ * p 0 * magnetic field t x 2)) ^ 2 +
    (Real.sqrt (1 + p ⬝ᵥ p / m ^ 2) * electric field t x 2 +
      (m⁻¹ * p 0 * magnetic field t x 1 - m⁻¹ * p 1 * magnetic field t x 0)) ^ 2 -
    (m⁻¹ * p 0 * electric field t x 0 + m⁻¹ * p 1 * electric field t x 1 + m⁻¹ * p 2 * electric field t x 2) ^ 2

theorem etaAt_eq (m : ℝ) (field : Field ℝ) (t : ℝ) (x p : Fin 3 → ℝ) :
    etaAt m field t x p = Real.sqrt (etaSq m field t x p) := by
  rw [etaAt, quantumParameter_eq]
  rfl

theorem etaSq_nonneg {m : ℝ} (hm : 0 < m) (field : Field ℝ) (t : ℝ) (x p : Fin 3 → ℝ) :
    0 ≤ etaSq m field t x p := by
  obtain ⟨g, hg⟩ : ∃ g, g = Real.sqrt (1 + p ⬝ᵥ p / m ^ 2) := ⟨_, rfl⟩
  have hd := dot_self_nonneg p
  have hg2 : g ^ 2 = 1 + ((m⁻¹ * p 0) ^ 2 + (m⁻¹ * p 1) ^ 2 + (m⁻¹ * p 2) ^ 2) := by
    rw [hg, Real.sq_sqrt (by positivity)]
    simp only [dotProduct, Fin.sum_univ_three]
    field_simp
  unfold etaSq
  rw [← hg]
  generalize m⁻¹ * p 0 = u0 at *
  generalize m⁻¹ * p 1 = u1 at *
  generalize m⁻¹ * p 2 = u2 at *
  generalize electric field t x 0 = e0
  generalize electric field t x 1 = e1
  generalize electric field t x 2 = e2
  generalize magnetic field t x 0 = b0
  generalize magnetic field t x 1 = b1
  generalize magnetic field t x 2 = b2
  obtain ⟨w0, h0⟩ : ∃ w, w = g * e0 + (u1 * b2 - u2 * b1) := ⟨_, rfl⟩
  obtain ⟨w1, h1⟩ : ∃ w, w = g * e1 + (u2 * b0 - u0 * b2) := ⟨_, rfl⟩
  obtain ⟨w2, h2⟩ : ∃ w, w = g * e2 + (u0 * b1 - u1 * b0) := ⟨_, rfl⟩
  rw [← h0, ← h1, ← h2]
  have hdot : g * (u0 * e0 + u1 * e1 + u2 * e2) = u0 * w0 + u1 * w1 + u2 * w2 := by
    rw [h0, h1, h2]
    ring
  have hcs : (u0 * w0 + u1 * w1 + u2 * w2) ^ 2 ≤ (u0 ^ 2 + u1 ^ 2 + u2 ^ 2) * (w0 ^ 2 + w1 ^ 2 + w2 ^ 2) := by
    nlinarith [sq_nonneg (u0 * w1 - u1 * w0), sq_nonneg (u1 * w2 - u2 * w1), sq_nonneg (u2 * w0 - u0 * w2)]
  have hgp : 0 < g ^ 2 := by rw [hg2]; positivity
  have key : 0 ≤ g ^ 2 * (w0 ^ 2 + w1 ^ 2 + w2 ^ 2 - (u0 * e0 + u1 * e1 + u2 * e2) ^ 2) := by
    have : g ^ 2 * (u0 * e0 + u1 * e1 + u2 * e2) ^ 2 = (u0 * w0 + u1 * w1 + u2 * w2) ^ 2 := by
      rw [← hdot]
      ring
    rw [mul_sub, this, hg2]
    nlinarith [sq_nonneg w0, sq_nonneg w1, sq_nonneg w2]
  exact nonneg_of_mul_nonneg_right key hgp

theorem etaSq_at (hU : IsOpen U) (hf : FieldC4 field U) (m : ℝ) {z : ℝ × Phase}
    (hz : (z.1, z.2.1) ∈ U) : ContDiffAt ℝ 4 (fun z : ℝ × Phase => etaSq m field z.1 z.2.1 z.2.2) z := by
  obtain ⟨hE, hB⟩ := field_at hU hf hz
  have e := contDiffAt_pi.1 hE
  have b := contDiffAt_pi.1 hB
  have u : ∀ i, ContDiffAt ℝ 4 (fun z : ℝ × Phase => m⁻¹ * z.2.2 i) z := fun i =>
    contDiffAt_const.mul (momentum_contDiff i).contDiffAt
  have g : ContDiffAt ℝ 4 (fun z : ℝ × Phase => Real.sqrt (1 + z.2.2 ⬝ᵥ z.2.2 / m ^ 2)) z := by
    refine (contDiffAt_const.add (dot_contDiff.contDiffAt.div_const _)).sqrt ?_
    have := dot_self_nonneg z.2.2
    positivity
  unfold etaSq
  exact (((((g.mul (e 0)).add (((u 1).mul (b 2)).sub ((u 2).mul (b 1)))).pow 2).add
    (((g.mul (e 1)).add (((u 2).mul (b 0)).sub ((u 0).mul (b 2)))).pow 2)).add
    (((g.mul (e 2)).add (((u 0).mul (b 1)).sub ((u 1).mul (b 0)))).pow 2)).sub
    (((((u 0).mul (e 0)).add ((u 1).mul (e 1))).add ((u 2).mul (e 2))).pow 2)

/-- A reaction force whose size `eta² g(eta)` is smooth is smooth where the momentum is not zero. -/
theorem reaction_at (hU : IsOpen U) (hf : FieldC4 field U) {m : ℝ} (hm : 0 < m) (q : ℝ) {g : ℝ → ℝ} {z : ℝ × Phase}
    (hz : (z.1, z.2.1) ∈ U) (hp : z.2.2 ≠ 0)
    (hg : ContDiffAt ℝ 4 (fun z : ℝ × Phase => g (etaAt m field z.1 z.2.1 z.2.2)) z) :
    ContDiffAt ℝ 4 (fun z : ℝ × Phase => reactionForce g m q field z.1 z.2.1 z.2.2) z := by
  have he : (fun z : ℝ × Phase => etaAt m field z.1 z.2.1 z.2.2 ^ 2) =
      fun z => etaSq m field z.1 z.2.1 z.2.2 := by
    funext z
    rw [etaAt_eq, Real.sq_sqrt (etaSq_nonneg hm _ _ _ _)]
  have h2 : ContDiffAt ℝ 4 (fun z : ℝ × Phase => etaAt m field z.1 z.2.1 z.2.2 ^ 2) z := by
    rw [he]
    exact etaSq_at hU hf m hz
  have hs : ContDiffAt ℝ 4 (fun z : ℝ × Phase => Real.sqrt (z.2.2 ⬝ᵥ z.2.2)) z :=
    dot_contDiff.contDiffAt.sqrt (dot_self_pos hp).ne'
  unfold reactionForce
  exact (lorentz_at hU hf hm q hz).sub ((((contDiffAt_const.mul h2).mul hg).div hs
    (Real.sqrt_pos.2 (dot_self_pos hp)).ne').smul (contDiff_snd.comp contDiff_snd).contDiffAt)

end Smooth

theorem codeMotion_lorentz (field : Field ℝ) {m : ℝ} (hm : 0 < m) (q : ℝ) :
    codeMotion lorentzForce field m q = motion m (lorentz m q field) := by
  funext s z
  unfold codeMotion motion
  dsimp only
  rw [C103_lorentz hm q field s (V3.ofVec z.1) (V3.ofVec z.2), toVec_ofVec, toVec_ofVec]

theorem ofVec_ne {v : Fin 3 → ℝ} (hv : v ≠ 0) : V3.ofVec v ≠ ⟨0, 0, 0⟩ := by
  intro h
  apply hv
  rw [← toVec_ofVec v, h]
  funext i
  fin_cases i <;> rfl

theorem reaction_forms (field : Field ℝ) {m : ℝ} (hm : 0 < m) (q s : ℝ) (x : Fin 3 → ℝ) {k : Fin 3 → ℝ} (hk : k ≠ 0) :
    (landauForce m q (V3.ofVec k) (field s (V3.ofVec x)).1 (field s (V3.ofVec x)).2).toVec =
      reactionForce (fun _ => 1) m q field s x k ∧
    (modLandauForce m q (V3.ofVec k) (field s (V3.ofVec x)).1 (field s (V3.ofVec x)).2).toVec =
      reactionForce gauntFactor m q field s x k := by
  obtain ⟨eta, n, h1, h2, -, h4, h5⟩ := C103_reaction hm q (V3.ofVec k) (field s (V3.ofVec x)).1
    (field s (V3.ofVec x)).2 (ofVec_ne hk)
  have hl := C103_lorentz hm q field s (V3.ofVec x) (V3.ofVec k)
  rw [toVec_ofVec, toVec_ofVec] at hl
  have hn : n = Real.sqrt (k ⬝ᵥ k) := by
    rw [h2]
    congr 1
    simp [V3.ofVec, dotProduct, Fin.sum_univ_three]
    ring
  have hd : (k 0 ^ 2 + k 1 ^ 2 + k 2 ^ 2) = k ⬝ᵥ k := by
    simp [dotProduct, Fin.sum_univ_three]
    ring
  have he : eta = etaAt m field s x k := by
    rw [h1, etaAt, lorentzFactor]
    congr 2
    · simp only [V3.ofVec]
      rw [hd]
    · simp [V3.ofVec, div_eq_inv_mul]
  rw [h4, h5, hl, toVec_ofVec, hn, he]
  constructor
  · simp only [reactionForce, mul_one]
  · rfl

/-- C121 for the Lorentz pusher: if `y` solves the equations of motion with the Lorentz force from the start of a
living particle with mass, and the fields have four continuous derivatives near the places and times it passes
through, the computed track follows it to fourth order. -/
theorem C121_lorentz {field : Field ℝ} {U : Set (ℝ × (Fin 3 → ℝ))} (hU : IsOpen U) (hf : FieldC4 field U)
    (p : Particle ℝ) (ha : p.isAlive = true) (hm : 0 < p.mass) {T : ℝ} {y : ℝ → Phase}
    (hy0 : y p.time = (p.position.toVec, p.momentum.toVec))
    (hy : ∀ s ∈ Icc p.time (p.time + T),
      HasDerivWithinAt y (motion p.mass (lorentz p.mass p.charge field) s (y s)) (Icc p.time (p.time + T)) s)
    (hmem : ∀ s ∈ Icc p.time (p.time + T), (s, (y s).1) ∈ U) : FourthOrder lorentzForce field p T y := by
  have hW : IsOpen {z : ℝ × Phase | (z.1, z.2.1) ∈ U} := hU.preimage (by fun_prop)
  refine fourthOrder_of lorentzForce field p ha hm hW ?_ hy0 ?_ hmem
  · rw [codeMotion_lorentz field hm]
    intro z hz
    exact ((velocity_contDiff hm).contDiffAt.prodMk (lorentz_at hU hf hm p.charge hz)).contDiffWithinAt
  · rw [codeMotion_lorentz field hm]
    exact hy

/-- C121 for the Landau pusher: likewise with its reaction force, as long as the particle does not come to rest. -/
theorem C121_landau {field : Field ℝ} {U : Set (ℝ × (Fin 3 → ℝ))} (hU : IsOpen U) (hf : FieldC4 field U)
    (p : Particle ℝ) (ha : p.isAlive = true) (hm : 0 < p.mass) {T : ℝ} {y : ℝ → Phase}
    (hy0 : y p.time = (p.position.toVec, p.momentum.toVec))
    (hy : ∀ s ∈ Icc p.time (p.time + T), HasDerivWithinAt y
      (motion p.mass (reactionForce (fun _ => 1) p.mass p.charge field) s (y s)) (Icc p.time (p.time + T)) s)
    (hmem : ∀ s ∈ Icc p.time (p.time + T), (s, (y s).1) ∈ U ∧ (y s).2 ≠ 0) :
    FourthOrder landauForce field p T y := by
  have hW : IsOpen {z : ℝ × Phase | (z.1, z.2.1) ∈ U ∧ z.2.2 ≠ 0} :=
    (hU.preimage (by fun_prop)).inter (isOpen_ne.preimage (by fun_prop))
  have hform : ∀ z : ℝ × Phase, z.2.2 ≠ 0 → codeMotion landauForce field p.mass p.charge z.1 z.2 =
      motion p.mass (reactionForce (fun _ => 1) p.mass p.charge field) z.1 z.2 := by
    intro z hz
    unfold codeMotion motion
    dsimp only
    rw [(reaction_forms field hm p.charge z.1 z.2.1 hz).1]
  refine fourthOrder_of landauForce field p ha hm hW ?_ hy0 ?_ hmem
  · refine ContDiffOn.congr (f := fun z : ℝ × Phase =>
      motion p.mass (reactionForce (fun _ => 1) p.mass p.charge field) z.1 z.2) ?_ (fun z hz => hform z hz.2)
    intro z hz
    exact ((velocity_contDiff hm).contDiffAt.prodMk
      (reaction_at hU hf hm p.charge hz.1 hz.2 contDiffAt_const)).contDiffWithinAt
  · intro s hs
    rw [hform (s, y s) (hmem s hs).2]
    exact hy s hs

/-- C121 for the modified Landau pusher: likewise, as long as the particle does not come to rest and its eta does not
vanish. -/
theorem C121_modified {field : Field ℝ} {U : Set (ℝ × (Fin 3 → ℝ))} (hU : IsOpen U) (hf : FieldC4 field U)
    (p : Particle ℝ) (ha : p.isAlive = true) (hm : 0 < p.mass) {T : ℝ} {y : ℝ → Phase}
    (hy0 : y p.time = (p.position.toVec, p.momentum.toVec))
    (hy : ∀ s ∈ Icc p.time (p.time + T), HasDerivWithinAt y
      (motion p.mass (reactionForce gauntFactor p.mass p.charge field) s (y s)) (Icc p.time (p.time + T)) s)
    (hmem : ∀ s ∈ Icc p.time (p.time + T), (s, (y s).1) ∈ U ∧ (y s).2 ≠ 0 ∧
      etaAt p.mass field s (y s).1 (y s).2 ≠ 0) :
    FourthOrder modLandauForce field p T y := by
  have hW1 : IsOpen {z : ℝ × Phase | (z.1, z.2.1) ∈ U ∧ z.2.2 ≠ 0} :=
    (hU.preimage (by fun_prop)).inter (isOpen_ne.preimage (by fun_prop))
  have hW : IsOpen {z : ℝ × Phase | ((z.1, z.2.1) ∈ U ∧ z.2.2 ≠ 0) ∧ etaSq p.mass field z.1 z.2.1 z.2.2 ∈ ({0}ᶜ : Set ℝ)} := by
    refine ContinuousOn.isOpen_inter_preimage (fun z hz => ?_) hW1 isOpen_compl_singleton
    exact (etaSq_at hU hf p.mass hz.1).continuousAt.continuousWithinAt
  have hform : ∀ z : ℝ × Phase, z.2.2 ≠ 0 → codeMotion modLandauForce field p.mass p.charge z.1 z.2 =
      motion p.mass (reactionForce gauntFactor p.mass p.charge field) z.1 z.2 := by
    intro z hz
    unfold codeMotion motion
    dsimp only
    rw [(reaction_forms field hm p.charge z.1 z.2.1 hz).2]
  refine fourthOrder_of modLandauForce field p ha hm hW ?_ hy0 ?_ ?_
  · refine ContDiffOn.congr (f := fun z : ℝ × Phase =>
      motion p.mass (reactionForce gauntFactor p.mass p.charge field) z.1 z.2) ?_ (fun z hz => hform z hz.1.2)
    rintro z ⟨⟨hz1, hz2⟩, hz3⟩
    have he : ContDiffAt ℝ 4 (fun z : ℝ × Phase => etaAt p.mass field z.1 z.2.1 z.2.2) z := by
      simp only [etaAt_eq]
      exact (etaSq_at hU hf p.mass hz1).sqrt hz3
    have h0 : 0 ≤ etaAt p.mass field z.1 z.2.1 z.2.2 := Real.sqrt_nonneg _
    have hlog : 0 ≤ Real.log (1 + 1.7 * etaAt p.mass field z.1 z.2.1 z.2.2) := Real.log_nonneg (by linarith)
    have hg : ContDiffAt ℝ 4 (fun z : ℝ × Phase => gauntFactor (etaAt p.mass field z.1 z.2.1 z.2.2)) z := by
      unfold gauntFactor
      refine ContDiffAt.rpow_const_of_ne ?_ ?_
      · refine (contDiffAt_const.add (((contDiffAt_const.mul (contDiffAt_const.add he)).mul
          ((contDiffAt_const.add (contDiffAt_const.mul he)).log ?_)))).add (contDiffAt_const.mul (he.pow 2))
        positivity
      · positivity
    exact ((velocity_contDiff hm).contDiffAt.prodMk
      (reaction_at hU hf hm p.charge hz1 hz2 hg)).contDiffWithinAt
  · intro s hs
    rw [hform (s, y s) (hmem s hs).2.1]
    exact hy s hs
  · intro s hs
    obtain ⟨h1, h2, h3⟩ := hmem s hs
    refine ⟨⟨h1, h2⟩, fun h => h3 ?_⟩
    rw [etaAt_eq]
    simp only [mem_singleton_iff] at h
    rw [h, Real.sqrt_zero]

end QED
