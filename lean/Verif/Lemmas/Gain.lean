import Verif.Lemmas.Pushers
import Verif.Spec.Gain
import Mathlib.Analysis.InnerProductSpace.Basic

set_option autoImplicit false

/-!
# How much momentum a Runge-Kutta step can give
-/

namespace QED

section Step

variable {V : Type} [NormedAddCommGroup V] [InnerProductSpace ℝ V]

/-- The unit vector along `v`. -/
noncomputable def unit (v : V) : V := ‖v‖⁻¹ • v

theorem norm_unit_le (v : V) : ‖unit v‖ ≤ 1 := by
  unfold unit
  rw [norm_smul, norm_inv, norm_norm]
  by_cases h : ‖v‖ = 0
  · rw [h]; norm_num
  · rw [inv_mul_cancel₀ h]

theorem unit_inner_ge {p d : V} (hd : ‖d‖ ≤ ‖p‖ / 2) : ‖p‖ / 3 ≤ inner ℝ (unit (p + d)) p := by
  by_cases h0 : ‖p‖ = 0
  · have : p = 0 := norm_eq_zero.mp h0
    subst this
    simp
  have hp : 0 < ‖p‖ := lt_of_le_of_ne (norm_nonneg _) (Ne.symm h0)
  have h1 : ‖p + d‖ ≤ 3 / 2 * ‖p‖ := (norm_add_le _ _).trans (by linarith)
  have h2 : ‖p‖ / 2 ≤ ‖p + d‖ := by
    have := norm_sub_le (p + d) d
    rw [add_sub_cancel_right] at this
    linarith
  have h3 : ‖p‖ ^ 2 / 2 ≤ inner ℝ (p + d) p := by
    rw [inner_add_left, real_inner_self_eq_norm_sq]
    have := abs_le.mp (abs_real_inner_le_norm d p)
    nlinarith [norm_nonneg d]
  unfold unit
  rw [real_inner_smul_left, inv_mul_eq_div, le_div_iff₀ (by linarith)]
  nlinarith

theorem brake_le {p R : V} {r : ℝ} (hr0 : 0 ≤ r) (hR : ‖R‖ ≤ r) (hi : r * (‖p‖ / 3) ≤ inner ℝ R p) (hr : r ≤ ‖p‖ / 2) :
    ‖p - R‖ ≤ ‖p‖ := by
  have hsq : ‖p - R‖ ^ 2 ≤ ‖p‖ ^ 2 := by
    rw [norm_sub_sq_real, real_inner_comm]
    have h1 : ‖R‖ ^ 2 ≤ r * (‖p‖ / 2) := by
      rw [sq]
      exact mul_le_mul hR (hR.trans hr) (norm_nonneg _) hr0
    have h2 : 0 ≤ r * ‖p‖ := mul_nonneg hr0 (norm_nonneg _)
    linarith
  exact (pow_le_pow_iff_left₀ (norm_nonneg _) (norm_nonneg _) two_ne_zero).mp hsq

theorem half_step {L n : V} {c h A C : ℝ} (hh : 0 ≤ h) (hL : ‖L‖ ≤ A) (hn : ‖n‖ ≤ 1) (h0 : 0 ≤ c) (hc : c ≤ C) :
    ‖h • (L - c • n)‖ ≤ h * (A + C) := by
  rw [norm_smul, Real.norm_of_nonneg hh]
  refine mul_le_mul_of_nonneg_left ?_ hh
  refine (norm_sub_le _ _).trans (add_le_add hL ?_)
  rw [norm_smul, Real.norm_of_nonneg h0]
  nlinarith [norm_nonneg n]

/-- One step of the Runge-Kutta method with forces `L i` of at most `A` and brakes `c i` of at most `C` against the
motion. -/
theorem brake_step {p p2 p3 p4 p' L1 L2 L3 L4 : V} {c1 c2 c3 c4 h A C : ℝ} (hh : 0 ≤ h)
    (hL1 : ‖L1‖ ≤ A) (hL2 : ‖L2‖ ≤ A) (hL3 : ‖L3‖ ≤ A) (hL4 : ‖L4‖ ≤ A)
    (e2 : p2 = p + (h / 2) • (L1 - c1 • unit p)) (e3 : p3 = p + (h / 2) • (L2 - c2 • unit p2))
    (e4 : p4 = p + h • (L3 - c3 • unit p3))
    (e : p' = p + (h / 6) • ((L1 - c1 • unit p) + (2 : ℝ) • (L2 - c2 • unit p2) + (2 : ℝ) • (L3 - c3 • unit p3) +
      (L4 - c4 • unit p4)))
    (z1 : 0 ≤ c1) (z2 : 0 ≤ c2) (z3 : 0 ≤ c3) (z4 : 0 ≤ c4) (b1 : c1 ≤ C)
    (b2 : ‖p2‖ ≤ ‖p‖ + h * (A + C) → c2 ≤ C) (b3 : ‖p3‖ ≤ ‖p‖ + h * (A + C) → c3 ≤ C)
    (b4 : ‖p4‖ ≤ ‖p‖ + h * (A + C) → c4 ≤ C) :
    ‖p'‖ ≤ ‖p‖ + h * (A + C) ∧ (h * (A + C) ≤ ‖p‖ / 2 → ‖p'‖ ≤ ‖p‖ + h * A) := by
  have hA : 0 ≤ A := (norm_nonneg _).trans hL1
  have hC : 0 ≤ C := z1.trans b1
  have hh2 : 0 ≤ h / 2 := by linarith
  have hAC : 0 ≤ h * (A + C) := by positivity
  have d1 := half_step hh2 hL1 (norm_unit_le p) z1 b1
  have s2 : ‖p2‖ ≤ ‖p‖ + h * (A + C) := by
    rw [e2]; exact (norm_add_le _ _).trans (by linarith)
  have b2 := b2 s2
  have d2 := half_step hh2 hL2 (norm_unit_le p2) z2 b2
  have s3 : ‖p3‖ ≤ ‖p‖ + h * (A + C) := by
    rw [e3]; exact (norm_add_le _ _).trans (by linarith)
  have b3 := b3 s3
  have d3 := half_step hh hL3 (norm_unit_le p3) z3 b3
  have s4 : ‖p4‖ ≤ ‖p‖ + h * (A + C) := by
    rw [e4]; exact (norm_add_le _ _).trans (by linarith)
  have b4 := b4 s4
  set R := (h / 6) • (c1 • unit p + (2 * c2) • unit p2 + (2 * c3) • unit p3 + c4 • unit p4) with hR
  set S := (h / 6) • (L1 + (2 : ℝ) • L2 + (2 : ℝ) • L3 + L4) with hS
  have hsum : p' = (p - R) + S := by
    rw [e, hR, hS]
    module
  have hSn : ‖S‖ ≤ h * A := by
    rw [hS, norm_smul, Real.norm_of_nonneg (by linarith)]
    have : ‖L1 + (2 : ℝ) • L2 + (2 : ℝ) • L3 + L4‖ ≤ 6 * A := by
      refine (norm_add_le _ _).trans ?_
      have := norm_add_le (L1 + (2 : ℝ) • L2) ((2 : ℝ) • L3)
      have := norm_add_le L1 ((2 : ℝ) • L2)
      rw [norm_smul, Real.norm_of_nonneg (by norm_num : (0 : ℝ) ≤ 2)] at *
      linarith
    nlinarith
  set r := h / 6 * (c1 + 2 * c2 + 2 * c3 + c4) with hr
  have hr0 : 0 ≤ r := by positivity
  have hrC : r ≤ h * C := by
    rw [hr]
    have : c1 + 2 * c2 + 2 * c3 + c4 ≤ 6 * C := by linarith
    nlinarith
  have hRn : ‖R‖ ≤ r := by
    rw [hR, hr, norm_smul, Real.norm_of_nonneg (by linarith)]
    refine mul_le_mul_of_nonneg_left ?_ (by linarith)
    have t : ∀ (c : ℝ) (v : V), 0 ≤ c → ‖c • unit v‖ ≤ c := fun c v hc => by
      rw [norm_smul, Real.norm_of_nonneg hc]
      nlinarith [norm_unit_le v]
    refine (norm_add_le _ _).trans ?_
    have h1 := norm_add_le (c1 • unit p + (2 * c2) • unit p2) ((2 * c3) • unit p3)
    have h2 := norm_add_le (c1 • unit p) ((2 * c2) • unit p2)
    linarith [t c1 p z1, t (2 * c2) p2 (by linarith), t (2 * c3) p3 (by linarith), t c4 p4 z4]
  constructor
  · rw [hsum]
    refine (norm_add_le _ _).trans ?_
    have := norm_sub_le p R
    linarith
  · intro hsmall
    have i1 : ‖p‖ / 3 ≤ inner ℝ (unit p) p := by
      have := unit_inner_ge (p := p) (d := 0) (by rw [norm_zero]; linarith [norm_nonneg p])
      rwa [add_zero] at this
    have i2 : ‖p‖ / 3 ≤ inner ℝ (unit p2) p := by rw [e2]; exact unit_inner_ge (by linarith)
    have i3 : ‖p‖ / 3 ≤ inner ℝ (unit p3) p := by rw [e3]; exact unit_inner_ge (by linarith)
    have i4 : ‖p‖ / 3 ≤ inner ℝ (unit p4) p := by rw [e4]; exact unit_inner_ge (by linarith)
    have hRp : r * (‖p‖ / 3) ≤ inner ℝ R p := by
      rw [hR, hr, real_inner_smul_left, inner_add_left, inner_add_left, inner_add_left, real_inner_smul_left,
        real_inner_smul_left, real_inner_smul_left, real_inner_smul_left, mul_assoc]
      refine mul_le_mul_of_nonneg_left ?_ (by linarith)
      have m1 := mul_le_mul_of_nonneg_left i1 z1
      have m2 := mul_le_mul_of_nonneg_left i2 z2
      have m3 := mul_le_mul_of_nonneg_left i3 z3
      have m4 := mul_le_mul_of_nonneg_left i4 z4
      linarith
    have hle := brake_le hr0 hRn hRp (hrC.trans (by linarith [mul_nonneg hh hA]))
    rw [hsum]
    exact (norm_add_le _ _).trans (add_le_add hle hSn)

end Step

/-! ## Vectors of the model -/

/-- A vector of the model as a vector with the Euclidean norm. -/
noncomputable def V3.eu (a : V3 ℝ) : EuclideanSpace ℝ (Fin 3) := WithLp.toLp 2 a.toVec

theorem eu_norm (a : V3 ℝ) : ‖a.eu‖ = len a.toVec := (len_eq_norm _).symm

theorem eu_add (a b : V3 ℝ) : (a.add b).eu = a.eu + b.eu := by unfold V3.eu; rw [toVec_add]; rfl

theorem eu_smul (a : V3 ℝ) (s : ℝ) : (a.smul s).eu = s • a.eu := by unfold V3.eu; rw [toVec_smul]; rfl

theorem eu_muls (a : V3 ℝ) (s : ℝ) : (a.muls s).eu = s • a.eu := by unfold V3.eu; rw [toVec_muls]; rfl

theorem eu_divs (a : V3 ℝ) (s : ℝ) : (a.divs s).eu = s⁻¹ • a.eu := by unfold V3.eu; rw [toVec_divs]; rfl

theorem eu_unit (a : V3 ℝ) : a.norm.eu = unit a.eu := by
  unfold V3.norm unit
  rw [eu_divs, mag_eq, eu_norm]

theorem len_sq (a : V3 ℝ) : len a.toVec ^ 2 = a.dot a := by rw [← mag_eq, V3.mag_sq]

theorem len_cross_le (a b : V3 ℝ) : len (a.cross b).toVec ≤ len a.toVec * len b.toVec := by
  refine (pow_le_pow_iff_left₀ (len_nonneg _) (mul_nonneg (len_nonneg _) (len_nonneg _)) two_ne_zero).mp ?_
  rw [mul_pow, len_sq, len_sq, len_sq]
  simp only [V3.dot, V3.cross, real_add, real_mul, real_sub]
  nlinarith [sq_nonneg (a.x * b.x + a.y * b.y + a.z * b.z)]

theorem norm_dot_le (a : V3 ℝ) : a.norm.dot a.norm ≤ 1 := by
  have h := norm_unit_le a.eu
  rw [← eu_unit, eu_norm] at h
  rw [← len_sq]
  nlinarith [len_nonneg a.norm.toVec]

/-- The Lorentz force is at most the charge times the fields. -/
theorem lorentz_le {m : ℝ} (hm : 0 < m) (q : ℝ) (p e b : V3 ℝ) :
    len (lorentzForce m q p e b).toVec ≤ |q| * (len e.toVec + len b.toVec) := by
  have hg := pushGamma_pos m p
  have h1 : (lorentzForce m q p e b).toVec = q • (e.toVec + ((pushPosition m p).cross b).toVec) := by
    unfold lorentzForce pushPosition
    rw [toVec_smul, toVec_add]
    congr 2
    ext i
    fin_cases i <;> simp [V3.toVec, V3.cross, V3.divs] <;> ring
  rw [h1, len_smul]
  refine mul_le_mul_of_nonneg_left ?_ (abs_nonneg _)
  refine (len_add_le _ _).trans (add_le_add le_rfl ?_)
  refine (len_cross_le _ _).trans ?_
  nlinarith [len_pushPosition m hm p, len_nonneg b.toVec]

theorem eta_le {n e b : V3 ℝ} {β γ : ℝ} (hn : n.dot n ≤ 1) (h0 : 0 ≤ β) (h1 : β ≤ 1) (hγ : 1 ≤ γ) :
    Real.sqrt (((e.sub (n.smul (e.dot n))).add ((n.cross b).smul β)).mag2 + n.dot e ^ 2 / (γ * γ)) * γ ≤
      γ * (len e.toVec + len b.toVec) := by
  have hE := len_nonneg e.toVec
  have hB := len_nonneg b.toVec
  rw [mul_comm]
  refine mul_le_mul_of_nonneg_left ?_ (by linarith)
  refine Real.sqrt_le_iff.mpr ⟨by positivity, ?_⟩
  set w := e.sub (n.smul (e.dot n)) with hw
  have hw2 : len w.toVec ^ 2 + n.dot e ^ 2 ≤ len e.toVec ^ 2 := by
    have : len w.toVec ^ 2 + n.dot e ^ 2 = len e.toVec ^ 2 - n.dot e ^ 2 * (1 - n.dot n) := by
      rw [len_sq, len_sq, hw]
      simp only [V3.dot, V3.sub, V3.smul, real_add, real_mul, real_sub]
      ring
    rw [this]
    nlinarith [sq_nonneg (n.dot e)]
  have hc : len ((n.cross b).smul β).toVec ≤ len b.toVec := by
    rw [toVec_smul, len_smul, abs_of_nonneg h0]
    have hl : len n.toVec ≤ 1 := by
      have := len_sq n
      nlinarith [len_nonneg n.toVec]
    have h2 := len_cross_le n b
    have h3 : len (n.cross b).toVec ≤ len b.toVec := h2.trans (by nlinarith)
    nlinarith [len_nonneg (n.cross b).toVec]
  have hs : len (w.add ((n.cross b).smul β)).toVec ≤ len w.toVec + len b.toVec := by
    rw [toVec_add]
    exact (len_add_le _ _).trans (add_le_add le_rfl hc)
  have hs0 := len_nonneg (w.add ((n.cross b).smul β)).toVec
  have hw0 := len_nonneg w.toVec
  have hwe : len w.toVec ≤ len e.toVec := by nlinarith [sq_nonneg (n.dot e)]
  have hdiv : n.dot e ^ 2 / (γ * γ) ≤ n.dot e ^ 2 := div_le_self (sq_nonneg _) (by nlinarith)
  rw [mag2_eq]
  have hsq : len (w.add ((n.cross b).smul β)).toVec ^ 2 ≤ (len w.toVec + len b.toVec) ^ 2 :=
    pow_le_pow_left₀ hs0 hs 2
  nlinarith

theorem gamma_ge {m : ℝ} (p : V3 ℝ) : 1 ≤ pushGamma m p := by
  have h := pushGamma_sq m p
  have := V3.dot_self_nonneg p
  have : 0 ≤ p.dot p / (m * m) := div_nonneg this (mul_self_nonneg m)
  nlinarith [pushGamma_pos m p]

theorem beta_range {γ : ℝ} (hγ : 1 ≤ γ) : 0 ≤ Real.sqrt (1 - 1 / (γ * γ)) ∧ Real.sqrt (1 - 1 / (γ * γ)) ≤ 1 := by
  refine ⟨Real.sqrt_nonneg _, Real.sqrt_le_one.mpr ?_⟩
  have : 0 ≤ 1 / (γ * γ) := by positivity
  linarith

theorem pushEta_le (m : ℝ) (p e b : V3 ℝ) :
    0 ≤ pushEta m p e b ∧ pushEta m p e b ≤ pushGamma m p * (len e.toVec + len b.toVec) := by
  have hg := gamma_ge (m := m) p
  obtain ⟨hb0, hb1⟩ := beta_range hg
  have h := eta_le (n := p.norm) (e := e) (b := b) (norm_dot_le p) hb0 hb1 hg
  unfold pushEta
  simp only [real_sqrt, real_mul, real_add, real_sub, real_div, real_lit, real_pow, Rat.cast_one, Rat.cast_ofNat,
    Real.rpow_ofNat]
  exact ⟨mul_nonneg (Real.sqrt_nonneg _) (by linarith), h⟩

/-- A pusher whose force is the Lorentz force and a brake of at most `2/3 alpha (gamma F)²` in fields of
strength `F`. -/
def Brakes (push : PushMom ℝ) (m q : ℝ) : Prop :=
  ∃ c : V3 ℝ → V3 ℝ → V3 ℝ → ℝ, ∀ p e b : V3 ℝ,
    (push m q p e b).eu = (lorentzForce m q p e b).eu - c p e b • unit p.eu ∧ 0 ≤ c p e b ∧
    c p e b ≤ 2 / 3 * (Units.alpha : ℝ) * (pushGamma m p * (len e.toVec + len b.toVec)) ^ 2

theorem alpha_pos : 0 < (Units.alpha : ℝ) := by
  simp only [Units.alpha, real_lit]
  norm_num

theorem brakes_landau (m q : ℝ) : Brakes landauForce m q := by
  refine ⟨fun p e b => 2 / 3 * (Units.alpha : ℝ) * pushEta m p e b ^ 2, fun p e b => ⟨?_, ?_, ?_⟩⟩
  · unfold landauForce landauReaction
    rw [eu_add, eu_smul, eu_unit, sub_eq_add_neg, ← neg_smul]
    congr 2
    simp only [real_mul, real_div, real_lit]
    push_cast
    ring
  · have := alpha_pos
    positivity
  · have := alpha_pos
    obtain ⟨h0, h1⟩ := pushEta_le m p e b
    exact mul_le_mul_of_nonneg_left (pow_le_pow_left₀ h0 h1 2) (by positivity)

theorem gaunt_range {η : ℝ} (h : 0 ≤ η) : 0 ≤ gaunt η ∧ gaunt η ≤ 1 := by
  have hl : 0 ≤ Real.log (1 + 1.7 * η) := Real.log_nonneg (by linarith)
  have hb : 1 ≤ 1 + 4.8 * (1 + η) * Real.log (1 + 1.7 * η) + 2.44 * η * η := by
    have : 0 ≤ 4.8 * (1 + η) * Real.log (1 + 1.7 * η) := by positivity
    have : 0 ≤ 2.44 * η * η := by positivity
    linarith
  have e : gaunt η = (1 + 4.8 * (1 + η) * Real.log (1 + 1.7 * η) + 2.44 * η * η) ^ (-2 / 3 : ℝ) := by
    unfold gaunt
    simp only [real_mul, real_div, real_lit, real_add, real_pow, real_log]
    push_cast
    rfl
  rw [e]
  exact ⟨Real.rpow_nonneg (by linarith) _, Real.rpow_le_one_of_one_le_of_nonpos hb (by norm_num)⟩

theorem brakes_modLandau (m q : ℝ) : Brakes modLandauForce m q := by
  refine ⟨fun p e b => 2 / 3 * (Units.alpha : ℝ) * pushEta m p e b ^ 2 * gaunt (pushEta m p e b), fun p e b =>
    ⟨?_, ?_, ?_⟩⟩
  · unfold modLandauForce modLandauReaction
    rw [eu_add, eu_smul, eu_unit, sub_eq_add_neg, ← neg_smul]
    congr 2
    simp only [real_mul, real_div, real_lit]
    push_cast
    ring
  · have := alpha_pos
    have := (gaunt_range (pushEta_le m p e b).1).1
    positivity
  · have := alpha_pos
    obtain ⟨h0, h1⟩ := pushEta_le m p e b
    have hc := mul_le_mul_of_nonneg_left (pow_le_pow_left₀ h0 h1 2)
      (show 0 ≤ 2 / 3 * (Units.alpha : ℝ) by positivity)
    refine le_trans ?_ hc
    exact mul_le_of_le_one_right (by positivity) (gaunt_range h0).2

/-- The momenta of the four stages of a push. -/
theorem rk4_stages (push : PushMom ℝ) (field : Field ℝ) (dt m q t : ℝ) (x p : V3 ℝ) :
    ∃ (k2 k3 k4 : V3 ℝ) (t2 t3 t4 : ℝ) (x2 x3 x4 : V3 ℝ),
      k2.eu = p.eu + (dt / 2) • (push m q p (field t x).1 (field t x).2).eu ∧
      k3.eu = p.eu + (dt / 2) • (push m q k2 (field t2 x2).1 (field t2 x2).2).eu ∧
      k4.eu = p.eu + dt • (push m q k3 (field t3 x3).1 (field t3 x3).2).eu ∧
      (rk4 push field dt m q t x p).2.eu = p.eu + (dt / 6) • ((push m q p (field t x).1 (field t x).2).eu +
        (2 : ℝ) • (push m q k2 (field t2 x2).1 (field t2 x2).2).eu +
        (2 : ℝ) • (push m q k3 (field t3 x3).1 (field t3 x3).2).eu +
        (push m q k4 (field t4 x4).1 (field t4 x4).2).eu) := by
  have half : ∀ a k : V3 ℝ, (a.add ((k.muls dt).divs (Dbl.lit 2))).eu = a.eu + (dt / 2) • k.eu := by
    intro a k
    rw [eu_add, eu_divs, eu_muls, smul_smul, real_lit]
    congr 2
    push_cast
    ring
  have full : ∀ a k : V3 ℝ, (a.add (k.muls dt)).eu = a.eu + dt • k.eu := by
    intro a k
    rw [eu_add, eu_muls]
  let th : ℝ := t +. dt /. Dbl.lit 2
  let k1 := push m q p (field t x).1 (field t x).2
  let k2 := p.add ((k1.muls dt).divs (Dbl.lit 2))
  let x2 := x.add (((pushPosition m p).muls dt).divs (Dbl.lit 2))
  let k3 := p.add (((push m q k2 (field th x2).1 (field th x2).2).muls dt).divs (Dbl.lit 2))
  let x3 := x.add (((pushPosition m k2).muls dt).divs (Dbl.lit 2))
  let k4 := p.add ((push m q k3 (field th x3).1 (field th x3).2).muls dt)
  let x4 := x.add ((pushPosition m k3).muls dt)
  refine ⟨k2, k3, k4, th, th, t +. dt, x2, x3, x4, half _ _, half _ _, full _ _, ?_⟩
  unfold rk4
  dsimp only
  rw [eu_add, eu_smul, eu_add, eu_add, eu_add, eu_smul, eu_smul, real_div, real_lit, real_lit]
  norm_num
  rfl

/-- One push in fields of strength `F` with a brake of at most `C`. -/
theorem rk4_brake {push : PushMom ℝ} {m q : ℝ} (hm : 0 < m) {c : V3 ℝ → V3 ℝ → V3 ℝ → ℝ}
    (hc : ∀ p e b : V3 ℝ, (push m q p e b).eu = (lorentzForce m q p e b).eu - c p e b • unit p.eu ∧ 0 ≤ c p e b)
    {field : Field ℝ} {F : ℝ} (hF : FieldsAtMost field F) {dt : ℝ}
    (hdt : 0 ≤ dt) (t : ℝ) (x p : V3 ℝ) {C : ℝ} (hC0 : 0 ≤ C)
    (hC : ∀ s y (k : V3 ℝ), len k.toVec ≤ len p.toVec + dt * (|q| * F + C) → c k (field s y).1 (field s y).2 ≤ C) :
    len (rk4 push field dt m q t x p).2.toVec ≤ len p.toVec + dt * (|q| * F + C) ∧
    (dt * (|q| * F + C) ≤ len p.toVec / 2 →
      len (rk4 push field dt m q t x p).2.toVec ≤ len p.toVec + dt * (|q| * F)) := by
  have hF0 : 0 ≤ F := (add_nonneg (len_nonneg _) (len_nonneg _)).trans (hF 0 ⟨0, 0, 0⟩)
  have hL : ∀ s y k, ‖(lorentzForce m q k (field s y).1 (field s y).2).eu‖ ≤ |q| * F := fun s y k => by
    rw [eu_norm]
    exact (lorentz_le hm q k _ _).trans (mul_le_mul_of_nonneg_left (hF s y) (abs_nonneg _))
  have hcC : ∀ s y (k : V3 ℝ), ‖k.eu‖ ≤ ‖p.eu‖ + dt * (|q| * F + C) → c k (field s y).1 (field s y).2 ≤ C := by
    intro s y k hk
    rw [eu_norm, eu_norm] at hk
    exact hC s y k hk
  have hself : ‖p.eu‖ ≤ ‖p.eu‖ + dt * (|q| * F + C) := by
    have : 0 ≤ dt * (|q| * F + C) := by positivity
    linarith
  obtain ⟨k2, k3, k4, t2, t3, t4, x2, x3, x4, e2, e3, e4, e5⟩ := rk4_stages push field dt m q t x p
  rw [(hc p _ _).1] at e2
  rw [(hc k2 _ _).1] at e3
  rw [(hc k3 _ _).1] at e4
  rw [(hc p _ _).1, (hc k2 _ _).1, (hc k3 _ _).1, (hc k4 _ _).1] at e5
  have key := brake_step hdt (hL t x p) (hL t2 x2 k2) (hL t3 x3 k3) (hL t4 x4 k4) e2 e3 e4 e5
    (hc p _ _).2 (hc k2 _ _).2 (hc k3 _ _).2 (hc k4 _ _).2 (hcC t x p hself) (hcC t2 x2 k2) (hcC t3 x3 k3)
    (hcC t4 x4 k4)
  rw [eu_norm, eu_norm] at key
  exact key

/-- One push with radiation reaction. -/
theorem rk4_gain {push : PushMom ℝ} {m q : ℝ} (hm : 0 < m) (hb : Brakes push m q) {field : Field ℝ} {F : ℝ}
    (hF : FieldsAtMost field F) {dt : ℝ} (hdt : 0 ≤ dt) (t : ℝ) (x p : V3 ℝ)
    {C : ℝ} (hC : 2 / 3 * (Units.alpha : ℝ) * F ^ 2 * (1 + (len p.toVec + dt * (|q| * F + C)) ^ 2 / m ^ 2) ≤ C) :
    len (rk4 push field dt m q t x p).2.toVec ≤ len p.toVec + dt * (|q| * F + C) ∧
    (dt * (|q| * F + C) ≤ len p.toVec / 2 →
      len (rk4 push field dt m q t x p).2.toVec ≤ len p.toVec + dt * (|q| * F)) := by
  obtain ⟨c, hc⟩ := hb
  have hF0 : 0 ≤ F := (add_nonneg (len_nonneg _) (len_nonneg _)).trans (hF 0 ⟨0, 0, 0⟩)
  have ha := alpha_pos
  have hC0 : 0 ≤ C := le_trans (by positivity) hC
  refine rk4_brake hm (fun p e b => ⟨(hc p e b).1, (hc p e b).2.1⟩) hF hdt t x p hC0 fun s y k hk => ?_
  refine ((hc k _ _).2.2).trans (le_trans ?_ hC)
  have hk2 : len k.toVec ^ 2 ≤ (len p.toVec + dt * (|q| * F + C)) ^ 2 := pow_le_pow_left₀ (len_nonneg _) hk 2
  have hfs : (len (field s y).1.toVec + len (field s y).2.toVec) ^ 2 ≤ F ^ 2 :=
    pow_le_pow_left₀ (add_nonneg (len_nonneg _) (len_nonneg _)) (hF s y) 2
  have hg : pushGamma m k ^ 2 ≤ 1 + (len p.toVec + dt * (|q| * F + C)) ^ 2 / m ^ 2 := by
    rw [pushGamma_sq, ← len_sq, ← sq]
    gcongr
  rw [mul_pow, mul_comm (pushGamma m k ^ 2), ← mul_assoc]
  gcongr

end QED
