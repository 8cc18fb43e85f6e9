import Verif.Lemmas.F64Speed

set_option autoImplicit false

/-!
# A push computed in doubles
-/

namespace QED

open Dbl

namespace F64

theorem add_at {a b : F64} {x y z : ℝ} (ha : a.1 = .fin x) (hb : b.1 = .fin y)
    (hs : |x + y| < 2 ^ 1023) (h : F64.round (x + y) = z) : (a +. b).1 = .fin z := by
  rw [add_val, ha, hb]
  show rnd (.fin (x + y)) = _
  rw [rnd_fin hs, h]

theorem sub_at {a b : F64} {x y z : ℝ} (ha : a.1 = .fin x) (hb : b.1 = .fin y)
    (hs : |x - y| < 2 ^ 1023) (h : F64.round (x - y) = z) : (a -. b).1 = .fin z := by
  rw [sub_val, ha, hb]
  show rnd (.fin (x - y)) = _
  rw [rnd_fin hs, h]

theorem mul_at {a b : F64} {x y z : ℝ} (ha : a.1 = .fin x) (hb : b.1 = .fin y)
    (hs : |x * y| < 2 ^ 1023) (h : F64.round (x * y) = z) : (a *. b).1 = .fin z := by
  rw [mul_val, ha, hb, XR.mul_fin, rnd_fin hs, h]

theorem div_at {a b : F64} {x y z : ℝ} (ha : a.1 = .fin x) (hb : b.1 = .fin y) (hy : y ≠ 0)
    (hs : |x / y| < 2 ^ 1023) (h : F64.round (x / y) = z) : (a /. b).1 = .fin z := by
  rw [div_val, ha, hb, XR.div_fin _ _ hy, rnd_fin hs, h]

theorem sqrt_at {a : F64} {x z : ℝ} (ha : a.1 = .fin x) (hx : 0 ≤ x)
    (hs : |Real.sqrt x| < 2 ^ 1023) (h : F64.round (Real.sqrt x) = z) : (Dbl.sqrt a).1 = .fin z := by
  show rnd (Dbl.sqrt a.1) = _
  rw [ha, XR.sqrt_fin _ hx, rnd_fin hs, h]

theorem lt_big {x : ℝ} (h : |x| ≤ 2 ^ 100) : |x| < 2 ^ 1023 :=
  lt_of_le_of_lt h (pow_lt_pow_right₀ (by norm_num) (by norm_num))

/-- A number of 53 bits needs no rounding. -/
theorem round_int_mul {x : ℝ} (n : ℤ) (k : ℕ) (hn : |n| ≤ 2 ^ 53) (h : x = n * 2 ^ k) :
    F64.round x = x := by
  apply round_form_eq
  rw [h, ← zpow_natCast]
  exact form_mul hn (by omega)

theorem zero_mul_at {a b : F64} {y : ℝ} (ha : a.1 = .fin 0) (hb : b.1 = .fin y) : (a *. b).1 = .fin 0 :=
  mul_at ha hb (by simp) (by simp)

theorem mul_zero_at {a b : F64} {y : ℝ} (ha : a.1 = .fin y) (hb : b.1 = .fin 0) : (a *. b).1 = .fin 0 :=
  mul_at ha hb (by simp) (by simp)

theorem zero_div_at {a b : F64} {y : ℝ} (ha : a.1 = .fin 0) (hb : b.1 = .fin y) (hy : y ≠ 0) :
    (a /. b).1 = .fin 0 :=
  div_at ha hb hy (by simp) (by simp)

theorem zero_add_at {a b : F64} {y : ℝ} (ha : a.1 = .fin 0) (hb : b.1 = .fin y) : (a +. b).1 = .fin y := by
  rw [add_val, ha, hb]
  show rnd (.fin (0 + y)) = _
  rw [zero_add, rnd_rep (b.2 y hb)]

theorem add_zero_at {a b : F64} {y : ℝ} (ha : a.1 = .fin y) (hb : b.1 = .fin 0) : (a +. b).1 = .fin y := by
  rw [add_val, ha, hb]
  show rnd (.fin (y + 0)) = _
  rw [add_zero, rnd_rep (a.2 y ha)]

theorem zero_sub_zero_at {a b : F64} (ha : a.1 = .fin 0) (hb : b.1 = .fin 0) : (a -. b).1 = .fin 0 :=
  sub_at ha hb (by simp) (by simp)

theorem one_mul_at {a b : F64} {y : ℝ} (ha : a.1 = .fin 1) (hb : b.1 = .fin y) : (a *. b).1 = .fin y := by
  rw [mul_val, ha, hb, XR.mul_fin, one_mul, rnd_rep (b.2 y hb)]

theorem div_one_at {a b : F64} {y : ℝ} (ha : a.1 = .fin y) (hb : b.1 = .fin 1) : (a /. b).1 = .fin y := by
  rw [div_val, ha, hb, XR.div_fin _ _ one_ne_zero, div_one, rnd_rep (a.2 y ha)]

/-- Rounding by the digits. -/
theorem round_digits {x : ℝ} (m : ℤ) (k : ℕ) (hk : k ≤ 1000) (lo : 2 ^ 52 ≤ x * 2 ^ k) (hi : x * 2 ^ k < 2 ^ 53)
    (h : |(m : ℝ) - x * 2 ^ k| < 1 / 2 ∨ (|(m : ℝ) - x * 2 ^ k| = 1 / 2 ∧ Even m)) :
    F64.round x = m / 2 ^ k := by
  have hp : (0 : ℝ) < 2 ^ k := by positivity
  have e : (2 : ℝ) ^ (-(k : ℤ)) = 1 / 2 ^ k := by rw [zpow_neg, zpow_natCast, one_div]
  rw [round_normal (m := m) (e := -(k : ℤ)) (by omega), e]
  · ring
  · rw [e, mul_one_div, div_le_iff₀ hp]; exact lo
  · rw [e, mul_one_div, lt_div_iff₀ hp]; exact hi
  · rw [e, div_div_eq_mul_div, div_one]; exact h

/-! ### Numbers that are not negative -/

/-- A number that is not negative, possibly infinite. -/
def NN (a : F64) : Prop := a.1 = .pinf ∨ ∃ x, 0 ≤ x ∧ a.1 = .fin x

theorem rnd_nn {x : ℝ} (hx : 0 ≤ x) : rnd (.fin x) = .pinf ∨ rnd (.fin x) = .fin (F64.round x) := by
  simp only [rnd]
  split_ifs with h
  · exact .inr rfl
  · left
    unfold XR.infSign
    rw [if_pos]
    rcases hx.lt_or_eq with h0 | h0
    · exact h0
    · rw [← h0, round_zero, abs_zero] at h
      exact absurd (by positivity) h

theorem NN.mul_self {a : F64} {x : ℝ} (ha : a.1 = .fin x) : NN (a *. a) := by
  unfold NN
  rw [mul_val, ha, XR.mul_fin]
  rcases rnd_nn (mul_self_nonneg x) with h | h
  · exact .inl h
  · exact .inr ⟨_, round_nonneg (mul_self_nonneg x), h⟩

theorem NN.add {a b : F64} (ha : NN a) (hb : NN b) : NN (a +. b) := by
  unfold NN
  rw [add_val]
  rcases ha with ha | ⟨x, hx, ha⟩ <;> rcases hb with hb | ⟨y, hy, hb⟩ <;> rw [ha, hb]
  · exact .inl rfl
  · exact .inl rfl
  · exact .inl rfl
  · show rnd (.fin (x + y)) = _ ∨ ∃ z, 0 ≤ z ∧ rnd (.fin (x + y)) = _
    rcases rnd_nn (add_nonneg hx hy) with h | h
    · exact .inl h
    · exact .inr ⟨_, round_nonneg (add_nonneg hx hy), h⟩

theorem NN.div_one {a b : F64} (ha : NN a) (hb : b.1 = .fin 1) : NN (a /. b) := by
  rcases ha with ha | ⟨x, hx, ha⟩
  · left
    rw [div_val, ha, hb]
    have : (XR.pinf /. .fin 1) = .pinf := by
      show XR.div .pinf (.fin 1) = _
      simp [XR.div]
    rw [this]; rfl
  · exact .inr ⟨x, hx, div_one_at ha hb⟩

/-- The Lorentz factor of a finite momentum. -/
theorem gamma_cases {p : V3 F64} {a : Fin 3 → ℝ} (ha : p.At a) : (pushGamma (lit 1) p : F64).1 = .pinf ∨
    ∃ g, (pushGamma (lit 1) p : F64).1 = .fin g ∧ 1 ≤ g ∧
      (1 - 10 / 9007199254740992) * Real.sqrt (1 + len a ^ 2) ≤ g := by
  have hM : NN p.mag2 := ((NN.mul_self ha.1).add (NN.mul_self ha.2.1)).add (NN.mul_self ha.2.2)
  have h1 : (lit 1 *. lit 1 : F64).1 = .fin 1 := one_mul_at one_val one_val
  have hD := hM.div_one h1
  have one_form : Form 1 := by simpa using form_int (n := 1) (by norm_num)
  have hT : (lit 1 +. p.mag2 /. (lit 1 *. lit 1)).1 = .pinf ∨
      ∃ T, 1 ≤ T ∧ (lit 1 +. p.mag2 /. (lit 1 *. lit 1)).1 = .fin T := by
    rw [add_val, one_val]
    rcases hD with hD | ⟨x, hx, hD⟩ <;> rw [hD]
    · exact .inl rfl
    · show rnd (.fin (1 + x)) = _ ∨ ∃ z, 1 ≤ z ∧ rnd (.fin (1 + x)) = _
      rcases rnd_nn (show 0 ≤ 1 + x by linarith) with h | h
      · exact .inl h
      · exact .inr ⟨_, le_round one_form (by linarith), h⟩
  rcases hT with hT | ⟨T, h1T, hT⟩
  · left
    show rnd (Dbl.sqrt (lit 1 +. p.mag2 /. (lit 1 *. lit 1) : F64).1) = _
    rw [hT]; rfl
  · have hs : 1 ≤ Real.sqrt T := by rw [Real.one_le_sqrt]; exact h1T
    have hg : (pushGamma (lit 1) p : F64).1 = rnd (.fin (Real.sqrt T)) := by
      show rnd (Dbl.sqrt (lit 1 +. p.mag2 /. (lit 1 *. lit 1) : F64).1) = _
      rw [hT, XR.sqrt_fin _ (by linarith)]
    rcases rnd_nn (Real.sqrt_nonneg T) with h | h
    · exact .inl (hg.trans h)
    · right
      rw [h] at hg
      obtain ⟨a', ha', hl⟩ := gamma_at (one_mul_at one_val hg)
      rw [ha'.unique ha] at hl
      exact ⟨_, hg, le_round one_form hs, hl⟩

/-- The speed of a finite momentum. -/
theorem beta_cases {g : F64} (hg : g.1 = .pinf ∨ ∃ x, 1 ≤ x ∧ g.1 = .fin x) :
    ∃ b, (Dbl.sqrt (lit 1 -. lit 1 /. (g *. g)) : F64).1 = .fin b ∧ 0 ≤ b ∧ b ≤ 1 ∧
      ((g.1 = .pinf ∨ ∃ x, 2 ^ 27 * (5 / 4) ≤ x ∧ g.1 = .fin x) → b = 1) := by
  have one_form : Form 1 := by simpa using form_int (n := 1) (by norm_num)
  have hG : (g *. g).1 = .pinf ∨ ∃ G, 1 ≤ G ∧ (g *. g).1 = .fin G ∧
      ((g.1 = .pinf ∨ ∃ x, 2 ^ 27 * (5 / 4) ≤ x ∧ g.1 = .fin x) → 2 ^ 54 ≤ G) := by
    rw [mul_val]
    rcases hg with hg | ⟨x, hx, hg⟩ <;> rw [hg]
    · exact .inl rfl
    · rw [XR.mul_fin]
      rcases rnd_nn (mul_self_nonneg x) with h | h
      · exact .inl h
      · refine .inr ⟨_, le_round one_form (by nlinarith), h, ?_⟩
        rintro (h' | ⟨y, hy, h'⟩)
        · cases h'
        · cases h'
          have : Form (2 ^ 54) := by
            have := form_zpow (e := 54) (by norm_num)
            rwa [show ((54 : ℤ)) = ((54 : ℕ) : ℤ) by rfl, zpow_natCast] at this
          refine le_round this ?_
          norm_num at hy ⊢
          nlinarith
  have hq : ∃ q, (lit 1 /. (g *. g) : F64).1 = .fin q ∧ 0 ≤ q ∧ q ≤ 1 ∧
      ((g.1 = .pinf ∨ ∃ x, 2 ^ 27 * (5 / 4) ≤ x ∧ g.1 = .fin x) → q ≤ 1 / 2 ^ 54) := by
    rcases hG with hG | ⟨G, h1, hG, h2⟩
    · refine ⟨0, ?_, le_rfl, by norm_num, fun _ => by positivity⟩
      rw [div_val, one_val, hG]
      show rnd (.fin 0) = _
      rw [rnd_fin (by simp), round_zero]
    · have hp : 0 ≤ 1 / G := by positivity
      have hl : 1 / G ≤ 1 := by rw [div_le_one (by linarith)]; exact h1
      refine ⟨_, div_at one_val hG (by linarith) (lt_big ?_) rfl, round_nonneg hp, round_le one_form hl, ?_⟩
      · rw [abs_of_nonneg hp]; exact hl.trans (by norm_num)
      · intro h
        have : Form (1 / 2 ^ 54) := by
          have := form_zpow (e := -54) (by norm_num)
          rwa [show ((-54 : ℤ)) = -((54 : ℕ) : ℤ) by rfl, zpow_neg, zpow_natCast, ← one_div] at this
        refine round_le this ?_
        exact one_div_le_one_div_of_le (by positivity) (h2 h)
  obtain ⟨q, hq, q0, q1, q2⟩ := hq
  have hd := sub_at (z := F64.round (1 - q)) one_val hq (lt_big (by
    rw [abs_of_nonneg (by linarith)]; linarith [show (1 : ℝ) ≤ 2 ^ 100 by norm_num])) rfl
  have d0 : 0 ≤ F64.round (1 - q) := round_nonneg (by linarith)
  have d1 : F64.round (1 - q) ≤ 1 := round_le one_form (by linarith)
  have hs1 : Real.sqrt (F64.round (1 - q)) ≤ 1 := Real.sqrt_le_one.mpr d1
  refine ⟨_, sqrt_at hd d0 (lt_big ?_) rfl, round_nonneg (Real.sqrt_nonneg _), round_le one_form hs1, ?_⟩
  · rw [abs_of_nonneg (Real.sqrt_nonneg _)]; exact hs1.trans (by norm_num)
  · intro h
    have h2 := q2 h
    have : F64.round (1 - q) = 1 := by
      rcases q0.lt_or_eq with h0 | h0
      · rw [round_digits (2 ^ 53) 53 (by norm_num)]
        · norm_num
        · norm_num at h2 ⊢; linarith
        · norm_num at h2 ⊢; linarith
        · rcases h2.lt_or_eq with h3 | h3
          · left
            norm_num at h3 ⊢
            rw [abs_lt]
            constructor <;> linarith
          · right
            refine ⟨?_, by decide⟩
            rw [h3]
            norm_num
      · rw [← h0, sub_zero, round_form_eq one_form]
    rw [this, Real.sqrt_one, round_form_eq one_form]

end F64

namespace SpeedWitness

open F64

/-- No field. -/
noncomputable def field : Field F64 := fun _ _ => (⟨lit 0, lit 0, lit 0⟩, ⟨lit 0, lit 0, lit 0⟩)

/-- A momentum of `17 * 2 ^ 30`. -/
noncomputable def mom : V3 F64 := ⟨lit 16106127360, lit 8589934592, lit 0⟩

noncomputable def zero : V3 F64 := ⟨lit 0, lit 0, lit 0⟩

/-- An electron at the origin. -/
noncomputable def electron : Particle F64 :=
  .newLepton (lit 1) (lit (-1)) zero mom (lit 1) (lit 0) false (lit 0)

theorem x_val : (lit 16106127360 : F64).1 = .fin 16106127360 := by
  have := lit_val (q := ((16106127360 : ℕ) : ℚ)) (rep_small (by norm_num))
  simpa using this

theorem y_val : (lit 8589934592 : F64).1 = .fin 8589934592 := by
  have := lit_val (q := ((8589934592 : ℕ) : ℚ)) (rep_small (by norm_num))
  simpa using this

theorem mag2_val : mom.mag2.1 = .fin 333194314831378776064 := by
  have hx : (lit 16106127360 *. lit 16106127360 : F64).1 = .fin 259407338536540569600 :=
    mul_at x_val x_val (lt_big (by norm_num)) (by
      rw [round_int_mul 225 60 (by norm_num) (by norm_num)]; norm_num)
  have hy : (lit 8589934592 *. lit 8589934592 : F64).1 = .fin 73786976294838206464 :=
    mul_at y_val y_val (lt_big (by norm_num)) (by
      rw [round_int_mul 64 60 (by norm_num) (by norm_num)]; norm_num)
  have hz : (lit 0 *. lit 0 : F64).1 = .fin 0 := zero_mul_at zero_val zero_val
  have hxy := add_at (z := 333194314831378776064) hx hy (lt_big (by norm_num)) (by
    rw [round_int_mul 289 60 (by norm_num) (by norm_num)]; norm_num)
  exact add_zero_at hxy hz

theorem one_sq : (lit 1 *. lit 1 : F64).1 = .fin 1 := one_mul_at one_val one_val

theorem gamma_val : (lit 1 *. pushGamma (lit 1) mom : F64).1 = .fin 18253611008 := by
  have h1 : (mom.mag2 /. (lit 1 *. lit 1)).1 = .fin 333194314831378776064 := div_one_at mag2_val one_sq
  have h2 := add_at (z := 333194314831378776064) one_val h1 (lt_big (by norm_num)) (by
    rw [round_normal (m := 289 * 2 ^ 44) (e := 16) (by norm_num)]
    · norm_num
    · norm_num
    · norm_num
    · left
      rw [abs_lt]
      norm_num)
  have hs : Real.sqrt 333194314831378776064 = 18253611008 := by
    rw [show (333194314831378776064 : ℝ) = 18253611008 ^ 2 by norm_num]
    exact Real.sqrt_sq (by norm_num)
  have h3 := sqrt_at (z := 18253611008) h2 (by norm_num) (by rw [hs]; exact lt_big (by norm_num)) (by
    rw [hs, round_int_mul 18253611008 0 (by norm_num) (by norm_num)])
  exact one_mul_at one_val h3

/-- The velocity, with its two coordinates rounded. -/
theorem vel : (pushPosition (lit 1) mom).At
    ![7947528754183228 / 2 ^ 53, 8477364004462110 / 2 ^ 54, 0] := by
  refine ⟨?_, ?_, ?_⟩
  · refine div_at x_val gamma_val (by norm_num) (lt_big (by norm_num)) ?_
    rw [round_digits 7947528754183228 53 (by norm_num) (by norm_num) (by norm_num)
      (.inl (by rw [abs_lt]; norm_num))]
    norm_num
  · refine div_at y_val gamma_val (by norm_num) (lt_big (by norm_num)) ?_
    rw [round_digits 8477364004462110 54 (by norm_num) (by norm_num) (by norm_num)
      (.inl (by rw [abs_lt]; norm_num))]
    norm_num
  · exact zero_div_at zero_val gamma_val (by norm_num)

theorem minus_val : (lit (-1) : F64).1 = .fin (-1) := by
  have h : Rep (((-1 : ℚ)) : ℝ) := by
    have := rep_int (n := -1) (by norm_num)
    simpa using this
  have := lit_val h
  simpa using this

theorem eq_of_val {a b : F64} {x : ℝ} (ha : a.1 = .fin x) (hb : b.1 = .fin x) : a = b :=
  Subtype.ext (ha.trans hb.symm)

/-- Without field there is no force. -/
theorem no_force (time : F64) (pos : V3 F64) :
    lorentzForce (lit 1) (lit (-1)) mom (field time pos).1 (field time pos).2 = zero := by
  have c : ∀ {a b c d : F64} {x y : ℝ}, a.1 = .fin x → b.1 = .fin 0 → c.1 = .fin y → d.1 = .fin 0 →
      (lit (-1) *. (lit 0 +. (a *. b -. c *. d) /. (lit 1 *. pushGamma (lit 1) mom)) : F64) = lit 0 := by
    intro a b c d x y ha hb hc hd
    refine eq_of_val (mul_zero_at minus_val (zero_add_at zero_val (zero_div_at (zero_sub_zero_at
      (mul_zero_at ha hb) (mul_zero_at hc hd)) gamma_val (by norm_num)))) zero_val
  show V3.mk _ _ _ = V3.mk _ _ _
  congr 1
  · exact c y_val zero_val zero_val zero_val
  · exact c zero_val zero_val x_val zero_val
  · exact c x_val zero_val y_val zero_val

/-- The momentum after a part of a step. -/
theorem same_mom : mom.add ((zero.muls (lit 6)).divs (lit 2)) = mom ∧ mom.add (zero.muls (lit 6)) = mom := by
  have z1 : (lit 0 *. lit 6 : F64).1 = .fin 0 := zero_mul_at zero_val six_val
  have z2 : ((lit 0 *. lit 6) /. lit 2 : F64).1 = .fin 0 := zero_div_at z1 two_val (by norm_num)
  constructor
  · show V3.mk _ _ _ = V3.mk _ _ _
    congr 1
    · exact eq_of_val (add_zero_at x_val z2) x_val
    · exact eq_of_val (add_zero_at y_val z2) y_val
    · exact eq_of_val (add_zero_at zero_val z2) zero_val
  · show V3.mk _ _ _ = V3.mk _ _ _
    congr 1
    · exact eq_of_val (add_zero_at x_val z1) x_val
    · exact eq_of_val (add_zero_at y_val z1) y_val
    · exact eq_of_val (add_zero_at zero_val z1) zero_val

theorem step_eq (time : F64) : (rk4 lorentzForce field (lit 6) (lit 1) (lit (-1)) time zero mom).1 =
    zero.add (((((pushPosition (lit 1) mom).add ((pushPosition (lit 1) mom).smul (lit 2))).add
      ((pushPosition (lit 1) mom).smul (lit 2))).add (pushPosition (lit 1) mom)).smul (lit 6 /. lit 6)) := by
  unfold rk4
  dsimp only
  rw [no_force, same_mom.1, no_force, same_mom.1, no_force, same_mom.2]

theorem sixth : (lit 6 /. lit 6 : F64).1 = .fin 1 :=
  div_at six_val six_val (by norm_num) (lt_big (by norm_num)) (by
    rw [round_int_mul 1 0 (by norm_num) (by norm_num)]; norm_num)

/-- The new position. -/
theorem moved (time : F64) : (rk4 lorentzForce field (lit 6) (lit 1) (lit (-1)) time zero mom).1.At
    ![5960646565637422 / 2 ^ 50, 6358023003346582 / 2 ^ 51, 0] := by
  rw [step_eq]
  obtain ⟨hx, hy, hz⟩ := vel
  refine ⟨?_, ?_, ?_⟩
  · have d := mul_at (z := 7947528754183228 / 2 ^ 52) two_val hx (lt_big (by norm_num)) (by
      rw [show (2 : ℝ) * ![7947528754183228 / 2 ^ 53, 8477364004462110 / 2 ^ 54, 0] 0 =
        7947528754183228 / 2 ^ 52 by norm_num]
      rw [round_digits 7947528754183228 52 (by norm_num) (by norm_num) (by norm_num)
        (.inl (by rw [abs_lt]; norm_num))]
      norm_num)
    have s1 := add_at (z := 5960646565637421 / 2 ^ 51) hx d (lt_big (by norm_num)) (by
      rw [round_digits 5960646565637421 51 (by norm_num) (by norm_num) (by norm_num)
        (.inl (by rw [abs_lt]; norm_num))]
      norm_num)
    have s2 := add_at (z := 4967205471364518 / 2 ^ 50) s1 d (lt_big (by norm_num)) (by
      rw [round_digits 4967205471364518 50 (by norm_num) (by norm_num) (by norm_num)
        (.inr ⟨by rw [abs_eq (by norm_num)]; norm_num, by decide⟩)]
      norm_num)
    have s3 := add_at (z := 5960646565637422 / 2 ^ 50) s2 hx (lt_big (by norm_num)) (by
      rw [round_digits 5960646565637422 50 (by norm_num) (by norm_num) (by norm_num)
        (.inr ⟨by rw [abs_eq (by norm_num)]; norm_num, by decide⟩)]
      norm_num)
    exact zero_add_at zero_val (one_mul_at sixth s3)
  · have d := mul_at (z := 8477364004462110 / 2 ^ 53) two_val hy (lt_big (by norm_num)) (by
      rw [show (2 : ℝ) * ![7947528754183228 / 2 ^ 53, 8477364004462110 / 2 ^ 54, 0] 1 =
        8477364004462110 / 2 ^ 53 by norm_num]
      rw [round_digits 8477364004462110 53 (by norm_num) (by norm_num) (by norm_num)
        (.inl (by rw [abs_lt]; norm_num))]
      norm_num)
    have s1 := add_at (z := 6358023003346582 / 2 ^ 52) hy d (lt_big (by norm_num)) (by
      rw [round_digits 6358023003346582 52 (by norm_num) (by norm_num) (by norm_num)
        (.inr ⟨by rw [abs_eq (by norm_num)]; norm_num, by decide⟩)]
      norm_num)
    have s2 := add_at (z := 5298352502788818 / 2 ^ 51) s1 d (lt_big (by norm_num)) (by
      rw [round_digits 5298352502788818 51 (by norm_num) (by norm_num) (by norm_num)
        (.inr ⟨by rw [abs_eq (by norm_num)]; norm_num, by decide⟩)]
      norm_num)
    have s3 := add_at (z := 6358023003346582 / 2 ^ 51) s2 hy (lt_big (by norm_num)) (by
      rw [round_digits 6358023003346582 51 (by norm_num) (by norm_num) (by norm_num)
        (.inl (by rw [abs_lt]; norm_num))]
      norm_num)
    exact zero_add_at zero_val (one_mul_at sixth s3)
  · have d : (lit 2 *. (pushPosition (lit 1) mom).z : F64).1 = .fin 0 := mul_zero_at two_val hz
    have s1 := add_zero_at hz d
    have s2 := add_zero_at s1 d
    have s3 := add_zero_at s2 hz
    exact zero_add_at zero_val (one_mul_at sixth s3)

end SpeedWitness
end QED
