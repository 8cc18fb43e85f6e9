import Verif.Lemmas.F64Hist
import Verif.Lemmas.Pushers
import Verif.Spec.Speed

set_option autoImplicit false

/-!
# Speeds in double precision
-/

namespace QED

open Dbl

namespace F64

theorem rnd_inv {v : XR} {z : ℝ} (h : rnd v = .fin z) : ∃ x, v = .fin x ∧ z = round x := by
  cases v with
  | fin x =>
    simp only [rnd] at h
    split_ifs at h
    · exact ⟨x, rfl, by simpa using h.symm⟩
    · unfold XR.infSign at h
      split_ifs at h
  | pinf => cases h
  | ninf => cases h
  | nan => cases h

theorem add_inv {a b : F64} {z : ℝ} (h : (a +. b).1 = .fin z) :
    ∃ x y, a.1 = .fin x ∧ b.1 = .fin y ∧ z = round (x + y) := by
  obtain ⟨x, hx, hz⟩ := rnd_inv h
  cases ha : a.1 <;> cases hb : b.1 <;> rw [ha, hb] at hx <;> first | (cases hx; done) | (cases hx; exact ⟨_, _, rfl, rfl, hz⟩)

theorem mul_inv {a b : F64} {z : ℝ} (h : (a *. b).1 = .fin z) :
    ∃ x y, a.1 = .fin x ∧ b.1 = .fin y ∧ z = round (x * y) := by
  obtain ⟨x, hx, hz⟩ := rnd_inv h
  have key : ∀ c : ℝ, XR.infSign c ≠ .fin x := by
    intro c hc
    unfold XR.infSign at hc
    split_ifs at hc
  cases ha : a.1 <;> cases hb : b.1 <;> rw [ha, hb] at hx <;>
    first
      | exact absurd hx (key _)
      | (cases hx; exact ⟨_, _, rfl, rfl, hz⟩)
      | cases hx

theorem div_inv {a b : F64} {z : ℝ} (h : (a /. b).1 = .fin z) :
    ∃ x, a.1 = .fin x ∧ ((∃ y, y ≠ 0 ∧ b.1 = .fin y ∧ z = round (x / y)) ∨
      ((b.1 = .pinf ∨ b.1 = .ninf) ∧ z = 0)) := by
  obtain ⟨x, hx, hz⟩ := rnd_inv h
  cases ha : a.1 with
  | fin p =>
    refine ⟨p, rfl, ?_⟩
    cases hb : b.1 with
    | fin q =>
      rw [ha, hb] at hx
      by_cases hq : q = 0
      · rw [hq, XR.div_zero] at hx
        unfold XR.infSign at hx
        split_ifs at hx
      · rw [XR.div_fin _ _ hq] at hx
        cases hx
        exact .inl ⟨q, hq, rfl, hz⟩
    | pinf =>
      rw [ha, hb] at hx
      cases hx
      exact .inr ⟨.inl rfl, by rw [hz, round_zero]⟩
    | ninf =>
      rw [ha, hb] at hx
      cases hx
      exact .inr ⟨.inr rfl, by rw [hz, round_zero]⟩
    | nan => rw [ha, hb] at hx; cases hx
  | pinf =>
    cases hb : b.1 with
    | fin q =>
      rw [ha, hb] at hx
      have : XR.div .pinf (.fin q) = .fin x := hx
      simp only [XR.div] at this
      split_ifs at this
    | pinf => rw [ha, hb] at hx; cases hx
    | ninf => rw [ha, hb] at hx; cases hx
    | nan => rw [ha, hb] at hx; cases hx
  | ninf =>
    cases hb : b.1 with
    | fin q =>
      rw [ha, hb] at hx
      have : XR.div .ninf (.fin q) = .fin x := hx
      simp only [XR.div] at this
      split_ifs at this
    | pinf => rw [ha, hb] at hx; cases hx
    | ninf => rw [ha, hb] at hx; cases hx
    | nan => rw [ha, hb] at hx; cases hx
  | nan => rw [ha] at hx; simp at hx

theorem sqrt_inv {a : F64} {z : ℝ} (h : (Dbl.sqrt a).1 = .fin z) :
    ∃ x, 0 ≤ x ∧ a.1 = .fin x ∧ z = round (Real.sqrt x) := by
  obtain ⟨x, hx, hz⟩ := rnd_inv h
  cases ha : a.1 with
  | fin p =>
    rw [ha] at hx
    by_cases hp : p < 0
    · rw [XR.sqrt_neg _ hp] at hx; cases hx
    · rw [XR.sqrt_fin _ (not_lt.mp hp)] at hx
      cases hx
      exact ⟨p, not_lt.mp hp, rfl, hz⟩
  | pinf => rw [ha] at hx; cases hx
  | ninf => rw [ha] at hx; cases hx
  | nan => rw [ha] at hx; cases hx

theorem lit_val {q : ℚ} (h : Rep (q : ℝ)) : (lit q : F64).1 = .fin (q : ℝ) := by
  rw [lit_rep h]; rfl

theorem rep_small {n : ℕ} (h : n ≤ 2 ^ 53) : Rep (((n : ℚ)) : ℝ) := by
  simpa using rep_nat h

theorem one_val : (lit 1 : F64).1 = .fin 1 := by
  have := lit_val (q := ((1 : ℕ) : ℚ)) (rep_small (by norm_num))
  simpa using this

theorem two_val : (lit 2 : F64).1 = .fin 2 := by
  have := lit_val (q := ((2 : ℕ) : ℚ)) (rep_small (by norm_num))
  simpa using this

theorem six_val : (lit 6 : F64).1 = .fin 6 := by
  have := lit_val (q := ((6 : ℕ) : ℚ)) (rep_small (by norm_num))
  simpa using this

theorem zero_val : (lit 0 : F64).1 = .fin 0 := by
  have := lit_val (q := ((0 : ℕ) : ℚ)) (rep_small (by norm_num))
  simpa using this

/-- The smallest error, that of subnormal numbers. -/
noncomputable def eta : ℝ := 2 ^ (-1075 : ℤ)

theorem eta_pos : 0 < eta := two_zpow_pos _

theorem eta_small : eta ≤ 1 / 2 ^ 100 := by
  have : eta ≤ 2 ^ (-100 : ℤ) := zpow_le_zpow_right₀ (by norm_num) (by norm_num)
  refine this.trans (le_of_eq ?_)
  rw [zpow_neg, one_div]
  rfl

/-- Rounding errors with numbers. -/
theorem round_err (x : ℝ) : |round x - x| ≤ 1 / 9007199254740992 * |x| + eta := by
  have h := round_rel x
  rw [show (2 : ℝ) ^ (-53 : ℤ) = 1 / 9007199254740992 by norm_num] at h
  exact h

theorem round_ge {x : ℝ} (hx : 0 ≤ x) : x - 1 / 9007199254740992 * x - eta ≤ round x := by
  have h := (abs_le.mp (round_err x)).1
  rw [abs_of_nonneg hx] at h
  linarith

theorem round_nonneg {x : ℝ} (hx : 0 ≤ x) : 0 ≤ round x := le_round form_zero hx

theorem round_abs_le (x : ℝ) : |round x| ≤ |x| + 1 / 9007199254740992 * |x| + eta := by
  have h := round_err x
  have := abs_sub_abs_le_abs_sub (round x) x
  linarith

end F64

open F64

theorem len_mono {a c : Fin 3 → ℝ} (h : ∀ i, |a i| ≤ c i) : len a ≤ len c := by
  unfold len
  apply Real.sqrt_le_sqrt
  have := fun i => sq_le_sq' (by linarith [neg_abs_le (a i), h i, abs_nonneg (a i)] : -(c i) ≤ a i)
    ((le_abs_self _).trans (h i))
  linarith [this 0, this 1, this 2]

/-- Componentwise errors as an error of the vector. -/
theorem len_err {a b : Fin 3 → ℝ} {k e : ℝ} (hk : 0 ≤ k) (he : 0 ≤ e) (h : ∀ i, |a i| ≤ k * |b i| + e) :
    len a ≤ k * len b + 2 * e := by
  have h1 : len a ≤ len ((k • fun i => |b i|) + fun _ => e) := len_mono h
  have h2 := len_add_le (k • fun i => |b i|) (fun _ : Fin 3 => e)
  have h3 : len (k • fun i => |b i|) = k * len b := by
    rw [len_smul, abs_of_nonneg hk]
    unfold len
    simp only [sq_abs]
  have h4 : len (fun _ : Fin 3 => e) ≤ 2 * e := by
    unfold len
    rw [Real.sqrt_le_left (by positivity)]
    nlinarith [sq_nonneg e]
  linarith

/-- A vector of doubles whose components are rounded. -/
theorem len_round {a b : Fin 3 → ℝ} (h : ∀ i, a i = F64.round (b i)) :
    len (a - b) ≤ 1 / 9007199254740992 * len b + 2 * eta := by
  apply len_err (by norm_num) eta_pos.le
  intro i
  rw [Pi.sub_apply, h]
  exact round_err _

theorem len_round_le {a b : Fin 3 → ℝ} (h : ∀ i, a i = F64.round (b i)) :
    len a ≤ len b + 1 / 9007199254740992 * len b + 2 * eta := by
  have h1 := len_round h
  have h2 := len_add_le (a - b) b
  rw [sub_add_cancel] at h2
  linarith

/-! ## Vectors of doubles -/

namespace V3.At

theorem mk' {v : V3 F64} {w : Fin 3 → ℝ} (hx : v.x.1 = .fin (w 0)) (hy : v.y.1 = .fin (w 1))
    (hz : v.z.1 = .fin (w 2)) : v.At w := ⟨hx, hy, hz⟩

theorem unique {v : V3 F64} {w w' : Fin 3 → ℝ} (h : v.At w) (h' : v.At w') : w = w' := by
  obtain ⟨a, b, c⟩ := h
  obtain ⟨a', b', c'⟩ := h'
  rw [a] at a'; rw [b] at b'; rw [c] at c'
  ext i
  fin_cases i
  · simpa using a'
  · simpa using b'
  · simpa using c'

theorem add_inv {v w : V3 F64} {z : Fin 3 → ℝ} (h : (v.add w).At z) :
    ∃ a b, v.At a ∧ w.At b ∧ ∀ i, z i = F64.round ((a + b) i) := by
  obtain ⟨hx, hy, hz⟩ := h
  obtain ⟨a0, b0, ha0, hb0, h0⟩ := F64.add_inv hx
  obtain ⟨a1, b1, ha1, hb1, h1⟩ := F64.add_inv hy
  obtain ⟨a2, b2, ha2, hb2, h2⟩ := F64.add_inv hz
  refine ⟨![a0, a1, a2], ![b0, b1, b2], ⟨ha0, ha1, ha2⟩, ⟨hb0, hb1, hb2⟩, ?_⟩
  intro i; fin_cases i <;> simpa

theorem smul_inv {s : F64} {w : V3 F64} {z : Fin 3 → ℝ} (h : (w.smul s).At z) :
    ∃ c b, s.1 = .fin c ∧ w.At b ∧ ∀ i, z i = F64.round ((c • b) i) := by
  obtain ⟨hx, hy, hz⟩ := h
  obtain ⟨c, b0, hc, hb0, h0⟩ := F64.mul_inv hx
  obtain ⟨c1, b1, hc1, hb1, h1⟩ := F64.mul_inv hy
  obtain ⟨c2, b2, hc2, hb2, h2⟩ := F64.mul_inv hz
  rw [hc] at hc1 hc2
  cases hc1; cases hc2
  refine ⟨c, ![b0, b1, b2], hc, ⟨hb0, hb1, hb2⟩, ?_⟩
  intro i; fin_cases i <;> simpa

end V3.At

/-- The sum of squares as computed is not much less than the exact one. -/
theorem mag2_at {p : V3 F64} {m : ℝ} (h : p.mag2.1 = .fin m) : ∃ a, p.At a ∧ 0 ≤ m ∧
    (1 - 3 / 9007199254740992) * len a ^ 2 - 5 * eta ≤ m := by
  obtain ⟨s, c, hs, hc, hm⟩ := F64.add_inv h
  obtain ⟨a, b, ha, hb, hs'⟩ := F64.add_inv hs
  obtain ⟨x, x', hx, hx', hax⟩ := F64.mul_inv ha
  obtain ⟨y, y', hy, hy', hby⟩ := F64.mul_inv hb
  obtain ⟨z, z', hz, hz', hcz⟩ := F64.mul_inv hc
  rw [hx] at hx'; rw [hy] at hy'; rw [hz] at hz'
  cases hx'; cases hy'; cases hz'
  have hl : len ![x, y, z] ^ 2 = x * x + y * y + z * z := by
    unfold len
    rw [Real.sq_sqrt (by positivity)]
    simp
    ring
  have p1 := round_ge (mul_self_nonneg x)
  have p2 := round_ge (mul_self_nonneg y)
  have p3 := round_ge (mul_self_nonneg z)
  have n1 := round_nonneg (mul_self_nonneg x)
  have n2 := round_nonneg (mul_self_nonneg y)
  have n3 := round_nonneg (mul_self_nonneg z)
  rw [← hax] at p1 n1
  rw [← hby] at p2 n2
  rw [← hcz] at p3 n3
  have p4 := round_ge (add_nonneg n1 n2)
  have n4 := round_nonneg (add_nonneg n1 n2)
  rw [← hs'] at p4 n4
  have p5 := round_ge (add_nonneg n4 n3)
  have n5 := round_nonneg (add_nonneg n4 n3)
  rw [← hm] at p5 n5
  refine ⟨![x, y, z], ⟨hx, hy, hz⟩, n5, ?_⟩
  rw [hl]
  have e := eta_pos
  have q1 := mul_self_nonneg x
  have q2 := mul_self_nonneg y
  have q3 := mul_self_nonneg z
  linarith

/-- The Lorentz factor as computed is not much less than the exact one. -/
theorem gamma_at {p : V3 F64} {g : ℝ} (h : (lit 1 *. pushGamma (lit 1) p : F64).1 = .fin g) :
    ∃ a, p.At a ∧ (1 - 10 / 9007199254740992) * Real.sqrt (1 + len a ^ 2) ≤ g := by
  obtain ⟨o, g', ho, hg', hg⟩ := F64.mul_inv h
  rw [one_val] at ho
  cases ho
  obtain ⟨T, hT0, hT, hgT⟩ := F64.sqrt_inv hg'
  obtain ⟨o', M', ho', hM', hTM⟩ := F64.add_inv hT
  rw [one_val] at ho'
  cases ho'
  have hw : (lit 1 *. lit 1 : F64).1 = .fin 1 := by
    rw [F64.mul_val, one_val, XR.mul_fin, rnd_rep]
    · norm_num
    · simpa using rep_nat (n := 1) (by norm_num)
  obtain ⟨M, hM, hd⟩ := F64.div_inv hM'
  rw [hw] at hd
  rcases hd with ⟨y, -, hy, hMM⟩ | ⟨hc | hc, -⟩
  · cases hy
    obtain ⟨a, ha, hM0, hMa⟩ := mag2_at hM
    refine ⟨a, ha, ?_⟩
    rw [div_one] at hMM
    have e := eta_pos
    have e' := eta_small
    have hQ : 0 ≤ len a ^ 2 := sq_nonneg _
    have p1 := round_ge hM0
    have n1 := round_nonneg hM0
    rw [← hMM] at p1 n1
    have p2 := round_ge (add_nonneg zero_le_one n1)
    rw [← hTM] at p2
    have hT1 : (1 - 7 / 9007199254740992) * (1 + len a ^ 2) ≤ T := by
      norm_num at e'
      linarith
    have hs := Real.sqrt_nonneg (1 + len a ^ 2)
    have hs2 := Real.sq_sqrt (show (0 : ℝ) ≤ 1 + len a ^ 2 by positivity)
    have hs1 : 1 ≤ Real.sqrt (1 + len a ^ 2) := by
      rw [Real.one_le_sqrt]; linarith
    have hr : (1 - 7 / 9007199254740992) * Real.sqrt (1 + len a ^ 2) ≤ Real.sqrt T := by
      apply Real.le_sqrt_of_sq_le
      rw [mul_pow, hs2]
      refine le_trans ?_ hT1
      have : (0 : ℝ) ≤ 1 + len a ^ 2 := by positivity
      nlinarith
    have p3 := round_ge (Real.sqrt_nonneg T)
    have n3 := round_nonneg (Real.sqrt_nonneg T)
    rw [← hgT] at p3 n3
    rw [one_mul] at hg
    have p4 := round_ge n3
    rw [← hg] at p4
    norm_num at e'
    linarith
  · cases hc
  · cases hc

/-- C27 for one velocity in doubles. -/
theorem speed_at {p : V3 F64} {v : Fin 3 → ℝ} (h : (pushPosition (lit 1) p).At v) :
    len v ≤ 1 + 12 / 9007199254740992 := by
  obtain ⟨hx, hy, hz⟩ := h
  obtain ⟨x, hpx, h0⟩ := F64.div_inv hx
  obtain ⟨y, hpy, h1⟩ := F64.div_inv hy
  obtain ⟨z, hpz, h2⟩ := F64.div_inv hz
  rcases h0 with ⟨g, hg0, hg, h0⟩ | ⟨hinf, h0⟩
  · rcases h1 with ⟨g1, -, hg1, h1⟩ | ⟨hc | hc, -⟩
    rcases h2 with ⟨g2, -, hg2, h2⟩ | ⟨hc | hc, -⟩
    · rw [hg] at hg1 hg2
      cases hg1; cases hg2
      obtain ⟨a, ha, hga⟩ := gamma_at hg
      have hav : a = ![x, y, z] := ha.unique ⟨hpx, hpy, hpz⟩
      have hr : ∀ i, v i = F64.round ((g⁻¹ • a) i) := by
        rw [hav]
        intro i
        fin_cases i
        · simpa [div_eq_inv_mul] using h0
        · simpa [div_eq_inv_mul] using h1
        · simpa [div_eq_inv_mul] using h2
      have hs1 : 1 ≤ Real.sqrt (1 + len a ^ 2) := by
        rw [Real.one_le_sqrt]; nlinarith [sq_nonneg (len a)]
      have hgp : 0 < g := by
        refine lt_of_lt_of_le ?_ hga
        apply mul_pos (by norm_num)
        linarith
      have hls : len a ≤ Real.sqrt (1 + len a ^ 2) := by
        apply Real.le_sqrt_of_sq_le; linarith
      have hq : len (g⁻¹ • a) ≤ 1 + 101 / 90071992547409920 := by
        rw [len_smul, abs_of_pos (inv_pos.mpr hgp), inv_mul_le_iff₀ hgp]
        refine hls.trans ?_
        have : (1 + 101 / 90071992547409920) * ((1 - 10 / 9007199254740992) * Real.sqrt (1 + len a ^ 2)) ≤
            (1 + 101 / 90071992547409920) * g := mul_le_mul_of_nonneg_left hga (by norm_num)
        rw [mul_comm g]
        refine le_trans ?_ this
        rw [← mul_assoc]
        exact le_mul_of_one_le_left (by linarith) (by norm_num)
      have := len_round_le hr
      have e' := eta_small
      norm_num at e' hq ⊢
      linarith
    · rw [hg] at hc; cases hc
    · rw [hg] at hc; cases hc
    · rw [hg] at hc; cases hc
    · rw [hg] at hc; cases hc
  · have key : ∀ {w : ℝ} {c : ℝ}, ((∃ y, y ≠ 0 ∧ (lit 1 *. pushGamma (lit 1) p : F64).1 = .fin y ∧ w = F64.round (c / y)) ∨
        ((lit 1 *. pushGamma (lit 1) p : F64).1 = .pinf ∨ (lit 1 *. pushGamma (lit 1) p : F64).1 = .ninf) ∧ w = 0) →
        w = 0 := by
      rintro w c (⟨y, -, hy, -⟩ | ⟨-, hw⟩)
      · rcases hinf with hc | hc <;> rw [hc] at hy <;> cases hy
      · exact hw
    have : len v = 0 := by
      unfold len
      rw [h0, key h1, key h2]
      simp
    rw [this]
    norm_num

/-- The new position of a Runge-Kutta step in doubles. -/
theorem rk4_at {push : PushMom F64} {field : Field F64} {dt : F64} {charge time : F64} {pos mom : V3 F64}
    {τ : ℝ} (hdt : dt.1 = .fin τ) (h0 : 0 ≤ τ) {x' : Fin 3 → ℝ}
    (h : (rk4 push field dt (lit 1) charge time pos mom).1.At x') :
    ∃ x, pos.At x ∧ len (x' - x) ≤ (1 + 1 / 2 ^ 47) * τ + 1 / 2 ^ 52 * len x' + 2 ^ 6 * eta := by
  obtain ⟨x, d, hx, hd, hx'⟩ := V3.At.add_inv h
  refine ⟨x, hx, ?_⟩
  obtain ⟨c, S, hc, hS, hdS⟩ := V3.At.smul_inv hd
  obtain ⟨S3, k4, hS3, hk4, hSS⟩ := V3.At.add_inv hS
  obtain ⟨S2, d3, hS2, hd3, hSS3⟩ := V3.At.add_inv hS3
  obtain ⟨k1, d2, hk1, hd2, hSS2⟩ := V3.At.add_inv hS2
  obtain ⟨t2, k2, ht2, hk2, hdd2⟩ := V3.At.smul_inv hd2
  obtain ⟨t3, k3, ht3, hk3, hdd3⟩ := V3.At.smul_inv hd3
  rw [two_val] at ht2 ht3
  cases ht2; cases ht3
  have b1 := speed_at hk1
  have b2 := speed_at hk2
  have b3 := speed_at hk3
  have b4 := speed_at hk4
  have e0 := eta_pos
  have e1 := eta_small
  norm_num at e1
  have l2 := len_round_le hdd2
  have l3 := len_round_le hdd3
  rw [len_smul, abs_of_pos two_pos] at l2 l3
  have m2 := len_round_le hSS2
  have m2' := len_add_le k1 d2
  have m3 := len_round_le hSS3
  have m3' := len_add_le S2 d3
  have m4 := len_round_le hSS
  have m4' := len_add_le S3 k4
  have hS6 : len S ≤ 6 * (1 + 17 / 9007199254740992) := by
    norm_num at *
    linarith
  obtain ⟨τ', hτ', hcd⟩ := F64.div_inv hc
  rw [hdt] at hτ'
  cases hτ'
  rw [six_val] at hcd
  rcases hcd with ⟨y, -, hy, hcd⟩ | ⟨hcc | hcc, -⟩
  · cases hy
    have c1 := round_abs_le (τ / 6)
    rw [← hcd, abs_of_nonneg (show 0 ≤ τ / 6 by positivity)] at c1
    have d1 := len_round_le hdS
    rw [len_smul] at d1
    have hp : |c| * len S ≤ (τ / 6 + 1 / 9007199254740992 * (τ / 6) + eta) * (6 * (1 + 17 / 9007199254740992)) :=
      mul_le_mul c1 hS6 (len_nonneg _) (by positivity)
    have hdl : len d ≤ (1 + 20 / 9007199254740992) * τ + 10 * eta := by
      norm_num at *
      linarith
    have f1 := len_round hx'
    have f2 : len (x + d) ≤ len x' + len (x' - (x + d)) := by
      have := len_add_le x' (-(x' - (x + d)))
      rw [← neg_one_smul ℝ (x' - (x + d)), len_smul, abs_neg, abs_one, one_mul, neg_one_smul, show x' + -(x' - (x + d)) = x + d by abel] at this
      exact this
    have f3 : len (x' - x) ≤ len (x' - (x + d)) + len d := by
      have := len_add_le (x' - (x + d)) d
      rwa [show x' - (x + d) + d = x' - x by abel] at this
    have n1 := len_nonneg x'
    norm_num at *
    linarith
  · cases hcc
  · cases hcc

end QED
