import Verif.Lemmas.F64Witness

set_option autoImplicit false
set_option exponentiation.threshold 2000

/-!
# Steps of straight flight in double precision
-/

namespace QED

open Dbl F64

namespace Flight

/-- Rounding keeps a number close to another one. -/
theorem round_near {v x s k : ℝ} (hk' : k ≤ 100) (hs : |x| ≤ s) (lo : eta ≤ s / 1000000000000000000000)
    (h : |v - x| ≤ k / 9007199254740992 * s) :
    |F64.round v - x| ≤ (k + 11 / 10) / 9007199254740992 * s := by
  have h1 := round_err v
  have h2 : |v| ≤ |v - x| + |x| := by simpa using abs_add_le (v - x) x
  have h3 : |F64.round v - x| ≤ |F64.round v - v| + |v - x| := abs_sub_le _ _ _
  have hs0 : 0 ≤ s := (abs_nonneg x).trans hs
  have h4 : k / 9007199254740992 * s ≤ 100 / 9007199254740992 * s := by
    apply mul_le_mul_of_nonneg_right _ hs0
    apply div_le_div_of_nonneg_right hk' (by norm_num)
  have e : (k + 11 / 10) / 9007199254740992 * s =
    k / 9007199254740992 * s + 11 / 10 / 9007199254740992 * s := by ring
  rw [e]
  linarith

theorem eta_le {s : ℝ} (h : (1 / 2) ^ 900 ≤ s) : eta ≤ s / 1000000000000000000000 := by
  have h1 : eta ≤ (1 / 2) ^ 900 * (1 / 2) ^ 100 := by
    rw [← pow_add]
    unfold eta
    rw [show (-1075 : ℤ) = -((1075 : ℕ) : ℤ) by norm_num, zpow_neg, zpow_natCast, one_div, inv_pow]
    apply inv_anti₀ (by positivity)
    exact pow_le_pow_right₀ (by norm_num) (by norm_num)
  have h2 : ((1 : ℝ) / 2) ^ 100 ≤ 1 / 1000000000000000000000 := by norm_num
  have h3 : (0 : ℝ) ≤ (1 / 2) ^ 900 := by positivity
  calc eta ≤ (1 / 2) ^ 900 * (1 / 2) ^ 100 := h1
    _ ≤ (1 / 2) ^ 900 * (1 / 1000000000000000000000) := mul_le_mul_of_nonneg_left h2 h3
    _ ≤ s * (1 / 1000000000000000000000) := mul_le_mul_of_nonneg_right h (by norm_num)
    _ = _ := by ring

theorem big {x : ℝ} (h : |x| ≤ 2 ^ 1010) : |x| < 2 ^ 1023 :=
  lt_of_le_of_lt h (pow_lt_pow_right₀ (by norm_num) (by norm_num))

theorem sq_len (a : Fin 3 → ℝ) : len a ^ 2 = a 0 * a 0 + a 1 * a 1 + a 2 * a 2 := by
  unfold len
  rw [Real.sq_sqrt (by positivity)]
  ring

theorem comp_le (a : Fin 3 → ℝ) (i : Fin 3) : |a i| ≤ len a := by
  rw [← Real.sqrt_sq_eq_abs]
  unfold len
  apply Real.sqrt_le_sqrt
  have h0 := sq_nonneg (a 0)
  have h1 := sq_nonneg (a 1)
  have h2 := sq_nonneg (a 2)
  fin_cases i
  · show a 0 ^ 2 ≤ _; linarith
  · show a 1 ^ 2 ≤ _; linarith
  · show a 2 ^ 2 ≤ _; linarith

/-- The sum of squares as computed. -/
theorem mag2_near {p : V3 F64} {a : Fin 3 → ℝ} (ha : p.At a) (hi : len a ≤ 2 ^ 500) :
    ∃ m, p.mag2.1 = .fin m ∧ 0 ≤ m ∧ |m - len a ^ 2| ≤ 31 / 10 / 9007199254740992 * len a ^ 2 + 6 * eta := by
  have hl := sq_len a
  have hi2 : len a ^ 2 ≤ 2 ^ 1000 := by
    have h := pow_le_pow_left₀ (Real.sqrt_nonneg _) hi 2
    have e : ((2 : ℝ) ^ 500) ^ 2 = 2 ^ 1000 := by rw [← pow_mul]
    rw [e] at h
    exact h
  have hB : (2 : ℝ) ^ 1010 = 1024 * 2 ^ 1000 := by rw [show 1010 = 10 + 1000 by norm_num, pow_add]; norm_num
  have hone : (1 : ℝ) ≤ 2 ^ 1000 := one_le_pow₀ (by norm_num)
  have hbig : ∀ x : ℝ, |x| ≤ 1024 * 2 ^ 1000 → |x| < 2 ^ 1023 := fun x h => big (h.trans hB.ge)
  clear hB
  rw [hl] at hi2 ⊢
  clear hi hl
  generalize (2 : ℝ) ^ 1000 = P at hi2 hbig hone
  obtain ⟨h0, h1, h2⟩ := ha
  have q1 := mul_self_nonneg (a 0)
  have q2 := mul_self_nonneg (a 1)
  have q3 := mul_self_nonneg (a 2)
  have e0 := eta_pos
  have e1 := eta_small
  norm_num at e1
  have sq : ∀ {x : ℝ}, 0 ≤ x → |x| = x := fun h => abs_of_nonneg h
  have r1 := round_err (a 0 * a 0)
  have r2 := round_err (a 1 * a 1)
  have r3 := round_err (a 2 * a 2)
  have n1 := round_nonneg q1
  have n2 := round_nonneg q2
  have n3 := round_nonneg q3
  have m1 := mul_at h0 h0 (hbig _ (by rw [sq q1]; linarith)) rfl
  have m2 := mul_at h1 h1 (hbig _ (by rw [sq q2]; linarith)) rfl
  have m3 := mul_at h2 h2 (hbig _ (by rw [sq q3]; linarith)) rfl
  rw [sq q1, abs_le] at r1
  rw [sq q2, abs_le] at r2
  rw [sq q3, abs_le] at r3
  generalize F64.round (a 0 * a 0) = x at *
  generalize F64.round (a 1 * a 1) = y at *
  generalize F64.round (a 2 * a 2) = z at *
  have n4 : 0 ≤ x + y := add_nonneg n1 n2
  have r4 := round_err (x + y)
  have n5 := round_nonneg n4
  have m4 := add_at m1 m2 (hbig _ (by rw [sq n4]; linarith)) rfl
  rw [sq n4, abs_le] at r4
  generalize F64.round (x + y) = s at *
  have n6 : 0 ≤ s + z := add_nonneg n5 n3
  have r5 := round_err (s + z)
  have n7 := round_nonneg n6
  have m5 := add_at m4 m3 (hbig _ (by rw [sq n6]; linarith)) rfl
  rw [sq n6, abs_le] at r5
  refine ⟨_, m5, n7, ?_⟩
  generalize F64.round (s + z) = t at *
  rw [abs_le]
  constructor <;> linarith

/-- Roots keep numbers close. -/
theorem sqrt_near {m S e : ℝ} (hm : 0 ≤ m) (hS : 0 < S) (h : |m - S| ≤ e * S) :
    |Real.sqrt m - Real.sqrt S| ≤ e * Real.sqrt S := by
  have hs := Real.sqrt_pos.mpr hS
  have hm' := Real.sqrt_nonneg m
  have h1 : |Real.sqrt m - Real.sqrt S| * (Real.sqrt m + Real.sqrt S) = |m - S| := by
    rw [← abs_of_nonneg (by linarith : 0 ≤ Real.sqrt m + Real.sqrt S), ← abs_mul]
    congr 1
    have := Real.mul_self_sqrt hm
    have := Real.mul_self_sqrt hS.le
    linarith
  have h2 : |Real.sqrt m - Real.sqrt S| * Real.sqrt S ≤ e * Real.sqrt S * Real.sqrt S := by
    have h3 : |Real.sqrt m - Real.sqrt S| * Real.sqrt S ≤ |m - S| := by
      rw [← h1]
      apply mul_le_mul_of_nonneg_left _ (abs_nonneg _)
      linarith
    rw [mul_assoc, Real.mul_self_sqrt hS.le]
    linarith
  exact le_of_mul_le_mul_right h2 hs

/-- The length as computed. -/
theorem mag_near {p : V3 F64} {a : Fin 3 → ℝ} (ha : p.At a) (lo : (1 / 2) ^ 400 ≤ len a) (hi : len a ≤ 2 ^ 500) :
    ∃ g, p.mag.1 = .fin g ∧ |g - len a| ≤ 5 / 9007199254740992 * len a := by
  obtain ⟨m, hm, m0, h⟩ := mag2_near ha hi
  have hl0 : (0 : ℝ) < (1 / 2) ^ 400 := by positivity
  have hl : 0 < len a := lt_of_lt_of_le hl0 lo
  have hs : 0 < len a ^ 2 := pow_pos hl 2
  have lo2 : (1 / 2) ^ 900 ≤ len a ^ 2 := by
    have h1 := pow_le_pow_left₀ hl0.le lo 2
    refine le_trans ?_ h1
    rw [← pow_mul]
    exact pow_le_pow_of_le_one (by norm_num) (by norm_num) (by norm_num)
  have e := eta_le lo2
  have h1 : |m - len a ^ 2| ≤ 32 / 10 / 9007199254740992 * len a ^ 2 := by linarith
  have h2 := sqrt_near m0 hs h1
  rw [Real.sqrt_sq hl.le] at h2
  have lo3 : (1 / 2) ^ 900 ≤ len a :=
    le_trans (pow_le_pow_of_le_one (by norm_num) (by norm_num) (by norm_num)) lo
  have h3 := round_near (k := 32 / 10) (by norm_num) (abs_of_pos hl).le (eta_le lo3) h2
  refine ⟨_, sqrt_at hm m0 (big ?_) rfl, by linarith⟩
  have h4 : |Real.sqrt m| ≤ |Real.sqrt m - len a| + |len a| := by
    simpa using abs_add_le (Real.sqrt m - len a) (len a)
  rw [abs_of_pos hl] at h4
  have : (2 : ℝ) ^ 1010 = 2 ^ 510 * 2 ^ 500 := by rw [← pow_add]
  have h5 : (2 : ℝ) ≤ 2 ^ 510 := by
    calc (2 : ℝ) = 2 ^ 1 := by norm_num
      _ ≤ _ := pow_le_pow_right₀ (by norm_num) (by norm_num)
  have h6 : 2 * (2 : ℝ) ^ 500 ≤ 2 ^ 510 * 2 ^ 500 := mul_le_mul_of_nonneg_right h5 (by positivity)
  have h7 : |Real.sqrt m| ≤ 2 * len a := by
    clear this h5 h6 lo3 lo2 lo hl0 hi
    linarith
  calc |Real.sqrt m| ≤ 2 * len a := h7
    _ ≤ 2 * 2 ^ 500 := mul_le_mul_of_nonneg_left hi (by norm_num)
    _ ≤ 2 ^ 1010 := by rw [this]; exact h6

/-- Quotients keep numbers close. -/
theorem div_near {x g G k s : ℝ} (hG : 0 < G) (hk : 0 ≤ k) (hk' : k ≤ 100) (h : |g - G| ≤ k / 9007199254740992 * G)
    (hx : |x| ≤ s * G) : 0 < g ∧ |x / g - x / G| ≤ (k + 1 / 10) / 9007199254740992 * s := by
  have hs : 0 ≤ s := by
    have := (abs_nonneg x).trans hx
    exact nonneg_of_mul_nonneg_left this hG
  have hk2 : k / 9007199254740992 * G ≤ 100 / 9007199254740992 * G :=
    mul_le_mul_of_nonneg_right (div_le_div_of_nonneg_right hk' (by norm_num)) hG.le
  have h1 := abs_le.mp h
  have hg : 0 < g := by linarith
  refine ⟨hg, ?_⟩
  have e : x / g - x / G = x * (G - g) / (g * G) := by field_simp
  rw [e, abs_div, abs_mul, abs_sub_comm, abs_of_pos (mul_pos hg hG), div_le_iff₀ (mul_pos hg hG)]
  calc |x| * |g - G| ≤ s * G * (k / 9007199254740992 * G) :=
        mul_le_mul hx h (abs_nonneg _) (mul_nonneg hs hG.le)
    _ = s * G * (k / 9007199254740992 * G) := rfl
    _ ≤ (k + 1 / 10) / 9007199254740992 * s * (g * G) := by
      have h5 : k * G ≤ (k + 1 / 10) * g := by
        have : k * (G - g) ≤ k * (100 / 9007199254740992 * G) :=
          mul_le_mul_of_nonneg_left (by linarith) hk
        have : k * (100 / 9007199254740992 * G) ≤ 100 * (100 / 9007199254740992 * G) :=
          mul_le_mul_of_nonneg_right hk' (by positivity)
        nlinarith
      have h6 := mul_le_mul_of_nonneg_left h5 (by positivity : 0 ≤ s * G / 9007199254740992)
      calc s * G * (k / 9007199254740992 * G) = s * G / 9007199254740992 * (k * G) := by ring
        _ ≤ _ := h6
        _ = _ := by ring

theorem small (n : ℕ) (h : n ≤ 900) {s : ℝ} (hs : (1 / 2) ^ n ≤ s) : (1 / 2) ^ 900 ≤ s :=
  le_trans (pow_le_pow_of_le_one (by norm_num) (by norm_num) h) hs

/-- The displacement of a photon in one step. -/
theorem photon_step {p : V3 F64} {dt : F64} {a : Fin 3 → ℝ} {τ : ℝ} (ha : p.At a) (ht : dt.1 = .fin τ)
    (lo : (1 / 2) ^ 400 ≤ len a) (hi : len a ≤ 2 ^ 500) (tlo : (1 / 2) ^ 400 ≤ τ) (thi : τ ≤ 2 ^ 500) :
    ∃ d, (p.smul (dt /. p.mag)).At d ∧ ∀ i, |d i - τ * (a i / len a)| ≤ 14 / 9007199254740992 * τ := by
  obtain ⟨g, hg, h⟩ := mag_near ha lo hi
  have hp : ∀ n : ℕ, (0 : ℝ) < (1 / 2) ^ n := fun n => by positivity
  have hl : 0 < len a := lt_of_lt_of_le (hp 400) lo
  have hτ : 0 < τ := lt_of_lt_of_le (hp 400) tlo
  have hq : 0 < τ / len a := div_pos hτ hl
  obtain ⟨hg0, h1⟩ := div_near (x := τ) (s := τ / len a) hl (by norm_num) (by norm_num) h
    (by rw [div_mul_cancel₀ _ hl.ne', abs_of_pos hτ])
  have qlo : (1 / 2) ^ 900 ≤ τ / len a := by
    rw [le_div_iff₀ hl]
    calc ((1 : ℝ) / 2) ^ 900 * len a ≤ (1 / 2) ^ 900 * 2 ^ 500 := mul_le_mul_of_nonneg_left hi (hp 900).le
      _ = (1 / 2) ^ 400 * ((1 / 2) ^ 500 * 2 ^ 500) := by rw [← mul_assoc, ← pow_add]
      _ = (1 / 2) ^ 400 := by rw [← mul_pow]; norm_num
      _ ≤ τ := tlo
  have qhi : τ / len a ≤ 2 ^ 900 := by
    rw [div_le_iff₀ hl]
    calc τ ≤ 2 ^ 500 := thi
      _ = 2 ^ 500 * ((1 / 2) ^ 400 * 2 ^ 400) := by rw [← mul_pow]; norm_num
      _ = 2 ^ 900 * (1 / 2) ^ 400 := by rw [mul_comm ((1 / 2 : ℝ) ^ 400), ← mul_assoc, ← pow_add]
      _ ≤ 2 ^ 900 * len a := mul_le_mul_of_nonneg_left lo (by positivity)
  have hB : 2 * (2 : ℝ) ^ 900 ≤ 2 ^ 1010 := by
    rw [← pow_succ']
    exact pow_le_pow_right₀ (by norm_num) (by norm_num)
  have hB' : 2 * (2 : ℝ) ^ 500 ≤ 2 ^ 1010 := by
    rw [← pow_succ']
    exact pow_le_pow_right₀ (by norm_num) (by norm_num)
  have h2 := round_near (by norm_num) (abs_of_pos hq).le (eta_le qlo) h1
  have hc : |τ / g| ≤ 2 ^ 1010 := by
    have e : |τ / g| ≤ |τ / g - τ / len a| + |τ / len a| := by
      simpa using abs_add_le (τ / g - τ / len a) (τ / len a)
    rw [abs_of_pos hq] at e
    have : |τ / g| ≤ 2 * (τ / len a) := by
      clear qlo qhi hB hB' lo hi tlo thi
      linarith
    exact this.trans ((mul_le_mul_of_nonneg_left qhi (by norm_num)).trans hB)
  have hd := div_at ht hg hg0.ne' (big hc) rfl
  generalize F64.round (τ / g) = c at hd h2
  have key : ∀ i, |c * a i - τ * (a i / len a)| ≤ (62 / 10) / 9007199254740992 * τ := by
    intro i
    have e : c * a i - τ * (a i / len a) = (c - τ / len a) * a i := by ring
    rw [e, abs_mul]
    calc |c - τ / len a| * |a i| ≤ ((5 + 1 / 10 + 11 / 10) / 9007199254740992 * (τ / len a)) * len a :=
          mul_le_mul h2 (comp_le a i) (abs_nonneg _) ((abs_nonneg _).trans h2)
      _ = (5 + 1 / 10 + 11 / 10) / 9007199254740992 * τ := by field_simp
      _ = _ := by norm_num
  have unit : ∀ i, |τ * (a i / len a)| ≤ τ := by
    intro i
    rw [abs_mul, abs_of_pos hτ, abs_div, abs_of_pos hl]
    have : |a i| / len a ≤ 1 := (div_le_one hl).mpr (comp_le a i)
    nlinarith
  have hm : ∀ i, |c * a i| < 2 ^ 1023 := by
    intro i
    have e : |c * a i| ≤ |c * a i - τ * (a i / len a)| + |τ * (a i / len a)| := by
      simpa using abs_add_le (c * a i - τ * (a i / len a)) (τ * (a i / len a))
    have : |c * a i| ≤ 2 * τ := by
      have k := key i
      have u := unit i
      clear qlo qhi hB hB' lo hi tlo thi
      linarith
    exact big (this.trans ((mul_le_mul_of_nonneg_left thi (by norm_num)).trans hB'))
  refine ⟨fun i => F64.round (c * a i), ⟨mul_at hd ha.1 (hm 0) rfl, mul_at hd ha.2.1 (hm 1) rfl,
    mul_at hd ha.2.2 (hm 2) rfl⟩, ?_⟩
  intro i
  have := round_near (by norm_num) (unit i) (eta_le (small 400 (by norm_num) tlo)) (key i)
  refine this.trans ?_
  apply mul_le_mul_of_nonneg_right _ hτ.le
  norm_num

/-- The velocity of a lepton as computed. -/
theorem velocity_near {p : V3 F64} {a : Fin 3 → ℝ} (ha : p.At a) (hi : len a ≤ 2 ^ 500) :
    ∃ g v, (lit 1 *. pushGamma (lit 1) p : F64).1 = .fin g ∧ 0 < g ∧
      |g - Real.sqrt (1 + len a ^ 2)| ≤ (54 / 10) / 9007199254740992 * Real.sqrt (1 + len a ^ 2) ∧
      (pushPosition (lit 1) p).At v ∧ ∀ i, |v i - a i / Real.sqrt (1 + len a ^ 2)| ≤ (66 / 10) / 9007199254740992 * 1 := by
  obtain ⟨m, hm, m0, h⟩ := mag2_near ha hi
  have hS := sq_nonneg (len a)
  have e0 := eta_small
  norm_num at e0
  have hi2 : len a ^ 2 ≤ 2 ^ 1000 := by
    have h := pow_le_pow_left₀ (Real.sqrt_nonneg _) hi 2
    have e : ((2 : ℝ) ^ 500) ^ 2 = 2 ^ 1000 := by rw [← pow_mul]
    rw [e] at h
    exact h
  have hle : len a ≤ Real.sqrt (1 + len a ^ 2) := by
    apply Real.le_sqrt_of_sq_le
    linarith
  generalize hG : 1 + len a ^ 2 = G at hle
  have hG1 : 1 ≤ G := by rw [← hG]; linarith
  have hG0 : 0 < G := by linarith
  have hGhi : 4 * G ≤ 2 ^ 1010 := by
    have hone : (1 : ℝ) ≤ 2 ^ 1000 := one_le_pow₀ (by norm_num)
    have hB : (2 : ℝ) ^ 1010 = 1024 * 2 ^ 1000 := by
      rw [show 1010 = 10 + 1000 by norm_num, pow_add]; norm_num
    rw [hB, ← hG]
    clear hB hi
    generalize (2 : ℝ) ^ 1000 = P at *
    linarith
  have h1 : |1 + m - G| ≤ (32 / 10) / 9007199254740992 * G := by
    have e : 1 + m - G = m - len a ^ 2 := by rw [← hG]; ring
    rw [e]
    clear hi hi2 hGhi
    linarith
  have hge : ∀ x : ℝ, 1 ≤ x → eta ≤ x / 1000000000000000000000 := by
    intro x hx
    linarith
  have h2 := round_near (by norm_num) (abs_of_pos hG0).le (hge G hG1) h1
  have hw : (lit 1 *. lit 1 : F64).1 = .fin 1 := one_mul_at one_val one_val
  have hmd := div_one_at hm hw
  have hT := add_at one_val hmd (z := F64.round (1 + m)) (big (by
    have : |1 + m| ≤ |1 + m - G| + |G| := by simpa using abs_add_le (1 + m - G) G
    rw [abs_of_pos hG0] at this
    have : |1 + m| ≤ 4 * G := by
      clear hi hi2 hGhi
      linarith
    exact this.trans hGhi)) rfl
  have hT0 : 0 ≤ F64.round (1 + m) := round_nonneg (by linarith)
  generalize F64.round (1 + m) = T at hT hT0 h2
  have h3 := sqrt_near hT0 hG0 h2
  have hr1 : 1 ≤ Real.sqrt G := Real.one_le_sqrt.mpr hG1
  have hr0 : 0 < Real.sqrt G := by linarith
  have hrG : Real.sqrt G ≤ G := by
    rw [Real.sqrt_le_left hG0.le]
    nlinarith
  have h4 := round_near (by norm_num) (abs_of_pos hr0).le (hge _ hr1) h3
  have hg := sqrt_at hT hT0 (z := F64.round (Real.sqrt T)) (big (by
    have : |Real.sqrt T| ≤ |Real.sqrt T - Real.sqrt G| + |Real.sqrt G| := by
      simpa using abs_add_le (Real.sqrt T - Real.sqrt G) (Real.sqrt G)
    rw [abs_of_pos hr0] at this
    have : |Real.sqrt T| ≤ 4 * G := by
      clear hi hi2 hGhi
      linarith
    exact this.trans hGhi)) rfl
  have hg' := one_mul_at one_val hg
  generalize F64.round (Real.sqrt T) = g at hg' h4
  have hq : ∀ i, 0 < g ∧ |a i / g - a i / Real.sqrt G| ≤ _ := fun i =>
    div_near (x := a i) (s := 1) hr0 (by norm_num) (by norm_num) h4
      (by rw [one_mul]; exact (comp_le a i).trans hle)
  have unit : ∀ i, |a i / Real.sqrt G| ≤ 1 := by
    intro i
    rw [abs_div, abs_of_pos hr0]
    exact (div_le_one hr0).mpr ((comp_le a i).trans hle)
  have hsm : ∀ i, |a i / g| < 2 ^ 1023 := by
    intro i
    have : |a i / g| ≤ |a i / g - a i / Real.sqrt G| + |a i / Real.sqrt G| := by
      simpa using abs_add_le (a i / g - a i / Real.sqrt G) (a i / Real.sqrt G)
    have u := unit i
    have v := (hq i).2
    apply lt_big
    clear hi hi2 hGhi
    linarith [show (2 : ℝ) ≤ 2 ^ 100 by norm_num]
  have g0 := (hq 0).1
  refine ⟨g, fun i => F64.round (a i / g), hg', g0, h4.trans (le_of_eq (by norm_num)), ⟨div_at ha.1 hg' g0.ne' (hsm 0) rfl,
    div_at ha.2.1 hg' g0.ne' (hsm 1) rfl, div_at ha.2.2 hg' g0.ne' (hsm 2) rfl⟩, ?_⟩
  intro i
  have := round_near (by norm_num) (unit i) (hge 1 le_rfl) (hq i).2
  refine this.trans (le_of_eq ?_)
  norm_num

/-- One coordinate of the displacement of a lepton in one step. -/
theorem sum_near {v dt : F64} {w β τ : ℝ} (hv : v.1 = .fin w) (ht : dt.1 = .fin τ) (hβ : |β| ≤ 1)
    (hw : |w - β| ≤ (66 / 10) / 9007199254740992 * 1) (tlo : (1 / 2) ^ 400 ≤ τ) (thi : τ ≤ 2 ^ 500) :
    ∃ d, ((dt /. lit 6) *. (((v +. lit 2 *. v) +. lit 2 *. v) +. v)).1 = .fin d ∧
      |d - τ * β| ≤ 14 / 9007199254740992 * τ := by
  have e0 := eta_small
  norm_num at e0
  have hτ : 0 < τ := lt_of_lt_of_le (by positivity) tlo
  have habs : ∀ n : ℝ, 0 ≤ n → |n * β| ≤ n := by
    intro n hn
    rw [abs_mul, abs_of_nonneg hn]
    nlinarith
  have hsz : ∀ {x y k n : ℝ}, |x - y| ≤ k / 9007199254740992 * n → |y| ≤ n → k ≤ 100 → 0 ≤ n → n ≤ 6 →
      |x| < 2 ^ 1023 := by
    intro x y k n h hy hk hn hn'
    have : |x| ≤ |x - y| + |y| := by simpa using abs_add_le (x - y) y
    apply lt_big
    have h2 : k / 9007199254740992 * n ≤ 1 * 6 := by
      apply mul_le_mul _ hn' hn (by norm_num)
      rw [div_le_one (by norm_num)]
      linarith
    linarith [show (12 : ℝ) ≤ 2 ^ 100 by norm_num]
  have k1 : |2 * w - 2 * β| ≤ (66 / 10) / 9007199254740992 * 2 := by
    rw [← mul_sub, abs_mul, abs_of_pos two_pos]
    linarith
  have s1 := mul_at two_val hv (hsz k1 (habs 2 (by norm_num)) (by norm_num) (by norm_num) (by norm_num)) rfl
  have r1 := round_near (by norm_num) (habs 2 (by norm_num)) (by linarith) k1
  generalize F64.round (2 * w) = w2 at s1 r1
  have k2 : |w + w2 - 3 * β| ≤ (75 / 10) / 9007199254740992 * 3 := by
    have e : w + w2 - 3 * β = (w - β) + (w2 - 2 * β) := by ring
    rw [e]
    have := abs_add_le (w - β) (w2 - 2 * β)
    linarith
  have s2 := add_at hv s1 (hsz k2 (habs 3 (by norm_num)) (by norm_num) (by norm_num) (by norm_num)) rfl
  have r2 := round_near (by norm_num) (habs 3 (by norm_num)) (by linarith) k2
  generalize F64.round (w + w2) = w3 at s2 r2
  have k3 : |w3 + w2 - 5 * β| ≤ (84 / 10) / 9007199254740992 * 5 := by
    have e : w3 + w2 - 5 * β = (w3 - 3 * β) + (w2 - 2 * β) := by ring
    rw [e]
    have := abs_add_le (w3 - 3 * β) (w2 - 2 * β)
    linarith
  have s3 := add_at s2 s1 (hsz k3 (habs 5 (by norm_num)) (by norm_num) (by norm_num) (by norm_num)) rfl
  have r3 := round_near (by norm_num) (habs 5 (by norm_num)) (by linarith) k3
  generalize F64.round (w3 + w2) = w5 at s3 r3
  have k4 : |w5 + w - 6 * β| ≤ (91 / 10) / 9007199254740992 * 6 := by
    have e : w5 + w - 6 * β = (w5 - 5 * β) + (w - β) := by ring
    rw [e]
    have := abs_add_le (w5 - 5 * β) (w - β)
    linarith
  have s4 := add_at s3 hv (hsz k4 (habs 6 (by norm_num)) (by norm_num) (by norm_num) (by norm_num)) rfl
  have r4 := round_near (by norm_num) (habs 6 (by norm_num)) (by linarith) k4
  generalize F64.round (w5 + w) = w6 at s4 r4
  have hB' : 2 * (2 : ℝ) ^ 500 ≤ 2 ^ 1010 := by
    rw [← pow_succ']
    exact pow_le_pow_right₀ (by norm_num) (by norm_num)
  have toobig : ∀ x : ℝ, |x| ≤ 2 * τ → |x| < 2 ^ 1023 := fun x h =>
    big (h.trans ((mul_le_mul_of_nonneg_left thi (by norm_num)).trans hB'))
  have tsm : eta ≤ (τ / 6) / 1000000000000000000000 := by
    apply eta_le
    rw [le_div_iff₀ (by norm_num)]
    refine le_trans ?_ tlo
    have e : ((1 : ℝ) / 2) ^ 900 = (1 / 2) ^ 400 * (1 / 2) ^ 500 := by rw [← pow_add]
    rw [e, mul_assoc]
    have h3 : ((1 : ℝ) / 2) ^ 500 * 6 ≤ 1 := by
      have : ((1 : ℝ) / 2) ^ 500 ≤ (1 / 2) ^ 3 := pow_le_pow_of_le_one (by norm_num) (by norm_num) (by norm_num)
      have h8 : ((1 : ℝ) / 2) ^ 3 * 6 ≤ 1 := by norm_num
      exact (mul_le_mul_of_nonneg_right this (by norm_num)).trans h8
    calc ((1 : ℝ) / 2) ^ 400 * ((1 / 2) ^ 500 * 6) ≤ (1 / 2) ^ 400 * 1 :=
          mul_le_mul_of_nonneg_left h3 (by positivity)
      _ = _ := mul_one _
  have tsm' := eta_le (small 400 (by norm_num) tlo)
  clear tlo thi hB'
  have s5 := div_at ht six_val (by norm_num) (toobig _ (by
    rw [abs_of_pos (by positivity)]; linarith)) rfl
  have r5 := round_near (v := τ / 6) (x := τ / 6) (s := τ / 6) (k := 0) (by norm_num) (abs_of_pos (by positivity)).le tsm
    (by simp)
  generalize F64.round (τ / 6) = q at s5 r5
  have r5' := abs_le.mp r5
  have k6 : |q * w6 - τ * β| ≤ 12 / 9007199254740992 * τ := by
    have e : q * w6 - τ * β = q * (w6 - 6 * β) + (q - τ / 6) * (6 * β) := by ring
    rw [e]
    have h1 := abs_add_le (q * (w6 - 6 * β)) ((q - τ / 6) * (6 * β))
    have hq : |q| ≤ (1 + 1 / 1000000) * (τ / 6) := by
      rw [abs_le]
      constructor <;> linarith
    have h2 : |q * (w6 - 6 * β)| ≤ (1 + 1 / 1000000) * (τ / 6) * ((91 / 10 + 11 / 10) / 9007199254740992 * 6) := by
      rw [abs_mul]
      exact mul_le_mul hq r4 (abs_nonneg _) ((abs_nonneg _).trans hq)
    have h3 : |(q - τ / 6) * (6 * β)| ≤ (0 + 11 / 10) / 9007199254740992 * (τ / 6) * 6 := by
      rw [abs_mul]
      exact mul_le_mul r5 (habs 6 (by norm_num)) (abs_nonneg _) ((abs_nonneg _).trans r5)
    linarith
  have hu : |τ * β| ≤ τ := habs τ hτ.le
  refine ⟨_, mul_at s5 s4 (toobig _ ?_) rfl, ?_⟩
  · have : |q * w6| ≤ |q * w6 - τ * β| + |τ * β| := by simpa using abs_add_le (q * w6 - τ * β) (τ * β)
    linarith
  · have := round_near (by norm_num) hu tsm' k6
    linarith

/-- Adding the same displacement again and again. -/
theorem positions {x : ℕ → F64} {d : F64} {x₀ δ b τ L : ℝ} {n : ℕ} (hx : (x 0).1 = .fin x₀) (hd : d.1 = .fin δ)
    (hs : ∀ k, k < n → x (k + 1) = x k +. d) (hτ : 0 < τ) (hb : |b| ≤ 1)
    (he : |δ - τ * b| ≤ 14 / 9007199254740992 * τ) (hn : n ≤ 2 ^ 40) (hL : |x₀| + n * τ ≤ L) (Lhi : L ≤ 2 ^ 1000)
    (tlo : (1 / 2) ^ 400 ≤ τ) : ∀ k, k ≤ n → ∃ z, (x k).1 = .fin z ∧
      |z - (x₀ + k * τ * b)| ≤ k * ((16 * τ + 2 * L) / 9007199254740992) := by
  have e0 := eta_le (small 400 (by norm_num) tlo)
  clear tlo
  intro k
  induction k with
  | zero =>
    intro _
    exact ⟨x₀, hx, by simp⟩
  | succ k ih =>
    intro hk
    obtain ⟨z, hz, h⟩ := ih (by omega)
    have hkn : ((k : ℝ) + 1) ≤ n := by exact_mod_cast hk
    have hn' : (n : ℝ) ≤ 1099511627776 := by
      have : n ≤ 1099511627776 := by simpa using hn
      exact_mod_cast this
    have hk0 : (0 : ℝ) ≤ k := Nat.cast_nonneg k
    have hx0 := abs_nonneg x₀
    have hn1 : (1 : ℝ) ≤ n := by linarith
    have htL : τ ≤ L := by nlinarith
    have hkL : |x₀| + (k * τ + τ) ≤ L := by nlinarith
    have hkb : |(k : ℝ) * τ * b| ≤ k * τ := by
      rw [abs_mul, abs_of_nonneg (by positivity)]
      have : 0 ≤ (k : ℝ) * τ := by positivity
      nlinarith
    have htb : |τ * b| ≤ τ := by
      rw [abs_mul, abs_of_pos hτ]
      nlinarith
    have hE : (k : ℝ) * ((16 * τ + 2 * L) / 9007199254740992) ≤ L / 100 := by
      have h1 : (16 * τ + 2 * L) / 9007199254740992 ≤ 18 * L / 9007199254740992 := by
        apply div_le_div_of_nonneg_right _ (by norm_num)
        linarith
      have h2 : (k : ℝ) ≤ 1099511627776 := by linarith
      have h3 : 0 ≤ 18 * L / 9007199254740992 := by
        apply div_nonneg _ (by norm_num)
        linarith
      calc (k : ℝ) * ((16 * τ + 2 * L) / 9007199254740992) ≤ 1099511627776 * (18 * L / 9007199254740992) :=
            mul_le_mul h2 h1 (by apply div_nonneg _ (by norm_num); linarith) (by norm_num)
        _ ≤ L / 100 := by linarith
    have hzb : |z + δ| ≤ L * (102 / 100) := by
      have t1 := abs_add_le z δ
      have t2 : |z| ≤ |z - (x₀ + k * τ * b)| + |x₀ + k * τ * b| := by
        simpa using abs_add_le (z - (x₀ + k * τ * b)) (x₀ + k * τ * b)
      have t3 := abs_add_le x₀ (k * τ * b)
      have t4 : |δ| ≤ |δ - τ * b| + |τ * b| := by simpa using abs_add_le (δ - τ * b) (τ * b)
      clear Lhi
      linarith
    have hB : 2 * (2 : ℝ) ^ 1000 ≤ 2 ^ 1010 := by
      rw [← pow_succ']
      exact pow_le_pow_right₀ (by norm_num) (by norm_num)
    have hsz : |z + δ| < 2 ^ 1023 := by
      apply big
      have : |z + δ| ≤ 2 * L := by
        clear Lhi hB
        linarith
      exact this.trans ((mul_le_mul_of_nonneg_left Lhi (by norm_num)).trans hB)
    refine ⟨F64.round (z + δ), ?_, ?_⟩
    · rw [hs k (by omega)]
      exact add_at hz hd hsz rfl
    · have r := round_err (z + δ)
      have t : |F64.round (z + δ) - (x₀ + (k + 1) * τ * b)| ≤
          |F64.round (z + δ) - (z + δ)| + (|z - (x₀ + k * τ * b)| + |δ - τ * b|) := by
        have e : F64.round (z + δ) - (x₀ + (k + 1) * τ * b) =
          (F64.round (z + δ) - (z + δ)) + ((z - (x₀ + k * τ * b)) + (δ - τ * b)) := by ring
        rw [e]
        exact (abs_add_le _ _).trans (by linarith [abs_add_le (z - (x₀ + k * τ * b)) (δ - τ * b)])
      push_cast
      clear Lhi hB
      have e : ((k : ℝ) + 1) * ((16 * τ + 2 * L) / 9007199254740992) =
        k * ((16 * τ + 2 * L) / 9007199254740992) + (16 * τ + 2 * L) / 9007199254740992 := by ring
      rw [e]
      generalize (k : ℝ) * ((16 * τ + 2 * L) / 9007199254740992) = K at *
      linarith

end Flight

end QED
