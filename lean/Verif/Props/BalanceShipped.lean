import Verif.Props.Balance

set_option autoImplicit false
set_option exponentiation.threshold 2000

/-!
# C145 with the tables that come with the program
-/

namespace QED

open Dbl TableFile MCTools MeasureTheory Numerics

namespace Shipped

theorem log_exp_five : -5 + 2 * (46 : ℝ) / 33 ≤ Real.logb 10 (Real.exp (-5)) ∧
    Real.logb 10 (Real.exp (-5)) ≤ -5 + 2 * (47 : ℝ) / 33 := by
  have e1 : Real.exp (-5) ^ 33 = 1 / Real.exp 1 ^ 165 := by
    rw [← Real.exp_nat_mul, ← Real.exp_nat_mul, one_div, ← Real.exp_neg]
    norm_num
  have h1 := Real.exp_one_gt_d9
  have h2 := Real.exp_one_lt_d9
  constructor
  · rw [Real.le_logb_iff_rpow_le (by norm_num) (Real.exp_pos _)]
    refine le_of_pow_le_pow_left₀ (by norm_num : (33 : Nat) ≠ 0) (Real.exp_pos _).le ?_
    rw [e1, ← Real.rpow_natCast, ← Real.rpow_mul (by norm_num), show (-5 + 2 * (46 : ℝ) / 33) * ((33 : Nat) : ℝ) =
      ((-73 : ℤ) : ℝ) by norm_num, Real.rpow_intCast, le_div_iff₀ (by positivity)]
    have : Real.exp 1 ^ 165 ≤ (2.7182818286 : ℝ) ^ 165 := by gcongr
    refine (mul_le_mul_of_nonneg_left this (by positivity)).trans ?_
    norm_num
  · rw [Real.logb_le_iff_le_rpow (by norm_num) (Real.exp_pos _)]
    refine le_of_pow_le_pow_left₀ (by norm_num : (33 : Nat) ≠ 0) (by positivity) ?_
    rw [e1, ← Real.rpow_natCast ((10 : ℝ) ^ _), ← Real.rpow_mul (by norm_num), show (-5 + 2 * (47 : ℝ) / 33) * ((33 : Nat) : ℝ) =
      ((-71 : ℤ) : ℝ) by norm_num, Real.rpow_intCast, div_le_iff₀ (by positivity)]
    have : (2.7182818283 : ℝ) ^ 165 ≤ Real.exp 1 ^ 165 := by gcongr
    refine le_trans ?_ (mul_le_mul_of_nonneg_left this (by positivity))
    norm_num

theorem ten_le {i : ℝ} {k : ℤ} {H : ℝ} (hH : 0 ≤ H) (hk : (-5 + 2 * i / 33) * 33 = k) (h : (10 : ℝ) ^ k ≤ H ^ 33) :
    (10 : ℝ) ^ (-5 + 2 * i / 33) ≤ H := by
  refine le_of_pow_le_pow_left₀ (by norm_num : (33 : Nat) ≠ 0) hH ?_
  rw [← Real.rpow_natCast, ← Real.rpow_mul (by norm_num), show (-5 + 2 * i / 33) * ((33 : Nat) : ℝ) = (k : ℝ) by
    push_cast; exact hk, Real.rpow_intCast]
  exact h

theorem le_ten {i : ℝ} {k : ℤ} {H : ℝ} (hk : (-5 + 2 * i / 33) * 33 = k) (h : H ^ 33 ≤ (10 : ℝ) ^ k) :
    H ≤ (10 : ℝ) ^ (-5 + 2 * i / 33) := by
  refine le_of_pow_le_pow_left₀ (by norm_num : (33 : Nat) ≠ 0) (by positivity) ?_
  rw [← Real.rpow_natCast ((10 : ℝ) ^ (-5 + 2 * i / 33)), ← Real.rpow_mul (by norm_num),
    show (-5 + 2 * i / 33) * ((33 : Nat) : ℝ) = (k : ℝ) by push_cast; exact hk, Real.rpow_intCast]
  exact h

theorem eta46 : 0.0061359072 ≤ (10 : ℝ) ^ (-5 + 2 * (46 : ℝ) / 33) ∧ (10 : ℝ) ^ (-5 + 2 * (46 : ℝ) / 33) ≤ 0.0061359073 :=
  ⟨le_ten (k := -73) (by norm_num) (by norm_num), ten_le (k := -73) (by norm_num) (by norm_num) (by norm_num)⟩

theorem eta47 : 0.0070548023 ≤ (10 : ℝ) ^ (-5 + 2 * (47 : ℝ) / 33) ∧ (10 : ℝ) ^ (-5 + 2 * (47 : ℝ) / 33) ≤ 0.0070548024 :=
  ⟨le_ten (k := -71) (by norm_num) (by norm_num), ten_le (k := -71) (by norm_num) (by norm_num) (by norm_num)⟩

theorem eta1 : 0.0000114975699 ≤ (10 : ℝ) ^ (-5 + 2 * (1 : ℝ) / 33) ∧ (10 : ℝ) ^ (-5 + 2 * (1 : ℝ) / 33) ≤ 0.00001149757 :=
  ⟨le_ten (k := -163) (by norm_num) (by norm_num), ten_le (k := -163) (by norm_num) (by norm_num) (by norm_num)⟩

variable {dir : List Char} {t : Emission ℝ} {cfg : EmissionCfg ℝ}

/-- The mean of chi over a row, for the two rows next to `exp (-5)`. -/
theorem mean46 {c : List ℝ} (h : Row (ksi46.map val) c (Real.logb 10 (((30679536367065898 * 10 ^ 12 : ℤ) : ℝ) / 10 ^ 40))
      (-5 + 2 * (46 : ℝ) / 33 - Real.logb 10 2 - Real.logb 10 (((30679536367065898 * 10 ^ 12 : ℤ) : ℝ) / 10 ^ 40))) :
    ∃ P : Nat → ℝ, (∀ u y, 0 ≤ u → u < 1 → interpolate1D (ksi46.map val) c u = .ok y →
        ENNReal.ofReal ((10 : ℝ) ^ y) ≤ chords (ksi46.map val) P u) ∧
      ∫⁻ u in Set.Ico (0 : ℝ) 1, chords (ksi46.map val) P u ≤
        ENNReal.ofReal (0.22579 * ((10 : ℝ) ^ (-5 + 2 * (46 : ℝ) / 33)) ^ 2) := by
  refine ⟨_, fun u y h0 h1 hy => h.le_chords h0 h1 hy, ?_⟩
  refine (h.upper (r := ((12328468 : ℤ) : ℝ) / ((10 ^ 7 : ℤ) : ℝ)) (by norm_num) (by norm_num) ?_).trans ?_
  · rw [ten_pow_width (by norm_num), div_le_iff₀ (by norm_num)]
    refine eta46.2.trans ?_
    norm_num
  · refine ENNReal.ofReal_le_ofReal ?_
    rw [upSum_eq _ _ _ (by norm_num)]
    have hu : (upSum (unitAt ksi46) 12328468 (10 ^ 7) : ℝ) / (2 * 10 ^ 40 * ((10 ^ 7 : ℤ) : ℝ) ^ 99) ≤ 2770800 := by
      rw [div_le_iff₀ (by positivity)]
      have := up46
      have h' : ((upSum (unitAt ksi46) 12328468 (10 ^ 7) : ℤ) : ℝ) ≤
          ((2770800 * (2 * 10 ^ 40 * (10 ^ 7) ^ 99) : ℤ) : ℝ) := Int.cast_le.2 this
      refine h'.trans (le_of_eq ?_)
      push_cast
      ring
    refine (mul_le_mul_of_nonneg_left hu (by norm_num)).trans ?_
    have := pow_le_pow_left₀ (by norm_num) eta46.1 2
    refine le_trans ?_ (mul_le_mul_of_nonneg_left this (by norm_num))
    norm_num

theorem mean47 {c : List ℝ} (h : Row (ksi47.map val) c (Real.logb 10 (((35274011553593237 * 10 ^ 12 : ℤ) : ℝ) / 10 ^ 40))
      (-5 + 2 * (47 : ℝ) / 33 - Real.logb 10 2 - Real.logb 10 (((35274011553593237 * 10 ^ 12 : ℤ) : ℝ) / 10 ^ 40))) :
    ∃ P : Nat → ℝ, (∀ u y, 0 ≤ u → u < 1 → interpolate1D (ksi47.map val) c u = .ok y →
        ENNReal.ofReal ((10 : ℝ) ^ y) ≤ chords (ksi47.map val) P u) ∧
      ∫⁻ u in Set.Ico (0 : ℝ) 1, chords (ksi47.map val) P u ≤
        ENNReal.ofReal (0.22579 * ((10 : ℝ) ^ (-5 + 2 * (47 : ℝ) / 33)) ^ 2) := by
  refine ⟨_, fun u y h0 h1 hy => h.le_chords h0 h1 hy, ?_⟩
  refine (h.upper (r := ((12328468 : ℤ) : ℝ) / ((10 ^ 7 : ℤ) : ℝ)) (by norm_num) (by norm_num) ?_).trans ?_
  · rw [ten_pow_width (by norm_num), div_le_iff₀ (by norm_num)]
    refine eta47.2.trans ?_
    norm_num
  · refine ENNReal.ofReal_le_ofReal ?_
    rw [upSum_eq _ _ _ (by norm_num)]
    have hu : (upSum (unitAt ksi47) 12328468 (10 ^ 7) : ℝ) / (2 * 10 ^ 40 * ((10 ^ 7 : ℤ) : ℝ) ^ 99) ≤ 3172000 := by
      rw [div_le_iff₀ (by positivity)]
      have := up47
      have h' : ((upSum (unitAt ksi47) 12328468 (10 ^ 7) : ℤ) : ℝ) ≤
          ((3172000 * (2 * 10 ^ 40 * (10 ^ 7) ^ 99) : ℤ) : ℝ) := Int.cast_le.2 this
      refine h'.trans (le_of_eq ?_)
      push_cast
      ring
    refine (mul_le_mul_of_nonneg_left hu (by norm_num)).trans ?_
    have := pow_le_pow_left₀ (by norm_num) eta47.1 2
    refine le_trans ?_ (mul_le_mul_of_nonneg_left this (by norm_num))
    norm_num

/-- The mean of chi at `exp (-5)`, where the classical model looks it up. -/
theorem mean_classical (hl : loadEmission (some dir) (tables dir) = .ok t) (hg : t.Gives cfg) :
    ∃ x : ℝ → ℝ, (∀ v, 0 ≤ v → v < 1 → calculateChi cfg (Real.exp (-5)) v = .ok (x v)) ∧
      ∫⁻ v in Set.Ico (0 : ℝ) 1, ENNReal.ofReal (x v) ≤ ENNReal.ofReal (0.22579 * Real.exp (-5) ^ 2) := by
  obtain ⟨hd, h100⟩ := chiDistributions dir t hl cfg hg
  have hu := rows_units
  simp only [Prod.mk.injEq] at hu
  obtain ⟨-, u46, u47⟩ := hu
  obtain ⟨a46, r46, c46, k46, row46⟩ := shippedRow dir t hl cfg hg (i := 46) (ts := ksi46) (by norm_num) rfl u46
  obtain ⟨a47, r47, c47, k47, row47⟩ := shippedRow dir t hl cfg hg (i := 47) (ts := ksi47) (by norm_num) rfl u47
  rw [Nat.cast_ofNat] at a46 row46 a47 row47
  obtain ⟨P46, p46, m46⟩ := mean46 row46
  obtain ⟨P47, p47, m47⟩ := mean47 row47
  have e46 : cfg.etaAxis[46]'(by omega) = -5 + 2 * (46 : ℝ) / 33 :=
    Option.some.inj ((List.getElem?_eq_getElem _).symm.trans a46)
  have e47 : cfg.etaAxis[47]'(by omega) = -5 + 2 * (47 : ℝ) / 33 :=
    Option.some.inj ((List.getElem?_eq_getElem _).symm.trans a47)
  obtain ⟨l0, l1⟩ := log_exp_five
  obtain ⟨f, hf⟩ : ∃ f, f = (Real.logb 10 (Real.exp (-5)) - (-5 + 2 * (46 : ℝ) / 33)) / (2 / 33) := ⟨_, rfl⟩
  have f0 : 0 ≤ f := by rw [hf]; exact div_nonneg (by linarith) (by norm_num)
  have f1 : f ≤ 1 := by rw [hf, div_le_one (by norm_num)]; linarith
  have hq : Real.logb 10 (Real.exp (-5)) = (1 - f) * (-5 + 2 * (46 : ℝ) / 33) + f * (-5 + 2 * (47 : ℝ) / 33) := by
    have : Real.logb 10 (Real.exp (-5)) - (-5 + 2 * (46 : ℝ) / 33) = f * (2 / 33) := by
      rw [hf]; field_simp
    linarith
  have hex : ∀ v : ℝ, ∃ x : ℝ, 0 ≤ v → v < 1 → calculateChi cfg (Real.exp (-5)) v = .ok x ∧
      ENNReal.ofReal x ≤ ENNReal.ofReal ((1 - f) * Real.exp (-5) ^ 2 / ((10 : ℝ) ^ (-5 + 2 * (46 : ℝ) / 33)) ^ 2) *
          chords (ksi46.map val) P46 v +
        ENNReal.ofReal (f * Real.exp (-5) ^ 2 / ((10 : ℝ) ^ (-5 + 2 * (47 : ℝ) / 33)) ^ 2) *
          chords (ksi47.map val) P47 v := by
    intro v
    by_cases hv : 0 ≤ v ∧ v < 1
    swap
    · exact ⟨0, fun a b => absurd ⟨a, b⟩ hv⟩
    obtain ⟨y, hy, hb⟩ := chi_between hd hv.1 hv.2
    refine ⟨_, fun _ _ => ⟨hb 46 (by omega) _ f f0 f1 (by rw [hq, e46, e47]), ?_⟩⟩
    have b46 := p46 v _ hv.1 hv.2 (hy 46 _ _ r46 k46)
    have b47 := p47 v _ hv.1 hv.2 (hy 47 _ _ r47 k47)
    refine le_trans ?_ (add_le_add (mul_le_mul_right b46 _) (mul_le_mul_right b47 _))
    have g0 : 0 ≤ 1 - f := by linarith
    rw [← ENNReal.ofReal_mul (by positivity), ← ENNReal.ofReal_mul (by positivity),
      ← ENNReal.ofReal_add (by positivity) (by positivity)]
    refine ENNReal.ofReal_le_ofReal ?_
    have key := Real.geom_mean_le_arith_mean2_weighted g0 f0
      (by positivity : 0 ≤ (10 : ℝ) ^ y 46 / ((10 : ℝ) ^ (-5 + 2 * (46 : ℝ) / 33)) ^ 2)
      (by positivity : 0 ≤ (10 : ℝ) ^ y (46 + 1) / ((10 : ℝ) ^ (-5 + 2 * (47 : ℝ) / 33)) ^ 2) (by ring)
    have hexp : Real.exp (-5) = (10 : ℝ) ^ ((1 - f) * (-5 + 2 * (46 : ℝ) / 33) + f * (-5 + 2 * (47 : ℝ) / 33)) := by
      rw [← hq, Real.rpow_logb (by norm_num) (by norm_num) (Real.exp_pos _)]
    have key2 := mul_le_mul_of_nonneg_left key (sq_nonneg (Real.exp (-5)))
    refine le_trans (le_of_eq ?_) (key2.trans (le_of_eq ?_))
    · have two : ∀ z : ℝ, ((10 : ℝ) ^ z) ^ 2 = (10 : ℝ) ^ (z * 2) := fun z => by
        rw [← Real.rpow_natCast, ← Real.rpow_mul (by norm_num)]; norm_num
      rw [hexp, two, two, two, ← Real.rpow_sub (by norm_num), ← Real.rpow_sub (by norm_num),
        ← Real.rpow_mul (by norm_num), ← Real.rpow_mul (by norm_num), ← Real.rpow_add (by norm_num),
        ← Real.rpow_add (by norm_num)]
      congr 1
      ring
    · ring
  choose x hx using hex
  refine ⟨x, fun v a b => (hx v a b).1, ?_⟩
  refine (setLIntegral_mono' measurableSet_Ico fun v hv => (hx v hv.1 hv.2).2).trans ?_
  rw [lintegral_add_left ((measurable_chords _ _).const_mul _), lintegral_const_mul' _ _ ENNReal.ofReal_ne_top,
    lintegral_const_mul' _ _ ENNReal.ofReal_ne_top]
  refine (add_le_add (mul_le_mul_right m46 _) (mul_le_mul_right m47 _)).trans (le_of_eq ?_)
  have g0 : 0 ≤ 1 - f := by linarith
  rw [← ENNReal.ofReal_mul (by positivity), ← ENNReal.ofReal_mul (by positivity),
    ← ENNReal.ofReal_add (by positivity) (by positivity)]
  congr 1
  field_simp
  ring

/-- The mean of chi at the second tabulated `eta`. -/
theorem mean_second (hl : loadEmission (some dir) (tables dir) = .ok t) (hg : t.Gives cfg) :
    ∃ x : ℝ → ℝ, (∀ v, 0 ≤ v → v < 1 → calculateChi cfg ((10 : ℝ) ^ (-5 + 2 / 33 : ℝ)) v = .ok (x v)) ∧
      ENNReal.ofReal (0.2316 * ((10 : ℝ) ^ (-5 + 2 / 33 : ℝ)) ^ 2) ≤
        ∫⁻ v in Set.Ico (0 : ℝ) 1, ENNReal.ofReal (x v) := by
  obtain ⟨hd, h100⟩ := chiDistributions dir t hl cfg hg
  have hu := rows_units
  simp only [Prod.mk.injEq] at hu
  obtain ⟨u1, -, -⟩ := hu
  obtain ⟨a1, r1, c1, k1, row1⟩ := shippedRow dir t hl cfg hg (i := 1) (ts := ksi1) (by norm_num) rfl u1
  rw [Nat.cast_one] at a1 row1
  have e1 : cfg.etaAxis[1]'(by omega) = -5 + 2 * (1 : ℝ) / 33 :=
    Option.some.inj ((List.getElem?_eq_getElem _).symm.trans a1)
  have hη : (-5 + 2 / 33 : ℝ) = -5 + 2 * 1 / 33 := by norm_num
  rw [hη]
  have hex : ∀ v : ℝ, ∃ y : ℝ, 0 ≤ v → v < 1 →
      calculateChi cfg ((10 : ℝ) ^ (-5 + 2 * 1 / 33 : ℝ)) v = .ok ((10 : ℝ) ^ y) ∧
      interpolate1D (ksi1.map val) c1 v = .ok y := by
    intro v
    by_cases hv : 0 ≤ v ∧ v < 1
    swap
    · exact ⟨0, fun a b => absurd ⟨a, b⟩ hv⟩
    obtain ⟨y, hy, hb⟩ := chi_between hd hv.1 hv.2
    refine ⟨y 1, fun _ _ => ⟨?_, hy 1 _ _ r1 k1⟩⟩
    rw [hb 1 (by omega) _ 0 le_rfl zero_le_one (by
      rw [e1, Real.logb_rpow (by norm_num) (by norm_num)]; ring)]
    simp
  choose y hy using hex
  refine ⟨fun v => (10 : ℝ) ^ y v, fun v a b => (hy v a b).1, ?_⟩
  have hw : -5 + 2 * (1 : ℝ) / 33 - Real.logb 10 2 -
      Real.logb 10 (((5748784976988682 * 10 ^ 7 : ℤ) : ℝ) / 10 ^ 40) ≤ 40 := by
    have h2 : 0 ≤ Real.logb 10 2 := Real.logb_nonneg (by norm_num) (by norm_num)
    have h3 : -40 ≤ Real.logb 10 (((5748784976988682 * 10 ^ 7 : ℤ) : ℝ) / 10 ^ 40) := by
      rw [Real.le_logb_iff_rpow_le (by norm_num) (by norm_num), show (-40 : ℝ) = ((-40 : ℤ) : ℝ) by norm_num,
        Real.rpow_intCast]
      norm_num
    linarith
  refine le_trans ?_ (row1.lower (q := ((11497569 : ℤ) : ℝ) / ((10 ^ 7 : ℤ) : ℝ)) (by norm_num) (by norm_num) ?_ hw y
    fun u a b => (hy u a b).2)
  · refine ENNReal.ofReal_le_ofReal ?_
    rw [lowSum_eq _ _ _ (by norm_num)]
    have hu : 5327000 ≤ (lowSum (unitAt ksi1) 11497569 (10 ^ 7) : ℝ) / (10 ^ 40 * ((10 ^ 7 : ℤ) : ℝ) ^ 197) := by
      rw [le_div_iff₀ (by positivity)]
      have := low1
      have h' : ((5327000 * (10 ^ 40 * (10 ^ 7) ^ 197) : ℤ) : ℝ) ≤
          ((lowSum (unitAt ksi1) 11497569 (10 ^ 7) : ℤ) : ℝ) := Int.cast_le.2 this
      refine le_trans (le_of_eq ?_) h'
      push_cast
      ring
    refine le_trans ?_ (mul_le_mul_of_nonneg_left hu (by norm_num))
    have := pow_le_pow_left₀ (by positivity) eta1.2 2
    refine (mul_le_mul_of_nonneg_left this (by norm_num)).trans ?_
    norm_num
  · rw [ten_pow_width (by norm_num), le_div_iff₀ (by norm_num)]
    refine le_trans ?_ eta1.1
    norm_num

/-! ## The factors -/

theorem h_second : (((hPairs.map (·.1))[5]?.map Tok.units, (hPairs.map (·.1))[6]?.map Tok.units),
    ((hPairs.map (·.2))[5]?.map Tok.units, (hPairs.map (·.2))[6]?.map Tok.units)) =
    ((some (-4939879759519038 * 10 ^ 25), some (-4927855711422846 * 10 ^ 25)),
      (some (7189952882632514 * 10 ^ 24), some (7189951237443761 * 10 ^ 24))) := by decide +kernel

theorem h_axes (hl : loadEmission (some dir) (tables dir) = .ok t) (hg : t.Gives cfg) :
    cfg.hAxis = (hPairs.map (·.1)).map val ∧ cfg.hData = (hPairs.map (·.2)).map val ∧
      IsTable cfg.hAxis cfg.hData := by
  obtain ⟨e', he', a1, a2, -⟩ := C98_emission (D := ℝ) dir
  obtain rfl : e' = t := Res.ok.inj (he'.symm.trans hl)
  have ok1 : ∀ p ∈ hPairs, p.1.ok = true := by
    intro p hp
    have := List.all_eq_true.1 h_checked (p.1, [' ']) (by simp; exact ⟨_, hp⟩)
    simp only [Bool.and_eq_true] at this
    exact this.1.1
  have ok2 : ∀ p ∈ hPairs, p.2.ok = true := by
    intro p hp
    have := List.all_eq_true.1 h_checked (p.2, ['\n']) (by simp; exact ⟨_, hp⟩)
    simp only [Bool.and_eq_true] at this
    exact this.1.1
  refine ⟨?_, ?_, (pairs_table (n := 498) (a := -5) (b := 1) ok1 h_length (by norm_num) h_incr (by rw [h_ends]; rfl)
    (hg.1.trans a1) (hg.2.1.trans a2)).1⟩
  · rw [hg.1, a1, List.map_map]
    exact List.map_congr_left fun p hp => ok_val (ok1 p hp)
  · rw [hg.2.1, a2, List.map_map]
    exact List.map_congr_left fun p hp => ok_val (ok2 p hp)

theorem h_first (hl : loadEmission (some dir) (tables dir) = .ok t) (hg : t.Gives cfg) :
    rd cfg.hAxis 0 = .ok (-5 : ℝ) := by
  have h := val_at (Prod.mk.inj h_ends).1
  rw [← (h_axes hl hg).1] at h
  unfold rd
  rw [h]
  norm_num

/-- The rate factor at the second tabulated `eta`. -/
theorem logh_second (hl : loadEmission (some dir) (tables dir) = .ok t) (hg : t.Gives cfg) :
    ∃ y, 0.71875 ≤ y ∧ interpolate1D cfg.hAxis cfg.hData (-5 + 2 / 33 : ℝ) = .ok y := by
  obtain ⟨h1, h2, tab⟩ := h_axes hl hg
  have hu := h_second
  simp only [Prod.mk.injEq] at hu
  obtain ⟨⟨s5, s6⟩, d5, d6⟩ := hu
  have s5 := val_at s5
  have s6 := val_at s6
  have d5 := val_at d5
  have d6 := val_at d6
  rw [← h1] at s5 s6
  rw [← h2] at d5 d6
  obtain ⟨p5, q5⟩ := List.getElem?_eq_some_iff.1 s5
  obtain ⟨p6, q6⟩ := List.getElem?_eq_some_iff.1 s6
  obtain ⟨p7, q7⟩ := List.getElem?_eq_some_iff.1 d5
  obtain ⟨p8, q8⟩ := List.getElem?_eq_some_iff.1 d6
  refine ⟨_, ?_, C05_on_segment tab _ 5 p6 (by rw [q5]; norm_num) (by rw [q6]; norm_num)⟩
  rw [q5, q6, q7, q8]
  unfold lineThrough
  norm_num

theorem classical_factor : 3 / 2 * √3 * (10 : ℝ) ^ (0.7193 : ℝ) / Units.pi * 0.22579 ≤ 0.98 := by
  have h3 : √3 ≤ 1.7320509 := by
    rw [Real.sqrt_le_left (by norm_num)]; norm_num
  have h10 : (10 : ℝ) ^ (0.7193 : ℝ) ≤ 5.2481 := by
    refine (Real.rpow_le_rpow_of_exponent_le (by norm_num) (by norm_num : (0.7193 : ℝ) ≤ 18 / 25)).trans ?_
    refine le_of_pow_le_pow_left₀ (by norm_num : (25 : Nat) ≠ 0) (by norm_num) ?_
    rw [← Real.rpow_natCast, ← Real.rpow_mul (by norm_num)]
    norm_num
  have hp : (Units.pi : ℝ) = 3.14159265359 := by simp [Units.pi]
  have : √3 * (10 : ℝ) ^ (0.7193 : ℝ) ≤ 1.7320509 * 5.2481 := mul_le_mul h3 h10 (by positivity) (by norm_num)
  rw [hp, div_mul_eq_mul_div, div_le_iff₀ (by norm_num)]
  norm_num at this ⊢
  linarith

theorem semiclassical_factor {y : ℝ} (hy : 0.71875 ≤ y) :
    1.002 ≤ 3 / 2 * √3 * (10 : ℝ) ^ y / Units.pi * 0.2316 := by
  have h3 : 1.7320508 ≤ √3 := Real.le_sqrt_of_sq_le (by norm_num)
  have h10 : 5.2329 ≤ (10 : ℝ) ^ y := by
    refine le_trans ?_ (Real.rpow_le_rpow_of_exponent_le (by norm_num) hy)
    refine le_of_pow_le_pow_left₀ (by norm_num : (32 : Nat) ≠ 0) (by positivity) ?_
    rw [← Real.rpow_natCast ((10 : ℝ) ^ (0.71875 : ℝ)), ← Real.rpow_mul (by norm_num)]
    norm_num
  have hp : (Units.pi : ℝ) = 3.14159265359 := by simp [Units.pi]
  have : 1.7320508 * 5.2329 ≤ √3 * (10 : ℝ) ^ y := mul_le_mul h3 h10 (by norm_num) (by positivity)
  rw [hp, div_mul_eq_mul_div, le_div_iff₀ (by norm_num)]
  norm_num at this ⊢
  linarith

end Shipped

section law

open Shipped

variable {dir : List Char} {t : Emission ℝ} {cfg : SimCfg ℝ} {e : EmissionCfg ℝ} {p : Particle ℝ}
  {n N mx : Nat} {nm : String}

/-- C145 is false of the classical model with the tables that come with the program: the photons carry at most
98 percent of the momentum that radiation reaction takes from the lepton. -/
theorem C145_classical_refuted (hl : loadEmission (some dir) (tables dir) = .ok t) (hg : t.Gives e)
    (hprocs : cfg.procs = [.continuous e true]) (hpush : cfg.push = landauForce)
    (hm : p.mass ≠ 0) (hk : p.kind ≠ .photon) (ha : p.isAlive = true) (hw : 0 ≤ p.weight) (hdt : 0 ≤ e.dt)
    (hmom : ∀ k < n, (pushes cfg p (k + 1)).momentum ≠ ⟨0, 0, 0⟩) (hE : e.eMin = 0)
    (h0 : 0 < e.sampleFrac) (h1 : e.sampleFrac ≤ 1) (hmx : n < mx)
    (hend : ∀ k < n, (k : ℝ) * cfg.dt < cfg.timeEnd) (hN : 3 * n < N) (F : List ℝ → ENNReal)
    (hF : ∀ us s, Steps cfg (lonely p nm mx us) n s →
      F us = ((photonsIn s).map fun x => ENNReal.ofReal x.weight * ENNReal.ofReal (len x.momentum.toVec)).sum) :
    average N F ≤ ENNReal.ofReal (0.98 * (p.weight *
      ∑ k ∈ Finset.range n, e.dt * reactionLoss cfg.push e.field (pushes cfg p (k + 1)))) := by
  obtain ⟨x, hx, hmean⟩ := mean_classical hl hg
  have hL : InTables cfg e true (fun _ => 0.7193)
      (fun eta v => x v * (eta / Real.exp (-5)) * (eta / Real.exp (-5))) p n := by
    intro k _ v a b
    unfold continuousLoghChi
    rw [if_pos (by simp), h_first hl hg, Res.ok_bind]
    dsimp only
    rw [real_exp, hx v a b, Res.ok_bind, real_lit, real_mul, real_mul, real_div]
    norm_num
  rw [C145_carried_partial hprocs hL hm hk ha hw hdt hmom hE h0 h1 hmx hend hN F hF]
  have hα := alpha_pos
  have hπ : (0 : ℝ) < Units.pi := by norm_num [Units.pi]
  have hpos : ∀ q, 0 ≤ reactionLoss cfg.push e.field q := fun q => Real.sqrt_nonneg _
  rw [Finset.mul_sum, Finset.mul_sum, ENNReal.ofReal_sum_of_nonneg fun k _ =>
    mul_nonneg (by norm_num) (mul_nonneg hw (mul_nonneg hdt (hpos _)))]
  refine Finset.sum_le_sum fun k hkn => ?_
  have hkn := Finset.mem_range.1 hkn
  obtain ⟨q, hq⟩ : ∃ q, q = pushes cfg p (k + 1) := ⟨_, rfl⟩
  have hqk : q.kind ≠ .photon := by rw [hq, (kind_pushes p _).1]; exact hk
  have hqm : q.momentum ≠ ⟨0, 0, 0⟩ := by rw [hq]; exact hmom k hkn
  rw [← hq, hpush, (C145_reaction e.field q hqk hqm).2.1]
  generalize calculateEta e.field q = eta
  have hstep : meanRadiated (fun _ => 0.7193) (fun eta v => x v * (eta / Real.exp (-5)) * (eta / Real.exp (-5))) eta ≤
      ENNReal.ofReal (0.98 * (2 / 3 * Units.alpha * eta ^ 2)) := by
    unfold meanRadiated
    have e1 : ∀ v, ENNReal.ofReal (x v * (eta / Real.exp (-5)) * (eta / Real.exp (-5))) =
        ENNReal.ofReal ((eta / Real.exp (-5)) ^ 2) * ENNReal.ofReal (x v) := by
      intro v
      rw [← ENNReal.ofReal_mul (sq_nonneg _)]
      congr 1
      ring
    simp only [e1]
    rw [lintegral_const_mul' _ _ ENNReal.ofReal_ne_top]
    refine (mul_le_mul_right (mul_le_mul_right hmean _) _).trans ?_
    rw [← ENNReal.ofReal_mul (sq_nonneg _), ← ENNReal.ofReal_mul (by positivity)]
    refine ENNReal.ofReal_le_ofReal ?_
    have := mul_le_mul_of_nonneg_right classical_factor (by positivity : 0 ≤ 2 / 3 * (Units.alpha : ℝ) * eta ^ 2)
    refine le_trans (le_of_eq ?_) this
    field_simp
  refine (mul_le_mul_right hstep _).trans (le_of_eq ?_)
  rw [← ENNReal.ofReal_mul (by positivity)]
  congr 1
  ring

/-- C145 is false of the semiclassical model with the tables that come with the program: where the quantum
parameter is the second one of the table, the photons carry more than radiation reaction takes from the lepton. -/
theorem C145_semiclassical_refuted (hl : loadEmission (some dir) (tables dir) = .ok t) (hg : t.Gives e)
    (hprocs : cfg.procs = [.continuous e false]) (hpush : cfg.push = modLandauForce)
    (hm : p.mass ≠ 0) (hk : p.kind ≠ .photon) (ha : p.isAlive = true) (hw : 0 ≤ p.weight) (hdt : 0 ≤ e.dt)
    (hmom : ∀ k < n, (pushes cfg p (k + 1)).momentum ≠ ⟨0, 0, 0⟩) (hE : e.eMin = 0)
    (h0 : 0 < e.sampleFrac) (h1 : e.sampleFrac ≤ 1) (hmx : n < mx)
    (hend : ∀ k < n, (k : ℝ) * cfg.dt < cfg.timeEnd) (hN : 3 * n < N)
    (heta : ∀ k < n, calculateEta e.field (pushes cfg p (k + 1)) = 10 ^ (-5 + 2 / 33 : ℝ))
    (F : List ℝ → ENNReal)
    (hF : ∀ us s, Steps cfg (lonely p nm mx us) n s →
      F us = ((photonsIn s).map fun x => ENNReal.ofReal x.weight * ENNReal.ofReal (len x.momentum.toVec)).sum) :
    ENNReal.ofReal (1.002 * (p.weight *
      ∑ k ∈ Finset.range n, e.dt * reactionLoss cfg.push e.field (pushes cfg p (k + 1)))) ≤ average N F := by
  obtain ⟨x, hx, hmean⟩ := mean_second hl hg
  obtain ⟨y, hy, hlogh⟩ := logh_second hl hg
  have hbig := eta1.1
  rw [show (-5 + 2 * 1 / 33 : ℝ) = -5 + 2 / 33 by norm_num] at hbig
  have hL : InTables cfg e false (fun _ => y) (fun _ v => x v) p n := by
    intro k hkn v a b
    rw [heta k hkn]
    unfold continuousLoghChi
    rw [if_neg (by
      simp only [real_lt, real_lit, Bool.or_false, decide_eq_true_eq, not_lt]
      norm_num at hbig ⊢
      linarith)]
    rw [show (log10 ((10 : ℝ) ^ (-5 + 2 / 33 : ℝ)) : ℝ) = -5 + 2 / 33 from
      Real.logb_rpow (by norm_num) (by norm_num), hlogh, Res.ok_bind, hx v a b, Res.ok_bind]
  rw [C145_carried_partial hprocs hL hm hk ha hw hdt hmom hE h0 h1 hmx hend hN F hF]
  have hα := alpha_pos
  have hπ : (0 : ℝ) < Units.pi := by norm_num [Units.pi]
  have hpos : ∀ q, 0 ≤ reactionLoss cfg.push e.field q := fun q => Real.sqrt_nonneg _
  rw [Finset.mul_sum, Finset.mul_sum, ENNReal.ofReal_sum_of_nonneg fun k _ =>
    mul_nonneg (by norm_num) (mul_nonneg hw (mul_nonneg hdt (hpos _)))]
  refine Finset.sum_le_sum fun k hkn => ?_
  have hkn := Finset.mem_range.1 hkn
  have hη := heta k hkn
  obtain ⟨q, hq⟩ : ∃ q, q = pushes cfg p (k + 1) := ⟨_, rfl⟩
  have hqk : q.kind ≠ .photon := by rw [hq, (kind_pushes p _).1]; exact hk
  have hqm : q.momentum ≠ ⟨0, 0, 0⟩ := by rw [hq]; exact hmom k hkn
  rw [← hq] at hη ⊢
  rw [hpush, (C145_reaction e.field q hqk hqm).2.2, hη]
  generalize hz : (10 : ℝ) ^ (-5 + 2 / 33 : ℝ) = eta at hmean ⊢
  have heta0 : 0 ≤ eta := by rw [← hz]; positivity
  have hstep : ENNReal.ofReal (1.002 * (2 / 3 * Units.alpha * eta ^ 2)) ≤
      meanRadiated (fun _ => y) (fun _ v => x v) eta := by
    unfold meanRadiated
    refine le_trans ?_ (mul_le_mul_right hmean _)
    rw [← ENNReal.ofReal_mul (by positivity)]
    refine ENNReal.ofReal_le_ofReal ?_
    have := mul_le_mul_of_nonneg_right (semiclassical_factor hy)
      (by positivity : 0 ≤ 2 / 3 * (Units.alpha : ℝ) * eta ^ 2)
    refine this.trans (le_of_eq ?_)
    field_simp
  refine le_trans ?_ (mul_le_mul_right hstep _)
  rw [← ENNReal.ofReal_mul (by positivity)]
  refine ENNReal.ofReal_le_ofReal ?_
  obtain ⟨g0, g1⟩ := gaunt_range heta0
  have hc : 0 ≤ 1.002 * (p.weight * e.dt * (2 / 3 * Units.alpha * eta ^ 2)) := by positivity
  have := mul_le_mul_of_nonneg_left g1 hc
  linarith

end law

/-! ## The hypotheses are satisfiable -/

namespace BalanceWitness

open Witness

/-- The emission of a classical or semiclassical run in the field `E` along the third axis, with the tables `t`. -/
noncomputable def emission (t : Emission ℝ) (E : ℝ) : EmissionCfg ℝ :=
  { field := staticField ⟨0, 0, -E⟩ ⟨0, 0, 0⟩, dt := 1, track := false, sampleFrac := 1 / 2, eMin := 0
    hAxis := t.hAxis, hData := t.hData, etaAxis := t.etaAxis, chiAxis := t.chiAxis
    phEnTable := t.data.map fun r => r.map fun x => x.getD 0 }

/-- An electron that is accelerated along its path, and brakes by radiation. -/
noncomputable def run (push : PushMom ℝ) (c : Bool) (t : Emission ℝ) (E : ℝ) (n : Nat) : SimCfg ℝ :=
  ⟨push, staticField ⟨0, 0, -E⟩ ⟨0, 0, 0⟩, 1, n, [.continuous (emission t E) c]⟩

theorem eta_z {E z : ℝ} (hE : 0 ≤ E) (hz : 0 < z) : pushEta 1 (⟨0, 0, z⟩ : V3 ℝ) ⟨0, 0, -E⟩ ⟨0, 0, 0⟩ = E := by
  have hg := pushGamma_pos 1 (⟨0, 0, z⟩ : V3 ℝ)
  unfold pushEta
  rw [norm_z z hz]
  simp [V3.dot, V3.smul, V3.sub, V3.cross, V3.add, V3.mag2]
  rw [show E ^ 2 / (pushGamma 1 (⟨0, 0, z⟩ : V3 ℝ) * pushGamma 1 (⟨0, 0, z⟩ : V3 ℝ)) =
    (E / pushGamma 1 (⟨0, 0, z⟩ : V3 ℝ)) ^ 2 by ring, Real.sqrt_sq (by positivity)]
  field_simp

theorem alpha_le : (Units.alpha : ℝ) ≤ 1 := by
  unfold Units.alpha
  simp only [real_lit]
  norm_num

/-- The force on the electron. -/
theorem force {push : PushMom ℝ} (hp : push = landauForce ∨ push = modLandauForce) {E : ℝ} (h0 : 0 ≤ E) (h1 : E ≤ 1) :
    ∃ g, 0 ≤ g ∧ ∀ z, 0 < z → push 1 (-1) ⟨0, 0, z⟩ ⟨0, 0, -E⟩ ⟨0, 0, 0⟩ = ⟨0, 0, g⟩ := by
  have hα := alpha_pos
  have hα1 := alpha_le
  have hlor : ∀ z : ℝ, lorentzForce 1 (-1) (⟨0, 0, z⟩ : V3 ℝ) ⟨0, 0, -E⟩ ⟨0, 0, 0⟩ = ⟨0, 0, E⟩ := by
    intro z
    unfold lorentzForce
    simp [V3.cross, V3.divs, V3.add, V3.smul]
  have hbound : ∀ γ : ℝ, 0 ≤ γ → γ ≤ 1 → 0 ≤ E - 2 / 3 * Units.alpha * E ^ 2 * γ := by
    intro γ g0 g1
    have a1 : (Units.alpha : ℝ) * E ^ 2 ≤ 1 * E :=
      mul_le_mul hα1 (by rw [sq]; exact mul_le_of_le_one_left h0 h1) (sq_nonneg _) (by norm_num)
    have a2 : (Units.alpha : ℝ) * E ^ 2 * γ ≤ Units.alpha * E ^ 2 := mul_le_of_le_one_right (by positivity) g1
    linarith
  rcases hp with rfl | rfl
  · refine ⟨E - 2 / 3 * Units.alpha * E ^ 2 * 1, hbound 1 zero_le_one le_rfl, fun z hz => ?_⟩
    unfold landauForce landauReaction
    rw [hlor, eta_z h0 hz, norm_z z hz]
    simp [V3.add, V3.smul]
    ring
  · refine ⟨E - 2 / 3 * Units.alpha * E ^ 2 * gaunt E, hbound _ (gaunt_range h0).1 (gaunt_range h0).2, fun z hz => ?_⟩
    unfold modLandauForce modLandauReaction
    rw [hlor, eta_z h0 hz, norm_z z hz]
    simp [V3.add, V3.smul]
    ring

theorem forward {push : PushMom ℝ} (hp : push = landauForce ∨ push = modLandauForce) {c : Bool} {t : Emission ℝ}
    {E : ℝ} (h0 : 0 ≤ E) (h1 : E ≤ 1) (n k : Nat) : Forward (pushes (run push c t E n) electron k) := by
  induction k with
  | zero => exact electron_forward
  | succ k ih =>
    rw [pushes_succ]
    obtain ⟨z, hz, hmom⟩ := ih.momentum
    obtain ⟨g, g0, hg⟩ := force hp h0 h1
    have hid := push_identity (run push c t E n).push (run push c t E n).field (run push c t E n).dt
      (pushes (run push c t E n) electron k)
    refine ⟨hid.1.trans ih.kind, hid.2.1.trans ih.mass, hid.2.2.1.trans ih.charge,
      hid.2.2.2.2.2.1.trans ih.alive, z + g, by linarith, ?_⟩
    generalize pushes (run push c t E n) electron k = q at ih hmom
    unfold pushParticle
    rw [if_neg (by rw [ih.alive]; simp), if_neg (by rw [ih.mass]; simp)]
    have key : (rk4 push (staticField ⟨0, 0, -E⟩ ⟨0, 0, 0⟩) 1 q.mass q.charge q.time q.position q.momentum).2 =
        (⟨0, 0, z + g⟩ : V3 ℝ) := by
      unfold rk4
      rw [ih.mass, ih.charge, hmom]
      dsimp only [staticField]
      have e1 : (⟨0, 0, z⟩ : V3 ℝ).add (((⟨0, 0, g⟩ : V3 ℝ).muls (1 : ℝ)).divs (lit 2)) = ⟨0, 0, z + g / 2⟩ := by
        simp [V3.add, V3.muls, V3.divs]
      have e2 : (⟨0, 0, z⟩ : V3 ℝ).add ((⟨0, 0, g⟩ : V3 ℝ).muls (1 : ℝ)) = ⟨0, 0, z + g⟩ := by
        simp [V3.add, V3.muls]
      rw [hg z hz, e1, hg _ (by linarith), e1, hg _ (by linarith), e2, hg _ (by linarith)]
      simp [V3.add, V3.smul]
      ring
    have up : ∀ (r : V3 ℝ × V3 ℝ), ((q.updateTrack r.1 r.2).updateTime (1 : ℝ)).momentum = r.2 := by
      intro r
      unfold Particle.updateTime Particle.updateTrack
      split <;> rfl
    exact (up _).trans key

theorem eta {push : PushMom ℝ} (hp : push = landauForce ∨ push = modLandauForce) {c : Bool} {t : Emission ℝ}
    {E : ℝ} (h0 : 0 ≤ E) (h1 : E ≤ 1) (n k : Nat) :
    calculateEta (emission t E).field (pushes (run push c t E n) electron k) = E := by
  have hf := forward hp (c := c) (t := t) h0 h1 n k
  obtain ⟨z, hz, hmom⟩ := hf.momentum
  rw [eta_push (by rw [hf.kind]; simp), hf.mass, hmom]
  exact eta_z h0 hz

theorem momentum {push : PushMom ℝ} (hp : push = landauForce ∨ push = modLandauForce) {c : Bool} {t : Emission ℝ}
    {E : ℝ} (h0 : 0 ≤ E) (h1 : E ≤ 1) (n k : Nat) :
    (pushes (run push c t E n) electron k).momentum ≠ ⟨0, 0, 0⟩ := by
  obtain ⟨z, hz, hmom⟩ := (forward hp (c := c) (t := t) h0 h1 n k).momentum
  rw [hmom]
  intro h
  have := congrArg V3.z h
  dsimp only at this
  linarith

theorem gives {dir : List Char} {t : Emission ℝ} (hl : loadEmission (some dir) (Shipped.tables dir) = .ok t) (E : ℝ) :
    t.Gives (emission t E) := by
  obtain ⟨e', he', -, -, -, a⟩ := C98_emission (D := ℝ) dir
  obtain rfl : e' = t := Res.ok.inj (he'.symm.trans hl)
  refine ⟨rfl, rfl, rfl, rfl, ?_⟩
  show e'.data = (e'.data.map fun r => r.map fun x => x.getD 0).map fun r => r.map some
  rw [a]
  simp [Function.comp_def]

end BalanceWitness

open BalanceWitness Witness in
open Classical in
/-- An electron that is accelerated for `n` steps in a classical run, with the tables that come with the program: it
loses momentum by radiation reaction, and its photons carry at most 98 percent of that. -/
example (dir : List Char) (n : Nat) (hn : 0 < n) : ∃ (t : Emission ℝ) (F : List ℝ → ENNReal) (L : ℝ), 0 < L ∧
    (∀ us s, Steps (run landauForce true t 1 n) (lonely electron "0" (n + 1) us) n s →
      F us = ((photonsIn s).map fun x => ENNReal.ofReal x.weight * ENNReal.ofReal (len x.momentum.toVec)).sum) ∧
    L = electron.weight * ∑ k ∈ Finset.range n, 1 * reactionLoss landauForce (emission t 1).field
      (pushes (run landauForce true t 1 n) electron (k + 1)) ∧
    average (3 * n + 1) F ≤ ENNReal.ofReal (0.98 * L) ∧ average (3 * n + 1) F < ENNReal.ofReal L := by
  obtain ⟨t, hl, -⟩ := C98_emission (D := ℝ) dir
  have hF : ∀ us s, Steps (run landauForce true t 1 n) (lonely electron "0" (n + 1) us) n s →
      (if h : ∃ s, Steps (run landauForce true t 1 n) (lonely electron "0" (n + 1) us) n s then
        ((photonsIn h.choose).map fun x => ENNReal.ofReal x.weight * ENNReal.ofReal (len x.momentum.toVec)).sum
        else 0) =
      ((photonsIn s).map fun x => ENNReal.ofReal x.weight * ENNReal.ofReal (len x.momentum.toVec)).sum := by
    intro us s hs
    rw [dif_pos ⟨s, hs⟩, steps_det (Exists.choose_spec (⟨s, hs⟩ : ∃ s, Steps _ _ _ s)) hs]
  have hw : electron.weight = 1 := rfl
  have hmom := fun k => momentum (push := landauForce) (.inl rfl) (c := true) (t := t) zero_le_one le_rfl n (k + 1)
  have hloss : ∀ k, reactionLoss landauForce (emission t 1).field
      (pushes (run landauForce true t 1 n) electron (k + 1)) = 2 / 3 * Units.alpha := by
    intro k
    have hf := forward (push := landauForce) (.inl rfl) (c := true) (t := t) zero_le_one le_rfl n (k + 1)
    rw [(C145_reaction _ _ (by rw [hf.kind]; simp) (hmom k)).2.1, eta (.inl rfl) zero_le_one le_rfl]
    ring
  have main := C145_classical_refuted (nm := "0") (mx := n + 1) (N := 3 * n + 1) (p := electron) hl (gives hl 1)
    (cfg := run landauForce true t 1 n) (n := n) rfl rfl (by rw [electron_forward.mass]; norm_num)
    (by rw [electron_forward.kind]; simp) rfl (by rw [hw]; norm_num) zero_le_one (fun k _ => hmom k) rfl
    (by norm_num [emission]) (by norm_num [emission]) (by omega)
    (fun k hk => by simpa [run] using hk) (by omega) _ hF
  have hpos : 0 < electron.weight * ∑ k ∈ Finset.range n, 1 * reactionLoss landauForce (emission t 1).field
      (pushes (run landauForce true t 1 n) electron (k + 1)) := by
    have := alpha_pos
    have hn' : (0 : ℝ) < n := by exact_mod_cast hn
    simp only [hloss, hw, Finset.sum_const, Finset.card_range, nsmul_eq_mul]
    positivity
  exact ⟨t, _, _, hpos, hF, rfl, main, lt_of_le_of_lt main
    ((ENNReal.ofReal_lt_ofReal_iff hpos).2 (mul_lt_of_lt_one_left hpos (by norm_num)))⟩

open BalanceWitness Witness in
open Classical in
/-- The same for a semiclassical run in a weaker field: the photons carry more than is lost. -/
example (dir : List Char) (n : Nat) : ∃ (t : Emission ℝ) (E : ℝ) (F : List ℝ → ENNReal), 0 < E ∧
    (∀ us s, Steps (run modLandauForce false t E n) (lonely electron "0" (n + 1) us) n s →
      F us = ((photonsIn s).map fun x => ENNReal.ofReal x.weight * ENNReal.ofReal (len x.momentum.toVec)).sum) ∧
    ENNReal.ofReal (1.002 * (electron.weight * ∑ k ∈ Finset.range n, 1 * reactionLoss modLandauForce
      (emission t E).field (pushes (run modLandauForce false t E n) electron (k + 1)))) ≤ average (3 * n + 1) F := by
  obtain ⟨t, hl, -⟩ := C98_emission (D := ℝ) dir
  obtain ⟨E, hE⟩ : ∃ E : ℝ, E = 10 ^ (-5 + 2 / 33 : ℝ) := ⟨_, rfl⟩
  have h0 : 0 < E := by rw [hE]; positivity
  have h1 : E ≤ 1 := by rw [hE]; exact Real.rpow_le_one_of_one_le_of_nonpos (by norm_num) (by norm_num)
  have hF : ∀ us s, Steps (run modLandauForce false t E n) (lonely electron "0" (n + 1) us) n s →
      (if h : ∃ s, Steps (run modLandauForce false t E n) (lonely electron "0" (n + 1) us) n s then
        ((photonsIn h.choose).map fun x => ENNReal.ofReal x.weight * ENNReal.ofReal (len x.momentum.toVec)).sum
        else 0) =
      ((photonsIn s).map fun x => ENNReal.ofReal x.weight * ENNReal.ofReal (len x.momentum.toVec)).sum := by
    intro us s hs
    rw [dif_pos ⟨s, hs⟩, steps_det (Exists.choose_spec (⟨s, hs⟩ : ∃ s, Steps _ _ _ s)) hs]
  have hw : electron.weight = 1 := rfl
  exact ⟨t, E, _, h0, hF, C145_semiclassical_refuted (nm := "0") (mx := n + 1) (p := electron) hl (gives hl E)
    (cfg := run modLandauForce false t E n) (n := n) rfl rfl (by rw [electron_forward.mass]; norm_num)
    (by rw [electron_forward.kind]; simp) rfl (by rw [hw]; norm_num) zero_le_one
    (fun k _ => momentum (.inr rfl) h0.le h1 n (k + 1)) rfl
    (by norm_num [emission]) (by norm_num [emission]) (by omega)
    (fun k hk => by simpa [run] using hk) (by omega)
    (fun k _ => by rw [eta (.inr rfl) h0.le h1, hE]) _ hF⟩

end QED
