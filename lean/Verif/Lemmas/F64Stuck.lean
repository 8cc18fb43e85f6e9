import Verif.Lemmas.F64Depth
import Mathlib.Analysis.Complex.ExponentialBounds

set_option autoImplicit false

/-!
# A slow emission computed in doubles
-/

namespace QED

open Dbl

namespace F64

/-- A finite value between bounds. -/
def Btw (a : F64) (x y : ℝ) : Prop := ∃ z, a.1 = .fin z ∧ x ≤ z ∧ z ≤ y

theorem Btw.at {a : F64} {x : ℝ} (h : a.1 = .fin x) : Btw a x x := ⟨x, h, le_rfl, le_rfl⟩

theorem Btw.mul {a b : F64} {x y u v : ℝ} (ha : Btw a x y) (hb : Btw b u v) (hx : 0 ≤ x) (hu : 0 ≤ u)
    (hl : Form (x * u)) (hr : Form (y * v)) (hs : y * v ≤ 2 ^ 100) : Btw (a *. b) (x * u) (y * v) := by
  obtain ⟨z, hz, hz1, hz2⟩ := ha
  obtain ⟨w, hw, hw1, hw2⟩ := hb
  have h1 : x * u ≤ z * w := mul_le_mul hz1 hw1 hu (hx.trans hz1)
  have h2 : z * w ≤ y * v := mul_le_mul hz2 hw2 (hu.trans hw1) ((hx.trans hz1).trans hz2)
  have h0 : 0 ≤ z * w := mul_nonneg (hx.trans hz1) (hu.trans hw1)
  refine ⟨F64.round (z * w), mul_at hz hw (lt_big ?_) rfl, le_round hl h1, round_le hr h2⟩
  rw [abs_of_nonneg h0]
  exact h2.trans hs

theorem Btw.div {a b : F64} {x y u v : ℝ} (ha : Btw a x y) (hb : Btw b u v) (hx : 0 ≤ x) (hu : 0 < u)
    (hl : Form (x / v)) (hr : Form (y / u)) (hs : y / u ≤ 2 ^ 100) : Btw (a /. b) (x / v) (y / u) := by
  obtain ⟨z, hz, hz1, hz2⟩ := ha
  obtain ⟨w, hw, hw1, hw2⟩ := hb
  have hw0 : 0 < w := hu.trans_le hw1
  have h1 : x / v ≤ z / w := div_le_div₀ (hx.trans hz1) hz1 hw0 hw2
  have h2 : z / w ≤ y / u := div_le_div₀ ((hx.trans hz1).trans hz2) hz2 hu hw1
  have h0 : 0 ≤ z / w := div_nonneg (hx.trans hz1) hw0.le
  refine ⟨F64.round (z / w), div_at hz hw hw0.ne' (lt_big ?_) rfl, le_round hl h1, round_le hr h2⟩
  rw [abs_of_nonneg h0]
  exact h2.trans hs

theorem Btw.lit {q : ℚ} {x y : ℝ} (hx : Form x) (hy : Form y) (h1 : x ≤ (q : ℝ)) (h2 : (q : ℝ) ≤ y)
    (h0 : 0 ≤ x) (hs : y ≤ 2 ^ 100) : Btw (Dbl.lit q) x y := by
  refine ⟨F64.round q, ?_, le_round hx h1, round_le hy h2⟩
  show rnd (.fin q) = _
  refine rnd_fin (lt_big ?_)
  rw [abs_of_nonneg (h0.trans h1)]
  exact h2.trans hs

/-- A number of the form `n * 2 ^ -k`. -/
theorem form_frac {x : ℝ} (n : ℤ) (k : ℕ) (hn : |n| ≤ 2 ^ 53) (hk : k ≤ 1074) (h : x = n / 2 ^ k) :
    Form x := by
  have : x = n * 2 ^ (-(k : ℤ)) := by rw [h, zpow_neg, zpow_natCast, div_eq_mul_inv]
  rw [this]
  exact form_mul hn (by omega)

theorem val_frac {q : ℚ} {x : ℝ} (n : ℤ) (k : ℕ) (hn : |n| ≤ 2 ^ 53) (hk : k ≤ 1074) (h : x = n / 2 ^ k)
    (hq : (q : ℝ) = x) (hs : |x| ≤ 2 ^ 100) : (Dbl.lit q : F64).1 = .fin x := by
  have hf := form_frac n k hn hk h
  show rnd (.fin q) = _
  rw [hq, rnd_fin (lt_big hs), round_form_eq hf]

end F64

open F64

/-- A depth drawn with `1/2`. -/
theorem depth_half : Btw (initDepth (lit (1 / 2)) : F64) (1 / 2) 1 := by
  have hh : (lit (1 / 2) : F64).1 = .fin (1 / 2) :=
    val_frac 1 1 (by norm_num) (by norm_num) (by norm_num) (by norm_num) (by norm_num [abs_of_pos])
  have hf : Form (1 / 2 : ℝ) := form_frac 1 1 (by norm_num) (by norm_num) (by norm_num)
  have h1 : (lit 1 -. lit (1 / 2) : F64).1 = .fin (1 / 2) := by
    refine sub_at one_val hh (lt_big (by norm_num [abs_of_pos])) ?_
    rw [show (1 : ℝ) - 1 / 2 = 1 / 2 by norm_num]
    exact round_form_eq hf
  have hlog : Real.log (1 / 2) = -Real.log 2 := by rw [one_div, Real.log_inv]
  have hl1 := Real.log_two_gt_d9
  have hl2 := Real.log_two_lt_d9
  have h2 : (Dbl.log (lit 1 -. lit (1 / 2)) : F64).1 = .fin (F64.round (-Real.log 2)) := by
    show rnd (Dbl.log (lit 1 -. lit (1 / 2) : F64).1) = _
    have hl : (Dbl.log (.fin (1 / 2) : XR) : XR) = .fin (Real.log (1 / 2)) := by
      show XR.logBase _ _ = _
      unfold XR.logBase
      dsimp only
      rw [if_neg (by norm_num), if_neg (by norm_num), Real.logb, Real.log_exp, div_one]
    rw [h1, hl, hlog, rnd_fin (lt_big ?_)]
    rw [abs_neg, abs_of_pos (by linarith)]
    norm_num
    linarith
  have hr : F64.round (-1 * F64.round (-Real.log 2)) = F64.round (Real.log 2) := by
    rw [neg_one_mul, ← round_neg, neg_neg, round_form_eq (form_round _)]
  have hlo : 1 / 2 ≤ F64.round (Real.log 2) := le_round hf (by linarith)
  have hhi : F64.round (Real.log 2) ≤ 1 :=
    round_le (form_frac 1 0 (by norm_num) (by norm_num) (by norm_num)) (by linarith)
  refine ⟨F64.round (Real.log 2), ?_, hlo, hhi⟩
  refine mul_at SpeedWitness.minus_val h2 (lt_big ?_) hr
  rw [neg_one_mul, ← round_neg, neg_neg, abs_of_nonneg (by linarith)]
  linarith [show (1:ℝ) ≤ 2 ^ 100 by norm_num]

namespace Stuck

/-- A weak electric field along `x`. -/
noncomputable def field : Field F64 := fun _ _ => (⟨lit (1 / 2 ^ 60), lit 0, lit 0⟩, ⟨lit 0, lit 0, lit 0⟩)

/-- An electron that moves along `z`. -/
noncomputable def electron : Particle F64 :=
  .newLepton (lit 1) (lit (-1)) ⟨lit 0, lit 0, lit 0⟩ ⟨lit 0, lit 0, lit (3 / 4)⟩ (lit 1) (lit 0) false
    (lit (1 / 2))

/-- Steps of length one. -/
noncomputable def cfg : EmissionCfg F64 :=
  { field := field, dt := lit 1, track := false, sampleFrac := lit 1, eMin := lit 0, hAxis := [], hData := []
    etaAxis := [], chiAxis := [], phEnTable := [] }

theorem pz_val : (lit (3 / 4) : F64).1 = .fin (3 / 4) :=
  val_frac 3 2 (by norm_num) (by norm_num) (by norm_num) (by norm_num) (by norm_num [abs_of_pos])

theorem ex_val : (lit (1 / 2 ^ 60) : F64).1 = .fin (1 / 2 ^ 60) :=
  val_frac 1 60 (by norm_num) (by norm_num) (by norm_num) (by norm_num) (by norm_num [abs_of_pos])

theorem zz : (lit 0 *. lit 0 : F64).1 = .fin 0 := zero_mul_at zero_val zero_val

theorem mag2_val : electron.momentum.mag2.1 = .fin (9 / 16) := by
  refine zero_add_at (zero_add_at zz zz) (mul_at pz_val pz_val (lt_big (by norm_num [abs_of_pos])) ?_)
  rw [show (3 / 4 : ℝ) * (3 / 4) = 9 / 16 by norm_num]
  exact round_form_eq (form_frac 9 4 (by norm_num) (by norm_num) (by norm_num))

theorem kind_eq : electron.kind ≠ .photon := by
  show Particle.leptonKind (lit (-1) : F64) ≠ _
  unfold Particle.leptonKind
  split <;> simp

theorem gamma_val : electron.gamma.1 = .fin (5 / 4) := by
  have h : electron.gamma = sqrt (lit 1 +. electron.momentum.mag2 /. (electron.mass *. electron.mass)) := by
    unfold Particle.gamma
    split
    · exact absurd ‹_› kind_eq
    · rfl
  rw [h]
  have h1 : (electron.mass *. electron.mass).1 = .fin 1 := one_mul_at one_val one_val
  have h2 := div_one_at mag2_val h1
  have h3 : (lit 1 +. electron.momentum.mag2 /. (electron.mass *. electron.mass)).1 = .fin (25 / 16) := by
    refine add_at one_val h2 (lt_big (by norm_num [abs_of_pos])) ?_
    rw [show (1 : ℝ) + 9 / 16 = 25 / 16 by norm_num]
    exact round_form_eq (form_frac 25 4 (by norm_num) (by norm_num) (by norm_num))
  have h4 : Real.sqrt (25 / 16) = 5 / 4 := by
    rw [show (25 / 16 : ℝ) = (5 / 4) ^ 2 by norm_num, Real.sqrt_sq (by norm_num)]
  refine sqrt_at h3 (by norm_num) (lt_big ?_) ?_
  · rw [h4]; norm_num [abs_of_pos]
  · rw [h4]; exact round_form_eq (form_frac 5 2 (by norm_num) (by norm_num) (by norm_num))

theorem gamma2_val : (electron.gamma *. electron.gamma).1 = .fin (25 / 16) := by
  refine mul_at gamma_val gamma_val (lt_big (by norm_num [abs_of_pos])) ?_
  rw [show (5 / 4 : ℝ) * (5 / 4) = 25 / 16 by norm_num]
  exact round_form_eq (form_frac 25 4 (by norm_num) (by norm_num) (by norm_num))

theorem beta_fin : ∃ b, electron.beta.1 = .fin b := by
  have h : electron.beta = sqrt (lit 1 -. lit 1 /. (electron.gamma *. electron.gamma)) := by
    unfold Particle.beta
    split
    · exact absurd ‹_› kind_eq
    · rfl
  rw [h]
  have h1 : (lit 1 /. (electron.gamma *. electron.gamma)).1 = .fin (F64.round (1 / (25 / 16))) :=
    div_at one_val gamma2_val (by norm_num) (lt_big (by norm_num [abs_of_pos])) rfl
  have h2 : F64.round (1 / (25 / 16)) ≤ 1 :=
    round_le (form_frac 1 0 (by norm_num) (by norm_num) (by norm_num)) (by norm_num)
  have h3 : 0 ≤ F64.round (1 / (25 / 16)) := round_nonneg (by norm_num)
  have h4 : (lit 1 -. lit 1 /. (electron.gamma *. electron.gamma)).1 =
      .fin (F64.round (1 - F64.round (1 / (25 / 16)))) := by
    refine sub_at one_val h1 (lt_big ?_) rfl
    rw [abs_of_nonneg (by linarith)]
    linarith [show (1:ℝ) ≤ 2 ^ 100 by norm_num]
  have h5 : 0 ≤ F64.round (1 - F64.round (1 / (25 / 16))) := round_nonneg (by linarith)
  have h6 : F64.round (1 - F64.round (1 / (25 / 16))) ≤ 1 :=
    round_le (form_frac 1 0 (by norm_num) (by norm_num) (by norm_num)) (by linarith)
  refine ⟨_, sqrt_at h4 h5 (lt_big ?_) rfl⟩
  rw [abs_of_nonneg (Real.sqrt_nonneg _)]
  have : Real.sqrt (F64.round (1 - F64.round (1 / (25 / 16)))) ≤ 1 := Real.sqrt_le_one.mpr h6
  linarith [show (1:ℝ) ≤ 2 ^ 100 by norm_num]

theorem dir_val : electron.direction.At ![0, 0, 1] := by
  have h : (electron.momentum.mag).1 = .fin (3 / 4) := by
    have h4 : Real.sqrt (9 / 16) = 3 / 4 := by
      rw [show (9 / 16 : ℝ) = (3 / 4) ^ 2 by norm_num, Real.sqrt_sq (by norm_num)]
    refine sqrt_at mag2_val (by norm_num) (lt_big ?_) ?_
    · rw [h4]; norm_num [abs_of_pos]
    · rw [h4]; exact round_form_eq (form_frac 3 2 (by norm_num) (by norm_num) (by norm_num))
  refine ⟨zero_div_at zero_val h (by norm_num), zero_div_at zero_val h (by norm_num), ?_⟩
  refine div_at pz_val h (by norm_num) (lt_big (by norm_num)) ?_
  show F64.round (3 / 4 / (3 / 4)) = 1
  rw [div_self (by norm_num)]
  exact round_form_eq (form_frac 1 0 (by norm_num) (by norm_num) (by norm_num))

theorem eta_val : (calculateEta field electron).1 = .fin (5 / 4 / 2 ^ 60) := by
  obtain ⟨dx, dy, dz⟩ := dir_val
  replace dx : electron.direction.x.1 = .fin 0 := dx
  replace dy : electron.direction.y.1 = .fin 0 := dy
  replace dz : electron.direction.z.1 = .fin 1 := dz
  obtain ⟨b, hb⟩ := beta_fin
  have f60 : Form (1 / 2 ^ 60 : ℝ) := form_frac 1 60 (by norm_num) (by norm_num) (by norm_num)
  -- the field along the direction
  have hdot : ((field electron.time electron.position).1.dot electron.direction).1 = .fin 0 :=
    zero_add_at (zero_add_at (mul_zero_at ex_val dx) (zero_mul_at zero_val dy)) (zero_mul_at zero_val dz)
  have hdot' : (electron.direction.dot (field electron.time electron.position).1).1 = .fin 0 :=
    zero_add_at (zero_add_at (zero_mul_at dx ex_val) (zero_mul_at dy zero_val)) (mul_zero_at dz zero_val)
  have hpow : (pow (electron.direction.dot (field electron.time electron.position).1) (lit 2) : F64).1 =
      .fin 0 := by
    show rnd (Dbl.pow _ _) = _
    rw [hdot', two_val]
    have : (Dbl.pow (.fin 0 : XR) (.fin 2) : XR) = .fin 0 := by simp [Dbl.pow, XR.pow]
    rw [this, rnd_fin (by simp), round_form_eq form_zero]
  have sub0 : ∀ {a c : F64} {y : ℝ}, Form y → |y| ≤ 2 ^ 100 → a.1 = .fin y → c.1 = .fin 0 →
      (a -. c).1 = .fin y := by
    intro a c y hy hs ha hc
    refine sub_at ha hc (lt_big (by rwa [sub_zero])) ?_
    rw [sub_zero, round_form_eq hy]
  -- the transverse field
  have hx : ((((field electron.time electron.position).1.sub (electron.direction.smul
      ((field electron.time electron.position).1.dot electron.direction))).add
      ((electron.direction.cross (field electron.time electron.position).2).smul electron.beta))).At
      ![1 / 2 ^ 60, 0, 0] := by
    refine ⟨add_zero_at (sub0 f60 (by norm_num [abs_of_pos]) ex_val (zero_mul_at hdot dx))
      (mul_zero_at hb (zero_sub_zero_at (mul_zero_at dy zero_val) (mul_zero_at dz zero_val))),
      add_zero_at (zero_sub_zero_at zero_val (zero_mul_at hdot dy))
      (mul_zero_at hb (zero_sub_zero_at (mul_zero_at dz zero_val) (mul_zero_at dx zero_val))),
      add_zero_at (zero_sub_zero_at zero_val (zero_mul_at hdot dz))
      (mul_zero_at hb (zero_sub_zero_at (mul_zero_at dx zero_val) (mul_zero_at dy zero_val)))⟩
  obtain ⟨ex, ey, ez⟩ := hx
  have hm := add_zero_at (add_zero_at (mul_at (z := 1 / 2 ^ 120) ex ex (lt_big (by norm_num [abs_of_pos])) (by
    show F64.round (1 / 2 ^ 60 * (1 / 2 ^ 60)) = _
    rw [show (1 / 2 ^ 60 * (1 / 2 ^ 60) : ℝ) = 1 / 2 ^ 120 by norm_num]
    exact round_form_eq (form_frac 1 120 (by norm_num) (by norm_num) (by norm_num)))) (zero_mul_at ey ey))
    (zero_mul_at ez ez)
  have hq := zero_div_at hpow gamma2_val (by norm_num)
  have hs := add_zero_at hm hq
  have hsq : Real.sqrt (1 / 2 ^ 120) = 1 / 2 ^ 60 := by
    rw [show (1 / 2 ^ 120 : ℝ) = (1 / 2 ^ 60) ^ 2 by norm_num, Real.sqrt_sq (by norm_num)]
  have hr := sqrt_at (z := 1 / 2 ^ 60) hs (by norm_num) (lt_big (by rw [hsq]; norm_num [abs_of_pos]))
    (by rw [hsq]; exact round_form_eq f60)
  refine mul_at hr gamma_val (lt_big (by norm_num [abs_of_pos])) ?_
  rw [show (1 / 2 ^ 60 * (5 / 4) : ℝ) = 5 / 4 / 2 ^ 60 by norm_num]
  exact round_form_eq (form_frac 5 62 (by norm_num) (by norm_num) (by norm_num))

/-- The amount of a step. -/
theorem amount : Btw (emissionDelta cfg.dt (calculateEta cfg.field electron) (lit 0.7193) electron.gamma)
    (1 / 2 ^ 72) (1 / 2 ^ 60) := by
  have s3 : Btw (sqrt (lit 3) : F64) 1 2 := by
    have h3 : (lit 3 : F64).1 = .fin 3 := val_frac 3 0 (by norm_num) (by norm_num) (by norm_num)
      (by norm_num) (by norm_num [abs_of_pos])
    have hlo : 1 ≤ Real.sqrt 3 := Real.one_le_sqrt.mpr (by norm_num)
    have hhi : Real.sqrt 3 ≤ 2 := Real.sqrt_le_iff.mpr ⟨by norm_num, by norm_num⟩
    refine ⟨F64.round (Real.sqrt 3), sqrt_at h3 (by norm_num) (lt_big ?_) rfl,
      le_round (form_frac 1 0 (by norm_num) (by norm_num) (by norm_num)) hlo,
      round_le (form_frac 2 0 (by norm_num) (by norm_num) (by norm_num)) hhi⟩
    rw [abs_of_nonneg (Real.sqrt_nonneg _)]
    linarith [show (2:ℝ) ≤ 2 ^ 100 by norm_num]
  have al : Btw (Units.alpha : F64) (1 / 2 ^ 8) (1 / 2 ^ 7) :=
    .lit (form_frac 1 8 (by norm_num) (by norm_num) (by norm_num))
      (form_frac 1 7 (by norm_num) (by norm_num) (by norm_num)) (by norm_num) (by norm_num) (by norm_num)
      (by norm_num)
  have pi : Btw (Units.pi : F64) 3 4 :=
    .lit (form_frac 3 0 (by norm_num) (by norm_num) (by norm_num))
      (form_frac 4 0 (by norm_num) (by norm_num) (by norm_num)) (by norm_num) (by norm_num) (by norm_num)
      (by norm_num)
  have et : Btw (calculateEta cfg.field electron) (1 / 2 ^ 60) (2 / 2 ^ 60) :=
    ⟨_, eta_val, by norm_num, by norm_num⟩
  have ga : Btw electron.gamma 1 2 := ⟨_, gamma_val, by norm_num, by norm_num⟩
  have po : Btw (pow (lit 10) (lit 0.7193) : F64) 1 16 := by
    have hl : Btw (lit 0.7193 : F64) 0 1 :=
      .lit form_zero (form_frac 1 0 (by norm_num) (by norm_num) (by norm_num)) (by norm_num) (by norm_num)
        le_rfl (by norm_num)
    obtain ⟨z, hz, hz1, hz2⟩ := hl
    have h10 : (lit 10 : F64).1 = .fin 10 := val_frac 10 0 (by norm_num) (by norm_num) (by norm_num)
      (by norm_num) (by norm_num [abs_of_pos])
    have h1 : (1 : ℝ) ≤ 10 ^ z := Real.one_le_rpow (by norm_num) hz1
    have h2 : (10 : ℝ) ^ z ≤ 10 := by
      have := Real.rpow_le_rpow_of_exponent_le (show (1:ℝ) ≤ 10 by norm_num) hz2
      rwa [Real.rpow_one] at this
    refine ⟨F64.round (10 ^ z), ?_, le_round (form_frac 1 0 (by norm_num) (by norm_num) (by norm_num)) h1,
      round_le (form_frac 16 0 (by norm_num) (by norm_num) (by norm_num)) (by linarith)⟩
    show rnd (Dbl.pow _ _) = _
    rw [h10, hz, XR.pow_fin _ _ (by norm_num), rnd_fin (lt_big ?_)]
    rw [abs_of_nonneg (by linarith)]
    linarith [show (10:ℝ) ≤ 2 ^ 100 by norm_num]
  have f : ∀ (n : ℤ) (k : ℕ) {x : ℝ}, |n| ≤ 2 ^ 53 → k ≤ 1074 → x = n / 2 ^ k → Form x :=
    fun n k _ hn hk h => form_frac n k hn hk h
  have m1 := Btw.mul (Btw.at one_val) s3 (by norm_num) (by norm_num)
    (f 1 0 (by norm_num) (by norm_num) (by norm_num)) (f 2 0 (by norm_num) (by norm_num) (by norm_num))
    (by norm_num)
  have m2 := Btw.mul m1 al (by norm_num) (by norm_num)
    (f 1 8 (by norm_num) (by norm_num) (by norm_num)) (f 1 6 (by norm_num) (by norm_num) (by norm_num))
    (by norm_num)
  have m3 := Btw.mul m2 et (by norm_num) (by norm_num)
    (f 1 68 (by norm_num) (by norm_num) (by norm_num)) (f 1 65 (by norm_num) (by norm_num) (by norm_num))
    (by norm_num)
  have m4 := Btw.mul m3 po (by norm_num) (by norm_num)
    (f 1 68 (by norm_num) (by norm_num) (by norm_num)) (f 1 61 (by norm_num) (by norm_num) (by norm_num))
    (by norm_num)
  have d1 := Btw.mul ga (Btw.at two_val) (by norm_num) (by norm_num)
    (f 2 0 (by norm_num) (by norm_num) (by norm_num)) (f 4 0 (by norm_num) (by norm_num) (by norm_num))
    (by norm_num)
  have d2 := Btw.mul d1 pi (by norm_num) (by norm_num)
    (f 6 0 (by norm_num) (by norm_num) (by norm_num)) (f 16 0 (by norm_num) (by norm_num) (by norm_num))
    (by norm_num)
  have d3 : Btw (electron.gamma *. lit 2 *. Units.pi : F64) 4 16 := by
    obtain ⟨z, hz, hz1, hz2⟩ := d2
    exact ⟨z, hz, by linarith, by linarith⟩
  have r := Btw.div m4 d3 (by norm_num) (by norm_num)
    (f 1 72 (by norm_num) (by norm_num) (by norm_num)) (f 1 63 (by norm_num) (by norm_num) (by norm_num))
    (by norm_num)
  obtain ⟨z, hz, hz1, hz2⟩ := r
  exact ⟨z, hz, le_trans (by norm_num) hz1, hz2.trans (by norm_num)⟩

theorem logh_val : emissionLogh cfg (calculateEta cfg.field electron) = .ok (lit 0.7193) := by
  unfold emissionLogh
  have h : (calculateEta cfg.field electron <. lit 1e-12) = true := by
    have hb : Btw (lit 1e-12 : F64) (1 / 2 ^ 40) 1 :=
      .lit (form_frac 1 40 (by norm_num) (by norm_num) (by norm_num))
        (form_frac 1 0 (by norm_num) (by norm_num) (by norm_num)) (by norm_num) (by norm_num) (by norm_num)
        (by norm_num)
    obtain ⟨z, hz, hz1, -⟩ := hb
    show Dbl.lt (calculateEta field electron).1 (lit 1e-12 : F64).1 = true
    rw [eta_val, hz]
    have : (5 / 4 / 2 ^ 60 : ℝ) < z := lt_of_lt_of_le (by norm_num) hz1
    simpa using this
  rw [h]
  rfl

end Stuck
end QED
