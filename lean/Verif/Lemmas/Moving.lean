import Verif.Lemmas.Rest
import Verif.Lemmas.F64Flight

set_option autoImplicit false
set_option exponentiation.threshold 2000

/-! # The quantum parameter of a moving lepton is a number -/

namespace QED

open Dbl F64

namespace Rest

/-- A finite number of at most this size. -/
def Fits (a : F64) (k : ℕ) : Prop := ∃ x, a.1 = .fin x ∧ |x| ≤ 2 ^ k

/-- Likewise, and not negative. -/
def FitsPos (a : F64) (k : ℕ) : Prop := ∃ x, a.1 = .fin x ∧ 0 ≤ x ∧ x ≤ 2 ^ k

theorem FitsPos.fits {a : F64} {k : ℕ} (h : FitsPos a k) : Fits a k := by
  obtain ⟨x, h1, h2, h3⟩ := h
  exact ⟨x, h1, by rwa [abs_of_nonneg h2]⟩

theorem Fits.mono {a : F64} {j k : ℕ} (h : Fits a j) (hk : j ≤ k) : Fits a k := by
  obtain ⟨x, h1, h2⟩ := h
  exact ⟨x, h1, h2.trans (pow_le_pow_right₀ (by norm_num) hk)⟩

theorem form_two (k : ℕ) : Form ((2 : ℝ) ^ k) := by
  have := form_zpow (e := (k : ℤ)) (by omega)
  rwa [zpow_natCast] at this

theorem round_bound {x : ℝ} {k : ℕ} (h : |x| ≤ 2 ^ k) : |F64.round x| ≤ 2 ^ k := by
  rw [abs_le] at h ⊢
  exact ⟨le_round (form_two k).neg h.1, round_le (form_two k) h.2⟩

theorem below {x : ℝ} {k : ℕ} (h : |x| ≤ 2 ^ k) (hk : k ≤ 1022) : |x| < 2 ^ 1023 :=
  h.trans_lt (pow_lt_pow_right₀ (by norm_num) (by omega))

theorem Fits.add {a b : F64} {k : ℕ} (ha : Fits a k) (hb : Fits b k) (hk : k ≤ 1021) : Fits (a +. b) (k + 1) := by
  obtain ⟨x, h1, h2⟩ := ha
  obtain ⟨y, h3, h4⟩ := hb
  have h : |x + y| ≤ 2 ^ (k + 1) := (abs_add_le x y).trans (by rw [pow_succ]; linarith)
  exact ⟨_, add_at h1 h3 (below h (by omega)) rfl, round_bound h⟩

theorem Fits.sub {a b : F64} {k : ℕ} (ha : Fits a k) (hb : Fits b k) (hk : k ≤ 1021) : Fits (a -. b) (k + 1) := by
  obtain ⟨x, h1, h2⟩ := ha
  obtain ⟨y, h3, h4⟩ := hb
  have h : |x - y| ≤ 2 ^ (k + 1) := (abs_sub x y).trans (by rw [pow_succ]; linarith)
  exact ⟨_, sub_at h1 h3 (below h (by omega)) rfl, round_bound h⟩

theorem Fits.mul {a b : F64} {j k : ℕ} (ha : Fits a j) (hb : Fits b k) (hk : j + k ≤ 1022) : Fits (a *. b) (j + k) := by
  obtain ⟨x, h1, h2⟩ := ha
  obtain ⟨y, h3, h4⟩ := hb
  have h : |x * y| ≤ 2 ^ (j + k) := by
    rw [abs_mul, pow_add]; exact mul_le_mul h2 h4 (abs_nonneg _) (by positivity)
  exact ⟨_, mul_at h1 h3 (below h hk) rfl, round_bound h⟩

theorem FitsPos.mul {a b : F64} {j k : ℕ} (ha : FitsPos a j) (hb : FitsPos b k) (hk : j + k ≤ 1022) :
    FitsPos (a *. b) (j + k) := by
  obtain ⟨x, h1, h2, h2'⟩ := ha
  obtain ⟨y, h3, h4, h4'⟩ := hb
  have h : |x * y| ≤ 2 ^ (j + k) := by
    rw [abs_of_nonneg (mul_nonneg h2 h4), pow_add]; exact mul_le_mul h2' h4' h4 (by positivity)
  exact ⟨_, mul_at h1 h3 (below h hk) rfl, round_nonneg (mul_nonneg h2 h4), (le_abs_self _).trans (round_bound h)⟩

theorem FitsPos.add {a b : F64} {k : ℕ} (ha : FitsPos a k) (hb : FitsPos b k) (hk : k ≤ 1021) :
    FitsPos (a +. b) (k + 1) := by
  obtain ⟨x, h1, h2, h2'⟩ := ha
  obtain ⟨y, h3, h4, h4'⟩ := hb
  have h : |x + y| ≤ 2 ^ (k + 1) := by
    rw [abs_of_nonneg (add_nonneg h2 h4), pow_succ]; linarith
  exact ⟨_, add_at h1 h3 (below h (by omega)) rfl, round_nonneg (add_nonneg h2 h4), (le_abs_self _).trans (round_bound h)⟩

theorem FitsPos.sqrt {a : F64} {k : ℕ} (ha : FitsPos a k) (hk : k ≤ 1022) : FitsPos (Dbl.sqrt a) k := by
  obtain ⟨x, h1, h2, h3⟩ := ha
  have h : |Real.sqrt x| ≤ 2 ^ k := by
    rw [abs_of_nonneg (Real.sqrt_nonneg _)]
    rw [Real.sqrt_le_left (by positivity)]
    refine h3.trans ?_
    rw [← pow_mul]
    exact pow_le_pow_right₀ (by norm_num) (by omega)
  exact ⟨_, sqrt_at h1 h2 (below h hk) rfl, round_nonneg (Real.sqrt_nonneg _), (le_abs_self _).trans (round_bound h)⟩

/-- At least one. -/
def AtLeastOne (a : F64) (k : ℕ) : Prop := ∃ x, a.1 = .fin x ∧ 1 ≤ x ∧ x ≤ 2 ^ k

theorem AtLeastOne.pos {a : F64} {k : ℕ} (h : AtLeastOne a k) : FitsPos a k := by
  obtain ⟨x, h1, h2, h3⟩ := h
  exact ⟨x, h1, by linarith, h3⟩

theorem form_one : Form 1 := by simpa using form_two 0

theorem AtLeastOne.mul {a b : F64} {j k : ℕ} (ha : AtLeastOne a j) (hb : AtLeastOne b k) (hk : j + k ≤ 1022) :
    AtLeastOne (a *. b) (j + k) := by
  obtain ⟨x, h1, h2, h2'⟩ := ha
  obtain ⟨y, h3, h4, h4'⟩ := hb
  have h0 : 1 ≤ x * y := one_le_mul_of_one_le_of_one_le h2 h4
  have h : |x * y| ≤ 2 ^ (j + k) := by
    rw [abs_of_nonneg (by linarith), pow_add]; exact mul_le_mul h2' h4' (by linarith) (by positivity)
  exact ⟨_, mul_at h1 h3 (below h hk) rfl, le_round form_one h0, (le_abs_self _).trans (round_bound h)⟩

theorem Fits.div {a b : F64} {j k : ℕ} (ha : Fits a j) (hb : AtLeastOne b k) (hj : j ≤ 1022) : Fits (a /. b) j := by
  obtain ⟨x, h1, h2⟩ := ha
  obtain ⟨y, h3, h4, -⟩ := hb
  have h : |x / y| ≤ 2 ^ j := by
    rw [abs_div, abs_of_pos (by linarith : (0 : ℝ) < y)]
    exact (div_le_self (abs_nonneg _) h4).trans h2
  exact ⟨_, div_at h1 h3 (by linarith) (below h hj) rfl, round_bound h⟩

theorem FitsPos.div {a b : F64} {j k : ℕ} (ha : FitsPos a j) (hb : AtLeastOne b k) (hj : j ≤ 1022) :
    FitsPos (a /. b) j := by
  obtain ⟨x, h1, h2, h2'⟩ := ha
  obtain ⟨y, h3, h4, -⟩ := hb
  have h0 : 0 ≤ x / y := div_nonneg h2 (by linarith)
  have h : |x / y| ≤ 2 ^ j := by
    rw [abs_of_nonneg h0]
    exact (div_le_self h2 h4).trans h2'
  exact ⟨_, div_at h1 h3 (by linarith) (below h hj) rfl, round_nonneg h0, (le_abs_self _).trans (round_bound h)⟩

theorem mag2_pos {v : V3 F64} {k : ℕ} (hx : Fits v.x k) (hy : Fits v.y k) (hz : Fits v.z k) (hk : 2 * k ≤ 1000) :
    FitsPos v.mag2 (2 * k + 2) := by
  have sq : ∀ {a : F64}, Fits a k → FitsPos (a *. a) (2 * k) := by
    rintro a ⟨x, h1, h2⟩
    have h : |x * x| ≤ 2 ^ (2 * k) := by
      rw [abs_mul, two_mul, pow_add]; exact mul_le_mul h2 h2 (abs_nonneg _) (by positivity)
    exact ⟨_, mul_at h1 h1 (below h (by omega)) rfl, round_nonneg (mul_self_nonneg x), (le_abs_self _).trans (round_bound h)⟩
  have h1 := (sq hx).add (sq hy) (by omega)
  have h2 : FitsPos (v.z *. v.z) (2 * k + 1) := by
    obtain ⟨x, a, b, c⟩ := sq hz
    exact ⟨x, a, b, c.trans (pow_le_pow_right₀ (by norm_num) (by omega))⟩
  exact h1.add h2 (by omega)

theorem dot_fits {v w : V3 F64} {j k : ℕ} (hx : Fits v.x j) (hy : Fits v.y j) (hz : Fits v.z j)
    (hx' : Fits w.x k) (hy' : Fits w.y k) (hz' : Fits w.z k) (h : j + k ≤ 1000) : Fits (v.dot w) (j + k + 2) :=
  ((hx.mul hx' (by omega)).add (hy.mul hy' (by omega)) (by omega)).add
    ((hz.mul hz' (by omega)).mono (by omega)) (by omega)

theorem pow_two_pos {a : F64} {k : ℕ} (h : Fits a k) (hk : 2 * k ≤ 1000) : FitsPos (Dbl.pow a (lit 2)) (2 * k) := by
  obtain ⟨x, h1, h2⟩ := h
  have hb : |x ^ 2| ≤ 2 ^ (2 * k) := by
    rw [abs_pow, mul_comm, pow_mul]; exact pow_le_pow_left₀ (abs_nonneg _) h2 2
  have hp : XR.pow (.fin x) (.fin 2) = .fin (x ^ 2) := by
    simp only [XR.pow]
    rcases lt_trichotomy x 0 with h | h | h
    · rw [if_neg (by linarith), if_neg h.ne, if_pos ⟨2, by norm_num⟩]
      rw [show (2 : ℝ) = ((2 : ℕ) : ℝ) by norm_num, Real.rpow_natCast]
    · rw [if_neg (by linarith), if_pos h, if_pos (by norm_num), h]; norm_num
    · rw [if_pos h, show (2 : ℝ) = ((2 : ℕ) : ℝ) by norm_num, Real.rpow_natCast]
  have hv : (Dbl.pow a (lit 2)).1 = .fin (F64.round (x ^ 2)) := by
    show F64.rnd (XR.pow a.1 (lit 2 : F64).1) = _
    rw [h1, two_val, hp, rnd_fin (below hb (by omega))]
  exact ⟨_, hv, round_nonneg (sq_nonneg x), (le_abs_self _).trans (round_bound hb)⟩

/-- The computed Lorentz factor. -/
theorem gamma_fits {m : F64} {k : ℕ} (h : FitsPos m k) (hk : k ≤ 1000) :
    AtLeastOne (Dbl.sqrt (lit 1 +. m /. (lit 1 *. lit 1))) (k + 1) := by
  obtain ⟨x, h1, h2, h3⟩ := h
  have h4 := div_one_at h1 (one_sq_at one_val)
  have hone : (1 : ℝ) ≤ 2 ^ k := one_le_pow₀ (by norm_num)
  have h5 : |1 + x| ≤ 2 ^ (k + 1) := by rw [abs_of_nonneg (by linarith), pow_succ]; linarith
  have h6 := add_at one_val h4 (below h5 (by omega)) rfl
  have h7 : 1 ≤ F64.round (1 + x) := le_round form_one (by linarith)
  have h8 := round_bound h5
  obtain ⟨y, hy, y0, y1⟩ := FitsPos.sqrt (k := k + 1) ⟨_, h6, by linarith, (le_abs_self _).trans h8⟩ (by omega)
  refine ⟨y, hy, ?_, y1⟩
  have hs : 1 ≤ Real.sqrt (F64.round (1 + x)) := Real.one_le_sqrt.mpr h7
  have hb : |Real.sqrt (F64.round (1 + x))| < 2 ^ 1023 := by
    rw [abs_of_nonneg (by linarith)]
    have : Real.sqrt (F64.round (1 + x)) ≤ F64.round (1 + x) := by
      rw [Real.sqrt_le_left (by linarith)]; nlinarith
    exact (this.trans (le_abs_self _)).trans_lt (below h8 (by omega))
  have h9 := sqrt_at h6 (by linarith) hb rfl
  rw [h9] at hy
  rw [← XR.fin.inj hy]
  exact le_round form_one hs

theorem beta_fits {g : F64} {k : ℕ} (h : AtLeastOne g k) (hk : 2 * k ≤ 1000) :
    FitsPos (Dbl.sqrt (lit 1 -. lit 1 /. (g *. g))) 0 := by
  obtain ⟨x, h1, h2, -⟩ := h.mul h (by omega)
  have hq : (1 : ℝ) / x ≤ 1 := by rw [div_le_one (by linarith)]; exact h2
  have hq0 : 0 ≤ 1 / x := by positivity
  have a1 := div_at one_val h1 (by linarith) (below (k := 0) (by rw [abs_of_nonneg hq0]; simpa using hq) (by norm_num)) rfl
  have b1 : F64.round (1 / x) ≤ 1 := round_le form_one hq
  have b0 : 0 ≤ F64.round (1 / x) := round_nonneg hq0
  have h3 : |1 - F64.round (1 / x)| ≤ 2 ^ 0 := by rw [abs_of_nonneg (by linarith), pow_zero]; linarith
  have a2 := sub_at one_val a1 (below h3 (by norm_num)) rfl
  exact FitsPos.sqrt ⟨_, a2, round_nonneg (by linarith), (le_abs_self _).trans (round_bound h3)⟩ (by norm_num)

theorem dir_fits {p : V3 F64} {a : Fin 3 → ℝ} (ha : p.At a) (lo : (1 / 2) ^ 400 ≤ len a) (hi : len a ≤ 2 ^ 500) :
    Fits p.norm.x 1 ∧ Fits p.norm.y 1 ∧ Fits p.norm.z 1 := by
  obtain ⟨g, hg, h⟩ := Flight.mag_near ha lo hi
  have hl : 0 < len a := lt_of_lt_of_le (by positivity) lo
  rw [abs_le] at h
  have hg' : len a ≤ 2 * g := by
    have := h.1
    clear hi lo
    linarith
  have g0 : 0 < g := by linarith
  have key : ∀ {c : F64} {x : ℝ}, c.1 = .fin x → |x| ≤ len a → Fits (c /. p.mag) 1 := by
    intro c x hc hx
    have h1 : |x / g| ≤ 2 ^ 1 := by
      rw [abs_div, abs_of_pos g0, div_le_iff₀ g0, pow_one]
      exact hx.trans hg'
    exact ⟨_, div_at hc hg g0.ne' (below h1 (by norm_num)) rfl, round_bound h1⟩
  exact ⟨key ha.1 (Flight.comp_le a 0), key ha.2.1 (Flight.comp_le a 1), key ha.2.2 (Flight.comp_le a 2)⟩

/-- The quantum parameter as computed. -/
theorem eta_fits {d e m : V3 F64} {b g : F64} (dx : Fits d.x 1) (dy : Fits d.y 1) (dz : Fits d.z 1)
    (ex : Fits e.x 200) (ey : Fits e.y 200) (ez : Fits e.z 200) (mx : Fits m.x 200) (my : Fits m.y 200)
    (mz : Fits m.z 200) (hb : FitsPos b 0) (hg : AtLeastOne g 403) :
    FitsPos (Dbl.sqrt (((e.sub (d.smul (e.dot d))).add ((d.cross m).smul b)).mag2 +.
      pow (d.dot e) (lit 2) /. (g *. g)) *. g) 820 := by
  have hdot := dot_fits ex ey ez dx dy dz (by norm_num)
  have hdot' := dot_fits dx dy dz ex ey ez (by norm_num)
  have comp : ∀ {c u v w v' w' : F64}, Fits c 200 → Fits u 1 → Fits v 1 → Fits w 200 → Fits v' 1 → Fits w' 200 →
      Fits (c -. (e.dot d *. u) +. b *. (v *. w -. v' *. w')) 206 := by
    intro c u v w v' w' hc hu hv hw hv' hw'
    have h1 := (hc.mono (by norm_num : 200 ≤ 204)).sub (hdot.mul hu (by norm_num)) (by norm_num)
    have h2 := hb.fits.mul ((hv.mul hw (by norm_num)).sub (hv'.mul hw' (by norm_num)) (by norm_num)) (by norm_num)
    exact h1.add (h2.mono (by norm_num)) (by norm_num)
  have hm := mag2_pos (v := (e.sub (d.smul (e.dot d))).add ((d.cross m).smul b)) (comp ex dx dy mz dz my)
    (comp ey dy dz mx dx mz) (comp ez dz dx my dy mx) (by norm_num)
  have hp := (pow_two_pos hdot' (by norm_num)).div (hg.mul hg (by norm_num)) (by norm_num)
  have hp' : FitsPos (pow (d.dot e) (lit 2) /. (g *. g)) 414 := by
    obtain ⟨x, a, b, c⟩ := hp
    exact ⟨x, a, b, c.trans (pow_le_pow_right₀ (by norm_num) (by norm_num))⟩
  have h := ((hm.add hp' (by norm_num)).sqrt (by norm_num)).mul hg.pos (by norm_num)
  obtain ⟨x, a, b, c⟩ := h
  exact ⟨x, a, b, c.trans (pow_le_pow_right₀ (by norm_num) (by norm_num))⟩

end Rest

end QED
