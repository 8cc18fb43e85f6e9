import Verif.Lemmas.F64Flight
import Verif.Spec.Rounding

set_option autoImplicit false
set_option exponentiation.threshold 2000

/-!
# Numbers close to doubles

Error bounds for single operations, without hidden constants.
-/

namespace QED

open Dbl F64

namespace Near

/-- Sizes for which there is neither overflow nor underflow. -/
def Ok (s : ℝ) : Prop := (1 / 2) ^ 900 ≤ s ∧ s ≤ 2 ^ 1000

/-- Sizes that can be multiplied. -/
def Mid (s : ℝ) : Prop := (1 / 2) ^ 200 ≤ s ∧ s ≤ 2 ^ 200

theorem Mid.pos {s : ℝ} (h : Mid s) : 0 < s := lt_of_lt_of_le (by positivity) h.1

theorem Ok.pos {s : ℝ} (h : Ok s) : 0 < s := lt_of_lt_of_le (by positivity) h.1

theorem Mid.mul {a b : ℝ} (ha : Mid a) (hb : Mid b) : (1 / 2) ^ 400 ≤ a * b ∧ a * b ≤ 2 ^ 400 := by
  constructor
  · calc ((1 : ℝ) / 2) ^ 400 = (1 / 2) ^ 200 * (1 / 2) ^ 200 := by rw [← pow_add]
      _ ≤ a * b := mul_le_mul ha.1 hb.1 (by positivity) ha.pos.le
  · calc a * b ≤ 2 ^ 200 * 2 ^ 200 := mul_le_mul ha.2 hb.2 hb.pos.le (by positivity)
      _ = 2 ^ 400 := by rw [← pow_add]

theorem ok_scale {a c : ℝ} (h : (1 / 2) ^ 400 ≤ a ∧ a ≤ 2 ^ 400) (lo : 1 / 1024 ≤ c) (hi : c ≤ 1024) :
    Ok (c * a) := by
  have ha : 0 < a := lt_of_lt_of_le (by positivity) h.1
  constructor
  · calc ((1 : ℝ) / 2) ^ 900 ≤ (1 / 2) ^ 410 := pow_le_pow_of_le_one (by norm_num) (by norm_num) (by norm_num)
      _ = (1 / 2) ^ 10 * (1 / 2) ^ 400 := by rw [← pow_add]
      _ = 1 / 1024 * (1 / 2) ^ 400 := by norm_num
      _ ≤ c * a := mul_le_mul lo h.1 (by positivity) (by linarith)
  · calc c * a ≤ 1024 * 2 ^ 400 := mul_le_mul hi h.2 ha.le (by norm_num)
      _ = 2 ^ 10 * 2 ^ 400 := by norm_num
      _ = 2 ^ 410 := by rw [← pow_add]
      _ ≤ 2 ^ 1000 := pow_le_pow_right₀ (by norm_num) (by norm_num)

theorem Mid.ok {a c : ℝ} (h : Mid a) (lo : 1 / 1024 ≤ c) (hi : c ≤ 1024) : Ok (c * a) :=
  ok_scale ⟨(pow_le_pow_of_le_one (by norm_num) (by norm_num) (by norm_num)).trans h.1,
    h.2.trans (pow_le_pow_right₀ (by norm_num) (by norm_num))⟩ lo hi

theorem Mid.ok_mul {a b c : ℝ} (ha : Mid a) (hb : Mid b) (lo : 1 / 1024 ≤ c) (hi : c ≤ 1024) : Ok (c * (a * b)) :=
  ok_scale (ha.mul hb) lo hi

theorem mid_num {c : ℝ} (lo : 1 / 1024 ≤ c) (hi : c ≤ 1024) : Mid c := by
  constructor
  · calc ((1 : ℝ) / 2) ^ 200 ≤ (1 / 2) ^ 10 := pow_le_pow_of_le_one (by norm_num) (by norm_num) (by norm_num)
      _ = 1 / 1024 := by norm_num
      _ ≤ c := lo
  · calc c ≤ 1024 := hi
      _ = 2 ^ 10 := by norm_num
      _ ≤ _ := pow_le_pow_right₀ (by norm_num) (by norm_num)

theorem Ok.num {c : ℝ} (lo : 1 / 1024 ≤ c) (hi : c ≤ 1024) : Ok c := by
  have := (mid_num (c := 1) (by norm_num) (by norm_num)).ok lo hi
  rwa [mul_one] at this

theorem of_val {a : F64} {x : ℝ} (h : a.1 = .fin x) : Near a x 0 := ⟨x, h, by simp⟩

theorem weaken {a : F64} {x e f : ℝ} (h : Near a x e) (hf : e ≤ f) : Near a x f := by
  obtain ⟨v, hv, h⟩ := h
  exact ⟨v, hv, h.trans hf⟩

theorem move {a : F64} {x y e f : ℝ} (h : Near a x e) (hf : |x - y| ≤ f) : Near a y (e + f) := by
  obtain ⟨v, hv, h⟩ := h
  exact ⟨v, hv, (abs_sub_le v x y).trans (add_le_add h hf)⟩

theorem nonneg {a : F64} {x e : ℝ} (h : Near a x e) : 0 ≤ e := by
  obtain ⟨v, -, h⟩ := h
  exact (abs_nonneg _).trans h

/-- Rounding. -/
theorem rounded {v x e s : ℝ} {c : F64} (hc : |v| < 2 ^ 1023 → c.1 = .fin (F64.round v)) (h : |v - x| ≤ e)
    (hs : |x| ≤ s) (he : 100 * e ≤ s) (ok : Ok s) : Near c x (e + 11 / 10 / 9007199254740992 * s) := by
  have hb : |v| ≤ 2 * s := by
    have : |v| ≤ |v - x| + |x| := by simpa using abs_add_le (v - x) x
    linarith [ok.pos]
  have hB : 2 * (2 : ℝ) ^ 1000 ≤ 2 ^ 1010 := by
    rw [← pow_succ']
    exact pow_le_pow_right₀ (by norm_num) (by norm_num)
  have h1 := hc (Flight.big (hb.trans ((mul_le_mul_of_nonneg_left ok.2 (by norm_num)).trans hB)))
  refine ⟨_, h1, ?_⟩
  have e0 := Flight.eta_le ok.1
  have r := round_err v
  have t : |F64.round v - x| ≤ |F64.round v - v| + |v - x| := abs_sub_le _ _ _
  have t2 : |v| ≤ |v - x| + |x| := by simpa using abs_add_le (v - x) x
  have := ok.pos
  clear hB hc h1 ok
  linarith

theorem add {a b : F64} {x y e f s : ℝ} (ha : Near a x e) (hb : Near b y f) (hs : |x + y| ≤ s)
    (he : 100 * (e + f) ≤ s) (ok : Ok s) : Near (a +. b) (x + y) (e + f + 11 / 10 / 9007199254740992 * s) := by
  obtain ⟨v, hv, h⟩ := ha
  obtain ⟨w, hw, k⟩ := hb
  refine rounded (v := v + w) (fun hl => add_at hv hw hl rfl) ?_ hs he ok
  have e : v + w - (x + y) = (v - x) + (w - y) := by ring
  rw [e]
  exact (abs_add_le _ _).trans (add_le_add h k)

theorem sub {a b : F64} {x y e f s : ℝ} (ha : Near a x e) (hb : Near b y f) (hs : |x - y| ≤ s)
    (he : 100 * (e + f) ≤ s) (ok : Ok s) : Near (a -. b) (x - y) (e + f + 11 / 10 / 9007199254740992 * s) := by
  obtain ⟨v, hv, h⟩ := ha
  obtain ⟨w, hw, k⟩ := hb
  refine rounded (v := v - w) (fun hl => sub_at hv hw hl rfl) ?_ hs he ok
  have e : v - w - (x - y) = (v - x) - (w - y) := by ring
  rw [e]
  exact (abs_sub _ _).trans (add_le_add h k)

theorem mul {a b : F64} {x y e f r q : ℝ} (ha : Near a x e) (hb : Near b y f) (hr : |x| ≤ r) (hq : |y| ≤ q)
    (he : 1000 * e ≤ r) (hf : 1000 * f ≤ q) (ok : Ok (r * q)) :
    Near (a *. b) (x * y) (e * (q + f) + r * f + 11 / 10 / 9007199254740992 * (r * q)) := by
  have e0 := ha.nonneg
  have f0 := hb.nonneg
  obtain ⟨v, hv, h⟩ := ha
  obtain ⟨w, hw, k⟩ := hb
  have r0 : 0 ≤ r := (abs_nonneg _).trans hr
  have q0 : 0 ≤ q := (abs_nonneg _).trans hq
  refine rounded (v := v * w) (fun hl => mul_at hv hw hl rfl) ?_ ?_ ?_ ok
  · have e : v * w - x * y = (v - x) * w + x * (w - y) := by ring
    rw [e]
    have hw' : |w| ≤ q + f := by
      have : |w| ≤ |w - y| + |y| := by simpa using abs_add_le (w - y) y
      linarith
    refine (abs_add_le _ _).trans (add_le_add ?_ ?_)
    · rw [abs_mul]
      exact mul_le_mul h hw' (abs_nonneg _) e0
    · rw [abs_mul]
      exact mul_le_mul hr k (abs_nonneg _) r0
  · rw [abs_mul]
    exact mul_le_mul hr hq (abs_nonneg _) r0
  · have h1 : e * (q + f) ≤ r / 1000 * (q + q / 1000) :=
      mul_le_mul (by linarith) (by linarith) (by linarith) (by linarith)
    have h2 : r * f ≤ r * (q / 1000) := mul_le_mul_of_nonneg_left (by linarith) r0
    have h3 : 0 ≤ r * q := mul_nonneg r0 q0
    nlinarith

theorem div {a b : F64} {x c e s : ℝ} (ha : Near a x e) (hb : b.1 = .fin c) (hc : 0 < c) (hs : |x| ≤ s * c)
    (he : 100 * e ≤ s * c) (ok : Ok s) : Near (a /. b) (x / c) (e / c + 11 / 10 / 9007199254740992 * s) := by
  obtain ⟨v, hv, h⟩ := ha
  refine rounded (v := v / c) (fun hl => div_at hv hb hc.ne' hl rfl) ?_ ?_ ?_ ok
  · rw [← sub_div, abs_div, abs_of_pos hc]
    exact div_le_div_of_nonneg_right h hc.le
  · rw [abs_div, abs_of_pos hc, div_le_iff₀ hc]
    exact hs
  · rw [← mul_div_assoc, div_le_iff₀ hc]
    exact he

end Near

end QED
