import Verif.Props.Quiet

set_option autoImplicit false
set_option exponentiation.threshold 2000

/-!
# Property C153 for a Gaussian pulse: far before or behind it the field is exactly zero
-/

namespace QED

open Dbl F64

/-- C153: at least 30 pulse lengths before or behind a Gaussian pulse the field is exactly zero, wherever the program gets
a number for it. -/
theorem C153_gauss (f : GaussField F64) {p : Particle F64} (h : f.Far p.time p.position) {E B : Fin 3 → ℝ}
    (hE : (f.getField p.time p.position).1.At E) (hB : (f.getField p.time p.position).2.At B) :
    NoField f.getField p := by
  have void : ∀ {a : F64} {x : ℝ}, Void a → a.1 = .fin x → a.1 = .fin 0 := by
    intro a x h hx
    rcases h with h | h
    · exact h
    · rw [h] at hx
      cases hx
  obtain ⟨⟨e1, e2, e3⟩, b1, b2, b3⟩ := Rest.gauss_dark h
  exact ⟨⟨void e1 hE.1, void e2 hE.2.1, void e3 hE.2.2⟩, void b1 hB.1, void b2 hB.2.1, void b3 hB.2.2⟩

namespace QuietGaussWitness

open RestWitness Rest

/-- No rotation. -/
noncomputable def one : M3 F64 := ⟨lit 1, lit 0, lit 0, lit 0, lit 1, lit 0, lit 0, lit 0, lit 1⟩

/-- A pulse along z with its focus at the origin. -/
noncomputable def pulse : GaussField F64 := ⟨lit 1, lit 1, lit 1, lit 1, lit 0, lit 1, one, one, z, z⟩

theorem one_mulVec {v : V3 F64} (h : v.At (fun _ => 0)) : (one.mulVec v).At (fun _ => 0) := by
  have e0 : ∀ {a : F64}, a.1 = .fin 0 → (lit 0 *. a).1 = .fin 0 := fun h => zero_mul_at zero_val h
  have e1 : ∀ {a : F64}, a.1 = .fin 0 → (lit 1 *. a).1 = .fin 0 := fun h => one_mul_at one_val h
  refine ⟨?_, ?_, ?_⟩ <;> simp only [one, M3.mulVec, M3.acc3]
  · exact zero_add_at (zero_add_at (zero_add_at zero_val (e1 h.1)) (e0 h.2.1)) (e0 h.2.2)
  · exact zero_add_at (zero_add_at (zero_add_at zero_val (e0 h.1)) (e1 h.2.1)) (e0 h.2.2)
  · exact zero_add_at (zero_add_at (zero_add_at zero_val (e0 h.1)) (e0 h.2.1)) (e1 h.2.2)

theorem cos_at {a : F64} {x : ℝ} (h : a.1 = .fin x) : ∃ y, (Dbl.cos a).1 = .fin y ∧ |y| ≤ 1 := by
  have hc := Real.abs_cos_le_one x
  have e : (Dbl.cos a).1 = F64.rnd (.fin (Real.cos x)) := by
    show F64.rnd (Dbl.cos a.1) = _
    rw [h]
    rfl
  have f1 : Form (1 : ℝ) := ⟨1, 0, by norm_num, by norm_num, by norm_num⟩
  have f2 : Form (-1 : ℝ) := ⟨-1, 0, by norm_num, by norm_num, by norm_num⟩
  refine ⟨F64.round (Real.cos x), ?_, ?_⟩
  · rw [e, rnd_fin (lt_of_le_of_lt hc (by norm_num))]
  · exact abs_le.2 ⟨le_round f2 (abs_le.1 hc).1, round_le f1 (abs_le.1 hc).2⟩

/-- The small number that is added to avoid a division by zero. -/
theorem tiny_at : ∃ x, (lit 1e-99 : F64).1 = .fin x ∧ (1 / 2) ^ 330 ≤ x ∧ x ≤ 1 := by
  have f1 : Form (1 : ℝ) := ⟨1, 0, by norm_num, by norm_num, by norm_num⟩
  have f2 : Form ((1 / 2) ^ 330 : ℝ) := ⟨1, -330, by norm_num, by norm_num, by norm_num⟩
  refine ⟨F64.round (((1e-99 : ℚ)) : ℝ), ?_, le_round f2 (by norm_num), round_le f1 (by norm_num)⟩
  show F64.rnd (.fin (((1e-99 : ℚ)) : ℝ)) = _
  rw [rnd_fin (below (k := 0) (by norm_num [abs_of_pos]) (by norm_num))]

theorem half_at : (lit 1 *. lit 1 *. lit 1 /. lit 2 : F64).1 = .fin (1 / 2) := by
  have f : Form (1 / 2 : ℝ) := ⟨1, -1, by norm_num, by norm_num, by norm_num⟩
  refine div_at (one_mul_at (one_mul_at one_val one_val) one_val) two_val (by norm_num) ?_ (round_form_eq f)
  exact below (k := 0) (by norm_num [abs_of_pos]) (by norm_num)

theorem quarter_at {a : F64} (h : a.1 = .fin (1 / 2)) : (a *. a).1 = .fin (1 / 4) := by
  have f : Form (1 / 4 : ℝ) := ⟨1, -2, by norm_num, by norm_num, by norm_num⟩
  exact mul_at h h (below (k := 0) (by norm_num [abs_of_pos]) (by norm_num)) (by norm_num; exact round_form_eq f)

/-- At the focus the amplitude is zero 40 pulse lengths after the pulse. -/
theorem gone : pulse.Far (lit 40) z ∧ (pulse.amplitude (lit 40) z).1 = .fin 0 := by
  have h40 : (lit 40 : F64).1 = .fin 40 := by
    have := OutsideWitness.int_lit 40 (by norm_num)
    norm_num at this
    exact this
  obtain ⟨px, py, pz⟩ := one_mulVec z_at
  have hmag : ((pulse.startPos.sub pulse.focusPos).mag).1 = .fin 0 := by
    have hz : (lit 0 -. lit 0 : F64).1 = .fin 0 := sub_at zero_val zero_val (by norm_num) (by simp)
    have hm := zero_mul_at hz hz
    exact sqrt_at (zero_add_at (zero_add_at hm hm) hm) le_rfl (by simp) (by simp)
  have hu : (lit 40 -. (pulse.startPos.sub pulse.focusPos).mag -. (pulse.rotation.mulVec z).z).1 = .fin 40 := by
    have f : Form (40 : ℝ) := ⟨40, 0, by norm_num, by norm_num, by norm_num⟩
    have hb : |(40 : ℝ) - 0| < 2 ^ 1023 := below (k := 6) (by norm_num) (by norm_num)
    have h1 := sub_at (z := 40) h40 hmag hb (by rw [sub_zero]; exact round_form_eq f)
    exact sub_at h1 pz hb (by rw [sub_zero]; exact round_form_eq f)
  refine ⟨⟨40, 1, hu, one_val, by norm_num, by norm_num [abs_of_pos], by norm_num [abs_of_pos]⟩, ?_⟩
  have hr2 : ((one.mulVec z).x *. (one.mulVec z).x +. (one.mulVec z).y *. (one.mulVec z).y).1 = .fin 0 :=
    zero_add_at (zero_mul_at px px) (zero_mul_at py py)
  have hq := quarter_at half_at
  have hw : (lit 1 *. Dbl.sqrt (lit 1 +. (one.mulVec z).z *. (one.mulVec z).z /.
      (lit 1 *. lit 1 *. lit 1 /. lit 2 *. (lit 1 *. lit 1 *. lit 1 /. lit 2))) : F64).1 = .fin 1 := by
    refine one_mul_at one_val (sqrt_at (add_zero_at one_val (zero_div_at (zero_mul_at pz pz) hq (by norm_num)))
      zero_le_one (by norm_num) ?_)
    rw [Real.sqrt_one]
    exact round_form_eq ⟨1, 0, by norm_num, by norm_num, by norm_num⟩
  obtain ⟨ε, he, e1, e2⟩ := tiny_at
  have ε0 : 0 < ε := lt_of_lt_of_le (by positivity) e1
  have hε : |1 / 4 / ε| ≤ 2 ^ 328 := by
    rw [abs_of_pos (by positivity), div_le_iff₀ ε0]
    calc (1 : ℝ) / 4 = 2 ^ 328 * (1 / 2) ^ 330 := by norm_num
      _ ≤ _ := mul_le_mul_of_nonneg_left e1 (by positivity)
  have hd := div_at hq (zero_add_at pz he) ε0.ne' (below hε (by norm_num)) rfl
  have hc := zero_add_at pz hd
  have lo : (1 / 4 : ℝ) ≤ F64.round (1 / 4 / ε) := by
    refine le_round ⟨1, -2, by norm_num, by norm_num, by norm_num⟩ ?_
    rw [le_div_iff₀ ε0]
    linarith
  have hi : F64.round (1 / 4 / ε) ≤ 2 ^ 328 :=
    round_le ⟨1, 328, by norm_num, by norm_num, by norm_num⟩ (abs_le.1 hε).2
  have h2c := mul_at two_val hc (below (k := 329) (by
    rw [abs_of_nonneg (by linarith), pow_succ]
    linarith) (by norm_num)) rfl
  have h2c0 : F64.round (2 * F64.round (1 / 4 / ε)) ≠ 0 := by
    have : (1 / 2 : ℝ) ≤ F64.round (2 * F64.round (1 / 4 / ε)) :=
      le_round ⟨1, -1, by norm_num, by norm_num, by norm_num⟩ (by linarith)
    linarith
  obtain ⟨c, hcos, c1⟩ := cos_at (zero_add_at (zero_mul_at pz one_val)
    (zero_div_at (zero_mul_at hr2 one_val) h2c h2c0))
  have hexp : (Dbl.exp (lit (-1) *. ((one.mulVec z).x *. (one.mulVec z).x +. (one.mulVec z).y *. (one.mulVec z).y) /.
      ((lit 1 *. Dbl.sqrt (lit 1 +. (one.mulVec z).z *. (one.mulVec z).z /.
      (lit 1 *. lit 1 *. lit 1 /. lit 2 *. (lit 1 *. lit 1 *. lit 1 /. lit 2)))) *.
      (lit 1 *. Dbl.sqrt (lit 1 +. (one.mulVec z).z *. (one.mulVec z).z /.
      (lit 1 *. lit 1 *. lit 1 /. lit 2 *. (lit 1 *. lit 1 *. lit 1 /. lit 2)))))) : F64).1 = .fin 1 := by
    have h0 := zero_div_at (mul_zero_at Flight.minus_val hr2) (one_mul_at hw hw) one_ne_zero
    show F64.rnd (XR.exp _) = _
    rw [h0]
    show F64.rnd (.fin (Real.exp 0)) = _
    rw [Real.exp_zero, rnd_fin (by norm_num), round_form_eq ⟨1, 0, by norm_num, by norm_num, by norm_num⟩]
  have hfar := Rest.exp_far hu (one_val : (lit 1 : F64).1 = _) (by norm_num) (by norm_num [abs_of_pos])
    (by norm_num [abs_of_pos])
  exact mul_zero_at (one_mul_at (one_mul_at (one_mul_at one_val (div_one_at one_val hw)) hexp) hcos) hfar

end QuietGaussWitness

open QuietGaussWitness QuietWitness RestWitness in
/-- The hypotheses of `C153_gauss`, for an electron at the focus when the pulse has long gone. -/
example : let p : Particle F64 := .newLepton (lit 1) (lit (-1)) z along (lit 1) (lit 40) false (lit (1 / 2))
    Travelling p ∧ pulse.Far p.time p.position ∧ (pulse.getField p.time p.position).1.At (fun _ => 0) ∧
      (pulse.getField p.time p.position).2.At (fun _ => 0) := by
  obtain ⟨h1, h2⟩ := gone
  obtain ⟨c, hc, -⟩ := cos_at (zero_val : (lit 0 : F64).1 = _)
  have hs : ∃ s, (Dbl.sin (lit 0) : F64).1 = .fin s := by
    refine ⟨0, ?_⟩
    show F64.rnd (Dbl.sin (lit 0 : F64).1) = _
    rw [zero_val]
    show F64.rnd (.fin (Real.sin 0)) = _
    rw [Real.sin_zero, rnd_fin (by norm_num), round_zero]
  obtain ⟨s, hs⟩ := hs
  refine ⟨travelling QuietWitness.kind_ne rfl rfl rfl, h1, ?_, ?_⟩
  · exact one_mulVec ⟨zero_mul_at h2 hc, zero_mul_at h2 hs, zero_val⟩
  · exact one_mulVec ⟨zero_mul_at h2 hs, zero_mul_at h2 hc, zero_val⟩

end QED
