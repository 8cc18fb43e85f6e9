import Verif.Lemmas.F64Straight

set_option autoImplicit false
set_option exponentiation.threshold 2000

/-!
# Without fields there is no radiation reaction, in double precision
-/

namespace QED

open Dbl F64

namespace Flight

theorem charge_fin {c : F64} (hc : c = lit 1 ∨ c = lit (-1)) : ∃ r, c.1 = .fin r := by
  rcases hc with h | h
  · exact ⟨1, by rw [h]; exact one_val⟩
  · exact ⟨-1, by rw [h]; exact minus_val⟩

theorem form_one : Form 1 := by simpa using form_int (n := 1) (by norm_num)

/-- The direction of a momentum is finite. -/
theorem norm_fin {p : V3 F64} {a : Fin 3 → ℝ} (ha : p.At a) (lo : (1 / 2) ^ 400 ≤ len a) (hi : len a ≤ 2 ^ 500) :
    ∃ d, p.norm.At d := by
  obtain ⟨g, hg, h⟩ := mag_near ha lo hi
  have hl : 0 < len a := lt_of_lt_of_le (by positivity) lo
  have hg2 : len a / 2 ≤ g := by
    have := (abs_le.1 h).1
    clear lo hi
    linarith
  have g0 : 0 < g := by
    clear lo hi
    linarith
  have key : ∀ i, |a i / g| < 2 ^ 1023 := by
    intro i
    refine lt_big ?_
    rw [abs_div, abs_of_pos g0]
    have h1 : |a i| / g ≤ 2 := by
      rw [div_le_iff₀ g0]
      have := comp_le a i
      clear lo hi
      linarith
    exact h1.trans (by norm_num)
  exact ⟨![_, _, _], div_at ha.1 hg g0.ne' (key 0) rfl, div_at ha.2.1 hg g0.ne' (key 1) rfl,
    div_at ha.2.2 hg g0.ne' (key 2) rfl⟩

/-- The Lorentz factor is finite. -/
theorem gamma_fin {p : V3 F64} {a : Fin 3 → ℝ} (ha : p.At a) (hi : len a ≤ 2 ^ 500) :
    ∃ g, (pushGamma (lit 1) p : F64).1 = .fin g ∧ 1 ≤ g := by
  rcases gamma_cases ha with h | ⟨g, h, h1, -⟩
  · obtain ⟨g, v, hg, -⟩ := velocity_near ha hi
    rw [mul_val, h, one_val] at hg
    have : (XR.fin 1 *. XR.pinf : XR) = .pinf := by
      show XR.mul (.fin 1) .pinf = _
      simp [XR.mul, XR.infSign]
    rw [this] at hg
    cases hg
  · exact ⟨g, h, h1⟩

theorem zero_div_self_mul {a g : F64} {x : ℝ} (ha : a.1 = .fin 0) (hg : g.1 = .fin x) (h1 : 1 ≤ x) :
    (a /. (g *. g)).1 = .fin 0 := by
  have : (g *. g).1 = .pinf ∨ ∃ y, 1 ≤ y ∧ (g *. g).1 = .fin y := by
    rw [mul_val, hg, XR.mul_fin]
    rcases rnd_nn (mul_self_nonneg x) with h | h
    · exact .inl h
    · exact .inr ⟨_, le_round form_one (by nlinarith), h⟩
  rcases this with h | ⟨y, hy, h⟩
  · rw [div_val, ha, h]
    show rnd (.fin 0) = _
    rw [rnd_fin (by simp), round_zero]
  · exact zero_div_at ha h (by linarith)

/-- The quantum parameter is zero. -/
theorem eta_zero {p : V3 F64} {a : Fin 3 → ℝ} (ha : p.At a) (lo : (1 / 2) ^ 400 ≤ len a) (hi : len a ≤ 2 ^ 500) :
    (pushEta (lit 1) p ⟨lit 0, lit 0, lit 0⟩ ⟨lit 0, lit 0, lit 0⟩ : F64).1 = .fin 0 := by
  obtain ⟨d, hd⟩ := norm_fin ha lo hi
  obtain ⟨g, hg, h1⟩ := gamma_fin ha hi
  obtain ⟨b, hb, -⟩ := beta_cases (.inr ⟨g, h1, hg⟩)
  have z0 := zero_val
  have zz : ∀ {u v : F64}, u.1 = .fin 0 → v.1 = .fin 0 → (u +. v).1 = .fin 0 := fun h h' => zero_add_at h h'
  have hdot : ((⟨lit 0, lit 0, lit 0⟩ : V3 F64).dot p.norm).1 = .fin 0 :=
    zz (zz (zero_mul_at z0 hd.1) (zero_mul_at z0 hd.2.1)) (zero_mul_at z0 hd.2.2)
  have hdot' : (p.norm.dot (⟨lit 0, lit 0, lit 0⟩ : V3 F64)).1 = .fin 0 :=
    zz (zz (mul_zero_at hd.1 z0) (mul_zero_at hd.2.1 z0)) (mul_zero_at hd.2.2 z0)
  have comp : ∀ {u v w : F64} {x y z : ℝ}, u.1 = .fin x → v.1 = .fin y → w.1 = .fin z →
      ((lit 0 -. ((⟨lit 0, lit 0, lit 0⟩ : V3 F64).dot p.norm) *. u) +.
        Dbl.sqrt (lit 1 -. lit 1 /. (pushGamma (lit 1) p *. pushGamma (lit 1) p)) *. (v *. lit 0 -. w *. lit 0)).1 =
          .fin 0 := fun hu hv hw =>
    zz (zero_sub_zero_at z0 (zero_mul_at hdot hu)) (mul_zero_at hb (zero_sub_zero_at (mul_zero_at hv z0) (mul_zero_at hw z0)))
  have sq : ∀ {u v w : F64}, u.1 = .fin 0 → v.1 = .fin 0 → w.1 = .fin 0 → (V3.mag2 ⟨u, v, w⟩).1 = .fin 0 :=
    fun hu hv hw => zz (zz (zero_mul_at hu hu) (zero_mul_at hv hv)) (zero_mul_at hw hw)
  have hpow : (Dbl.pow (p.norm.dot (⟨lit 0, lit 0, lit 0⟩ : V3 F64)) (lit 2)).1 = .fin 0 := by
    show rnd (Dbl.pow _ _) = _
    rw [hdot', two_val]
    have : (Dbl.pow (XR.fin 0) (XR.fin 2) : XR) = .fin 0 := by
      show XR.pow _ _ = _
      simp [XR.pow]
    rw [this, rnd_fin (by simp), round_zero]
  have hsum := zz (sq (comp hd.1 hd.2.1 hd.2.2) (comp hd.2.1 hd.2.2 hd.1) (comp hd.2.2 hd.1 hd.2.1))
    (zero_div_self_mul hpow hg h1)
  refine zero_mul_at (sqrt_at hsum le_rfl (by simp) (by simp)) hg

theorem lit_fin {q : ℚ} (h : |(q : ℝ)| ≤ 2 ^ 100) : (lit q : F64).1 = .fin (F64.round q) := by
  show rnd (.fin (q : ℝ)) = _
  rw [rnd_fin (F64.lt_big h)]

theorem coeff_fin : ∃ k, (lit (-2) /. lit 3 *. Units.alpha : F64).1 = .fin k := by
  have h2 : (lit (-2) : F64).1 = .fin (-2) := by
    have := rep_int (n := -2) (by norm_num)
    rw [lit_val (by push_cast at this ⊢; exact this)]
    norm_num
  have h3 : (lit 3 : F64).1 = .fin 3 := by
    have := lit_val (q := ((3 : ℕ) : ℚ)) (rep_small (by norm_num))
    simpa using this
  have hd := div_at h2 h3 (by norm_num) (z := F64.round (-2 / 3)) (lt_big (by norm_num [abs_div])) rfl
  have ha : (Units.alpha : F64).1 = .fin (F64.round ((0.0072973525664 : ℚ) : ℝ)) := lit_fin (by
    norm_num [abs_of_pos])
  have b1 : |F64.round (-2 / 3 : ℝ)| ≤ 1 :=
    abs_le.2 ⟨le_round form_one.neg (by norm_num), round_le form_one (by norm_num)⟩
  have b2 : |F64.round ((0.0072973525664 : ℚ) : ℝ)| ≤ 1 :=
    abs_le.2 ⟨le_round form_one.neg (by norm_num), round_le form_one (by norm_num)⟩
  exact ⟨_, mul_at hd ha (lt_big (by
    rw [abs_mul]
    calc _ ≤ (1 : ℝ) * 1 := mul_le_mul b1 b2 (abs_nonneg _) (by norm_num)
      _ ≤ _ := by norm_num)) rfl⟩

theorem smul_zero {d : V3 F64} {x : Fin 3 → ℝ} {c : F64} (hd : d.At x) (hc : c.1 = .fin 0) :
    (d.smul c).At (fun _ => 0) :=
  ⟨zero_mul_at hc hd.1, zero_mul_at hc hd.2.1, zero_mul_at hc hd.2.2⟩

theorem force_reaction {w : V3 F64} (hw : w.At (fun _ => 0)) :
    (⟨lit 0, lit 0, lit 0⟩ : V3 F64).add w = ⟨lit 0, lit 0, lit 0⟩ :=
  add_nothing (a := fun _ => 0) ⟨zero_val, zero_val, zero_val⟩ hw

theorem no_landau {p : V3 F64} {a : Fin 3 → ℝ} {c : F64} {r : ℝ} (ha : p.At a) (hc : c.1 = .fin r)
    (lo : (1 / 2) ^ 400 ≤ len a) (hi : len a ≤ 2 ^ 500) :
    landauForce (lit 1) c p ⟨lit 0, lit 0, lit 0⟩ ⟨lit 0, lit 0, lit 0⟩ = ⟨lit 0, lit 0, lit 0⟩ := by
  obtain ⟨g, v, hg, g0, -⟩ := velocity_near ha hi
  obtain ⟨d, hd⟩ := norm_fin ha lo hi
  obtain ⟨k, hk⟩ := coeff_fin
  have he := eta_zero ha lo hi
  unfold landauForce landauReaction
  rw [no_force ha hc hg g0]
  exact force_reaction (smul_zero hd (zero_mul_at (mul_zero_at hk he) he))

theorem gaunt_one {e : F64} (he : e.1 = .fin 0) : (gaunt e).1 = .fin 1 := by
  have h17 := lit_fin (q := 1.7) (by norm_num [abs_of_pos])
  have h48 := lit_fin (q := 4.8) (by norm_num [abs_of_pos])
  have h244 := lit_fin (q := 2.44) (by norm_num [abs_of_pos])
  have hlog : (Dbl.log (lit 1 +. lit 1.7 *. e) : F64).1 = .fin 0 := by
    show rnd (Dbl.log _) = _
    rw [add_zero_at one_val (mul_zero_at h17 he)]
    have : (Dbl.log (XR.fin 1) : XR) = .fin 0 := by
      show XR.logBase _ _ = _
      simp [XR.logBase]
    rw [this, rnd_fin (by simp), round_zero]
  have h1e := add_zero_at one_val he
  have b48 : |F64.round ((4.8 : ℚ) : ℝ)| ≤ 8 := by
    have f8 : Form 8 := by simpa using form_int (n := 8) (by norm_num)
    exact abs_le.2 ⟨le_round f8.neg (by norm_num), round_le f8 (by norm_num)⟩
  have hm := mul_at h48 h1e (lt_big (by
    rw [mul_one]
    exact b48.trans (by norm_num))) rfl
  have hbase := add_zero_at (add_zero_at one_val (mul_zero_at hm hlog)) (zero_mul_at (mul_zero_at h244 he) he)
  unfold gaunt
  show rnd (Dbl.pow _ _) = _
  rw [hbase]
  have h2 : (lit (-2) : F64).1 = .fin (-2) := by
    have := rep_int (n := -2) (by norm_num)
    rw [lit_val (by push_cast at this ⊢; exact this)]
    norm_num
  have h3 : (lit 3 : F64).1 = .fin 3 := by
    have := lit_val (q := ((3 : ℕ) : ℚ)) (rep_small (by norm_num))
    simpa using this
  rw [div_at h2 h3 (by norm_num) (z := F64.round (-2 / 3)) (lt_big (by norm_num [abs_div])) rfl,
    XR.pow_fin _ _ one_pos, Real.one_rpow, rnd_fin (lt_big (by norm_num)), round_form_eq form_one]

theorem no_modLandau {p : V3 F64} {a : Fin 3 → ℝ} {c : F64} {r : ℝ} (ha : p.At a) (hc : c.1 = .fin r)
    (lo : (1 / 2) ^ 400 ≤ len a) (hi : len a ≤ 2 ^ 500) :
    modLandauForce (lit 1) c p ⟨lit 0, lit 0, lit 0⟩ ⟨lit 0, lit 0, lit 0⟩ = ⟨lit 0, lit 0, lit 0⟩ := by
  obtain ⟨g, v, hg, g0, -⟩ := velocity_near ha hi
  obtain ⟨d, hd⟩ := norm_fin ha lo hi
  obtain ⟨k, hk⟩ := coeff_fin
  have he := eta_zero ha lo hi
  unfold modLandauForce modLandauReaction
  rw [no_force ha hc hg g0]
  exact force_reaction (smul_zero hd (zero_mul_at (zero_mul_at (mul_zero_at hk he) he) (gaunt_one he)))

end Flight
end QED
