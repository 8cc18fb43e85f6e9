import Verif.Lemmas.NearPush

set_option autoImplicit false
set_option exponentiation.threshold 2000

/-!
# Rounding errors of velocity and force
-/

namespace QED

open Dbl F64

namespace Near

theorem gam_sq (p : V3 ℝ) : gam p ^ 2 = 1 + (p.x ^ 2 + p.y ^ 2 + p.z ^ 2) := by
  unfold gam
  rw [Real.sq_sqrt (by positivity)]

theorem one_le_gam (p : V3 ℝ) : 1 ≤ gam p := by
  unfold gam
  rw [Real.one_le_sqrt]
  have : 0 ≤ p.x ^ 2 + p.y ^ 2 + p.z ^ 2 := by positivity
  linarith

theorem gam_pos (p : V3 ℝ) : 0 < gam p := by linarith [one_le_gam p]

theorem comp_le_gam (p : V3 ℝ) : |p.x| ≤ gam p ∧ |p.y| ≤ gam p ∧ |p.z| ≤ gam p := by
  have h0 := sq_nonneg p.x
  have h1 := sq_nonneg p.y
  have h2 := sq_nonneg p.z
  refine ⟨?_, ?_, ?_⟩ <;>
  · apply Real.abs_le_sqrt
    linarith

theorem sum_le_gam (p : V3 ℝ) : |p.x| + |p.y| + |p.z| ≤ 2 * gam p := by
  have h := gam_sq p
  have g := gam_pos p
  rw [← sq_abs p.x, ← sq_abs p.y, ← sq_abs p.z] at h
  apply abs_le_of_sq_le_sq' _ (by linarith) |>.2
  nlinarith [sq_nonneg (|p.x| - |p.y|), sq_nonneg (|p.y| - |p.z|), sq_nonneg (|p.x| - |p.z|)]

/-- The Lorentz factors of close momenta. -/
theorem gam_close {p q : V3 ℝ} {e : ℝ} (hx : |q.x - p.x| ≤ e) (hy : |q.y - p.y| ≤ e) (hz : |q.z - p.z| ≤ e) :
    |gam q - gam p| ≤ 2 * e := by
  have e0 := (abs_nonneg _).trans hx
  have g := gam_pos p
  have g' := gam_pos q
  have h1 : |gam q - gam p| * (gam q + gam p) ≤ 2 * e * (gam q + gam p) := by
    rw [← abs_of_pos (by linarith : 0 < gam q + gam p), ← abs_mul]
    have eq : (gam q - gam p) * (gam q + gam p) =
        (q.x - p.x) * (q.x + p.x) + (q.y - p.y) * (q.y + p.y) + (q.z - p.z) * (q.z + p.z) := by
      have := gam_sq p
      have := gam_sq q
      linarith [sq (gam p), sq (gam q)]
    rw [eq, abs_of_pos (by linarith : 0 < gam q + gam p)]
    have t : ∀ {a b : ℝ}, |b - a| ≤ e → |(b - a) * (b + a)| ≤ e * (|b| + |a|) := by
      intro a b h
      rw [abs_mul]
      exact mul_le_mul h (abs_add_le _ _) (abs_nonneg _) e0
    have s := mul_le_mul_of_nonneg_left (add_le_add (sum_le_gam q) (sum_le_gam p)) e0
    have a1 := abs_add_le ((q.x - p.x) * (q.x + p.x) + (q.y - p.y) * (q.y + p.y)) ((q.z - p.z) * (q.z + p.z))
    have a2 := abs_add_le ((q.x - p.x) * (q.x + p.x)) ((q.y - p.y) * (q.y + p.y))
    have b1 := t hx
    have b2 := t hy
    have b3 := t hz
    linarith
  exact le_of_mul_le_mul_right h1 (by linarith)

theorem ratio_close {a b g h e : ℝ} (hg : 0 < g) (hh : 0 < h) (hab : |b - a| ≤ e) (hgh : |h - g| ≤ 2 * e) (hb : |b| ≤ h) :
    |b / h - a / g| ≤ 3 * e / g := by
  have e1 : b / h - a / g = (b - a) / g + b / h * ((g - h) / g) := by
    field_simp
    ring
  have h1 : |(b - a) / g| ≤ e / g := by
    rw [abs_div, abs_of_pos hg]
    exact div_le_div_of_nonneg_right hab hg.le
  have h2 : |b / h| ≤ 1 := by
    rw [abs_div, abs_of_pos hh]
    exact (div_le_one hh).mpr hb
  have h3 : |(g - h) / g| ≤ 2 * e / g := by
    rw [abs_div, abs_of_pos hg, abs_sub_comm]
    exact div_le_div_of_nonneg_right hgh hg.le
  have h4 : |b / h * ((g - h) / g)| ≤ 1 * (2 * e / g) := by
    rw [abs_mul]
    exact mul_le_mul h2 h3 (abs_nonneg _) zero_le_one
  rw [e1]
  have := abs_add_le ((b - a) / g) (b / h * ((g - h) / g))
  have e2 : 3 * e / g = e / g + 2 * e / g := by ring
  linarith

theorem len_gam (a : Fin 3 → ℝ) : Real.sqrt (1 + len a ^ 2) = gam ⟨a 0, a 1, a 2⟩ := by
  unfold gam
  rw [Flight.sq_len]
  congr 1
  simp only
  ring

/-- What is known about a momentum that is close to another one. -/
theorem momentum {p : V3 F64} {q : V3 ℝ} {e : ℝ} (h : p.Close q e) (mg : Mid (gam q)) (he : 1000 * e ≤ gam q) :
    ∃ w : V3 ℝ, p.x.1 = .fin w.x ∧ p.y.1 = .fin w.y ∧ p.z.1 = .fin w.z ∧
      |w.x - q.x| ≤ e ∧ |w.y - q.y| ≤ e ∧ |w.z - q.z| ≤ e ∧ |gam w - gam q| ≤ 2 * e ∧
      ∃ g, (lit 1 *. pushGamma (lit 1) p : F64).1 = .fin g ∧ 0 < g ∧
        |g - gam w| ≤ (54 / 10) / 9007199254740992 * gam w ∧
        Near (pushPosition (lit 1) p).x (w.x / gam w) ((66 / 10) / 9007199254740992) ∧
        Near (pushPosition (lit 1) p).y (w.y / gam w) ((66 / 10) / 9007199254740992) ∧
        Near (pushPosition (lit 1) p).z (w.z / gam w) ((66 / 10) / 9007199254740992) := by
  obtain ⟨⟨x, hx, ex⟩, ⟨y, hy, ey⟩, z, hz, ez⟩ := h
  have hg : |gam ⟨x, y, z⟩ - gam q| ≤ 2 * e := gam_close ex ey ez
  have hl : len ![x, y, z] ≤ 2 ^ 500 := by
    have h1 : len ![x, y, z] ≤ gam ⟨x, y, z⟩ := by
      have := len_gam ![x, y, z]
      simp only [Matrix.cons_val_zero, Matrix.cons_val_one, Matrix.cons_val] at this
      rw [← this]
      apply Real.le_sqrt_of_sq_le
      linarith
    have h2 : gam ⟨x, y, z⟩ ≤ 2 * gam q := by
      have := (abs_le.mp hg).2
      have := gam_pos q
      linarith
    have h3 : 2 * (2 : ℝ) ^ 200 ≤ 2 ^ 500 := by
      rw [← pow_succ']
      exact pow_le_pow_right₀ (by norm_num) (by norm_num)
    exact h1.trans (h2.trans ((mul_le_mul_of_nonneg_left mg.2 (by norm_num)).trans h3))
  obtain ⟨g, v, hgv, g0, hgn, hv, hvn⟩ := Flight.velocity_near (p := p) (a := ![x, y, z]) ⟨hx, hy, hz⟩ hl
  rw [len_gam] at hgn
  refine ⟨⟨x, y, z⟩, hx, hy, hz, ex, ey, ez, hg, g, hgv, g0, hgn, ?_, ?_, ?_⟩
  · have := hvn 0
    rw [len_gam, mul_one] at this
    exact ⟨_, hv.1, this⟩
  · have := hvn 1
    rw [len_gam, mul_one] at this
    exact ⟨_, hv.2.1, this⟩
  · have := hvn 2
    rw [len_gam, mul_one] at this
    exact ⟨_, hv.2.2, this⟩

theorem pushPosition_real (p : V3 ℝ) : pushPosition (1 : ℝ) p = ⟨p.x / gam p, p.y / gam p, p.z / gam p⟩ := by
  have : pushGamma (1 : ℝ) p = gam p := by
    unfold pushGamma gam V3.mag2 V3.dot
    simp
    congr 1
    ring
  unfold pushPosition
  rw [this]
  simp [V3.divs]

/-- The velocity as computed. -/
theorem velocity {p : V3 F64} {q : V3 ℝ} {e : ℝ} (h : p.Close q e) (mg : Mid (gam q)) (he : 1000 * e ≤ gam q) :
    (pushPosition (lit 1) p).Close (pushPosition 1 q) ((66 / 10) / 9007199254740992 + 3 * e / gam q) := by
  obtain ⟨w, -, -, -, ex, ey, ez, hg, g, -, -, -, vx, vy, vz⟩ := momentum h mg he
  rw [pushPosition_real]
  have c := comp_le_gam w
  exact ⟨vx.move (ratio_close (gam_pos q) (gam_pos w) ex hg c.1),
    vy.move (ratio_close (gam_pos q) (gam_pos w) ey hg c.2.1),
    vz.move (ratio_close (gam_pos q) (gam_pos w) ez hg c.2.2)⟩

/-- One coordinate of the force, for exact arguments. -/
theorem force_exact {ay az ex b₁ b₂ g c : F64} {y z E B₁ B₂ g' G r F : ℝ} (hy : ay.1 = .fin y) (hz : az.1 = .fin z)
    (hE : ex.1 = .fin E) (h₁ : b₁.1 = .fin B₁) (h₂ : b₂.1 = .fin B₂) (hg : g.1 = .fin g') (hc : c.1 = .fin r)
    (by' : |y| ≤ G) (bz : |z| ≤ G) (bE : |E| ≤ F) (c₁ : |B₁| ≤ F) (c₂ : |B₂| ≤ F) (g0 : 0 < g')
    (bg : |g' - G| ≤ (54 / 10) / 9007199254740992 * G) (hr : |r| ≤ 1) (mF : Mid F) (mG : Mid G) :
    Near (c *. (ex +. (ay *. b₂ -. az *. b₁) /. g)) (r * (E + (y * B₂ - z * B₁) / G))
      (244 / 10 / 9007199254740992 * F) := by
  have F0 := mF.pos
  have G0 := mG.pos
  have FG : 0 < G * F := mul_pos G0 F0
  have okGF : Ok (G * F) := by
    have := mG.ok_mul mF (c := 1) (by norm_num) (by norm_num)
    rwa [one_mul] at this
  have prod : ∀ {s t : ℝ}, |s| ≤ G → |t| ≤ F → |s * t| ≤ G * F := by
    intro s t hs ht
    rw [abs_mul]
    exact mul_le_mul hs ht (abs_nonneg _) G0.le
  have m₁ := mul (of_val hy) (of_val h₂) by' c₂ (by linarith) (by linarith) okGF
  have m₂ := mul (of_val hz) (of_val h₁) bz c₁ (by linarith) (by linarith) okGF
  have hN : |y * B₂ - z * B₁| ≤ 2 * (G * F) := by
    have := abs_sub (y * B₂) (z * B₁)
    have := prod by' c₂
    have := prod bz c₁
    linarith
  have s := sub m₁ m₂ (s := 2 * (G * F)) hN (by linarith) (mG.ok_mul mF (by norm_num) (by norm_num))
  have bg' := abs_le.mp bg
  have gl : G * (999 / 1000) ≤ g' := by linarith
  have gF : G * F * (999 / 1000) ≤ F * g' := by
    have := mul_le_mul_of_nonneg_left gl F0.le
    linarith
  have s' := s.weaken (f := 44 / 10 / 9007199254740992 * (G * F)) (by linarith)
  have d := div (s := 201 / 100 * F) s' hg g0 (by linarith) (by linarith) (mF.ok (by norm_num) (by norm_num))
  have hd := (Flight.div_near (x := y * B₂ - z * B₁) (s := 2 * F) G0 (by norm_num) (by norm_num) bg (by linarith)).2
  have d' := d.move hd
  have hq : 44 / 10 / 9007199254740992 * (G * F) / g' ≤ 45 / 10 / 9007199254740992 * F := by
    rw [div_le_iff₀ g0]
    linarith
  have d'' := d'.weaken (f := 178 / 10 / 9007199254740992 * F) (by linarith)
  have hB : |(y * B₂ - z * B₁) / G| ≤ 2 * F := by
    rw [abs_div, abs_of_pos G0, div_le_iff₀ G0]
    linarith
  have hsum : |E + (y * B₂ - z * B₁) / G| ≤ 3 * F := (abs_add_le _ _).trans (by linarith)
  have a := add (of_val hE) d'' (s := 3 * F) hsum (by linarith) (mF.ok (by norm_num) (by norm_num))
  have k := mul (of_val hc) a (r := 1) (q := 3 * F) hr hsum (by norm_num) (by linarith) (by
    rw [one_mul]; exact mF.ok (by norm_num) (by norm_num))
  exact k.weaken (by linarith)

/-- One coordinate of the force, when the arguments change a little. -/
theorem force_change {r E E' B₁ B₁' B₂ B₂' v₁ v₁' v₂ v₂' F κ η : ℝ} (hr : |r| ≤ 1) (hE : |E' - E| ≤ κ)
    (h₁ : |B₁' - B₁| ≤ κ) (h₂ : |B₂' - B₂| ≤ κ) (c₁ : |B₁| ≤ F) (c₂ : |B₂| ≤ F) (k₁ : |v₁' - v₁| ≤ η)
    (k₂ : |v₂' - v₂| ≤ η) (l₁ : |v₁'| ≤ 1) (l₂ : |v₂'| ≤ 1) :
    |r * (E' + (v₁' * B₂' - v₂' * B₁')) - r * (E + (v₁ * B₂ - v₂ * B₁))| ≤ 3 * κ + 2 * (F * η) := by
  have κ0 := (abs_nonneg _).trans hE
  have η0 := (abs_nonneg _).trans k₁
  have F0 := (abs_nonneg _).trans c₁
  rw [← mul_sub, abs_mul]
  have t : |E' + (v₁' * B₂' - v₂' * B₁') - (E + (v₁ * B₂ - v₂ * B₁))| ≤ 3 * κ + 2 * (F * η) := by
    have e : E' + (v₁' * B₂' - v₂' * B₁') - (E + (v₁ * B₂ - v₂ * B₁)) =
      (E' - E) + (v₁' * (B₂' - B₂) + (v₁' - v₁) * B₂) - (v₂' * (B₁' - B₁) + (v₂' - v₂) * B₁) := by ring
    have p : ∀ {v v' b b' : ℝ}, |v'| ≤ 1 → |b' - b| ≤ κ → |v' - v| ≤ η → |b| ≤ F →
        |v' * (b' - b) + (v' - v) * b| ≤ κ + F * η := by
      intro v v' b b' hv hb hk hF
      refine (abs_add_le _ _).trans (add_le_add ?_ ?_)
      · rw [abs_mul]
        calc |v'| * |b' - b| ≤ 1 * κ := mul_le_mul hv hb (abs_nonneg _) zero_le_one
          _ = κ := one_mul _
      · rw [abs_mul, mul_comm]
        exact mul_le_mul hF hk (abs_nonneg _) F0
    have p₁ := p l₁ h₂ k₁ c₂
    have p₂ := p l₂ h₁ k₂ c₁
    rw [e]
    have a1 := abs_sub ((E' - E) + (v₁' * (B₂' - B₂) + (v₁' - v₁) * B₂)) (v₂' * (B₁' - B₁) + (v₂' - v₂) * B₁)
    have a2 := abs_add_le (E' - E) (v₁' * (B₂' - B₂) + (v₁' - v₁) * B₂)
    linarith
  calc |r| * _ ≤ 1 * _ := mul_le_mul hr t (abs_nonneg _) zero_le_one
    _ = _ := one_mul _

theorem force_real (r : ℝ) (p E B : V3 ℝ) : lorentzForce (1 : ℝ) r p E B =
    ⟨r * (E.x + (p.y / gam p * B.z - p.z / gam p * B.y)), r * (E.y + (p.z / gam p * B.x - p.x / gam p * B.z)),
      r * (E.z + (p.x / gam p * B.y - p.y / gam p * B.x))⟩ := by
  have : pushGamma (1 : ℝ) p = gam p := by
    unfold pushGamma gam V3.mag2 V3.dot
    simp
    congr 1
    ring
  unfold lorentzForce
  rw [this]
  simp only [V3.smul, V3.add, V3.divs, V3.cross, real_mul, real_add, real_sub, real_div, one_mul]
  congr 2 <;> ring

/-- The force as computed. -/
theorem force {c : F64} {r F κ e : ℝ} {p E' B' : V3 F64} {q E B : V3 ℝ} (hc : c.1 = .fin r) (hr : |r| ≤ 1)
    (h : p.Close q e) (mg : Mid (gam q)) (he : 1000 * e ≤ gam q) (hE : E'.Close E κ) (hB : B'.Close B κ)
    (bE : Bounded E F) (bB : Bounded B F) (hκ : 100 * κ ≤ F) (mF : Mid (101 / 100 * F)) (mg' : Mid (2 * gam q))
    (mg'' : Mid (gam q / 2)) :
    (lorentzForce (lit 1) c p E' B').Close (lorentzForce 1 r q E B)
      (25 / 9007199254740992 * F + 3 * κ + 6 * F * e / gam q) := by
  have κ0 := hE.1.nonneg
  obtain ⟨w, px, py, pz, ex, ey, ez, hg, g, hgv, g0, hgn, -⟩ := momentum h mg he
  obtain ⟨⟨E1, e1, d1⟩, ⟨E2, e2, d2⟩, E3, e3, d3⟩ := hE
  obtain ⟨⟨B1, b1, c1⟩, ⟨B2, b2, c2⟩, B3, b3, c3⟩ := hB
  have gq := gam_pos q
  have gw := gam_pos w
  have hg' := abs_le.mp hg
  have mw : Mid (gam w) := ⟨mg''.1.trans (by linarith), le_trans (by linarith) mg'.2⟩
  have F0 : 0 < F := by
    have := mF.pos
    linarith
  have near : ∀ {a b : ℝ}, |a - b| ≤ κ → |b| ≤ F → |a| ≤ 101 / 100 * F := by
    intro a b h1 h2
    have : |a| ≤ |a - b| + |b| := by simpa using abs_add_le (a - b) b
    linarith
  have cw := comp_le_gam w
  have unit : ∀ {a : ℝ}, |a| ≤ gam w → |a / gam w| ≤ 1 := by
    intro a ha
    rw [abs_div, abs_of_pos gw]
    exact (div_le_one gw).mpr ha
  have rx := ratio_close gq gw ex hg cw.1
  have ry := ratio_close gq gw ey hg cw.2.1
  have rz := ratio_close gq gw ez hg cw.2.2
  have fin : ∀ {a b t₁ t₂ x : ℝ} {v : F64},
      Near v (r * (x + (a * t₂ - b * t₁) / gam w)) (244 / 10 / 9007199254740992 * (101 / 100 * F)) →
      ∀ {y : ℝ}, |r * (x + (a / gam w * t₂ - b / gam w * t₁)) - y| ≤ 3 * κ + 2 * (F * (3 * e / gam q)) →
      Near v y (25 / 9007199254740992 * F + 3 * κ + 6 * F * e / gam q) := by
    intro a b t₁ t₂ x v hv y hy
    have e1 : r * (x + (a * t₂ - b * t₁) / gam w) = r * (x + (a / gam w * t₂ - b / gam w * t₁)) := by ring
    rw [e1] at hv
    refine (hv.move hy).weaken ?_
    have e2 : 2 * (F * (3 * e / gam q)) = 6 * F * e / gam q := by ring
    linarith
  rw [force_real]
  refine ⟨?_, ?_, ?_⟩
  · exact fin (force_exact py pz e1 b2 b3 hgv hc cw.2.1 cw.2.2 (near d1 bE.1) (near c2 bB.2.1) (near c3 bB.2.2) g0 hgn hr
      mF mw) (force_change hr d1 c2 c3 bB.2.1 bB.2.2 ry rz (unit cw.2.1) (unit cw.2.2))
  · exact fin (force_exact pz px e2 b3 b1 hgv hc cw.2.2 cw.1 (near d2 bE.2.1) (near c3 bB.2.2) (near c1 bB.1) g0 hgn hr
      mF mw) (force_change hr d2 c3 c1 bB.2.2 bB.1 rz rx (unit cw.2.2) (unit cw.1))
  · exact fin (force_exact px py e3 b1 b2 hgv hc cw.1 cw.2.1 (near d3 bE.2.2) (near c1 bB.1) (near c2 bB.2.1) g0 hgn hr
      mF mw) (force_change hr d3 c1 c2 bB.1 bB.2.1 rx ry (unit cw.1) (unit cw.2.1))

end Near

end QED
