import Verif.Lemmas.NearStep
import Verif.Lemmas.F64Straight
import Mathlib.Analysis.Complex.Exponential

set_option autoImplicit false
set_option exponentiation.threshold 2000

/-!
# The rounding errors of a run
-/

namespace QED

open Dbl F64

namespace Near

theorem bounded_weaken {v : V3 ℝ} {e f : ℝ} (h : Bounded v e) (hf : e ≤ f) : Bounded v f :=
  ⟨h.1.trans hf, h.2.1.trans hf, h.2.2.trans hf⟩

/-- Velocity and force at neighbouring points. -/
theorem real_stage {g : Field ℝ} {F Λ G N r s t : ℝ} {x y p q : V3 ℝ} (hr : |r| ≤ 1)
    (hF : ∀ s y, Bounded (g s y).1 F ∧ Bounded (g s y).2 F) (hg : g.Slowly Λ) (F0 : 0 < F) (G0 : 0 < G)
    (hG : 5 / 8 * G ≤ gam p) (ht : |s - t| ≤ N) (hx : Bounded (y.sub x) N) (hp : Bounded (q.sub p) (F * N)) :
    Bounded ((pushPosition 1 q).sub (pushPosition 1 p)) ((3 * Λ / F + 10 * F / G) * N) ∧
    Bounded ((lorentzForce 1 r q (g s y).1 (g s y).2).sub (lorentzForce 1 r p (g t x).1 (g t x).2))
      (F * ((3 * Λ / F + 10 * F / G) * N)) := by
  have N0 : 0 ≤ N := (abs_nonneg _).trans ht
  obtain ⟨hE, hB⟩ := hg s t N y x ht hx
  have ΛN : 0 ≤ Λ * N := (abs_nonneg _).trans hE.1
  have gp := gam_pos p
  have gq := gam_pos q
  have hgq := gam_close hp.1 hp.2.1 hp.2.2
  have cq := comp_le_gam q
  have η : ∀ {a b : ℝ}, |b - a| ≤ F * N → |b| ≤ gam q → |b / gam q - a / gam p| ≤ 24 / 5 * (F / G) * N := by
    intro a b hab hb
    refine (ratio_close gp gq hab hgq hb).trans ?_
    rw [div_le_iff₀ gp]
    have e : 3 * (F * N) = 24 / 5 * (F / G) * N * (5 / 8 * G) := by
      field_simp
      ring
    rw [e]
    exact mul_le_mul_of_nonneg_left hG (by positivity)
  have v1 := η hp.1 cq.1
  have v2 := η hp.2.1 cq.2.1
  have v3 := η hp.2.2 cq.2.2
  have FG : 0 ≤ F / G * N := by positivity
  have ΛF : 0 ≤ Λ / F * N := by
    have e : Λ / F * N = Λ * N / F := by ring
    rw [e]
    positivity
  have hL : 24 / 5 * (F / G) * N ≤ (3 * Λ / F + 10 * F / G) * N := by
    have e : (3 * Λ / F + 10 * F / G) * N = 3 * (Λ / F * N) + 10 * (F / G * N) := by ring
    rw [e]
    linarith
  have hL' : 3 * (Λ * N) + 2 * (F * (24 / 5 * (F / G) * N)) ≤ F * ((3 * Λ / F + 10 * F / G) * N) := by
    have e : F * ((3 * Λ / F + 10 * F / G) * N) = 3 * (Λ * N) + 10 * (F * (F / G * N)) := by
      field_simp
    rw [e]
    have : 0 ≤ F * (F / G * N) := by positivity
    linarith
  have w := velocity_bounded q
  rw [pushPosition_real] at w
  have b := (hF t x).2
  constructor
  · rw [pushPosition_real, pushPosition_real]
    exact ⟨v1.trans hL, v2.trans hL, v3.trans hL⟩
  · rw [force_real, force_real]
    exact ⟨(force_change hr hE.1 hB.2.1 hB.2.2 b.2.1 b.2.2 v2 v3 w.2.1 w.2.2).trans hL',
      (force_change hr hE.2.1 hB.2.2 hB.1 b.2.2 b.1 v3 v1 w.2.2 w.1).trans hL',
      (force_change hr hE.2.2 hB.1 hB.2.1 b.1 b.2.1 v1 v2 w.1 w.2.1).trans hL'⟩

theorem sub_full {x y v w : V3 ℝ} {M K τ : ℝ} (τ0 : 0 ≤ τ) (h : Bounded (y.sub x) M) (k : Bounded (w.sub v) K) :
    Bounded ((y.add (w.muls τ)).sub (x.add (v.muls τ))) (M + K * τ) := by
  have key : ∀ {a b c d : ℝ}, |b - a| ≤ M → |d - c| ≤ K → |b + d * τ - (a + c * τ)| ≤ M + K * τ := by
    intro a b c d h k
    have e : b + d * τ - (a + c * τ) = (b - a) + (d - c) * τ := by ring
    have h1 := abs_add_le (b - a) ((d - c) * τ)
    rw [abs_mul, abs_of_nonneg τ0] at h1
    have := mul_le_mul_of_nonneg_right k τ0
    rw [e]
    linarith
  exact ⟨key h.1 k.1, key h.2.1 k.2.1, key h.2.2 k.2.2⟩

theorem sub_half {x y v w : V3 ℝ} {M K τ : ℝ} (τ0 : 0 ≤ τ) (h : Bounded (y.sub x) M) (k : Bounded (w.sub v) K) :
    Bounded ((y.add ((w.muls τ).divs (lit 2))).sub (x.add ((v.muls τ).divs (lit 2)))) (M + K * (τ / 2)) := by
  rw [half_eq, half_eq]
  exact sub_full (x := x) (y := y) (v := v) (w := w) (by linarith) h k

theorem sub_mean {x y v₁ v₂ v₃ v₄ w₁ w₂ w₃ w₄ : V3 ℝ} {M K₁ K₂ K₃ K₄ τ : ℝ} (τ0 : 0 ≤ τ) (h : Bounded (y.sub x) M)
    (k₁ : Bounded (w₁.sub v₁) K₁) (k₂ : Bounded (w₂.sub v₂) K₂) (k₃ : Bounded (w₃.sub v₃) K₃)
    (k₄ : Bounded (w₄.sub v₄) K₄) :
    Bounded ((y.add ((((w₁.add (w₂.smul (lit 2))).add (w₃.smul (lit 2))).add w₄).smul (τ /. lit 6))).sub
      (x.add ((((v₁.add (v₂.smul (lit 2))).add (v₃.smul (lit 2))).add v₄).smul (τ /. lit 6))))
      (M + τ / 6 * (K₁ + 2 * K₂ + 2 * K₃ + K₄)) := by
  have key : ∀ {a b c₁ c₂ c₃ c₄ d₁ d₂ d₃ d₄ : ℝ}, |b - a| ≤ M → |d₁ - c₁| ≤ K₁ → |d₂ - c₂| ≤ K₂ → |d₃ - c₃| ≤ K₃ →
      |d₄ - c₄| ≤ K₄ → |b + τ / lit 6 * (d₁ + lit 2 * d₂ + lit 2 * d₃ + d₄)
        - (a + τ / lit 6 * (c₁ + lit 2 * c₂ + lit 2 * c₃ + c₄))| ≤ M + τ / 6 * (K₁ + 2 * K₂ + 2 * K₃ + K₄) := by
    intro a b c₁ c₂ c₃ c₄ d₁ d₂ d₃ d₄ h k₁ k₂ k₃ k₄
    have two : (lit 2 : ℝ) = 2 := by simp
    have six : (lit 6 : ℝ) = 6 := by simp
    rw [two, six]
    have e : b + τ / 6 * (d₁ + 2 * d₂ + 2 * d₃ + d₄) - (a + τ / 6 * (c₁ + 2 * c₂ + 2 * c₃ + c₄)) =
      (b - a) + τ / 6 * ((d₁ - c₁) + 2 * (d₂ - c₂) + 2 * (d₃ - c₃) + (d₄ - c₄)) := by ring
    have h1 : |(d₁ - c₁) + 2 * (d₂ - c₂) + 2 * (d₃ - c₃) + (d₄ - c₄)| ≤ K₁ + 2 * K₂ + 2 * K₃ + K₄ := by
      rw [abs_le] at *
      constructor <;> linarith [k₁.1, k₁.2, k₂.1, k₂.2, k₃.1, k₃.2, k₄.1, k₄.2]
    have h2 := abs_add_le (b - a) (τ / 6 * ((d₁ - c₁) + 2 * (d₂ - c₂) + 2 * (d₃ - c₃) + (d₄ - c₄)))
    rw [abs_mul, abs_of_nonneg (by positivity : 0 ≤ τ / 6)] at h2
    have h3 := mul_le_mul_of_nonneg_left h1 (by positivity : 0 ≤ τ / 6)
    rw [e]
    linarith
  exact ⟨key h.1 k₁.1 k₂.1 k₃.1 k₄.1, key h.2.1 k₁.2.1 k₂.2.1 k₃.2.1 k₄.2.1,
    key h.2.2 k₁.2.2 k₂.2.2 k₃.2.2 k₄.2.2⟩

theorem le_exp4 {h : ℝ} (h0 : 0 ≤ h) : 1 + h + h ^ 2 / 2 + h ^ 3 / 6 + h ^ 4 / 24 ≤ Real.exp h := by
  have := Real.sum_le_exp_of_nonneg h0 5
  simp [Finset.sum_range_succ, Nat.factorial] at this
  linarith

/-- One step of real numbers from neighbouring points. -/
theorem real_step {g : Field ℝ} {F Λ G N r s t τ : ℝ} {x y p q : V3 ℝ} (hr : |r| ≤ 1)
    (hF : ∀ s y, Bounded (g s y).1 F ∧ Bounded (g s y).2 F) (hg : g.Slowly Λ) (hΛ : 0 ≤ Λ) (F0 : 0 < F) (G0 : 0 < G)
    (hG : G ≤ gam p) (τ0 : 0 ≤ τ) (hFτ : 16 * (F * τ) ≤ 1) (ht : |s - t| ≤ N) (hx : Bounded (y.sub x) N)
    (hp : Bounded (q.sub p) (F * N)) :
    Bounded ((rk4 lorentzForce g τ 1 r s y q).1.sub (rk4 lorentzForce g τ 1 r t x p).1)
      (Real.exp ((3 * Λ / F + 10 * F / G) * τ) * N) ∧
    Bounded ((rk4 lorentzForce g τ 1 r s y q).2.sub (rk4 lorentzForce g τ 1 r t x p).2)
      (F * (Real.exp ((3 * Λ / F + 10 * F / G) * τ) * N)) := by
  have N0 : 0 ≤ N := (abs_nonneg _).trans ht
  have gp := gam_pos p
  have low : ∀ {a : ℝ}, 5 / 8 * gam p ≤ a → 5 / 8 * G ≤ a := fun h => le_trans (by linarith) h
  obtain ⟨v1, f1⟩ := real_stage (s := s) (t := t) hr hF hg F0 G0 (low (by linarith)) ht hx hp
  generalize hL : 3 * Λ / F + 10 * F / G = L at v1 f1 ⊢
  have L0 : 0 ≤ L := by rw [← hL]; positivity
  have ht2 : ∀ {M : ℝ}, N ≤ M → |s +. τ /. lit 2 - (t +. τ /. lit 2)| ≤ M := by
    intro M h
    have e : s +. τ /. lit 2 - (t +. τ /. lit 2) = s - t := by
      show s + τ / lit 2 - (t + τ / lit 2) = s - t
      ring
    rw [e]
    exact ht.trans h
  have ht4 : ∀ {M : ℝ}, N ≤ M → |s +. τ - (t +. τ)| ≤ M := by
    intro M h
    have e : s +. τ - (t +. τ) = s - t := by
      show s + τ - (t + τ) = s - t
      ring
    rw [e]
    exact ht.trans h
  have LN : 0 ≤ L * N * τ := by positivity
  -- stage 2
  have x2 := sub_half τ0 hx v1
  have p2 := bounded_weaken (sub_half τ0 hp f1) (le_of_eq (by ring : _ = F * (N + L * N * (τ / 2))))
  have g2 := stage_gam (force_bounded p hr (hF t x).1 (hF t x).2) hFτ (s := τ / 2) (by linarith) (by linarith)
    (half_eq p _ τ)
  obtain ⟨v2, f2⟩ := real_stage (s := s +. τ /. lit 2) (t := t +. τ /. lit 2) hr hF hg F0 G0 (low g2.1)
    (ht2 (by linarith)) x2 p2
  rw [hL] at v2 f2
  -- stage 3
  generalize hN2 : N + L * N * (τ / 2) = N2 at x2 p2 v2 f2
  have N20 : N ≤ N2 := by rw [← hN2]; linarith
  have LN2 : 0 ≤ L * N2 * τ := by have : 0 ≤ N2 := by linarith
                                  positivity
  have x3 := sub_half τ0 hx v2
  have p3 := bounded_weaken (sub_half τ0 hp f2) (le_of_eq (by ring : _ = F * (N + L * N2 * (τ / 2))))
  have g3 := stage_gam (force_bounded (p.add (((lorentzForce 1 r p (g t x).1 (g t x).2).muls τ).divs (lit 2))) hr
    (hF (t +. τ /. lit 2) (x.add (((pushPosition 1 p).muls τ).divs (lit 2)))).1
    (hF (t +. τ /. lit 2) (x.add (((pushPosition 1 p).muls τ).divs (lit 2)))).2) hFτ (s := τ / 2) (by linarith)
    (by linarith) (half_eq p _ τ)
  obtain ⟨v3, f3⟩ := real_stage (s := s +. τ /. lit 2) (t := t +. τ /. lit 2) hr hF hg F0 G0 (low g3.1)
    (ht2 (by linarith)) x3 p3
  rw [hL] at v3 f3
  generalize hN3 : N + L * N2 * (τ / 2) = N3 at x3 p3 v3 f3
  have N30 : N ≤ N3 := by rw [← hN3]; linarith
  have LN3 : 0 ≤ L * N3 * τ := by have : 0 ≤ N3 := by linarith
                                  positivity
  -- stage 4
  have x4 := sub_full τ0 hx v3
  have p4 := bounded_weaken (sub_full τ0 hp f3) (le_of_eq (by ring : _ = F * (N + L * N3 * τ)))
  have g4 := stage_gam (force_bounded (p.add (((lorentzForce 1 r
    (p.add (((lorentzForce 1 r p (g t x).1 (g t x).2).muls τ).divs (lit 2)))
    (g (t +. τ /. lit 2) (x.add (((pushPosition 1 p).muls τ).divs (lit 2)))).1
    (g (t +. τ /. lit 2) (x.add (((pushPosition 1 p).muls τ).divs (lit 2)))).2).muls τ).divs (lit 2))) hr
    (hF (t +. τ /. lit 2) (x.add (((pushPosition 1
      (p.add (((lorentzForce 1 r p (g t x).1 (g t x).2).muls τ).divs (lit 2)))).muls τ).divs (lit 2)))).1
    (hF (t +. τ /. lit 2) (x.add (((pushPosition 1
      (p.add (((lorentzForce 1 r p (g t x).1 (g t x).2).muls τ).divs (lit 2)))).muls τ).divs (lit 2)))).2)
    hFτ (s := τ) τ0 le_rfl (add_eq p _ τ)
  obtain ⟨v4, f4⟩ := real_stage (s := s +. τ) (t := t +. τ) hr hF hg F0 G0 (low g4.1)
    (ht4 (by linarith)) x4 p4
  rw [hL] at v4 f4
  generalize hN4 : N + L * N3 * τ = N4 at x4 p4 v4 f4
  have fin : N + τ / 6 * (L * N + 2 * (L * N2) + 2 * (L * N3) + L * N4) ≤ Real.exp (L * τ) * N := by
    have := mul_le_mul_of_nonneg_right (le_exp4 (h := L * τ) (by positivity)) N0
    refine le_trans (le_of_eq ?_) this
    rw [← hN4, ← hN3, ← hN2]
    ring
  constructor
  · exact bounded_weaken (sub_mean τ0 hx v1 v2 v3 v4) fin
  · refine bounded_weaken (sub_mean τ0 hp f1 f2 f3 f4) ?_
    have := mul_le_mul_of_nonneg_left fin F0.le
    refine le_trans (le_of_eq ?_) this
    ring

theorem push_lepton {D : Type} [Dbl D] {push : PushMom D} {field : Field D} {dt : D} {p : Particle D}
    (ha : p.isAlive = true) (hm : (p.mass ==. (lit 0 : D)) = false) :
    let q := pushParticle push field dt p
    q.isAlive = true ∧ q.mass = p.mass ∧ q.charge = p.charge ∧ q.time = p.time +. dt ∧
      q.position = (rk4 push field dt p.mass p.charge p.time p.position p.momentum).1 ∧
      q.momentum = (rk4 push field dt p.mass p.charge p.time p.position p.momentum).2 := by
  unfold pushParticle
  rw [if_neg (by simp [ha]), if_neg (by simp [hm])]
  simp only [Particle.updateTrack, Particle.updateTime]
  split_ifs <;> exact ⟨ha, rfl, rfl, rfl, rfl, rfl⟩

theorem value {v : V3 F64} {w : V3 ℝ} {e : ℝ} (h : v.Close w e) : ∃ y, v.Close y 0 ∧ Bounded (y.sub w) e := by
  obtain ⟨⟨a, ha, ka⟩, ⟨b, hb, kb⟩, c, hc, kc⟩ := h
  exact ⟨⟨a, b, c⟩, ⟨of_val ha, of_val hb, of_val hc⟩, ka, kb, kc⟩

theorem close_move {v : V3 F64} {y z : V3 ℝ} {e f : ℝ} (h : v.Close y e) (k : Bounded (y.sub z) f) :
    v.Close z (e + f) :=
  ⟨h.1.move k.1, h.2.1.move k.2.1, h.2.2.move k.2.2⟩

/-- The position changes by no more than the time. -/
theorem real_move {g : Field ℝ} {τ r t : ℝ} {x p : V3 ℝ} {M : ℝ} (τ0 : 0 ≤ τ) (hx : Bounded x M) :
    Bounded (rk4 lorentzForce g τ 1 r t x p).1 (M + τ) := by
  have key : ∀ {a b c d e : ℝ}, |a| ≤ M → |b| ≤ 1 → |c| ≤ 1 → |d| ≤ 1 → |e| ≤ 1 →
      |a + τ / lit 6 * (b + lit 2 * c + lit 2 * d + e)| ≤ M + τ := by
    intro a b c d e ha hb hc hd he
    have two : (lit 2 : ℝ) = 2 := by simp
    have six : (lit 6 : ℝ) = 6 := by simp
    rw [two, six]
    have h1 : |b + 2 * c + 2 * d + e| ≤ 6 := by
      rw [abs_le] at *
      constructor <;> linarith [hb.1, hb.2, hc.1, hc.2, hd.1, hd.2, he.1, he.2]
    have h2 := abs_add_le a (τ / 6 * (b + 2 * c + 2 * d + e))
    rw [abs_mul, abs_of_nonneg (by positivity : 0 ≤ τ / 6)] at h2
    have h3 := mul_le_mul_of_nonneg_left h1 (by positivity : 0 ≤ τ / 6)
    linarith
  have v : ∀ q, Bounded (pushPosition (1 : ℝ) q) 1 := velocity_bounded
  exact ⟨key hx.1 (v _).1 (v _).1 (v _).1 (v _).1, key hx.2.1 (v _).2.1 (v _).2.1 (v _).2.1 (v _).2.1,
    key hx.2.2 (v _).2.2 (v _).2.2 (v _).2.2 (v _).2.2⟩

/-- The change of the momentum in a step. -/
theorem real_kick {g : Field ℝ} {τ r t F : ℝ} {x p : V3 ℝ} (τ0 : 0 ≤ τ) (hr : |r| ≤ 1)
    (hF : ∀ s y, Bounded (g s y).1 F ∧ Bounded (g s y).2 F) :
    Bounded ((rk4 lorentzForce g τ 1 r t x p).2.sub p) (3 * (F * τ)) := by
  have key : ∀ {a b c d e : ℝ}, |b| ≤ 3 * F → |c| ≤ 3 * F → |d| ≤ 3 * F → |e| ≤ 3 * F →
      |a + τ / lit 6 * (b + lit 2 * c + lit 2 * d + e) - a| ≤ 3 * (F * τ) := by
    intro a b c d e hb hc hd he
    have two : (lit 2 : ℝ) = 2 := by simp
    have six : (lit 6 : ℝ) = 6 := by simp
    rw [two, six, add_sub_cancel_left, abs_mul, abs_of_nonneg (by positivity : 0 ≤ τ / 6)]
    have h1 : |b + 2 * c + 2 * d + e| ≤ 18 * F := by
      rw [abs_le] at *
      constructor <;> linarith [hb.1, hb.2, hc.1, hc.2, hd.1, hd.2, he.1, he.2]
    have h3 := mul_le_mul_of_nonneg_left h1 (by positivity : 0 ≤ τ / 6)
    linarith
  have v : ∀ q s y, Bounded (lorentzForce (1 : ℝ) r q (g s y).1 (g s y).2) (3 * F) :=
    fun q s y => force_bounded q hr (hF s y).1 (hF s y).2
  exact ⟨key (v _ _ _).1 (v _ _ _).1 (v _ _ _).1 (v _ _ _).1,
    key (v _ _ _).2.1 (v _ _ _).2.1 (v _ _ _).2.1 (v _ _ _).2.1,
    key (v _ _ _).2.2 (v _ _ _).2.2 (v _ _ _).2.2 (v _ _ _).2.2⟩

theorem Follows_weaken {g' : Field F64} {g : Field ℝ} {X Y δ η κ : ℝ} (h : g'.Follows g X δ κ) (hX : Y ≤ X)
    (hδ : η ≤ δ) : g'.Follows g Y η κ :=
  fun t' x' t x ht hx kt kx => h t' x' t x (ht.trans hX) (bounded_weaken hx hX) (kt.weaken hδ) (close_weaken kx hδ)

/-- One step of both. -/
theorem beside_step {g' : Field F64} {g : Field ℝ} {dt : F64} {p' : Particle F64} {p : Particle ℝ}
    {τ X F Λ κ G Γ N : ℝ} (hb : p'.Beside p N (F * N)) (hd : dt.1 = .fin τ)
    (hX : Bounded p.position (X - τ)) (hT : |p.time| + τ ≤ X) (hN : 100 * N ≤ X) (hFN : 100 * (F * N) ≤ G)
    (hF : ∀ s y, Bounded (g s y).1 F ∧ Bounded (g s y).2 F) (hs : g.Slowly Λ) (hΛ : 0 ≤ Λ)
    (hg : g'.Follows g (2 * X) (2 / 9007199254740992 * X + 40 * (1 / 9007199254740992 + τ * κ / G) * τ) κ)
    (κ0 : 0 ≤ κ) (hκ : 100000 * κ ≤ F) (hFτ : 16 * (F * τ) ≤ 1) (G0 : 0 < G) (hG : G ≤ gam p.momentum)
    (hΓ : gam p.momentum ≤ Γ)
    (mF : (1 / 2) ^ 190 ≤ F ∧ F ≤ 2 ^ 190) (mτ : (1 / 2) ^ 190 ≤ τ ∧ τ ≤ 2 ^ 190) (mγ : Γ ≤ 2 ^ 189)
    (mX : X ≤ 2 ^ 189) {ε : ℝ} (hε : ε = 10 * (1 / 9007199254740992 * Γ + τ * κ) / F + 2 / 9007199254740992 * X
      + 40 * (1 / 9007199254740992 + τ * κ / G) * τ) :
    (pushParticle lorentzForce g' dt p').Beside (pushParticle lorentzForce g τ p)
      (Real.exp ((3 * Λ / F + 10 * F / G) * τ) * N + ε) (F * (Real.exp ((3 * Λ / F + 10 * F / G) * τ) * N + ε)) := by
  have τ0 : 0 < τ := lt_of_lt_of_le (by positivity) mτ.1
  have F0 : 0 < F := lt_of_lt_of_le (by positivity) mF.1
  have twice : ∀ {a : ℝ}, a ≤ 2 ^ 189 → 102 / 100 * a ≤ 2 ^ 190 := by
    intro a h
    have e : (2 : ℝ) ^ 190 = 2 * 2 ^ 189 := by rw [← pow_succ']
    rw [e]
    have : (0 : ℝ) < 2 ^ 189 := by positivity
    generalize (2 : ℝ) ^ 189 = b at *
    linarith
  have mγ' := twice mγ
  have mX' := twice mX
  have okX : ∀ {a : ℝ}, (1 / 2) ^ 190 ≤ a → a ≤ 2 ^ 190 → Ok a := fun l h =>
    ⟨(pow_le_pow_of_le_one (by norm_num) (by norm_num) (by norm_num)).trans l,
      h.trans (pow_le_pow_right₀ (by norm_num) (by norm_num))⟩
  have ok : Ok (102 / 100 * X) := okX (mτ.1.trans (by
    have : τ ≤ X := by linarith [abs_nonneg p.time]
    linarith)) mX'
  clear mγ mX twice okX
  obtain ⟨alive, mass, charge, time, place, momentum⟩ := hb
  have N0 := time.nonneg
  obtain ⟨y, hy, dy⟩ := value place
  obtain ⟨q, hq, dq⟩ := value momentum
  obtain ⟨s, hs', ds⟩ := time
  obtain ⟨r, hc, hc', hr⟩ : ∃ r, p'.charge.1 = .fin r ∧ p.charge = r ∧ |r| ≤ 1 := by
    rcases charge with ⟨a, b⟩ | ⟨a, b⟩
    · exact ⟨1, by rw [a]; exact one_val, b, by norm_num⟩
    · exact ⟨-1, by rw [a]; exact Flight.minus_val, b, by norm_num⟩
  have hgam := abs_le.mp (gam_close dq.1 dq.2.1 dq.2.2)
  have gq := gam_pos q
  have gp := gam_pos p.momentum
  have low : 98 / 100 * G ≤ gam q := by linarith
  have high : gam q ≤ 102 / 100 * Γ := by linarith
  have far : ∀ {a b : ℝ}, |b| ≤ X - τ → |a - b| ≤ N → |a| ≤ 102 / 100 * X - τ := by
    intro a b h k
    have := abs_add_le (a - b) b
    rw [sub_add_cancel] at this
    linarith
  have hX0 : 0 < X := by linarith [abs_nonneg p.time]
  have hY : Bounded y (102 / 100 * X - τ) := ⟨far hX.1 dy.1, far hX.2.1 dy.2.1, far hX.2.2 dy.2.2⟩
  have hS : |s| + τ ≤ 102 / 100 * X := by
    have := far (by linarith : |p.time| ≤ X - τ) ds
    linarith
  have κγ : τ * κ / gam q ≤ 100 / 98 * (τ * κ / G) := by
    rw [div_le_iff₀ gq]
    have e : τ * κ = 100 / 98 * (τ * κ / G) * (98 / 100 * G) := by
      field_simp
    have : 0 ≤ 100 / 98 * (τ * κ / G) := by positivity
    calc τ * κ ≤ 100 / 98 * (τ * κ / G) * (98 / 100 * G) := le_of_eq e
      _ ≤ _ := mul_le_mul_of_nonneg_left low this
  have κG : 0 ≤ τ * κ / G := by positivity
  have tol : 11 / 10 / 9007199254740992 * (102 / 100 * X) + 34 * (1 / 9007199254740992 + τ * κ / gam q) * τ ≤
      2 / 9007199254740992 * X + 40 * (1 / 9007199254740992 + τ * κ / G) * τ := by
    have h1 : 34 * (1 / 9007199254740992 + τ * κ / gam q) * τ ≤ 40 * (1 / 9007199254740992 + τ * κ / G) * τ :=
      mul_le_mul_of_nonneg_right (by linarith) τ0.le
    linarith
  have st := step hy hq hs' hd hc hr hY hS hF (Follows_weaken hg (by linarith) tol) κ0 hκ hFτ mF mτ
    (high.trans mγ') mX'
  have rs := real_step (s := s) (t := p.time) hr hF hs hΛ F0 G0 hG τ0.le hFτ ds dy dq
  have z1 : (p'.mass ==. (lit 0 : F64)) = false := by
    rw [mass.1]
    show ((lit 1 : F64).1 ==. (lit 0 : F64).1) = false
    rw [zero_val, one_val]
    simp
  have z2 : (p.mass ==. (lit 0 : ℝ)) = false := by
    rw [mass.2]
    simp
  obtain ⟨A1, A2, A3, A4, A5, A6⟩ := push_lepton (push := lorentzForce) (field := g') (dt := dt) alive.1 z1
  obtain ⟨B1, B2, B3, B4, B5, B6⟩ := push_lepton (push := lorentzForce) (field := g) (dt := τ) alive.2 z2
  rw [mass.1] at A5 A6
  rw [mass.2, hc'] at B5 B6
  have Γ0 : 0 < Γ := by linarith
  have ε1 : 0 ≤ 10 * (1 / 9007199254740992 * Γ + τ * κ) / F := by positivity
  have ε2 : 0 ≤ 40 * (1 / 9007199254740992 + τ * κ / G) * τ := by positivity
  have ex : N ≤ Real.exp ((3 * Λ / F + 10 * F / G) * τ) * N :=
    le_mul_of_one_le_left N0 (Real.one_le_exp (by positivity))
  refine ⟨⟨A1, B1⟩, ⟨A2.trans mass.1, B2.trans mass.2⟩, ?_, ?_, ?_, ?_⟩
  · rw [A3, B3]
    exact charge
  · rw [A4, B4]
    have a := (of_val hs').add (of_val hd) (s := 102 / 100 * X) (by
      have := abs_add_le s τ
      rw [abs_of_pos τ0] at this
      linarith) (by linarith) ok
    have b := a.move (y := p.time + τ) (f := N) (by
      have e : s + τ - (p.time + τ) = s - p.time := by ring
      rw [e]
      exact ds)
    refine b.weaken ?_
    rw [hε]
    linarith
  · rw [A5, B5]
    refine close_weaken (close_move st.1 rs.1) ?_
    rw [hε]
    linarith
  · rw [A6, B6]
    refine close_weaken (close_move st.2 rs.2) ?_
    have e1 : F * ε = 10 * (1 / 9007199254740992 * Γ + τ * κ) + F * (2 / 9007199254740992 * X)
        + F * (40 * (1 / 9007199254740992 + τ * κ / G) * τ) := by
      rw [hε]
      field_simp
    have e2 : 0 ≤ F * (2 / 9007199254740992 * X) := by positivity
    have e3 : 0 ≤ F * (40 * (1 / 9007199254740992 + τ * κ / G) * τ) := by positivity
    have e4 : 0 ≤ τ * κ := by positivity
    rw [mul_add F, e1]
    linarith

/-- A run of both. -/
theorem run {g' : Field F64} {g : Field ℝ} {dt : F64} {p' : Particle F64} {p : Particle ℝ} {τ X F Λ κ G Γ : ℝ} {n : ℕ}
    (hb : p'.Beside p 0 0) (hd : dt.1 = .fin τ)
    (hX : Bounded p.position (X - (n + 1) * τ)) (hT : |p.time| + (n + 1) * τ ≤ X)
    (hF : ∀ s y, Bounded (g s y).1 F ∧ Bounded (g s y).2 F) (hs : g.Slowly Λ) (hΛ : 0 ≤ Λ)
    (hg : g'.Follows g (2 * X) (2 / 9007199254740992 * X + 40 * (1 / 9007199254740992 + τ * κ / G) * τ) κ)
    (κ0 : 0 ≤ κ) (hκ : 100000 * κ ≤ F) (hFτ : 16 * (F * τ) ≤ 1) (G0 : 0 < G)
    (hγ : ∀ k ≤ n, G ≤ gam ((pushParticle lorentzForce g τ)^[k] p).momentum ∧
      gam ((pushParticle lorentzForce g τ)^[k] p).momentum ≤ Γ)
    (mF : (1 / 2) ^ 190 ≤ F ∧ F ≤ 2 ^ 190) (mτ : (1 / 2) ^ 190 ≤ τ ∧ τ ≤ 2 ^ 190) (mγ : Γ ≤ 2 ^ 189)
    (mX : X ≤ 2 ^ 189) {ε L : ℝ} (hε : ε = 10 * (1 / 9007199254740992 * Γ + τ * κ) / F + 2 / 9007199254740992 * X
      + 40 * (1 / 9007199254740992 + τ * κ / G) * τ) (hL : L = 3 * Λ / F + 10 * F / G)
    (small : 100 * (n * Real.exp (n * (L * τ)) * ε) ≤ X) (small' : 100 * (F * (n * Real.exp (n * (L * τ)) * ε)) ≤ G) :
    ∀ k ≤ n, ((pushParticle lorentzForce g' dt)^[k] p').Beside ((pushParticle lorentzForce g τ)^[k] p)
      (k * Real.exp (k * (L * τ)) * ε) (F * (k * Real.exp (k * (L * τ)) * ε)) := by
  have τ0 : 0 < τ := lt_of_lt_of_le (by positivity) mτ.1
  have F0 : 0 < F := lt_of_lt_of_le (by positivity) mF.1
  have Γ0 : 0 < Γ := by have := hγ 0 (Nat.zero_le _); linarith
  have X0 : 0 < X := by
    have : 0 < ((n : ℝ) + 1) * τ := by positivity
    linarith [abs_nonneg p.time]
  have L0 : 0 ≤ L := by rw [hL]; positivity
  have ε0 : 0 ≤ ε := by rw [hε]; positivity
  have real : ∀ k, ((pushParticle lorentzForce g τ)^[k] p).isAlive = true ∧
      ((pushParticle lorentzForce g τ)^[k] p).mass = 1 ∧ ((pushParticle lorentzForce g τ)^[k] p).charge = p.charge ∧
      ((pushParticle lorentzForce g τ)^[k] p).time = p.time + k * τ ∧
      Bounded ((pushParticle lorentzForce g τ)^[k] p).position (X - (n + 1) * τ + k * τ) := by
    intro k
    induction k with
    | zero =>
      refine ⟨hb.alive.2, hb.mass.2, rfl, by simp, ?_⟩
      simpa using hX
    | succ k ih =>
      obtain ⟨a, b, c, d, e⟩ := ih
      rw [Function.iterate_succ_apply']
      obtain ⟨a', b', c', d', e', -⟩ := push_lepton (push := lorentzForce) (field := g) (dt := τ) a (by rw [b]; simp)
      refine ⟨a', b'.trans b, c'.trans c, ?_, ?_⟩
      · rw [d', d]
        show p.time + k * τ + τ = _
        push_cast
        ring
      · rw [e', b]
        refine bounded_weaken (real_move τ0.le e) (le_of_eq ?_)
        push_cast
        ring
  intro k hk
  induction k with
  | zero => simpa using hb
  | succ k ih =>
    have ih := ih (by omega)
    have hkn : (k : ℝ) + 1 ≤ n := by exact_mod_cast hk
    obtain ⟨-, -, -, d, e⟩ := real k
    have kτ : (k + 1) * τ ≤ n * τ := mul_le_mul_of_nonneg_right hkn τ0.le
    have Lτ : 0 ≤ L * τ := by positivity
    have grow : k * Real.exp (k * (L * τ)) * ε ≤ n * Real.exp (n * (L * τ)) * ε := by
      have h1 : Real.exp (k * (L * τ)) ≤ Real.exp (n * (L * τ)) :=
        Real.exp_le_exp.mpr (mul_le_mul_of_nonneg_right (by linarith) Lτ)
      exact mul_le_mul_of_nonneg_right (mul_le_mul (by linarith) h1 (Real.exp_pos _).le (by positivity)) ε0
    have grow' := mul_le_mul_of_nonneg_left grow F0.le
    have stp := beside_step ih hd (X := X) (bounded_weaken e (by linarith)) (by
      rw [d]
      have := abs_add_le p.time (k * τ)
      rw [abs_of_nonneg (by positivity : 0 ≤ k * τ)] at this
      linarith) (by linarith) (by linarith) hF hs hΛ hg κ0 hκ hFτ G0 (hγ k (by omega)).1 (hγ k (by omega)).2 mF mτ mγ mX hε
    rw [← hL] at stp
    rw [Function.iterate_succ_apply', Function.iterate_succ_apply']
    have fin : Real.exp (L * τ) * (k * Real.exp (k * (L * τ)) * ε) + ε ≤
        ((k + 1 : ℕ) : ℝ) * Real.exp (((k + 1 : ℕ) : ℝ) * (L * τ)) * ε := by
      push_cast
      have e1 : (k + 1) * (L * τ) = L * τ + k * (L * τ) := by ring
      rw [e1, Real.exp_add]
      have h1 : 1 ≤ Real.exp (L * τ) * Real.exp (k * (L * τ)) := by
        rw [← Real.exp_add]
        exact Real.one_le_exp (by positivity)
      have h2 := mul_le_mul_of_nonneg_right h1 ε0
      linarith
    exact ⟨stp.alive, stp.mass, stp.charge, stp.time.weaken fin, close_weaken stp.place fin,
      close_weaken stp.momentum (mul_le_mul_of_nonneg_left fin F0.le)⟩

end Near

end QED
