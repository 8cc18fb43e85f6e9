import Verif.Lemmas.NearForce

set_option autoImplicit false
set_option exponentiation.threshold 2000

/-!
# The rounding error of a step
-/

namespace QED

open Dbl F64

namespace Near

theorem exact {a : F64} {x : ℝ} (h : Near a x 0) : a.1 = .fin x := by
  obtain ⟨v, hv, h⟩ := h
  have : v = x := by
    have := abs_nonpos_iff.mp h
    linarith
  rw [hv, this]

theorem close_weaken {v : V3 F64} {w : V3 ℝ} {e f : ℝ} (h : v.Close w e) (hf : e ≤ f) : v.Close w f :=
  ⟨h.1.weaken hf, h.2.1.weaken hf, h.2.2.weaken hf⟩

theorem close_half {b k : V3 F64} {dt : F64} {y r : V3 ℝ} {ε R τ S : ℝ} (hb : b.Close y 0) (hk : k.Close r ε)
    (hr : Bounded r R) (hε : 2000 * ε ≤ R) (ht : dt.1 = .fin τ) (mR : Mid R) (mτ : Mid τ)
    (hS : Bounded y (S - R * τ)) (ok : Ok S) :
    (b.add ((k.muls dt).divs (lit 2))).Close (y.add ((r.muls τ).divs (lit 2)))
      (ε * τ / 2 + 11 / 10 / 9007199254740992 * (R * τ) + 11 / 10 / 9007199254740992 * S) := by
  have R0 := mR.pos
  have e0 := hk.1.nonneg
  have two : (lit 2 : ℝ) = 2 := by simp
  obtain ⟨s1, s2, s3⟩ := hS
  refine ⟨?_, ?_, ?_⟩
  · have := half hb.1.exact hk.1 hr.1 (by linarith) ht mR mτ (by linarith : |y.x| + R * τ ≤ S) ok
    show Near _ (y.x + r.x * τ / lit 2) _
    rw [two]
    exact this
  · have := half hb.2.1.exact hk.2.1 hr.2.1 (by linarith) ht mR mτ (by linarith : |y.y| + R * τ ≤ S) ok
    show Near _ (y.y + r.y * τ / lit 2) _
    rw [two]
    exact this
  · have := half hb.2.2.exact hk.2.2 hr.2.2 (by linarith) ht mR mτ (by linarith : |y.z| + R * τ ≤ S) ok
    show Near _ (y.z + r.z * τ / lit 2) _
    rw [two]
    exact this

theorem close_full {b k : V3 F64} {dt : F64} {y r : V3 ℝ} {ε R τ S : ℝ} (hb : b.Close y 0) (hk : k.Close r ε)
    (hr : Bounded r R) (hε : 2000 * ε ≤ R) (ht : dt.1 = .fin τ) (mR : Mid R) (mτ : Mid τ)
    (hS : Bounded y (S - R * τ)) (ok : Ok S) :
    (b.add (k.muls dt)).Close (y.add (r.muls τ))
      (ε * τ + 11 / 10 / 9007199254740992 * (R * τ) + 11 / 10 / 9007199254740992 * S) := by
  have R0 := mR.pos
  have e0 := hk.1.nonneg
  obtain ⟨s1, s2, s3⟩ := hS
  exact ⟨full hb.1.exact hk.1 hr.1 (by linarith) ht mR mτ (by linarith : |y.x| + R * τ ≤ S) ok,
    full hb.2.1.exact hk.2.1 hr.2.1 (by linarith) ht mR mτ (by linarith : |y.y| + R * τ ≤ S) ok,
    full hb.2.2.exact hk.2.2 hr.2.2 (by linarith) ht mR mτ (by linarith : |y.z| + R * τ ≤ S) ok⟩

theorem close_mean {b k₁ k₂ k₃ k₄ : V3 F64} {dt : F64} {y r₁ r₂ r₃ r₄ : V3 ℝ} {ε₁ ε₂ ε₃ ε₄ R τ S : ℝ}
    (hb : b.Close y 0) (h₁ : k₁.Close r₁ ε₁) (h₂ : k₂.Close r₂ ε₂) (h₃ : k₃.Close r₃ ε₃) (h₄ : k₄.Close r₄ ε₄)
    (b₁ : Bounded r₁ R) (b₂ : Bounded r₂ R) (b₃ : Bounded r₃ R) (b₄ : Bounded r₄ R)
    (e₁ : 2000 * ε₁ ≤ R) (e₂ : 2000 * ε₂ ≤ R) (e₃ : 2000 * ε₃ ≤ R) (e₄ : 2000 * ε₄ ≤ R)
    (ht : dt.1 = .fin τ) (mR : Mid R) (mτ : Mid τ) (hS : Bounded y (S - R * τ)) (ok : Ok S) :
    (b.add ((((k₁.add (k₂.smul (lit 2))).add (k₃.smul (lit 2))).add k₄).smul (dt /. lit 6))).Close
      (y.add ((((r₁.add (r₂.smul (lit 2))).add (r₃.smul (lit 2))).add r₄).smul (τ /. lit 6)))
      ((ε₁ + 2 * ε₂ + 2 * ε₃ + ε₄) * τ / 6 + 56 / 10 / 9007199254740992 * (R * τ)
        + 11 / 10 / 9007199254740992 * S) := by
  have two : (lit 2 : ℝ) = 2 := by simp
  have six : (lit 6 : ℝ) = 6 := by simp
  obtain ⟨s1, s2, s3⟩ := hS
  refine ⟨?_, ?_, ?_⟩
  · have := mean hb.1.exact h₁.1 h₂.1 h₃.1 h₄.1 b₁.1 b₂.1 b₃.1 b₄.1 e₁ e₂ e₃ e₄ ht mR mτ
      (by linarith : |y.x| + R * τ ≤ S) ok
    show Near _ (y.x + τ / lit 6 * (r₁.x + lit 2 * r₂.x + lit 2 * r₃.x + r₄.x)) _
    rw [two, six]
    exact this
  · have := mean hb.2.1.exact h₁.2.1 h₂.2.1 h₃.2.1 h₄.2.1 b₁.2.1 b₂.2.1 b₃.2.1 b₄.2.1 e₁ e₂ e₃ e₄ ht mR mτ
      (by linarith : |y.y| + R * τ ≤ S) ok
    show Near _ (y.y + τ / lit 6 * (r₁.y + lit 2 * r₂.y + lit 2 * r₃.y + r₄.y)) _
    rw [two, six]
    exact this
  · have := mean hb.2.2.exact h₁.2.2 h₂.2.2 h₃.2.2 h₄.2.2 b₁.2.2 b₂.2.2 b₃.2.2 b₄.2.2 e₁ e₂ e₃ e₄ ht mR mτ
      (by linarith : |y.z| + R * τ ≤ S) ok
    show Near _ (y.z + τ / lit 6 * (r₁.z + lit 2 * r₂.z + lit 2 * r₃.z + r₄.z)) _
    rw [two, six]
    exact this

theorem velocity_bounded (p : V3 ℝ) : Bounded (pushPosition 1 p) 1 := by
  rw [pushPosition_real]
  have c := comp_le_gam p
  have g := gam_pos p
  refine ⟨?_, ?_, ?_⟩
  · show |p.x / gam p| ≤ 1
    rw [abs_div, abs_of_pos g]; exact (div_le_one g).mpr c.1
  · show |p.y / gam p| ≤ 1
    rw [abs_div, abs_of_pos g]; exact (div_le_one g).mpr c.2.1
  · show |p.z / gam p| ≤ 1
    rw [abs_div, abs_of_pos g]; exact (div_le_one g).mpr c.2.2

theorem force_bounded {r F : ℝ} {E B : V3 ℝ} (p : V3 ℝ) (hr : |r| ≤ 1) (bE : Bounded E F) (bB : Bounded B F) :
    Bounded (lorentzForce 1 r p E B) (3 * F) := by
  have v := velocity_bounded p
  rw [pushPosition_real] at v
  obtain ⟨v1, v2, v3⟩ := v
  have F0 : 0 ≤ F := (abs_nonneg _).trans bE.1
  have key : ∀ {x a b c d : ℝ}, |x| ≤ F → |a| ≤ 1 → |b| ≤ F → |c| ≤ 1 → |d| ≤ F →
      |r * (x + (a * b - c * d))| ≤ 3 * F := by
    intro x a b c d hx ha hb hc hd
    have h1 : |a * b| ≤ 1 * F := by rw [abs_mul]; exact mul_le_mul ha hb (abs_nonneg _) zero_le_one
    have h2 : |c * d| ≤ 1 * F := by rw [abs_mul]; exact mul_le_mul hc hd (abs_nonneg _) zero_le_one
    have h3 := abs_add_le x (a * b - c * d)
    have h4 := abs_sub (a * b) (c * d)
    rw [abs_mul]
    calc |r| * |x + (a * b - c * d)| ≤ 1 * |x + (a * b - c * d)| := mul_le_mul_of_nonneg_right hr (abs_nonneg _)
      _ ≤ 3 * F := by linarith
  rw [force_real]
  exact ⟨key bE.1 v2 bB.2.2 v3 bB.2.1, key bE.2.1 v3 bB.1 v1 bB.2.2, key bE.2.2 v1 bB.2.1 v2 bB.1⟩

/-- The Lorentz factors of the stages. -/
theorem stage_gam {p f : V3 ℝ} {F τ s : ℝ} (hf : Bounded f (3 * F)) (h : 16 * (F * τ) ≤ 1) (hs : 0 ≤ s) (hs' : s ≤ τ)
    {q : V3 ℝ} (hq : q = ⟨p.x + f.x * s, p.y + f.y * s, p.z + f.z * s⟩) :
    5 / 8 * gam p ≤ gam q ∧ gam q ≤ 11 / 8 * gam p := by
  have F0 : 0 ≤ 3 * F := (abs_nonneg _).trans hf.1
  have key : ∀ {a b : ℝ}, |b| ≤ 3 * F → |a + b * s - a| ≤ 3 / 16 := by
    intro a b hb
    have e : a + b * s - a = b * s := by ring
    rw [e, abs_mul, abs_of_nonneg hs]
    have : |b| * s ≤ 3 * F * τ := mul_le_mul hb hs' hs F0
    linarith
  have := gam_close (p := p) (q := q) (e := 3 / 16) (by rw [hq]; exact key hf.1) (by rw [hq]; exact key hf.2.1)
    (by rw [hq]; exact key hf.2.2)
  have g := one_le_gam p
  rw [abs_le] at this
  constructor <;> linarith

theorem over {e w γ g k : ℝ} (hγ : 0 < γ) (hg : 5 / 8 * γ ≤ g) (hw : 0 ≤ w) (hk : 0 ≤ k) (he : e ≤ k * w) :
    e / g ≤ 8 / 5 * k * (w / γ) := by
  have g0 : 0 < g := lt_of_lt_of_le (by positivity) hg
  rw [div_le_iff₀ g0]
  have h1 : k * w ≤ 8 / 5 * k * (w / γ) * (5 / 8 * γ) := by
    apply le_of_eq
    field_simp
  have h2 : 8 / 5 * k * (w / γ) * (5 / 8 * γ) ≤ 8 / 5 * k * (w / γ) * g :=
    mul_le_mul_of_nonneg_left hg (by positivity)
  linarith

theorem half_eq (p f : V3 ℝ) (τ : ℝ) :
    p.add ((f.muls τ).divs (lit 2)) = ⟨p.x + f.x * (τ / 2), p.y + f.y * (τ / 2), p.z + f.z * (τ / 2)⟩ := by
  have two : (lit 2 : ℝ) = 2 := by simp
  show (⟨p.x + f.x * τ / lit 2, p.y + f.y * τ / lit 2, p.z + f.z * τ / lit 2⟩ : V3 ℝ) = _
  rw [two, mul_div_assoc, mul_div_assoc, mul_div_assoc]

theorem add_eq (p f : V3 ℝ) (τ : ℝ) : p.add (f.muls τ) = ⟨p.x + f.x * τ, p.y + f.y * τ, p.z + f.z * τ⟩ := rfl

theorem within_full {x v : V3 ℝ} {X τ : ℝ} (hX : Bounded x (X - τ)) (hv : Bounded v 1) (τ0 : 0 < τ) :
    Bounded (x.add (v.muls τ)) X := by
  have key : ∀ {a b : ℝ}, |a| ≤ X - τ → |b| ≤ 1 → |a + b * τ| ≤ X := by
    intro a b ha hb
    have h1 := abs_add_le a (b * τ)
    rw [abs_mul, abs_of_pos τ0] at h1
    have h2 := mul_le_mul_of_nonneg_right hb τ0.le
    linarith
  exact ⟨key hX.1 hv.1, key hX.2.1 hv.2.1, key hX.2.2 hv.2.2⟩

theorem within_half {x v : V3 ℝ} {X τ : ℝ} (hX : Bounded x (X - τ)) (hv : Bounded v 1) (τ0 : 0 < τ) :
    Bounded (x.add ((v.muls τ).divs (lit 2))) X := by
  rw [half_eq]
  exact within_full (X := X) (τ := τ / 2) (x := x) (v := v)
    ⟨by linarith [hX.1], by linarith [hX.2.1], by linarith [hX.2.2]⟩ hv (by linarith)

/-- The errors of velocity and force at a stage. -/
theorem stage {c : F64} {r F κ e τ w ω k γ : ℝ} {p E' B' : V3 F64} {q E B : V3 ℝ} (hc : c.1 = .fin r) (hr : |r| ≤ 1)
    (h : p.Close q e) (hγ : 1 ≤ γ) (hq : 5 / 8 * γ ≤ gam q ∧ gam q ≤ 11 / 8 * γ)
    (mg : Mid (gam q) ∧ Mid (2 * gam q) ∧ Mid (gam q / 2)) (hE : E'.Close E κ) (hB : B'.Close B κ)
    (bE : Bounded E F) (bB : Bounded B F) (hκ : 100000 * κ ≤ F) (mF : Mid (101 / 100 * F)) (τ0 : 0 < τ)
    (hFτ : 16 * (F * τ) ≤ 1) (hw : 1 / 9007199254740992 * γ + τ * κ = w) (w0 : 0 < w) (hω : ω = w / γ)
    (uω : 1 / 9007199254740992 ≤ ω) (ω1 : ω ≤ 7 / 10000000) (k0 : 0 ≤ k) (k9 : k ≤ 9) (he : e ≤ k * w) :
    ∃ φ ν, (lorentzForce (lit 1) c p E' B').Close (lorentzForce 1 r q E B) φ ∧
      (pushPosition (lit 1) p).Close (pushPosition 1 q) ν ∧ φ * τ ≤ (3 + 3 / 5 * k) * w ∧ 2000 * φ ≤ 3 * F ∧
      ν ≤ (66 / 10 + 48 / 10 * k) * ω ∧ 2000 * ν ≤ 1 := by
  have γ0 : 0 < γ := by linarith
  have g0 := gam_pos q
  have F0 : 0 ≤ F := (abs_nonneg _).trans bE.1
  have Fτ0 : 0 ≤ F * τ := mul_nonneg F0 τ0.le
  have ω0 : 0 ≤ ω := by linarith
  have q1 : e / gam q ≤ 8 / 5 * k * ω := by
    rw [hω]
    exact over γ0 hq.1 w0.le k0 he
  have kω : k * ω ≤ 9 * ω := mul_le_mul_of_nonneg_right k9 ω0
  have he' : 1000 * e ≤ gam q := by
    have : e ≤ 8 / 5 * k * ω * gam q := (div_le_iff₀ g0).mp q1
    have : 8 / 5 * k * ω * gam q ≤ 1 / 1000 * gam q := mul_le_mul_of_nonneg_right (by linarith) g0.le
    linarith
  have ωw : ω ≤ w := by
    rw [hω]
    exact div_le_self w0.le hγ
  refine ⟨_, _, force hc hr h mg.1 he' hE hB bE bB (by have := hE.1.nonneg; linarith) mF mg.2.1 mg.2.2,
    velocity h mg.1 he', ?_, ?_, ?_, ?_⟩
  · have e1 : 6 * F * e / gam q * τ = 6 * (F * τ) * (e / gam q) := by ring
    have e2 : 6 * (F * τ) * (e / gam q) ≤ 6 * (F * τ) * (8 / 5 * k * ω) :=
      mul_le_mul_of_nonneg_left q1 (by linarith)
    have kω0 : 0 ≤ k * ω := mul_nonneg k0 ω0
    have e3 : 6 * (F * τ) * (8 / 5 * k * ω) ≤ 6 / 16 * (8 / 5 * k * ω) :=
      mul_le_mul_of_nonneg_right (by linarith) (by linarith)
    have e4 : k * ω ≤ k * w := mul_le_mul_of_nonneg_left ωw k0
    rw [add_mul, add_mul, e1]
    have e5 : 25 / 9007199254740992 * F * τ = 25 / 9007199254740992 * (F * τ) := by ring
    rw [e5]
    linarith
  · have e1 : 6 * F * e / gam q = 6 * F * (e / gam q) := by ring
    have e2 : 6 * F * (e / gam q) ≤ 6 * F * (8 / 5 * k * ω) := mul_le_mul_of_nonneg_left q1 (by linarith)
    have e3 : 6 * F * (8 / 5 * k * ω) ≤ 6 * F * (1 / 50000) := mul_le_mul_of_nonneg_left (by linarith) (by linarith)
    rw [e1]
    linarith
  · have e1 : 3 * e / gam q = 3 * (e / gam q) := by ring
    rw [e1]
    linarith
  · have e1 : 3 * e / gam q = 3 * (e / gam q) := by ring
    rw [e1]
    linarith

/-- The errors of one step. -/
theorem step {g' : Field F64} {g : Field ℝ} {dt c t' : F64} {x' p' : V3 F64} {τ r t X F κ : ℝ} {x p : V3 ℝ}
    (hx : x'.Close x 0) (hp : p'.Close p 0) (ht : t'.1 = .fin t) (hd : dt.1 = .fin τ) (hc : c.1 = .fin r) (hr : |r| ≤ 1)
    (hX : Bounded x (X - τ)) (hT : |t| + τ ≤ X)
    (hF : ∀ s y, Bounded (g s y).1 F ∧ Bounded (g s y).2 F)
    (hg : g'.Follows g X (11 / 10 / 9007199254740992 * X + 34 * (1 / 9007199254740992 + τ * κ / gam p) * τ) κ)
    (κ0 : 0 ≤ κ) (hκ : 100000 * κ ≤ F) (hFτ : 16 * (F * τ) ≤ 1)
    (mF : (1 / 2) ^ 190 ≤ F ∧ F ≤ 2 ^ 190) (mτ : (1 / 2) ^ 190 ≤ τ ∧ τ ≤ 2 ^ 190) (mγ : gam p ≤ 2 ^ 190)
    (mX : X ≤ 2 ^ 190) :
    (rk4 lorentzForce g' dt (lit 1) c t' x' p').1.Close (rk4 lorentzForce g τ 1 r t x p).1
      (11 / 10 / 9007199254740992 * X + 34 * (1 / 9007199254740992 + τ * κ / gam p) * τ) ∧
    (rk4 lorentzForce g' dt (lit 1) c t' x' p').2.Close (rk4 lorentzForce g τ 1 r t x p).2
      (9 * (1 / 9007199254740992 * gam p + τ * κ)) := by
  -- sizes
  have up : ∀ {s k : ℝ}, (1 / 2) ^ 190 ≤ s ∧ s ≤ 2 ^ 190 → 1 / 1024 ≤ k → k ≤ 1024 → Mid (k * s) := by
    intro s k h lo hi
    have hs : 0 < s := lt_of_lt_of_le (by positivity) h.1
    constructor
    · calc ((1 : ℝ) / 2) ^ 200 = (1 / 2) ^ 10 * (1 / 2) ^ 190 := by rw [← pow_add]
        _ = 1 / 1024 * (1 / 2) ^ 190 := by norm_num
        _ ≤ k * s := mul_le_mul lo h.1 (by positivity) (by linarith)
    · calc k * s ≤ 1024 * 2 ^ 190 := mul_le_mul hi h.2 hs.le (by norm_num)
        _ = 2 ^ 10 * 2 ^ 190 := by norm_num
        _ = 2 ^ 200 := by rw [← pow_add]
  have MF : Mid (3 * F) := up mF (by norm_num) (by norm_num)
  have MF' : Mid (101 / 100 * F) := up mF (by norm_num) (by norm_num)
  have Mτ : Mid τ := by
    have := up mτ (k := 1) (by norm_num) (by norm_num)
    rwa [one_mul] at this
  have γ1 := one_le_gam p
  have γ0 := gam_pos p
  have mγ' : (1 / 2) ^ 190 ≤ gam p ∧ gam p ≤ 2 ^ 190 := ⟨(pow_le_one₀ (by norm_num) (by norm_num)).trans γ1, mγ⟩
  have Mg : ∀ {q : V3 ℝ}, 5 / 8 * gam p ≤ gam q ∧ gam q ≤ 11 / 8 * gam p →
      Mid (gam q) ∧ Mid (2 * gam q) ∧ Mid (gam q / 2) := by
    intro q h
    have lo := (up mγ' (k := 5 / 16) (by norm_num) (by norm_num)).1
    have hi := (up mγ' (k := 11 / 4) (by norm_num) (by norm_num)).2
    exact ⟨⟨lo.trans (by linarith), le_trans (by linarith) hi⟩, ⟨lo.trans (by linarith), le_trans (by linarith) hi⟩,
      ⟨lo.trans (by linarith), le_trans (by linarith) hi⟩⟩
  have OS : Ok (2 * gam p) := by
    have := (up mγ' (k := 2) (by norm_num) (by norm_num)).ok (c := 1) (by norm_num) (by norm_num)
    rwa [one_mul] at this
  have τ0 := Mτ.pos
  have F0 : 0 < F := lt_of_lt_of_le (by positivity) mF.1
  have Fτ0 : 0 < F * τ := mul_pos F0 τ0
  have hXτ : τ ≤ X := by linarith [abs_nonneg t]
  have mX' : (1 / 2) ^ 190 ≤ X ∧ X ≤ 2 ^ 190 := ⟨mτ.1.trans hXτ, mX⟩
  have OX : Ok X := by
    have := (up mX' (k := 1) (by norm_num) (by norm_num)).ok (c := 1) (by norm_num) (by norm_num)
    rwa [one_mul, one_mul] at this
  have M1 : Mid (1 : ℝ) := mid_num (by norm_num) (by norm_num)
  clear up mF mτ mγ mγ' mX mX'
  -- names
  have hκτ : 100000 * (κ * τ) ≤ F * τ := by
    have := mul_le_mul_of_nonneg_right hκ τ0.le
    linarith
  have κτ0 : 0 ≤ κ * τ := mul_nonneg κ0 τ0.le
  generalize hw : 1 / 9007199254740992 * gam p + τ * κ = w
  have w0 : 0 < w := by rw [← hw]; have : 0 ≤ τ * κ := mul_nonneg τ0.le κ0; linarith
  have wγ : w ≤ gam p * (7 / 10000000) := by rw [← hw]; linarith
  have hω : 1 / 9007199254740992 + τ * κ / gam p = w / gam p := by
    rw [← hw]
    field_simp
  rw [hω] at hg ⊢
  have uω : 1 / 9007199254740992 ≤ w / gam p := by
    rw [← hω]
    have : 0 ≤ τ * κ / gam p := by positivity
    linarith
  have ω1 : w / gam p ≤ 7 / 10000000 := by
    rw [div_le_iff₀ γ0]
    linarith
  clear hω
  generalize hω : w / gam p = ω at hg uω ω1 ⊢
  have hω' := hω.symm
  have ωτ : 1 / 9007199254740992 * τ ≤ ω * τ := mul_le_mul_of_nonneg_right uω τ0.le
  have uγw : 1 / 9007199254740992 * gam p ≤ w := by linarith
  have cp := comp_le_gam p
  have hS : Bounded p (2 * gam p - 3 * F * τ) := by
    obtain ⟨c1, c2, c3⟩ := cp
    exact ⟨by linarith, by linarith, by linarith⟩
  have hX' : Bounded x (X - 1 * τ) := by rwa [one_mul]
  have X0 : 0 < X := by linarith
  have two : (lit 2 : ℝ) = 2 := by simp
  generalize hδ : 11 / 10 / 9007199254740992 * X + 34 * ω * τ = δ at hg ⊢
  have δ0 : 0 ≤ δ := by rw [← hδ]; have : 0 ≤ ω * τ := mul_nonneg (by linarith) τ0.le; linarith
  -- times
  have t1 : Near t' t δ := (of_val ht).weaken δ0
  have t2 : Near (t' +. dt /. lit 2) (t +. τ /. lit 2) δ := by
    have d : Near (dt /. lit 2) (τ / 2) (0 / 2 + 11 / 10 / 9007199254740992 * τ) := by
      refine (of_val hd).div two_val (by norm_num) ?_ (by linarith) ?_
      · rw [abs_of_pos τ0]; linarith
      · have := Mτ.ok (c := 1) (by norm_num) (by norm_num)
        rwa [one_mul] at this
    have a := (of_val ht).add d (s := X) (by
      have := abs_add_le t (τ / 2)
      rw [abs_of_pos (by linarith : 0 < τ / 2)] at this
      linarith) (by linarith) OX
    show Near _ (t + τ / lit 2) _
    rw [two]
    refine a.weaken ?_
    rw [← hδ]
    linarith
  have t4 : Near (t' +. dt) (t +. τ) δ := by
    have a := (of_val ht).add (of_val hd) (s := X) (by
      have := abs_add_le t τ
      rw [abs_of_pos τ0] at this
      linarith) (by linarith) OX
    refine a.weaken ?_
    rw [← hδ]
    linarith
  have tX : |t| ≤ X := by linarith
  have xX : Bounded x X := ⟨by linarith [hX.1], by linarith [hX.2.1], by linarith [hX.2.2]⟩
  have tX2 : |t +. τ /. lit 2| ≤ X := by
    show |t + τ / lit 2| ≤ X
    rw [two]
    have := abs_add_le t (τ / 2)
    rw [abs_of_pos (by linarith : 0 < τ / 2)] at this
    linarith
  have tX4 : |t +. τ| ≤ X := by
    have := abs_add_le t τ
    rw [abs_of_pos τ0] at this
    exact this.trans hT
  -- stage 1
  have f1 := hg t' x' t x tX xX t1 (close_weaken hx δ0)
  have g1 : 5 / 8 * gam p ≤ gam p ∧ gam p ≤ 11 / 8 * gam p := ⟨by linarith, by linarith⟩
  obtain ⟨φ1, ν1, F1, V1, a1, b1, c1, d1⟩ := stage (k := 0) hc hr hp γ1 g1 (Mg g1) f1.1 f1.2 (hF t x).1 (hF t x).2 hκ
    MF' τ0 hFτ hw w0 hω' uω ω1 le_rfl (by norm_num) (by linarith)
  have B1 := force_bounded p hr (hF t x).1 (hF t x).2
  have W1 := velocity_bounded p
  -- stage 2
  have P2 := close_half hp F1 B1 b1 hd MF Mτ hS OS
  have Q2 := close_half hx V1 W1 d1 hd M1 Mτ hX' OX
  have f2 := hg _ _ _ _ tX2 (within_half hX W1 τ0) t2 (close_weaken Q2 (by rw [← hδ]; have := mul_le_mul_of_nonneg_right c1 τ0.le; linarith))
  have g2 := stage_gam B1 hFτ (s := τ / 2) (by linarith) (by linarith) (half_eq p _ τ)
  obtain ⟨φ2, ν2, F2, V2, a2, b2, c2, d2⟩ := stage (k := 4) hc hr P2 γ1 g2 (Mg g2) f2.1 f2.2 (hF _ _).1 (hF _ _).2
    hκ MF' τ0 hFτ hw w0 hω' uω ω1 (by norm_num) (by norm_num) (by linarith)
  have B2 := force_bounded (p.add (((lorentzForce 1 r p (g t x).1 (g t x).2).muls τ).divs (lit 2))) hr
    (hF (t +. τ /. lit 2) (x.add (((pushPosition 1 p).muls τ).divs (lit 2)))).1
    (hF (t +. τ /. lit 2) (x.add (((pushPosition 1 p).muls τ).divs (lit 2)))).2
  have W2 := velocity_bounded (p.add (((lorentzForce 1 r p (g t x).1 (g t x).2).muls τ).divs (lit 2)))
  -- stage 3
  have P3 := close_half hp F2 B2 b2 hd MF Mτ hS OS
  have Q3 := close_half hx V2 W2 d2 hd M1 Mτ hX' OX
  have f3 := hg _ _ _ _ tX2 (within_half hX W2 τ0) t2 (close_weaken Q3 (by rw [← hδ]; have := mul_le_mul_of_nonneg_right c2 τ0.le; linarith))
  have g3 := stage_gam B2 hFτ (s := τ / 2) (by linarith) (by linarith) (half_eq p _ τ)
  obtain ⟨φ3, ν3, F3, V3', a3, b3, c3, d3⟩ := stage (k := 52 / 10) hc hr P3 γ1 g3 (Mg g3) f3.1 f3.2 (hF _ _).1 (hF _ _).2
    hκ MF' τ0 hFτ hw w0 hω' uω ω1 (by norm_num) (by norm_num) (by linarith)
  generalize hf2 : lorentzForce 1 r (p.add (((lorentzForce 1 r p (g t x).1 (g t x).2).muls τ).divs (lit 2)))
    (g (t +. τ /. lit 2) (x.add (((pushPosition 1 p).muls τ).divs (lit 2)))).1
    (g (t +. τ /. lit 2) (x.add (((pushPosition 1 p).muls τ).divs (lit 2)))).2 = rf2 at F2 B2 P3 F3 V3' g3
  generalize hv2 : pushPosition 1 (p.add (((lorentzForce 1 r p (g t x).1 (g t x).2).muls τ).divs (lit 2))) = rv2
    at V2 W2 Q3 f3 F3
  have B3 := force_bounded (p.add ((rf2.muls τ).divs (lit 2))) hr
    (hF (t +. τ /. lit 2) (x.add ((rv2.muls τ).divs (lit 2)))).1
    (hF (t +. τ /. lit 2) (x.add ((rv2.muls τ).divs (lit 2)))).2
  have W3 := velocity_bounded (p.add ((rf2.muls τ).divs (lit 2)))
  -- stage 4
  have P4 := close_full hp F3 B3 b3 hd MF Mτ hS OS
  have Q4 := close_full hx V3' W3 d3 hd M1 Mτ hX' OX
  have f4 := hg _ _ _ _ tX4 (within_full hX W3 τ0) t4 (close_weaken Q4 (by rw [← hδ]; have := mul_le_mul_of_nonneg_right c3 τ0.le; linarith))
  have g4 := stage_gam B3 hFτ (s := τ) τ0.le le_rfl (add_eq p _ τ)
  obtain ⟨φ4, ν4, F4, V4, a4, b4, c4, d4⟩ := stage (k := 86 / 10) hc hr P4 γ1 g4 (Mg g4) f4.1 f4.2 (hF _ _).1 (hF _ _).2
    hκ MF' τ0 hFτ hw w0 hω' uω ω1 (by norm_num) (by norm_num) (by linarith)
  have mom := close_mean hp F1 F2 F3 F4 B1 B2 B3 (force_bounded _ hr (hF _ _).1 (hF _ _).2) b1 b2 b3 b4 hd MF Mτ hS OS
  have pos := close_mean hx V1 V2 V3' V4 W1 W2 W3 (velocity_bounded _) d1 d2 d3 d4 hd M1 Mτ hX' OX
  subst hf2 hv2
  constructor
  · refine close_weaken pos ?_
    have e1 := mul_le_mul_of_nonneg_right c1 τ0.le
    have e2 := mul_le_mul_of_nonneg_right c2 τ0.le
    have e3 := mul_le_mul_of_nonneg_right c3 τ0.le
    have e4 := mul_le_mul_of_nonneg_right c4 τ0.le
    rw [← hδ]
    linarith
  · refine close_weaken mom ?_
    linarith

end Near

end QED
