import Verif.Spec.Outside
import Verif.Lemmas.Moving
import Verif.Lemmas.Rest
import Verif.Lemmas.F64Straight

set_option autoImplicit false
set_option exponentiation.threshold 2000

/-! # Photons outside a laser pulse, in double precision -/

namespace QED

open Dbl F64 Numerics

namespace Rest

theorem _root_.QED.Void.add {a b : F64} (ha : Void a) (hb : Void b) : Void (a +. b) := by
  rcases ha with ha | rfl
  · rcases hb with hb | rfl
    · exact .inl (add_zero_at ha hb)
    · simp [Void]
  · simp [Void]

theorem _root_.QED.Void.sub {a b : F64} (ha : Void a) (hb : Void b) : Void (a -. b) := by
  rcases ha with ha | rfl
  · rcases hb with hb | rfl
    · exact .inl (sub_at ha hb (by norm_num) (by rw [sub_zero, round_zero]))
    · simp [Void]
  · simp [Void]

theorem fin_or_wild (a : F64) : (∃ x, a.1 = .fin x) ∨ Wild a := by
  unfold Wild
  cases h : a.1 <;> simp

theorem _root_.QED.Void.mul {a : F64} (b : F64) (ha : Void a) : Void (a *. b) := by
  rcases ha with ha | rfl
  · rcases fin_or_wild b with ⟨x, hx⟩ | hb
    · exact .inl (zero_mul_at ha hx)
    · exact .inr (zero_mul_wild ha hb)
  · simp [Void]

theorem mul_zero_wild {a b : F64} (ha : Wild a) (hb : b.1 = .fin 0) : a *. b = F64.nan := by
  rw [nan_iff]
  show F64.rnd (XR.mul a.1 b.1) = _
  rcases ha with h | h | h <;> rw [h, hb] <;> simp [XR.mul, XR.infSign, F64.rnd]

theorem mul_void (a : F64) {b : F64} (hb : Void b) : Void (a *. b) := by
  rcases hb with hb | rfl
  · rcases fin_or_wild a with ⟨x, hx⟩ | ha
    · exact .inl (mul_zero_at hx hb)
    · exact .inr (mul_zero_wild ha hb)
  · simp [Void]

theorem _root_.QED.Void.sqrt {a : F64} (ha : Void a) : Void (Dbl.sqrt a) := by
  rcases ha with ha | rfl
  · exact .inl (sqrt_zero_at ha)
  · exact .inr sqrt_nan

theorem mag_void {v : V3 F64} (h : V3.Dark v) : Void v.mag := by
  unfold V3.mag V3.dot
  exact Void.sqrt (((h.1.mul _).add (h.2.1.mul _)).add (h.2.2.mul _))

theorem dot_void {v : V3 F64} (h : V3.Dark v) (w : V3 F64) : Void (v.dot w) := by
  unfold V3.dot
  exact ((h.1.mul _).add (h.2.1.mul _)).add (h.2.2.mul _)

theorem smul_void (v : V3 F64) {s : F64} (h : Void s) : V3.Dark (v.smul s) :=
  ⟨h.mul _, h.mul _, h.mul _⟩

theorem sub_void {v w : V3 F64} (h : V3.Dark v) (h' : V3.Dark w) : V3.Dark (v.sub w) :=
  ⟨h.1.sub h'.1, h.2.1.sub h'.2.1, h.2.2.sub h'.2.2⟩

theorem add_void {v w : V3 F64} (h : V3.Dark v) (h' : V3.Dark w) : V3.Dark (v.add w) :=
  ⟨h.1.add h'.1, h.2.1.add h'.2.1, h.2.2.add h'.2.2⟩

theorem cross_void (v : V3 F64) {w : V3 F64} (h : V3.Dark w) : V3.Dark (v.cross w) :=
  ⟨(mul_void _ h.2.2).sub (mul_void _ h.2.1), (mul_void _ h.1).sub (mul_void _ h.2.2),
    (mul_void _ h.2.1).sub (mul_void _ h.1)⟩

/-- The quantum parameter of a photon without a field. -/
theorem chi_void {field : Field F64} {p : Particle F64} (h : InDark field p) : Void (bwChi field p) := by
  obtain ⟨he, hb⟩ := h
  unfold bwChi
  exact mul_void _ (mag_void (add_void (sub_void he (smul_void _ (dot_void he _))) (cross_void _ hb)))

theorem pow_ten_nan : Dbl.pow (lit 10 : F64) F64.nan = F64.nan := by
  rw [nan_iff]
  have h10 : (lit 10 : F64).1 = .fin ((10 : ℚ) : ℝ) := lit_val (by exact_mod_cast rep_small (n := 10) (by norm_num))
  show F64.rnd (XR.pow (lit 10 : F64).1 F64.nan.1) = _
  rw [h10, nan_val]
  simp only [XR.pow]
  rw [if_neg (by norm_num)]
  rfl

/-- The rate that is looked up for a quantum parameter of zero. -/
theorem rate_dark {b : BWCfg F64} (hb : FlatStart b) {chi : F64} (h : chi.1 = .fin 0) :
    interpolate1D b.tAxis b.tData (Dbl.log10 chi) = .ok F64.nan := by
  obtain ⟨x, y, s, t, a0, a1, hx, hy, hst, hs, ht⟩ := hb.axis
  obtain ⟨v, d, d0, d1, hv⟩ := hb.data
  have hl : (Dbl.log10 chi).1 = .ninf := by
    show F64.rnd (Dbl.log10 chi.1) = _
    rw [h, XR.log10_zero]
    rfl
  generalize Dbl.log10 chi = q at hl
  have hlt : (q <. x) = true := by
    show (q.1 <. x.1) = true
    rw [hl, hx]
    rfl
  unfold interpolate1D
  dsimp only
  unfold rd
  rw [a0]
  simp only [Res.ok_bind]
  rw [hlt, if_pos rfl, d0, d1, a1]
  simp only [Res.ok_bind]
  have hz : (v -. v).1 = .fin 0 := by
    exact sub_at hv hv (by rw [sub_self]; norm_num) (by rw [sub_self, round_zero])
  have hw : Wild ((q -. x) /. (y -. x)) := by
    have h1 : (q -. x).1 = .ninf := by
      show F64.rnd (q.1 -. x.1) = _
      rw [hl, hx]
      rfl
    have h2 : ∃ z, (y -. x).1 = .fin z :=
      ⟨_, sub_at hy hx (by
        have : |t - s| ≤ 2000 := by rw [abs_le]; have := abs_le.mp hs; have := abs_le.mp ht; constructor <;> linarith
        exact this.trans_lt (by norm_num)) rfl⟩
    obtain ⟨z, h2⟩ := h2
    show F64.rnd (XR.div (q -. x).1 (y -. x).1) = _ ∨ F64.rnd (XR.div (q -. x).1 (y -. x).1) = _ ∨ _
    rw [h1, h2]
    simp only [XR.div]
    split_ifs
    · exact .inl rfl
    · exact .inr (.inl rfl)
  rw [zero_mul_wild hz hw]
  simp

/-! ## Photons that never convert -/

/-- A photon that has been without a field, or is now. -/
def MutedPhoton (b : BWCfg F64) (p : Particle F64) : Prop :=
  p.isAlive = true ∧ p.kind = .photon ∧ p.mass = lit 0 ∧ (InDark b.field p ∨ p.opticalDepth = F64.nan)

theorem photon_bw {b : BWCfg F64} (hb : FlatStart b) {p : Particle F64} (h : MutedPhoton b p) (l : PList F64)
    (r : MCTools.Rng F64) : bwInteract b p l r = .ok ({ p with opticalDepth := F64.nan }, l, r) := by
  obtain ⟨ha, hk, -, hd⟩ := h
  have h2 : 2 ≤ b.tAxis.length := by
    obtain ⟨x, y, s, t, -, a1, -⟩ := hb.axis
    have := (List.getElem?_eq_some_iff.mp a1).1
    omega
  obtain ⟨logt, hl, hdelta⟩ : ∃ logt, interpolate1D b.tAxis b.tData (Dbl.log10 (bwChi b.field p)) = .ok logt ∧
      p.opticalDepth -. bwDelta b.dt (bwChi b.field p) logt p.energy = F64.nan := by
    have any := interpolate1D_ok b.tAxis b.tData (Dbl.log10 (bwChi b.field p)) hb.length.1 h2 hb.length.2
    rcases hd with hd | hd
    · rcases chi_void hd with hc | hc
      · refine ⟨_, rate_dark hb hc, ?_⟩
        unfold bwDelta
        rw [pow_ten_nan]
        simp
      · obtain ⟨v, hv⟩ := any
        refine ⟨v, hv, ?_⟩
        rw [hc]
        simp [bwDelta]
    · obtain ⟨v, hv⟩ := any
      exact ⟨v, hv, by rw [hd]; simp⟩
  unfold bwInteract
  rw [if_neg (by simp [Particle.typeName, hk, ha])]
  show (interpolate1D b.tAxis b.tData (Dbl.log10 (bwChi b.field p))) >>= _ = _
  rw [hl, Res.ok_bind]
  have hq : p.updateOpticalDepth (bwDelta b.dt (bwChi b.field p) logt p.energy) = { p with opticalDepth := F64.nan } := by
    unfold Particle.updateOpticalDepth
    rw [hdelta]
  dsimp only
  rw [hq, if_neg]
  simp

theorem photon_emission {e : Proc F64} (he : e.IsEmission) {p : Particle F64} (hm : p.mass = lit 0) (l : PList F64)
    (r : MCTools.Rng F64) : e.interact p l r = .ok (p, l, r) := by
  have h0 : ((p.mass ==. lit 0) || !p.isAlive) = true := by
    rw [hm]
    show ((lit 0 : F64).1 ==. (lit 0 : F64).1 || _) = true
    rw [zero_val]
    simp
  cases e with
  | stochastic e => show stochasticInteract e p l r = _; unfold stochasticInteract; rw [if_pos h0]
  | continuous e c => show continuousInteract e c p l r = _; unfold continuousInteract; rw [if_pos h0]
  | breitWheeler b => exact he.elim

theorem interactAll_photon {es : List (Proc F64)} (he : ∀ e ∈ es, e.IsEmission) (rest : List (Proc F64)) {q : Particle F64}
    (hm : q.mass = lit 0) (nm : String) (mx : Nat) (r : MCTools.Rng F64) :
    interactAll (es ++ rest) 0 ⟨nm, mx, [q]⟩ r = interactAll rest 0 ⟨nm, mx, [q]⟩ r := by
  induction es with
  | nil => rfl
  | cons e es ih =>
    rw [List.cons_append, interactAll]
    have h1 : interactAt e 0 (⟨nm, mx, [q]⟩ : PList F64) r = .ok (⟨nm, mx, [q]⟩, r) := by
      show (e.interact q _ r).bind _ = _
      rw [photon_emission (he e (by simp)) hm]
      rfl
    rw [h1, Res.ok_bind]
    exact ih fun e h => he e (by simp [h])

theorem advance_photon {cfg : SimCfg F64} {es : List (Proc F64)} {b : BWCfg F64} (he : ∀ e ∈ es, e.IsEmission)
    (hp : cfg.procs = es ++ [.breitWheeler b]) (hb : FlatStart b) {p : Particle F64}
    (h : MutedPhoton b (pushParticle cfg.push cfg.field cfg.dt p)) (nm : String) {mx : Nat} (hmx : 0 < mx)
    (r : MCTools.Rng F64) : advance cfg ⟨nm, mx, [p]⟩ r =
      .ok (⟨nm, mx, [{ pushParticle cfg.push cfg.field cfg.dt p with opticalDepth := F64.nan }]⟩, r) := by
  set q := pushParticle cfg.push cfg.field cfg.dt p with hq
  have hv : visit cfg 0 ⟨nm, mx, [p]⟩ r = .ok (⟨nm, mx, [{ q with opticalDepth := F64.nan }]⟩, r) := by
    unfold visit
    show interactAll _ _ (⟨nm, mx, [q]⟩ : PList F64) r = _
    rw [hp, interactAll_photon he _ h.2.2.1, interactAll]
    have h1 : interactAt (.breitWheeler b) 0 (⟨nm, mx, [q]⟩ : PList F64) r =
        .ok (⟨nm, mx, [{ q with opticalDepth := F64.nan }]⟩, r) := by
      show (bwInteract b q _ r).bind _ = _
      rw [photon_bw hb h]
      rfl
    rw [h1, Res.ok_bind]
    rfl
  obtain ⟨m, rfl⟩ : ∃ m, mx = m + 1 := ⟨mx - 1, by omega⟩
  unfold advance
  show particleLoop cfg (m + 1) 0 _ r = _
  rw [particleLoop, if_pos (by simp [PList.nPart]), hv, Res.ok_bind]
  cases m with
  | zero => rfl
  | succ m =>
    show particleLoop cfg (m + 1) 1 _ r = _
    rw [particleLoop, if_neg (by simp [PList.nPart])]

theorem muted_photon_push {b : BWCfg F64} {p : Particle F64} (ha : p.isAlive = true) (hk : p.kind = .photon)
    (hm : p.mass = lit 0) (hd : p.opticalDepth = F64.nan) (push : PushMom F64) (field : Field F64) (dt : F64) :
    MutedPhoton b (pushParticle push field dt p) := by
  obtain ⟨h1, h2, -, -, -, h6, h7⟩ := push_identity push field dt p
  exact ⟨h6.trans ha, h1.trans hk, h2.trans hm, .inr (h7.trans hd)⟩

/-- A run of one muted photon. -/
theorem run_photon {cfg : SimCfg F64} {es : List (Proc F64)} {b : BWCfg F64} (he : ∀ e ∈ es, e.IsEmission)
    (hp : cfg.procs = es ++ [.breitWheeler b]) (hb : FlatStart b) {nm : String} {mx : Nat} (hmx : 0 < mx)
    {s : EvState F64} {n : Nat} {o : Res (EvState F64)} (h : Run cfg s n o) :
    ∀ (p : Particle F64) (s' : EvState F64), s.list = ⟨nm, mx, [p]⟩ →
      MutedPhoton b (pushParticle cfg.push cfg.field cfg.dt p) → o = .ok s' → s'.rng = s.rng ∧
        ∃ d, s'.list = ⟨nm, mx, [{ (pushParticle cfg.push cfg.field cfg.dt)^[n] p with opticalDepth := d }]⟩ := by
  induction h with
  | done _ =>
    intro p s' hs _ ho
    cases ho
    exact ⟨rfl, p.opticalDepth, hs⟩
  | @step s s₁ n o _ h2 _ ih =>
    intro p s' hs hq ho
    obtain ⟨ha, -⟩ := timeStep_advance h2
    rw [hs, advance_photon he hp hb hq nm hmx, Res.ok.injEq, Prod.mk.injEq] at ha
    obtain ⟨h3, d, h4⟩ := ih _ s' ha.1.symm
      (muted_photon_push (by exact hq.1) (by exact hq.2.1) (by exact hq.2.2.1) rfl _ _ _) ho
    refine ⟨h3.trans ha.2.symm, d, ?_⟩
    rw [h4, iterate_depth, Function.iterate_succ_apply]
  | abort _ _ h3 =>
    intro p s' _ _ ho
    exact absurd ho (h3 s')

/-- A muted photon does not stop the run. -/
theorem timeStep_photon {cfg : SimCfg F64} {es : List (Proc F64)} {b : BWCfg F64} (he : ∀ e ∈ es, e.IsEmission)
    (hp : cfg.procs = es ++ [.breitWheeler b]) (hb : FlatStart b) {p : Particle F64}
    (h : MutedPhoton b (pushParticle cfg.push cfg.field cfg.dt p)) (nm : String) {mx : Nat} (hmx : 0 < mx)
    (r : MCTools.Rng F64) (t : F64) : timeStep cfg ⟨⟨nm, mx, [p]⟩, r, t, 0, []⟩ =
      .ok ⟨⟨nm, mx, [{ pushParticle cfg.push cfg.field cfg.dt p with opticalDepth := F64.nan }]⟩, r, t +. cfg.dt, 0, []⟩ := by
  unfold timeStep histStep
  show (advance cfg ⟨nm, mx, [p]⟩ r).bind _ = _
  rw [advance_photon he hp hb h nm hmx]
  rfl

/-! ## Lasers -/

theorem mulVec_dark (m : M3 F64) {v : V3 F64} (h : v.Dark) : (m.mulVec v).Dark := by
  obtain ⟨h1, h2, h3⟩ := h
  have z : Void (lit 0) := .inl zero_val
  unfold M3.mulVec M3.acc3
  exact ⟨((z.add (mul_void _ h1)).add (mul_void _ h2)).add (mul_void _ h3),
    ((z.add (mul_void _ h1)).add (mul_void _ h2)).add (mul_void _ h3),
    ((z.add (mul_void _ h1)).add (mul_void _ h2)).add (mul_void _ h3)⟩

theorem exp_800 : Real.exp (-800) ≤ 2 ^ (-1100 : ℤ) := by
  have h1 : (2.7 : ℝ) ≤ Real.exp 1 := by have := Real.exp_one_gt_d9; linarith
  have h2 : (2 : ℝ) ^ 1100 ≤ Real.exp 800 := by
    calc (2 : ℝ) ^ 1100 = (2 ^ 11) ^ 100 := by rw [← pow_mul]
      _ ≤ (2.7 ^ 8) ^ 100 := pow_le_pow_left₀ (by norm_num) (by norm_num) _
      _ = 2.7 ^ 800 := by rw [← pow_mul]
      _ ≤ Real.exp 1 ^ 800 := pow_le_pow_left₀ (by norm_num) h1 _
      _ = Real.exp 800 := by rw [← Real.exp_nat_mul]; norm_num
  rw [Real.exp_neg, zpow_neg]
  exact inv_anti₀ (by positivity) (by exact_mod_cast h2)

theorem far_ratio {x y : ℝ} (lo : (1 / 2) ^ 200 ≤ y) (h : 30 * y ≤ |x|) (hi : |x| ≤ 2 ^ 300) :
    0 < F64.round (y * y) ∧ 800 ≤ F64.round (x * x) / F64.round (y * y) ∧
      F64.round (x * x) / F64.round (y * y) ≤ 2 ^ 1010 := by
  have y0 : 0 < y := lt_of_lt_of_le (by positivity) lo
  have hy2 : (1 / 2) ^ 400 ≤ y * y := by
    calc ((1 : ℝ) / 2) ^ 400 = (1 / 2) ^ 200 * (1 / 2) ^ 200 := by rw [← pow_add]
      _ ≤ y * y := mul_le_mul lo lo (by positivity) y0.le
  have hx2 : 900 * (y * y) ≤ x * x := by
    rw [← abs_mul_abs_self x]
    nlinarith
  have hx3 : x * x ≤ 2 ^ 600 := by
    rw [← abs_mul_abs_self x]
    calc |x| * |x| ≤ 2 ^ 300 * 2 ^ 300 := mul_le_mul hi hi (abs_nonneg _) (by positivity)
      _ = 2 ^ 600 := by rw [← pow_add]
  have he : eta ≤ y * y / 1000 := by
    refine le_trans ?_ (div_le_div_of_nonneg_right hy2 (by norm_num))
    have : eta ≤ 2 ^ (-410 : ℤ) := zpow_le_zpow_right₀ (by norm_num) (by norm_num)
    refine this.trans ?_
    rw [zpow_neg]
    norm_num
  have e0 := eta_pos
  have a1 := round_ge (mul_self_nonneg y)
  have a2 := round_ge (mul_self_nonneg x)
  have a3 := round_abs_le (y * y)
  rw [abs_of_nonneg (mul_self_nonneg y), abs_of_nonneg (round_nonneg (mul_self_nonneg y))] at a3
  have a4 : F64.round (x * x) ≤ 2 ^ 600 := by
    have := round_bound (x := x * x) (k := 600) (by rwa [abs_of_nonneg (mul_self_nonneg x)])
    exact (le_abs_self _).trans this
  have yy : 0 < y * y := mul_pos y0 y0
  have b1 : y * y / 2 ≤ F64.round (y * y) := by
    clear hy2 hx3 a4 hi lo h
    linarith
  have b0 : 0 < F64.round (y * y) := by linarith
  refine ⟨b0, ?_, ?_⟩
  · rw [le_div_iff₀ b0]
    clear hy2 hx3 a4 hi lo h
    linarith
  · rw [div_le_iff₀ b0]
    have c1 : (1 / 2) ^ 401 ≤ F64.round (y * y) := by
      refine le_trans ?_ b1
      rw [pow_succ]
      clear a4 hx3 hi lo h
      linarith
    refine a4.trans ?_
    calc (2 : ℝ) ^ 600 ≤ 2 ^ 1010 * (1 / 2) ^ 401 := by norm_num
      _ ≤ _ := mul_le_mul_of_nonneg_left c1 (by positivity)

theorem exp_far {u t : F64} {x y : ℝ} (hu : u.1 = .fin x) (ht : t.1 = .fin y) (lo : (1 / 2) ^ 200 ≤ y)
    (h : 30 * y ≤ |x|) (hi : |x| ≤ 2 ^ 300) : (Dbl.exp (lit (-1) *. u *. u /. (t *. t))).1 = .fin 0 := by
  obtain ⟨b0, b1, b2⟩ := far_ratio lo h hi
  have y0 : 0 < y := lt_of_lt_of_le (by positivity) lo
  have hyx : |y| ≤ 2 ^ 300 := by rw [abs_of_pos y0]; linarith
  have m1 : (lit (-1) *. u).1 = .fin (-x) := by
    have hb : |-1 * x| ≤ 2 ^ 300 := by rwa [neg_one_mul, abs_neg]
    have := mul_at Flight.minus_val hu (below hb (by norm_num)) rfl
    rw [this, neg_one_mul, round_neg, round_form_eq (u.2 x hu).1]
  have big : ∀ {v w : ℝ}, |v| ≤ 2 ^ 300 → |w| ≤ 2 ^ 300 → |v * w| < 2 ^ 1023 := by
    intro v w hv hw
    refine below (k := 600) ?_ (by norm_num)
    rw [abs_mul]
    calc |v| * |w| ≤ 2 ^ 300 * 2 ^ 300 := mul_le_mul hv hw (abs_nonneg _) (by positivity)
      _ = 2 ^ 600 := by rw [← pow_add]
  have m2 : (lit (-1) *. u *. u).1 = .fin (-F64.round (x * x)) :=
    mul_at m1 hu (big (by rwa [abs_neg]) hi) (by rw [neg_mul, round_neg])
  have m3 : (t *. t).1 = .fin (F64.round (y * y)) := mul_at ht ht (big hyx hyx) rfl
  have hb : |-F64.round (x * x) / F64.round (y * y)| ≤ 2 ^ 1010 := by
    rw [neg_div, abs_neg, abs_of_nonneg (by linarith)]
    exact b2
  have m4 := div_at m2 m3 b0.ne' (below hb (by norm_num)) rfl
  have hr : F64.round (-F64.round (x * x) / F64.round (y * y)) ≤ -800 := by
    have hform : Form (-800 : ℝ) := ⟨-800, 0, by norm_num, by norm_num, by norm_num⟩
    refine round_le hform ?_
    rw [neg_div]
    linarith
  show F64.rnd (XR.exp (lit (-1) *. u *. u /. (t *. t)).1) = _
  rw [m4]
  show F64.rnd (.fin (Real.exp _)) = _
  have hsmall : |Real.exp (F64.round (-F64.round (x * x) / F64.round (y * y)))| ≤ 2 ^ (-1100 : ℤ) := by
    rw [abs_of_pos (Real.exp_pos _)]
    exact (Real.exp_le_exp.mpr hr).trans exp_800
  rw [rnd_fin (lt_of_le_of_lt hsmall (by
    refine lt_of_le_of_lt (zpow_le_one_of_nonpos₀ (by norm_num) (by norm_num)) (by norm_num))), FlightWitness.round_tiny hsmall]

theorem gauss_dark {f : GaussField F64} {time : F64} {x : V3 F64} (h : f.Far time x) :
    (f.getField time x).1.Dark ∧ (f.getField time x).2.Dark := by
  obtain ⟨u, t, hu, ht, lo, h1, hi⟩ := h
  have ha : Void (f.amplitude time x) := by
    unfold GaussField.amplitude
    exact mul_void _ (.inl (exp_far hu ht lo h1 hi))
  unfold GaussField.getField
  exact ⟨mulVec_dark _ ⟨ha.mul _, ha.mul _, .inl zero_val⟩, mulVec_dark _ ⟨ha.mul _, ha.mul _, .inl zero_val⟩⟩

theorem focus_dark {f : FocusField F64} {time : F64} {x : V3 F64} (h : f.Beyond time x) :
    (f.getField time x).1.Dark ∧ (f.getField time x).2.Dark := by
  unfold FocusField.getField
  dsimp only
  unfold FocusField.Beyond at h
  rw [if_pos h]
  exact ⟨⟨.inl zero_val, .inl zero_val, .inl zero_val⟩, .inl zero_val, .inl zero_val, .inl zero_val⟩

end Rest

end QED
