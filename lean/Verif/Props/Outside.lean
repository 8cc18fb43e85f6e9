import Verif.Lemmas.Outside
import Verif.Lemmas.Signs
import Verif.Props.Rest
import Verif.Props.Shipped

set_option autoImplicit false
set_option exponentiation.threshold 2000

/-!
# C152: photons that start outside a laser pulse

In double precision. Where the field is zero, so is the quantum parameter of a photon, and the pair rate is looked up at
minus infinity.
-/

namespace QED

open Dbl F64 Rest TableFile Main

/-- C152, the part that holds: for a photon in a field, with a momentum between 2 and 2¹⁰⁰ and in fields up to 2¹⁰⁰ in
the code's units, the quantum parameter is a number, and as long as the rate looked up for it is one too, the optical
depth stays a number. Missing: places where the field is zero, see the refutations. -/
theorem C152_inside_partial {b : BWCfg F64} {p : Particle F64} (hk : p.kind = .photon)
    {a : Fin 3 → ℝ} (ha : p.momentum.At a) (lo : 2 ≤ len a) (hi : len a ≤ 2 ^ 100)
    {E B : Fin 3 → ℝ} (hE : (b.field p.time p.position).1.At E) (hB : (b.field p.time p.position).2.At B)
    (bE : ∀ i, |E i| ≤ 2 ^ 100) (bB : ∀ i, |B i| ≤ 2 ^ 100) :
    (∃ χ, 0 ≤ χ ∧ (bwChi b.field p).1 = .fin χ) ∧
    ∀ (τ d L : ℝ) (logt : F64), b.dt.1 = .fin τ → 0 ≤ τ → τ ≤ 2 ^ 50 → p.opticalDepth.1 = .fin d → |d| ≤ 2 ^ 900 →
      Numerics.interpolate1D b.tAxis b.tData (Dbl.log10 (bwChi b.field p)) = .ok logt → logt.1 = .fin L → |L| ≤ 60 →
      ∃ d', (p.updateOpticalDepth (bwDelta b.dt (bwChi b.field p) logt p.energy)).opticalDepth.1 = .fin d' := by
  have lo' : (1 / 2) ^ 400 ≤ len a := le_trans (by norm_num) lo
  have hi' : len a ≤ 2 ^ 500 := hi.trans (pow_le_pow_right₀ (by norm_num) (by norm_num))
  obtain ⟨dx, dy, dz⟩ := dir_fits ha lo' hi'
  have een : p.energy = p.momentum.mag := by unfold Particle.energy; rw [hk]
  have hen : AtLeastOne p.energy 101 := by
    obtain ⟨g, hg, h⟩ := Flight.mag_near ha lo' hi'
    rw [abs_le] at h
    refine ⟨g, een ▸ hg, ?_, ?_⟩
    · have := h.1
      clear hi' lo' h hi
      linarith
    · have h2 : g ≤ 2 * len a := by
        have := h.2
        clear hi' lo' h hi
        linarith
      refine h2.trans ?_
      rw [pow_succ]
      linarith
  have hx : Fits (b.field p.time p.position).1.x 100 := ⟨_, hE.1, bE 0⟩
  have hy : Fits (b.field p.time p.position).1.y 100 := ⟨_, hE.2.1, bE 1⟩
  have hz : Fits (b.field p.time p.position).1.z 100 := ⟨_, hE.2.2, bE 2⟩
  have mx : Fits (b.field p.time p.position).2.x 100 := ⟨_, hB.1, bB 0⟩
  have my : Fits (b.field p.time p.position).2.y 100 := ⟨_, hB.2.1, bB 1⟩
  have mz : Fits (b.field p.time p.position).2.z 100 := ⟨_, hB.2.2, bB 2⟩
  have hdot := dot_fits hx hy hz dx dy dz (by norm_num)
  have comp : ∀ {c u v w v' w' : F64}, Fits c 100 → Fits u 1 → Fits v 1 → Fits w 100 → Fits v' 1 → Fits w' 100 →
      Fits (c -. ((b.field p.time p.position).1.dot p.momentum.norm *. u) +. (v *. w -. v' *. w')) 106 := by
    intro c u v w v' w' hc hu hv hw hv' hw'
    have h1 := (hc.mono (by norm_num : 100 ≤ 104)).sub (hdot.mul hu (by norm_num)) (by norm_num)
    have h2 := (hv.mul hw (by norm_num)).sub (hv'.mul hw' (by norm_num)) (by norm_num)
    exact h1.add (h2.mono (by norm_num)) (by norm_num)
  have hm := (mag2_pos (v := ((b.field p.time p.position).1.sub (p.momentum.norm.smul
    ((b.field p.time p.position).1.dot p.momentum.norm))).add (p.momentum.norm.cross (b.field p.time p.position).2))
    (comp hx dx dy mz dz my) (comp hy dy dz mx dx mz) (comp hz dz dx my dy mx) (by norm_num)).sqrt (by norm_num)
  have litfits : ∀ (q : ℚ) (k : ℕ), 0 ≤ (q : ℝ) → |(q : ℝ)| ≤ 2 ^ k → k ≤ 1000 → FitsPos (lit q) k := by
    intro q k h0 h hk
    refine ⟨_, ?_, round_nonneg h0, (le_abs_self _).trans (round_bound h)⟩
    show F64.rnd (.fin (q : ℝ)) = _
    rw [rnd_fin (below h (by omega))]
  have hchi : FitsPos (bwChi b.field p) (0 + 101 + (2 * 106 + 2)) := by
    unfold bwChi
    exact ((litfits 0.5 0 (by norm_num) (by norm_num [abs_of_pos]) (by norm_num)).mul hen.pos (by norm_num)).mul hm
      (by norm_num)
  obtain ⟨χ, c1, c2, -⟩ := id hchi
  refine ⟨⟨χ, c2, c1⟩, ?_⟩
  intro τ d L logt ht t0 t1 hd hd1 _ hL hL1
  have f1 : Fits b.dt 50 := ⟨τ, ht, by rwa [abs_of_nonneg t0]⟩
  have f3 : Fits (Units.alpha : F64) 0 :=
    (litfits 0.0072973525664 0 (by norm_num) (by norm_num [abs_of_pos]) (by norm_num)).fits
  have f5 : Fits (Dbl.pow (lit 10 : F64) logt) 200 := by
    have h10 : (lit 10 : F64).1 = .fin ((10 : ℚ) : ℝ) := lit_val (by exact_mod_cast rep_small (n := 10) (by norm_num))
    have hp : |(10 : ℝ) ^ L| ≤ 2 ^ 200 := by
      rw [abs_of_pos (by positivity)]
      calc (10 : ℝ) ^ L ≤ 10 ^ (60 : ℝ) := Real.rpow_le_rpow_of_exponent_le (by norm_num) (abs_le.mp hL1).2
        _ = 10 ^ 60 := by rw [show (60 : ℝ) = ((60 : ℕ) : ℝ) by norm_num, Real.rpow_natCast]
        _ ≤ 2 ^ 200 := by norm_num
    refine ⟨_, ?_, round_bound hp⟩
    show F64.rnd (XR.pow (lit 10 : F64).1 logt.1) = _
    rw [h10, hL]
    simp only [XR.pow]
    rw [if_pos (by norm_num), show (((10 : ℚ) : ℝ)) = 10 by norm_num, rnd_fin (below hp (by norm_num))]
  have f7 := (((f1.mul f3 (by norm_num)).mul hchi.fits (by norm_num)).mul f5 (by norm_num)).div hen (by norm_num)
  have f8 : Fits p.opticalDepth 901 := Fits.mono (j := 900) ⟨d, hd, hd1⟩ (by norm_num)
  obtain ⟨y, h3, -⟩ := f8.sub (f7.mono (by norm_num)) (by norm_num)
  exact ⟨y, h3⟩

/-- The tables of the pair rate that come with the program start with two equal entries. -/
theorem Rest.shipped_flat (dir : List Char) (t : Pairs F64) (hl : loadPairs (some dir) (Shipped.tables dir) = .ok t)
    {b : BWCfg F64} (hg : t.Gives b) : FlatStart b := by
  obtain ⟨t', ht', g1, g2, -⟩ := C98_pairs (D := F64) dir
  rw [hl] at ht'
  obtain rfl := Res.ok.inj ht'
  obtain ⟨k1, k2, -⟩ := hg
  rw [g1] at k1
  rw [g2] at k2
  have hc := Shipped.rate_checked
  have hf := Shipped.rate_first
  rw [Prod.mk.injEq] at hf
  obtain ⟨hf0, hf1⟩ := hf
  rw [Shipped.checked, List.all_cons, Bool.and_eq_true] at hc
  have hval : ∀ (i : Nat) (x y : Int), Shipped.ratePairs[i]?.map (fun p => (p.1.units, p.2.units)) = some (x, y) →
      b.tAxis[i]? = some (lit ((x : ℚ) / 10 ^ 40)) ∧ b.tData[i]? = some (lit ((y : ℚ) / 10 ^ 40)) := by
    intro i x y hi
    rw [k1, k2, List.getElem?_map, List.getElem?_map]
    cases hq : Shipped.ratePairs[i]? with
    | none => rw [hq] at hi; cases hi
    | some q =>
      rw [hq] at hi
      obtain ⟨rfl, rfl⟩ := Prod.mk.inj (Option.some.inj hi)
      have hm := List.mem_of_getElem? hq
      have h1 := List.all_eq_true.1 hc.2 (q.1, ['\t']) (List.mem_flatMap.2 ⟨q, hm, by simp⟩)
      have h2 := List.all_eq_true.1 hc.2 (q.2, ['\n']) (List.mem_flatMap.2 ⟨q, hm, by simp⟩)
      simp only [Bool.and_eq_true] at h1 h2
      simp [(Shipped.Tok.good h1.1.1).value, (Shipped.Tok.good h2.1.1).value]
  obtain ⟨a0, b0⟩ := hval 0 _ _ hf0
  obtain ⟨a1, b1⟩ := hval 1 _ _ hf1
  have rl : ∀ (q : ℚ), |(q : ℝ)| ≤ 2 ^ 6 → (lit q : F64).1 = .fin (F64.round q) := by
    intro q h
    show F64.rnd (.fin (q : ℝ)) = _
    rw [rnd_fin (below h (by norm_num))]
  have q0 : (((-5 * 10 ^ 40 : ℤ) : ℚ) / 10 ^ 40 : ℚ) = -5 := by norm_num
  have q1 : (((-499 * 10 ^ 38 : ℤ) : ℚ) / 10 ^ 40 : ℚ) = -4.99 := by norm_num
  have q2 : (((-50 * 10 ^ 40 : ℤ) : ℚ) / 10 ^ 40 : ℚ) = -50 := by norm_num
  rw [q0] at a0
  rw [q1] at a1
  rw [q2] at b0 b1
  have five : Form (-5 : ℝ) := ⟨-5, 0, by norm_num, by norm_num, by norm_num⟩
  have near : Form (-639 / 128 : ℝ) := ⟨-639, -7, by norm_num, by norm_num, by norm_num⟩
  have big : ∀ {x : ℝ}, |x| ≤ 2 ^ 6 → |F64.round x| ≤ 1000 := fun h => (round_bound h).trans (by norm_num)
  refine ⟨⟨?_, ?_⟩, ⟨_, _, _, _, a0, a1, rl _ (by norm_num [abs_of_neg]), rl _ (by norm_num [abs_of_neg]), ?_, ?_, ?_⟩,
    ⟨_, _, b0, b1, rl _ (by norm_num [abs_of_neg])⟩⟩
  · rw [k1, k2, List.length_map, List.length_map]
  · rw [k1, List.length_map, Shipped.rate_length]
    norm_num
  · push_cast
    rw [round_form_eq five]
    have := le_round near (x := -4.99) (by norm_num)
    linarith
  · exact big (by norm_num [abs_of_neg])
  · exact big (by norm_num [abs_of_neg])

section shipped

variable {dir : List Char} {t : Pairs F64} (hl : loadPairs (some dir) (Shipped.tables dir) = .ok t)
  {b : BWCfg F64} (hg : t.Gives b)

include hl hg

/-- C152 is false with the tables that come with the program: where there is no field, the pair process takes away the
optical depth of every photon, whatever else there is in its list. -/
theorem C152_depth_refuted {p : Particle F64} (ha : p.isAlive = true) (hk : p.kind = .photon) (hm : p.mass = lit 0)
    (h : InDark b.field p) (l : PList F64) (r : MCTools.Rng F64) :
    bwInteract b p l r = .ok ({ p with opticalDepth := F64.nan }, l, r) :=
  photon_bw (shipped_flat dir t hl hg) ⟨ha, hk, hm, .inl h⟩ l r

/-- And from then on it never makes a pair, in whatever field it is. -/
theorem C152_never_refuted {p : Particle F64} (ha : p.isAlive = true) (hk : p.kind = .photon) (hm : p.mass = lit 0)
    (h : p.opticalDepth = F64.nan) (l : PList F64) (r : MCTools.Rng F64) : bwInteract b p l r = .ok (p, l, r) := by
  have := photon_bw (shipped_flat dir t hl hg) (p := p) ⟨ha, hk, hm, .inr h⟩ l r
  rw [this, ← h]

/-- C152 is false of a whole event: a photon that is where there is no field after the first time step never makes a
pair, however strong the fields are that it meets later and whatever the random numbers. It is pushed `n` times, nothing
else happens, and no random number is drawn. -/
theorem C152_refuted {cfg : SimCfg F64} {es : List (Proc F64)} (he : ∀ e ∈ es, e.IsEmission)
    (hp : cfg.procs = es ++ [.breitWheeler b]) {p : Particle F64} (ha : p.isAlive = true) (hk : p.kind = .photon)
    (hm : p.mass = lit 0) (h : InDark b.field (pushParticle cfg.push cfg.field cfg.dt p)) (nm : String) {mx : Nat}
    (hmx : 0 < mx) (r : MCTools.Rng F64) (hists : List (Hist F64)) (n : Nat) (l' : PList F64) (r' : MCTools.Rng F64)
    (hists' : List (Hist F64)) (hev : Event cfg ⟨nm, mx, [p]⟩ r hists n l' r' hists') :
    r' = r ∧ ∃ d, l'.items = [{ (pushParticle cfg.push cfg.field cfg.dt)^[n] p with opticalDepth := d }] := by
  obtain ⟨hrun, -⟩ := hev
  obtain ⟨h1, h2, -, -, -, h6, -⟩ := push_identity cfg.push cfg.field cfg.dt p
  obtain ⟨h3, d, h4⟩ := run_photon he hp (shipped_flat dir t hl hg) hmx hrun p _ rfl
    ⟨h6.trans ha, h1.trans hk, h2.trans hm, .inl h⟩ rfl
  exact ⟨h3, d, by rw [h4]⟩

/-- A Gaussian pulse: it is enough that the photon is 30 pulse lengths before the centre of the pulse, or behind it,
after the first time step. -/
theorem C152_gauss_refuted {f : GaussField F64} (hf : b.field = f.getField) {cfg : SimCfg F64} {es : List (Proc F64)}
    (he : ∀ e ∈ es, e.IsEmission) (hp : cfg.procs = es ++ [.breitWheeler b]) {p : Particle F64} (ha : p.isAlive = true)
    (hk : p.kind = .photon) (hm : p.mass = lit 0)
    (h : f.Far (pushParticle cfg.push cfg.field cfg.dt p).time (pushParticle cfg.push cfg.field cfg.dt p).position)
    (nm : String) {mx : Nat} (hmx : 0 < mx) (r : MCTools.Rng F64) (hists : List (Hist F64)) (n : Nat) (l' : PList F64)
    (r' : MCTools.Rng F64) (hists' : List (Hist F64)) (hev : Event cfg ⟨nm, mx, [p]⟩ r hists n l' r' hists') :
    r' = r ∧ ∃ d, l'.items = [{ (pushParticle cfg.push cfg.field cfg.dt)^[n] p with opticalDepth := d }] := by
  refine C152_refuted hl hg he hp ha hk hm ?_ nm hmx r hists n l' r' hists' hev
  unfold InDark
  rw [hf]
  exact gauss_dark h

/-- A focusing pulse: it is enough that the program cuts the field off where the photon is after the first time step. -/
theorem C152_focusing_refuted {f : FocusField F64} (hf : b.field = f.getField) {cfg : SimCfg F64}
    {es : List (Proc F64)} (he : ∀ e ∈ es, e.IsEmission) (hp : cfg.procs = es ++ [.breitWheeler b]) {p : Particle F64}
    (ha : p.isAlive = true) (hk : p.kind = .photon) (hm : p.mass = lit 0)
    (h : f.Beyond (pushParticle cfg.push cfg.field cfg.dt p).time (pushParticle cfg.push cfg.field cfg.dt p).position)
    (nm : String) {mx : Nat} (hmx : 0 < mx) (r : MCTools.Rng F64) (hists : List (Hist F64)) (n : Nat) (l' : PList F64)
    (r' : MCTools.Rng F64) (hists' : List (Hist F64)) (hev : Event cfg ⟨nm, mx, [p]⟩ r hists n l' r' hists') :
    r' = r ∧ ∃ d, l'.items = [{ (pushParticle cfg.push cfg.field cfg.dt)^[n] p with opticalDepth := d }] := by
  refine C152_refuted hl hg he hp ha hk hm ?_ nm hmx r hists n l' r' hists' hev
  unfold InDark
  rw [hf]
  exact focus_dark h

end shipped

/-! ## A photon that runs into a laser pulse -/

namespace OutsideWitness

theorem int_form {n : ℤ} (h : |n| < 2 ^ 53) : Form (n : ℝ) := ⟨n, 0, h, by norm_num, by simp⟩

theorem int_small {n : ℤ} (h : |n| < 2 ^ 53) : |(n : ℝ)| < 2 ^ 1023 := by
  have h' : |(n : ℝ)| < 2 ^ 53 := by exact_mod_cast h
  exact h'.trans (pow_lt_pow_right₀ (by norm_num) (by norm_num))

theorem int_lit (n : ℤ) (h : |n| < 2 ^ 53) : (lit (n : ℚ) : F64).1 = .fin (n : ℝ) := by
  show F64.rnd (.fin (((n : ℚ)) : ℝ)) = _
  rw [show (((n : ℚ)) : ℝ) = n by norm_cast, rnd_fin (int_small h), round_form_eq (int_form h)]

theorem int_add {a b : F64} {m n : ℤ} (ha : a.1 = .fin m) (hb : b.1 = .fin n) (h : |m + n| < 2 ^ 53) :
    (a +. b).1 = .fin ((m + n : ℤ) : ℝ) := by
  have e : (m : ℝ) + n = ((m + n : ℤ) : ℝ) := by norm_cast
  exact add_at ha hb (by rw [e]; exact int_small h) (by rw [e]; exact round_form_eq (int_form h))

theorem int_sub {a b : F64} {m n : ℤ} (ha : a.1 = .fin m) (hb : b.1 = .fin n) (h : |m - n| < 2 ^ 53) :
    (a -. b).1 = .fin ((m - n : ℤ) : ℝ) := by
  have e : (m : ℝ) - n = ((m - n : ℤ) : ℝ) := by norm_cast
  exact sub_at ha hb (by rw [e]; exact int_small h) (by rw [e]; exact round_form_eq (int_form h))

theorem int_mul {a b : F64} {m n : ℤ} (ha : a.1 = .fin m) (hb : b.1 = .fin n) (h : |m * n| < 2 ^ 53) :
    (a *. b).1 = .fin ((m * n : ℤ) : ℝ) := by
  have e : (m : ℝ) * n = ((m * n : ℤ) : ℝ) := by norm_cast
  exact mul_at ha hb (by rw [e]; exact int_small h) (by rw [e]; exact round_form_eq (int_form h))

/-- A vector of integers. -/
def Is (v : V3 F64) (x y z : ℤ) : Prop := v.x.1 = .fin (x : ℝ) ∧ v.y.1 = .fin (y : ℝ) ∧ v.z.1 = .fin (z : ℝ)

/-- The length of a vector along z is exact. -/
theorem mag_z {v : V3 F64} {z : ℤ} (h : Is v 0 0 z) (hz : |z * z| < 2 ^ 53) : v.mag.1 = .fin |(z : ℝ)| := by
  have h1 := int_add (int_add (int_mul h.1 h.1 (by norm_num)) (int_mul h.2.1 h.2.1 (by norm_num)) (by norm_num))
    (int_mul h.2.2 h.2.2 hz) (by simpa using hz)
  have hz' : |(|z| : ℤ)| < 2 ^ 53 := by
    rw [abs_abs]
    rcases eq_or_ne z 0 with rfl | h0
    · norm_num
    · have h2 : 1 ≤ |z| := Int.one_le_abs h0
      rw [abs_mul] at hz
      nlinarith
  have e : Real.sqrt ((0 * 0 + 0 * 0 + z * z : ℤ) : ℝ) = ((|z| : ℤ) : ℝ) := by
    rw [show (0 * 0 + 0 * 0 + z * z : ℤ) = z ^ 2 by ring]
    push_cast
    rw [Real.sqrt_sq_eq_abs]
  unfold V3.mag V3.dot
  rw [sqrt_at h1 (by rw [show (0 * 0 + 0 * 0 + z * z : ℤ) = z ^ 2 by ring]; push_cast; positivity)
    (by rw [e]; exact int_small hz') rfl, e, round_form_eq (int_form hz')]
  push_cast
  rfl

/-- Where the laser starts. -/
noncomputable def source : V3 F64 := ⟨lit (0 : ℤ), lit (0 : ℤ), lit (1 : ℤ)⟩

/-- Where it is focused. -/
noncomputable def focus : V3 F64 := ⟨lit (0 : ℤ), lit (0 : ℤ), lit (0 : ℤ)⟩

theorem i0 : (lit (((0 : ℤ)) : ℚ) : F64).1 = .fin ((0 : ℤ) : ℝ) := int_lit 0 (by norm_num)

theorem i1 : (lit (((1 : ℤ)) : ℚ) : F64).1 = .fin ((1 : ℤ) : ℝ) := int_lit 1 (by norm_num)

theorem source_at : Is source 0 0 1 := ⟨i0, i0, i1⟩

theorem focus_at : Is focus 0 0 0 := ⟨i0, i0, i0⟩

theorem delay_at : (source.sub focus).mag.1 = .fin ((1 : ℤ) : ℝ) := by
  have : Is (source.sub focus) 0 0 1 :=
    ⟨int_sub i0 i0 (by norm_num), int_sub i0 i0 (by norm_num), int_sub i1 i0 (by norm_num)⟩
  rw [mag_z this (by norm_num)]
  norm_num

/-- The laser runs against the z axis, so its frame is turned by half a circle about y. -/
theorem turned : (source.direction focus).rotateToAxis V3.ez =
    { (M3.zeros : M3 F64) with m00 := lit (-1), m11 := lit 1, m22 := lit (-1) } := by
  have hd : Is (source.direction focus) 0 0 (-1) :=
    ⟨int_sub i0 i0 (by norm_num), int_sub i0 i0 (by norm_num), int_sub i0 i1 (by norm_num)⟩
  have he : Is (V3.ez : V3 F64) 0 0 1 := by
    refine ⟨?_, ?_, ?_⟩
    · show (lit 0 : F64).1 = _
      rw [zero_val]; norm_num
    · show (lit 0 : F64).1 = _
      rw [zero_val]; norm_num
    · show (lit 1 : F64).1 = _
      rw [one_val]; norm_num
  have unit : ∀ {v : V3 F64} {z : ℤ}, Is v 0 0 z → |(z : ℝ)| = 1 → |z * z| < 2 ^ 53 → Is v.norm 0 0 z := by
    intro v z h h1 h2
    have hm := mag_z h h2
    rw [h1] at hm
    exact ⟨div_one_at h.1 hm, div_one_at h.2.1 hm, div_one_at h.2.2 hm⟩
  have n1 := unit hd (by norm_num) (by norm_num)
  have n2 := unit he (by norm_num) (by norm_num)
  have s : Is ((source.direction focus).norm.add (V3.ez : V3 F64).norm) 0 0 0 :=
    ⟨int_add n1.1 n2.1 (by norm_num), int_add n1.2.1 n2.2.1 (by norm_num), int_add n1.2.2 n2.2.2 (by norm_num)⟩
  have hm : ((source.direction focus).norm.add (V3.ez : V3 F64).norm).mag2.1 = .fin 0 := by
    have := int_add (int_add (int_mul s.1 s.1 (by norm_num)) (int_mul s.2.1 s.2.1 (by norm_num)) (by norm_num))
      (int_mul s.2.2 s.2.2 (by norm_num)) (by norm_num)
    unfold V3.mag2 V3.dot
    rw [this]
    norm_num
  unfold V3.rotateToAxis
  rw [if_pos]
  show (_ <=. (lit 1e-10 : F64).1) = true
  rw [hm]
  show ((XR.fin 0) <=. F64.rnd (.fin (((1e-10 : ℚ)) : ℝ))) = true
  rw [rnd_fin (by norm_num [abs_of_pos])]
  have := round_nonneg (x := (((1e-10 : ℚ)) : ℝ)) (by norm_num)
  simpa using this

/-- The z component in the frame of the laser. -/
theorem turned_z {v : V3 F64} {z : ℤ} (h : Is v 0 0 z) (hz : |z| < 2 ^ 53) :
    Is (((source.direction focus).rotateToAxis V3.ez).mulVec v) 0 0 (-z) := by
  rw [turned]
  have z0 : (lit 0 : F64).1 = .fin ((0 : ℤ) : ℝ) := by rw [zero_val]; norm_num
  have o1 : (lit 1 : F64).1 = .fin ((1 : ℤ) : ℝ) := by rw [one_val]; norm_num
  have m1 : (lit (-1) : F64).1 = .fin ((-1 : ℤ) : ℝ) := by rw [Flight.minus_val]; norm_num
  have acc : ∀ {a1 b1 a2 b2 a3 b3 : F64} {k1 k2 k3 l1 l2 l3 : ℤ}, a1.1 = .fin k1 → b1.1 = .fin l1 → a2.1 = .fin k2 →
      b2.1 = .fin l2 → a3.1 = .fin k3 → b3.1 = .fin l3 → k1 * l1 = 0 → k2 * l2 = 0 → |k3 * l3| < 2 ^ 53 →
      (M3.acc3 a1 b1 a2 b2 a3 b3).1 = .fin ((k3 * l3 : ℤ) : ℝ) := by
    intro a1 b1 a2 b2 a3 b3 k1 k2 k3 l1 l2 l3 h1 h2 h3 h4 h5 h6 e1 e2 e3
    have p1 := int_mul h1 h2 (by rw [e1]; norm_num)
    rw [e1] at p1
    have p2 := int_mul h3 h4 (by rw [e2]; norm_num)
    rw [e2] at p2
    have := int_add (int_add (int_add z0 p1 (by norm_num)) p2 (by norm_num)) (int_mul h5 h6 e3) (by simpa using e3)
    unfold M3.acc3
    rw [this]
    norm_num
  refine ⟨?_, ?_, ?_⟩
  · have := acc m1 h.1 z0 h.2.1 z0 h.2.2 (by norm_num) (by norm_num) (by norm_num)
    rw [zero_mul] at this
    exact this
  · have := acc z0 h.1 o1 h.2.1 z0 h.2.2 (by norm_num) (by norm_num) (by norm_num)
    rw [zero_mul] at this
    exact this
  · have := acc z0 h.1 z0 h.2.1 m1 h.2.2 (by norm_num) (by norm_num) (by rwa [neg_one_mul, abs_neg])
    rw [neg_one_mul] at this
    exact this

/-- A strong Gaussian pulse of duration 1/16, with its focus at the origin. -/
noncomputable def laser : GaussField F64 :=
  .new (lit 1000) (lit 1) (lit (1 / 16)) (lit 1) (lit 0) source focus

/-- A photon of energy 1 that starts at z = -3 and runs towards the laser. -/
noncomputable def photon : Particle F64 :=
  .newPhoton ⟨lit (0 : ℤ), lit (0 : ℤ), lit (-3 : ℤ)⟩ ⟨lit (0 : ℤ), lit (0 : ℤ), lit (1 : ℤ)⟩ (lit 1) (lit (0 : ℤ)) false
    (lit (1 / 2))

/-- Where a photon of energy 1 is after a step of length 1. -/
theorem pushed {p : Particle F64} {z t : ℤ} (ha : p.isAlive = true) (hm : p.mass = lit 0) (hp : Is p.position 0 0 z)
    (hq : Is p.momentum 0 0 1) (ht : p.time.1 = .fin t) (hz : |z + 1| < 2 ^ 53) (ht' : |t + 1| < 2 ^ 53)
    (push : PushMom F64) (field : Field F64) :
    Is (pushParticle push field (lit 1) p).position 0 0 (z + 1) ∧ Is (pushParticle push field (lit 1) p).momentum 0 0 1 ∧
      (pushParticle push field (lit 1) p).time.1 = .fin ((t + 1 : ℤ) : ℝ) := by
  have o1 : (lit 1 : F64).1 = .fin ((1 : ℤ) : ℝ) := by rw [one_val]; norm_num
  have hmag := mag_z hq (by norm_num)
  have hs : (lit 1 /. p.momentum.mag : F64).1 = .fin ((1 : ℤ) : ℝ) := div_one_at o1 (by rw [hmag]; norm_num)
  have h0 : (p.mass ==. lit 0) = true := by
    rw [hm]
    show ((lit 0 : F64).1 ==. (lit 0 : F64).1) = true
    rw [zero_val]
    simp
  have e : (pushParticle push field (lit 1) p).position = p.position.add (p.momentum.smul (lit 1 /. p.momentum.mag)) ∧
      (pushParticle push field (lit 1) p).momentum = p.momentum ∧
      (pushParticle push field (lit 1) p).time = p.time +. lit 1 := by
    unfold pushParticle
    rw [if_neg (by simp [ha]), if_pos h0]
    unfold Particle.updateTrack Particle.updateTime
    dsimp only
    split_ifs <;> exact ⟨rfl, rfl, rfl⟩
  rw [e.1, e.2.1, e.2.2]
  refine ⟨⟨?_, ?_, ?_⟩, hq, int_add ht o1 ht'⟩
  · have := int_add hp.1 (int_mul hs hq.1 (by norm_num)) (by norm_num)
    rw [mul_zero, add_zero] at this
    exact this
  · have := int_add hp.2.1 (int_mul hs hq.2.1 (by norm_num)) (by norm_num)
    rw [mul_zero, add_zero] at this
    exact this
  · have := int_add hp.2.2 (int_mul hs hq.2.2 (by norm_num)) (by rwa [mul_one])
    rw [mul_one] at this
    exact this

/-- How late the pulse is where the photon is. -/
theorem late {x : V3 F64} {time : F64} {z t : ℤ} (hx : Is x 0 0 z) (ht : time.1 = .fin t) (hz : |z| < 2 ^ 53)
    (h1 : |t - 1| < 2 ^ 53) (h2 : |t - 1 - -z| < 2 ^ 53) :
    (time -. (source.sub focus).mag -. (((source.direction focus).rotateToAxis V3.ez).mulVec x).z).1 =
      .fin ((t - 1 - -z : ℤ) : ℝ) :=
  int_sub (int_sub ht delay_at h1) (turned_z hx hz).2.2 h2

theorem photon_first (push : PushMom F64) (field : Field F64) :
    Is (pushParticle push field (lit 1) photon).position 0 0 (-2) ∧
      Is (pushParticle push field (lit 1) photon).momentum 0 0 1 ∧
      (pushParticle push field (lit 1) photon).time.1 = .fin ((1 : ℤ) : ℝ) :=
  pushed (p := photon) (z := -3) (t := 0) rfl rfl ⟨i0, i0, int_lit (-3) (by norm_num)⟩ ⟨i0, i0, i1⟩ i0 (by norm_num)
    (by norm_num) push field

theorem photon_second (push : PushMom F64) (field : Field F64) :
    Is ((pushParticle push field (lit 1))^[2] photon).position 0 0 (-1) ∧
      ((pushParticle push field (lit 1))^[2] photon).time.1 = .fin ((2 : ℤ) : ℝ) := by
  obtain ⟨h1, h2, h3⟩ := photon_first push field
  obtain ⟨-, i2, -, -, -, i6, -⟩ := push_identity push field (lit 1) photon
  obtain ⟨a, -, c⟩ := pushed (p := pushParticle push field (lit 1) photon) i6 i2 h1 h2 h3 (by norm_num) (by norm_num)
    push field
  exact ⟨a, c⟩

theorem tau_at : (laser.tau).1 = .fin (1 / 16) := by
  have hf : Form (1 / 16 : ℝ) := ⟨1, -4, by norm_num, by norm_num, by norm_num⟩
  show F64.rnd (.fin (((1 / 16 : ℚ)) : ℝ)) = _
  rw [show (((1 / 16 : ℚ)) : ℝ) = 1 / 16 by norm_num, rnd_fin (by norm_num [abs_of_pos]), round_form_eq hf]

/-- After the first step the photon is 32 pulse lengths before the pulse. -/
theorem far (push : PushMom F64) (field : Field F64) : laser.Far (pushParticle push field (lit 1) photon).time
    (pushParticle push field (lit 1) photon).position := by
  obtain ⟨h1, -, h3⟩ := photon_first push field
  refine ⟨_, _, late h1 h3 (by norm_num) (by norm_num) (by norm_num), tau_at, ?_, ?_, ?_⟩
  · norm_num
  · norm_num
  · norm_num

/-- After the second it is at the centre. -/
theorem centre (push : PushMom F64) (field : Field F64) :
    (((pushParticle push field (lit 1))^[2] photon).time -. (laser.startPos.sub laser.focusPos).mag -.
      (laser.rotation.mulVec ((pushParticle push field (lit 1))^[2] photon).position).z).1 = .fin 0 := by
  obtain ⟨h1, h3⟩ := photon_second push field
  have := late h1 h3 (by norm_num) (by norm_num) (by norm_num)
  refine this.trans ?_
  norm_num

/-- A focusing pulse of duration 1 with its focus at the origin. -/
noncomputable def focusing : FocusField F64 :=
  .new (lit 1000) (lit 1) (lit 1) (lit 1) (lit 0) source focus

/-- A photon at z = -1 when the pulse has long gone. -/
noncomputable def after : Particle F64 :=
  .newPhoton ⟨lit (0 : ℤ), lit (0 : ℤ), lit (-1 : ℤ)⟩ ⟨lit (0 : ℤ), lit (0 : ℤ), lit (1 : ℤ)⟩ (lit 1) (lit (98 : ℤ)) false
    (lit (1 / 2))

theorem rayleigh_at : ∃ x, focusing.rayleigh.1 = .fin x ∧ x ≠ 0 := by
  have litone : ∀ (q : ℚ) (k : ℕ), 1 ≤ (q : ℝ) → |(q : ℝ)| ≤ 2 ^ k → k ≤ 1000 → AtLeastOne (lit q) k := by
    intro q k h1 h hk
    refine ⟨_, ?_, le_round form_one h1, (le_abs_self _).trans (round_bound h)⟩
    show F64.rnd (.fin (q : ℝ)) = _
    rw [rnd_fin (below h (by omega))]
  have l1 := litone 1 0 (by norm_num) (by norm_num) (by norm_num)
  have h1 : AtLeastOne (lit 2 *. Units.pi : F64) (1 + 2) :=
    (litone 2 1 (by norm_num) (by norm_num) (by norm_num)).mul
      (litone 3.14159265359 2 (by norm_num) (by norm_num [abs_of_pos]) (by norm_num)) (by norm_num)
  have h2 : AtLeastOne (lit 2 *. Units.pi /. lit 1 : F64) (1 + 2) := by
    obtain ⟨x, a, b⟩ := h1
    exact ⟨x, div_one_at a one_val, b⟩
  obtain ⟨x, a, b, c⟩ := (h2.mul l1 (by norm_num)).mul l1 (by norm_num)
  have hb : |x / 2| ≤ 2 ^ 3 := by
    rw [abs_of_nonneg (by linarith)]
    norm_num at c ⊢
    linarith
  refine ⟨_, div_at a two_val two_ne_zero (below hb (by norm_num)) rfl, ?_⟩
  have := le_round (show Form (1 / 2 : ℝ) from ⟨1, -1, by norm_num, by norm_num, by norm_num⟩)
    (show 1 / 2 ≤ x / 2 by linarith)
  linarith

theorem envelope_zero {p : V3 F64} (hp : Is p 0 0 0) {time : F64}
    (hu : (time -. focusing.t0 -. p.z).1 = .fin ((98 : ℤ) : ℝ)) : (focusing.envelope time p).1 = .fin 0 := by
  obtain ⟨ρ, hr, hr0⟩ := rayleigh_at
  have c0 : ((0 : ℤ) : ℝ) = 0 := by norm_num
  obtain ⟨hx, hy, hz⟩ := hp
  rw [c0] at hx hy hz
  have hze := zero_div_at hz hr hr0
  have h1w : (lit 1 +. p.z /. focusing.rayleigh *. (p.z /. focusing.rayleigh) : F64).1 = .fin 1 :=
    add_zero_at one_val (zero_mul_at hze hze)
  have hs := sqrt_at (z := 1) h1w zero_le_one (by rw [Real.sqrt_one]; norm_num)
    (by rw [Real.sqrt_one]; exact round_form_eq form_one)
  have hw := one_mul_at (one_val : (lit 1 : F64).1 = .fin 1) hs
  have hww := one_mul_at hw hw
  have hr2 := add_zero_at (zero_mul_at hx hx) (zero_mul_at hy hy)
  have hn : (-. (p.x *. p.x +. p.y *. p.y) : F64).1 = .fin 0 := by
    rw [F64.neg_val, hr2]
    simp
  have hq := zero_div_at hn hww one_ne_zero
  have huu := div_one_at (int_mul hu hu (by norm_num)) (one_mul_at one_val one_val : (lit 1 *. lit 1 : F64).1 = _)
  have harg := int_sub (m := 0) (hq.trans (by rw [c0])) huu (by norm_num)
  have hexp : (Dbl.exp ((-. (p.x *. p.x +. p.y *. p.y)) /. (lit 1 *. Dbl.sqrt (lit 1 +. p.z /. focusing.rayleigh *. (p.z /. focusing.rayleigh)) *.
      (lit 1 *. Dbl.sqrt (lit 1 +. p.z /. focusing.rayleigh *. (p.z /. focusing.rayleigh)))) -.
      (time -. focusing.t0 -. p.z) *. (time -. focusing.t0 -. p.z) /. (lit 1 *. lit 1)) : F64).1 = .fin 0 := by
    show F64.rnd (XR.exp _) = _
    rw [harg]
    show F64.rnd (.fin (Real.exp _)) = _
    have hsmall : |Real.exp ((0 - 98 * 98 : ℤ) : ℝ)| ≤ 2 ^ (-1100 : ℤ) := by
      rw [abs_of_pos (Real.exp_pos _)]
      exact (Real.exp_le_exp.mpr (by norm_num)).trans exp_800
    rw [rnd_fin (lt_of_le_of_lt hsmall (by
      refine lt_of_le_of_lt (zpow_le_one_of_nonpos₀ (by norm_num) (by norm_num)) (by norm_num))),
      FlightWitness.round_tiny hsmall]
  exact mul_zero_at (int_lit 1000 (by norm_num)) hexp

theorem beyond (push : PushMom F64) (field : Field F64) : focusing.Beyond (pushParticle push field (lit 1) after).time
    (pushParticle push field (lit 1) after).position := by
  obtain ⟨h1, -, h3⟩ := pushed (p := after) (z := -1) (t := 98) rfl rfl ⟨i0, i0, int_lit (-1) (by norm_num)⟩
    ⟨i0, i0, i1⟩ (int_lit 98 (by norm_num)) (by norm_num) (by norm_num) push field
  have hu := late h1 h3 (by norm_num) (by norm_num) (by norm_num)
  have hp := turned_z h1 (by norm_num)
  have he : (focusing.envelope (pushParticle push field (lit 1) after).time
      (focusing.rotation.mulVec (pushParticle push field (lit 1) after).position)).1 = .fin 0 := envelope_zero hp hu
  show (_ <. (lit 1e-15 : F64).1) = true
  have hl : (lit 1e-15 : F64).1 = .fin (F64.round (1e-15 : ℚ)) := by
    show F64.rnd (.fin (((1e-15 : ℚ)) : ℝ)) = _
    rw [rnd_fin (by norm_num [abs_of_pos])]
  have hpos : 0 < F64.round (((1e-15 : ℚ)) : ℝ) := by
    have := le_round (show Form (1 / 2 ^ 60 : ℝ) from ⟨1, -60, by norm_num, by norm_num, by norm_num⟩)
      (show 1 / 2 ^ 60 ≤ (((1e-15 : ℚ)) : ℝ) by norm_num)
    linarith
  rw [he, hl]
  simpa using hpos

end OutsideWitness

open OutsideWitness in
/-- The hypotheses of `C152_refuted` and `C152_gauss_refuted`: the tables load, and there is an event of two steps. After
the first the photon is outside the pulse, after the second it is at its centre. -/
example (dir : List Char) : ∃ (t : Pairs F64) (b : BWCfg F64) (cfg : SimCfg F64),
    loadPairs (some dir) (Shipped.tables dir) = .ok t ∧ t.Gives b ∧ b.field = laser.getField ∧
    cfg.procs = [] ++ [.breitWheeler b] ∧ photon.isAlive = true ∧ photon.kind = .photon ∧ photon.mass = lit 0 ∧
    laser.Far (pushParticle cfg.push cfg.field cfg.dt photon).time (pushParticle cfg.push cfg.field cfg.dt photon).position ∧
    InDark b.field (pushParticle cfg.push cfg.field cfg.dt photon) ∧
    (((pushParticle cfg.push cfg.field cfg.dt)^[2] photon).time -. (laser.startPos.sub laser.focusPos).mag -.
      (laser.rotation.mulVec ((pushParticle cfg.push cfg.field cfg.dt)^[2] photon).position).z).1 = .fin 0 ∧
    ∀ r : MCTools.Rng F64, ∃ l', Event cfg ⟨"gamma", 10, [photon]⟩ r [] 2 l' r [] := by
  obtain ⟨m, -, t, -, ht, -, -, -, -, -, h1, h2, h3, h4, h5⟩ := C98_loaded (D := F64) dir
  have hg : t.Gives (bwCfg m laser.getField (lit 1)) := ⟨h1, h2, h3, h4, h5⟩
  have hdark : InDark laser.getField (pushParticle lorentzForce laser.getField (lit 1) photon) :=
    gauss_dark (far lorentzForce laser.getField)
  refine ⟨t, bwCfg m laser.getField (lit 1), ⟨lorentzForce, laser.getField, lit 1, lit 2,
    [.breitWheeler (bwCfg m laser.getField (lit 1))]⟩, ht, hg, rfl, rfl, rfl, rfl, rfl, far _ _, hdark, centre _ _, ?_⟩
  intro r
  generalize hcfg : (⟨lorentzForce, laser.getField, lit 1, lit 2,
    [.breitWheeler (bwCfg m laser.getField (lit 1))]⟩ : SimCfg F64) = cfg
  have hp : cfg.procs = [] ++ [.breitWheeler (bwCfg m laser.getField (lit 1))] := by rw [← hcfg]; rfl
  have hfl := shipped_flat dir t ht hg
  have hmuted : MutedPhoton (bwCfg m laser.getField (lit 1)) (pushParticle cfg.push cfg.field cfg.dt photon) := by
    rw [← hcfg]
    obtain ⟨i1, i2, -, -, -, i6, -⟩ := push_identity lorentzForce laser.getField (lit 1) photon
    exact ⟨i6, i1, i2, .inl hdark⟩
  have hd : cfg.dt = lit 1 := by rw [← hcfg]
  have hend : cfg.timeEnd = lit 2 := by rw [← hcfg]
  have s1 := timeStep_photon (by simp) hp hfl hmuted "gamma" (mx := 10) (by norm_num) r (lit 0)
  have m2 := muted_photon_push (b := bwCfg m laser.getField (lit 1))
    (p := { pushParticle cfg.push cfg.field cfg.dt photon with opticalDepth := F64.nan }) hmuted.1 hmuted.2.1
    hmuted.2.2.1 rfl cfg.push cfg.field cfg.dt
  have s2 := timeStep_photon (by simp) hp hfl m2 "gamma" (mx := 10) (by norm_num) r (lit 0 +. cfg.dt)
  have t1 : (lit 0 +. cfg.dt : F64).1 = .fin 1 := by rw [hd]; exact zero_add_at zero_val one_val
  have e1 : (lit 0 +. cfg.dt : F64) = lit 1 := Flight.eq_of_val t1 one_val
  have two : (lit 1 +. lit 1 : F64).1 = .fin 2 := by
    refine add_at one_val one_val (below (k := 1) (by norm_num [abs_of_pos]) (by norm_num)) ?_
    rw [show (1 : ℝ) + 1 = 2 ^ 1 by norm_num, round_form_eq (form_two 1)]
    norm_num
  have lt1 : ((lit 0 : F64) <. cfg.timeEnd) = true := by
    rw [hend]
    show ((lit 0 : F64).1 <. (lit 2 : F64).1) = true
    rw [zero_val, two_val]; simp
  have lt2 : ((lit 0 +. cfg.dt : F64) <. cfg.timeEnd) = true := by
    rw [hend]
    show ((lit 0 +. cfg.dt : F64).1 <. (lit 2 : F64).1) = true
    rw [t1, two_val]; simp
  have lt3 : ((lit 0 +. cfg.dt +. cfg.dt : F64) <. cfg.timeEnd) = false := by
    rw [e1, hend, hd]
    show ((lit 1 +. lit 1 : F64).1 <. (lit 2 : F64).1) = false
    rw [two, two_val]; simp
  exact ⟨_, .mk (.step lt1 s1 (.step lt2 s2 (.done lt3))) rfl⟩

open OutsideWitness in
/-- The hypotheses of `C152_focusing_refuted` about field and photon. -/
example (cfg : SimCfg F64) (h : cfg.dt = lit 1) : after.isAlive = true ∧ after.kind = .photon ∧ after.mass = lit 0 ∧
    focusing.Beyond (pushParticle cfg.push cfg.field cfg.dt after).time
      (pushParticle cfg.push cfg.field cfg.dt after).position := by
  rw [h]
  exact ⟨rfl, rfl, rfl, beyond _ _⟩

open OutsideWitness RestWitness in
/-- The hypotheses of `C152_inside_partial`, for a photon along z in a strong field. -/
example (b : BWCfg F64) (h : b.field = staticField ⟨lit 1048576, lit 0, lit 0⟩ z) :
    let p : Particle F64 := .newPhoton z ⟨lit 0, lit 0, lit 2⟩ (lit 1) (lit 2) false (lit (1 / 2))
    p.kind = .photon ∧ (∃ a : Fin 3 → ℝ, p.momentum.At a ∧ 2 ≤ len a ∧ len a ≤ 2 ^ 100) ∧
    ∃ E B : Fin 3 → ℝ, (b.field p.time p.position).1.At E ∧ (b.field p.time p.position).2.At B ∧
      (∀ i, |E i| ≤ 2 ^ 100) ∧ ∀ i, |B i| ≤ 2 ^ 100 := by
  have hl : len ![(0 : ℝ), 0, 2] = 2 := by simp [len]
  refine ⟨rfl, ⟨![0, 0, 2], ⟨zero_val, zero_val, two_val⟩, ?_, ?_⟩, ![1048576, 0, 0], fun _ => 0, ?_, ?_, ?_, ?_⟩
  · rw [hl]
  · rw [hl]; norm_num
  · rw [h]
    exact ⟨int_lit 1048576 (by norm_num), zero_val, zero_val⟩
  · rw [h]
    exact z_at
  · intro i
    fin_cases i <;> norm_num
  · intro i
    norm_num

end QED
