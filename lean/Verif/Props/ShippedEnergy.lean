import Verif.Props.ShippedSplit

set_option autoImplicit false

/-!
# Property C100: the energy of emitted photons, with the tables that come with the program
-/

namespace QED

open Dbl TableFile MCTools Numerics

namespace Shipped

/-! ## In the table -/

theorem value_le {a b : Tok} (ha : a.ok = true) (hb : b.ok = true) (h : a.units ≤ b.units) :
    a.numeral.value ≤ b.numeral.value := by
  rw [(Tok.good ha).value, (Tok.good hb).value]
  have : (a.units : ℚ) ≤ b.units := by exact_mod_cast h
  gcongr

theorem cdf_cumulative {ts : List Tok} (h : cdf ts = true) : Cumulative (nums ts) := by
  obtain ⟨h1, h2, -, -, h5⟩ := cdf_spec h
  simp only [cdf, Bool.and_eq_true, decide_eq_true_eq, beq_iff_eq, List.all_eq_true] at h
  obtain ⟨⟨⟨-, h3⟩, h4⟩, -⟩ := h
  refine ⟨?_, ?_, ?_⟩
  · rw [nums, List.pairwise_map]
    exact (mono_pairwise h3).imp_of_mem fun ha hb h => value_le (h2 _ ha) (h2 _ hb) h
  · cases hq : ts[99]? with
    | none => rw [hq] at h4; cases h4
    | some t =>
      rw [hq] at h4
      have hu : t.units = 10 ^ 40 := Option.some.inj h4
      refine ⟨t.numeral, ?_, ?_⟩
      · rw [nums, List.getLast?_map, List.getLast?_eq_getElem?, h1, hq]
        rfl
      · rw [(Tok.good (h2 t (List.mem_of_getElem? hq))).value, hu]
        norm_num
  · intro a b ha hb
    match ts, h1, h2, h5, ha, hb with
    | x :: y :: rest, h1, h2, h5, ha, hb =>
      obtain rfl : x.numeral = a := by simpa [nums] using ha
      obtain rfl : y.numeral = b := by simpa [nums] using hb
      rw [(Tok.good (h2 x (by simp))).value, (Tok.good (h2 y (by simp))).value]
      rcases h5 x y rest rfl with h | h
      · left; rw [h]; norm_num
      · right
        have : (x.units : ℚ) < y.units := by exact_mod_cast h.2
        gcongr

theorem logMin_value : logMin.numeral.value = -5 := by
  rw [(Tok.good (by decide : logMin.ok = true)).value]
  norm_num [Tok.units, Tok.size, Tok.width, Tok.down, logMin]

theorem logMax_value : logMax.numeral.value = 1 := by
  rw [(Tok.good (by decide : logMax.ok = true)).value]
  norm_num [Tok.units, Tok.size, Tok.width, Tok.down, logMax]

theorem chiMin_value {i : Nat} {x : Numeral} (h : (nums chiMin)[i]? = some x) :
    0 < x.value ∧ (x.value : ℝ) ≤ 0.000001 := by
  obtain ⟨t, ht, rfl⟩ := List.mem_map.1 (List.mem_of_getElem? h)
  have := List.all_eq_true.1 chiMin_range t ht
  simp only [Bool.and_eq_true, decide_eq_true_eq] at this
  obtain ⟨⟨h0, h1⟩, h2⟩ := this
  constructor
  · rw [(Tok.good h0).value]
    have : (0 : ℚ) < t.units := by exact_mod_cast h1
    positivity
  · rw [ok_val h0, val, div_le_iff₀ (by norm_num)]
    have : (t.units : ℝ) ≤ 5000000000000002 * 10 ^ 18 := by exact_mod_cast h2
    linarith

/-- The tables of photon emission are as C38 supposes them. -/
theorem halfEta (dir : List Char) (t : Emission ℝ) (hl : loadEmission (some dir) (tables dir) = .ok t)
    (cfg : EmissionCfg ℝ) (hg : t.Gives cfg) : HalfEtaTables cfg := by
  have hlen : (rowNums ksiRows).length = 100 := by rw [rowNums, List.length_map, ksi_length]
  refine loaded_half_eta dir _ _ _ _ _ _ _ _ _ (files_h dir) (files_ksi dir) (files_chiMin dir) h_file ksi_file
    (by omega) (by rw [logMin_value, logMax_value]; norm_num) ?_ ?_ t hl cfg hg
  · intro r hr
    obtain ⟨ts, hts, rfl⟩ := List.mem_map.1 hr
    exact cdf_cumulative (List.all_eq_true.1 ksi_cdf ts hts)
  · intro i x hx
    obtain ⟨h1, h2⟩ := chiMin_value hx
    refine ⟨h1, h2.trans ?_⟩
    have : (10 : ℝ) ^ (-5 : ℝ) ≤ 10 ^ logEta (rowNums ksiRows).length logMin.numeral logMax.numeral i := by
      refine Real.rpow_le_rpow_of_exponent_le (by norm_num) ?_
      unfold logEta
      rw [logMin_value, logMax_value, hlen]
      push_cast
      have : (0 : ℝ) ≤ i := Nat.cast_nonneg i
      have : (0 : ℝ) ≤ (1 - -5) * (i / (100 - 1)) := by positivity
      linarith
    have h5 : (10 : ℝ) ^ (-5 : ℝ) = 0.00001 := by
      rw [show (-5 : ℝ) = ((-5 : ℤ) : ℝ) by norm_num, Real.rpow_intCast]
      norm_num
    rw [h5] at this
    linarith

/-! ## Below the table -/

/-- Values on a straight line over the columns. -/
def Straight (c : List ℝ) (a w : ℝ) : Prop := c.length = 100 ∧ ∀ j : Nat, j < 100 → c[j]? = some (a + w * (j / 99))

theorem straight_get {c : List ℝ} {a w : ℝ} (h : Straight c a w) {j : Nat} (hj : j < c.length) :
    c[j] = a + w * (j / 99) := by
  have := h.2 j (by have := h.1; omega)
  rw [List.getElem?_eq_getElem hj] at this
  exact Option.some.inj this

theorem straight_segment {s c : List ℝ} {a w : ℝ} (h : Straight c a w) (hs : MonoTable s c) {u : ℝ} {i : Nat}
    (hi : i + 1 < s.length) (h0 : s[i] ≤ u) (h1 : u < s[i + 1]) :
    interpolate1D s c u = .ok (a + w * ((i + (u - s[i]) / (s[i + 1] - s[i])) / 99)) := by
  have hl := hs.len
  have hpos : 0 < s[i + 1] - s[i] := by linarith
  rw [C05_on_segment_ties hs u i hi h0 h1, straight_get h (by omega), straight_get h (by omega)]
  unfold lineThrough
  congr 1
  push_cast
  field_simp
  ring

theorem straight_first {s c : List ℝ} {a w : ℝ} (h : Straight c a w) (hs : MonoTable s c) {u : ℝ}
    (h0 : u < s[0]'(by have := hs.two; omega)) :
    interpolate1D s c u = .ok (a + w * (((u - s[0]'(by have := hs.two; omega)) /
      (s[1]'(by have := hs.two; omega) - s[0]'(by have := hs.two; omega))) / 99)) := by
  have hl := hs.len
  have h2 := hs.two
  have e0 := straight_get h (show 0 < c.length by omega)
  have e1 := straight_get h (show 1 < c.length by omega)
  unfold interpolate1D
  dsimp only
  rw [rd_ok (show 0 < s.length by omega), Res.ok_bind, if_pos (by rw [real_lt]; simpa using h0),
    rd_ok (show 0 < c.length by omega), Res.ok_bind, rd_ok (show 1 < c.length by omega), Res.ok_bind,
    rd_ok (show 1 < s.length by omega), Res.ok_bind, e0, e1]
  simp only [real_add, real_mul, real_div, real_sub]
  congr 1
  push_cast
  ring

/-- Two rows of cumulative probabilities, one nowhere above the other: a draw finds its column in the lower
row no earlier than in the upper one. -/
theorem columns {s t c d : List ℝ} {a w b v u : ℝ} (hc : Straight c a w) (hd : Straight d b v)
    (hs : MonoTable s c) (ht : MonoTable t d)
    (hls : s[99]? = some 1) (hlt : t[99]? = some 1)
    (hle : ∀ (i : Nat) (x y : ℝ), s[i]? = some x → t[i]? = some y → y ≤ x)
    (hslope : ∀ x0 x1 y0 y1 : ℝ, s[0]? = some x0 → s[1]? = some x1 → t[0]? = some y0 → t[1]? = some y1 →
      0 < x1 - x0 ∧ 0 < y1 - y0 ∧ y0 * (x1 - x0) ≤ x0 * (y1 - y0))
    (h0 : 0 ≤ u) (h1 : u < 1) :
    ∃ k l : ℝ, k ≤ l ∧ k ≤ 99 ∧ interpolate1D s c u = .ok (a + w * (k / 99)) ∧
      interpolate1D t d u = .ok (b + v * (l / 99)) := by
  have hsl : s.length = 100 := by have := hs.len; have := hc.1; omega
  have htl : t.length = 100 := by have := ht.len; have := hd.1; omega
  have hle' : ∀ (i : Nat) (hi : i < 100), t[i] ≤ s[i] := fun i hi =>
    hle i _ _ (List.getElem?_eq_getElem _) (List.getElem?_eq_getElem _)
  have es : s[99] = 1 := by
    rw [List.getElem?_eq_getElem (by omega)] at hls; exact Option.some.inj hls
  have et : t[99] = 1 := by
    rw [List.getElem?_eq_getElem (by omega)] at hlt; exact Option.some.inj hlt
  obtain ⟨p1, p2, p3⟩ := hslope s[0] s[1] t[0] t[1] (List.getElem?_eq_getElem (by omega))
    (List.getElem?_eq_getElem (by omega)) (List.getElem?_eq_getElem (by omega))
    (List.getElem?_eq_getElem (by omega))
  have seg : ∀ (z : List ℝ) (hz : z.length = 100), z[0] ≤ u → z[99] = 1 →
      ∃ i, ∃ hi : i + 1 < z.length, z[i] ≤ u ∧ u < z[i + 1] := by
    intro z hz hz0 hz1
    exact exists_segment (by omega) hz0 (by simpa [hz, hz1] using h1)
  by_cases hu : s[0] ≤ u
  · obtain ⟨i, hi, g0, g1⟩ := seg s hsl hu es
    obtain ⟨j, hj, g2, g3⟩ := seg t htl ((hle' 0 (by omega)).trans hu) et
    refine ⟨_, _, ?_, ?_, straight_segment hc hs hi g0 g1, straight_segment hd ht hj g2 g3⟩
    · have hij : i ≤ j := by
        by_contra hn
        have a1 : t[j + 1] ≤ t[i]'(by omega) := mono_le ht.mono (by omega) (by omega)
        have a2 := hle' i (by omega)
        linarith
      have q1 : (u - s[i]) / (s[i + 1] - s[i]) ≤ 1 := by rw [div_le_one (by linarith)]; linarith
      have q2 : 0 ≤ (u - t[j]) / (t[j + 1] - t[j]) := div_nonneg (by linarith) (by linarith)
      rcases hij.lt_or_eq with h | rfl
      · have : (i : ℝ) + 1 ≤ j := by exact_mod_cast h
        linarith
      · have a1 := hle' i (by omega)
        have a2 := hle' (i + 1) (by omega)
        have : (u - s[i]) / (s[i + 1] - s[i]) ≤ (u - t[i]) / (t[i + 1] - t[i]) := by
          rw [div_le_div_iff₀ (by linarith) (by linarith)]
          nlinarith
        linarith
    · have q1 : (u - s[i]) / (s[i + 1] - s[i]) ≤ 1 := by rw [div_le_one (by linarith)]; linarith
      have : (i : ℝ) + 1 ≤ 99 := by
        have : i + 1 ≤ 99 := by omega
        exact_mod_cast this
      linarith
  · have hu := not_le.1 hu
    have k0 : (u - s[0]) / (s[1] - s[0]) ≤ 0 := div_nonpos_of_nonpos_of_nonneg (by linarith) p1.le
    by_cases hv : t[0] ≤ u
    · obtain ⟨j, hj, g2, g3⟩ := seg t htl hv et
      refine ⟨_, _, ?_, ?_, straight_first hc hs hu, straight_segment hd ht hj g2 g3⟩
      · have q2 : 0 ≤ (u - t[j]) / (t[j + 1] - t[j]) := div_nonneg (by linarith) (by linarith)
        have : (0 : ℝ) ≤ j := Nat.cast_nonneg j
        linarith
      · linarith
    · have hv := not_le.1 hv
      refine ⟨_, _, ?_, ?_, straight_first hc hs hu, straight_first hd ht hv⟩
      · rw [div_le_div_iff₀ p1 p2]
        have a1 := hle' 0 (by omega)
        have y0 : (0 : ℝ) < t[0] := lt_of_le_of_lt h0 hv
        have key : (0 : ℝ) ≤ t[0] * ((u - t[0]) * (s[1] - s[0]) - (u - s[0]) * (t[1] - t[0])) := by
          have e : t[0] * ((u - t[0]) * (s[1] - s[0]) - (u - s[0]) * (t[1] - t[0])) =
              (t[0] - u) * (s[0] * (t[1] - t[0]) - t[0] * (s[1] - s[0])) +
                u * ((s[0] - t[0]) * (t[1] - t[0])) := by ring
          rw [e]
          have := mul_nonneg (sub_nonneg.2 hv.le) (sub_nonneg.2 p3)
          have := mul_nonneg h0 (mul_nonneg (sub_nonneg.2 a1) p2.le)
          linarith
        have := nonneg_of_mul_nonneg_right key y0
        linarith
      · linarith

/-- The first two rows of the energy tables. -/
structure FirstRows (cfg : EmissionCfg ℝ) : Prop where
  axis : cfg.etaAxis.length = 100 ∧ cfg.etaAxis[0]? = some (-5 : ℝ) ∧ cfg.etaAxis[1]? = some (-5 + 2 / 33 : ℝ)
  rows : cfg.phEnTable[0]? = some (ksi0.map val) ∧ cfg.phEnTable[1]? = some (ksi1.map val)
  chi : ∃ c d, cfg.chiAxis[0]? = some c ∧ cfg.chiAxis[1]? = some d ∧
    Straight c (Real.logb 10 5.000000000000005e-18)
      (-5 - Real.logb 10 2 - Real.logb 10 5.000000000000005e-18) ∧
    Straight d (Real.logb 10 5.748784976988682e-18)
      (-5 + 2 / 33 - Real.logb 10 2 - Real.logb 10 5.748784976988682e-18)

theorem firstRows (dir : List Char) (t : Emission ℝ) (hl : loadEmission (some dir) (tables dir) = .ok t)
    (cfg : EmissionCfg ℝ) (hg : t.Gives cfg) : FirstRows cfg := by
  rw [C86_emission dir _ _ _ _ _ _ _ _ _ _ (files_h dir) (files_ksi dir) (files_chiMin dir) h_file
    ksi_file] at hl
  have hlen : (rowNums ksiRows).length = 100 := by rw [rowNums, List.length_map, ksi_length]
  rw [hlen] at hl
  obtain rfl := Res.ok.inj hl
  obtain ⟨-, -, g3, g4, g5⟩ := hg
  dsimp only at g3 g4 g5
  have hm : (lit logMin.numeral.value : ℝ) = -5 := by rw [logMin_value]; norm_num
  have hM : (lit logMax.numeral.value : ℝ) = 1 := by rw [logMax_value]; norm_num
  rw [hm, hM] at g3 g4
  have e0 : (etaAxisOf 100 (-5 : ℝ) 1)[0]? = some (-5 : ℝ) := by
    rw [C87_eta 100 (by norm_num) _ _ 0 (by norm_num)]; norm_num
  have e1 : (etaAxisOf 100 (-5 : ℝ) 1)[1]? = some (-5 + 2 / 33 : ℝ) := by
    rw [C87_eta 100 (by norm_num) _ _ 1 (by norm_num)]; norm_num
  have hmin : ((nums chiMin).map fun c => (lit c.value : ℝ)) = chiMin.map val := by
    rw [nums, List.map_map]
    exact map_val (lines_ok chiMin_checked)
  rw [hmin] at g4
  have hf := chiMin_first
  rw [Prod.mk.injEq] at hf
  have m0 := val_at hf.1
  have m1 := val_at hf.2
  have n0 : (((5000000000000005 * 10 ^ 7 : ℤ) : ℝ) / 10 ^ 40) = 5.000000000000005e-18 := by norm_num
  have n1 : (((5748784976988682 * 10 ^ 7 : ℤ) : ℝ) / 10 ^ 40) = 5.748784976988682e-18 := by norm_num
  rw [n0] at m0
  rw [n1] at m1
  have hdata : cfg.phEnTable = ksiRows.map fun r => r.map val := by
    apply map_map_some_inj
    rw [← g5, rowNums, List.map_map, List.map_map]
    refine List.map_congr_left fun r hr => ?_
    have h := (cdf_spec (List.all_eq_true.1 ksi_cdf r hr)).2.1
    show (nums r).map (fun x => some (lit x.value)) = (r.map val).map some
    rw [← map_val h, nums, List.map_map, List.map_map]
    rfl
  have hchi : ∀ (i : Nat) (x y : ℝ), (etaAxisOf 100 (-5 : ℝ) 1)[i]? = some x → (chiMin.map val)[i]? = some y →
      ∃ c, cfg.chiAxis[i]? = some c ∧ Straight c (Real.logb 10 y) (x - Real.logb 10 2 - Real.logb 10 y) := by
    intro i x y hx hy
    refine ⟨chiRow 100 100 x y, ?_, by simp [chiRow], fun j hj => ?_⟩
    · rw [g4, List.getElem?_zipWith, hx, hy]
    · rw [C87_row 100 100 (by norm_num) x y j hj]
      norm_num
  obtain ⟨c, hc, sc⟩ := hchi 0 _ _ e0 m0
  obtain ⟨d, hd, sd⟩ := hchi 1 _ _ e1 m1
  refine ⟨⟨by rw [g3]; simp [etaAxisOf], by rw [g3, e0], by rw [g3, e1]⟩, ⟨?_, ?_⟩, c, d, hc, hd, sc, sd⟩
  · rw [hdata, List.getElem?_map]; rfl
  · rw [hdata, List.getElem?_map]; rfl

/-- The two smallest values of `chi` are almost as far apart as the two values of eta. -/
theorem log_ratio : 0.06 ≤ Real.logb 10 5.748784976988682e-18 - Real.logb 10 5.000000000000005e-18 ∧
    Real.logb 10 5.748784976988682e-18 - Real.logb 10 5.000000000000005e-18 ≤ 1 := by
  rw [← Real.logb_div (by norm_num) (by norm_num)]
  refine ⟨?_, by rw [Real.logb_le_iff_le_rpow (by norm_num) (by norm_num)]; norm_num⟩
  rw [Real.le_logb_iff_rpow_le (by norm_num) (by norm_num)]
  have : ((10 : ℝ) ^ (0.06 : ℝ)) ^ 50 ≤ (5.748784976988682e-18 / 5.000000000000005e-18) ^ 50 := by
    rw [← Real.rpow_natCast ((10 : ℝ) ^ (0.06 : ℝ)), ← Real.rpow_mul (by norm_num)]
    norm_num
  exact le_of_pow_le_pow_left₀ (by norm_num) (by norm_num) this

/-- The first row spans more than ten orders of magnitude. -/
theorem log_span : 10 ≤ -5 - Real.logb 10 2 - Real.logb 10 5.000000000000005e-18 := by
  have h1 : Real.logb 10 2 ≤ 1 := by
    rw [Real.logb_le_iff_le_rpow (by norm_num) (by norm_num)]; norm_num
  have h2 : Real.logb 10 5.000000000000005e-18 ≤ -16 := by
    rw [Real.logb_le_iff_le_rpow (by norm_num) (by norm_num),
      show (-16 : ℝ) = ((-16 : ℤ) : ℝ) by norm_num, Real.rpow_intCast]
    norm_num
  linarith

/-- The sampled chi is at most half of eta also below the table. -/
theorem chi_below {cfg : EmissionCfg ℝ} (hf : FirstRows cfg) {eta u chi : ℝ} (hlow : (10 : ℝ) ^ (-400 : ℝ) ≤ eta)
    (hhigh : eta < (10 : ℝ) ^ (-5 : ℝ)) (h0 : 0 ≤ u) (h1 : u < 1) (h : calculateChi cfg eta u = .ok chi) :
    chi ≤ eta / 2 := by
  have hpos : 0 < eta := lt_of_lt_of_le (by positivity) hlow
  obtain ⟨q, hq⟩ : ∃ q, q = Real.logb 10 eta := ⟨_, rfl⟩
  have hqe : (10:ℝ) ^ q = eta := by rw [hq]; exact Real.rpow_logb (by norm_num) (by norm_num) hpos
  have q1 : -400 ≤ q := by
    rw [← hqe] at hlow
    exact (Real.rpow_le_rpow_left_iff (by norm_num)).mp hlow
  have q2 : q < -5 := by
    rw [← hqe] at hhigh
    exact (Real.rpow_lt_rpow_left_iff (by norm_num)).mp hhigh
  obtain ⟨⟨al, a0, a1⟩, ⟨r0, r1⟩, c, d, hc, hd, sc, sd⟩ := hf
  have hclose : closestPoints cfg.etaAxis q = .ok (0, (q - -5) / (-5 + 2 / 33 - -5)) := by
    have hscan : scanLow q cfg.etaAxis 0 0 = 0 := by
      match hx : cfg.etaAxis, a0 with
      | x :: xs, a0 =>
        obtain rfl : x = -5 := by simpa using a0
        rw [scanLow, if_neg (by rw [real_lt]; simpa using q2.le)]
    unfold closestPoints
    simp only [hscan]
    rw [al, if_pos (by decide)]
    simp only [rd, a0, a1, Res.ok_bind]
    rfl
  have k0 := List.all_eq_true.1 ksi_cdf ksi0 (List.mem_of_getElem? (i := 0) rfl)
  have k1 := List.all_eq_true.1 ksi_cdf ksi1 (List.mem_of_getElem? (i := 1) rfl)
  obtain ⟨l0, -, mono0, top0, first0⟩ := cdf_spec k0
  obtain ⟨l1, -, mono1, top1, first1⟩ := cdf_spec k1
  have t0 : MonoTable (ksi0.map val) c :=
    ⟨by rw [sc.1, List.length_map, l0], by rw [List.length_map]; omega, by rw [List.length_map]; omega, mono0⟩
  have t1 : MonoTable (ksi1.map val) d :=
    ⟨by rw [sd.1, List.length_map, l1], by rw [List.length_map]; omega, by rw [List.length_map]; omega, mono1⟩
  have hbelow : ∀ (i : Nat) (x y : ℝ), (ksi0.map val)[i]? = some x → (ksi1.map val)[i]? = some y → y ≤ x := by
    intro i x y hx hy
    rw [List.getElem?_map] at hx hy
    cases hx' : ksi0[i]? with
    | none => rw [hx'] at hx; cases hx
    | some x' =>
    cases hy' : ksi1[i]? with
    | none => rw [hy'] at hy; cases hy
    | some y' =>
    rw [hx'] at hx
    rw [hy'] at hy
    obtain rfl := Option.some.inj hx
    obtain rfl := Option.some.inj hy
    have hi : i < 100 := by
      have := (List.getElem?_eq_some_iff.1 hx').1
      omega
    have := List.all_eq_true.1 ksi_below i (List.mem_range.2 hi)
    rw [hx', hy'] at this
    exact val_le (by simpa using this)
  have hslope : ∀ x0 x1 y0 y1 : ℝ, (ksi0.map val)[0]? = some x0 → (ksi0.map val)[1]? = some x1 →
      (ksi1.map val)[0]? = some y0 → (ksi1.map val)[1]? = some y1 →
      0 < x1 - x0 ∧ 0 < y1 - y0 ∧ y0 * (x1 - x0) ≤ x0 * (y1 - y0) := by
    intro x0 x1 y0 y1 hx0 hx1 hy0 hy1
    have hsl := ksi_slope
    match e : ksi0, e' : ksi1, hsl with
    | p0 :: p1 :: p, p2 :: p3 :: p', hsl =>
      rw [e] at hx0 hx1 first0
      rw [e'] at hy0 hy1 first1
      obtain rfl : val p0 = x0 := by simpa using hx0
      obtain rfl : val p1 = x1 := by simpa using hx1
      obtain rfl : val p2 = y0 := by simpa using hy0
      obtain rfl : val p3 = y1 := by simpa using hy1
      simp only [Bool.and_eq_true, decide_eq_true_eq] at hsl
      obtain ⟨⟨hs1, hs2⟩, hs3⟩ := hsl
      have f0 := first0 p0 p1 p rfl
      have f1 := first1 p2 p3 p' rfl
      refine ⟨sub_pos.2 (val_lt (by omega)), sub_pos.2 (val_lt (by omega)), ?_⟩
      have : (p2.units * (p1.units - p0.units) : ℝ) ≤ p0.units * (p3.units - p2.units) := by exact_mod_cast hs1
      unfold val
      rw [div_sub_div_same, div_sub_div_same, div_mul_div_comm, div_mul_div_comm]
      gcongr
  obtain ⟨k, l, hkl, hk99, i0, i1⟩ := columns sc sd t0 t1 top0 top1 hbelow hslope h0 h1
  unfold calculateChi at h
  rw [show log10 eta = q from hq.symm, hclose] at h
  simp only [Res.ok_bind, rd, r0, r1, hc, hd, i0, i1] at h
  simp only [Res.ok.injEq, real_pow, real_lit, real_add, real_mul, real_sub] at h
  push_cast at h
  rw [← h]
  have hr := log_ratio
  have hsp := log_span
  generalize Real.logb 10 5.748784976988682e-18 = b at hr hsp h ⊢
  generalize Real.logb 10 5.000000000000005e-18 = a at hr hsp h ⊢
  generalize hL : Real.logb 10 2 = L at hsp h ⊢
  clear i0 i1 hslope hbelow t0 t1 mono0 mono1 top0 top1 first0 first1 sc sd hc hd r0 r1 hclose k0 k1 l0 l1 h
  have key : (1 - (q - -5) / (-5 + 2 / 33 - -5)) * (a + (-5 - L - a) * (k / 99)) +
      (q - -5) / (-5 + 2 / 33 - -5) * (b + (-5 + 2 / 33 - L - b) * (l / 99)) ≤ q - L := by
    obtain ⟨g, hg⟩ : ∃ g, g = -((q - -5) / (-5 + 2 / 33 - -5)) := ⟨_, rfl⟩
    have hqg : q = -5 - g * (2 / 33) := by rw [hg]; ring
    have g0 : 0 ≤ g := by nlinarith
    have g1 : g ≤ 6600 := by nlinarith
    rw [show (q - -5) / (-5 + 2 / 33 - -5) = -g by rw [hg]; ring]
    obtain ⟨m, hm⟩ : ∃ m, m = 1 - k / 99 := ⟨_, rfl⟩
    obtain ⟨n, hn⟩ : ∃ n, n = 1 - l / 99 := ⟨_, rfl⟩
    have hmn : n ≤ m := by rw [hm, hn]; linarith
    have hm0 : 0 ≤ m := by rw [hm]; linarith
    rw [show k / 99 = 1 - m by rw [hm]; ring, show l / 99 = 1 - n by rw [hn]; ring, hqg]
    -- `W` and `V` are the widths of the two rows
    obtain ⟨W, hW⟩ : ∃ W, W = -5 - L - a := ⟨_, rfl⟩
    obtain ⟨V, hV⟩ : ∃ V, V = -5 + 2 / 33 - L - b := ⟨_, rfl⟩
    have hVW : V ≤ W + 0.001 := by rw [hW, hV]; linarith [hr.1]
    have hW10 : 10 ≤ W := by rw [hW]; exact hsp
    rw [← hW, ← hV, show a = -5 - L - W by rw [hW]; ring, show b = -5 + 2 / 33 - L - V by rw [hV]; ring]
    have e : (1 - -g) * (-5 - L - W + W * (1 - m)) + -g * (-5 + 2 / 33 - L - V + V * (1 - n)) =
        -5 - g * (2 / 33) - L - m * W + g * (n * V - m * W) := by ring
    rw [e]
    have hV0 : 0 ≤ V := by rw [hV]; linarith [hr.2]
    have n1 : n * V ≤ m * V := mul_le_mul_of_nonneg_right hmn hV0
    have n2 : m * V ≤ m * (W + 0.001) := mul_le_mul_of_nonneg_left hVW hm0
    have n3 : g * (n * V - m * W) ≤ g * (m * 0.001) := mul_le_mul_of_nonneg_left (by linarith) g0
    have n4 : g * (m * 0.001) ≤ 6600 * (m * 0.001) := mul_le_mul_of_nonneg_right g1 (by linarith)
    have n5 : m * 10 ≤ m * W := mul_le_mul_of_nonneg_left hW10 hm0
    linarith
  calc (10:ℝ) ^ _ ≤ 10 ^ (q - L) := (Real.rpow_le_rpow_left_iff (by norm_num)).mpr key
    _ = eta / 2 := by
        rw [Real.rpow_sub (by norm_num), hqe, ← hL, Real.rpow_logb (by norm_num) (by norm_num) (by norm_num)]

end Shipped

open Shipped

/-! ## C100 With the shipped tables a photon never takes more energy than the lepton has -/

/-- C100: with the tables that come with the program a lepton loses at most its own energy when it emits, and
a stored photon has at most that energy, for every field, every draw and every eta that a double can hold, in
the table or below it. -/
theorem C100_energy (dir : List Char) (t : Emission ℝ) (hl : loadEmission (some dir) (tables dir) = .ok t)
    (cfg : EmissionCfg ℝ) (hg : t.Gives cfg)
    {p : Particle ℝ} {l : PList ℝ} {r : Rng ℝ} (hr : r.Valid) (hk : p.kind ≠ .photon) (hmass : p.mass = 1)
    (hp : p.momentum ≠ ⟨0, 0, 0⟩) (heta : (10 : ℝ) ^ (-400 : ℝ) ≤ calculateEta cfg.field p)
    {p' : Particle ℝ} {l' : PList ℝ} {r' : Rng ℝ}
    (h : stochasticInteract cfg p l r = .ok (p', l', r')) :
    (p.momentum.sub p'.momentum).mag ≤ p.energy ∧
    ∀ ph, l'.items = l.items ++ [ph] → ph.energy ≤ p.energy := by
  have hpos : 0 < calculateEta cfg.field p := lt_of_lt_of_le (by positivity) heta
  have hf := firstRows dir t hl cfg hg
  refine energy_of_half hr hk hmass hp hpos ?_ h
  intro u chi h0 h1 hc
  by_cases hin : (10 : ℝ) ^ (-5 : ℝ) ≤ calculateEta cfg.field p
  · refine chi_le_half (halfEta dir t hl cfg hg) hpos h0 h1 (fun a ha => ?_) hc
    rw [hf.axis.2.1] at ha
    obtain rfl := Option.some.inj ha
    exact hin
  · exact chi_below hf heta (not_le.1 hin) h0 h1 hc

/-- An electron with eta 1 that emits meets all hypotheses. -/
example (dir : List Char) : ∃ (t : Emission ℝ) (cfg : EmissionCfg ℝ) (p' : Particle ℝ) (l' : PList ℝ)
    (r' : Rng ℝ) (delta g : ℝ), loadEmission (some dir) (tables dir) = .ok t ∧ t.Gives cfg ∧
    Witness.rng.Valid ∧ Witness.electron.kind ≠ .photon ∧ Witness.electron.mass = 1 ∧
    Witness.electron.momentum ≠ ⟨0, 0, 0⟩ ∧ (10 : ℝ) ^ (-400 : ℝ) ≤ calculateEta cfg.field Witness.electron ∧
    Emits cfg Witness.electron (1 / 2) delta g ∧
    stochasticInteract cfg Witness.electron (PList.new "0" 10) Witness.rng = .ok (p', l', r') := by
  obtain ⟨m, hm⟩ := C98_loaded (D := ℝ) dir
  have hgood := (C98_good dir m hm).h
  obtain ⟨t, -, ht, -, h1, h2, h3, h4, h5, -⟩ := hm
  let cfg := Main.emissionCfg m (Witness.emCfg 1 1 0).field 1 1 0 false
  have hg : t.Gives cfg := ⟨h1, h2, h3, h4, h5⟩
  have heta : calculateEta cfg.field Witness.electron = 1 := Witness.eta_eq 1 1 0
  have hh := halfEta dir t ht cfg hg
  have hf := firstRows dir t ht cfg hg
  have hax : cfg.etaAxis[cfg.etaAxis.length - 2]'(by have := hf.axis.1; omega) = -5 + (1 - -5) * (98 / 99) := by
    have : cfg.etaAxis[98]? = some (-5 + (1 - -5) * (98 / 99) : ℝ) := by
      rw [C86_emission dir _ _ _ _ _ _ _ _ _ _ (files_h dir) (files_ksi dir) (files_chiMin dir) h_file
        ksi_file] at ht
      obtain rfl := Res.ok.inj ht
      have hlen : (rowNums ksiRows).length = 100 := by rw [rowNums, List.length_map, ksi_length]
      rw [hg.2.2.1]
      dsimp only
      rw [hlen, C87_eta 100 (by norm_num) _ _ 98 (by norm_num), logMin_value, logMax_value]
      norm_num
    have hi : 98 < cfg.etaAxis.length := by have := hf.axis.1; omega
    rw [List.getElem?_eq_getElem hi] at this
    have := Option.some.inj this
    simpa [hf.axis.1] using this
  have hax0 : cfg.etaAxis[0]'(by have := hf.axis.1; omega) = -5 := by
    have := hf.axis.2.1
    rw [List.getElem?_eq_getElem (by have := hf.axis.1; omega)] at this
    exact Option.some.inj this
  obtain ⟨low, f, hlow, hc, -⟩ := C08_bracket_partial hh.sorted (by have := hf.axis.1; omega) hh.small 0
    (by rw [hax0]; norm_num) (by rw [hax]; norm_num) hh.three
  have hrow : ∀ i < cfg.etaAxis.length, ∃ tl cl v, cfg.phEnTable[i]? = some tl ∧ cfg.chiAxis[i]? = some cl ∧
      interpolate1D tl cl (1 / 2) = .ok v := by
    intro i hi
    have e1 := List.getElem?_eq_getElem (show i < cfg.phEnTable.length by rw [hh.rows.1]; exact hi)
    have e2 := List.getElem?_eq_getElem (show i < cfg.chiAxis.length by rw [hh.rows.2]; exact hi)
    have mt := (hh.row i _ _ e1 e2).toMonoTable
    obtain ⟨v, hv⟩ := interpolate1D_ok _ _ (1 / 2 : ℝ) mt.len.symm mt.two mt.small
    exact ⟨_, _, v, e1, e2, hv⟩
  obtain ⟨t0, c0, v0, a1, a2, a3⟩ := hrow low (by omega)
  obtain ⟨t1, c1, v1, b1, b2, b3⟩ := hrow (low + 1) hlow
  have hchi : ∃ chi, calculateChi cfg 1 (1 / 2) = .ok chi := by
    unfold calculateChi
    rw [show log10 (1 : ℝ) = 0 from Real.logb_one, hc]
    simp only [Res.ok_bind, rd, a1, a2, a3, b1, b2, b3]
    exact ⟨_, rfl⟩
  obtain ⟨chi, hchi⟩ := hchi
  obtain ⟨logh, hlogh⟩ := interpolate1D_ok cfg.hAxis cfg.hData (log10 (1 : ℝ)) hgood.1 hgood.2.1 hgood.2.2
  have hem : emissionLogh cfg 1 = .ok logh := by
    unfold emissionLogh
    rw [if_neg (by rw [real_lt, real_lit]; norm_num)]
    exact hlogh
  have hdelta : 0 < emissionDelta cfg.dt (1 : ℝ) logh Witness.electron.gamma := by
    have ha : (0 : ℝ) < Units.alpha := by
      show (0 : ℝ) < ((_ : ℚ) : ℝ)
      norm_num
    have hpi : (0 : ℝ) < Units.pi := by
      show (0 : ℝ) < ((_ : ℚ) : ℝ)
      norm_num
    rw [Witness.electron_gamma]
    show 0 < 1 * Real.sqrt ((3 : ℚ) : ℝ) * Units.alpha * 1 * ((10 : ℚ) : ℝ) ^ logh /
      (Real.sqrt 2 * ((2 : ℚ) : ℝ) * Units.pi)
    push_cast
    have : (0 : ℝ) < 10 ^ logh := by positivity
    positivity
  have hemit : Emits cfg Witness.electron (1 / 2) (emissionDelta cfg.dt 1 logh Witness.electron.gamma)
      (lit 2 *. chi *. Witness.electron.gamma /. 1) := by
    refine ⟨?_, rfl, ⟨logh, by rw [heta]; exact hem, by rw [heta]⟩, ?_, ⟨chi, by rw [heta]; exact hchi, by rw [heta]⟩⟩
    · simp [Witness.electron, Particle.newLepton, Particle.new]
    · rw [Witness.electron_depth]
      simpa using hdelta
  refine ⟨t, cfg, _, _, _, _, _, ht, hg, Witness.rng_valid, by rw [Witness.electron_kind]; simp, ?_, ?_, ?_, hemit,
    stochastic_emit (r := Witness.rng) hemit⟩
  · simp [Witness.electron, Particle.newLepton, Particle.new]
  · intro h
    have : (1 : ℝ) = 0 := congrArg V3.z h
    norm_num at this
  · rw [heta]
    exact Real.rpow_le_one_of_one_le_of_nonpos (by norm_num) (by norm_num)

end QED
