import Verif.Props.Shipped
import Verif.Props.Pairs

set_option autoImplicit false

/-!
# Property C99: the share of a lepton, with the tables that come with the program
-/

namespace QED

open Dbl TableFile MCTools Numerics

namespace Shipped

/-- The number of a token. -/
noncomputable def val (t : Tok) : ℝ := (t.units : ℝ) / 10 ^ 40

theorem ok_val {t : Tok} (h : t.ok = true) : ((t.numeral.value : ℚ) : ℝ) = val t := by
  rw [(Tok.good h).value, val]
  push_cast
  rfl

theorem val_le {a b : Tok} (h : a.units ≤ b.units) : val a ≤ val b := by
  unfold val
  have : (a.units : ℝ) ≤ b.units := by exact_mod_cast h
  gcongr

theorem val_lt {a b : Tok} (h : a.units < b.units) : val a < val b := by
  unfold val
  have : (a.units : ℝ) < b.units := by exact_mod_cast h
  gcongr

theorem map_val {ts : List Tok} (h : ∀ t ∈ ts, t.ok = true) :
    (ts.map fun t => (lit t.numeral.value : ℝ)) = ts.map val :=
  List.map_congr_left fun t ht => ok_val (h t ht)

theorem lines_ok {ts : List Tok} (h : checked (lines ts) = true) : ∀ t ∈ ts, t.ok = true := by
  intro t ht
  have := List.all_eq_true.1 h (t, ['\n']) (List.mem_map.2 ⟨t, ht, rfl⟩)
  simp only [Bool.and_eq_true] at this
  exact this.1.1

/-- What a checked row of cumulative probabilities is. -/
theorem cdf_spec {ts : List Tok} (h : cdf ts = true) :
    ts.length = 100 ∧ (∀ t ∈ ts, t.ok = true) ∧ (ts.map val).Pairwise (· ≤ ·) ∧
    (ts.map val)[99]? = some 1 ∧
    ∀ a b rest, ts = a :: b :: rest → a.units = 0 ∨ 0 < a.units ∧ a.units < b.units := by
  simp only [cdf, Bool.and_eq_true, decide_eq_true_eq, beq_iff_eq, List.all_eq_true] at h
  obtain ⟨⟨⟨⟨h1, h2⟩, h3⟩, h4⟩, h5⟩ := h
  refine ⟨h1, h2, ?_, ?_, ?_⟩
  · rw [List.pairwise_map]
    exact (mono_pairwise h3).imp fun h => val_le h
  · rw [List.getElem?_map]
    cases hq : ts[99]? with
    | none => rw [hq] at h4; cases h4
    | some t =>
      rw [hq] at h4
      have : t.units = 10 ^ 40 := Option.some.inj h4
      have h6 : val t = 1 := by
        rw [val, this]; norm_num
      rw [Option.map_some, h6]
  · rintro a b rest rfl
    simpa using h5

/-- The tables of pair production as real numbers. -/
structure SplitTables (cfg : BWCfg ℝ) : Prop where
  chi : cfg.chiAxis = logChi.map val
  fract : cfg.fractAxis = epsilon.map val
  table : cfg.fractTable = splitRows.map fun r => r.map val
  rate : cfg.tAxis.length = cfg.tData.length ∧ cfg.tAxis.length = 1301

theorem splitTables (dir : List Char) (t : Pairs ℝ) (hl : loadPairs (some dir) (tables dir) = .ok t)
    (cfg : BWCfg ℝ) (hg : t.Gives cfg) : SplitTables cfg := by
  obtain ⟨t', ht', g1, g2, g3, g4, g5⟩ := C98_pairs (D := ℝ) dir
  rw [hl] at ht'
  obtain rfl := Res.ok.inj ht'
  obtain ⟨k1, k2, k3, k4, k5⟩ := hg
  refine ⟨?_, ?_, ?_, ?_⟩
  · rw [k3, g3, map_val (lines_ok logChi_checked)]
  · apply map_some_inj
    rw [← k4, g4, ← map_val (lines_ok epsilon_checked), List.map_map]
    rfl
  · apply map_map_some_inj
    rw [← k5, g5, List.map_map]
    refine List.map_congr_left fun r hr => ?_
    have h := (cdf_spec (List.all_eq_true.1 split_cdf r hr)).2.1
    show r.map (fun c => some (lit c.numeral.value)) = (r.map val).map some
    rw [← map_val h, List.map_map]
    rfl
  · rw [k1, k2, g1, g2, List.length_map, List.length_map, rate_length]
    exact ⟨rfl, rfl⟩

theorem eps_range : ∀ x ∈ epsilon.map val, 0.01 ≤ x ∧ x ≤ 1.0000000000000007 := by
  intro x hx
  obtain ⟨t, ht, rfl⟩ := List.mem_map.1 hx
  have := List.all_eq_true.1 epsilon_range t ht
  simp only [Bool.and_eq_true, decide_eq_true_eq] at this
  obtain ⟨⟨-, h1⟩, h2⟩ := this
  have h1' : (10 ^ 38 : ℝ) ≤ t.units := by exact_mod_cast h1
  have h2' : (t.units : ℝ) ≤ 10000000000000007 * 10 ^ 24 := by exact_mod_cast h2
  unfold val
  constructor
  · rw [le_div_iff₀ (by norm_num)]; linarith
  · rw [div_le_iff₀ (by norm_num)]; linarith

theorem val_at {ts : List Tok} {i : Nat} {u : Int} (h : ts[i]?.map Tok.units = some u) :
    (ts.map val)[i]? = some ((u : ℝ) / 10 ^ 40) := by
  rw [List.getElem?_map]
  cases hq : ts[i]? with
  | none => rw [hq] at h; cases h
  | some t =>
    rw [hq] at h
    rw [← Option.some.inj h]
    rfl

theorem eps_first : (epsilon.map val)[0]? = some (0.01 : ℝ) ∧ (epsilon.map val)[1]? = some (0.02 : ℝ) := by
  have := epsilon_first
  rw [Prod.mk.injEq] at this
  rw [val_at this.1, val_at this.2]
  constructor <;> norm_num

/-- The share read from one row. -/
theorem row_share {r : List Tok} (hr : cdf r = true) (u : ℝ) (h1 : u < 1) :
    ∃ s0 s1, (r.map val)[0]? = some s0 ∧ (r.map val)[1]? = some s1 ∧
      ∃ y, interpolate1D (r.map val) (epsilon.map val) u = .ok y ∧
        (s0 ≤ u → 0.01 ≤ y ∧ y ≤ 1.0000000000000007) ∧
        (u < s0 → y = 0.01 + 0.01 * ((u - s0) / (s1 - s0))) := by
  obtain ⟨hl, hok, hm, h99, -⟩ := cdf_spec hr
  have hlen : (r.map val).length = 100 := by rw [List.length_map, hl]
  have hle : (epsilon.map val).length = 100 := by rw [List.length_map, epsilon_length]
  have h0' : 0 < (r.map val).length := by omega
  have h1' : 1 < (r.map val).length := by omega
  refine ⟨(r.map val)[0], (r.map val)[1], List.getElem?_eq_getElem h0', List.getElem?_eq_getElem h1', ?_⟩
  by_cases hu : (r.map val)[0] ≤ u
  · have mt : MonoTable (r.map val) (epsilon.map val) := ⟨by omega, by omega, by omega, hm⟩
    have hend : (r.map val)[(r.map val).length - 1]'(by omega) = 1 := by
      have e : (r.map val)[99]? = some ((r.map val)[99]'(by omega)) := List.getElem?_eq_getElem (by omega)
      rw [e] at h99
      have := Option.some.inj h99
      simpa [hlen, hl] using this
    obtain ⟨i, hi, hd, -, -, y, hy, -, lo, hi'⟩ := C05_interior_ties mt u hu (by rw [hend]; exact h1)
    refine ⟨y, hy, fun _ => ?_, fun h => absurd hu (not_le.2 h)⟩
    have a := eps_range _ (List.getElem_mem (show i < (epsilon.map val).length by omega))
    have b := eps_range _ (List.getElem_mem hd)
    exact ⟨(le_min a.1 b.1).trans lo, hi'.trans (max_le a.2 b.2)⟩
  · have hlt := not_le.1 hu
    obtain ⟨e0, e1⟩ := eps_first
    refine ⟨(0.01 : ℝ) + (0.01 : ℝ) * ((u - (r.map val)[0]) / ((r.map val)[1] - (r.map val)[0])), ?_,
      fun h => absurd h hu, fun _ => rfl⟩
    unfold interpolate1D
    dsimp only
    rw [rd_ok h0', Res.ok_bind, if_pos (by rw [real_lt]; simpa using hlt)]
    simp only [rd, e0, e1, List.getElem?_eq_getElem h1', Res.ok_bind]
    rw [real_add, real_mul, real_div, real_sub, real_sub, real_sub]
    norm_num

theorem chi_axis {cfg : BWCfg ℝ} (h : SplitTables cfg) :
    cfg.chiAxis.length = 100 ∧ cfg.chiAxis.Pairwise (· < ·) ∧
    cfg.chiAxis[0]? = some (-2.3010299956639813 : ℝ) ∧ cfg.chiAxis[80]? = some (1.9826306068927699 : ℝ) ∧
    cfg.chiAxis[81]? = some (2.0361763644247293 : ℝ) ∧ cfg.chiAxis[98]? = some (2.9464542424680418 : ℝ) := by
  rw [h.chi]
  have hp := logChi_places
  simp only [List.map_cons, List.map_nil, List.cons.injEq, and_true] at hp
  obtain ⟨p0, p80, p81, p98⟩ := hp
  rw [val_at p0, val_at p80, val_at p81, val_at p98]
  refine ⟨by rw [List.length_map, logChi_length], ?_, ?_, ?_, ?_, ?_⟩
  · rw [List.pairwise_map]
    exact (incr_pairwise logChi_incr).imp fun h => val_lt h
  all_goals norm_num

/-- The share is an average of the shares of two neighbouring rows. -/
theorem split_between {cfg : BWCfg ℝ} (h : SplitTables cfg) (chi u : ℝ) (hu : u < 1)
    (h0 : -2.3010299956639813 ≤ Real.logb 10 chi) (h1 : Real.logb 10 chi ≤ 2.9464542424680418) :
    ∃ low f r0 r1 y0 y1, splitRows[low]? = some r0 ∧ splitRows[low + 1]? = some r1 ∧
      interpolate1D (r0.map val) (epsilon.map val) u = .ok y0 ∧
      interpolate1D (r1.map val) (epsilon.map val) u = .ok y1 ∧ 0 ≤ f ∧ f ≤ 1 ∧
      bwSplit cfg chi u = .ok ((1 - f) * y0 + f * y1) ∧
      (Real.logb 10 chi < 1.9826306068927699 → low + 1 ≤ 80) ∧
      (2.0361763644247293 < Real.logb 10 chi → 81 ≤ low) := by
  obtain ⟨hl, hs, a0, a80, a81, a98⟩ := chi_axis h
  have get : ∀ {i : Nat} {x : ℝ} (e : cfg.chiAxis[i]? = some x) (hi : i < cfg.chiAxis.length),
      cfg.chiAxis[i] = x := by
    intro i x e hi
    rw [List.getElem?_eq_getElem hi] at e
    exact Option.some.inj e
  have g0 := get a0 (by omega)
  have g98 : cfg.chiAxis[cfg.chiAxis.length - 2] = 2.9464542424680418 := by
    have := get a98 (by omega)
    simpa [hl] using this
  obtain ⟨low, f, hlow, hc, f0, f1, hq⟩ := C08_bracket_partial hs (by omega) (by omega) (Real.logb 10 chi)
    (by rw [g0]; exact h0) (by rw [g98]; exact h1) (by omega)
  have hgap : cfg.chiAxis[low] < cfg.chiAxis[low + 1] := sorted_lt hs (Nat.lt_succ_self low) hlow
  have hrl := split_length
  have hr0 : low < splitRows.length := by omega
  have hr1 : low + 1 < splitRows.length := by omega
  have c0 := List.all_eq_true.1 split_cdf _ (List.getElem_mem hr0)
  have c1 := List.all_eq_true.1 split_cdf _ (List.getElem_mem hr1)
  obtain ⟨-, -, -, -, y0, hy0, -⟩ := row_share c0 u hu
  obtain ⟨-, -, -, -, y1, hy1, -⟩ := row_share c1 u hu
  refine ⟨low, f, _, _, y0, y1, List.getElem?_eq_getElem hr0, List.getElem?_eq_getElem hr1, hy0, hy1, f0, f1,
    ?_, ?_, ?_⟩
  · unfold bwSplit
    rw [show log10 chi = Real.logb 10 chi from rfl, hc]
    simp only [Res.ok_bind, rd, h.table, List.getElem?_map, List.getElem?_eq_getElem hr0,
      List.getElem?_eq_getElem hr1, Option.map_some, h.fract, hy0, hy1]
    simp
  · intro hb
    by_contra hn
    have h80 := get a80 (by omega)
    have : cfg.chiAxis[80] ≤ cfg.chiAxis[low] := sorted_le hs (by omega) (by omega)
    nlinarith
  · intro hb
    by_contra hn
    have h81 := get a81 (by omega)
    have : cfg.chiAxis[low + 1] ≤ cfg.chiAxis[81] := sorted_le hs (by omega) (by omega)
    nlinarith

/-- In the low rows all shares are positive. -/
theorem row_low {i : Nat} {r : List Tok} (hr : splitRows[i]? = some r) (hi : i ≤ 80) {u y : ℝ} (h0 : 0 ≤ u)
    (h1 : u < 1) (hy : interpolate1D (r.map val) (epsilon.map val) u = .ok y) :
    0 < y ∧ y ≤ 1.0000000000000007 := by
  have hm := List.mem_of_getElem? hr
  obtain ⟨s0, s1, e0, e1, y', hy', hin, hbelow⟩ := row_share (List.all_eq_true.1 split_cdf _ hm) u h1
  rw [hy] at hy'
  obtain rfl := Res.ok.inj hy'
  by_cases hu : s0 ≤ u
  · have := hin hu
    exact ⟨by linarith [this.1], this.2⟩
  · have hu := not_le.1 hu
    rw [hbelow hu]
    have hmt : r ∈ splitRows.take 81 := by
      refine List.mem_of_getElem? (i := i) ?_
      rw [List.getElem?_take_of_lt (by omega)]
      exact hr
    have hlow := List.all_eq_true.1 split_low _ hmt
    match r, hlow, e0, e1 with
    | a :: b :: _, hlow, e0, e1 =>
      obtain rfl : val a = s0 := by simpa using e0
      obtain rfl : val b = s1 := by simpa using e1
      simp only [Bool.or_eq_true, decide_eq_true_eq] at hlow
      rcases hlow with hz | hz
      · have : val a = 0 := by simp [val, hz]
        linarith
      · have h2 : (2 * a.units : ℝ) < b.units := by exact_mod_cast hz
        have h3 : 2 * val a < val b := by
          unfold val
          rw [← mul_div_assoc, div_lt_div_iff_of_pos_right (by norm_num)]
          exact h2
        have hpos : 0 < val b - val a := by linarith
        have b1 : -1 < (u - val a) / (val b - val a) := by rw [lt_div_iff₀ hpos]; linarith
        have b2 : (u - val a) / (val b - val a) < 0 := div_neg_of_neg_of_pos (by linarith) hpos
        constructor <;> linarith

/-- In the high rows the first shares are negative. -/
theorem row_high {i : Nat} {r : List Tok} (hr : splitRows[i]? = some r) (hi : 81 ≤ i) {u y : ℝ}
    (h1 : u ≤ 0.0006) (hy : interpolate1D (r.map val) (epsilon.map val) u = .ok y) :
    y < 0 ∧ (u ≤ 0.0005 → y < -0.00005) := by
  have hm := List.mem_of_getElem? hr
  obtain ⟨s0, s1, e0, e1, y', hy', hin, hbelow⟩ := row_share (List.all_eq_true.1 split_cdf _ hm) u (by linarith)
  rw [hy] at hy'
  obtain rfl := Res.ok.inj hy'
  obtain ⟨-, -, hmono, -, hfirst⟩ := cdf_spec (List.all_eq_true.1 split_cdf _ hm)
  have hmt : r ∈ splitRows.drop 81 := by
    refine List.mem_of_getElem? (i := i - 81) ?_
    rw [List.getElem?_drop, show 81 + (i - 81) = i by omega]
    exact hr
  have hhigh := List.all_eq_true.1 split_high _ hmt
  match r, hhigh, e0, e1, hmono, hfirst with
  | a :: b :: rest, hhigh, e0, e1, hmono, hfirst =>
    obtain rfl : val a = s0 := by simpa using e0
    obtain rfl : val b = s1 := by simpa using e1
    simp only [Bool.and_eq_true, decide_eq_true_eq] at hhigh
    obtain ⟨hz, hw⟩ := hhigh
    have hab : val a ≤ val b := by
      rw [List.map_cons, List.map_cons] at hmono
      exact List.rel_of_pairwise_cons hmono (by simp)
    have h2 : (b.units + 6 * 10 ^ 36 : ℝ) < 2 * a.units := by exact_mod_cast hz
    have h2' : (b.units : ℝ) ≤ a.units + 2 * 10 ^ 38 := by exact_mod_cast hw
    have h3 : val b + 0.0006 < 2 * val a := by
      unfold val
      rw [← mul_div_assoc, div_add' _ _ _ (by norm_num), div_lt_div_iff_of_pos_right (by norm_num)]
      linarith
    have h4 : val b ≤ val a + 0.02 := by
      unfold val
      rw [div_add' _ _ _ (by norm_num), div_le_div_iff_of_pos_right (by norm_num)]
      linarith
    have hua : u < val a := by linarith
    rw [hbelow hua]
    have hpos : 0 < val b - val a := by
      rcases hfirst a b rest rfl with h | h
      · have : val a = 0 := by simp [val, h]
        linarith
      · linarith [val_lt h.2]
    constructor
    · have : (u - val a) / (val b - val a) < -1 := by rw [div_lt_iff₀ hpos]; linarith
      linarith
    · intro hu5
      have : (u - val a) / (val b - val a) < -1.005 := by rw [div_lt_iff₀ hpos]; linarith
      linarith

end Shipped

open Shipped

/-! ## C99 With the shipped tables, both leptons of a pair get a share between 0 and 1 -/

/-- What holds of C99: if `log10 chi` lies in the table and below `1.9826306068927699`, the share of the
positron is positive and at most `1.0000000000000007`. Missing: larger `chi`, see `C99_negative_refuted` and
`C99_exit_refuted`; smaller `chi`, where no row applies; and the last digit of the largest share. -/
theorem C99_share_partial (dir : List Char) (t : Pairs ℝ) (hl : loadPairs (some dir) (tables dir) = .ok t)
    (cfg : BWCfg ℝ) (hg : t.Gives cfg) (chi u : ℝ) (h0 : 0 ≤ u) (h1 : u < 1)
    (hlow : -2.3010299956639813 ≤ Real.logb 10 chi) (hhigh : Real.logb 10 chi < 1.9826306068927699) :
    ∃ s, bwSplit cfg chi u = .ok s ∧ 0 < s ∧ s ≤ 1.0000000000000007 := by
  obtain ⟨low, f, r0, r1, y0, y1, e0, e1, i0, i1, f0, f1, hs, hl80, -⟩ :=
    split_between (splitTables dir t hl cfg hg) chi u h1 hlow (by linarith)
  have hle := hl80 hhigh
  have a := row_low e0 (by omega) h0 h1 i0
  have b := row_low e1 hle h0 h1 i1
  refine ⟨_, hs, ?_, ?_⟩
  · rcases f0.lt_or_eq with h | rfl
    · nlinarith [mul_pos h b.1, mul_nonneg (sub_nonneg.2 f1) a.1.le]
    · simpa using a.1
  · nlinarith [mul_le_mul_of_nonneg_left b.2 f0, mul_le_mul_of_nonneg_left a.2 (sub_nonneg.2 f1)]

/-- C99 is false: whenever `log10 chi` is above `2.0361763644247293`, about 108.7 for `chi` itself, and the
code does not give up, a draw of at most `0.0006` gives the positron a negative share. -/
theorem C99_negative_refuted (dir : List Char) (t : Pairs ℝ) (hl : loadPairs (some dir) (tables dir) = .ok t)
    (cfg : BWCfg ℝ) (hg : t.Gives cfg) (chi u : ℝ) (h1 : u ≤ 0.0006)
    (hlow : 2.0361763644247293 < Real.logb 10 chi) (hhigh : Real.logb 10 chi ≤ 2.9464542424680418) :
    ∃ s, bwSplit cfg chi u = .ok s ∧ s < 0 ∧ (u ≤ 0.0005 → s < -0.00005) := by
  obtain ⟨low, f, r0, r1, y0, y1, e0, e1, i0, i1, f0, f1, hs, -, hl81⟩ :=
    split_between (splitTables dir t hl cfg hg) chi u (by linarith) (by linarith) hhigh
  have hle := hl81 hlow
  have a := row_high e0 hle h1 i0
  have b := row_high e1 (by omega) h1 i1
  refine ⟨_, hs, ?_, fun h5 => ?_⟩
  · rcases f0.lt_or_eq with h | rfl
    · nlinarith [mul_pos h (neg_pos.2 b.1), mul_nonneg (sub_nonneg.2 f1) (neg_pos.2 a.1).le]
    · simpa using a.1
  · have a2 := a.2 h5
    have b2 := b.2 h5
    rcases f0.lt_or_eq with h | rfl
    · nlinarith [mul_pos h (sub_pos.2 b2), mul_nonneg (sub_nonneg.2 f1) (sub_pos.2 a2).le]
    · simpa using a2

/-- And for still larger `chi`, above about 884, the program ends. -/
theorem C99_exit_refuted (dir : List Char) (t : Pairs ℝ) (hl : loadPairs (some dir) (tables dir) = .ok t)
    (cfg : BWCfg ℝ) (hg : t.Gives cfg) (chi u : ℝ) (hhigh : 2.9464542424680418 < Real.logb 10 chi) :
    bwSplit cfg chi u = .exit (-1) := by
  obtain ⟨hlen, hs, -, -, -, a98⟩ := chi_axis (splitTables dir t hl cfg hg)
  have g98 : cfg.chiAxis[cfg.chiAxis.length - 2] = 2.9464542424680418 := by
    have hi : 98 < cfg.chiAxis.length := by omega
    rw [List.getElem?_eq_getElem hi] at a98
    have := Option.some.inj a98
    simpa [hlen] using this
  have := C08_last_interval_refuted hs (by omega) (by omega) (Real.logb 10 chi) (by rw [g98]; exact hhigh)
  unfold bwSplit
  rw [show log10 chi = Real.logb 10 chi from rfl, this]
  rfl

theorem pairLepton_abs (c e : ℝ) (p : Particle ℝ) (tr : Bool) (u : ℝ) :
    pairLepton c e p tr u = pairLepton c |e| p tr u := by
  unfold pairLepton
  simp only [real_mul, abs_mul_abs_self]

/-- What a negative share does: when a photon of at least 20000 electron masses converts, with `chi` in that
range and a draw of at most `0.0005`, the two leptons together have more energy than the photon had. -/
theorem C99_energy_refuted (dir : List Char) (t : Pairs ℝ) (hl : loadPairs (some dir) (tables dir) = .ok t)
    (cfg : BWCfg ℝ) (hg : t.Gives cfg) {p : Particle ℝ} {l : PList ℝ} {r : Rng ℝ}
    {p' : Particle ℝ} {l' : PList ℝ} {r' : Rng ℝ} (h : bwInteract cfg p l r = .ok (p', l', r'))
    (hconv : p.isAlive = true ∧ p'.isAlive = false)
    (hroom : l.nPart + 2 ≤ l.maxParticles) (hp : p.momentum ≠ ⟨0, 0, 0⟩)
    (hlow : 2.0361763644247293 < Real.logb 10 (bwChi cfg.field p))
    (hhigh : Real.logb 10 (bwChi cfg.field p) ≤ 2.9464542424680418)
    (hdraw : r.draw r.pos ≤ 0.0005) (hen : 20000 ≤ p.energy) :
    ∃ pos ele, l'.items = l.items ++ [pos, ele] ∧ p.energy < pos.energy + ele.energy := by
  rcases bw_cases h with ⟨_, rfl, rfl, _⟩ | ⟨⟨hk, ha⟩, delta, logt, _, _, hc⟩
  · rw [hconv.1] at hconv; cases hconv.2
  · rcases hc with ⟨_, rfl, rfl, _⟩ | ⟨_, rfl, _, s, u1, u2, hs, _, _, rfl⟩
    · have : p.isAlive = false := hconv.2
      rw [hconv.1] at this; cases this
    · obtain ⟨s', hs', hneg, hlt⟩ := C99_negative_refuted dir t hl cfg hg _ (r.draw r.pos) (by linarith) hlow hhigh
      rw [hs] at hs'
      obtain rfl := Res.ok.inj hs'
      have hlt := hlt hdraw
      unfold PList.nPart at hroom
      refine ⟨pairLepton 1 (s * p.energy) p cfg.track u1, pairLepton (-1) ((1 - s) * p.energy) p cfg.track u2,
        ?_, ?_⟩
      · rw [PList.add_items, PList.add_items, List.take_of_length_le (by simp; omega),
          List.take_of_length_le (by simp; omega)]
        simp
      · have e1 : |s * p.energy| = -s * p.energy := by
          rw [abs_of_neg (mul_neg_of_neg_of_pos hneg (by linarith))]; ring
        rw [pairLepton_abs _ (s * p.energy), e1, pairLepton_energy _ _ _ hp _ _ (by nlinarith),
          pairLepton_energy _ _ _ hp _ _ (by nlinarith)]
        nlinarith

/-- A photon of energy 20000 along z in a static field, with `chi` 200. -/
theorem shipped_chi (p : Particle ℝ) (hk : p.kind = .photon) (hm : p.momentum = ⟨0, 0, 20000⟩) :
    bwChi (staticField ⟨1 / 50, 0, 0⟩ ⟨0, 0, 0⟩) p = 200 := by
  have he : p.energy = 20000 := by
    unfold Particle.energy; rw [hk, hm]; exact Witness.mag_z _ (by norm_num)
  have hd : p.direction = ⟨0, 0, 1⟩ := by
    unfold Particle.direction; rw [hm]; exact Witness.norm_z _ (by norm_num)
  have hs : Real.sqrt (1 / 2500) = 1 / 50 := by
    rw [show (1 / 2500 : ℝ) = (1 / 50) ^ 2 by norm_num, Real.sqrt_sq (by norm_num)]
  unfold bwChi
  rw [he, hd]
  simp only [staticField, V3.dot, V3.smul, V3.sub, V3.cross, V3.add, V3.mag, real_add,
    real_mul, real_sub, real_sqrt, real_lit]
  norm_num at hs ⊢
  rw [hs]; norm_num

theorem log_200 : 2.0361763644247293 < Real.logb 10 200 ∧ Real.logb 10 200 ≤ 2.9464542424680418 := by
  constructor
  · refine (show (2.0361763644247293 : ℝ) < 9 / 4 by norm_num).trans ?_
    rw [Real.lt_logb_iff_rpow_lt (by norm_num) (by norm_num)]
    have : ((10 : ℝ) ^ (9 / 4 : ℝ)) ^ 4 < 200 ^ 4 := by
      rw [← Real.rpow_natCast, ← Real.rpow_mul (by norm_num)]
      norm_num
    exact lt_of_pow_lt_pow_left₀ 4 (by norm_num) this
  · refine le_trans ?_ (show (5 / 2 : ℝ) ≤ 2.9464542424680418 by norm_num)
    rw [Real.logb_le_iff_le_rpow (by norm_num) (by norm_num)]
    have : (200 : ℝ) ^ 2 ≤ ((10 : ℝ) ^ (5 / 2 : ℝ)) ^ 2 := by
      rw [← Real.rpow_natCast ((10 : ℝ) ^ (5 / 2 : ℝ)), ← Real.rpow_mul (by norm_num)]
      norm_num
    exact le_of_sq_le_sq this (by positivity)

/-- A conversion that meets all hypotheses of `C99_energy_refuted`. -/
example (dir : List Char) : ∃ (t : Pairs ℝ) (cfg : BWCfg ℝ) (p : Particle ℝ) (l : PList ℝ) (r : Rng ℝ)
    (p' : Particle ℝ) (l' : PList ℝ) (r' : Rng ℝ), loadPairs (some dir) (tables dir) = .ok t ∧ t.Gives cfg ∧
    r.Valid ∧ bwInteract cfg p l r = .ok (p', l', r') ∧ (p.isAlive = true ∧ p'.isAlive = false) ∧
    l.nPart + 2 ≤ l.maxParticles ∧ p.momentum ≠ ⟨0, 0, 0⟩ ∧
    2.0361763644247293 < Real.logb 10 (bwChi cfg.field p) ∧
    Real.logb 10 (bwChi cfg.field p) ≤ 2.9464542424680418 ∧ r.draw r.pos ≤ 0.0005 ∧ 20000 ≤ p.energy := by
  obtain ⟨m, e, t, -, ht, -, -, -, -, -, h1, h2, h3, h4, h5⟩ := C98_loaded (D := ℝ) dir
  let cfg := Main.bwCfg m (staticField ⟨1 / 50, 0, 0⟩ ⟨0, 0, 0⟩) 1
  have hg : t.Gives cfg := ⟨h1, h2, h3, h4, h5⟩
  let p : Particle ℝ := .newPhoton ⟨0, 0, 0⟩ ⟨0, 0, 20000⟩ 1 0 false 0
  let r : Rng ℝ := ⟨fun _ => 0, 0⟩
  have hc : bwChi cfg.field p = 200 := shipped_chi p rfl rfl
  have hst := splitTables dir t ht cfg hg
  obtain ⟨logt, hlog⟩ := interpolate1D_ok cfg.tAxis cfg.tData (log10 (200 : ℝ)) hst.rate.1
    (by have := hst.rate.2; omega) (by have := hst.rate.2; omega)
  obtain ⟨s, hs, -⟩ := C99_negative_refuted dir t ht cfg hg 200 0 (by norm_num) log_200.1 log_200.2
  have he : p.energy = 20000 := Witness.mag_z _ (by norm_num)
  have hd : p.opticalDepth = 0 := by simp [p, Particle.newPhoton, Particle.new, initDepth]
  have hdelta : 0 < bwDelta cfg.dt (200 : ℝ) logt p.energy := by
    rw [he]
    have ha : (0 : ℝ) < Units.alpha := by
      show (0 : ℝ) < ((_ : ℚ) : ℝ)
      norm_num
    have : (0 : ℝ) < 10 ^ logt := by positivity
    show 0 < 1 * Units.alpha * 200 * (((10 : ℚ) : ℝ) ^ logt) / 20000
    push_cast
    positivity
  have hrun : ∃ x, bwInteract cfg p (PList.new "0" 10) r = .ok ((p.updateOpticalDepth (bwDelta cfg.dt 200 logt
      p.energy)).kill, x) := by
    unfold bwInteract
    rw [if_neg (by simp [p, Particle.typeName, Particle.newPhoton, Particle.new])]
    dsimp only
    rw [hc, hlog, Res.ok_bind, if_pos (by
      show (p.opticalDepth -. bwDelta cfg.dt 200 logt p.energy <. Dbl.lit 0) = true
      rw [hd]; simpa using hdelta)]
    rw [show r.next.1 = 0 from rfl, hs, Res.ok_bind]
    exact ⟨_, rfl⟩
  obtain ⟨⟨l', r'⟩, hrun⟩ := hrun
  refine ⟨t, cfg, p, _, r, _, l', r', ht, hg, ?_, hrun, ⟨rfl, rfl⟩, by simp [PList.new, PList.nPart], ?_, ?_,
    ?_, ?_, he.ge⟩
  · intro i; simp [r]
  · intro h
    have : (20000 : ℝ) = 0 := congrArg V3.z h
    norm_num at this
  · rw [hc]; exact log_200.1
  · rw [hc]; exact log_200.2
  · show (0 : ℝ) ≤ 0.0005
    norm_num

end QED
