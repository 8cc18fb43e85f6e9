import Verif.Props.ShippedEnergy
import Mathlib.MeasureTheory.Measure.Lebesgue.Basic

set_option autoImplicit false

/-!
# Property C101: sampled energies follow the tabulated distributions
-/

namespace QED

open Dbl TableFile MCTools Numerics

/-- A row of cumulative probabilities `t` over increasing values `x`: never decreasing, up to 1; it starts at
0 or with a proper increase. -/
structure Distribution (t x : List ℝ) : Prop where
  len : x.length = t.length
  two : 2 ≤ t.length
  small : t.length < 2 ^ 32
  mono : t.Pairwise (· ≤ ·)
  values : x.Pairwise (· < ·)
  last : t.getLast? = some 1
  first : t[0]? = some 0 ∨ ∀ a b, t[0]? = some a → t[1]? = some b → a < b

/-- The value found for a draw is below the `j`-th value exactly if the draw is below the `j`-th cumulative
probability. -/
theorem inverse_row {t x : List ℝ} (h : Distribution t x) {u : ℝ} (h0 : 0 ≤ u) (h1 : u < 1) :
    ∃ y, interpolate1D t x u = .ok y ∧
      ∀ (j : Nat) (hj : j < t.length), y < x[j]'(by rw [h.len]; exact hj) ↔ u < t[j] := by
  have hn := h.two
  have hl := h.len
  have mt : MonoTable t x := ⟨h.len, h.two, h.small, h.mono⟩
  have e1 : t[t.length - 1] = 1 := by
    have := h.last
    rw [List.getLast?_eq_getElem?, List.getElem?_eq_getElem (by omega)] at this
    simpa using this
  by_cases hu : t[0] ≤ u
  · obtain ⟨i, hi, g0, g1⟩ := exists_segment (by omega) hu (by rw [e1]; exact h1)
    refine ⟨_, C05_on_segment_ties mt u i hi g0 g1, fun j hj => ?_⟩
    have hx : x[i] < x[i + 1] := sorted_lt h.values (Nat.lt_succ_self i) (by omega)
    have hpos : 0 < t[i + 1] - t[i] := by linarith
    have a0 : x[i] ≤ lineThrough t[i] x[i] t[i + 1] x[i + 1] u := by
      unfold lineThrough
      have : 0 ≤ (x[i + 1] - x[i]) / (t[i + 1] - t[i]) * (u - t[i]) :=
        mul_nonneg (div_nonneg (by linarith) hpos.le) (by linarith)
      linarith
    have a1 : lineThrough t[i] x[i] t[i + 1] x[i + 1] u < x[i + 1] := by
      unfold lineThrough
      have : (x[i + 1] - x[i]) / (t[i + 1] - t[i]) * (u - t[i]) < x[i + 1] - x[i] := by
        rw [div_mul_eq_mul_div, div_lt_iff₀ hpos]
        exact mul_lt_mul_of_pos_left (by linarith) (by linarith)
      linarith
    by_cases hji : j ≤ i
    · have b0 : x[j]'(by omega) ≤ x[i] := sorted_le h.values hji (by omega)
      have b1 : t[j] ≤ t[i] := mono_le h.mono hji (by omega)
      exact ⟨fun h => absurd h (not_lt.2 (b0.trans a0)), fun h => absurd h (not_lt.2 (b1.trans g0))⟩
    · have b0 : x[i + 1] ≤ x[j]'(by omega) := sorted_le h.values (by omega) (by omega)
      have b1 : t[i + 1] ≤ t[j] := mono_le h.mono (by omega) hj
      exact ⟨fun _ => lt_of_lt_of_le g1 b1, fun _ => lt_of_lt_of_le a1 b0⟩
  · have hu' := not_le.1 hu
    have h01 : t[0] < t[1] := by
      rcases h.first with hz | hz
      · rw [List.getElem?_eq_getElem (by omega)] at hz
        have := Option.some.inj hz
        linarith
      · exact hz _ _ (List.getElem?_eq_getElem _) (List.getElem?_eq_getElem _)
    have hx : x[0] < x[1] := sorted_lt h.values Nat.zero_lt_one (by omega)
    refine ⟨x[0] + (x[1] - x[0]) * ((u - t[0]) / (t[1] - t[0])), ?_, fun j hj => ?_⟩
    · unfold interpolate1D
      dsimp only
      rw [rd_ok (show 0 < t.length by omega)]
      simp only [Res.ok_bind, real_lt, hu', decide_true, if_true]
      rw [rd_ok (show 0 < x.length by omega), rd_ok (show 1 < x.length by omega),
        rd_ok (show 1 < t.length by omega)]
      simp only [Res.ok_bind, real_add, real_sub, real_mul, real_div]
    · have b0 : x[0] ≤ x[j]'(by omega) := sorted_le h.values (Nat.zero_le j) (by omega)
      have b1 : t[0] ≤ t[j] := mono_le h.mono (Nat.zero_le j) hj
      have : (x[1] - x[0]) * ((u - t[0]) / (t[1] - t[0])) < 0 :=
        mul_neg_of_pos_of_neg (by linarith) (div_neg_of_neg_of_pos (by linarith) (by linarith))
      exact ⟨fun _ => lt_of_lt_of_le hu' b1, fun _ => by linarith⟩

/-- A bracketing lookup at a sample point finds that point. -/
theorem closest_at_sample {s : List ℝ} (hs : s.Pairwise (· < ·)) (hl : s.length < 2 ^ 32) (h3 : 3 ≤ s.length)
    (i : Nat) (hi : i + 1 < s.length) :
    ∃ low f, closestPoints s s[i] = .ok (low, f) ∧ (low = i ∧ f = 0 ∨ low + 1 = i ∧ f = 1) := by
  obtain ⟨low, f, hlow, hc, f0, f1, hq⟩ := C08_bracket_partial hs (by omega) hl s[i]
    (sorted_le hs (Nat.zero_le i) (by omega)) (sorted_le hs (by omega) (by omega)) h3
  refine ⟨low, f, hc, ?_⟩
  have hgap : s[low] < s[low + 1] := sorted_lt hs (Nat.lt_succ_self low) hlow
  by_cases h : i ≤ low
  · left
    have a : s[i] ≤ s[low] := sorted_le hs h (by omega)
    have hf : f = 0 := by
      by_contra hne
      have : 0 < f := lt_of_le_of_ne f0 (Ne.symm hne)
      nlinarith
    refine ⟨?_, hf⟩
    by_contra hne
    have : s[i] < s[low] := sorted_lt hs (by omega) (by omega)
    rw [hf] at hq
    linarith
  · right
    have a : s[low + 1] ≤ s[i] := sorted_le hs (by omega) (by omega)
    have hf : f = 1 := by
      by_contra hne
      have : f < 1 := lt_of_le_of_ne f1 hne
      nlinarith
    refine ⟨?_, hf⟩
    by_contra hne
    have : s[low + 1] < s[i] := sorted_lt hs (by omega) (by omega)
    rw [hf] at hq
    linarith

/-- A bracketing lookup between two neighbouring sample points weights whatever is tabulated there with the
distances of the query from them. -/
theorem closest_between {s : List ℝ} (hs : s.Pairwise (· < ·)) (hl : s.length < 2 ^ 32) (h3 : 3 ≤ s.length)
    (i : Nat) (hi : i + 2 < s.length) {w : ℝ} (hw0 : 0 ≤ w) (hw1 : w ≤ 1) :
    ∃ low f, low + 1 < s.length ∧ closestPoints s ((1 - w) * s[i] + w * s[i + 1]) = .ok (low, f) ∧
      ∀ v : Nat → ℝ, (1 - f) * v low + f * v (low + 1) = (1 - w) * v i + w * v (i + 1) := by
  have g : s[i] < s[i + 1] := sorted_lt hs (Nat.lt_succ_self i) (by omega)
  have q0 : s[i] ≤ (1 - w) * s[i] + w * s[i + 1] := by nlinarith
  have q1 : (1 - w) * s[i] + w * s[i + 1] ≤ s[i + 1] := by nlinarith
  obtain ⟨low, f, hlow, hc, f0, f1, hq⟩ := C08_bracket_partial hs (by omega) hl ((1 - w) * s[i] + w * s[i + 1])
    ((sorted_le hs (Nat.zero_le i) (by omega)).trans q0) (q1.trans (sorted_le hs (by omega) (by omega))) h3
  refine ⟨low, f, hlow, hc, fun v => ?_⟩
  have hgap : s[low] < s[low + 1] := sorted_lt hs (Nat.lt_succ_self low) hlow
  rcases lt_trichotomy low i with h | rfl | h
  · have a : s[low + 1] ≤ s[i] := sorted_le hs h (by omega)
    have hf : f = 1 := by
      by_contra hne
      have : f < 1 := lt_of_le_of_ne f1 hne
      nlinarith
    subst hf
    have hw : w = 0 := by
      by_contra hne
      have : 0 < w := lt_of_le_of_ne hw0 (Ne.symm hne)
      nlinarith
    have : low + 1 = i := by
      by_contra hne
      have : s[low + 1] < s[i] := sorted_lt hs (by omega) (by omega)
      linarith
    subst this hw
    ring
  · have : f = w := by
      have : (f - w) * (s[low + 1] - s[low]) = 0 := by linarith
      rcases mul_eq_zero.1 this with h | h <;> linarith
    rw [this]
  · have a : s[i + 1] ≤ s[low] := sorted_le hs h (by omega)
    have hf : f = 0 := by
      by_contra hne
      have : 0 < f := lt_of_le_of_ne f0 (Ne.symm hne)
      nlinarith
    subst hf
    have hw : w = 1 := by
      by_contra hne
      have : w < 1 := lt_of_le_of_ne hw1 hne
      nlinarith
    have : i + 1 = low := by
      by_contra hne
      have : s[i + 1] < s[low] := sorted_lt hs (by omega) (by omega)
      linarith
    subst this hw
    ring

/-! ## C101 for pair production -/

/-- Energy-split tables with a distribution over the energy fractions in each row. -/
structure SplitDistributions (cfg : BWCfg ℝ) : Prop where
  axis : cfg.chiAxis.Pairwise (· < ·)
  three : 3 ≤ cfg.chiAxis.length
  small : cfg.chiAxis.length < 2 ^ 32
  rows : cfg.fractTable.length = cfg.chiAxis.length
  row : ∀ r ∈ cfg.fractTable, Distribution r cfg.fractAxis

/-- C101 for pair production: at the `i`-th tabulated `chi`, except the last one, the share of the positron
is below the `j`-th fraction with the `j`-th cumulative probability of the `i`-th row. -/
theorem C101_pairs_partial {cfg : BWCfg ℝ} (h : SplitDistributions cfg) (i : Nat) (hi : i + 1 < cfg.chiAxis.length)
    {chi : ℝ} (hchi : Real.logb 10 chi = cfg.chiAxis[i]) (r : List ℝ) (hr : cfg.fractTable[i]? = some r)
    (j : Nat) (hj : j < r.length) (e : ℝ) (he : cfg.fractAxis[j]? = some e) :
    MeasureTheory.volume {u : ℝ | 0 ≤ u ∧ u < 1 ∧ ∃ s, bwSplit cfg chi u = .ok s ∧ s < e} =
      ENNReal.ofReal r[j] := by
  have hmem := List.mem_of_getElem? hr
  have hd := h.row r hmem
  have key : ∀ u : ℝ, 0 ≤ u → u < 1 → ∃ s, bwSplit cfg chi u = .ok s ∧ (s < e ↔ u < r[j]) := by
    intro u h0 h1
    obtain ⟨low, f, hc, hlf⟩ := closest_at_sample h.axis h.small h.three i hi
    have hrow : ∀ k < cfg.chiAxis.length, ∃ t v, cfg.fractTable[k]? = some t ∧
        interpolate1D t cfg.fractAxis u = .ok v ∧ (k = i → (v < e ↔ u < r[j])) := by
      intro k hk
      have hk' : k < cfg.fractTable.length := by rw [h.rows]; exact hk
      obtain ⟨v, hv, hiff⟩ := inverse_row (h.row _ (List.getElem_mem hk')) h0 h1
      refine ⟨_, v, List.getElem?_eq_getElem hk', hv, ?_⟩
      rintro rfl
      rw [List.getElem?_eq_getElem hk'] at hr
      obtain rfl := Option.some.inj hr
      have := hiff j hj
      rw [List.getElem?_eq_getElem (by rw [hd.len]; exact hj)] at he
      rw [← Option.some.inj he]
      exact this
    obtain ⟨t0, v0, a1, a2, a3⟩ := hrow low (by omega)
    obtain ⟨t1, v1, b1, b2, b3⟩ := hrow (low + 1) (by omega)
    refine ⟨(1 - f) * v0 + f * v1, ?_, ?_⟩
    · unfold bwSplit
      rw [show log10 chi = cfg.chiAxis[i] from hchi, hc]
      simp only [Res.ok_bind, rd, a1, a2, b1, b2]
      simp
    · rcases hlf with ⟨rfl, rfl⟩ | ⟨hl, rfl⟩
      · simpa using a3 rfl
      · simpa using b3 hl
  have hset : {u : ℝ | 0 ≤ u ∧ u < 1 ∧ ∃ s, bwSplit cfg chi u = .ok s ∧ s < e} = Set.Ico 0 r[j] := by
    ext u
    constructor
    · rintro ⟨h0, h1, s, hs, hlt⟩
      obtain ⟨s', hs', hiff⟩ := key u h0 h1
      rw [hs] at hs'
      obtain rfl := Res.ok.inj hs'
      exact ⟨h0, hiff.1 hlt⟩
    · rintro ⟨h0, h1⟩
      have e1 : r[j] ≤ 1 := by
        have := hd.last
        have hn := hd.two
        rw [List.getLast?_eq_getElem?, List.getElem?_eq_getElem (by omega)] at this
        rw [← Option.some.inj this]
        exact mono_le hd.mono (by omega) (by omega)
      obtain ⟨s, hs, hiff⟩ := key u h0 (by linarith)
      exact ⟨h0, by linarith, s, hs, hiff.2 h1⟩
  rw [hset, Real.volume_Ico, sub_zero]

/-- C101 for pair production between two tabulated values: the share is the average of the shares of the two
rows, weighted with the distances in `log10 chi`. -/
theorem C101_pairs_between {cfg : BWCfg ℝ} (h : SplitDistributions cfg) (i : Nat)
    (hi : i + 2 < cfg.chiAxis.length) {chi chi0 chi1 : ℝ} (h0 : Real.logb 10 chi0 = cfg.chiAxis[i])
    (h1 : Real.logb 10 chi1 = cfg.chiAxis[i + 1]) (w : ℝ) (hw0 : 0 ≤ w) (hw1 : w ≤ 1)
    (hchi : Real.logb 10 chi = (1 - w) * Real.logb 10 chi0 + w * Real.logb 10 chi1)
    {u : ℝ} (hu0 : 0 ≤ u) (hu1 : u < 1) :
    ∃ s s0 s1, bwSplit cfg chi u = .ok s ∧ bwSplit cfg chi0 u = .ok s0 ∧ bwSplit cfg chi1 u = .ok s1 ∧
      s = (1 - w) * s0 + w * s1 := by
  have hrow : ∀ k, ∃ v : ℝ, ∀ hk : k < cfg.chiAxis.length,
      interpolate1D (cfg.fractTable[k]'(by rw [h.rows]; exact hk)) cfg.fractAxis u = .ok v := by
    intro k
    by_cases hk : k < cfg.chiAxis.length
    · obtain ⟨v, hv, -⟩ := inverse_row (h.row _ (List.getElem_mem (by rw [h.rows]; exact hk))) hu0 hu1
      exact ⟨v, fun _ => hv⟩
    · exact ⟨0, fun h => absurd h hk⟩
  choose v hv using hrow
  have key : ∀ x : ℝ, ∀ a : ℝ, 0 ≤ a → a ≤ 1 →
      Real.logb 10 x = (1 - a) * cfg.chiAxis[i] + a * cfg.chiAxis[i + 1] →
      bwSplit cfg x u = .ok ((1 - a) * v i + a * v (i + 1)) := by
    intro x a a0 a1 hx
    obtain ⟨low, f, hlow, hc, hval⟩ := closest_between h.axis h.small h.three i hi a0 a1
    have l0 : low < cfg.fractTable.length := by rw [h.rows]; omega
    have l1 : low + 1 < cfg.fractTable.length := by rw [h.rows]; omega
    unfold bwSplit
    rw [show log10 x = (1 - a) * cfg.chiAxis[i] + a * cfg.chiAxis[i + 1] from hx, hc, ← hval v]
    simp only [Res.ok_bind, rd_ok l0, rd_ok l1, hv low (by omega), hv (low + 1) hlow]
    simp
  refine ⟨_, _, _, key chi w hw0 hw1 (by rw [hchi, h0, h1]), key chi0 0 le_rfl zero_le_one (by rw [h0]; ring),
    key chi1 1 zero_le_one le_rfl (by rw [h1]; ring), ?_⟩
  ring

/-! ## C101 for photon emission -/

/-- Energy tables of emission with a distribution over `log10 chi` in each row. -/
structure ChiDistributions (cfg : EmissionCfg ℝ) : Prop where
  axis : cfg.etaAxis.Pairwise (· < ·)
  three : 3 ≤ cfg.etaAxis.length
  small : cfg.etaAxis.length < 2 ^ 32
  rows : cfg.phEnTable.length = cfg.etaAxis.length ∧ cfg.chiAxis.length = cfg.etaAxis.length
  row : ∀ (i : Nat) (t c : List ℝ), cfg.phEnTable[i]? = some t → cfg.chiAxis[i]? = some c → Distribution t c

/-- The values of `log10 chi` found in the rows for a draw, and the sampled `chi` between two of them. -/
theorem chi_between {cfg : EmissionCfg ℝ} (h : ChiDistributions cfg) {u : ℝ} (hu0 : 0 ≤ u) (hu1 : u < 1) :
    ∃ v : Nat → ℝ, (∀ (i : Nat) (t c : List ℝ), cfg.phEnTable[i]? = some t → cfg.chiAxis[i]? = some c →
        interpolate1D t c u = .ok (v i)) ∧
      ∀ (i : Nat) (hi : i + 2 < cfg.etaAxis.length) (eta a : ℝ), 0 ≤ a → a ≤ 1 →
        Real.logb 10 eta = (1 - a) * cfg.etaAxis[i] + a * cfg.etaAxis[i + 1] →
        calculateChi cfg eta u = .ok (10 ^ ((1 - a) * v i + a * v (i + 1))) := by
  obtain ⟨r1, r2⟩ := h.rows
  have hrow : ∀ k : Nat, ∃ v : ℝ, ∀ (t c : List ℝ), cfg.phEnTable[k]? = some t → cfg.chiAxis[k]? = some c →
      interpolate1D t c u = .ok v := by
    intro k
    by_cases hk : k < cfg.etaAxis.length
    · have e1 := List.getElem?_eq_getElem (l := cfg.phEnTable) (i := k) (by omega)
      have e2 := List.getElem?_eq_getElem (l := cfg.chiAxis) (i := k) (by omega)
      obtain ⟨v, hv, -⟩ := inverse_row (h.row k _ _ e1 e2) hu0 hu1
      refine ⟨v, fun t c ht hc => ?_⟩
      rw [e1] at ht
      rw [e2] at hc
      rw [← Option.some.inj ht, ← Option.some.inj hc]
      exact hv
    · refine ⟨0, fun t c ht _ => ?_⟩
      rw [List.getElem?_eq_none (by omega)] at ht
      cases ht
  choose v hv using hrow
  refine ⟨v, hv, fun i hi eta a a0 a1 hx => ?_⟩
  obtain ⟨low, f, hlow, hc, hval⟩ := closest_between h.axis h.small h.three i hi a0 a1
  have l0 : low < cfg.phEnTable.length := by omega
  have l1 : low + 1 < cfg.phEnTable.length := by omega
  have m0 : low < cfg.chiAxis.length := by omega
  have m1 : low + 1 < cfg.chiAxis.length := by omega
  unfold calculateChi
  rw [show log10 eta = (1 - a) * cfg.etaAxis[i] + a * cfg.etaAxis[i + 1] from hx, hc, ← hval v]
  simp only [Res.ok_bind, rd_ok l0, rd_ok l1, rd_ok m0, rd_ok m1,
    hv low _ _ (List.getElem?_eq_getElem l0) (List.getElem?_eq_getElem m0),
    hv (low + 1) _ _ (List.getElem?_eq_getElem l1) (List.getElem?_eq_getElem m1)]
  simp

/-- C101 for emission: at the `i`-th tabulated eta, except the last one, the sampled `chi` is below the
`j`-th tabulated value with the `j`-th cumulative probability of the `i`-th row. -/
theorem C101_emission_partial {cfg : EmissionCfg ℝ} (h : ChiDistributions cfg) (i : Nat)
    (hi : i + 1 < cfg.etaAxis.length) {eta : ℝ} (heta : Real.logb 10 eta = cfg.etaAxis[i])
    (t c : List ℝ) (ht : cfg.phEnTable[i]? = some t) (hc : cfg.chiAxis[i]? = some c)
    (j : Nat) (p x : ℝ) (hp : t[j]? = some p) (hx : c[j]? = some x) :
    MeasureTheory.volume {u : ℝ | 0 ≤ u ∧ u < 1 ∧ ∃ chi, calculateChi cfg eta u = .ok chi ∧ chi < 10 ^ x} =
      ENNReal.ofReal p := by
  have hd := h.row i t c ht hc
  obtain ⟨hj, rfl⟩ := List.getElem?_eq_some_iff.1 hp
  obtain ⟨hj', rfl⟩ := List.getElem?_eq_some_iff.1 hx
  have key : ∀ u : ℝ, 0 ≤ u → u < 1 →
      ∃ chi, calculateChi cfg eta u = .ok chi ∧ (chi < 10 ^ c[j] ↔ u < t[j]) := by
    intro u h0 h1
    obtain ⟨v, hv, hb⟩ := chi_between h h0 h1
    have hchi : calculateChi cfg eta u = .ok (10 ^ v i) := by
      have h3 := h.three
      by_cases h2 : i + 2 < cfg.etaAxis.length
      · rw [hb i h2 eta 0 le_rfl zero_le_one (by rw [heta]; ring)]
        ring_nf
      · obtain ⟨k, rfl⟩ : ∃ k, i = k + 1 := ⟨i - 1, by omega⟩
        rw [hb k (by omega) eta 1 zero_le_one le_rfl (by rw [heta]; ring)]
        ring_nf
    refine ⟨_, hchi, ?_⟩
    obtain ⟨y, hy, hiff⟩ := inverse_row hd h0 h1
    rw [hv i t c ht hc] at hy
    rw [Real.rpow_lt_rpow_left_iff (by norm_num), Res.ok.inj hy]
    exact hiff j hj
  have hset : {u : ℝ | 0 ≤ u ∧ u < 1 ∧ ∃ chi, calculateChi cfg eta u = .ok chi ∧ chi < 10 ^ c[j]} =
      Set.Ico 0 t[j] := by
    ext u
    constructor
    · rintro ⟨h0, h1, s, hs, hlt⟩
      obtain ⟨s', hs', hiff⟩ := key u h0 h1
      rw [hs] at hs'
      obtain rfl := Res.ok.inj hs'
      exact ⟨h0, hiff.1 hlt⟩
    · rintro ⟨h0, h1⟩
      have e1 : t[j] ≤ 1 := by
        have := hd.last
        have hn := hd.two
        rw [List.getLast?_eq_getElem?, List.getElem?_eq_getElem (by omega)] at this
        rw [← Option.some.inj this]
        exact mono_le hd.mono (by omega) (by omega)
      obtain ⟨s, hs, hiff⟩ := key u h0 (by linarith)
      exact ⟨h0, by linarith, s, hs, hiff.2 h1⟩
  rw [hset, Real.volume_Ico, sub_zero]

/-- C101 for emission between two tabulated values: the sampled `chi` is the weighted geometric mean of the
ones at the two tabulated values. -/
theorem C101_emission_between {cfg : EmissionCfg ℝ} (h : ChiDistributions cfg) (i : Nat)
    (hi : i + 2 < cfg.etaAxis.length) {eta eta0 eta1 : ℝ} (h0 : Real.logb 10 eta0 = cfg.etaAxis[i])
    (h1 : Real.logb 10 eta1 = cfg.etaAxis[i + 1]) (w : ℝ) (hw0 : 0 ≤ w) (hw1 : w ≤ 1)
    (heta : Real.logb 10 eta = (1 - w) * Real.logb 10 eta0 + w * Real.logb 10 eta1)
    {u : ℝ} (hu0 : 0 ≤ u) (hu1 : u < 1) :
    ∃ c c0 c1, calculateChi cfg eta u = .ok c ∧ calculateChi cfg eta0 u = .ok c0 ∧
      calculateChi cfg eta1 u = .ok c1 ∧ c = c0 ^ (1 - w) * c1 ^ w := by
  obtain ⟨v, -, hb⟩ := chi_between h hu0 hu1
  refine ⟨_, _, _, hb i hi eta w hw0 hw1 (by rw [heta, h0, h1]),
    hb i hi eta0 0 le_rfl zero_le_one (by rw [h0]; ring), hb i hi eta1 1 zero_le_one le_rfl (by rw [h1]; ring), ?_⟩
  rw [← Real.rpow_mul (by norm_num), ← Real.rpow_mul (by norm_num), ← Real.rpow_add (by norm_num)]
  congr 1
  ring

/-- C101 is false at the last tabulated values: nothing is sampled there, the program ends. -/
theorem C101_last_refuted :
    (∀ (cfg : BWCfg ℝ), SplitDistributions cfg → ∀ chi x : ℝ, cfg.chiAxis.getLast? = some x →
      Real.logb 10 chi = x → ∀ u, bwSplit cfg chi u = .exit (-1)) ∧
    ∀ (cfg : EmissionCfg ℝ), ChiDistributions cfg → ∀ eta x : ℝ, cfg.etaAxis.getLast? = some x →
      Real.logb 10 eta = x → ∀ u, calculateChi cfg eta u = .exit (-1) := by
  have key : ∀ s : List ℝ, s.Pairwise (· < ·) → 3 ≤ s.length → s.length < 2 ^ 32 → ∀ x, s.getLast? = some x →
      closestPoints s x = .exit (-1) := by
    intro s hs h3 hl x hx
    refine C08_last_interval_refuted hs (by omega) hl x ?_
    rw [List.getLast?_eq_getElem?, List.getElem?_eq_getElem (by omega)] at hx
    rw [← Option.some.inj hx]
    exact sorted_lt hs (by omega) (by omega)
  constructor
  · intro cfg h chi x hx hc u
    unfold bwSplit
    rw [show log10 chi = x from hc, key _ h.axis h.three h.small x hx]
    rfl
  · intro cfg h eta x hx hc u
    unfold calculateChi
    rw [show log10 eta = x from hc, key _ h.axis h.three h.small x hx]
    rfl

/-! ## The shipped tables -/

namespace Shipped

theorem epsilon_incr : incr epsilon = true := by decide +kernel

/-- The shipped tables of pair production are distributions. -/
theorem splitDistributions {cfg : BWCfg ℝ} (h : SplitTables cfg) : SplitDistributions cfg := by
  have hl : cfg.chiAxis.length = 100 := by rw [h.chi, List.length_map, logChi_length]
  refine ⟨?_, by omega, by omega, ?_, ?_⟩
  · rw [h.chi, List.pairwise_map]
    exact (incr_pairwise logChi_incr).imp fun h => val_lt h
  · rw [hl, h.table, List.length_map, split_length]
  · intro r hr
    rw [h.table] at hr
    obtain ⟨ts, hts, rfl⟩ := List.mem_map.1 hr
    obtain ⟨c1, -, c3, c4, c5⟩ := cdf_spec (List.all_eq_true.1 split_cdf ts hts)
    refine ⟨?_, by rw [List.length_map]; omega, by rw [List.length_map]; omega, c3, ?_, ?_, ?_⟩
    · rw [h.fract, List.length_map, List.length_map, epsilon_length, c1]
    · rw [h.fract, List.pairwise_map]
      exact (incr_pairwise epsilon_incr).imp fun h => val_lt h
    · rw [List.getLast?_eq_getElem?, List.length_map, c1]
      exact c4
    · match ts, c1, c5 with
      | a :: b :: rest, _, c5 =>
        rcases c5 a b rest rfl with h0 | ⟨-, h0⟩
        · left
          simp [val, h0]
        · right
          intro x y hx hy
          simp only [List.map_cons, List.getElem?_cons_zero, List.getElem?_cons_succ, Option.some.injEq] at hx hy
          rw [← hx, ← hy]
          exact val_lt h0

/-- The shipped tables of photon emission are distributions. -/
theorem chiDistributions (dir : List Char) (t : Emission ℝ) (hl : loadEmission (some dir) (tables dir) = .ok t)
    (cfg : EmissionCfg ℝ) (hg : t.Gives cfg) : ChiDistributions cfg ∧ cfg.etaAxis.length = 100 := by
  have hh := halfEta dir t hl cfg hg
  have h100 := (firstRows dir t hl cfg hg).axis.1
  refine ⟨⟨hh.sorted, hh.three, hh.small, hh.rows, ?_⟩, h100⟩
  intro i s c hs hc
  have hr := hh.row i s c hs hc
  rw [C86_emission dir _ _ _ _ _ _ _ _ _ _ (files_h dir) (files_ksi dir) (files_chiMin dir) h_file
    ksi_file] at hl
  have hlen : (rowNums ksiRows).length = 100 := by rw [rowNums, List.length_map, ksi_length]
  rw [hlen] at hl
  obtain rfl := Res.ok.inj hl
  obtain ⟨-, -, -, g4, -⟩ := hg
  dsimp only at g4
  have hm : (lit logMin.numeral.value : ℝ) = -5 := by rw [logMin_value]; norm_num
  have hM : (lit logMax.numeral.value : ℝ) = 1 := by rw [logMax_value]; norm_num
  rw [hm, hM] at g4
  have hi : i < 100 := by
    have := (List.getElem?_eq_some_iff.1 hc).1
    have := hh.rows.2
    omega
  have e := C87_eta 100 (by norm_num) (-5 : ℝ) 1 i hi
  have hn : i < (nums chiMin).length := by rw [nums, List.length_map, chiMin_length]; exact hi
  obtain ⟨m0, m1⟩ := chiMin_value (List.getElem?_eq_getElem hn)
  rw [g4, List.getElem?_zipWith, e, List.getElem?_map, List.getElem?_eq_getElem hn] at hc
  obtain rfl := Option.some.inj hc
  refine ⟨hr.len, hr.two, hr.small, hr.mono, ?_, hr.last, ?_⟩
  · rw [List.pairwise_iff_getElem]
    intro a b ha hb hab
    have la : a < 100 := by simpa [chiRow] using ha
    have lb : b < 100 := by simpa [chiRow] using hb
    have ea := C87_row 100 100 (by norm_num) (-5 + (1 - -5) * ((i : ℝ) / ((100 : Nat) - 1)))
      (lit (nums chiMin)[i].value) a la
    have eb := C87_row 100 100 (by norm_num) (-5 + (1 - -5) * ((i : ℝ) / ((100 : Nat) - 1)))
      (lit (nums chiMin)[i].value) b lb
    have ga := Option.some.inj ((List.getElem?_eq_getElem ha).symm.trans ea)
    have gb := Option.some.inj ((List.getElem?_eq_getElem hb).symm.trans eb)
    refine lt_of_eq_of_lt ga (lt_of_lt_of_eq ?_ gb.symm)
    have hx0 : (0 : ℝ) < (nums chiMin)[i].value := by exact_mod_cast m0
    have w1 : Real.logb 10 (nums chiMin)[i].value ≤ -6 := by
      rw [Real.logb_le_iff_le_rpow (by norm_num) hx0, show (-6 : ℝ) = ((-6 : ℤ) : ℝ) by norm_num,
        Real.rpow_intCast]
      norm_num
      norm_num at m1
      exact m1
    have w2 : Real.logb 10 2 < 1 := by
      rw [Real.logb_lt_iff_lt_rpow (by norm_num) (by norm_num)]; norm_num
    have w3 : (0 : ℝ) ≤ (1 - -5) * ((i : ℝ) / ((100 : Nat) - 1)) := by
      push_cast
      have : (0 : ℝ) ≤ i := Nat.cast_nonneg i
      have : (0 : ℝ) ≤ (1 - -5) * (i / (100 - 1)) := by positivity
      exact this
    have hab' : (a : ℝ) < b := by exact_mod_cast hab
    have hpos : 0 < -5 + (1 - -5) * ((i : ℝ) / ((100 : Nat) - 1)) - Real.logb 10 2 -
        Real.logb 10 (nums chiMin)[i].value := by linarith
    have hab2 : (a : ℝ) / ((100 : Nat) - 1) < b / ((100 : Nat) - 1) := by
      push_cast
      exact div_lt_div_of_pos_right hab' (by norm_num)
    have := mul_lt_mul_of_pos_left hab2 hpos
    rw [real_lit]
    linarith
  · have h2 := hr.two
    have hl2 := hr.len
    rcases hr.first with h | h
    · left
      rw [← List.head?_eq_getElem?]
      exact h
    · right
      intro x y hx hy
      exact (h x y _ _ hx hy (List.getElem?_eq_getElem (by omega)) (List.getElem?_eq_getElem (by omega))).1

/-- The rows of the shipped energy table have 100 columns. -/
theorem table_width (dir : List Char) (t : Emission ℝ) (hl : loadEmission (some dir) (tables dir) = .ok t)
    (cfg : EmissionCfg ℝ) (hg : t.Gives cfg) : ∀ r ∈ cfg.phEnTable, r.length = 100 := by
  rw [C86_emission dir _ _ _ _ _ _ _ _ _ _ (files_h dir) (files_ksi dir) (files_chiMin dir) h_file
    ksi_file] at hl
  obtain rfl := Res.ok.inj hl
  obtain ⟨-, -, -, -, g5⟩ := hg
  dsimp only at g5
  intro r hr
  have hm : r.map some ∈ cfg.phEnTable.map (fun r => r.map some) := List.mem_map.2 ⟨r, hr, rfl⟩
  rw [← g5, rowNums, List.map_map] at hm
  obtain ⟨ts, hts, he⟩ := List.mem_map.1 hm
  have h1 := (cdf_spec (List.all_eq_true.1 ksi_cdf ts hts)).1
  have := congrArg List.length he
  simpa [nums, h1] using this.symm

end Shipped

/-- C101 for emission with the shipped tables. -/
theorem C101_shipped_emission_partial (dir : List Char) (t : Emission ℝ)
    (hl : loadEmission (some dir) (Shipped.tables dir) = .ok t) (cfg : EmissionCfg ℝ) (hg : t.Gives cfg)
    (i : Nat) (hi : i < 99) (eta : ℝ) (heta : cfg.etaAxis[i]? = some (Real.logb 10 eta)) (j : Nat) (hj : j < 100) :
    ∃ r c p x, cfg.phEnTable[i]? = some r ∧ cfg.chiAxis[i]? = some c ∧ r[j]? = some p ∧ c[j]? = some x ∧
      MeasureTheory.volume {u : ℝ | 0 ≤ u ∧ u < 1 ∧ ∃ chi, calculateChi cfg eta u = .ok chi ∧ chi < 10 ^ x} =
        ENNReal.ofReal p := by
  obtain ⟨hd, h100⟩ := Shipped.chiDistributions dir t hl cfg hg
  obtain ⟨q1, q2⟩ := hd.rows
  have e1 := List.getElem?_eq_getElem (l := cfg.phEnTable) (i := i) (by omega)
  have e2 := List.getElem?_eq_getElem (l := cfg.chiAxis) (i := i) (by omega)
  have hr := hd.row i _ _ e1 e2
  have hlen := hr.len
  have hcols : (cfg.phEnTable[i]).length = 100 := by
    have h := Shipped.table_width dir t hl cfg hg _ (List.getElem_mem (by omega : i < cfg.phEnTable.length))
    exact h
  obtain ⟨_, hx⟩ := List.getElem?_eq_some_iff.1 heta
  have e3 := List.getElem?_eq_getElem (l := cfg.phEnTable[i]) (i := j) (by omega)
  have e4 := List.getElem?_eq_getElem (l := cfg.chiAxis[i]) (i := j) (by omega)
  exact ⟨_, _, _, _, e1, e2, e3, e4, C101_emission_partial hd i (by omega) hx.symm _ _ e1 e2 j _ _ e3 e4⟩

/-- C101 for pair production with the shipped tables. -/
theorem C101_shipped_partial (dir : List Char) (t : Pairs ℝ)
    (hl : loadPairs (some dir) (Shipped.tables dir) = .ok t) (cfg : BWCfg ℝ) (hg : t.Gives cfg)
    (i : Nat) (hi : i < 99) (chi : ℝ) (hchi : cfg.chiAxis[i]? = some (Real.logb 10 chi)) (j : Nat) (hj : j < 100) :
    ∃ r p e, cfg.fractTable[i]? = some r ∧ r[j]? = some p ∧ cfg.fractAxis[j]? = some e ∧
      MeasureTheory.volume {u : ℝ | 0 ≤ u ∧ u < 1 ∧ ∃ s, bwSplit cfg chi u = .ok s ∧ s < e} =
        ENNReal.ofReal p := by
  have hst := Shipped.splitTables dir t hl cfg hg
  have hd := Shipped.splitDistributions hst
  have h100 : cfg.chiAxis.length = 100 := by rw [hst.chi, List.length_map, Shipped.logChi_length]
  have hf : cfg.fractAxis.length = 100 := by rw [hst.fract, List.length_map, Shipped.epsilon_length]
  have hi' : i < cfg.fractTable.length := by rw [hd.rows]; omega
  have hr := hd.row _ (List.getElem_mem hi')
  have hlen := hr.len
  have hjr : j < (cfg.fractTable[i]).length := by omega
  obtain ⟨_, hx⟩ := List.getElem?_eq_some_iff.1 hchi
  exact ⟨_, _, _, List.getElem?_eq_getElem hi', List.getElem?_eq_getElem hjr,
    List.getElem?_eq_getElem (by omega),
    C101_pairs_partial hd i (by omega) hx.symm _ (List.getElem?_eq_getElem hi') j hjr _
      (List.getElem?_eq_getElem (by omega))⟩

/-- The shipped tables meet the hypotheses of `C101_pairs_partial` and `C101_pairs_between`. -/
example (dir : List Char) : ∃ cfg : BWCfg ℝ, SplitDistributions cfg := by
  obtain ⟨m, e, t, -, ht, -, -, -, -, -, h1, h2, h3, h4, h5⟩ := C98_loaded (D := ℝ) dir
  exact ⟨Main.bwCfg m (staticField ⟨1, 0, 0⟩ ⟨0, 0, 0⟩) 1,
    Shipped.splitDistributions (Shipped.splitTables dir t ht _ ⟨h1, h2, h3, h4, h5⟩)⟩

/-- Small tables that meet the hypotheses of `C101_emission_partial` and `C101_emission_between`. -/
example : ∃ cfg : EmissionCfg ℝ, ChiDistributions cfg ∧ 2 + 1 < cfg.etaAxis.length := by
  refine ⟨⟨staticField ⟨1, 0, 0⟩ ⟨0, 0, 0⟩, 1, false, 1, 0, [], [], [0, 1, 2, 3],
    [[-2, -1], [-2, 0], [-1, 1], [-1, 2]], [[0, 1], [0.1, 1], [0.2, 1], [0, 1]]⟩, ?_, by simp⟩
  refine ⟨by simp; norm_num, by simp, by simp, by simp, ?_⟩
  intro i t c ht hc
  match i, ht, hc with
  | 0, ht, hc =>
    obtain rfl := Option.some.inj ht; obtain rfl := Option.some.inj hc
    exact ⟨rfl, by simp, by simp, by simp, by simp, by simp, .inl rfl⟩
  | 1, ht, hc =>
    obtain rfl := Option.some.inj ht; obtain rfl := Option.some.inj hc
    exact ⟨rfl, by simp, by simp, by simp; norm_num, by simp, by simp, .inr (by
      intro a b ha hb; rw [← Option.some.inj ha, ← Option.some.inj hb]; norm_num)⟩
  | 2, ht, hc =>
    obtain rfl := Option.some.inj ht; obtain rfl := Option.some.inj hc
    exact ⟨rfl, by simp, by simp, by simp; norm_num, by simp, by simp, .inr (by
      intro a b ha hb; rw [← Option.some.inj ha, ← Option.some.inj hb]; norm_num)⟩
  | 3, ht, hc =>
    obtain rfl := Option.some.inj ht; obtain rfl := Option.some.inj hc
    exact ⟨rfl, by simp, by simp, by simp, by simp; norm_num, by simp, .inl rfl⟩
  | n + 4, ht, _ => simp at ht

end QED
