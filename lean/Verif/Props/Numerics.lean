import Verif.Lemmas.Numerics
import Mathlib.Analysis.SpecialFunctions.Integrals.Basic

set_option autoImplicit false

/-!
# Properties C05 to C09: tables and quadrature

Tables are lists of samples `s` and data `d` of equal length; `s` is strictly
increasing (`s.Pairwise (· < ·)`). Lengths fit in an `unsigned int`.
-/

namespace QED
open Numerics

/-- A usable interpolation table. -/
structure IsTable (s d : List ℝ) : Prop where
  len : d.length = s.length
  two : 2 ≤ s.length
  small : s.length < 2 ^ 32
  sorted : s.Pairwise (· < ·)

/-- A table whose sample points may coincide. -/
structure MonoTable (s d : List ℝ) : Prop where
  len : d.length = s.length
  two : 2 ≤ s.length
  small : s.length < 2 ^ 32
  mono : s.Pairwise (· ≤ ·)

theorem IsTable.toMono {s d : List ℝ} (t : IsTable s d) : MonoTable s d :=
  ⟨t.len, t.two, t.small, t.sorted.imp fun h => h.le⟩

theorem exampleTable : IsTable [0, 1, 3] [5, 4, 7] :=
  ⟨rfl, by simp, by simp, by norm_num⟩

/-- The straight line through `(x0, y0)` and `(x1, y1)`. -/
noncomputable def lineThrough (x0 y0 x1 y1 x : ℝ) : ℝ := y0 + (y1 - y0) / (x1 - x0) * (x - x0)

/-! ## C05 Interior interpolation -/

/-- A query in segment `i` gets the value on the straight line through its two end
points, even if the table has other segments without length. -/
theorem C05_on_segment_ties {s d : List ℝ} (t : MonoTable s d) (q : ℝ) (i : Nat)
    (hi : i + 1 < s.length) (h0 : s[i] ≤ q) (h1 : q < s[i + 1]) :
    interpolate1D s d q = .ok (lineThrough s[i] (d[i]'(by rw [t.len]; omega))
      s[i + 1] (d[i + 1]'(by rw [t.len]; omega)) q) := by
  have hlen := t.len
  have hn := t.two
  have hs := t.mono
  have a1 : s[0] ≤ s[i] := mono_le hs (Nat.zero_le _) (by omega)
  have a2 : s[i + 1] ≤ s[s.length - 1] := mono_le hs (by omega) (by omega)
  have b1 : ¬ q < s[0] := not_lt.mpr (a1.trans h0)
  have b2 : ¬ s[s.length - 1] < q := not_lt.mpr (h1.le.trans a2)
  have hf := firstAbove_eq_some (q := q) s 0 (i + 1) hi h1 (fun m hm =>
    not_lt.mpr ((mono_le hs (Nat.le_of_lt_succ hm) (by omega)).trans h0))
  unfold interpolate1D
  dsimp only
  rw [usub_of_le (by omega) t.small, rd_ok (show 0 < s.length by omega)]
  simp only [Res.ok_bind, real_lt, b1, decide_false]
  rw [if_neg (by simp), rd_ok (show s.length - 1 < s.length by omega)]
  simp only [Res.ok_bind, b2, decide_false]
  rw [if_neg (by simp), hf, Nat.zero_add]
  dsimp only
  rw [rd_ok (show i < d.length by omega), rd_ok (show i < s.length by omega),
    rd_ok (show i + 1 < d.length by omega), rd_ok hi]
  simp only [Res.ok_bind, real_add, real_sub, real_mul, real_div]
  congr 1
  unfold lineThrough
  ring

/-- Every query from the first sample point (included) to the last (excluded) is
answered from the segment it lies in; the answer lies between the two bracketing
data values. -/
theorem C05_interior_ties {s d : List ℝ} (t : MonoTable s d) (q : ℝ)
    (h0 : s[0]'(by have := t.two; omega) ≤ q)
    (h1 : q < s[s.length - 1]'(by have := t.two; omega)) :
    ∃ i, ∃ hi : i + 1 < s.length, ∃ hd : i + 1 < d.length, s[i] ≤ q ∧ q < s[i + 1] ∧
      ∃ y, interpolate1D s d q = .ok y ∧ y = lineThrough s[i] d[i] s[i + 1] d[i + 1] q ∧
        min d[i] d[i + 1] ≤ y ∧ y ≤ max d[i] d[i + 1] := by
  have hn := t.two
  obtain ⟨i, hi, g0, g1⟩ := exists_segment (by omega) h0 h1
  have hd : i + 1 < d.length := by rw [t.len]; exact hi
  refine ⟨i, hi, hd, g0, g1, _, C05_on_segment_ties t q i hi g0 g1, rfl, ?_⟩
  have hpos : 0 < s[i + 1] - s[i] := by linarith
  set f := (q - s[i]) / (s[i + 1] - s[i]) with hf
  have f0 : 0 ≤ f := div_nonneg (by linarith) hpos.le
  have f1 : f ≤ 1 := by rw [hf, div_le_one hpos]; linarith
  have e : lineThrough s[i] d[i] s[i + 1] d[i + 1] q = d[i] * (1 - f) + d[i + 1] * f := by
    unfold lineThrough; rw [hf]; field_simp; ring
  rw [e]
  have m1 := min_le_left d[i] d[i + 1]
  have m2 := min_le_right d[i] d[i + 1]
  have x1 := le_max_left d[i] d[i + 1]
  have x2 := le_max_right d[i] d[i + 1]
  constructor <;> nlinarith

/-- A query in segment `i` gets the value on the straight line through its two end
points. -/
theorem C05_on_segment {s d : List ℝ} (t : IsTable s d) (q : ℝ) (i : Nat)
    (hi : i + 1 < s.length) (h0 : s[i] ≤ q) (h1 : q < s[i + 1]) :
    interpolate1D s d q = .ok (lineThrough s[i] (d[i]'(by rw [t.len]; omega))
      s[i + 1] (d[i + 1]'(by rw [t.len]; omega)) q) :=
  C05_on_segment_ties t.toMono q i hi h0 h1

/-- Every query from the first sample point (included) to the last (excluded) is
answered from the segment it lies in; the answer lies between the two bracketing
data values. -/
theorem C05_interior {s d : List ℝ} (t : IsTable s d) (q : ℝ)
    (h0 : s[0]'(by have := t.two; omega) ≤ q)
    (h1 : q < s[s.length - 1]'(by have := t.two; omega)) :
    ∃ i, ∃ hi : i + 1 < s.length, ∃ hd : i + 1 < d.length, s[i] ≤ q ∧ q < s[i + 1] ∧
      ∃ y, interpolate1D s d q = .ok y ∧ y = lineThrough s[i] d[i] s[i + 1] d[i + 1] q ∧
        min d[i] d[i + 1] ≤ y ∧ y ≤ max d[i] d[i + 1] :=
  C05_interior_ties t.toMono q h0 h1

/-- A table with two segments without length. -/
example : MonoTable [0, 0, 1, 1] [5, 4, 7, 8] := ⟨rfl, by simp, by simp, by norm_num⟩

/-- The data are reproduced at every sample point but the last. -/
theorem C05_at_samples {s d : List ℝ} (t : IsTable s d) (i : Nat) (hi : i + 1 < s.length) :
    interpolate1D s d s[i] = .ok (d[i]'(by rw [t.len]; omega)) := by
  rw [C05_on_segment t s[i] i hi le_rfl (sorted_lt t.sorted (Nat.lt_succ_self i) hi)]
  simp [lineThrough]

example : interpolate1D ([0, 1, 3] : List ℝ) [5, 4, 7] 2 = .ok (11 / 2) := by
  have := C05_on_segment exampleTable 2 1 (by simp) (by norm_num) (by norm_num)
  rw [this]; norm_num [lineThrough]

/-! ## C06 Interpolation at the table ends -/

/-- C06 is false at the last sample point. -/
theorem C06_last_point_refuted :
    ¬ ∀ s d : List ℝ, (t : IsTable s d) →
      interpolate1D s d (s[s.length - 1]'(by have := t.two; omega)) =
        .ok (d[d.length - 1]'(by have := t.two; have := t.len; omega)) := by
  intro h
  have := h [0, 1, 2] [0, 1, 0] ⟨rfl, by simp, by simp, by norm_num⟩
  norm_num [interpolate1D, rd, usub, firstAbove] at this

/-- C06 is false above the last sample point: a straight line is not continued. -/
theorem C06_above_refuted :
    ¬ ∀ s d : List ℝ, (t : IsTable s d) → ∀ q,
      s[s.length - 1]'(by have := t.two; omega) < q →
      interpolate1D s d q = .ok (lineThrough
        (s[s.length - 2]'(by have := t.two; omega))
        (d[d.length - 2]'(by have := t.two; have := t.len; omega))
        (s[s.length - 1]'(by have := t.two; omega))
        (d[d.length - 1]'(by have := t.two; have := t.len; omega)) q) := by
  intro h
  have := h [0, 1] [0, 1] ⟨rfl, by simp, by simp, by norm_num⟩ 2 (by norm_num)
  norm_num [interpolate1D, rd, usub, firstAbove, lineThrough] at this

/-- What holds. Below the table the first segment is continued. At the last sample
point the code continues the *first* segment across the whole table. Above the
table it is off the straight continuation by one whole data increment.
Missing from C06: the value at the last point and continuity above it. -/
theorem C06_ends_partial {s d : List ℝ} (t : IsTable s d) (q : ℝ) :
    have hs := t.two
    have hd : 2 ≤ d.length := by rw [t.len]; exact hs
    (q < s[0] → interpolate1D s d q = .ok (lineThrough s[0] d[0] s[1] d[1] q)) ∧
    (q = s[s.length - 1] → interpolate1D s d q = .ok (lineThrough s[0] d[0] s[1] d[1] q)) ∧
    (s[s.length - 1] < q → interpolate1D s d q =
      .ok (lineThrough s[s.length - 2] d[d.length - 2] s[s.length - 1] d[d.length - 1] q
        + (d[d.length - 1] - d[d.length - 2]))) := by
  intro hs hd
  have hlen := t.len
  have hso := t.sorted
  have h01 : s[0] < s[1] := sorted_lt hso Nat.zero_lt_one (by omega)
  have h0e : s[0] < s[s.length - 1] := sorted_lt hso (by omega) (by omega)
  have hee : s[s.length - 2] < s[s.length - 1] := sorted_lt hso (by omega) (by omega)
  refine ⟨fun h => ?_, fun h => ?_, fun h => ?_⟩
  · unfold interpolate1D
    dsimp only
    rw [rd_ok (show 0 < s.length by omega)]
    simp only [Res.ok_bind, real_lt, h, decide_true, if_true]
    rw [rd_ok (show 0 < d.length by omega), rd_ok (show 1 < d.length by omega),
      rd_ok (show 1 < s.length by omega)]
    simp only [Res.ok_bind, real_add, real_sub, real_mul, real_div]
    congr 1; unfold lineThrough; ring
  · have hnone := firstAbove_eq_none (q := q) s 0 (fun x hx => by
      obtain ⟨k, hk, rfl⟩ := List.mem_iff_getElem.mp hx
      rw [h]; exact not_lt.mpr (sorted_le hso (by omega) (by omega)))
    have b1 : ¬ q < s[0] := by rw [h]; exact not_lt.mpr h0e.le
    have b2 : ¬ s[s.length - 1] < q := by rw [h]; exact lt_irrefl _
    unfold interpolate1D
    dsimp only
    rw [usub_of_le (by omega) t.small, rd_ok (show 0 < s.length by omega)]
    simp only [Res.ok_bind, real_lt, b1, decide_false]
    rw [if_neg (by simp), rd_ok (show s.length - 1 < s.length by omega)]
    simp only [Res.ok_bind, b2, decide_false]
    rw [if_neg (by simp), hnone]
    simp only []
    rw [rd_ok (show 0 < d.length by omega), rd_ok (show 1 < d.length by omega),
      rd_ok (show 1 < s.length by omega)]
    simp only [Res.ok_bind, real_add, real_sub, real_mul, real_div]
    congr 1; unfold lineThrough; ring
  · have b1 : ¬ q < s[0] := not_lt.mpr (h0e.le.trans h.le)
    unfold interpolate1D
    dsimp only
    rw [usub_of_le (by omega) t.small, rd_ok (show 0 < s.length by omega)]
    simp only [Res.ok_bind, real_lt, b1, decide_false]
    rw [if_neg (by simp), rd_ok (show s.length - 1 < s.length by omega)]
    simp only [Res.ok_bind, h, decide_true, if_true]
    rw [if_neg (by omega)]
    simp only [← hlen]
    rw [rd_ok (show d.length - 1 < d.length by omega), rd_ok (show d.length - 2 < d.length by omega),
      rd_ok (show d.length - 2 < s.length by omega)]
    simp only [Res.ok_bind, real_add, real_sub, real_mul, real_div, hlen]
    congr 1; unfold lineThrough
    have : s[s.length - 1] - s[s.length - 2] ≠ 0 := by linarith
    field_simp; ring

/-! ## C07 Nearest sample -/

/-- The returned index is valid, its sample is nearest to the query, and every other
nearest sample has a lower index. -/
theorem C07_nearest {s : List ℝ} (hs : s.Pairwise (· < ·)) (hn : s ≠ []) (hl : s.length < 2 ^ 32)
    (q : ℝ) :
    ∃ i, ∃ hi : i < s.length, arrayIndex s q = .ok i ∧
      (∀ j (hj : j < s.length), |q - s[i]| ≤ |q - s[j]|) ∧
      (∀ j (hj : j < s.length), |q - s[j]| = |q - s[i]| → j ≤ i) := by
  have hpos : 0 < s.length := List.length_pos_iff.mpr hn
  obtain ⟨j, hj, below, above⟩ := exists_run hs q
  have hscan := scanLow_eq (q := q) s 0 0 j hj below
    (fun h => not_lt.mpr (above j le_rfl h))
  -- samples below `low` are further than `low`, samples above `high` further than `high`
  have left : ∀ a b (hab : a ≤ b) (hb : b < s.length), s[b] ≤ q →
      |q - s[b]| ≤ |q - s[a]| := by
    intro a b hab hb h
    have := sorted_le hs hab hb
    rw [abs_of_nonneg (by linarith), abs_of_nonneg (by linarith)]; linarith
  have right : ∀ a b (hab : a ≤ b) (hb : b < s.length), q ≤ s[a] →
      |q - s[a]| ≤ |q - s[b]| := by
    intro a b hab hb h
    have := sorted_le hs hab hb
    rw [abs_of_nonpos (by linarith), abs_of_nonpos (by linarith)]; linarith
  have rightS : ∀ a b (hab : a < b) (hb : b < s.length), q ≤ s[a] →
      |q - s[a]| < |q - s[b]| := by
    intro a b hab hb h
    have := sorted_lt hs hab hb
    rw [abs_of_nonpos (by linarith), abs_of_nonpos (by linarith)]; linarith
  unfold arrayIndex
  simp only [hscan]
  rw [usub_of_le (by omega) hl]
  by_cases hlast : j = s.length
  · -- every sample is below the query
    have hj0 : j ≠ 0 := by omega
    rw [if_neg hj0, if_neg (by omega)]
    refine ⟨s.length - 1, by omega, rfl, fun k hk => ?_, fun k hk _ => by omega⟩
    exact left k (s.length - 1) (by omega) (by omega) (below _ (by omega)).le
  by_cases hj0 : j = 0
  · -- no sample is below the query
    subst hj0
    rw [if_pos rfl]
    have ab0 := above 0 le_rfl hpos
    by_cases h1 : s.length = 1
    · rw [if_neg (by omega)]
      refine ⟨0, hpos, by rw [h1], fun k hk => ?_, fun k hk _ => by omega⟩
      exact right 0 k (by omega) hk ab0
    · rw [if_pos (by omega), rd_ok hpos, rd_ok (show 0 + 1 < s.length by omega)]
      have h01 : s[0] < s[0 + 1] := sorted_lt hs (by omega) (by omega)
      simp only [Res.ok_bind, real_sub, real_lt]
      rw [if_pos (by simp only [decide_eq_true_eq]; linarith)]
      refine ⟨0, hpos, rfl, fun k hk => right 0 k (by omega) hk ab0, fun k hk he => ?_⟩
      by_contra hk0
      have := rightS 0 k (by omega) hk ab0
      linarith
  · rw [if_neg hj0]
    have hjn : j < s.length := by omega
    obtain ⟨l, rfl⟩ : ∃ l, j = l + 1 := ⟨j - 1, by omega⟩
    simp only [Nat.zero_add, Nat.add_sub_cancel]
    rw [if_pos (by omega), rd_ok (show l < s.length by omega), rd_ok hjn]
    have hlow : s[l] < q := below l (by omega)
    have hhigh : q ≤ s[l + 1] := above _ le_rfl hjn
    simp only [Res.ok_bind, real_sub, real_lt]
    have al : |q - s[l]| = q - s[l] := abs_of_nonneg (by linarith)
    have ah : |q - s[l + 1]| = s[l + 1] - q := by
      rw [abs_of_nonpos (by linarith)]; ring
    by_cases hc : q - s[l] < s[l + 1] - q
    · rw [if_pos (by simpa using hc)]
      refine ⟨l, by omega, rfl, fun k hk => ?_, fun k hk he => ?_⟩
      · rcases Nat.lt_or_ge l k with h | h
        · have := right (l + 1) k h hk hhigh
          linarith
        · exact left k l h (by omega) hlow.le
      · by_contra hh
        have := right (l + 1) k (by omega) hk hhigh
        linarith
    · rw [if_neg (by simpa using hc)]
      refine ⟨l + 1, hjn, rfl, fun k hk => ?_, fun k hk he => ?_⟩
      · rcases Nat.lt_or_ge l k with h | h
        · exact right (l + 1) k h hk hhigh
        · have := left k l h (by omega) hlow.le
          linarith
      · by_contra hh
        have := rightS (l + 1) k (by omega) hk hhigh
        linarith

example : ([0, 1, 3] : List ℝ).Pairwise (· < ·) ∧ ([0, 1, 3] : List ℝ) ≠ [] := by
  refine ⟨by norm_num, by simp⟩

/-! ## C08 Bracketing lookup -/

/-- C08 is false: a query in the last interval ends the program. -/
theorem C08_refuted :
    ¬ ∀ s : List ℝ, s.Pairwise (· < ·) → (hn : 2 ≤ s.length) → s.length < 2 ^ 32 → ∀ q,
      s[0] ≤ q → q ≤ s[s.length - 1] →
      ∃ low f, closestPoints s q = .ok (low, f) := by
  intro h
  obtain ⟨low, f, e⟩ := h [0, 1, 3] (by norm_num) (by simp) (by simp) 2 (by norm_num) (by norm_num)
  norm_num [closestPoints, scanLow, usub] at e
  cases e

/-- The program ends with exit code -1 for *every* axis and every query above the
last but one sample. -/
theorem C08_last_interval_refuted {s : List ℝ} (hs : s.Pairwise (· < ·)) (hn : 2 ≤ s.length)
    (hl : s.length < 2 ^ 32) (q : ℝ) (hq : s[s.length - 2] < q) :
    closestPoints s q = .exit (-1) := by
  obtain ⟨j, hj, below, above⟩ := exists_run hs q
  have hscan := scanLow_eq (q := q) s 0 0 j hj below
    (fun h => not_lt.mpr (above j le_rfl h))
  have hj2 : s.length - 1 ≤ j := by
    by_contra hh
    have := above (s.length - 2) (by omega) (by omega)
    linarith
  unfold closestPoints
  simp only [hscan]
  rw [usub_of_le hn hl, if_neg (show ¬ j = 0 by omega), if_neg (by omega)]

/-- What holds: for queries from the first to the last but one sample the result
brackets the query, with a fraction in [0,1] and valid indices. Missing from C08:
the last interval. -/
theorem C08_bracket_partial {s : List ℝ} (hs : s.Pairwise (· < ·)) (hn : 2 ≤ s.length)
    (hl : s.length < 2 ^ 32) (q : ℝ) (h0 : s[0] ≤ q) (h1 : q ≤ s[s.length - 2])
    (h3 : 3 ≤ s.length) :
    ∃ low f, ∃ hlow : low + 1 < s.length, closestPoints s q = .ok (low, f) ∧
      0 ≤ f ∧ f ≤ 1 ∧ q = (1 - f) * s[low] + f * s[low + 1] := by
  obtain ⟨j, hj, below, above⟩ := exists_run hs q
  have hscan := scanLow_eq (q := q) s 0 0 j hj below
    (fun h => not_lt.mpr (above j le_rfl h))
  have hj2 : j ≤ s.length - 2 := by
    by_contra hh
    have := below (s.length - 2) (by omega)
    linarith
  -- the index returned
  obtain ⟨l, hl', hlj, lo, hi⟩ : ∃ l, ∃ h : l + 1 < s.length - 1, (if j = 0 then 0 else 0 + j - 1) = l ∧
      s[l] ≤ q ∧ q ≤ s[l + 1] := by
    by_cases hj0 : j = 0
    · subst hj0
      have e : q = s[0] := le_antisymm (above 0 le_rfl (by omega)) h0
      exact ⟨0, by omega, by simp, h0, by
        rw [e]; exact (sorted_lt hs (by omega) (by omega)).le⟩
    · refine ⟨j - 1, by omega, by simp [hj0], (below _ (by omega)).le, ?_⟩
      exact above _ (by omega) (by omega)
  have hgap : s[l] < s[l + 1] := sorted_lt hs (Nat.lt_succ_self l) (by omega)
  unfold closestPoints
  simp only [hscan, hlj]
  rw [usub_of_le hn hl, if_pos (by omega), rd_ok (show l < s.length by omega),
    rd_ok (show l + 1 < s.length by omega)]
  simp only [Res.ok_bind, real_sub, real_div]
  have hpos : 0 < s[l + 1] - s[l] := by linarith
  refine ⟨l, _, by omega, rfl, div_nonneg (by linarith) hpos.le, ?_, ?_⟩
  · rw [div_le_one hpos]; linarith
  · field_simp; ring

example : ([0, 1, 3, 4] : List ℝ).Pairwise (· < ·) ∧ ([0, 1, 3, 4] : List ℝ)[0] ≤ 2 ∧
    (2 : ℝ) ≤ ([0, 1, 3, 4] : List ℝ)[2] := by norm_num

/-! ## C09 Simpson's rule -/

/-- The grid of `n` points from `a` in steps of `h`. -/
noncomputable def grid (a h : ℝ) (n : Nat) : List ℝ := (List.range n).map (fun i : Nat => a + (i : ℝ) * h)

/-- A cubic polynomial. -/
noncomputable def cubic (c0 c1 c2 c3 x : ℝ) : ℝ := c0 + c1 * x + c2 * x ^ 2 + c3 * x ^ 3

/-- C09 is false: for two points and the constant 1 on [0,1] the result is 2/3. -/
theorem C09_refuted :
    ¬ ∀ (n : Nat) (a h c0 c1 c2 c3 : ℝ), 2 ≤ n → n < 2 ^ 64 → 0 < h →
      simpsonsRule (grid a h n) ((grid a h n).map (cubic c0 c1 c2 c3)) =
        .ok (∫ x in a..(a + (n - 1) * h), cubic c0 c1 c2 c3 x) := by
  intro h
  have := h 2 0 1 1 0 0 0 (by simp) (by simp) (by norm_num)
  have hc : cubic 1 0 0 0 = fun _ => 1 := by funext x; simp [cubic]
  have hg : grid 0 1 2 = [0, 1] := by simp [grid, List.range_succ]
  rw [hc, hg] at this
  have hs1 : ∀ acc : ℝ, sumStep2 (Dbl.lit 4) ([1, 1] : List ℝ) 1 1 acc = .ok acc := by
    intro acc; rw [sumStep2]; simp
  have hs2 : ∀ acc : ℝ, sumStep2 (Dbl.lit 2) ([1, 1] : List ℝ) 0 2 acc = .ok acc := by
    intro acc; rw [sumStep2]; simp
  have hu1 : usub64 2 1 = 1 := by decide
  have hu2 : usub64 2 2 = 0 := by decide
  simp [simpsonsRule, rd, hu1, hu2, hs1, hs2, -real_lit] at this
  norm_num at this

theorem integral_cubic (a b c0 c1 c2 c3 : ℝ) :
    ∫ x in a..b, cubic c0 c1 c2 c3 x =
      (c0 * b + c1 * b ^ 2 / 2 + c2 * b ^ 3 / 3 + c3 * b ^ 4 / 4)
        - (c0 * a + c1 * a ^ 2 / 2 + c2 * a ^ 3 / 3 + c3 * a ^ 4 / 4) := by
  unfold cubic
  rw [intervalIntegral.integral_add, intervalIntegral.integral_add, intervalIntegral.integral_add]
  · rw [intervalIntegral.integral_const_mul c1 (fun x => x)]
    simp only [intervalIntegral.integral_const, intervalIntegral.integral_const_mul, integral_id,
      integral_pow, smul_eq_mul]
    push_cast; ring
  all_goals (apply Continuous.intervalIntegrable; fun_prop)

/-- What holds: on every grid with an odd number of points (at least three) every
cubic is integrated exactly. Missing from C09: even numbers of points. -/
theorem C09_simpson_partial (m : Nat) (hm : 2 * m + 3 < 2 ^ 64) (a h c0 c1 c2 c3 : ℝ) :
    simpsonsRule (grid a h (2 * m + 3)) ((grid a h (2 * m + 3)).map (cubic c0 c1 c2 c3)) =
      .ok (∫ x in a..(a + ((2 * m + 3 : Nat) - 1) * h), cubic c0 c1 c2 c3 x) := by
  set n := 2 * m + 3 with hn
  set axis := grid a h n with hax
  set f := axis.map (cubic c0 c1 c2 c3) with hf
  have la : axis.length = n := by simp [hax, grid]
  have lf : f.length = n := by simp [hf, la]
  have ga : ∀ i (hi : i < axis.length), axis[i] = a + i * h := by
    intro i hi; simp [hax, grid]
  let F : Nat → ℝ := fun i => cubic c0 c1 c2 c3 (a + i * h)
  have gf : ∀ i (hi : i < f.length), f[i] = F i := by
    intro i hi; simp [hf, hax, grid, F]
  have gfD : ∀ i, i < n → f.getD i 0 = F i := by
    intro i hi
    have hi' : i < f.length := by omega
    simp [List.getD_eq_getElem?_getD, hi', gf]
  have lastA : axis.getLast? = some (a + (2 * m + 2 : Nat) * h) := by
    rw [List.getLast?_eq_getElem?, la, List.getElem?_eq_getElem (by omega), ga]
    simp [hn]
  have lastF : f.getLast? = some (F (2 * (m + 1))) := by
    rw [List.getLast?_eq_getElem?, lf, List.getElem?_eq_getElem (by omega), gf]
    rw [show n - 1 = 2 * (m + 1) by omega]
  unfold simpsonsRule
  rw [lastA, lastF, rd_ok (show 0 < axis.length by omega), rd_ok (show 0 < f.length by omega),
    ga, gf, lf, la, usub64_of_le (by omega) hm, usub64_of_le (by omega) hm]
  simp only [Res.ok_bind]
  rw [sumStep2_eq _ f (n - 1) (by omega) (m + 1) 1 _ (by omega) (by omega)]
  simp only [Res.ok_bind]
  rw [sumStep2_eq _ f (n - 2) (by omega) m 2 _ (by omega) (by omega)]
  simp only [Res.ok_bind, real_lit, real_sub, real_add, real_mul, real_div]
  have e1 : ∑ k ∈ Finset.range (m + 1), f.getD (1 + 2 * k) 0
      = ∑ k ∈ Finset.range (m + 1), F (1 + 2 * k) :=
    Finset.sum_congr rfl fun k hk => gfD _ (by have := Finset.mem_range.mp hk; omega)
  have e2 : ∑ k ∈ Finset.range m, f.getD (2 + 2 * k) 0
      = ∑ k ∈ Finset.range m, F (2 + 2 * k) :=
    Finset.sum_congr rfl fun k hk => gfD _ (by have := Finset.mem_range.mp hk; omega)
  rw [e1, e2]
  have key := simpson_sum F m
  congr 1
  push_cast
  rw [key]
  -- each panel is exact, and the panels telescope
  let P : ℝ → ℝ := fun x => c0 * x + c1 * x ^ 2 / 2 + c2 * x ^ 3 / 3 + c3 * x ^ 4 / 4
  have panel : ∀ k : Nat, (F (2 * k) + 4 * F (2 * k + 1) + F (2 * k + 2)) * h / 3 =
      P (a + (2 * (k + 1 : Nat) : ℝ) * h) - P (a + (2 * k : ℝ) * h) := by
    intro k
    simp only [F, P, cubic]
    push_cast; ring
  have tele := Finset.sum_range_sub (fun k : Nat => P (a + (2 * k : ℝ) * h)) (m + 1)
  have hsum : (∑ k ∈ Finset.range (m + 1), (F (2 * k) + 4 * F (2 * k + 1) + F (2 * k + 2))) * h / 3
      = P (a + (2 * (m + 1 : Nat) : ℝ) * h) - P a := by
    rw [Finset.sum_mul, Finset.sum_div, Finset.sum_congr rfl (fun k _ => panel k)]
    rw [tele]; simp
  rw [integral_cubic]
  have hdx : (a + (2 * (m:ℝ) + 2) * h - (a + 0 * h)) / (((2 * m + 3 : Nat) : ℝ) - 1) = h := by
    have : (((2 * m + 3 : Nat) : ℝ) - 1) = 2 * (m : ℝ) + 2 := by push_cast; ring
    rw [this]
    have h2 : (2 * (m : ℝ) + 2) ≠ 0 := by positivity
    field_simp; ring
  push_cast at hdx hsum ⊢
  rw [hn]; push_cast
  rw [hdx, hsum]
  simp only [P]
  ring

end QED
