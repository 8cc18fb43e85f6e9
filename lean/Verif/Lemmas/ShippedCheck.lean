import Verif.Lemmas.Shipped

set_option autoImplicit false
set_option maxRecDepth 100000

/-!
# The tables that come with the program, number by number

Every entry of every table is looked at. The kernel does the arithmetic, on whole numbers.
-/

namespace QED
namespace Shipped

open TableFile

/-- The sizes never decrease. -/
def mono : List Tok → Bool
  | a :: b :: ts => a.units ≤ b.units && mono (b :: ts)
  | _ => true

/-- The sizes always increase. -/
def incr : List Tok → Bool
  | a :: b :: ts => a.units < b.units && incr (b :: ts)
  | _ => true

theorem mono_pairwise {ts : List Tok} (h : mono ts = true) : ts.Pairwise fun a b => a.units ≤ b.units := by
  induction ts with
  | nil => exact .nil
  | cons a ts ih =>
    cases ts with
    | nil => exact List.pairwise_singleton _ _
    | cons b ts =>
      rw [mono, Bool.and_eq_true, decide_eq_true_eq] at h
      have hb := ih h.2
      refine List.pairwise_cons.2 ⟨fun c hc => ?_, hb⟩
      rcases List.mem_cons.1 hc with rfl | hc
      · exact h.1
      · exact h.1.trans (List.rel_of_pairwise_cons hb hc)

theorem incr_pairwise {ts : List Tok} (h : incr ts = true) : ts.Pairwise fun a b => a.units < b.units := by
  induction ts with
  | nil => exact .nil
  | cons a ts ih =>
    cases ts with
    | nil => exact List.pairwise_singleton _ _
    | cons b ts =>
      rw [incr, Bool.and_eq_true, decide_eq_true_eq] at h
      have hb := ih h.2
      refine List.pairwise_cons.2 ⟨fun c hc => ?_, hb⟩
      rcases List.mem_cons.1 hc with rfl | hc
      · exact h.1
      · exact h.1.trans (List.rel_of_pairwise_cons hb hc)

/-- A row of cumulative probabilities: 100 numbers from 0 or more to 1 that never decrease; the first is
zero or less than the second. -/
def cdf (ts : List Tok) : Bool :=
  ts.length = 100 && ts.all Tok.ok && mono ts && (ts[99]?.map Tok.units == some (10 ^ 40)) &&
    match ts with
    | a :: b :: _ => a.units = 0 || (0 < a.units && a.units < b.units)
    | _ => false

/-! ## The checks -/

theorem h_checked : checked ((⟨false, 3, 500, none, none, 'e'⟩, [' ', '\n']) ::
    hPairs.flatMap fun p => [(p.1, [' ']), (p.2, ['\n'])]) = true := by decide +kernel

theorem h_length : hPairs.length = 500 := by decide +kernel

theorem ksi_checked : checked ((⟨false, 3, 100, none, none, 'e'⟩, ['\t', ' ']) ::
    (⟨false, 3, 100, none, none, 'e'⟩, ['\t', ' ']) :: (logMin, ['\t', ' ']) :: (logMax, ['\n']) ::
    ksiRows.flatMap (row ['\t'] ['\n'])) = true := by decide +kernel

theorem ksi_length : ksiRows.length = 100 := by decide +kernel

theorem ksi_cdf : ksiRows.all cdf = true := by decide +kernel

theorem chiMin_checked : checked (lines chiMin) = true := by decide +kernel

theorem chiMin_length : chiMin.length = 100 := by decide +kernel

/-- All between zero and `5.000000000000002e-7`. -/
theorem chiMin_range : (chiMin.all fun t => t.ok && decide (0 < t.units) &&
    decide (t.units ≤ 5000000000000002 * 10 ^ 18)) = true := by decide +kernel

theorem rate_checked : checked ((⟨false, 4, 1301, none, none, 'e'⟩, ['\n']) ::
    ratePairs.flatMap fun p => [(p.1, ['\t']), (p.2, ['\n'])]) = true := by decide +kernel

theorem rate_length : ratePairs.length = 1301 := by decide +kernel

theorem split_checked : checked ((⟨false, 3, 100, none, none, 'e'⟩, ['\n']) ::
    splitRows.flatMap (row ['\t'] ['\t', '\n'])) = true := by decide +kernel

theorem split_length : splitRows.length = 100 := by decide +kernel

theorem split_cdf : splitRows.all cdf = true := by decide +kernel

theorem epsilon_checked : checked (lines epsilon) = true := by decide +kernel

theorem epsilon_length : epsilon.length = 100 := by decide +kernel

theorem logChi_checked : checked (lines logChi) = true := by decide +kernel

theorem logChi_length : logChi.length = 100 := by decide +kernel

theorem logChi_incr : incr logChi = true := by decide +kernel

/-- From `0.01` to `1.0000000000000007`. -/
theorem epsilon_range : (epsilon.all fun t => t.ok && decide (10 ^ 38 ≤ t.units) &&
    decide (t.units ≤ 10000000000000007 * 10 ^ 24)) = true := by decide +kernel

/-- The first two are `0.01` and `0.02`. -/
theorem epsilon_first : (epsilon[0]?.map Tok.units, epsilon[1]?.map Tok.units) =
    (some (10 ^ 38), some (2 * 10 ^ 38)) := by decide +kernel

/-- In the rows from 0 to 80 twice the first entry is less than the second, or the first is zero; -/
theorem split_low : ((splitRows.take 81).all fun ts =>
    match ts with
    | a :: b :: _ => a.units = 0 || 2 * a.units < b.units
    | _ => false) = true := by decide +kernel

/-- in the rows from 81 on, twice the first entry exceeds the second by more than `0.0006`, and the two are
at most `0.02` apart. -/
theorem split_high : ((splitRows.drop 81).all fun ts =>
    match ts with
    | a :: b :: _ => decide (b.units + 6 * 10 ^ 36 < 2 * a.units) && decide (b.units ≤ a.units + 2 * 10 ^ 38)
    | _ => false) = true := by decide +kernel

/-- Places of some rows. -/
theorem logChi_places : ([0, 80, 81, 98].map fun i => logChi[i]?.map Tok.units) =
    [some (-23010299956639813 * 10 ^ 24), some (19826306068927699 * 10 ^ 24),
     some (20361763644247293 * 10 ^ 24), some (29464542424680418 * 10 ^ 24)] := by decide +kernel

/-- The rate table starts flat. -/
theorem rate_first : (ratePairs[0]?.map fun p => (p.1.units, p.2.units),
    ratePairs[1]?.map fun p => (p.1.units, p.2.units)) =
    (some (-5 * 10 ^ 40, -50 * 10 ^ 40), some (-499 * 10 ^ 38, -50 * 10 ^ 40)) := by decide +kernel

/-- The first two smallest values of `chi`. -/
theorem chiMin_first : (chiMin[0]?.map Tok.units, chiMin[1]?.map Tok.units) =
    (some (5000000000000005 * 10 ^ 7), some (5748784976988682 * 10 ^ 7)) := by decide +kernel

/-- No entry of the second energy row is larger than the one above it in the first row. -/
theorem ksi_below : ((List.range 100).all fun i =>
    match ksi0[i]?, ksi1[i]? with
    | some a, some b => decide (b.units ≤ a.units)
    | _, _ => false) = true := by decide +kernel

/-- Neither of the two rows continues to a smaller column at zero than the other one in the wrong order. -/
theorem ksi_slope :
    (match ksi0, ksi1 with
    | a0 :: b0 :: _, a1 :: b1 :: _ =>
      decide (a1.units * (b0.units - a0.units) ≤ a0.units * (b1.units - a1.units)) && decide (0 < a0.units) &&
        decide (0 < a1.units)
    | _, _ => false) = true := by decide +kernel

end Shipped
end QED
