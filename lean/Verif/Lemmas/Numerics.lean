import Verif.Model.Numerics
import Mathlib.Tactic.Linarith
import Mathlib.Tactic.Ring
import Mathlib.Tactic.FieldSimp
import Mathlib.Tactic.LinearCombination
import Mathlib.Algebra.BigOperators.Intervals

set_option autoImplicit false

/-! Helper lemmas about the table routines. -/

namespace QED
namespace Numerics

theorem usub_of_le {a b : Nat} (h : b ≤ a) (ha : a < 2 ^ 32) : usub a b = a - b := by
  unfold usub; omega

theorem usub64_of_le {a b : Nat} (h : b ≤ a) (ha : a < 2 ^ 64) : usub64 a b = a - b := by
  unfold usub64; omega

theorem sorted_lt {s : List ℝ} (hs : s.Pairwise (· < ·)) {i j : Nat} (hij : i < j)
    (hj : j < s.length) : s[i]'(hij.trans hj) < s[j] :=
  List.pairwise_iff_getElem.mp hs i j (hij.trans hj) hj hij

theorem sorted_le {s : List ℝ} (hs : s.Pairwise (· < ·)) {i j : Nat} (hij : i ≤ j)
    (hj : j < s.length) : s[i]'(hij.trans_lt hj) ≤ s[j] := by
  rcases hij.lt_or_eq with h | h
  · exact (sorted_lt hs h hj).le
  · subst h; exact le_rfl

theorem mono_le {s : List ℝ} (hs : s.Pairwise (· ≤ ·)) {i j : Nat} (hij : i ≤ j)
    (hj : j < s.length) : s[i]'(hij.trans_lt hj) ≤ s[j] := by
  rcases hij.lt_or_eq with h | h
  · exact List.pairwise_iff_getElem.mp hs i j (h.trans hj) hj h
  · subst h; exact le_rfl

theorem firstAbove_eq_some {q : ℝ} : ∀ (s : List ℝ) (k j : Nat) (hj : j < s.length),
    q < s[j] → (∀ m (hm : m < j), ¬ q < s[m]'(hm.trans hj)) → firstAbove q s k = some (k + j)
  | a :: ss, k, 0, _, h, _ => by simp_all [firstAbove]
  | a :: ss, k, j + 1, hj, h, h' => by
    have h0 : ¬ q < a := h' 0 (Nat.succ_pos _)
    have := firstAbove_eq_some (q := q) ss (k + 1) j (by simpa using hj) (by simpa using h)
      (fun m hm => by simpa using h' (m + 1) (Nat.succ_lt_succ hm))
    rw [firstAbove]
    simp only [real_lt, h0, decide_false]
    rw [if_neg (by simp), this]; congr 1; omega

theorem firstAbove_eq_none {q : ℝ} : ∀ (s : List ℝ) (k : Nat),
    (∀ x ∈ s, ¬ q < x) → firstAbove q s k = none
  | [], _, _ => rfl
  | a :: ss, k, h => by
    have h0 : ¬ q < a := h a (by simp)
    rw [firstAbove]
    simp only [real_lt, h0, decide_false]
    rw [if_neg (by simp)]
    exact firstAbove_eq_none ss _ (fun x hx => h x (by simp [hx]))

/-- `scanLow` after a leading run of exactly `j` samples below the query. -/
theorem scanLow_eq {q : ℝ} : ∀ (s : List ℝ) (k low j : Nat) (hj : j ≤ s.length),
    (∀ m (hm : m < j), s[m]'(hm.trans_le hj) < q) → (∀ h : j < s.length, ¬ s[j] < q) →
    scanLow q s k low = if j = 0 then low else k + j - 1
  | [], k, low, j, hj, _, _ => by
    have : j = 0 := by simpa using hj
    simp [scanLow, this]
  | a :: ss, k, low, 0, _, _, h => by
    have : ¬ a < q := h (by simp)
    simp [scanLow, this]
  | a :: ss, k, low, j + 1, hj, h, h' => by
    have h0 : a < q := h 0 (Nat.succ_pos _)
    have := scanLow_eq (q := q) ss (k + 1) k j (by simpa using hj)
      (fun m hm => by simpa using h (m + 1) (Nat.succ_lt_succ hm))
      (fun hh => h' (Nat.succ_lt_succ hh))
    rw [scanLow]
    simp only [real_lt, h0, decide_true, if_true, this]
    split <;> simp_all

/-- In a sorted list the samples below `q` form a leading run. -/
theorem exists_run {s : List ℝ} (hs : s.Pairwise (· < ·)) (q : ℝ) :
    ∃ j, ∃ hj : j ≤ s.length, (∀ m (hm : m < j), s[m]'(hm.trans_le hj) < q) ∧
      (∀ m (_ : j ≤ m) (hm : m < s.length), q ≤ s[m]) := by
  induction s with
  | nil => exact ⟨0, by simp, by simp, by simp⟩
  | cons a ss ih =>
    rw [List.pairwise_cons] at hs
    by_cases h : a < q
    · obtain ⟨j, hj, h1, h2⟩ := ih hs.2
      refine ⟨j + 1, by simpa using hj, ?_, ?_⟩
      · rintro (_ | m) hm
        · exact h
        · simpa using h1 m (by omega)
      · rintro (_ | m) hm hm'
        · omega
        · simpa using h2 m (by omega) (by simpa using hm')
    · refine ⟨0, by simp, by simp, ?_⟩
      rintro (_ | m) _ hm'
      · exact not_lt.mp h
      · simp only [List.getElem_cons_succ]
        exact (not_lt.mp h).trans (hs.1 _ (List.getElem_mem _)).le

/-- Every query in the half-open range of a sorted list lies in one of its segments. -/
theorem exists_segment {s : List ℝ} (hn : 0 < s.length) {q : ℝ}
    (h0 : s[0] ≤ q) (h1 : q < s[s.length - 1]) :
    ∃ i, ∃ hi : i + 1 < s.length, s[i] ≤ q ∧ q < s[i + 1] := by
  by_contra hcon
  have hcon' : ∀ i (hi : i + 1 < s.length), s[i] ≤ q → s[i + 1] ≤ q := by
    intro i hi h
    by_contra hh
    exact hcon ⟨i, hi, h, not_le.mp hh⟩
  have all : ∀ i (hi : i < s.length), s[i] ≤ q := by
    intro i
    induction i with
    | zero => intro _; exact h0
    | succ i ih => intro hi; exact hcon' i hi (ih (by omega))
  exact absurd (all _ (by omega)) (not_le.mpr h1)

/-- Sum of a list read in steps of two. -/
theorem sumStep2_eq (c : ℝ) (f : List ℝ) (bound : Nat) (hb : bound ≤ f.length) :
    ∀ (K i : Nat) (acc : ℝ), bound ≤ i + 2 * K → (K ≠ 0 → i + 2 * (K - 1) < bound) →
      sumStep2 c f bound i acc = .ok (acc + c * ∑ k ∈ Finset.range K, f.getD (i + 2 * k) 0) := by
  intro K
  induction K with
  | zero =>
    intro i acc h _
    rw [sumStep2, if_neg (by omega)]; simp
  | succ K ih =>
    intro i acc h h'
    have hi : i < bound := by have := h' (by simp); omega
    rw [sumStep2, if_pos hi, dif_pos (hi.trans_le hb),
      ih (i + 2) _ (by omega) (fun hK => by have := h' (by simp); omega)]
    congr 1
    rw [Finset.sum_range_succ']
    have e : ∀ k, f.getD (i + 2 + 2 * k) 0 = f.getD (i + 2 * (k + 1)) 0 := fun k => by
      congr 1; omega
    simp only [e]
    have : f.getD (i + 2 * 0) 0 = f[i]'(hi.trans_le hb) := by
      simp [List.getD_eq_getElem?_getD, hi.trans_le hb]
    rw [this]; simp only [real_add, real_mul]; ring

theorem simpson_sum (f : Nat → ℝ) (m : Nat) :
    f 0 + 4 * ∑ k ∈ Finset.range (m + 1), f (1 + 2 * k) + 2 * ∑ k ∈ Finset.range m, f (2 + 2 * k)
      + f (2 * (m + 1)) =
    ∑ k ∈ Finset.range (m + 1), (f (2 * k) + 4 * f (2 * k + 1) + f (2 * k + 2)) := by
  induction m with
  | zero => simp
  | succ m ih =>
    rw [Finset.sum_range_succ (n := m + 1) (fun k => f (2 * k) + 4 * f (2 * k + 1) + f (2 * k + 2)),
      ← ih, Finset.sum_range_succ (n := m + 1) (fun k => f (1 + 2 * k)),
      Finset.sum_range_succ (n := m) (fun k => f (2 + 2 * k))]
    rw [show 2 * (m + 1) = 2 + 2 * m by ring, show 2 + 2 * m + 1 = 1 + 2 * (m + 1) by ring,
      show 2 * (m + 1 + 1) = 2 + 2 * m + 2 by ring]
    ring

end Numerics
end QED
