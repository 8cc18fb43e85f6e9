import Verif.Lemmas.LargeNumbers
import Mathlib.Algebra.BigOperators.Fin

set_option autoImplicit false

/-!
# The sum of a bounded number over many trials

Used by C157.
-/

namespace QED.Means

open MCTools MeasureTheory LargeNumbers

/-! ## Records -/

/-- All records of `k` trials with results below `m`. -/
def records (m : Nat) : Nat → List (List Nat)
  | 0 => [[]]
  | k + 1 => (List.range m).flatMap fun j => (records m k).map (j :: ·)

theorem length_record {m k : Nat} : ∀ {b : List Nat}, b ∈ records m k → b.length = k := by
  induction k with
  | zero => intro b hb; simp [records] at hb; simp [hb]
  | succ k ih =>
    intro b hb
    simp only [records, List.mem_flatMap, List.mem_map] at hb
    obtain ⟨j, -, c, hc, rfl⟩ := hb
    simp [ih hc]

theorem nodup_records (m k : Nat) : (records m k).Nodup := by
  induction k with
  | zero => simp [records]
  | succ k ih =>
    rw [records, List.nodup_flatMap]
    refine ⟨fun j _ => ih.map fun a b h => (List.cons.inj h).2, ?_⟩
    refine List.Pairwise.imp ?_ (List.nodup_range (n := m))
    intro i j hij b hb hb'
    obtain ⟨c, -, rfl⟩ := List.mem_map.mp hb
    obtain ⟨d, -, h⟩ := List.mem_map.mp hb'
    exact hij (List.cons.inj h).1.symm

/-- The probability of a record. -/
noncomputable def prob (p : ℕ → ℝ) (b : List Nat) : ℝ := (b.map p).prod

/-- The sum of the results. -/
noncomputable def total (b : List Nat) : ℝ := (b.sum : ℝ)

theorem total_cons (j : Nat) (b : List Nat) : total (j :: b) = j + total b := by simp [total]

variable {p : ℕ → ℝ} {m : Nat}

theorem prob_nonneg (hp : ∀ j, 0 ≤ p j) (b : List Nat) : 0 ≤ prob p b :=
  List.prod_nonneg fun x hx => by
    obtain ⟨j, -, rfl⟩ := List.mem_map.mp hx
    exact hp j

/-- The mean of `g` over the records. -/
noncomputable def mean (p : ℕ → ℝ) (m k : Nat) (g : List Nat → ℝ) : ℝ := ((records m k).map fun b => prob p b * g b).sum

theorem sum_range (f : ℕ → ℝ) : ((List.range m).map f).sum = ∑ j ∈ Finset.range m, f j := by
  induction m with
  | zero => simp
  | succ m ih => rw [List.range_succ, List.map_append, List.sum_append, ih, Finset.sum_range_succ]; simp

theorem sum_flatMap (L : List Nat) (f : Nat → List ℝ) : (L.flatMap f).sum = (L.map fun j => (f j).sum).sum := by
  induction L with
  | nil => rfl
  | cons j L ih => rw [List.flatMap_cons, List.sum_append, ih, List.map_cons, List.sum_cons]

theorem mean_succ (k : Nat) (g : List Nat → ℝ) : mean p m (k + 1) g =
    ∑ j ∈ Finset.range m, p j * mean p m k (fun b => g (j :: b)) := by
  rw [← sum_range, mean, records, List.map_flatMap, sum_flatMap]
  congr 1
  refine List.map_congr_left fun j _ => ?_
  rw [mean, ← List.sum_map_mul_left, List.map_map]
  congr 1
  refine List.map_congr_left fun b _ => ?_
  simp [prob, mul_assoc]

theorem mean_add (k : Nat) (g h : List Nat → ℝ) :
    mean p m k (fun b => g b + h b) = mean p m k g + mean p m k h := by
  simp only [mean, mul_add, List.sum_map_add]

theorem mean_smul (k : Nat) (c : ℝ) (g : List Nat → ℝ) : mean p m k (fun b => c * g b) = c * mean p m k g := by
  simp only [mean, ← List.sum_map_mul_left]
  congr 1
  exact List.map_congr_left fun b _ => by ring

theorem mean_mono (hp : ∀ j, 0 ≤ p j) {k : Nat} {g h : List Nat → ℝ} (hgh : ∀ b, g b ≤ h b) :
    mean p m k g ≤ mean p m k h :=
  List.sum_le_sum fun b _ => mul_le_mul_of_nonneg_left (hgh b) (prob_nonneg hp b)

theorem mean_one (h : ∑ j ∈ Finset.range m, p j = 1) (k : Nat) : mean p m k (fun _ => 1) = 1 := by
  induction k with
  | zero => simp [mean, records, prob]
  | succ k ih => rw [mean_succ, ih]; simpa using h

theorem mean_total (h : ∑ j ∈ Finset.range m, p j = 1) (k : Nat) :
    mean p m k total = k * ∑ j ∈ Finset.range m, p j * j := by
  induction k with
  | zero => simp [mean, records, total]
  | succ k ih =>
    rw [mean_succ]
    have e : ∀ j : ℕ, p j * mean p m k (fun b => total (j :: b)) =
        p j * j + p j * (k * ∑ j ∈ Finset.range m, p j * j) := by
      intro j
      simp only [total_cons]
      have := mean_add (p := p) (m := m) k (fun _ => (j : ℝ) * 1) total
      simp only [mul_one] at this
      rw [this, ih]
      have h1 := mean_smul (p := p) (m := m) k j (fun _ => 1)
      simp only [mul_one] at h1
      rw [h1, mean_one h]
      ring
    simp only [e]
    rw [Finset.sum_add_distrib, ← Finset.sum_mul, h]
    push_cast
    ring

/-- The variance of the sum. -/
theorem mean_variance (h : ∑ j ∈ Finset.range m, p j = 1) (k : Nat) {μ : ℝ} (hμ : μ = ∑ j ∈ Finset.range m, p j * j) :
    mean p m k (fun b => (total b - k * μ) ^ 2) = k * (∑ j ∈ Finset.range m, p j * j ^ 2 - μ ^ 2) := by
  induction k with
  | zero => simp [mean, records, total]
  | succ k ih =>
    rw [mean_succ]
    have e : ∀ j : ℕ, p j * mean p m k (fun b => (total (j :: b) - (k + 1 : ℕ) * μ) ^ 2) =
        p j * (k * (∑ j ∈ Finset.range m, p j * j ^ 2 - μ ^ 2)) + (p j * j ^ 2 - 2 * μ * (p j * j) + μ ^ 2 * p j) := by
      intro j
      have e : (fun b => (total (j :: b) - (k + 1 : ℕ) * μ) ^ 2) = fun b => (total b - k * μ) ^ 2 +
          ((2 * (j - μ)) * (total b) + ((j - μ) ^ 2 - 2 * (j - μ) * (k * μ)) * 1) := by
        funext b
        rw [total_cons]
        push_cast
        ring
      rw [e, mean_add, mean_add, mean_smul, mean_smul, mean_one h, mean_total h, ← hμ, ih]
      ring
    simp only [e]
    rw [Finset.sum_add_distrib, Finset.sum_add_distrib, Finset.sum_sub_distrib, ← Finset.sum_mul, ← Finset.mul_sum,
      ← Finset.mul_sum, h, ← hμ]
    push_cast
    ring

/-- The variance of a number of at most `B`. -/
theorem variance_le (hp : ∀ j, 0 ≤ p j) (B : Nat) {μ : ℝ} (hμ : μ = ∑ j ∈ Finset.range (B + 1), p j * j) :
    ∑ j ∈ Finset.range (B + 1), p j * j ^ 2 - μ ^ 2 ≤ B ^ 2 / 4 := by
  have : ∑ j ∈ Finset.range (B + 1), p j * (j : ℝ) ^ 2 ≤ B * μ := by
    rw [hμ, Finset.mul_sum]
    refine Finset.sum_le_sum fun j hj => ?_
    have hj : (j : ℝ) ≤ B := by exact_mod_cast Nat.lt_succ_iff.mp (Finset.mem_range.mp hj)
    have h0 : (0 : ℝ) ≤ j := Nat.cast_nonneg j
    nlinarith [mul_nonneg (hp j) h0, mul_le_mul_of_nonneg_left hj (mul_nonneg (hp j) h0)]
  nlinarith [sq_nonneg (μ - B / 2)]

open Classical in
/-- Chebyshev's inequality. -/
theorem chebyshev (hp : ∀ j, 0 ≤ p j) {B : Nat} (h : ∑ j ∈ Finset.range (B + 1), p j = 1) {k : Nat} (hk : 0 < k) {μ : ℝ}
    (hμ : μ = ∑ j ∈ Finset.range (B + 1), p j * j) {ε : ℝ} (hε : 0 < ε) :
    1 - B ^ 2 / (4 * k * ε ^ 2) ≤ mean p (B + 1) k (fun b => if |total b / k - μ| < ε then 1 else 0) := by
  have hk' : (0 : ℝ) < k := by exact_mod_cast hk
  have h1 : ∀ b, 1 + (-(1 / (k * ε) ^ 2)) * (total b - k * μ) ^ 2 ≤
      if |total b / k - μ| < ε then (1 : ℝ) else 0 := by
    intro b
    split_ifs with hb
    · have : 0 ≤ 1 / (k * ε) ^ 2 * (total b - k * μ) ^ 2 := by positivity
      linarith
    · rw [not_lt] at hb
      have e : total b - k * μ = k * (total b / k - μ) := by field_simp
      have h2 : ε ^ 2 ≤ (total b / k - μ) ^ 2 := by
        rw [← sq_abs (total b / k - μ)]
        exact pow_le_pow_left₀ hε.le hb 2
      have h3 : 1 ≤ 1 / (k * ε) ^ 2 * (total b - k * μ) ^ 2 := by
        rw [e, div_mul_eq_mul_div, one_mul, le_div_iff₀ (by positivity), one_mul, mul_pow, mul_pow]
        exact mul_le_mul_of_nonneg_left h2 (by positivity)
      linarith
  have h2 := mean_mono (m := B + 1) (k := k) hp h1
  rw [mean_add, mean_one h, mean_smul, mean_variance h k hμ] at h2
  refine le_trans ?_ h2
  have h3 := variance_le hp B hμ
  have h4 : 1 / (k * ε) ^ 2 * (k * (∑ j ∈ Finset.range (B + 1), p j * j ^ 2 - μ ^ 2)) ≤ B ^ 2 / (4 * k * ε ^ 2) := by
    have e : B ^ 2 / (4 * k * ε ^ 2) = 1 / (k * ε) ^ 2 * (k * (B ^ 2 / 4)) := by field_simp
    rw [e]
    exact mul_le_mul_of_nonneg_left (mul_le_mul_of_nonneg_left h3 hk'.le) (by positivity)
  linarith

/-! ## Records of events -/

/-- What a record tells of an event. -/
def tells (f : List (Particle ℝ) → ℕ) (j : Nat) (l : PList ℝ) : Prop := f l.items = j

theorem record_unique (cfg : SimCfg ℝ) (fuel : Nat) (f : List (Particle ℝ) → ℕ) : ∀ (b c : List Nat) (s : Source ℝ)
    (r : Rng ℝ), b.length = c.length → NextAre cfg fuel (b.map (tells f)) s r →
    NextAre cfg fuel (c.map (tells f)) s r → b = c
  | [], [], _, _, _, _, _ => rfl
  | i :: b, j :: c, s, r, hl, ⟨l, s', r', e, hg, ht, hs, hn⟩, ⟨l1, s1, r1, e1, hg1, ht1, hs1, hn1⟩ => by
    rw [hg] at hg1
    cases hg1
    rw [ht] at ht1
    cases ht1
    rw [show i = j from hs.symm.trans hs1, record_unique cfg fuel f b c s' e.rng (by simpa using hl) hn hn1]

theorem exclusive (cfg : SimCfg ℝ) (fuel : Nat) (f : List (Particle ℝ) → ℕ) (k : Nat) (s : Source ℝ) (r : Rng ℝ)
    (L : List (List Nat)) (hn : L.Nodup) (hL : ∀ b ∈ L, b.length = k) :
    (L.map fun b => indic (NextAre cfg fuel (b.map (tells f)) s r)).sum ≤ 1 := by
  induction L with
  | nil => simp
  | cons b L ih =>
    rw [List.nodup_cons] at hn
    rw [List.map_cons, List.sum_cons]
    by_cases hb : NextAre cfg fuel (b.map (tells f)) s r
    · rw [List.sum_eq_zero]
      · rw [add_zero]
        exact le_of_eq (if_pos hb)
      · intro x hx
        obtain ⟨c, hc, rfl⟩ := List.mem_map.mp hx
        refine if_neg fun h => hn.1 ?_
        rw [record_unique cfg fuel f b c s r
          ((hL b List.mem_cons_self).trans (hL c (List.mem_cons_of_mem _ hc)).symm) hb h]
        exact hc
    · rw [show indic (NextAre cfg fuel (b.map (tells f)) s r) = 0 from if_neg hb, zero_add]
      exact ih hn.2 fun c hc => hL c (List.mem_cons_of_mem _ hc)

theorem finals_of_tells (cfg : SimCfg ℝ) (fuel : Nat) (f : List (Particle ℝ) → ℕ) : ∀ (b : List Nat) (s : Source ℝ)
    (r : Rng ℝ), NextAre cfg fuel (b.map (tells f)) s r → ∃ ls, ls.length = b.length ∧ Finals cfg fuel ls s r ∧
      (ls.map fun l => f l.items) = b
  | [], s, r, _ => ⟨[], rfl, trivial, rfl⟩
  | c :: b, s, r, ⟨l, s', r', e, hg, ht, hs, hn⟩ => by
    obtain ⟨ls, h1, h2, h3⟩ := finals_of_tells cfg fuel f b s' e.rng hn
    refine ⟨e.list :: ls, by simp [h1], ⟨l, s', r', e, hg, ht, rfl, h2⟩, ?_⟩
    rw [List.map_cons, h3]
    exact congrArg (· :: b) hs

end QED.Means
