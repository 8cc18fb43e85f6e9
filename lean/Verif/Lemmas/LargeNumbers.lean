import Verif.Spec.LargeNumbers
import Verif.Lemmas.Radiation
import Mathlib.Tactic.Linarith
import Mathlib.Tactic.Ring
import Mathlib.Tactic.FieldSimp
import Mathlib.Tactic.Positivity

set_option autoImplicit false

/-!
# The number of successes in many trials
-/

namespace QED.LargeNumbers

open MCTools MeasureTheory

/-! ## Patterns -/

/-- All records of `k` trials. -/
def patterns : Nat → List (List Bool)
  | 0 => [[]]
  | k + 1 => (patterns k).map (true :: ·) ++ (patterns k).map (false :: ·)

theorem length_of_mem {k : Nat} : ∀ {b : List Bool}, b ∈ patterns k → b.length = k := by
  induction k with
  | zero => intro b hb; simp [patterns] at hb; simp [hb]
  | succ k ih =>
    intro b hb
    simp only [patterns, List.mem_append, List.mem_map] at hb
    rcases hb with ⟨c, hc, rfl⟩ | ⟨c, hc, rfl⟩ <;> simp [ih hc]

/-- The probability of a record. -/
noncomputable def weight (p q : ℝ) : List Bool → ℝ
  | [] => 1
  | true :: b => p * weight p q b
  | false :: b => q * weight p q b

/-- The number of successes. -/
noncomputable def hits (b : List Bool) : ℝ := (b.countP id : ℝ)

theorem hits_true (b : List Bool) : hits (true :: b) = hits b + 1 := by simp [hits]

theorem hits_false (b : List Bool) : hits (false :: b) = hits b := by simp [hits]

theorem weight_nonneg {p q : ℝ} (hp : 0 ≤ p) (hq : 0 ≤ q) : ∀ b, 0 ≤ weight p q b
  | [] => zero_le_one
  | true :: b => mul_nonneg hp (weight_nonneg hp hq b)
  | false :: b => mul_nonneg hq (weight_nonneg hp hq b)

/-- The mean of `g` over the records of `k` trials. -/
noncomputable def mean (p q : ℝ) (k : Nat) (g : List Bool → ℝ) : ℝ := ((patterns k).map fun b => weight p q b * g b).sum

theorem mean_succ (p q : ℝ) (k : Nat) (g : List Bool → ℝ) : mean p q (k + 1) g =
    p * mean p q k (fun b => g (true :: b)) + q * mean p q k (fun b => g (false :: b)) := by
  simp only [mean, patterns, List.map_append, List.map_map, List.sum_append, ← List.sum_map_mul_left]
  congr 1 <;>
  · congr 1
    refine List.map_congr_left fun b _ => ?_
    simp [weight, mul_assoc]

theorem mean_add (p q : ℝ) (k : Nat) (g h : List Bool → ℝ) :
    mean p q k (fun b => g b + h b) = mean p q k g + mean p q k h := by
  simp only [mean, mul_add, List.sum_map_add]

theorem mean_smul (p q : ℝ) (k : Nat) (c : ℝ) (g : List Bool → ℝ) :
    mean p q k (fun b => c * g b) = c * mean p q k g := by
  simp only [mean, ← List.sum_map_mul_left]
  congr 1
  exact List.map_congr_left fun b _ => by ring

theorem mean_mono {p q : ℝ} (hp : 0 ≤ p) (hq : 0 ≤ q) {k : Nat} {g h : List Bool → ℝ} (hgh : ∀ b ∈ patterns k, g b ≤ h b) :
    mean p q k g ≤ mean p q k h :=
  List.sum_le_sum fun b hb => mul_le_mul_of_nonneg_left (hgh b hb) (weight_nonneg hp hq b)

variable {p q : ℝ}

theorem mean_one (h : p + q = 1) (k : Nat) : mean p q k (fun _ => 1) = 1 := by
  induction k with
  | zero => simp [mean, patterns, weight]
  | succ k ih => rw [mean_succ, ih]; linarith

theorem mean_hits (h : p + q = 1) (k : Nat) : mean p q k hits = k * p := by
  induction k with
  | zero => simp [mean, patterns, hits]
  | succ k ih =>
    rw [mean_succ]
    simp only [hits_true, hits_false]
    rw [mean_add, mean_one h, ih]
    push_cast
    linear_combination (k : ℝ) * p * h

/-- The variance of the number of successes. -/
theorem mean_variance (h : p + q = 1) (k : Nat) : mean p q k (fun b => (hits b - k * p) ^ 2) = k * (p * q) := by
  have h2 : mean p q k (fun b => hits b ^ 2) = k * (p * q) + (k * p) ^ 2 := by
    induction k with
    | zero => simp [mean, patterns, hits]
    | succ k ih =>
      rw [mean_succ]
      simp only [hits_true, hits_false]
      have e : (fun b => (hits b + 1) ^ 2) = fun b => hits b ^ 2 + (2 * hits b + 1) := by funext b; ring
      rw [e, mean_add, mean_add, mean_smul, mean_one h, mean_hits h, ih]
      push_cast
      obtain rfl : q = 1 - p := by linarith
      ring
  have e : (fun b => (hits b - k * p) ^ 2) = fun b => hits b ^ 2 + ((-(2 * (k * p))) * hits b + (k * p) ^ 2 * 1) := by
    funext b; ring
  rw [e, mean_add, mean_add, mean_smul, mean_smul, mean_one h, mean_hits h, h2]
  ring

open Classical in
/-- Chebyshev's inequality. -/
theorem chebyshev (hp : 0 ≤ p) (hq : 0 ≤ q) (h : p + q = 1) {k : Nat} (hk : 0 < k) {ε : ℝ} (hε : 0 < ε) :
    1 - 1 / (4 * k * ε ^ 2) ≤ mean p q k (fun b => if |hits b / k - p| < ε then 1 else 0) := by
  have hk' : (0 : ℝ) < k := by exact_mod_cast hk
  have h1 : ∀ b ∈ patterns k, 1 + (-(1 / (k * ε) ^ 2)) * (hits b - k * p) ^ 2 ≤
      if |hits b / k - p| < ε then (1 : ℝ) else 0 := by
    intro b _
    split_ifs with hb
    · have : 0 ≤ 1 / (k * ε) ^ 2 * (hits b - k * p) ^ 2 := by positivity
      linarith
    · rw [not_lt] at hb
      have e : hits b - k * p = k * (hits b / k - p) := by field_simp
      have h2 : ε ^ 2 ≤ (hits b / k - p) ^ 2 := by
        rw [← sq_abs (hits b / k - p)]
        exact pow_le_pow_left₀ hε.le hb 2
      have h3 : 1 ≤ 1 / (k * ε) ^ 2 * (hits b - k * p) ^ 2 := by
        rw [e, div_mul_eq_mul_div, one_mul, le_div_iff₀ (by positivity), one_mul, mul_pow, mul_pow]
        exact mul_le_mul_of_nonneg_left h2 (by positivity)
      linarith
  have h2 := mean_mono hp hq h1
  rw [mean_add, mean_one h, mean_smul, mean_variance h] at h2
  refine le_trans ?_ h2
  have h3 : p * q ≤ 1 / 4 := by nlinarith [sq_nonneg (p - q)]
  have h4 : 1 / (k * ε) ^ 2 * (k * (p * q)) ≤ 1 / (4 * k * ε ^ 2) := by
    have e : 1 / (4 * k * ε ^ 2) = 1 / (k * ε) ^ 2 * (k * (1 / 4)) := by field_simp
    rw [e]
    exact mul_le_mul_of_nonneg_left (mul_le_mul_of_nonneg_left h3 hk'.le) (by positivity)
  linarith

/-! ## Averages of sums -/

theorem average_mono {N : Nat} {F G : List ℝ → ENNReal} (h : ∀ us, F us ≤ G us) : average N F ≤ average N G := by
  induction N generalizing F G with
  | zero => exact h _
  | succ N ih =>
    rw [average_succ, average_succ]
    exact lintegral_mono fun u => ih fun us => h _

theorem le_average_add (N : Nat) (F G : List ℝ → ENNReal) :
    average N F + average N G ≤ average N fun us => F us + G us := by
  induction N generalizing F G with
  | zero => exact le_rfl
  | succ N ih =>
    rw [average_succ, average_succ, average_succ]
    exact (le_lintegral_add _ _).trans (lintegral_mono fun u => ih _ _)

theorem le_average_sum {ι : Type} (N : Nat) (L : List ι) (F : ι → List ℝ → ENNReal) :
    (L.map fun b => average N (F b)).sum ≤ average N fun us => (L.map fun b => F b us).sum := by
  induction L with
  | nil => simp
  | cons b L ih =>
    simp only [List.map_cons, List.sum_cons]
    exact (add_le_add_right ih _).trans (le_average_add N _ _)

/-! ## Records of events -/

/-- What a record tells of an event. -/
def tells (C : List (Particle ℝ) → Prop) : Bool → PList ℝ → Prop
  | true, l => C l.items
  | false, l => ¬C l.items

theorem exclusive (cfg : SimCfg ℝ) (fuel : Nat) (C : List (Particle ℝ) → Prop) : ∀ (k : Nat) (s : Source ℝ) (r : Rng ℝ),
    ((patterns k).map fun b => indic (NextAre cfg fuel (b.map (tells C)) s r)).sum ≤ 1 := by
  intro k
  induction k with
  | zero =>
    intro s r
    simp only [patterns, List.map_cons, List.map_nil, List.sum_cons, List.sum_nil, add_zero]
    unfold indic
    split_ifs <;> simp
  | succ k ih =>
    intro s r
    simp only [patterns, List.map_append, List.map_map, List.sum_append]
    have zero : ∀ (L : List (List Bool)) (c : Bool),
        (∀ b ∈ L, ¬NextAre cfg fuel ((c :: b).map (tells C)) s r) →
        (L.map ((fun b => indic (NextAre cfg fuel (b.map (tells C)) s r)) ∘ fun x => c :: x)).sum = 0 := by
      intro L c h
      rw [List.sum_eq_zero]
      intro x hx
      obtain ⟨b, hb, rfl⟩ := List.mem_map.mp hx
      exact if_neg (h b hb)
    by_cases he : ∃ l s' r' e, s.generateList r = .ok (l, s', r') ∧ timeLoop cfg fuel (.init l r' []) = some (.ok e)
    · obtain ⟨l, s', r', e, hg, ht⟩ := he
      have step : ∀ (c : Bool) (b : List Bool), NextAre cfg fuel ((c :: b).map (tells C)) s r →
          tells C c e.list ∧ NextAre cfg fuel (b.map (tells C)) s' e.rng := by
        rintro c b ⟨l1, s1, r1, e1, hg1, ht1, hs, hn⟩
        rw [hg] at hg1
        cases hg1
        rw [ht] at ht1
        cases ht1
        exact ⟨hs, hn⟩
      have le : ∀ c : Bool, ((patterns k).map ((fun b => indic (NextAre cfg fuel (b.map (tells C)) s r)) ∘
          fun x => c :: x)).sum ≤ 1 := by
        intro c
        refine le_trans (List.sum_le_sum fun b _ => ?_) (ih s' e.rng)
        show indic _ ≤ indic _
        unfold indic
        split_ifs with h1 h2
        · exact le_rfl
        · exact absurd (step c b h1).2 h2
        · exact zero_le_one
        · exact le_rfl
      by_cases hC : C e.list.items
      · rw [zero (patterns k) false fun b _ h => (step false b h).1 hC, add_zero]
        exact le true
      · rw [zero (patterns k) true fun b _ h => hC (step true b h).1, zero_add]
        exact le false
    · have none : ∀ (c : Bool) (b : List Bool), ¬NextAre cfg fuel ((c :: b).map (tells C)) s r := by
        rintro c b ⟨l, s', r', e, hg, ht, -⟩
        exact he ⟨l, s', r', e, hg, ht⟩
      rw [zero _ true fun b _ => none true b, zero _ false fun b _ => none false b, add_zero]
      exact zero_le_one

open Classical in
theorem finals_of_tells (cfg : SimCfg ℝ) (fuel : Nat) (C : List (Particle ℝ) → Prop) : ∀ (b : List Bool) (s : Source ℝ) (r : Rng ℝ),
    NextAre cfg fuel (b.map (tells C)) s r → ∃ ls, ls.length = b.length ∧ Finals cfg fuel ls s r ∧
      (ls.countP fun l => decide (C l.items)) = b.countP id
  | [], s, r, _ => ⟨[], rfl, trivial, rfl⟩
  | c :: b, s, r, ⟨l, s', r', e, hg, ht, hs, hn⟩ => by
    obtain ⟨ls, h1, h2, h3⟩ := finals_of_tells cfg fuel C b s' e.rng hn
    refine ⟨e.list :: ls, by simp [h1], ⟨l, s', r', e, hg, ht, rfl, h2⟩, ?_⟩
    rw [List.countP_cons, List.countP_cons, h3]
    cases c
    · have hs : ¬C e.list.items := hs
      simp [hs]
    · have hs : C e.list.items := hs
      simp [hs]

end QED.LargeNumbers
