import Verif.Lemmas.Means
import Verif.Props.LargeNumbers

set_option autoImplicit false

/-!
# C157: means over many events
-/

namespace QED

open Dbl MCTools Independence LargeNumbers Means MeasureTheory

/-- The mean over `k` events, whose primaries have the same sample, of a number between 0 and `B` is closer than `ε` to
its expectation in one event, except with a probability of at most `B² / (4 k ε²)`. The events are assumed to end with
such a number: the probabilities of its values add up to 1. -/
theorem C157_mean (cfg : SimCfg ℝ) (fuel k : Nat) (hk : 0 < k) :
    ∃ K : Nat, ∀ (s : Source ℝ) (f : List (Particle ℝ) → ℕ) (B N M : Nat) (ε : ℝ), s.partCount + k ≤ s.nPart →
      (∀ i < k, s.SameSample (s.partCount + i) s.partCount) → 0 < ε → K ≤ N → K ≤ M →
      ∑ j ∈ Finset.range (B + 1), valueChance cfg fuel M s f j = 1 →
      ENNReal.ofReal (1 - B ^ 2 / (4 * k * ε ^ 2)) ≤ likelihood N fun us => ∃ ls, ls.length = k ∧
        Finals cfg fuel ls s (fresh us) ∧ |eventMean f ls - eventExpected cfg fuel M s f B| < ε := by
  classical
  refine ⟨most cfg fuel * k + most cfg fuel, fun s f B N M ε hn hs hε hN hM hsum1 => ?_⟩
  set P := valueChance cfg fuel M s f with hP
  have hPt : ∀ j, P j ≠ ⊤ := fun j =>
    ne_top_of_le_ne_top ENNReal.one_ne_top (average_le_one fun us => indic_le _)
  set p : ℕ → ℝ := fun j => (P j).toReal with hp
  have hp0 : ∀ j, 0 ≤ p j := fun j => ENNReal.toReal_nonneg
  have h1 : ∑ j ∈ Finset.range (B + 1), p j = 1 := by
    rw [hp, ← ENNReal.toReal_sum fun j _ => hPt j, hsum1, ENNReal.toReal_one]
  set μ := eventExpected cfg fuel M s f B with hμ
  refine le_trans (ENNReal.ofReal_le_ofReal (Means.chebyshev hp0 h1 hk (μ := μ) rfl hε)) ?_
  -- the probability of a record
  have hw : ∀ b ∈ records (B + 1) k, (likelihood N fun us => NextAre cfg fuel (b.map (Means.tells f)) s (fresh us)) =
      ENNReal.ofReal (prob p b) := by
    intro b hb
    have hlen := length_record hb
    refine (product_at cfg fuel (M := M) (by omega) (b.map (Means.tells f)) s N [] (by
      rw [List.length_map, hlen]; omega)).trans ?_
    have main : ∀ (c : List Nat) (m : Nat), m + c.length ≤ k →
        ((c.map (Means.tells f)).mapIdx fun i B => likelihood M fun us =>
          NextIs cfg fuel B { s with partCount := s.partCount + (m + i) } (fresh us)).prod =
          ENNReal.ofReal (prob p c) := by
      intro c
      induction c with
      | nil => intro m _; simp [prob]
      | cons x c ih =>
        intro m hm
        rw [List.length_cons] at hm
        rw [List.map_cons, List.mapIdx_cons, List.prod_cons]
        have e : (fun (i : Nat) (B : PList ℝ → Prop) => likelihood M fun us => NextIs cfg fuel B
            { s with partCount := s.partCount + (m + (i + 1)) } (fresh us)) = fun i B => likelihood M fun us =>
              NextIs cfg fuel B { s with partCount := s.partCount + (m + 1 + i) } (fresh us) := by
          funext i B
          rw [show m + (i + 1) = m + 1 + i by omega]
        rw [e, ih (m + 1) (by omega)]
        have alike : (likelihood M fun us =>
            NextIs cfg fuel (fun l => f l.items = x) { s with partCount := s.partCount + (m + 0) } (fresh us)) = P x := by
          have hs' : s.SameSample s.partCount (s.partCount + m) := by
            obtain ⟨a, b, c, d, e, f⟩ := hs m (by omega)
            exact ⟨a.symm, b.symm, c.symm, d.symm, e.symm, f.symm⟩
          rw [hP]
          unfold valueChance likelihood
          congr 1
          funext us
          exact congrArg indic (propext ⟨fun h => next_alike cfg fuel (by omega) (hs m (by omega)) (fun ps => f ps = x) _ h,
            fun h => next_alike cfg fuel (by omega) hs' (fun ps => f ps = x) _ h⟩)
        rw [show prob p (x :: c) = p x * prob p c by simp [prob], ENNReal.ofReal_mul (hp0 x),
          ENNReal.ofReal_toReal (hPt x)]
        exact congrArg (· * _) alike
    have := main b 0 (by omega)
    simp only [Nat.zero_add] at this
    exact this
  -- the records that are close
  have hsum : ENNReal.ofReal (Means.mean p (B + 1) k fun b => if |total b / k - μ| < ε then 1 else 0) =
      (((records (B + 1) k).filter fun b => decide (|total b / k - μ| < ε)).map fun b =>
        likelihood N fun us => NextAre cfg fuel (b.map (Means.tells f)) s (fresh us)).sum := by
    have gen : ∀ L : List (List Nat), (∀ b ∈ L, b ∈ records (B + 1) k) →
        ENNReal.ofReal ((L.map fun b => prob p b * if |total b / k - μ| < ε then 1 else 0).sum) =
        ((L.filter fun b => decide (|total b / k - μ| < ε)).map fun b =>
          likelihood N fun us => NextAre cfg fuel (b.map (Means.tells f)) s (fresh us)).sum := by
      intro L
      induction L with
      | nil => intro _; simp
      | cons b L ih =>
        intro hL
        have ih := ih fun c hc => hL c (List.mem_cons_of_mem _ hc)
        rw [List.map_cons, List.sum_cons, ENNReal.ofReal_add
          (mul_nonneg (prob_nonneg hp0 b) (by split_ifs <;> norm_num))
          (List.sum_nonneg fun x hx => by
            obtain ⟨c, -, rfl⟩ := List.mem_map.mp hx
            exact mul_nonneg (prob_nonneg hp0 c) (by split_ifs <;> norm_num)), ih]
        by_cases hb : |total b / k - μ| < ε
        · rw [List.filter_cons_of_pos (by simpa using hb), List.map_cons, List.sum_cons, if_pos hb, mul_one,
            hw b (hL b List.mem_cons_self)]
        · rw [List.filter_cons_of_neg (by simpa using hb), if_neg hb, mul_zero, ENNReal.ofReal_zero, zero_add]
    exact gen _ fun b hb => hb
  rw [hsum]
  refine (le_average_sum N _ _).trans (average_mono fun us => ?_)
  by_cases hG : ∃ ls : List (PList ℝ), ls.length = k ∧ Finals cfg fuel ls s (fresh us) ∧ |eventMean f ls - μ| < ε
  · refine le_trans ?_ (le_of_eq (if_pos hG).symm)
    exact Means.exclusive cfg fuel f k s (fresh us) _ ((nodup_records (B + 1) k).filter _) fun b hb =>
      length_record (List.mem_filter.mp hb).1
  · rw [List.sum_eq_zero]
    · exact zero_le
    · intro x hx
      obtain ⟨b, hb, rfl⟩ := List.mem_map.mp hx
      rw [List.mem_filter] at hb
      refine if_neg fun hA => hG ?_
      obtain ⟨ls, h1, h2, h3⟩ := Means.finals_of_tells cfg fuel f b s (fresh us) hA
      refine ⟨ls, h1.trans (length_record hb.1), h2, ?_⟩
      unfold eventMean
      rw [h1, length_record hb.1, h3]
      exact of_decide_eq_true hb.2

open LargeWitness in
/-- The number of photons per event that go further than the optical depth `log 2`, in any number of events. -/
noncomputable def LargeWitness.farCount (ps : List (Particle ℝ)) : ℕ :=
  open Classical in ps.countP fun p => decide (Real.log 2 ≤ p.opticalDepth)

open LargeWitness in
theorem LargeWitness.farCount_chance (k M : Nat) : valueChance cfg 0 (M + 1) (source k) farCount 0 = 1 / 2 ∧
    valueChance cfg 0 (M + 1) (source k) farCount 1 = 1 / 2 := by
  have h : ∀ us, NextIs cfg 0 (fun l => farCount l.items = 0) (source k) (fresh us) ↔
      NextIs cfg 0 (fun l => ¬Far l.items) (source k) (fresh us) := fun us =>
    (next_iff k us (fun ps => farCount ps = 0) _ fun p hp => by rw [← hp]; simp [farCount]).trans
      (next_iff k us (fun ps => ¬Far ps) (initDepth (us.getD 0 0) < Real.log 2) fun p hp => by
        rw [← hp]; simp [Far]).symm
  have h' : ∀ us, NextIs cfg 0 (fun l => farCount l.items = 1) (source k) (fresh us) ↔
      NextIs cfg 0 (fun l => Far l.items) (source k) (fresh us) := fun us =>
    (next_iff k us (fun ps => farCount ps = 1) (Real.log 2 ≤ initDepth (us.getD 0 0)) fun p hp => by
      rw [← hp]
      simp [farCount, List.countP_cons]).trans
      (next_iff k us Far _ fun p hp => by rw [← hp]; simp [Far]).symm
  constructor
  · unfold valueChance
    simp only [h]
    exact near k M
  · unfold valueChance
    simp only [h']
    exact far k M

open LargeWitness in
/-- On average over many events, half a photon goes further than the optical depth `log 2`. -/
example (k : Nat) : ∃ N, ENNReal.ofReal (1 - (1 : ℕ) ^ 2 / (4 * (k + 1 : ℕ) * (1 / 10) ^ 2)) ≤ likelihood N fun us =>
    ∃ ls, ls.length = k + 1 ∧ Finals cfg 0 ls (source k) (fresh us) ∧ |eventMean farCount ls - 1 / 2| < 1 / 10 := by
  obtain ⟨K, hK⟩ := C157_mean cfg 0 (k + 1) (by omega)
  have h := hK (source k) farCount 1 (K + 1) (K + 1) (1 / 10) (by simp [source]) (fun i hi => by
    simp only [Source.SameSample, source, Nat.zero_add]
    rw [List.getElem?_replicate, List.getElem?_replicate, List.getElem?_replicate, List.getElem?_replicate]
    simp [hi]) (by norm_num) (by omega) (by omega) (by
      rw [Finset.sum_range_succ, Finset.sum_range_one, (farCount_chance k K).1, (farCount_chance k K).2]
      exact ENNReal.add_halves 1)
  refine ⟨K + 1, ?_⟩
  have e : eventExpected cfg 0 (K + 1) (source k) farCount 1 = 1 / 2 := by
    unfold eventExpected
    rw [Finset.sum_range_succ, Finset.sum_range_one, (farCount_chance k K).1, (farCount_chance k K).2]
    simp
  rw [e] at h
  exact h

end QED
