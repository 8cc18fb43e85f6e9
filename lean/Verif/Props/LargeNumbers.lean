import Verif.Lemmas.Repetition
import Verif.Lemmas.LargeNumbers

set_option autoImplicit false

/-!
# C157: more events, better estimates
-/

namespace QED

open Dbl MCTools Independence LargeNumbers MeasureTheory

/-- Among `k` events whose primaries have the same sample, the part that ends with the property `C` is closer than
`ε` to the probability of `C` in one event, except with a probability of at most `1 / (4 k ε²)`. The events are
assumed to end: one ends with `C` or without `C`, with probabilities that add up to 1. -/
theorem C157_fraction (cfg : SimCfg ℝ) (fuel k : Nat) (hk : 0 < k) :
    ∃ K : Nat, ∀ (s : Source ℝ) (C : List (Particle ℝ) → Prop) (N M : Nat) (ε : ℝ), s.partCount + k ≤ s.nPart →
      (∀ i < k, s.SameSample (s.partCount + i) s.partCount) → 0 < ε → K ≤ N → K ≤ M →
      (likelihood M fun us => NextIs cfg fuel (fun l => C l.items) s (fresh us)) +
        (likelihood M fun us => NextIs cfg fuel (fun l => ¬C l.items) s (fresh us)) = 1 →
      ENNReal.ofReal (1 - 1 / (4 * k * ε ^ 2)) ≤ likelihood N fun us => ∃ ls, ls.length = k ∧
        Finals cfg fuel ls s (fresh us) ∧ |fraction C ls -
          (likelihood M fun us => NextIs cfg fuel (fun l => C l.items) s (fresh us)).toReal| < ε := by
  classical
  refine ⟨most cfg fuel * k + most cfg fuel, fun s C N M ε hn hs hε hN hM hpq => ?_⟩
  set P := likelihood M fun us => NextIs cfg fuel (fun l => C l.items) s (fresh us) with hP
  set Q := likelihood M fun us => NextIs cfg fuel (fun l => ¬C l.items) s (fresh us) with hQ
  have hPt : P ≠ ⊤ := fun h => by rw [h, top_add] at hpq; exact ENNReal.top_ne_one hpq
  have hQt : Q ≠ ⊤ := fun h => by rw [h, add_top] at hpq; exact ENNReal.top_ne_one hpq
  have h1 : P.toReal + Q.toReal = 1 := by
    rw [← ENNReal.toReal_add hPt hQt, hpq, ENNReal.toReal_one]
  have hp := ENNReal.toReal_nonneg (a := P)
  have hq := ENNReal.toReal_nonneg (a := Q)
  refine le_trans (ENNReal.ofReal_le_ofReal (chebyshev hp hq h1 hk hε)) ?_
  -- the probability of a record
  have hw : ∀ b ∈ patterns k, (likelihood N fun us => NextAre cfg fuel (b.map (tells C)) s (fresh us)) =
      ENNReal.ofReal (weight P.toReal Q.toReal b) := by
    intro b hb
    have hlen := length_of_mem hb
    refine (product_at cfg fuel (M := M) (by omega) (b.map (tells C)) s N [] (by
      rw [List.length_map, hlen]; omega)).trans ?_
    have main : ∀ (c : List Bool) (m : Nat), m + c.length ≤ k →
        ((c.map (tells C)).mapIdx fun i B => likelihood M fun us =>
          NextIs cfg fuel B { s with partCount := s.partCount + (m + i) } (fresh us)).prod =
          ENNReal.ofReal (weight P.toReal Q.toReal c) := by
      intro c
      induction c with
      | nil => intro m _; simp [weight]
      | cons x c ih =>
        intro m hm
        rw [List.length_cons] at hm
        rw [List.map_cons, List.mapIdx_cons, List.prod_cons]
        have e : (fun (i : Nat) (B : PList ℝ → Prop) => likelihood M fun us => NextIs cfg fuel B
            { s with partCount := s.partCount + (m + (i + 1)) } (fresh us)) = fun i B => likelihood M fun us =>
              NextIs cfg fuel B { s with partCount := s.partCount + (m + 1 + i) } (fresh us) := by
          funext i B
          rw [show m + (i + 1) = m + 1 + i by omega]
        rw [e, ih (m + 1) (by omega)]
        have alike : ∀ C' : List (Particle ℝ) → Prop, (likelihood M fun us =>
            NextIs cfg fuel (fun l => C' l.items) { s with partCount := s.partCount + (m + 0) } (fresh us)) =
            likelihood M fun us => NextIs cfg fuel (fun l => C' l.items) s (fresh us) := by
          intro C'
          have hs' : s.SameSample s.partCount (s.partCount + m) := by
            obtain ⟨a, b, c, d, e, f⟩ := hs m (by omega)
            exact ⟨a.symm, b.symm, c.symm, d.symm, e.symm, f.symm⟩
          unfold likelihood
          congr 1
          funext us
          exact congrArg indic (propext ⟨fun h => next_alike cfg fuel (by omega) (hs m (by omega)) C' _ h,
            fun h => next_alike cfg fuel (by omega) hs' C' _ h⟩)
        cases x with
        | true =>
          rw [weight, ENNReal.ofReal_mul hp, ENNReal.ofReal_toReal hPt]
          exact congrArg (· * _) (alike C)
        | false =>
          rw [weight, ENNReal.ofReal_mul hq, ENNReal.ofReal_toReal hQt]
          exact congrArg (· * _) (alike fun ps => ¬C ps)
    have := main b 0 (by omega)
    simp only [Nat.zero_add] at this
    exact this
  -- the records that are close
  have hsum : ENNReal.ofReal (mean P.toReal Q.toReal k fun b => if |hits b / k - P.toReal| < ε then 1 else 0) =
      (((patterns k).filter fun b => decide (|hits b / k - P.toReal| < ε)).map fun b =>
        likelihood N fun us => NextAre cfg fuel (b.map (tells C)) s (fresh us)).sum := by
    have gen : ∀ L : List (List Bool), (∀ b ∈ L, b ∈ patterns k) →
        ENNReal.ofReal ((L.map fun b => weight P.toReal Q.toReal b *
          if |hits b / k - P.toReal| < ε then 1 else 0).sum) =
        ((L.filter fun b => decide (|hits b / k - P.toReal| < ε)).map fun b =>
          likelihood N fun us => NextAre cfg fuel (b.map (tells C)) s (fresh us)).sum := by
      intro L
      induction L with
      | nil => intro _; simp
      | cons b L ih =>
        intro hL
        have ih := ih fun c hc => hL c (List.mem_cons_of_mem _ hc)
        rw [List.map_cons, List.sum_cons, ENNReal.ofReal_add
          (mul_nonneg (weight_nonneg hp hq b) (by split_ifs <;> norm_num))
          (List.sum_nonneg fun x hx => by
            obtain ⟨c, -, rfl⟩ := List.mem_map.mp hx
            exact mul_nonneg (weight_nonneg hp hq c) (by split_ifs <;> norm_num)), ih]
        by_cases hb : |hits b / k - P.toReal| < ε
        · rw [List.filter_cons_of_pos (by simpa using hb), List.map_cons, List.sum_cons, if_pos hb, mul_one,
            hw b (hL b List.mem_cons_self)]
        · rw [List.filter_cons_of_neg (by simpa using hb), if_neg hb, mul_zero, ENNReal.ofReal_zero, zero_add]
    exact gen _ fun b hb => hb
  rw [hsum]
  refine (le_average_sum N _ _).trans (average_mono fun us => ?_)
  by_cases hG : ∃ ls : List (PList ℝ), ls.length = k ∧ Finals cfg fuel ls s (fresh us) ∧ |fraction C ls - P.toReal| < ε
  · refine le_trans ?_ (le_of_eq (if_pos hG).symm)
    exact ((List.filter_sublist.map _).sum_le_sum fun _ _ => zero_le).trans (exclusive cfg fuel C k s (fresh us))
  · rw [List.sum_eq_zero]
    · exact zero_le
    · intro x hx
      obtain ⟨b, hb, rfl⟩ := List.mem_map.mp hx
      rw [List.mem_filter] at hb
      refine if_neg fun hA => hG ?_
      obtain ⟨ls, h1, h2, h3⟩ := finals_of_tells cfg fuel C b s (fresh us) hA
      refine ⟨ls, h1.trans (length_of_mem hb.1), h2, ?_⟩
      unfold fraction
      rw [h1, length_of_mem hb.1]
      have h4 := of_decide_eq_true hb.2
      unfold hits at h4
      rw [← h3] at h4
      convert h4 using 5

namespace LargeWitness

/-- No processes and no time steps. -/
noncomputable def cfg : SimCfg ℝ := ⟨lorentzForce, fun _ _ => (⟨0, 0, 0⟩, ⟨0, 0, 0⟩), 1, 0, []⟩

/-- `k + 1` photons. -/
noncomputable def source (k : Nat) : Source ℝ :=
  ⟨"Photon", k + 1, ⟨0, 0, 0⟩, ⟨0, 0, 1⟩, List.replicate (k + 1) 0, List.replicate (k + 1) 0, List.replicate (k + 1) 0,
    List.replicate (k + 1) 0, List.replicate (k + 1) 0, List.replicate (k + 1) 1, 0,
    V3.rotateToAxis ⟨0, 0, 1⟩ V3.ez, false⟩

/-- The first particle goes further than the optical depth `log 2`. -/
def Far (ps : List (Particle ℝ)) : Prop := ∃ p, ps.head? = some p ∧ Real.log 2 ≤ p.opticalDepth

theorem event (k : Nat) (us : List ℝ) : ∃ l p, nextEvent cfg 0 (source k) (fresh us) = some (.ok l) ∧
    l.items = [p] ∧ p.opticalDepth = initDepth (us.getD 0 0) := by
  have ht : ∀ l r, timeLoop cfg 0 (.init l r []) = some (.ok (.init l r [])) := fun l r =>
    if_neg (by simp [EvState.init, cfg])
  refine ⟨PList.add (PList.new (toString 0) PList.defaultMax) (.newPhotonE 1
    (((source k).rotation.mulVec ⟨0, 0, 0⟩).add (source k).position) ((source k).rotation.mulVec (Source.sphere 0 0))
    (lit 1) (lit 0) false (us.getD 0 0)), _, ?_, rfl, rfl⟩
  show Timed.bind (timeLoop cfg 0 (.init _ (fresh us).next.2 [])) _ = _
  rw [ht]
  rfl

theorem next_iff (k : Nat) (us : List ℝ) (B : List (Particle ℝ) → Prop) (b : Prop)
    (h : ∀ p : Particle ℝ, p.opticalDepth = initDepth (us.getD 0 0) → (B [p] ↔ b)) :
    NextIs cfg 0 (fun l => B l.items) (source k) (fresh us) ↔ b := by
  obtain ⟨l, p, hl, hi, hp⟩ := event k us
  constructor
  · rintro ⟨l', h', hB⟩
    rw [hl] at h'
    cases h'
    rw [hi] at hB
    exact (h p hp).mp hB
  · intro hb
    exact ⟨l, hl, by show B l.items; rw [hi]; exact (h p hp).mpr hb⟩

theorem far (k M : Nat) :
    (likelihood (M + 1) fun us => NextIs cfg 0 (fun l => Far l.items) (source k) (fresh us)) = 1 / 2 := by
  have h1 : ∀ us, NextIs cfg 0 (fun l => Far l.items) (source k) (fresh us) ↔ Real.log 2 ≤ initDepth (us.getD 0 0) :=
    fun us => next_iff k us Far _ fun p hp => by rw [← hp]; simp [Far]
  simp only [h1]
  unfold likelihood
  rw [average_succ]
  have h2 : ∀ u : ℝ, (average M fun us => indic (Real.log 2 ≤ initDepth ((u :: us).getD 0 0))) =
      if Real.log 2 ≤ initDepth u then (fun _ => 1) (initDepth u - Real.log 2) else 0 := by
    intro u
    refine (average_const M (indic (Real.log 2 ≤ initDepth u))).trans ?_
    unfold indic
    rfl
  simp only [h2]
  rw [lintegral_depth (Real.log_nonneg (by norm_num)) (fun _ => 1) 0, lintegral_unit, mul_zero, add_zero, mul_one,
    Real.exp_neg, Real.exp_log (by norm_num)]
  rw [ENNReal.ofReal_inv_of_pos (by norm_num)]
  simp

theorem near (k M : Nat) :
    (likelihood (M + 1) fun us => NextIs cfg 0 (fun l => ¬Far l.items) (source k) (fresh us)) = 1 / 2 := by
  have h1 : ∀ us, NextIs cfg 0 (fun l => ¬Far l.items) (source k) (fresh us) ↔ ¬Real.log 2 ≤ initDepth (us.getD 0 0) :=
    fun us => next_iff k us (fun ps => ¬Far ps) _ fun p hp => by rw [← hp]; simp [Far]
  simp only [h1]
  unfold likelihood
  rw [average_succ]
  have h2 : ∀ u : ℝ, (average M fun us => indic (¬Real.log 2 ≤ initDepth ((u :: us).getD 0 0))) =
      if Real.log 2 ≤ initDepth u then (fun _ => 0) (initDepth u - Real.log 2) else 1 := by
    intro u
    refine (average_const M (indic (¬Real.log 2 ≤ initDepth u))).trans ?_
    unfold indic
    split_ifs <;> rfl
  simp only [h2]
  rw [lintegral_depth (Real.log_nonneg (by norm_num)) (fun _ => 0) 1, lintegral_unit, mul_zero, zero_add, mul_one,
    Real.exp_neg, Real.exp_log (by norm_num), show (1 - 2⁻¹ : ℝ) = 2⁻¹ by norm_num]
  rw [ENNReal.ofReal_inv_of_pos (by norm_num)]
  simp

end LargeWitness

open LargeWitness in
/-- Among any number of photons, those that go further than the optical depth `log 2` are half, within 0.1, except
with a probability of `25 / (k + 1)`. -/
example (k : Nat) : ∃ N, ENNReal.ofReal (1 - 1 / (4 * (k + 1 : ℕ) * (1 / 10) ^ 2)) ≤ likelihood N fun us =>
    ∃ ls, ls.length = k + 1 ∧ Finals cfg 0 ls (source k) (fresh us) ∧ |fraction Far ls - 1 / 2| < 1 / 10 := by
  obtain ⟨K, hK⟩ := C157_fraction cfg 0 (k + 1) (by omega)
  have h := hK (source k) Far (K + 1) (K + 1) (1 / 10) (by simp [source]) (fun i hi => by
    simp only [Source.SameSample, source, Nat.zero_add]
    rw [List.getElem?_replicate, List.getElem?_replicate, List.getElem?_replicate, List.getElem?_replicate]
    simp [hi]) (by norm_num) (by omega) (by omega) (by
      rw [far, near]
      exact ENNReal.add_halves 1)
  rw [far] at h
  refine ⟨K + 1, ?_⟩
  convert h using 10
  simp

end QED
