import Verif.Lemmas.Repetition

set_option autoImplicit false

/-!
# C156: the events of a run are independent of each other
-/

namespace QED

open Dbl MCTools Independence MeasureTheory

/-- Whatever the first `j` events of a run have given, the next event has the law it would have if it were run
alone, with a generator that nobody has used: the probability of both is the product. `K` random numbers are
enough for all of them, whatever the source. -/
theorem C156_independent (cfg : SimCfg ℝ) (fuel : Nat) (output tracking : Bool) (j : Nat) :
    ∃ K : Nat, ∀ (s : Source ℝ) (hists : List (Hist ℝ)) (out : OutMgr ℝ) (A : List (Hist ℝ) → OutMgr ℝ → Prop)
      (B : PList ℝ → Prop) (N M : Nat), K ≤ N → K ≤ M →
      (likelihood N fun us => ∃ src r, EndsWith cfg fuel output tracking j s hists out A us src r ∧
          NextIs cfg fuel B src r) =
        (likelihood N fun us => ∃ src r, EndsWith cfg fuel output tracking j s hists out A us src r) *
          likelihood M fun us => NextIs cfg fuel B { s with partCount := s.partCount + j } (fresh us) := by
  refine ⟨most cfg fuel * j + most cfg fuel, fun s hists out A B N M hN hM => ?_⟩
  have h1 : ∀ p : Prop, indic p ≤ 1 := fun p => by unfold indic; split_ifs <;> simp
  obtain ⟨v, hv⟩ := average_local (next_local cfg fuel { s with partCount := s.partCount + j })
    (fun o => indic (∃ l, o = some (.ok l) ∧ B l)) (fun a r r' => rfl)
  have hvM : (likelihood M fun us => NextIs cfg fuel B { s with partCount := s.partCount + j } (fresh us)) = v :=
    hv M [] (by omega)
  have hvt : v ≠ ⊤ := by
    rw [← hvM]
    exact ne_top_of_le_ne_top ENNReal.one_ne_top (average_le_one fun us => h1 _)
  have h := average_product (L := most cfg fuel) (v := v)
    (runEvents_local cfg fuel output tracking j 0 (s, ⟨fresh [], hists, out⟩))
    (fun o => indic (∃ x, o = some (.ok x) ∧ A x.2.hists x.2.out))
    (fun o => indic (∃ x, o = some (.ok x) ∧ A x.2.hists x.2.out ∧ NextIs cfg fuel B x.1 x.2.rng))
    (fun r => indic (NextIs cfg fuel B { s with partCount := s.partCount + j } r))
    (fun a r r' => by
      congr 1
      exact propext ⟨fun ⟨x, hx, hA⟩ => ⟨putW a r', rfl, by cases hx; exact hA⟩,
        fun ⟨x, hx, hA⟩ => ⟨putW a r, rfl, by cases hx; exact hA⟩⟩)
    (fun b => ne_top_of_le_ne_top ENNReal.one_ne_top (h1 _))
    (fun a r ha => by
      have e : NextIs cfg fuel B (putW a r).1 (putW a r).2.rng ↔
          NextIs cfg fuel B { s with partCount := s.partCount + j } r := by rw [← ha]; rfl
      refine Eq.trans (b := indic (A (putW a r).2.hists (putW a r).2.out ∧
        NextIs cfg fuel B { s with partCount := s.partCount + j } r)) (congrArg indic (propext ⟨?_, ?_⟩))
        (Eq.trans (b := indic (A (putW a r).2.hists (putW a r).2.out) *
          indic (NextIs cfg fuel B { s with partCount := s.partCount + j } r)) ?_
          (congrArg (indic · * _) (propext ⟨fun hA => ⟨putW a r, rfl, hA⟩, ?_⟩)))
      · rintro ⟨x, hx, hA, hn⟩
        cases hx
        exact ⟨hA, e.mp hn⟩
      · exact fun ⟨hA, hn⟩ => ⟨putW a r, rfl, hA, e.mpr hn⟩
      · unfold indic
        split_ifs <;> simp_all
      · rintro ⟨x, hx, hA⟩
        cases hx
        exact hA)
    (fun o ho => ⟨if_neg fun ⟨x, hx, _⟩ => ho x hx, if_neg fun ⟨x, hx, _⟩ => ho x hx⟩) hvt
    (fun N pre hN => hv N pre hN) N [] hN
  rw [hvM]
  refine Eq.trans ?_ (h.trans ?_)
  · unfold likelihood
    congr 1
    funext us
    congr 1
    exact propext ⟨fun ⟨src, r, ⟨hi, o, he, hA⟩, hn⟩ => ⟨_, he, hA, hn⟩,
      fun ⟨x, he, hA, hn⟩ => ⟨x.1, x.2.rng, ⟨x.2.hists, x.2.out, he, hA⟩, hn⟩⟩
  · unfold likelihood
    congr 2
    funext us
    congr 1
    exact propext ⟨fun ⟨x, he, hA⟩ => ⟨x.1, x.2.rng, x.2.hists, x.2.out, he, hA⟩,
      fun ⟨src, r, hi, o, he, hA⟩ => ⟨_, he, hA⟩⟩

/-- The same for any number of events: the probability that they end one after another with the properties `Bs`
is the product of the probabilities of the single events, each run alone with a generator that nobody has used. -/
theorem C156_product (cfg : SimCfg ℝ) (fuel : Nat) (Bs : List (PList ℝ → Prop)) :
    ∃ K : Nat, ∀ (s : Source ℝ) (N M : Nat), K ≤ N → K ≤ M →
      (likelihood N fun us => NextAre cfg fuel Bs s (fresh us)) =
        (Bs.mapIdx fun i B =>
          likelihood M fun us => NextIs cfg fuel B { s with partCount := s.partCount + i } (fresh us)).prod :=
  ⟨most cfg fuel * Bs.length + most cfg fuel, fun s N M hN hM =>
    product_at cfg fuel (by omega) Bs s N [] (by omega)⟩

/-- Two primaries with the same sample have the same law. -/
theorem C156_alike (cfg : SimCfg ℝ) (fuel : Nat) {s : Source ℝ} {i j : Nat} (hi : i ≠ s.nPart) (hj : j ≠ s.nPart)
    (h : s.SameSample i j) (C : List (Particle ℝ) → Prop) (N : Nat) :
    (likelihood N fun us => NextIs cfg fuel (fun l => C l.items) { s with partCount := i } (fresh us)) =
      likelihood N fun us => NextIs cfg fuel (fun l => C l.items) { s with partCount := j } (fresh us) := by
  have h' : s.SameSample j i := by
    obtain ⟨h1, h2, h3, h4, h5, h6⟩ := h
    exact ⟨h1.symm, h2.symm, h3.symm, h4.symm, h5.symm, h6.symm⟩
  congr 1
  funext us
  exact propext ⟨next_alike cfg fuel hj h C _, next_alike cfg fuel hi h' C _⟩

/-- So `k` primaries with the same sample are `k` repetitions of one experiment: the probability that all of them
end with the property `C` is the `k`-th power of the probability for one. -/
theorem C156_repeated (cfg : SimCfg ℝ) (fuel k : Nat) :
    ∃ K : Nat, ∀ (s : Source ℝ) (C : List (Particle ℝ) → Prop) (N M : Nat), s.partCount + k ≤ s.nPart →
      (∀ i < k, s.SameSample (s.partCount + i) s.partCount) → K ≤ N → K ≤ M →
      (likelihood N fun us => NextAre cfg fuel (List.replicate k fun l => C l.items) s (fresh us)) =
        (likelihood M fun us => NextIs cfg fuel (fun l => C l.items) s (fresh us)) ^ k := by
  refine ⟨most cfg fuel * k + most cfg fuel, fun s C N M hk hs hN hM => ?_⟩
  have h := product_at cfg fuel (M := M) (by omega) (List.replicate k fun l => C l.items) s N []
    (by rw [List.length_replicate]; omega)
  refine Eq.trans h ?_
  rw [List.prod_eq_pow_card _ (likelihood M fun us => NextIs cfg fuel (fun l => C l.items) s (fresh us)),
    List.length_mapIdx, List.length_replicate]
  intro v hv
  obtain ⟨i, hi, rfl⟩ := List.mem_mapIdx.mp hv
  rw [List.length_replicate] at hi
  rw [List.getElem_replicate]
  exact C156_alike cfg fuel (s := s) (by omega) (j := s.partCount) (by omega) (hs i hi) C M

namespace IndependenceWitness

/-- No processes and no time steps. -/
noncomputable def cfg : SimCfg ℝ := ⟨lorentzForce, fun _ _ => (⟨0, 0, 0⟩, ⟨0, 0, 0⟩), 1, 0, []⟩

/-- Two photons. -/
noncomputable def source : Source ℝ :=
  ⟨"Photon", 2, ⟨0, 0, 0⟩, ⟨0, 0, 1⟩, [0, 0], [0, 0], [0, 0], [0, 0], [0, 0], [1, 1], 0,
    V3.rotateToAxis ⟨0, 0, 1⟩ V3.ez, false⟩

/-- Every particle goes further than the optical depth `log 2`. -/
def Far (l : PList ℝ) : Prop := ∀ p ∈ l.items, Real.log 2 ≤ p.opticalDepth

theorem first (us : List ℝ) (out : OutMgr ℝ) : Main.runEvents cfg 0 false false 1 0 (source, ⟨fresh us, [], out⟩) =
    some (.ok ({ source with partCount := 1 }, ⟨(fresh us).next.2, [], out⟩)) := by
  have ht : ∀ l r, timeLoop cfg 0 (.init l r []) = some (.ok (.init l r [])) := fun l r =>
    if_neg (by simp [EvState.init, cfg])
  show Timed.bind (Main.runEvent cfg 0 false false 0 (source, ⟨fresh us, [], out⟩)) _ = _
  have h : Main.runEvent cfg 0 false false 0 (source, ⟨fresh us, [], out⟩) =
      some (.ok ({ source with partCount := 1 }, ⟨(fresh us).next.2, [], out⟩)) := by
    show Timed.bind (timeLoop cfg 0 (.init _ (fresh us).next.2 [])) _ = _
    rw [ht]
    rfl
  rw [h]
  rfl

theorem alone {c : Nat} (hc : c = 0 ∨ c = 1) (us : List ℝ) :
    NextIs cfg 0 Far { source with partCount := c } (fresh us) ↔ Real.log 2 ≤ initDepth (us.getD 0 0) := by
  have ht : ∀ l r, timeLoop cfg 0 (.init l r []) = some (.ok (.init l r [])) := fun l r =>
    if_neg (by simp [EvState.init, cfg])
  have h : ∃ l p, nextEvent cfg 0 { source with partCount := c } (fresh us) = some (.ok l) ∧ l.items = [p] ∧
      p.opticalDepth = initDepth (us.getD 0 0) := by
    refine ⟨PList.add (PList.new (toString c) PList.defaultMax) (.newPhotonE 1
      ((source.rotation.mulVec ⟨0, 0, 0⟩).add source.position) (source.rotation.mulVec (Source.sphere 0 0))
      (lit 1) (lit 0) false (us.getD 0 0)), _, ?_, rfl, rfl⟩
    rcases hc with rfl | rfl <;>
    · show Timed.bind (timeLoop cfg 0 (.init _ (fresh us).next.2 [])) _ = _
      rw [ht]
      rfl
  obtain ⟨l, p, h, hl, hp⟩ := h
  constructor
  · rintro ⟨l', h', hB⟩
    rw [h] at h'
    cases h'
    rw [← hp]
    exact hB p (by rw [hl]; exact List.mem_singleton_self p)
  · intro hd
    refine ⟨l, h, fun q hq => ?_⟩
    rw [hl, List.mem_singleton] at hq
    rw [hq, hp]
    exact hd

end IndependenceWitness

namespace IndependenceWitness

theorem half {c : Nat} (hc : c = 0 ∨ c = 1) (K : Nat) :
    (likelihood (K + 1) fun us => NextIs cfg 0 Far { source with partCount := c } (fresh us)) = 1 / 2 := by
  simp only [alone hc]
  unfold likelihood
  rw [average_succ]
  have h2 : ∀ u : ℝ, (average K fun us => indic (Real.log 2 ≤ initDepth ((u :: us).getD 0 0))) =
      if Real.log 2 ≤ initDepth u then (fun _ => 1) (initDepth u - Real.log 2) else 0 := by
    intro u
    refine (average_const K (indic (Real.log 2 ≤ initDepth u))).trans ?_
    unfold indic
    rfl
  simp only [h2]
  rw [lintegral_depth (Real.log_nonneg (by norm_num)) (fun _ => 1) 0, lintegral_unit, mul_zero, add_zero, mul_one,
    Real.exp_neg, Real.exp_log (by norm_num)]
  rw [ENNReal.ofReal_inv_of_pos (by norm_num)]
  simp

end IndependenceWitness

open IndependenceWitness in
/-- The second of two photons goes further than the optical depth `log 2` with probability 1/2, after the first
as well as alone. -/
example (out : OutMgr ℝ) : ∃ N, (likelihood N fun us => ∃ src r,
      EndsWith cfg 0 false false 1 source [] out (fun _ _ => True) us src r ∧ NextIs cfg 0 Far src r) = 1 / 2 := by
  obtain ⟨K, hK⟩ := C156_independent cfg 0 false false 1
  refine ⟨K + 1, (hK source [] out (fun _ _ => True) Far (K + 1) (K + 1) (by omega) (by omega)).trans ?_⟩
  have h1 : (likelihood (K + 1) fun us => ∃ src r,
      EndsWith cfg 0 false false 1 source [] out (fun _ _ => True) us src r) = 1 := by
    refine Eq.trans ?_ (average_const (K + 1) 1)
    unfold likelihood
    congr 1
    funext us
    exact if_pos ⟨_, _, _, _, first us out, trivial⟩
  rw [h1, one_mul]
  exact half (Or.inr rfl) K

open IndependenceWitness in
/-- Both of them do with probability 1/4. -/
example : ∃ N, (likelihood N fun us => NextAre cfg 0 [Far, Far] source (fresh us)) = (1 / 2) ^ 2 := by
  obtain ⟨K, hK⟩ := C156_repeated cfg 0 2
  refine ⟨K + 1, (hK source (fun ps => ∀ p ∈ ps, Real.log 2 ≤ p.opticalDepth) (K + 1) (K + 1) (by simp [source]) ?_
    (by omega) (by omega)).trans (congrArg (· ^ 2) (half (Or.inl rfl) K))⟩
  intro i hi
  have : i = 0 ∨ i = 1 := by omega
  rcases this with rfl | rfl <;> simp [Source.SameSample, source]

end QED
