import Verif.Spec.Spectrum
import Verif.Lemmas.Radiation
import Verif.Lemmas.ContinuousEvent
import Mathlib.Data.Nat.Choose.Basic

set_option autoImplicit false

/-!
# Sampling a spectrum: the probability and the steps of an event
-/

namespace QED

open MCTools MeasureTheory

/-! ## The probability -/

/-- A uniform draw is above `f` with probability `1 - f`. -/
theorem lintegral_threshold {f : ℝ} (h0 : 0 ≤ f) (h1 : f ≤ 1) (a b : ENNReal) :
    (∫⁻ u in Set.Ico (0 : ℝ) 1, if f < u then a else b) =
      ENNReal.ofReal (1 - f) * a + ENNReal.ofReal f * b := by
  have hU : Set.Ico (0 : ℝ) 1 = Set.Ioo f 1 ∪ (Set.Ico (0 : ℝ) 1 ∩ Set.Iic f) := by
    ext x
    simp only [Set.mem_Ico, Set.mem_union, Set.mem_Ioo, Set.mem_inter_iff, Set.mem_Iic]
    constructor
    · rintro ⟨a, b⟩
      rcases lt_or_ge f x with h | h
      · exact .inl ⟨h, b⟩
      · exact .inr ⟨⟨a, b⟩, h⟩
    · rintro (⟨a, b⟩ | ⟨h, -⟩)
      · exact ⟨by linarith, b⟩
      · exact h
  have hD : Disjoint (Set.Ioo f 1) (Set.Ico (0 : ℝ) 1 ∩ Set.Iic f) := by
    rw [Set.disjoint_left]
    rintro x ⟨hx, -⟩ ⟨-, hx'⟩
    exact absurd hx (not_lt.mpr hx')
  have hM : MeasurableSet (Set.Ico (0 : ℝ) 1 ∩ Set.Iic f) := measurableSet_Ico.inter measurableSet_Iic
  have hv : volume (Set.Ico (0 : ℝ) 1 ∩ Set.Iic f) = ENNReal.ofReal f := by
    refine le_antisymm ?_ ?_
    · calc volume (Set.Ico (0 : ℝ) 1 ∩ Set.Iic f) ≤ volume (Set.Icc 0 f) :=
            measure_mono fun x hx => ⟨hx.1.1, hx.2⟩
        _ = _ := by rw [Real.volume_Icc, sub_zero]
    · calc ENNReal.ofReal f = volume (Set.Ico 0 f) := by rw [Real.volume_Ico, sub_zero]
        _ ≤ volume (Set.Ico (0 : ℝ) 1 ∩ Set.Iic f) :=
            measure_mono fun x hx => ⟨⟨hx.1, lt_of_lt_of_le hx.2 h1⟩, hx.2.le⟩
  conv_lhs => rw [hU]
  rw [lintegral_union hM hD]
  congr 1
  · rw [setLIntegral_congr_fun (g := fun _ => a) measurableSet_Ioo fun u hu => if_pos hu.1, lintegral_const,
      Measure.restrict_apply_univ, Real.volume_Ioo, mul_comm]
  · rw [setLIntegral_congr_fun (g := fun _ => b) hM fun u hu => if_neg (not_lt.mpr hu.2), lintegral_const,
      Measure.restrict_apply_univ, hv, mul_comm]

/-- The choices that the draws `us` make: `more q v` says whether the choice of `v` uses one more draw. -/
noncomputable def choices {α : Type} (push : α → α) (more : α → ℝ → Bool) (f : ℝ) :
    Nat → α → List ℝ → List (Option ℝ)
  | 0, _, _ => []
  | n + 1, q, us =>
    if f < us.headD 0 then none :: choices push more f n (push q) us.tail
    else
      let v := us.tail.headD 0
      some v :: choices push more f n (push q) (us.tail.tail.drop (if more (push q) v then 1 else 0))

theorem choices_law {α : Type} (push : α → α) (more : α → ℝ → Bool) {f : ℝ} (h0 : 0 ≤ f) (h1 : f ≤ 1)
    (n N : Nat) (hN : 3 * n ≤ N) (q : α) (G : List (Option ℝ) → ENNReal) :
    (average N fun us => G (choices push more f n q us)) = sampled f n G := by
  induction n generalizing N q G with
  | zero => simp only [choices, sampled, average_const]
  | succ n ih =>
    obtain ⟨M, rfl⟩ : ∃ M, N = M + 3 := ⟨N - 3, by omega⟩
    rw [sampled, ← lintegral_threshold h0 h1, average_succ]
    refine lintegral_congr fun u => ?_
    split_ifs with hu
    · have e1 : ∀ us, choices push more f (n + 1) q (u :: us) = none :: choices push more f n (push q) us :=
        fun us => if_pos hu
      simp only [e1]
      exact ih (M + 2) (by omega) (push q) fun h => G (none :: h)
    · have e1 : ∀ v us, choices push more f (n + 1) q (u :: v :: us) =
          some v :: choices push more f n (push q) (us.drop (if more (push q) v then 1 else 0)) :=
        fun v us => if_neg hu
      rw [average_succ]
      refine lintegral_congr fun v => ?_
      simp only [e1]
      cases hm : more (push q) v
      · exact ih (M + 1) (by omega) (push q) fun h => G (some v :: h)
      · rw [average_succ, ← lintegral_unit (sampled f n fun h => G (some v :: h))]
        refine lintegral_congr fun w => ?_
        exact ih M (by omega) (push q) fun h => G (some v :: h)

theorem choices_length {α : Type} (push : α → α) (more : α → ℝ → Bool) (f : ℝ) (n : Nat) (q : α)
    (us : List ℝ) : (choices push more f n q us).length = n := by
  induction n generalizing q us with
  | zero => rfl
  | succ n ih =>
    rw [choices]
    split_ifs
    · simp [ih]
    · simp [ih]

/-! ## Means of the choices -/

theorem sampled_congr {f : ℝ} {n : Nat} {G G' : List (Option ℝ) → ENNReal}
    (h : ∀ us, us.length = n → (∀ v, some v ∈ us → 0 ≤ v ∧ v < 1) → G us = G' us) :
    sampled f n G = sampled f n G' := by
  induction n generalizing G G' with
  | zero => exact h [] rfl (by simp)
  | succ n ih =>
    rw [sampled, sampled]
    congr 1
    · congr 1
      exact ih fun us h1 h2 => h _ (by simp [h1]) (by simpa using h2)
    · congr 1
      refine setLIntegral_congr_fun measurableSet_Ico fun v hv => ih fun us h1 h2 => ?_
      refine h _ (by simp [h1]) fun w hw => ?_
      rcases List.mem_cons.mp hw with hw | hw
      · cases hw
        exact hv
      · exact h2 w hw

theorem ofReal_split {f : ℝ} (h0 : 0 ≤ f) (h1 : f ≤ 1) (c : ENNReal) :
    ENNReal.ofReal (1 - f) * c + ENNReal.ofReal f * c = c := by
  rw [← add_mul, ← ENNReal.ofReal_add (by linarith) h0]
  simp

theorem sampled_const {f : ℝ} (h0 : 0 ≤ f) (h1 : f ≤ 1) (n : Nat) (c : ENNReal) :
    (sampled f n fun _ => c) = c := by
  induction n with
  | zero => rfl
  | succ n ih => rw [sampled, ih, lintegral_unit, ofReal_split h0 h1]

theorem sampled_const_add {f : ℝ} (h0 : 0 ≤ f) (h1 : f ≤ 1) (n : Nat) (c : ENNReal)
    (G : List (Option ℝ) → ENNReal) : (sampled f n fun h => c + G h) = c + sampled f n G := by
  induction n generalizing G with
  | zero => rfl
  | succ n ih =>
    rw [sampled, sampled, ih]
    simp only [ih]
    rw [lintegral_add_left measurable_const, lintegral_unit, mul_add, mul_add, add_add_add_comm,
      ofReal_split h0 h1]

/-- The mean of a sum over the choices: every step contributes on its own. -/
theorem sampled_sum {f : ℝ} (h0 : 0 ≤ f) (h1 : f ≤ 1) (n : Nat) (g : Nat → ℝ → ENNReal) :
    (sampled f n fun h => ∑ k ∈ Finset.range n, (h.getD k none).elim 0 (g k)) =
      ∑ k ∈ Finset.range n, ENNReal.ofReal f * ∫⁻ v in Set.Ico (0 : ℝ) 1, g k v := by
  induction n generalizing g with
  | zero => simp [sampled]
  | succ n ih =>
    rw [sampled]
    have e1 : ∀ (x : Option ℝ) (h : List (Option ℝ)),
        ∑ k ∈ Finset.range (n + 1), ((x :: h).getD k none).elim 0 (g k) =
          x.elim 0 (g 0) + ∑ k ∈ Finset.range n, (h.getD k none).elim 0 (g (k + 1)) := by
      intro x h
      rw [Finset.sum_range_succ', add_comm]
      simp only [List.getD_cons_succ, List.getD_cons_zero]
    simp only [e1, sampled_const_add h0 h1]
    rw [ih fun k => g (k + 1), lintegral_add_right _ measurable_const, lintegral_unit]
    simp only [Option.elim]
    rw [zero_add, mul_add, add_left_comm, ofReal_split h0 h1, Finset.sum_range_succ', add_comm]

/-- The number of choices that are made has a binomial distribution. -/
theorem sampled_binomial {f : ℝ} (h0 : 0 ≤ f) (h1 : f ≤ 1) (n j : Nat) :
    (sampled f n fun h => indic (h.countP Option.isSome = j)) =
      ENNReal.ofReal (n.choose j * f ^ j * (1 - f) ^ (n - j)) := by
  induction n generalizing j with
  | zero =>
    cases j with
    | zero => simp [sampled, indic]
    | succ j => simp [sampled, indic]
  | succ n ih =>
    have en : ∀ j, (fun h : List (Option ℝ) => indic ((none :: h).countP Option.isSome = j)) =
        fun h => indic (h.countP Option.isSome = j) := by
      intro j; funext h; simp
    rw [sampled, en, ih]
    have hg : 0 ≤ 1 - f := by linarith
    cases j with
    | zero =>
      have es : ∀ v : ℝ, (fun h : List (Option ℝ) => indic ((some v :: h).countP Option.isSome = 0)) =
          fun _ => 0 := by
        intro v; funext h; simp [indic]
      simp only [es, sampled_const h0 h1, lintegral_zero, mul_zero, add_zero]
      rw [← ENNReal.ofReal_mul hg]
      congr 1
      simp [pow_succ, mul_comm]
    | succ j =>
      have es : ∀ v : ℝ, (fun h : List (Option ℝ) => indic ((some v :: h).countP Option.isSome = j + 1)) =
          fun h => indic (h.countP Option.isSome = j) := by
        intro v; funext h; simp
      simp only [es, ih, lintegral_unit]
      rw [← ENNReal.ofReal_mul hg, ← ENNReal.ofReal_mul h0, ← ENNReal.ofReal_add (by positivity) (by positivity)]
      congr 1
      rw [Nat.choose_succ_succ, Nat.add_sub_add_right]
      push_cast
      by_cases hj : j + 1 ≤ n
      · rw [show n - j = (n - (j + 1)) + 1 by omega]
        ring
      · rw [Nat.choose_eq_zero_of_lt (show n < j + 1 by omega)]
        push_cast
        ring

/-! ## The steps of an event -/

section event

variable {cfg : SimCfg ℝ} {e : EmissionCfg ℝ} {c : Bool} {logh : ℝ → ℝ} {chi : ℝ → ℝ → ℝ}

open Classical in
/-- Whether the photon that `v` selects is stored. -/
noncomputable def isStored (e : EmissionCfg ℝ) (chi : ℝ → ℝ → ℝ) (q : Particle ℝ) (v : ℝ) : Bool :=
  decide (e.eMin < photonEnergy e chi q v)

/-- The choices of an event. -/
noncomputable def eventChoices (cfg : SimCfg ℝ) (e : EmissionCfg ℝ) (chi : ℝ → ℝ → ℝ) (n : Nat)
    (q : Particle ℝ) (us : List ℝ) : List (Option ℝ) :=
  choices (pushParticle cfg.push cfg.field cfg.dt) (isStored e chi) e.sampleFrac n q us

theorem emitted_depth (e : EmissionCfg ℝ) (logh : ℝ → ℝ) (chi : ℝ → ℝ → ℝ) (q : Particle ℝ) (v w : ℝ) :
    (emittedPhoton e (logh (calculateEta e.field q)) (chi (calculateEta e.field q) v) q w).withDepth 0 =
      spectrumPhoton e logh chi q v := by
  unfold emittedPhoton spectrumPhoton Particle.newPhotonE Particle.new Particle.withDepth photonEnergy
    emissionRate emissionDelta
  simp

theorem map_pushes (cfg : SimCfg ℝ) (n : Nat) (ph : List (Particle ℝ)) :
    (ph.map (pushParticle cfg.push cfg.field cfg.dt)).map (fun x => pushes cfg x n) =
      ph.map fun x => pushes cfg x (n + 1) := by
  rw [List.map_map]
  exact List.map_congr_left fun x _ => pushes_first cfg x n

/-- The photons of an event are those of its choices. -/
theorem alone_choices (hp : cfg.procs = [.continuous e c]) (n : Nat) (s : EvState ℝ) (q : Particle ℝ)
    (ph : List (Particle ℝ)) (us : List ℝ) (hs : Alone s q ph) (hm : q.mass ≠ 0) (ha : q.isAlive = true)
    (hus : s.rng.Begins us) (hlen : 3 * n ≤ us.length) (huv : ∀ u ∈ us, 0 ≤ u ∧ u < 1)
    (hend : ∀ k < n, s.time + (k : ℝ) * cfg.dt < cfg.timeEnd)
    (hL : ∀ k < n, ∀ v, 0 ≤ v → v < 1 →
      continuousLoghChi e c (calculateEta e.field (pushes cfg q (k + 1))) v =
        .ok (logh (calculateEta e.field (pushes cfg q (k + 1))),
          chi (calculateEta e.field (pushes cfg q (k + 1))) v)) :
    ∃ t, Steps cfg s n t ∧ photonsIn t =
      ((ph.map fun x => pushes cfg x n).map (fun x => x.withDepth 0) ++
        photonsAfter cfg e logh chi (eventChoices cfg e chi n q us) q).take (s.list.maxParticles - 1) := by
  have hlen0 : ph.length + 1 ≤ s.list.maxParticles := by
    have := hs.room
    rwa [hs.items] at this
  induction n generalizing s q ph us with
  | zero =>
    refine ⟨s, .zero, ?_⟩
    unfold photonsIn
    rw [hs.items, List.take_of_length_le (by
      simp only [eventChoices, choices, photonsAfter, List.append_nil, List.length_map]
      omega)]
    simp [eventChoices, choices, photonsAfter, pushes, Particle.withDepth]
  | succ n ih =>
    obtain ⟨u, v, w, rest, rfl⟩ : ∃ u v w rest, us = u :: v :: w :: rest := by
      match us, hlen with
      | u :: v :: w :: rest, _ => exact ⟨u, v, w, rest, rfl⟩
    obtain ⟨hu1, hb1⟩ := begins_cons.mp hus
    obtain ⟨hv1, hb2⟩ := begins_cons.mp hb1
    obtain ⟨hw1, hb3⟩ := begins_cons.mp hb2
    simp only [List.length_cons] at hlen
    have hid := push_identity cfg.push cfg.field cfg.dt q
    set q' := pushParticle cfg.push cfg.field cfg.dt q with hq'
    have hm' : q'.mass ≠ 0 := by rw [hid.2.1]; exact hm
    have ha' : q'.isAlive = true := by rw [hid.2.2.2.2.2.1]; exact ha
    have ht0 : (s.time <. cfg.timeEnd) = true := by
      have := hend 0 (by omega)
      simpa using this
    have hfirst : ∀ k, pushes cfg q' k = pushes cfg q (k + 1) := pushes_first cfg q
    have hv01 := huv v (by simp)
    have hl0 : continuousLoghChi e c (calculateEta e.field q') v =
        .ok (logh (calculateEta e.field q'), chi (calculateEta e.field q') v) :=
      hL 0 (by omega) v hv01.1 hv01.2
    -- what is common to all cases
    have next : ∀ (s' : EvState ℝ) (ph' : List (Particle ℝ)) (us' : List ℝ),
        timeStep cfg s = .ok s' → s'.time = s.time + cfg.dt →
        s'.list.maxParticles = s.list.maxParticles → Alone s' q' ph' → s'.rng.Begins us' →
        3 * n ≤ us'.length → (∀ u ∈ us', 0 ≤ u ∧ u < 1) →
        ∃ t, Steps cfg s (n + 1) t ∧ photonsIn t =
          ((ph'.map fun x => pushes cfg x n).map (fun x => x.withDepth 0) ++
            photonsAfter cfg e logh chi (eventChoices cfg e chi n q' us') q').take
              (s.list.maxParticles - 1) := by
      intro s' ph' us' h1 h2 h3 h4 h5 h6 h7
      rw [← h3]
      obtain ⟨t, g1, g2⟩ := ih s' q' ph' us' h4 hm' ha' h5 h6 h7
        (fun k hk => by
          have := hend (k + 1) (by omega)
          rw [h2]
          push_cast at this
          linarith)
        (fun k hk v a b => by
          rw [hfirst]
          exact hL (k + 1) (by omega) v a b)
        (by
          have := h4.room
          rwa [h4.items] at this)
      exact ⟨t, .cons ht0 h1 g1, g2⟩
    have hvu : ∀ (us' : List ℝ), us' ⊆ u :: v :: w :: rest → ∀ x ∈ us', 0 ≤ x ∧ x < 1 :=
      fun us' h x hx => huv x (h hx)
    by_cases hu : e.sampleFrac < u
    · obtain ⟨s', h1, h2, h3, h4, h5⟩ := alone_step hp hs (new := []) (by simp)
        (interact_skipped e c hm' ha' (by rw [hu1]; exact hu))
      obtain ⟨t, g1, g2⟩ := next s' _ (v :: w :: rest) h1 h3 h4 h5 (by rw [h2]; exact hb1)
        (by simp only [List.length_cons]; omega) (hvu _ (by simp))
      refine ⟨t, g1, ?_⟩
      have hc : eventChoices cfg e chi (n + 1) q (u :: v :: w :: rest) =
          none :: eventChoices cfg e chi n q' (v :: w :: rest) := if_pos hu
      rw [g2, hc, photonsAfter, List.take_nil, List.append_nil, map_pushes]
    · have hx : continuousLoghChi e c (calculateEta e.field q') s.rng.next.2.next.1 =
          .ok (logh (calculateEta e.field q'), chi (calculateEta e.field q') v) := by
        rw [hv1]; exact hl0
      have hc : eventChoices cfg e chi (n + 1) q (u :: v :: w :: rest) =
          some v :: eventChoices cfg e chi n q'
            ((w :: rest).drop (if isStored e chi q' v then 1 else 0)) := if_neg hu
      have hint := interact_sampled e c hm' ha' (by rw [hu1]; exact hu) hx
      by_cases hE : e.eMin < photonEnergy e chi q' v
      · have hst : isStored e chi q' v = true := decide_eq_true hE
        obtain ⟨s', h1, h2, h3, h4, h5⟩ := alone_step hp hs (new := [_]) (by
            intro x hx
            rw [List.mem_singleton.mp hx]
            simp [emittedPhoton, Particle.newPhotonE, Particle.new])
          (fun l => (hint l).1 hE)
        obtain ⟨t, g1, g2⟩ := next s' _ rest h1 h3 h4 h5 (by rw [h2]; exact hb3) (by omega)
          (hvu _ (by intro x hx; simp [hx]))
        refine ⟨t, g1, ?_⟩
        rw [hst] at hc
        replace hc : eventChoices cfg e chi (n + 1) q (u :: v :: w :: rest) =
          some v :: eventChoices cfg e chi n q' rest := hc
        rw [g2, hc, photonsAfter]
        rw [if_pos hE, map_pushes, List.map_append, List.map_append, List.append_assoc,
          show (eventChoices cfg e chi n q' rest).length = n from choices_length .., ← emitted_depth (w := w),
          pushes_withDepth, ← hw1]
        by_cases hrm : ph.length + 1 < s.list.maxParticles
        · rw [List.take_of_length_le (l := [_]) (by simp only [List.length_singleton]; omega)]
          rfl
        · rw [show s.list.maxParticles - (ph.length + 1) = 0 by omega, List.take_zero]
          have hl : ∀ g : Particle ℝ → Particle ℝ, s.list.maxParticles - 1 ≤ ((ph.map fun x =>
              pushes cfg x (n + 1)).map g).length := by
            intro g
            simp only [List.length_map]
            omega
          rw [List.take_append_of_le_length (hl _), List.take_append_of_le_length (hl _)]
      · have hst : isStored e chi q' v = false := decide_eq_false hE
        obtain ⟨s', h1, h2, h3, h4, h5⟩ := alone_step hp hs (new := []) (by simp)
          (fun l => (hint l).2 hE)
        obtain ⟨t, g1, g2⟩ := next s' _ (w :: rest) h1 h3 h4 h5 (by rw [h2]; exact hb2)
          (by simp only [List.length_cons]; omega) (hvu _ (by intro x hx; simp [List.mem_cons.mp hx]))
        refine ⟨t, g1, ?_⟩
        rw [hst] at hc
        replace hc : eventChoices cfg e chi (n + 1) q (u :: v :: w :: rest) =
          some v :: eventChoices cfg e chi n q' (w :: rest) := hc
        rw [g2, hc, photonsAfter]
        rw [if_neg hE, List.nil_append, List.take_nil, List.append_nil, map_pushes]

end event

end QED
