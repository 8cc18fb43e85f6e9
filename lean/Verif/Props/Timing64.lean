import Verif.Props.Event
import Verif.Props.Clock64

set_option linter.unusedSectionVars false
set_option autoImplicit false
set_option exponentiation.threshold 2000

/-!
# Property C165: in double precision, too, the histograms are filled when their time comes

The clock of an event is `clock dt j` after `j` steps, a rounded sum. Up to `2^26` steps, histograms that are two steps
apart are still filled at the first step at which that clock has reached their time, and this is the right one, the one
before or the one after it (C165_apart_partial). One step apart is not enough (C165_refuted): the rounded clock can pass two
times in one step.
-/

namespace QED

open Dbl F64 MCTools

/-- If a histogram's time is only reached after that of the one before it, each is filled at the first step at which the
clock has reached its time, or after the last step. -/
theorem filled_first {D : Type} [Dbl D] (cfg : SimCfg D) (l l' : PList D) (r r' : Rng D) (hists hists' : List (Hist D))
    (n : Nat) (h : Event cfg l r hists n l' r' hists')
    (hnext : ∀ k a b j, j ≤ n → hists[k]? = some a → hists[k + 1]? = some b →
      (∀ i < j, (a.time <=. clock cfg.dt i) = false) → ∀ i ≤ j, (b.time <=. clock cfg.dt i) = false)
    (k : Nat) (h0 : Hist D) (hk : hists[k]? = some h0) :
    ∃ m t h1, m ≤ n ∧ Steps cfg (.init l r hists) m t ∧ fillHist h0 t.list.items = .ok h1 ∧ hists'[k]? = some h1 ∧
      (∀ j < m, (h0.time <=. clock cfg.dt j) = false) ∧ (m < n → (h0.time <=. clock cfg.dt m) = true) := by
  have key : ∀ j s, Steps cfg (.init l r hists) j s → j ≤ n →
      (∀ k h0, k < s.histCount → hists[k]? = some h0 → ∃ m t h, m < j ∧
        Steps cfg (.init l r hists) m t ∧ fillHist h0 t.list.items = .ok h ∧ s.hists[k]? = some h ∧
        (∀ i < m, (h0.time <=. clock cfg.dt i) = false) ∧ (h0.time <=. clock cfg.dt m) = true) ∧
      (∀ h0, hists[s.histCount]? = some h0 → ∀ i < j, (h0.time <=. clock cfg.dt i) = false) := by
    intro j s hs
    induction hs with
    | zero =>
      exact fun _ => ⟨fun k _ hk => absurd hk (Nat.not_lt_zero k), fun _ _ i hi => absurd hi (Nat.not_lt_zero i)⟩
    | @succ j s s' hs hlt hstep ih =>
      intro hjn
      have inv := histInv_steps (s0 := .init l r hists) rfl hs
      have htime := (steps_clock hs).1
      unfold timeStep at hstep
      rw [Res.bind_eq_ok] at hstep
      obtain ⟨s1, h1, hstep⟩ := hstep
      rw [Res.bind_eq_ok] at hstep
      obtain ⟨⟨l1, r1⟩, _, hstep⟩ := hstep
      simp only [Res.ok.injEq] at hstep
      have e1 : s'.hists = s1.hists := by rw [← hstep]
      have e2 : s'.histCount = s1.histCount := by rw [← hstep]
      rw [e1, e2]
      obtain ⟨ih1, ih2⟩ := ih (by omega)
      have hrest := inv.rest s.histCount (le_refl _)
      change s.hists[s.histCount]? = hists[s.histCount]? at hrest
      have keep : ∀ (s1 : EvState D), s1 = s →
          (∀ h0, hists[s.histCount]? = some h0 → (h0.time <=. clock cfg.dt j) = false) →
          (∀ k h0, k < s1.histCount → hists[k]? = some h0 → ∃ m t h, m < j + 1 ∧
            Steps cfg (.init l r hists) m t ∧ fillHist h0 t.list.items = .ok h ∧ s1.hists[k]? = some h ∧
            (∀ i < m, (h0.time <=. clock cfg.dt i) = false) ∧ (h0.time <=. clock cfg.dt m) = true) ∧
          (∀ h0, hists[s1.histCount]? = some h0 → ∀ i < j + 1, (h0.time <=. clock cfg.dt i) = false) := by
        rintro s1 rfl hj
        refine ⟨fun k h0 hk hh => ?_, fun h0 hh i hi => ?_⟩
        · obtain ⟨m, t, h, hm, rest⟩ := ih1 k h0 hk hh
          exact ⟨m, t, h, by omega, rest⟩
        · rcases Nat.lt_succ_iff_lt_or_eq.mp hi with hi | rfl
          · exact ih2 h0 hh i hi
          · exact hj h0 hh
      unfold histStep at h1
      split at h1
      · next hnone =>
        simp only [Res.ok.injEq] at h1
        refine keep s1 h1.symm fun h0 hh => ?_
        rw [← hrest, hnone] at hh; cases hh
      · next h hh =>
        have hlt := (List.getElem?_eq_some_iff.mp hh).1
        split at h1
        · next hle =>
          rw [Res.bind_eq_ok] at h1
          obtain ⟨h', hfill, h1⟩ := h1
          simp only [Res.ok.injEq] at h1
          subst h1
          rw [htime] at hle
          rw [hrest] at hh
          refine ⟨fun k hk0 hk hkk => ?_, fun h2 hh2 i hi => ?_⟩
          · rcases Nat.lt_succ_iff_lt_or_eq.mp hk with hk | rfl
            · obtain ⟨m, t, h, hm, a, b, c, d⟩ := ih1 k hk0 hk hkk
              exact ⟨m, t, h, by omega, a, b, by
                show (s.hists.set s.histCount h')[k]? = _
                rw [List.getElem?_set_ne (by omega)]; exact c, d⟩
            · rw [hh] at hkk
              cases hkk
              exact ⟨j, s, h', by omega, hs, hfill, List.getElem?_set_self hlt, ih2 h hh, hle⟩
          · exact hnext _ h h2 j (by omega) hh hh2 (ih2 h hh) i (by omega)
        · next hle =>
          simp only [Res.ok.injEq] at h1
          refine keep s1 h1.symm fun h0 hh0 => ?_
          rw [← hrest, hh] at hh0
          cases hh0
          rw [← htime]; simpa using hle
  cases h with
  | @mk s _ hrun hrest =>
    obtain ⟨hs, _⟩ := run_ok_iff.mp hrun
    have inv := histInv_steps (s0 := .init l r hists) rfl hs
    obtain ⟨_, b, c⟩ := fillRest_spec hrest
    obtain ⟨k1, k2⟩ := key n s hs le_rfl
    by_cases hkc : k < s.histCount
    · obtain ⟨m, t, h1, hm, ht, hf, hk1, hlo, hhi⟩ := k1 k h0 hkc hk
      exact ⟨m, t, h1, by omega, ht, hf, by rw [b k hkc]; exact hk1, hlo, fun _ => hhi⟩
    · have hkc : s.histCount ≤ k := by omega
      obtain ⟨h1, hf, hk1⟩ := c k h0 hkc ((inv.rest k hkc).trans hk)
      refine ⟨n, s, h1, le_refl _, hs, hf, hk1, ?_, fun h => absurd h (lt_irrefl _)⟩
      have mono : ∀ d h', hists[s.histCount + d]? = some h' → ∀ i < n, (h'.time <=. clock cfg.dt i) = false := by
        intro d
        induction d with
        | zero => intro h' hh'; exact k2 h' hh'
        | succ d ih =>
          intro h' hh' i hi
          have hlt := (List.getElem?_eq_some_iff.mp hh').1
          have hprev : hists[s.histCount + d]? = some (hists[s.histCount + d]'(by omega)) := by
            rw [List.getElem?_eq_getElem]
          exact hnext _ _ _ n le_rfl hprev hh' (ih _ hprev) i hi.le
      exact mono (k - s.histCount) h0 (by rw [Nat.add_sub_cancel' hkc]; exact hk)

/-- C165, the part that holds: if the times `τ` of the histograms are non-negative and increase by two steps or more, and the
event has no more than about `2^26` steps, each histogram is filled from the list after the first `m` steps for which the
clock is not before its time, or after the last step if there is none. `m` is off by at most one step from the first multiple of the step that is not
before its time. Missing: times that are between one and two steps apart, see `C165_refuted`. -/
theorem C165_apart_partial (cfg : SimCfg F64) (d T : ℝ) (hd : cfg.dt.1 = .fin d) (hE : cfg.timeEnd.1 = .fin T)
    (lo : (1 / 2) ^ 1000 ≤ d) (hi : d ≤ 2 ^ 900) (hT : T ≤ (2 ^ 26 - 1) * d) (l l' : PList F64) (r r' : Rng F64)
    (hists hists' : List (Hist F64)) (n : Nat) (h : Event cfg l r hists n l' r' hists') (τ : Nat → ℝ)
    (hτ : ∀ (k : Nat) (h0 : Hist F64), hists[k]? = some h0 → h0.time.1 = .fin (τ k)) (hfirst : 0 ≤ τ 0)
    (hapart : ∀ k, k + 1 < hists.length → τ k + 2 * d ≤ τ (k + 1)) (k : Nat) (h0 : Hist F64) (hk : hists[k]? = some h0) :
    ∃ m t h1, m ≤ n ∧ Steps cfg (.init l r hists) m t ∧ fillHist h0 t.list.items = .ok h1 ∧ hists'[k]? = some h1 ∧
      (∀ j u, j < m → Steps cfg (.init l r hists) j u → (h0.time <=. u.time) = false) ∧
      (m < n → (h0.time <=. t.time) = true) ∧
      (∀ j < m, j * d < τ k + d / 2) ∧ (m < n → τ k ≤ m * d + d / 2) := by
  have d0 : 0 < d := lt_of_lt_of_le (by positivity) lo
  have hn : n ≤ 2 ^ 26 := by
    cases h with
    | @mk s _ hrun _ =>
      have := (C96_near_partial cfg d T hd hE lo hi hT l r hists n s hrun).1
      have hN : ⌈T / d⌉₊ ≤ 2 ^ 26 - 1 := by
        rw [Nat.ceil_le, div_le_iff₀ d0]
        norm_num at hT ⊢
        exact hT
      omega
  have near : ∀ j : Nat, j ≤ n → ∃ t, (clock cfg.dt j).1 = .fin t ∧ |t - j * d| ≤ d / 2 := by
    intro j hj
    obtain ⟨t, e, he⟩ := clock_off hd lo hi j (by omega)
    refine ⟨t, e, he.trans ?_⟩
    have hj' : (j : ℝ) ≤ 2 ^ 26 := by exact_mod_cast hj.trans hn
    have : (j : ℝ) ^ 2 ≤ (2 ^ 26) ^ 2 := pow_le_pow_left₀ (Nat.cast_nonneg j) hj' 2
    rw [← pow_mul] at this
    calc _ ≤ 2 ^ (26 * 2) * (d / 2 ^ 53) := mul_le_mul_of_nonneg_right this (by positivity)
      _ = d / 2 := by ring
  have cmp : ∀ {a : Hist F64} {x t : ℝ} {j : Nat}, a.time.1 = .fin x → (clock cfg.dt j).1 = .fin t →
      (a.time <=. clock cfg.dt j) = decide (x ≤ t) := by
    intro a x t j hx ht
    show (a.time.1 <=. (clock cfg.dt j).1) = _
    rw [hx, ht, XR.le_fin]
  have pos : ∀ k, k < hists.length → 0 ≤ τ k := by
    intro k
    induction k with
    | zero => exact fun _ => hfirst
    | succ k ih =>
      intro hk
      have := ih (by omega)
      have := hapart k hk
      linarith
  obtain ⟨m, t, h1, hm, hs, hf, hk1, hlo, hhi⟩ := filled_first cfg l l' r r' hists hists' n h (by
    intro k a b j hj ha hb hlate i hi
    have hlt := (List.getElem?_eq_some_iff.mp hb).1
    have hap := hapart k hlt
    have ta := hτ k a ha
    have tb := hτ _ b hb
    obtain ⟨c, hc, hcd⟩ := near i (by omega)
    rw [cmp tb hc, decide_eq_false_iff_not, not_le]
    rcases hi.lt_or_eq with hij | rfl
    · have := hlate i hij
      rw [cmp ta hc, decide_eq_false_iff_not, not_le] at this
      linarith
    · rcases Nat.eq_zero_or_pos i with rfl | hpos
      · have h0 : c = 0 := by
          have : (clock cfg.dt 0).1 = .fin (0 : ℝ) := zero_val
          rw [hc] at this
          exact XR.fin.inj this
        have := pos k (by omega)
        linarith
      · obtain ⟨c', hc', hcd'⟩ := near (i - 1) (by omega)
        have := hlate (i - 1) (by omega)
        rw [cmp ta hc', decide_eq_false_iff_not, not_le] at this
        rw [Nat.cast_sub hpos, Nat.cast_one] at hcd'
        have a1 := (abs_le.1 hcd).2
        have a2 := (abs_le.1 hcd').1
        linarith) k h0 hk
  have t0 := hτ k h0 hk
  refine ⟨m, t, h1, hm, hs, hf, hk1, fun j u hj hu => ?_, fun hmn => ?_, fun j hj => ?_, fun hmn => ?_⟩
  · rw [(steps_clock hu).1]
    exact hlo j hj
  · rw [(steps_clock hs).1]
    exact hhi hmn
  · obtain ⟨c, hc, hcd⟩ := near j (by omega)
    have := hlo j hj
    rw [cmp t0 hc, decide_eq_false_iff_not, not_le] at this
    have := (abs_le.1 hcd).1
    linarith
  · obtain ⟨c, hc, hcd⟩ := near m hm
    have := hhi hmn
    rw [cmp t0 hc, decide_eq_true_eq] at this
    have := (abs_le.1 hcd).2
    linarith

theorem histStep_late {s : EvState F64} {h : Hist F64} (hh : s.hists[s.histCount]? = some h)
    (hl : (h.time <=. s.time) = false) : histStep s = .ok s := by
  unfold histStep
  rw [hh]
  exact if_neg (by simp [hl])

theorem timeStep_fills {cfg : SimCfg F64} {s s' : EvState F64} (h : timeStep cfg s = .ok s') :
    ∃ s1, histStep s = .ok s1 ∧ s'.hists = s1.hists ∧ s'.histCount = s1.histCount := by
  unfold timeStep at h
  rw [Res.bind_eq_ok] at h
  obtain ⟨s1, h1, h⟩ := h
  rw [Res.bind_eq_ok] at h
  obtain ⟨⟨l1, r1⟩, _, h⟩ := h
  simp only [Res.ok.injEq] at h
  exact ⟨s1, h1, by rw [← h], by rw [← h]⟩

/-- C165 is false for histograms that are one step apart: with a step of 0.1 and two histograms, the first just after the
second step and the second one step later, which is the time of the third step, the second one is filled at the fourth
step in every event of five steps or more. -/
theorem C165_refuted (cfg : SimCfg F64) (hd : cfg.dt = lit (1 / 10)) (a b : Hist F64) (τ τ' : ℝ)
    (hτ : τ = 7205759403792795 * 2 ^ (-55 : ℤ)) (hτ' : τ' = 5404319552844596 * 2 ^ (-54 : ℤ))
    (ha : a.time.1 = .fin τ) (hb : b.time.1 = .fin τ') (l l' : PList F64) (r r' : Rng F64) (hists' : List (Hist F64))
    (n : Nat) (hn : 5 ≤ n) (h : Event cfg l r [a, b] n l' r' hists') :
    (∃ d, cfg.dt.1 = .fin d ∧ 0 < τ ∧ τ + d ≤ τ') ∧
    ∃ s t h1, Steps cfg (.init l r [a, b]) 3 s ∧ (b.time <=. s.time) = true ∧ Steps cfg (.init l r [a, b]) 4 t ∧
      fillHist b t.list.items = .ok h1 ∧ hists'[1]? = some h1 := by
  have cmp : ∀ {h : Hist F64} {x t : ℝ} {j : Nat}, h.time.1 = .fin x → (clock cfg.dt j).1 = .fin t →
      (h.time <=. clock cfg.dt j) = decide (x ≤ t) := by
    intro h x t j hx ht
    show (h.time.1 <=. (clock cfg.dt j).1) = _
    rw [hx, ht, XR.le_fin]
  have c0 : (clock cfg.dt 0).1 = .fin (0 : ℝ) := zero_val
  have c1 := congrArg Subtype.val tenth_1
  have c2 := congrArg Subtype.val tenth_2
  have c3 := congrArg Subtype.val tenth_3
  have c4 := congrArg Subtype.val tenth_4
  rw [← hd] at c1 c2 c3 c4
  have l0 : (a.time <=. clock cfg.dt 0) = false := by
    rw [cmp ha c0, decide_eq_false_iff_not, hτ]; norm_num
  have l1 : (a.time <=. clock cfg.dt 1) = false := by
    rw [cmp ha c1, decide_eq_false_iff_not, hτ]; norm_num
  have l2 : (a.time <=. clock cfg.dt 2) = false := by
    rw [cmp ha c2, decide_eq_false_iff_not, hτ]; norm_num
  have l3 : (a.time <=. clock cfg.dt 3) = true := by
    rw [cmp ha c3, decide_eq_true_eq, hτ]; norm_num
  have k3 : (b.time <=. clock cfg.dt 3) = true := by
    rw [cmp hb c3, decide_eq_true_eq, hτ']; norm_num
  have k4 : (b.time <=. clock cfg.dt 4) = true := by
    rw [cmp hb c4, decide_eq_true_eq, hτ']; norm_num
  refine ⟨⟨_, by rw [hd]; exact congrArg Subtype.val lit_tenth, by rw [hτ]; norm_num, by rw [hτ, hτ']; norm_num⟩, ?_⟩
  have key : ∀ m t, Steps cfg (.init l r [a, b]) m t →
      (m ≤ 3 → t.histCount = 0 ∧ t.hists = [a, b]) ∧ (m = 4 → t.histCount = 1 ∧ ∃ x, t.hists = [x, b]) ∧
      (5 ≤ m → t.histCount = 2 ∧ ∃ x h1 u, Steps cfg (.init l r [a, b]) 4 u ∧ fillHist b u.list.items = .ok h1 ∧
        t.hists = [x, h1]) := by
    intro m t ht
    induction ht with
    | zero => exact ⟨fun _ => ⟨rfl, rfl⟩, fun h => by omega, fun h => by omega⟩
    | @succ m t t' hs _ hstep ih =>
      obtain ⟨i1, i2, i3⟩ := ih
      obtain ⟨s1, e1, e2, e3⟩ := timeStep_fills hstep
      have tm := (steps_clock hs).1
      rw [e2, e3]
      rcases Nat.lt_trichotomy m 3 with hm | rfl | hm
      · obtain ⟨j1, j2⟩ := i1 (by omega)
        have hl : (a.time <=. t.time) = false := by
          rw [tm]
          interval_cases m
          · exact l0
          · exact l1
          · exact l2
        rw [histStep_late (h := a) (by rw [j1, j2]; rfl) hl] at e1
        obtain rfl := Res.ok.inj e1
        exact ⟨fun _ => ⟨j1, j2⟩, fun h => by omega, fun h => by omega⟩
      · obtain ⟨j1, j2⟩ := i1 le_rfl
        unfold histStep at e1
        rw [j1, j2] at e1
        dsimp only [List.getElem?_cons_zero] at e1
        rw [if_pos (by rw [tm]; exact l3), Res.bind_eq_ok] at e1
        obtain ⟨x, _, e1⟩ := e1
        obtain rfl := Res.ok.inj e1
        exact ⟨fun h => by omega, fun _ => ⟨rfl, x, rfl⟩, fun h => by omega⟩
      · refine ⟨fun h => by omega, fun h => by omega, fun _ => ?_⟩
        rcases Nat.eq_or_lt_of_le hm with hm | hm
        · obtain ⟨j1, x, j2⟩ := i2 hm.symm
          unfold histStep at e1
          rw [j1, j2] at e1
          dsimp only [List.getElem?_cons_succ, List.getElem?_cons_zero] at e1
          rw [if_pos (by rw [tm, ← hm]; exact k4), Res.bind_eq_ok] at e1
          obtain ⟨h1, hf, e1⟩ := e1
          obtain rfl := Res.ok.inj e1
          exact ⟨rfl, x, h1, t, (show m = 4 from hm.symm) ▸ hs, hf, rfl⟩
        · obtain ⟨j1, x, h1, u, hu, hf, j2⟩ := i3 hm
          unfold histStep at e1
          rw [j1, j2] at e1
          obtain rfl := Res.ok.inj e1
          exact ⟨j1, x, h1, u, hu, hf, j2⟩
  cases h with
  | @mk s _ hrun hrest =>
    obtain ⟨hs, _⟩ := run_ok_iff.mp hrun
    obtain ⟨j1, x, h1, u, hu, hf, j2⟩ := (key n s hs).2.2 hn
    obtain ⟨_, e, _⟩ := fillRest_spec hrest
    have e := e 1 (by omega)
    rw [j2] at e
    have pre : ∃ w, Steps cfg (.init l r [a, b]) 3 w := by
      cases hu with
      | succ h0 _ _ => exact ⟨_, h0⟩
    obtain ⟨w, hw⟩ := pre
    exact ⟨w, u, h1, hw, by rw [(steps_clock hw).1]; exact k3, hu, hf, e⟩

open RoundingWitness in
/-- An event without particles, a step of 0.1 and an end time of 1, with any two histograms. -/
theorem event_of_two (a b : Hist F64) : ∃ (l' : PList F64) (r' : Rng F64) (hists' : List (Hist F64)),
    Event (cfg (lit (1 / 10)) (lit 1)) (PList.new "0" 5) ⟨fun _ => lit 0, 0⟩ [a, b] 11 l' r' hists' := by
  have hone : F64.Rep ((1 : ℚ) : ℝ) := by simpa using rep_one
  obtain ⟨n, o, hr, -⟩ := C96_ends_partial (cfg (lit (1 / 10)) (lit 1)) _ _
    (rep_normal (m := 7205759403792794) (e := -56) (by norm_num) (by norm_num) (by norm_num)) hone
    (by norm_num) lit_tenth (F64.lit_rep hone) (by norm_num) (PList.new "0" 5) ⟨fun _ => lit 0, 0⟩ [a, b]
  have ends : ∀ {s : EvState F64} {n : Nat} {o : Res (EvState F64)}, Run (cfg (lit (1 / 10)) (lit 1)) s n o →
      s.list = PList.new "0" 5 → ∃ s', o = .ok s' ∧ s'.list = PList.new "0" 5 := by
    have step : ∀ s : EvState F64, s.list = PList.new "0" 5 →
        ∃ s', timeStep (cfg (lit (1 / 10)) (lit 1)) s = .ok s' ∧ s'.list = PList.new "0" 5 := by
      intro s h1
      have hh : ∃ s1, histStep s = .ok s1 ∧ s1.list = s.list := by
        unfold histStep
        split
        · exact ⟨s, rfl, rfl⟩
        · split
          · rw [h1]
            exact ⟨_, rfl, h1.symm ▸ rfl⟩
          · exact ⟨s, rfl, rfl⟩
      obtain ⟨s1, e1, e2⟩ := hh
      unfold timeStep
      rw [e1, Res.ok_bind, e2, h1]
      exact ⟨_, rfl, rfl⟩
    intro s n o h
    induction h with
    | @done s _ => exact fun h => ⟨s, rfl, h⟩
    | @step s s' n o _ hs _ ih =>
      intro h1
      obtain ⟨t, e, ht⟩ := step s h1
      rw [e] at hs
      obtain rfl := Res.ok.inj hs
      exact ih ht
    | @abort s o _ hs hn =>
      intro h1
      obtain ⟨t, e, ht⟩ := step s h1
      rw [e] at hs
      exact absurd hs.symm (hn t)
  obtain ⟨s, rfl, hs⟩ := ends hr rfl
  have rest : ∀ (c : Nat) (hs : List (Hist F64)), fillRest (PList.new "0" 5) c hs = .ok hs := by
    intro c hs
    induction hs generalizing c with
    | nil => cases c <;> rfl
    | cons h hs ih =>
      cases c with
      | zero => unfold fillRest; rw [ih]; rfl
      | succ c => unfold fillRest; rw [ih]; rfl
  obtain ⟨rfl, -⟩ := C96_extra_step_refuted _ rfl rfl _ _ _ n s hr
  exact ⟨_, _, s.hists, .mk hr (by rw [hs]; exact rest _ _)⟩

open RoundingWitness in
/-- The hypotheses of C165_apart_partial are met, e.g. by a step of 0.1, an end time of 1 and histograms at 0 and 0.5. -/
example (a b : Hist F64) (ha : a.time = lit 0) (hb : b.time = lit (1 / 2)) : ∃ (τ : Nat → ℝ) (d T : ℝ)
    (l' : PList F64) (r' : Rng F64) (hists' : List (Hist F64)),
    (1 / 2) ^ 1000 ≤ d ∧ d ≤ 2 ^ 900 ∧ T ≤ (2 ^ 26 - 1) * d ∧
    (cfg (lit (1 / 10)) (lit 1)).dt.1 = .fin d ∧ (cfg (lit (1 / 10)) (lit 1)).timeEnd.1 = .fin T ∧
    (∀ (k : Nat) (h0 : Hist F64), [a, b][k]? = some h0 → h0.time.1 = .fin (τ k)) ∧ 0 ≤ τ 0 ∧
    (∀ k, k + 1 < [a, b].length → τ k + 2 * d ≤ τ (k + 1)) ∧
    Event (cfg (lit (1 / 10)) (lit 1)) (PList.new "0" 5) ⟨fun _ => lit 0, 0⟩ [a, b] 11 l' r' hists' := by
  have hone : F64.Rep ((1 : ℚ) : ℝ) := by simpa using rep_one
  have hhalf : F64.Rep ((1 / 2 : ℚ) : ℝ) := by
    have := rep_normal (m := 1) (e := -1) (by norm_num) (by norm_num) (by norm_num)
    norm_num at this ⊢
    exact this
  obtain ⟨l', r', hists', h⟩ := event_of_two a b
  refine ⟨fun k => if k = 0 then 0 else 1 / 2, _, _, l', r', hists', ?_, ?_, ?_, congrArg Subtype.val lit_tenth,
    congrArg Subtype.val (F64.lit_rep hone), ?_, ?_, ?_, h⟩
  · refine (pow_le_pow_of_le_one (by norm_num) (by norm_num) (show 4 ≤ 1000 by norm_num)).trans (by norm_num)
  · exact le_trans (by norm_num) (one_le_pow₀ (by norm_num))
  · norm_num
  · intro k h0 hk
    match k with
    | 0 =>
      obtain rfl := Option.some.inj hk
      rw [ha]
      exact zero_val
    | 1 =>
      obtain rfl := Option.some.inj hk
      rw [hb, F64.lit_rep hhalf]
      show XR.fin _ = XR.fin _
      norm_num
  · norm_num
  · intro k hk
    have : k = 0 := by simp at hk; omega
    subst this
    norm_num

open RoundingWitness in
/-- The hypotheses of C165_refuted are met by the same event and such histograms. -/
example : ∃ (a b : Hist F64) (l' : PList F64) (r' : Rng F64) (hists' : List (Hist F64)),
    a.time.1 = .fin (7205759403792795 * 2 ^ (-55 : ℤ)) ∧ b.time.1 = .fin (5404319552844596 * 2 ^ (-54 : ℤ)) ∧
    Event (cfg (lit (1 / 10)) (lit 1)) (PList.new "0" 5) ⟨fun _ => lit 0, 0⟩ [a, b] 11 l' r' hists' := by
  have r1 := rep_normal (m := 7205759403792795) (e := -55) (by norm_num) (by norm_num) (by norm_num)
  have r2 := rep_normal (m := 5404319552844596) (e := -54) (by norm_num) (by norm_num) (by norm_num)
  obtain ⟨l', r', hists', h⟩ := event_of_two (Hist.new "a" "Photon" "Energy" (F64.fin _ r1) (lit 0) (lit 1) 2 0)
    (Hist.new "b" "Photon" "Energy" (F64.fin _ r2) (lit 0) (lit 1) 2 0)
  refine ⟨_, _, l', r', hists', ?_, ?_, h⟩
  · show XR.fin _ = XR.fin _
    push_cast
    rfl
  · show XR.fin _ = XR.fin _
    push_cast
    rfl

end QED
