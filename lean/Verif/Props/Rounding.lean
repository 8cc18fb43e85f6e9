import Verif.Lemmas.F64Hist
import Verif.Props.Mpi
import Verif.Props.Event
import Verif.Props.Program

set_option autoImplicit false

/-!
# Double precision (C96, C97)

`F64` are the IEEE doubles (`Base/F64.lean`); `F64.fin x h` is the finite double of value `x`, `h` being
the fact that there is one.
-/

namespace QED

open Dbl MCTools Main

/-! ## C96 The time loop in double precision -/

/-- C96, the part that holds exactly: if the step is `m * 2 ^ e` and the time at the end needs no more
than 53 bits in units of `2 ^ e`, then an event that runs to its end makes `⌈T / dt⌉` steps and the
clock is exact. Missing: steps whose multiples have to be rounded. -/
theorem C96_exact_partial (cfg : SimCfg F64) (m : ℕ) (e : ℤ) (he : -1074 ≤ e) (T : ℝ)
    (hm : 0 < m) (hdt : F64.Rep (m * 2 ^ e)) (hT : F64.Rep T) (h1 : cfg.dt = F64.fin _ hdt)
    (h2 : cfg.timeEnd = F64.fin T hT) (hbits : ⌈T / (m * 2 ^ e)⌉₊ * m ≤ 2 ^ 53)
    (hsize : (⌈T / (m * 2 ^ e)⌉₊ * m : ℝ) * 2 ^ e < 2 ^ 1024) (l : PList F64) (r : Rng F64)
    (hists : List (Hist F64)) (n : Nat) (s : EvState F64)
    (h : Run cfg (.init l r hists) n (.ok s)) :
    n = ⌈T / (m * 2 ^ e)⌉₊ ∧ ∃ hr, s.time = F64.fin (n * (m * 2 ^ e)) hr := by
  have hp := F64.two_zpow_pos e
  have hpos : (0 : ℝ) < m * 2 ^ e := by have : (0 : ℝ) < m := by exact_mod_cast hm
                                        positivity
  have hrep : ∀ k ≤ ⌈T / (m * 2 ^ e)⌉₊, F64.Rep (k * (m * 2 ^ e)) := by
    intro k hk
    have hle : k * m ≤ ⌈T / (m * 2 ^ e)⌉₊ * m := Nat.mul_le_mul_right m hk
    refine ⟨?_, ?_⟩
    · have := F64.form_mul (n := ((k * m : ℕ) : ℤ)) (e := e)
        (by rw [abs_of_nonneg (by positivity)]; exact_mod_cast hle.trans hbits) he
      push_cast at this
      rw [← mul_assoc]
      exact this
    · rw [abs_of_nonneg (by positivity), ← mul_assoc]
      have : ((k * m : ℕ) : ℝ) ≤ ((⌈T / (m * 2 ^ e)⌉₊ * m : ℕ) : ℝ) := by exact_mod_cast hle
      push_cast at this
      exact (mul_le_mul_of_nonneg_right this hp.le).trans_lt hsize
  have hclock : ∀ k (hk : k ≤ ⌈T / (m * 2 ^ e)⌉₊),
      clock cfg.dt k = F64.fin (k * (m * 2 ^ e)) (hrep k hk) := by
    intro k
    induction k with
    | zero =>
      intro hk
      have h0 : F64.Rep ((0 : ℚ) : ℝ) := by simpa using hrep 0 hk
      rw [clock, F64.lit_rep h0]
      apply Subtype.ext
      simp [F64.fin]
    | succ k ih =>
      intro hk
      rw [clock, ih (by omega), h1]
      refine F64.add_round _ _ _ ?_
      have : ((k : ℝ) * (m * 2 ^ e) + m * 2 ^ e) = ((k + 1 : ℕ) : ℝ) * (m * 2 ^ e) := by
        push_cast; ring
      rw [this]
      exact F64.round_form_eq (hrep (k + 1) hk).1
  obtain ⟨hs, hend⟩ := run_ok_iff.mp h
  obtain ⟨ht, hj⟩ := steps_clock hs
  have hn : n = ⌈T / (m * 2 ^ e)⌉₊ := by
    apply le_antisymm
    · by_contra hlt
      have hlt := hj _ (not_le.mp hlt)
      rw [hclock _ le_rfl, h2, F64.lt_fin, decide_eq_true_eq, ← lt_div_iff₀ hpos] at hlt
      exact absurd (Nat.le_ceil (T / (m * 2 ^ e))) (not_le.mpr hlt)
    · by_contra hlt
      have hle : n ≤ ⌈T / (m * 2 ^ e)⌉₊ := by omega
      rw [ht, hclock n hle, h2, F64.lt_fin, decide_eq_false_iff_not, not_lt,
        ← div_le_iff₀ hpos] at hend
      exact hlt (Nat.ceil_le.mpr hend)
  exact ⟨hn, hrep n hn.le, ht.trans (hclock n hn.le)⟩

/-- C96, the part that holds of ending: if the end time is at most `2 ^ 51` steps, every event comes
to an end in double precision, after at most `2 T / dt` steps, rounded up. -/
theorem C96_ends_partial (cfg : SimCfg F64) (dt T : ℝ) (hd : F64.Rep dt) (hT : F64.Rep T)
    (hpos : 0 < dt) (h1 : cfg.dt = F64.fin dt hd) (h2 : cfg.timeEnd = F64.fin T hT)
    (hratio : T ≤ 2 ^ 51 * dt) (l : PList F64) (r : Rng F64) (hists : List (Hist F64)) :
    ∃ n o, Run cfg (.init l r hists) n o ∧ n ≤ ⌈2 * T / dt⌉₊ := by
  have stop : ∀ s : EvState F64, (∀ x, s.time.1 = .fin x → T ≤ x) → s.time.1 ≠ .ninf →
      (s.time <. cfg.timeEnd) = false := by
    intro s hs hn
    rw [h2]
    show XR.lt s.time.1 (.fin T) = false
    cases hv : s.time.1 with
    | fin x =>
      have : (XR.fin x <. XR.fin T) = false := by simpa using hs x hv
      exact this
    | ninf => exact absurd hv hn
    | pinf => rfl
    | nan => rfl
  have key : ∀ (m : Nat) (s : EvState F64), s.time.1 ≠ .ninf →
      (∀ x, s.time.1 = .fin x → 0 ≤ x ∧ T ≤ x + m * (dt / 2)) → ∃ n o, Run cfg s n o ∧ n ≤ m := by
    intro m
    induction m with
    | zero =>
      intro s hn hs
      refine ⟨0, _, .done (stop s (fun x hx => ?_) hn), le_rfl⟩
      simpa using (hs x hx).2
    | succ m ih =>
      intro s hn hs
      by_cases ht : (s.time <. cfg.timeEnd) = true
      · cases h : timeStep cfg s with
        | ok s' =>
          have htime := (timeStep_advance h).2
          have hfin : ∃ x, s.time.1 = .fin x ∧ x < T := by
            rw [h2] at ht
            have ht : XR.lt s.time.1 (.fin T) = true := ht
            cases hv : s.time.1 with
            | fin x =>
              rw [hv] at ht
              exact ⟨x, rfl, by simpa [XR.lt] using ht⟩
            | ninf => exact absurd hv hn
            | pinf => rw [hv] at ht; cases ht
            | nan => rw [hv] at ht; cases ht
          obtain ⟨x, hx, hxT⟩ := hfin
          obtain ⟨hx0, hxm⟩ := hs x hx
          have hval : s'.time.1 = F64.rnd (.fin (x + dt)) := by
            rw [htime, F64.add_val, hx, h1]
            rfl
          have hprog := F64.round_progress hx0 hd hpos (by nlinarith)
          have hround : s'.time.1 = .fin (F64.round (x + dt)) ∨ s'.time.1 = .pinf := by
            rw [hval]
            simp only [F64.rnd]
            split
            · exact Or.inl rfl
            · right
              unfold XR.infSign
              rw [if_pos (by linarith)]
          obtain ⟨n, o, hn', hle⟩ := ih s' (by rcases hround with h | h <;> rw [h] <;> simp)
            (fun y hy => by
              rcases hround with h | h
              · rw [h] at hy
                obtain rfl : F64.round (x + dt) = y := by simpa using hy
                refine ⟨by linarith, ?_⟩
                push_cast at hxm
                linarith
              · rw [h] at hy; cases hy)
          exact ⟨n + 1, o, .step ht h hn', by omega⟩
        | exit c => exact ⟨1, _, .abort ht h (fun _ hc => by cases hc), by omega⟩
        | throw c => exact ⟨1, _, .abort ht h (fun _ hc => by cases hc), by omega⟩
        | ub c => exact ⟨1, _, .abort ht h (fun _ hc => by cases hc), by omega⟩
      · exact ⟨0, _, .done (by simpa using ht), by omega⟩
  have h0 : F64.Rep ((0 : ℚ) : ℝ) := by
    have := F64.rep_nat (n := 0) (by norm_num)
    simpa using this
  have hzero : (EvState.init l r hists).time.1 = .fin 0 := by
    show (Dbl.lit 0 : F64).1 = _
    rw [F64.lit_rep h0]
    simp [F64.fin]
  refine key _ _ (by rw [hzero]; simp) fun x hx => ?_
  rw [hzero] at hx
  obtain rfl : 0 = x := by simpa using hx
  refine ⟨le_rfl, ?_⟩
  have := Nat.le_ceil (2 * T / dt)
  rw [div_le_iff₀ hpos] at this
  linarith

/-- One and `2 ^ 54` are doubles. -/
theorem rep_one : F64.Rep 1 := by simpa using F64.rep_nat (n := 1) (by norm_num)

theorem rep_two_pow {k : ℕ} (h : k < 1024) : F64.Rep (2 ^ k) := by
  refine ⟨⟨1, k, by norm_num, by omega, by simp⟩, ?_⟩
  rw [abs_of_nonneg (by positivity)]
  exact pow_lt_pow_right₀ (by norm_num) h

/-- C96 is false of ending: with a step of 1 and an end time of `2 ^ 54` no event ever runs to its
end in double precision, because the clock stops at `2 ^ 53`. -/
theorem C96_stuck_refuted (cfg : SimCfg F64) (h1 : cfg.dt = F64.fin 1 rep_one)
    (h2 : cfg.timeEnd = F64.fin (2 ^ 54) (rep_two_pow (by norm_num))) (l : PList F64) (r : Rng F64)
    (hists : List (Hist F64)) (n : Nat) (s : EvState F64) :
    ¬ Run cfg (.init l r hists) n (.ok s) := by
  intro h
  obtain ⟨hs, hend⟩ := run_ok_iff.mp h
  obtain ⟨ht, -⟩ := steps_clock hs
  have hclock : ∀ k, clock cfg.dt k =
      F64.fin ((min k (2 ^ 53) : ℕ) : ℝ) (F64.rep_nat (min_le_right _ _)) := by
    intro k
    induction k with
    | zero =>
      have h0 : F64.Rep ((0 : ℚ) : ℝ) := by simpa using F64.rep_nat (n := 0) (by norm_num)
      rw [clock, F64.lit_rep h0]
      apply Subtype.ext
      simp [F64.fin]
    | succ k ih =>
      rw [clock, ih, h1]
      refine F64.add_round _ _ _ ?_
      by_cases hk : k < 2 ^ 53
      · rw [min_eq_left (by omega), min_eq_left (by omega)]
        have := F64.round_form_eq (F64.rep_nat (n := k + 1) (by omega)).1
        push_cast at this ⊢
        exact this
      · rw [min_eq_right (by omega), min_eq_right (by omega)]
        have := F64.round_normal (x := (2 ^ 53 : ℕ) + 1) (m := 2 ^ 52) (e := 1) (by norm_num)
          (by norm_num) (by norm_num) (Or.inr ⟨by norm_num, ⟨2 ^ 51, by norm_num⟩⟩)
        rw [this]
        norm_num
  rw [ht, hclock, h2, F64.lt_fin, decide_eq_false_iff_not, not_lt] at hend
  have hle : ((min n (2 ^ 53) : ℕ) : ℝ) ≤ ((2 ^ 53 : ℕ) : ℝ) := by exact_mod_cast min_le_right _ _
  push_cast at hle hend
  norm_num at hle hend

/-- A normal double. -/
theorem rep_normal {m e : ℤ} (hm : |m| < 2 ^ 53) (he : -1074 ≤ e) (he' : e ≤ 0) :
    F64.Rep (m * 2 ^ e) := by
  refine ⟨⟨m, e, hm, he, rfl⟩, ?_⟩
  have h1 : |(m : ℝ)| < 2 ^ 53 := by exact_mod_cast hm
  have h2 : (2 : ℝ) ^ e ≤ 1 := zpow_le_one_of_nonpos₀ (by norm_num) he'
  rw [abs_mul, abs_of_pos (F64.two_zpow_pos e)]
  calc |(m : ℝ)| * 2 ^ e ≤ |(m : ℝ)| * 1 := mul_le_mul_of_nonneg_left h2 (abs_nonneg _)
    _ < 2 ^ 53 := by linarith
    _ < 2 ^ 1024 := pow_lt_pow_right₀ (by norm_num) (by norm_num)

/-- The double nearest to 0.1. -/
theorem lit_tenth : (Dbl.lit (1 / 10) : F64) = F64.fin ((7205759403792794 : ℤ) * 2 ^ (-56 : ℤ))
    (rep_normal (by norm_num) (by norm_num) (by norm_num)) := by
  apply Subtype.ext
  show F64.rnd (.fin (((1 / 10 : ℚ) : ℝ))) = .fin _
  have h := F64.round_normal (x := ((1 / 10 : ℚ) : ℝ)) (m := 7205759403792794) (e := -56) (by norm_num)
    (by norm_num) (by norm_num) (Or.inl (by norm_num [abs_lt]))
  simp only [F64.rnd]
  rw [h, if_pos]
  exact (rep_normal (by norm_num) (by norm_num) (by norm_num)).2

/-- One step of this clock. -/
theorem tenth_step {m e m' e' : ℤ} (hm : |m| < 2 ^ 53) (he : -1074 ≤ e) (h0 : e ≤ 0)
    (hm' : |m'| < 2 ^ 53) (he' : -1074 ≤ e') (h0' : e' ≤ 0)
    (lo : (2 : ℝ) ^ 52 * 2 ^ e' ≤ m * 2 ^ e + 7205759403792794 * 2 ^ (-56 : ℤ))
    (hi : m * 2 ^ e + 7205759403792794 * 2 ^ (-56 : ℤ) < (2 : ℝ) ^ 53 * 2 ^ e')
    (h : |(m' : ℝ) - (m * 2 ^ e + 7205759403792794 * 2 ^ (-56 : ℤ)) / 2 ^ e'| < 1 / 2 ∨
      (|(m' : ℝ) - (m * 2 ^ e + 7205759403792794 * 2 ^ (-56 : ℤ)) / 2 ^ e'| = 1 / 2 ∧ Even m')) :
    F64.fin (m * 2 ^ e) (rep_normal hm he h0) +. Dbl.lit (1 / 10) =
      F64.fin (m' * 2 ^ e') (rep_normal hm' he' h0') := by
  rw [lit_tenth]
  refine F64.add_round _ _ _ ?_
  push_cast
  exact F64.round_normal he' lo hi h

theorem tenth_1 : clock (Dbl.lit (1 / 10) : F64) 1 = F64.fin ((7205759403792794 : ℤ) * 2 ^ (-56 : ℤ))
    (rep_normal (by norm_num) (by norm_num) (by norm_num)) := by
  have h0 : F64.Rep ((0 : ℚ) : ℝ) := by simpa using F64.rep_nat (n := 0) (by norm_num)
  rw [clock, clock, F64.lit_rep h0, lit_tenth]
  refine F64.add_round _ _ _ ?_
  rw [Rat.cast_zero, zero_add]
  exact F64.round_form_eq (rep_normal (by norm_num) (by norm_num) (by norm_num)).1

theorem tenth_2 : clock (Dbl.lit (1 / 10) : F64) 2 = F64.fin ((7205759403792794 : ℤ) * 2 ^ (-55 : ℤ))
    (rep_normal (by norm_num) (by norm_num) (by norm_num)) := by
  rw [clock, tenth_1]
  exact tenth_step (by norm_num) (by norm_num) (by norm_num) (by norm_num) (by norm_num)
    (by norm_num) (by norm_num) (by norm_num) (Or.inl (by norm_num [abs_lt]))

theorem tenth_3 : clock (Dbl.lit (1 / 10) : F64) 3 = F64.fin ((5404319552844596 : ℤ) * 2 ^ (-54 : ℤ))
    (rep_normal (by norm_num) (by norm_num) (by norm_num)) := by
  rw [clock, tenth_2]
  exact tenth_step (by norm_num) (by norm_num) (by norm_num) (by norm_num) (by norm_num)
    (by norm_num) (by norm_num) (by norm_num) (Or.inr ⟨by norm_num [abs_of_pos, abs_of_neg], by decide⟩)

theorem tenth_4 : clock (Dbl.lit (1 / 10) : F64) 4 = F64.fin ((7205759403792794 : ℤ) * 2 ^ (-54 : ℤ))
    (rep_normal (by norm_num) (by norm_num) (by norm_num)) := by
  rw [clock, tenth_3]
  exact tenth_step (by norm_num) (by norm_num) (by norm_num) (by norm_num) (by norm_num)
    (by norm_num) (by norm_num) (by norm_num) (Or.inr ⟨by norm_num [abs_of_pos, abs_of_neg], by decide⟩)

theorem tenth_5 : clock (Dbl.lit (1 / 10) : F64) 5 = F64.fin ((4503599627370496 : ℤ) * 2 ^ (-53 : ℤ))
    (rep_normal (by norm_num) (by norm_num) (by norm_num)) := by
  rw [clock, tenth_4]
  exact tenth_step (by norm_num) (by norm_num) (by norm_num) (by norm_num) (by norm_num)
    (by norm_num) (by norm_num) (by norm_num) (Or.inl (by norm_num [abs_lt]))

theorem tenth_6 : clock (Dbl.lit (1 / 10) : F64) 6 = F64.fin ((5404319552844595 : ℤ) * 2 ^ (-53 : ℤ))
    (rep_normal (by norm_num) (by norm_num) (by norm_num)) := by
  rw [clock, tenth_5]
  exact tenth_step (by norm_num) (by norm_num) (by norm_num) (by norm_num) (by norm_num)
    (by norm_num) (by norm_num) (by norm_num) (Or.inl (by norm_num [abs_lt]))

theorem tenth_7 : clock (Dbl.lit (1 / 10) : F64) 7 = F64.fin ((6305039478318694 : ℤ) * 2 ^ (-53 : ℤ))
    (rep_normal (by norm_num) (by norm_num) (by norm_num)) := by
  rw [clock, tenth_6]
  exact tenth_step (by norm_num) (by norm_num) (by norm_num) (by norm_num) (by norm_num)
    (by norm_num) (by norm_num) (by norm_num) (Or.inl (by norm_num [abs_lt]))

theorem tenth_8 : clock (Dbl.lit (1 / 10) : F64) 8 = F64.fin ((7205759403792793 : ℤ) * 2 ^ (-53 : ℤ))
    (rep_normal (by norm_num) (by norm_num) (by norm_num)) := by
  rw [clock, tenth_7]
  exact tenth_step (by norm_num) (by norm_num) (by norm_num) (by norm_num) (by norm_num)
    (by norm_num) (by norm_num) (by norm_num) (Or.inl (by norm_num [abs_lt]))

theorem tenth_9 : clock (Dbl.lit (1 / 10) : F64) 9 = F64.fin ((8106479329266892 : ℤ) * 2 ^ (-53 : ℤ))
    (rep_normal (by norm_num) (by norm_num) (by norm_num)) := by
  rw [clock, tenth_8]
  exact tenth_step (by norm_num) (by norm_num) (by norm_num) (by norm_num) (by norm_num)
    (by norm_num) (by norm_num) (by norm_num) (Or.inl (by norm_num [abs_lt]))

theorem tenth_10 : clock (Dbl.lit (1 / 10) : F64) 10 = F64.fin ((9007199254740991 : ℤ) * 2 ^ (-53 : ℤ))
    (rep_normal (by norm_num) (by norm_num) (by norm_num)) := by
  rw [clock, tenth_9]
  exact tenth_step (by norm_num) (by norm_num) (by norm_num) (by norm_num) (by norm_num)
    (by norm_num) (by norm_num) (by norm_num) (Or.inl (by norm_num [abs_lt]))

theorem tenth_11 : clock (Dbl.lit (1 / 10) : F64) 11 = F64.fin ((4953959590107545 : ℤ) * 2 ^ (-52 : ℤ))
    (rep_normal (by norm_num) (by norm_num) (by norm_num)) := by
  rw [clock, tenth_10]
  exact tenth_step (by norm_num) (by norm_num) (by norm_num) (by norm_num) (by norm_num)
    (by norm_num) (by norm_num) (by norm_num) (Or.inl (by norm_num [abs_lt]))

/-- C96 is false of the number of steps: with a step of 0.1 and an end time of 1 every event makes 11
steps in double precision, one more than fit. -/
theorem C96_extra_step_refuted (cfg : SimCfg F64) (h1 : cfg.dt = Dbl.lit (1 / 10))
    (h2 : cfg.timeEnd = Dbl.lit 1) (l : PList F64) (r : Rng F64) (hists : List (Hist F64)) (n : Nat)
    (s : EvState F64) (h : Run cfg (.init l r hists) n (.ok s)) :
    n = 11 ∧ ⌈(1 : ℝ) / (1 / 10)⌉₊ = 10 := by
  refine ⟨?_, by norm_num⟩
  have hone : F64.Rep ((1 : ℚ) : ℝ) := by simpa using rep_one
  have hT : cfg.timeEnd = F64.fin ((1 : ℚ) : ℝ) hone := by rw [h2, F64.lit_rep hone]
  obtain ⟨hs, hend⟩ := run_ok_iff.mp h
  obtain ⟨ht, hj⟩ := steps_clock hs
  rw [ht] at hend
  rw [h1] at hend hj
  apply le_antisymm
  · by_contra hlt
    have := hj 11 (by omega)
    rw [tenth_11, hT, F64.lt_fin, decide_eq_true_eq] at this
    norm_num at this
  · by_contra hlt
    have hn : n < 11 := by omega
    interval_cases n
    · have h0 : F64.Rep ((0 : ℚ) : ℝ) := by simpa using F64.rep_nat (n := 0) (by norm_num)
      rw [clock, F64.lit_rep h0, hT, F64.lt_fin, decide_eq_false_iff_not] at hend
      norm_num at hend
    · rw [tenth_1, hT, F64.lt_fin, decide_eq_false_iff_not] at hend
      norm_num at hend
    · rw [tenth_2, hT, F64.lt_fin, decide_eq_false_iff_not] at hend
      norm_num at hend
    · rw [tenth_3, hT, F64.lt_fin, decide_eq_false_iff_not] at hend
      norm_num at hend
    · rw [tenth_4, hT, F64.lt_fin, decide_eq_false_iff_not] at hend
      norm_num at hend
    · rw [tenth_5, hT, F64.lt_fin, decide_eq_false_iff_not] at hend
      norm_num at hend
    · rw [tenth_6, hT, F64.lt_fin, decide_eq_false_iff_not] at hend
      norm_num at hend
    · rw [tenth_7, hT, F64.lt_fin, decide_eq_false_iff_not] at hend
      norm_num at hend
    · rw [tenth_8, hT, F64.lt_fin, decide_eq_false_iff_not] at hend
      norm_num at hend
    · rw [tenth_9, hT, F64.lt_fin, decide_eq_false_iff_not] at hend
      norm_num at hend
    · rw [tenth_10, hT, F64.lt_fin, decide_eq_false_iff_not] at hend
      norm_num at hend

/-- C96 for the whole program: it ends in double precision if the time step is positive and the end
time is at most `2 ^ 51` steps. -/
theorem C96_program_partial (t : Tables F64) (files : List Char → Option (List Char))
    (args : List (List Char)) (raws : Nat → Nat → RawDraws F64) (garbage : Nat → Nat) (rng : Rng F64)
    (hstep : ∀ i cfg, start t files args = .ok (i, cfg) → ∃ (dt T : ℝ) (hd : F64.Rep dt)
      (hT : F64.Rep T), i.general.timeStep = F64.fin dt hd ∧ i.general.timeEnd = F64.fin T hT ∧
      0 < dt ∧ T ≤ 2 ^ 51 * dt) :
    ∃ fuel0 outcome, ∀ fuel, fuel0 ≤ fuel →
      program t files args raws garbage rng fuel = some outcome := by
  unfold program
  cases hs : start t files args with
  | ok x =>
    obtain ⟨i, cfg⟩ := x
    have hcfg : cfg.dt = i.general.timeStep ∧ cfg.timeEnd = i.general.timeEnd := start_times hs
    simp only [Timed.ok_bind]
    refine run_ends i cfg (fun l r hists => ?_) raws garbage rng
    obtain ⟨dt, T, hd, hT, e1, e2, hpos, hle⟩ := hstep i cfg hs
    obtain ⟨n, o, hn, -⟩ := C96_ends_partial cfg dt T hd hT hpos (hcfg.1.trans e1) (hcfg.2.trans e2)
      hle l r hists
    obtain ⟨fuel, hf⟩ := (timeLoop_iff_run cfg _ o).mpr ⟨n, hn⟩
    exact ⟨fuel, o, fun m hm => timeLoop_mono cfg _ o fuel m hm hf⟩
  | exit c => exact ⟨0, .exit c, fun _ _ => rfl⟩
  | throw c => exact ⟨0, .throw c, fun _ _ => rfl⟩
  | ub c => exact ⟨0, .ub c, fun _ _ => rfl⟩

namespace RoundingWitness

/-- A simulation without fields and processes. -/
noncomputable def cfg (dt T : F64) : SimCfg F64 :=
  ⟨lorentzForce, staticField ⟨lit 0, lit 0, lit 0⟩ ⟨lit 0, lit 0, lit 0⟩, dt, T, []⟩

/-- The start of an event without particles. -/
noncomputable def empty : EvState F64 := .init (PList.new "0" 5) ⟨fun _ => lit 0, 0⟩ []

/-- Its time loop can only end normally. -/
theorem run_ok {c : SimCfg F64} {s : EvState F64} {n : Nat} {o : Res (EvState F64)} (h : Run c s n o) :
    s.list = PList.new "0" 5 → s.hists = [] → ∃ s', o = .ok s' := by
  have step : ∀ s : EvState F64, s.list = PList.new "0" 5 → s.hists = [] →
      timeStep c s = .ok { s with time := s.time +. c.dt } := by
    intro s h1 h2
    have ha : ∀ r, advance c (PList.new "0" 5) r = .ok (PList.new "0" 5, r) := fun r => rfl
    simp only [timeStep, histStep, h2, List.getElem?_nil, Res.ok_bind, h1, ha]
  induction h with
  | @done s _ => exact fun _ _ => ⟨s, rfl⟩
  | @step s s' n o _ hs _ ih =>
    intro h1 h2
    rw [step s h1 h2] at hs
    obtain rfl := Res.ok.inj hs
    exact ih h1 h2
  | @abort s o _ hs hn =>
    intro h1 h2
    rw [step s h1 h2] at hs
    exact absurd hs.symm (hn _)

end RoundingWitness

open RoundingWitness in
/-- The hypotheses of `C96_exact_partial` and `C96_ends_partial` are met by steps of `1 / 2` up to 1:
the event runs to its end in two steps. -/
example : ∃ (h1 : F64.Rep (1 * 2 ^ (-1 : ℤ))) (h2 : F64.Rep 1) (s : EvState F64),
    Run (cfg (F64.fin _ h1) (F64.fin _ h2)) empty 2 (.ok s) := by
  have h1 : F64.Rep ((1 : ℕ) * 2 ^ (-1 : ℤ)) := by
    simpa using rep_normal (m := 1) (e := -1) (by norm_num) (by norm_num) (by norm_num)
  have hsmall : (1 : ℝ) < 2 ^ 1024 := one_lt_pow₀ (by norm_num) (by norm_num)
  obtain ⟨n, o, hr, -⟩ := C96_ends_partial (cfg (F64.fin _ h1) (F64.fin _ rep_one)) _ 1 h1 rep_one
    (by norm_num) rfl rfl (by norm_num) (PList.new "0" 5) ⟨fun _ => lit 0, 0⟩ []
  obtain ⟨s, rfl⟩ := run_ok hr rfl rfl
  have hceil : ⌈(1 : ℝ) / ((1 : ℕ) * 2 ^ (-1 : ℤ))⌉₊ = 2 := by norm_num
  obtain ⟨rfl, -⟩ := C96_exact_partial _ 1 (-1) (by norm_num) 1 (by norm_num) h1 rep_one rfl rfl
    (by rw [hceil]; norm_num) (by rw [hceil]; norm_num; exact hsmall) _ _ _ n s hr
  rw [hceil] at hr
  exact ⟨by simpa using h1, rep_one, s, by unfold empty; simpa using hr⟩

open RoundingWitness in
/-- The event of `C96_extra_step_refuted` exists. -/
example : ∃ s : EvState F64, Run (cfg (lit (1 / 10)) (lit 1)) empty 11 (.ok s) := by
  have hone : F64.Rep ((1 : ℚ) : ℝ) := by simpa using rep_one
  obtain ⟨n, o, hr, -⟩ := C96_ends_partial (cfg (lit (1 / 10)) (lit 1)) _ _
    (rep_normal (m := 7205759403792794) (e := -56) (by norm_num) (by norm_num) (by norm_num)) hone
    (by norm_num) lit_tenth (F64.lit_rep hone) (by norm_num) (PList.new "0" 5) ⟨fun _ => lit 0, 0⟩ []
  obtain ⟨s, rfl⟩ := run_ok hr rfl rfl
  obtain ⟨rfl, -⟩ := C96_extra_step_refuted _ rfl rfl _ _ _ n s hr
  exact ⟨s, hr⟩

/-! ## C97 Counting in double precision -/

open Classical in
/-- Filling a histogram of doubles. -/
theorem fill_dbls (name part type : String) (time : F64) {lo hi : ℝ} (rlo : F64.Rep lo)
    (rhi : F64.Rep hi) (hlt : lo < hi) (slo : |lo| ≤ 2 ^ 900) (shi : |hi| ≤ 2 ^ 900) {n : Nat}
    (hn : 2 ≤ n) (hb : n < 2 ^ 32) (g : Nat) (ps : List (Particle F64)) : ∃ h,
      fillHist (Hist.new name part type time (F64.fin lo rlo) (F64.fin hi rhi) n g) ps = .ok h ∧
      h.values.length = n ∧ ∀ i < n, ∃ v, h.values[i]? = some v ∧
        v.1 = .fin ((min (ps.countP fun p => p.name = part ∧ FallsIn (dblCentre lo hi n) n i p.energy)
          (2 ^ 53) : ℕ) : ℝ) := by
  obtain ⟨hs, hc⟩ := Hist.new_dbls name part type time rlo rhi hlt.le slo shi hn hb g
  obtain ⟨h, e, s, -, v⟩ := Hist.counts_dbls hc
    ((ps.filter (fun p => part = p.name)).map Particle.energy) hs
  refine ⟨h, by rw [fillHist_dbls hc ps hs]; exact e, s.values, fun i hi' => ?_⟩
  obtain ⟨w, hw, hk⟩ := v i (lit 0) 0 (by simp [Hist.new, hi']) counted_zero
  refine ⟨w, hw, ?_⟩
  rw [Nat.zero_add, List.countP_map, List.countP_filter] at hk
  rw [hk]
  congr 4
  funext p
  simp [and_comm, eq_comm]

open Classical in
/-- C97: in double precision a histogram has bin centres `c` that do not decrease and are the exact
ones up to rounding, and after filling it from any list of particles bin `i` holds the number of
particles of its species whose energy falls into bin `i`; the count stops at `2 ^ 53`. Energies that
are infinite or not a number are not counted. -/
theorem C97_counts (name part type : String) (time : F64) {lo hi : ℝ} (rlo : F64.Rep lo)
    (rhi : F64.Rep hi) (hlt : lo < hi) (slo : |lo| ≤ 2 ^ 900) (shi : |hi| ≤ 2 ^ 900) {n : Nat}
    (hn : 2 ≤ n) (hb : n < 2 ^ 32) (g : Nat) :
    ∃ c : Nat → ℝ, (∀ i j, i ≤ j → c i ≤ c j) ∧
      (∀ i < n, |c i - binCentre lo hi n i| ≤
        2 ^ (-50 : ℤ) * (|lo| + |hi|) + (2 * n + 10) * 2 ^ (-1075 : ℤ)) ∧
      ∀ ps : List (Particle F64), ∃ h,
        fillHist (Hist.new name part type time (F64.fin lo rlo) (F64.fin hi rhi) n g) ps = .ok h ∧
        h.values.length = n ∧ ∀ i < n, ∃ v, h.values[i]? = some v ∧
          v.1 = .fin ((min (ps.countP fun p => p.name = part ∧ FallsIn c n i p.energy)
            (2 ^ 53) : ℕ) : ℝ) := by
  exact ⟨dblCentre lo hi n, fun i j => dblCentre_mono hlt.le hn,
    fun i hi' => (dblCentre_error hlt.le hn hi').1,
    fill_dbls name part type time rlo rhi hlt slo shi hn hb g⟩

open Classical in
/-- C97 for the particles of an event, of which there are fewer than `2 ^ 53`: the counts are exact. -/
theorem C97_exact (name part type : String) (time : F64) {lo hi : ℝ} (rlo : F64.Rep lo)
    (rhi : F64.Rep hi) (hlt : lo < hi) (slo : |lo| ≤ 2 ^ 900) (shi : |hi| ≤ 2 ^ 900) {n : Nat}
    (hn : 2 ≤ n) (hb : n < 2 ^ 32) (g : Nat) :
    ∃ c : Nat → ℝ, (∀ i j, i ≤ j → c i ≤ c j) ∧
      (∀ i < n, |c i - binCentre lo hi n i| ≤
        2 ^ (-50 : ℤ) * (|lo| + |hi|) + (2 * n + 10) * 2 ^ (-1075 : ℤ)) ∧
      ∀ ps : List (Particle F64), ps.length ≤ 2 ^ 53 → ∃ h,
        fillHist (Hist.new name part type time (F64.fin lo rlo) (F64.fin hi rhi) n g) ps = .ok h ∧
        h.values.length = n ∧ ∀ i < n, ∃ v, h.values[i]? = some v ∧
          v.1 = .fin (ps.countP fun p => p.name = part ∧ FallsIn c n i p.energy) := by
  obtain ⟨c, h1, h2, h3⟩ := C97_counts name part type time rlo rhi hlt slo shi hn hb g
  refine ⟨c, h1, h2, fun ps hps => ?_⟩
  obtain ⟨h, e, l, v⟩ := h3 ps
  refine ⟨h, e, l, fun i hi' => ?_⟩
  obtain ⟨w, hw, hk⟩ := v i hi'
  exact ⟨w, hw, by rw [hk, min_eq_left (List.countP_le_length.trans hps)]⟩

/-- C97: no other bin is nearer, comparing distances rounded to doubles. -/
theorem C97_nearest {c : Nat → ℝ} {n i : Nat} {x : ℝ} (hc : ∀ i j, i ≤ j → c i ≤ c j)
    (h : RoundedBin c n i x) (j : Nat) : F64.round |x - c i| ≤ F64.round |x - c j| := by
  obtain ⟨-, -, k, -, hl, hr, hd⟩ := h
  have e1 : |x - c k| = x - c k := abs_of_nonneg (by linarith)
  have e2 : |x - c (k + 1)| = c (k + 1) - x := by rw [abs_of_nonpos (by linarith)]; ring
  have both : F64.round |x - c i| ≤ F64.round (x - c k) ∧
      F64.round |x - c i| ≤ F64.round (c (k + 1) - x) := by
    rcases hd with ⟨rfl, hd⟩ | ⟨rfl, hd⟩
    · rw [e1]; exact ⟨le_rfl, hd.le⟩
    · rw [e2]; exact ⟨hd, le_rfl⟩
  rcases Nat.lt_or_ge k j with hj | hj
  · have := hc (k + 1) j hj
    refine both.2.trans (F64.round_mono ?_)
    rw [abs_of_nonpos (by linarith)]
    linarith
  · have := hc j k hj
    refine both.1.trans (F64.round_mono ?_)
    rw [abs_of_nonneg (by linarith)]
    linarith

/-- C97: a number strictly inside the range of the centres falls into exactly one bin. -/
theorem C97_one_bin {c : Nat → ℝ} {n : Nat} {x : ℝ} (hc : ∀ i j, i ≤ j → c i ≤ c j) (hn : 2 ≤ n)
    (h0 : c 0 < x) (h1 : x < c (n - 1)) : ∃! i, i < n ∧ RoundedBin c n i x := by
  have hex : ∃ k, k + 1 < n ∧ c k < x ∧ x ≤ c (k + 1) := by
    by_contra hcon
    have all : ∀ k, k < n → c k < x := by
      intro k
      induction k with
      | zero => intro _; exact h0
      | succ k ih =>
        intro hk
        by_contra hh
        exact hcon ⟨k, hk, ih (by omega), not_lt.mp hh⟩
    exact absurd (all (n - 1) (by omega)) (not_lt.mpr h1.le)
  obtain ⟨k, hk, hl, hr⟩ := hex
  have huniq : ∀ i, RoundedBin c n i x → (i = k ∧ F64.round (x - c k) < F64.round (c (k + 1) - x) ∨
      i = k + 1 ∧ F64.round (c (k + 1) - x) ≤ F64.round (x - c k)) := by
    rintro i ⟨-, -, k', hk', hl', hr', hd⟩
    obtain rfl : k = k' := by
      rcases lt_trichotomy k k' with h | h | h
      · have := hc (k + 1) k' h
        linarith
      · exact h
      · have := hc (k' + 1) k h
        linarith
    exact hd
  by_cases hd : F64.round (x - c k) < F64.round (c (k + 1) - x)
  · refine ⟨k, ⟨by omega, h0, h1, k, hk, hl, hr, Or.inl ⟨rfl, hd⟩⟩, ?_⟩
    rintro j ⟨-, hj⟩
    rcases huniq j hj with ⟨h, -⟩ | ⟨-, h⟩
    · exact h
    · exact absurd hd (not_lt.mpr h)
  · refine ⟨k + 1, ⟨hk, h0, h1, k, hk, hl, hr, Or.inr ⟨rfl, not_lt.mp hd⟩⟩, ?_⟩
    rintro j ⟨-, hj⟩
    rcases huniq j hj with ⟨-, h⟩ | ⟨h, -⟩
    · exact absurd h hd
    · exact h

open Mpi MpiSpec in
/-- C97 across MPI ranks: if the bins of all ranks hold whole numbers with sums of at most `2 ^ 53`,
the sums handed to the output are exact in double precision, whatever the schedule. -/
theorem C97_ranks {L : Type} {n : Nat} (hn : 0 < n) (group : L → L)
    (put : L → String → Nat → List (Option F64) → L) (hist : L → Hist F64 → List F64 → L)
    (srcs : List (RunSource F64)) (h : Nat → Hist F64) (l : L) (N : Nat → Nat → Nat)
    (hsrc : ∀ s ∈ srcs, (∀ r < n, Stored (s.mgr r) (s.ev r)) ∧ Fits n s.ev)
    (hh : (h 0).nBins < 2 ^ 31 ∧
      ∀ r < n, (h r).nBins = (h 0).nBins ∧ (h r).values.length = (h 0).nBins)
    (hN : ∀ r < n, ∀ i < (h 0).nBins, ∃ w, (h r).values[i]? = some w ∧ w.1 = .fin (N r i))
    (hsum : ∀ i < (h 0).nBins, ∑ r ∈ Finset.range n, N r i ≤ 2 ^ 53) :
    ∃ M, ∀ i s, Exec true n i (State.start fun r => runRank (Sink.total group put hist) n r
        (srcs.map fun s => (s.out, s.mgr r)) [h r] l) s → i ≤ M ∧
      ((∃ sums : List F64, (∀ i < (h 0).nBins, ∃ w, sums[i]? = some w ∧
          w.1 = .fin ((∑ r ∈ Finset.range n, N r i : ℕ) : ℝ)) ∧
        Finished n s (fun r => if r = 0 then
          hist (putSources n group put srcs l) (h 0) sums else l)) ∨ ∃ t, Step false n s t) := by
  obtain ⟨M, hM⟩ := C56_order_partial hn group put hist srcs h l hsrc hh
  refine ⟨M, fun i s he => ?_⟩
  obtain ⟨h1, ⟨order, hp, hf⟩ | ht⟩ := hM i s he
  · refine ⟨h1, .inl ⟨_, ?_, hf⟩⟩
    have htotal : ∀ i, N 0 i + (order.map fun j => N j i).sum = ∑ r ∈ Finset.range n, N r i := by
      intro i
      rw [(hp.map _).sum_eq]
      obtain ⟨m, rfl⟩ : ∃ m, n = m + 1 := ⟨n - 1, by omega⟩
      rw [Finset.sum_range_succ', Nat.add_comm]
      congr 1
      rw [Nat.add_sub_cancel, List.range'_eq_map_range, List.map_map, Finset.sum_range]
      rw [← List.sum_ofFn, List.ofFn_eq_map, ← List.map_coe_finRange_eq_range, List.map_map]
      congr 1
      apply List.map_congr_left
      intro j _
      simp [Nat.add_comm]
    intro i hi
    have := foldl_counts (h 0).nBins (fun j => (h j).values) N order (h 0).values (N 0)
      (fun j hj i hi => by
        have : j ∈ List.range' 1 (n - 1) := hp.mem_iff.mp hj
        rw [List.mem_range'_1] at this
        exact hN j (by omega) i hi) (hN 0 hn) (fun i hi => by rw [htotal]; exact hsum i hi) i hi
    rwa [htotal] at this
  · exact ⟨h1, .inr ht⟩

namespace RoundingWitness

theorem zero_lit : (Dbl.lit 0 : F64).1 = .fin 0 := by
  have h : F64.Rep ((0 : ℚ) : ℝ) := by simpa using F64.rep_nat (n := 0) (by norm_num)
  rw [F64.lit_rep h]
  simp [F64.fin]

theorem one_lit : (Dbl.lit 1 : F64).1 = .fin 1 := by
  have h : F64.Rep ((1 : ℚ) : ℝ) := by simpa using rep_one
  rw [F64.lit_rep h]
  simp [F64.fin]

/-- A photon of energy 1. -/
noncomputable def photon : Particle F64 :=
  { kind := .photon, mass := lit 0, charge := lit 0, weight := lit 1, time := lit 0
    opticalDepth := lit 1, tracking := false, isAlive := true, position := ⟨lit 0, lit 0, lit 0⟩
    momentum := ⟨lit 1, lit 0, lit 0⟩, posHistory := [], momHistory := [], timeHistory := []
    gammaHistory := [] }

theorem photon_energy : photon.energy.1 = .fin 1 := by
  have r0 := F64.rnd_rep (by simpa using F64.rep_nat (n := 0) (by norm_num) : F64.Rep 0)
  have r1 := F64.rnd_rep rep_one
  have hm : ∀ a b : F64, a.1 = .fin 0 → b.1 = .fin 0 → (a *. b).1 = .fin 0 := by
    intro a b ha hb
    rw [F64.mul_val, ha, hb]
    show F64.rnd (.fin (0 * 0)) = _
    rw [mul_zero, r0]
  have h1 : ((lit 1 : F64) *. lit 1).1 = .fin 1 := by
    rw [F64.mul_val, one_lit]
    show F64.rnd (.fin (1 * 1)) = _
    rw [mul_one, r1]
  have ha : ∀ a b : F64, a.1 = .fin 1 → b.1 = .fin 0 → (a +. b).1 = .fin 1 := by
    intro a b ha hb
    rw [F64.add_val, ha, hb]
    show F64.rnd (.fin (1 + 0)) = _
    rw [add_zero, r1]
  have h2 : photon.momentum.mag2.1 = .fin 1 :=
    ha _ _ (ha _ _ h1 (hm _ _ zero_lit zero_lit)) (hm _ _ zero_lit zero_lit)
  show F64.rnd (Dbl.sqrt photon.momentum.mag2.1) = _
  rw [h2, XR.sqrt_fin _ (by norm_num), Real.sqrt_one, r1]

theorem rep_zero : F64.Rep 0 := by simpa using F64.rep_nat (n := 0) (by norm_num)
theorem rep_2 : F64.Rep 2 := by simpa using F64.rep_nat (n := 2) (by norm_num)

theorem centre (i : Nat) (hi : i ≤ 2) : dblCentre 0 2 3 i = i := by
  have hr : ∀ k : ℕ, k ≤ 2 → F64.round k = k := fun k hk =>
    F64.round_form_eq (F64.rep_nat (by omega)).1
  have h2 : F64.round (2 - 0) = 2 := by have := hr 2 le_rfl; simpa using this
  have h1 : dblDelta 0 2 3 = 1 := by
    unfold dblDelta
    rw [h2]
    have := hr 1 (by omega)
    norm_num at this ⊢
    exact this
  unfold dblCentre
  rw [h1, mul_one, hr i hi, zero_add, hr i hi]

/-- It falls into the middle one of three bins from 0 to 2. -/
theorem photon_falls : FallsIn (dblCentre 0 2 3) 3 1 photon.energy := by
  refine ⟨1, photon_energy, ?_, ?_, 0, by norm_num, ?_, ?_, Or.inr ⟨rfl, ?_⟩⟩
  · rw [centre 0 (by norm_num)]; norm_num
  · rw [centre 2 (by norm_num)]; norm_num
  · rw [centre 0 (by norm_num)]; norm_num
  · rw [centre 1 (by norm_num)]; norm_num
  · rw [centre 0 (by norm_num), centre 1 (by norm_num)]
    apply F64.round_mono
    norm_num

end RoundingWitness

open RoundingWitness in
/-- C97 is false of longer lists: `2 ^ 53 + 1` photons that all fall into the middle bin are counted
as `2 ^ 53`. -/
theorem C97_refuted : ∃ h v, fillHist (Hist.new "h" "Photon" "Energy" (lit 0) (F64.fin 0 rep_zero)
      (F64.fin 2 rep_2) 3 0) (List.replicate (2 ^ 53 + 1) photon) = .ok h ∧
    FallsIn (dblCentre 0 2 3) 3 1 photon.energy ∧ h.values[1]? = some v ∧ v.1 = .fin (2 ^ 53) := by
  obtain ⟨h, e, -, hv⟩ := fill_dbls "h" "Photon" "Energy" (lit 0) rep_zero rep_2 (by norm_num)
    (by simp) (by rw [abs_of_nonneg (by norm_num)]; exact le_self_pow₀ (by norm_num) (by norm_num))
    (n := 3) (by norm_num) (by norm_num) 0 (List.replicate (2 ^ 53 + 1) photon)
  obtain ⟨v, hv1, hv2⟩ := hv 1 (by norm_num)
  refine ⟨h, v, e, photon_falls, hv1, ?_⟩
  rw [hv2, List.countP_replicate, if_pos, min_eq_right (by omega)]
  · norm_num
  · exact @decide_eq_true _ (_) ⟨rfl, photon_falls⟩

open RoundingWitness in
/-- The hypotheses of `C97_exact` are met by three bins from 0 to 2 and two photons, which both fall
into the middle bin. -/
example : ∃ h v, fillHist (Hist.new "h" "Photon" "Energy" (lit 0) (F64.fin 0 rep_zero)
      (F64.fin 2 rep_2) 3 0) [photon, photon] = .ok h ∧ h.values[1]? = some v ∧ v.1 = .fin 2 := by
  obtain ⟨h, e, -, hv⟩ := fill_dbls "h" "Photon" "Energy" (lit 0) rep_zero rep_2 (by norm_num)
    (by simp) (by rw [abs_of_nonneg (by norm_num)]; exact le_self_pow₀ (by norm_num) (by norm_num))
    (n := 3) (by norm_num) (by norm_num) 0 [photon, photon]
  obtain ⟨v, hv1, hv2⟩ := hv 1 (by norm_num)
  refine ⟨h, v, e, hv1, ?_⟩
  have hp : (photon.name = "Photon" ∧ FallsIn (dblCentre 0 2 3) 3 1 photon.energy) :=
    ⟨rfl, photon_falls⟩
  rw [hv2]
  simp [hp]

end QED
