import Verif.Model.Console
import Verif.Spec.Console
import Verif.Props.RunSetup
import Verif.Lemmas.ProgramRun

set_option autoImplicit false

/-!
# Property C164: what the console says about a run is right

The number of events that is announced is right if the total is below `2^32` (C164_announced_partial), and too small
otherwise (C164_announced_refuted). The percentages of a source of fewer than `2^31` events, when the threads get blocks of
about the same size, are those of a run in which all threads have done as many events as the first, lie in `[0, 100)` and
increase (C164_progress_partial). For larger sources they are negative (C164_negative_refuted), with other schedules they
may be above 100 (C164_schedule_refuted), and they start from zero with each source (C164_sources_refuted).
-/

namespace QED

open Main

theorem announced_from {D : Type} [Dbl D] (ps : List (ParticleParams D)) (k : Nat) :
    ps.foldl (fun n p => u32 (n + p.number)) k % 2 ^ 32 = (k + (ps.map fun p => p.number).sum) % 2 ^ 32 := by
  induction ps generalizing k with
  | nil => rfl
  | cons p ps ih =>
    rw [List.foldl_cons, ih, List.map_cons, List.sum_cons]
    unfold u32
    omega

theorem announced_lt {D : Type} [Dbl D] (ps : List (ParticleParams D)) (k : Nat) (hk : k < 2 ^ 32) :
    ps.foldl (fun n p => u32 (n + p.number)) k < 2 ^ 32 := by
  induction ps generalizing k with
  | nil => exact hk
  | cons p ps ih => exact ih _ (Nat.mod_lt _ (by norm_num))

theorem announced_eq {D : Type} [Dbl D] (ps : List (ParticleParams D)) :
    announced ps = (ps.map fun p => p.number).sum % 2 ^ 32 := by
  have h1 := announced_from ps 0
  have h2 := announced_lt ps 0 (by norm_num)
  rw [Nat.mod_eq_of_lt h2, Nat.zero_add] at h1
  exact h1

theorem makeSource_nPart {D : Type} [Dbl D] {g : GeneralParams D} {p : ParticleParams D} {raw : RawDraws D} {s : Source D}
    (h : makeSource g p raw = .ok s) : s.nPart = p.number := by
  unfold makeSource Source.new at h
  dsimp only at h
  obtain ⟨a, _, h⟩ := bind_eq_ok.1 h
  obtain ⟨b, _, h⟩ := bind_eq_ok.1 h
  cases h
  rfl

theorem makeSources_events {D : Type} [Dbl D] (g : GeneralParams D) (raws : Nat → Nat → RawDraws D) :
    ∀ (ps : List (ParticleParams D)) (j : Nat) (ss : List (Source D × Bool)), makeSources g raws j ps = .ok ss →
      ss.map (fun s => s.1.nPart) = ps.map fun p => p.number
  | [], j, ss, h => by cases h; rfl
  | p :: ps, j, ss, h => by
    unfold makeSources at h
    obtain ⟨s, hs, h⟩ := bind_eq_ok.1 h
    obtain ⟨ss', hss, h⟩ := bind_eq_ok.1 h
    cases h
    rw [List.map_cons, List.map_cons, makeSources_events g raws ps _ ss' hss, makeSource_nPart hs]

/-- C164 for the number of events: what is announced is the number of events of all sources, if that is below `2^32`. -/
theorem C164_announced_partial {D : Type} [Dbl D] (g : GeneralParams D) (raws : Nat → Nat → RawDraws D)
    (ps : List (ParticleParams D)) (ss : List (Source D × Bool)) (h : makeSources g raws 0 ps = .ok ss) :
    announced ps = (ss.map fun s => s.1.nPart).sum ↔ (ss.map fun s => s.1.nPart).sum < 2 ^ 32 := by
  rw [makeSources_events g raws ps 0 ss h, announced_eq]
  constructor
  · intro e
    rw [← e]
    exact Nat.mod_lt _ (by norm_num)
  · exact Nat.mod_eq_of_lt

/-- C164 fails for the number of events: with `2^32` events or more it is announced too small. For two sources of `2^31`
events it is none. -/
theorem C164_announced_refuted {D : Type} [Dbl D] :
    (∀ (g : GeneralParams D) (raws : Nat → Nat → RawDraws D) (ps : List (ParticleParams D)) (ss : List (Source D × Bool)),
      makeSources g raws 0 ps = .ok ss → 2 ^ 32 ≤ (ss.map fun s => s.1.nPart).sum →
      announced ps < (ss.map fun s => s.1.nPart).sum) ∧
    ∀ p : ParticleParams D, p.number = 2 ^ 31 → announced [p, p] = 0 := by
  refine ⟨fun g raws ps ss h hn => ?_, fun p hp => ?_⟩
  · refine lt_of_lt_of_le ?_ hn
    rw [announced_eq]
    exact Nat.mod_lt _ (by norm_num)
  · rw [announced_eq, List.map_cons, List.map_cons, List.map_nil, hp]
    norm_num

/-- The hypotheses of C164_announced_partial are met by any two sources of one energy, e.g. of three and four particles, and so
are those of C164_announced_refuted by two of `2^31`. -/
example (g : GeneralParams ℝ) (raws : Nat → Nat → RawDraws ℝ) (hr : ∀ i n, (raws i n).Sized n) (p q : ParticleParams ℝ)
    (hp : p.energy1 = p.energy2) (hq : q.energy1 = q.energy2) :
    ∃ ss, makeSources g raws 0 [p, q] = .ok ss ∧ (ss.map fun s => s.1.nPart).sum = p.number + q.number := by
  have ha : AngleInOrder ℝ := by
    unfold AngleInOrder
    simp [Units.pi]
    norm_num
  have hh : ∀ x : ParticleParams ℝ, x.energy1 = x.energy2 → EnergiesInOrder x := by
    intro x hx
    refine Or.inr (Or.inr ?_)
    rw [hx]
    simp
  obtain ⟨ss, h, _⟩ := (makeSources_total ha g raws hr [p, q] 0).1 (by
    intro x hx
    rcases List.mem_cons.1 hx with rfl | hx
    · exact hh _ hp
    · rw [List.mem_singleton.1 hx]
      exact hh _ hq)
  refine ⟨ss, h, ?_⟩
  rw [makeSources_events g raws _ 0 ss h]
  simp

/-! ## The percentages -/

theorem progress_small {threads n j : Nat} (hn : n < 2 ^ 31) (hj : j * threads < 2 ^ 32) :
    (progress threads n j : ℝ) = 100 * ((j * threads : ℕ) / (n : ℝ)) := by
  unfold progress
  have h1 : u32 (j * threads) = j * threads := Nat.mod_eq_of_lt hj
  have h2 : Mpi.i32 (n : Int) = n := by unfold Mpi.i32; rw [Int.bmod_def]; omega
  rw [h1, h2]
  simp only [real_div, real_mul, real_lit]
  push_cast
  ring

theorem mem_firstBlock {threads n j : Nat} (ht : 0 < threads) (h : j ∈ firstBlock threads n) : j * threads < n := by
  unfold firstBlock at h
  rw [List.mem_range, Nat.lt_iff_add_one_le, Nat.le_div_iff_mul_le ht] at h
  rw [Nat.add_mul, Nat.one_mul] at h
  omega

/-- C164 for the percentages: in a source of fewer than `2^31` events whose events are given to the threads in blocks of
about the same size, the percentage after event `j` is that of `j` events in each thread. The percentages are at least 0
and below 100, and increase. There is one for every fifth event of the first thread. -/
theorem C164_progress_partial (threads n : Nat) (ht : 0 < threads) (hn : n < 2 ^ 31) :
    (∀ j ∈ firstBlock threads n, (progress threads n j : ℝ) = 100 * ((j * threads : ℕ) / (n : ℝ))) ∧
    (∀ x ∈ (reports threads n (firstBlock threads n) : List ℝ), 0 ≤ x ∧ x < 100) ∧
    (reports threads n (firstBlock threads n) : List ℝ).Pairwise (· < ·) ∧
    (reports threads n (firstBlock threads n) : List ℝ) =
      ((firstBlock threads n).filter fun j => j % 5 == 0).map fun j => 100 * ((j * threads : ℕ) / (n : ℝ)) := by
  have h1 : ∀ j ∈ firstBlock threads n, (progress threads n j : ℝ) = 100 * ((j * threads : ℕ) / (n : ℝ)) := by
    intro j hj
    have := mem_firstBlock ht hj
    exact progress_small hn (by omega)
  refine ⟨h1, ?_, ?_, ?_⟩
  · intro x hx
    unfold reports at hx
    obtain ⟨j, hj, rfl⟩ := List.mem_map.1 hx
    have hj := List.mem_of_mem_filter hj
    have hl := mem_firstBlock ht hj
    rw [h1 j hj]
    have hn0 : (0 : ℝ) < n := by exact_mod_cast (by omega : 0 < n)
    have hl' : ((j * threads : ℕ) : ℝ) < n := by exact_mod_cast hl
    have := (div_lt_one hn0).2 hl'
    have : 0 ≤ ((j * threads : ℕ) : ℝ) / n := by positivity
    constructor <;> linarith
  · unfold reports
    rw [List.pairwise_map]
    have hp : (firstBlock threads n).Pairwise (· < ·) := List.pairwise_lt_range
    refine (hp.sublist List.filter_sublist).imp_of_mem ?_
    intro a b ha hb hab
    have ha := List.mem_of_mem_filter ha
    have hb := List.mem_of_mem_filter hb
    rw [h1 a ha, h1 b hb]
    have hl := mem_firstBlock ht hb
    have hn0 : (0 : ℝ) < n := by exact_mod_cast (by omega : 0 < n)
    have : ((a * threads : ℕ) : ℝ) < (b * threads : ℕ) := by
      exact_mod_cast Nat.mul_lt_mul_of_pos_right hab ht
    have := div_lt_div_of_pos_right this hn0
    linarith
  · unfold reports
    exact List.map_congr_left fun j hj => h1 j (List.mem_of_mem_filter hj)

/-- C164 fails for large sources: with `2^31` events or more every percentage but the first is negative. -/
theorem C164_negative_refuted (threads n j : Nat) (ht : 0 < threads) (hn : 2 ^ 31 ≤ n) (hn' : n < 2 ^ 32)
    (hj : 0 < j) (hb : j ∈ firstBlock threads n) : (progress threads n j : ℝ) < 0 := by
  have hl := mem_firstBlock ht hb
  unfold progress
  have h1 : u32 (j * threads) = j * threads := Nat.mod_eq_of_lt (by omega)
  have h2 : Mpi.i32 (n : Int) < 0 := by unfold Mpi.i32; rw [Int.bmod_def]; omega
  rw [h1]
  simp only [real_div, real_mul, real_lit]
  have h3 : (((Mpi.i32 (n : Int) : Int) : ℚ) : ℝ) < 0 := by exact_mod_cast h2
  have h4 : (0 : ℝ) < (((j * threads : ℕ) : ℚ) : ℝ) := by exact_mod_cast Nat.mul_pos hj ht
  have := div_neg_of_pos_of_neg h4 h3
  have h5 : ((100 : ℚ) : ℝ) = 100 := by norm_num
  rw [h5]
  linarith

example : 5 ∈ firstBlock 4 (2 ^ 31) := by
  unfold firstBlock
  rw [List.mem_range]
  norm_num

/-- C164 fails for other schedules: whenever the first thread is given an event from beyond the first block, the percentage is
100 or more. Given the last of 100 events, with four threads, it prints 380. -/
theorem C164_schedule_refuted :
    (∀ threads n j : Nat, n < 2 ^ 31 → 0 < n → n < j * threads → j * threads < 2 ^ 32 →
      100 < (progress threads n j : ℝ)) ∧
    (reports 4 100 [0, 95] : List ℝ) = [0, 380] := by
  constructor
  · intro threads n j hn h0 hj hl
    rw [progress_small hn hl]
    have hn0 : (0 : ℝ) < n := by exact_mod_cast h0
    have : (n : ℝ) < (j * threads : ℕ) := by exact_mod_cast hj
    have := (one_lt_div hn0).2 this
    linarith
  · have e : ([0, 95] : List Nat).filter (fun j => j % 5 == 0) = [0, 95] := by decide
    unfold reports
    rw [e, List.map_cons, List.map_cons, List.map_nil, progress_small (by norm_num) (by norm_num),
      progress_small (by norm_num) (by norm_num)]
    norm_num

/-- C164 fails for more than one source: the percentages are those of the source and start again from zero. With one thread
and two sources of ten events, after three quarters of the run it says 50. -/
theorem C164_sources_refuted :
    (∀ threads n : Nat, (progress threads n 0 : ℝ) = 0) ∧
    (console 1 (firstBlock 1) [10, 10] : List ℝ) = [0, 50, 0, 50] := by
  constructor
  · intro threads n
    unfold progress
    rw [Nat.zero_mul]
    simp [u32]
  · have e : (firstBlock 1 10).filter (fun j => j % 5 == 0) = [0, 5] := by decide
    have r : (reports 1 10 (firstBlock 1 10) : List ℝ) = [0, 50] := by
      unfold reports
      rw [e, List.map_cons, List.map_cons, List.map_nil, progress_small (by norm_num) (by norm_num),
        progress_small (by norm_num) (by norm_num)]
      norm_num
    unfold console
    rw [List.flatMap_cons, List.flatMap_cons, List.flatMap_nil, r]
    rfl

/-- The hypotheses of C164_progress_partial are met, e.g. by 100 events and four threads: five lines, up to 80 per cent. -/
example : (reports 4 100 (firstBlock 4 100) : List ℝ) = [0, 20, 40, 60, 80] := by
  have e : (firstBlock 4 100).filter (fun j => j % 5 == 0) = [0, 5, 10, 15, 20] := by decide
  rw [(C164_progress_partial 4 100 (by norm_num) (by norm_num)).2.2.2, e]
  norm_num

end QED
