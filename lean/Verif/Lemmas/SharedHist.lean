import Verif.Model.SharedState
import Verif.Lemmas.Histogram
import Verif.Lemmas.Threads

set_option autoImplicit false
set_option linter.unusedSectionVars false

/-!
# Lemmas on histograms filled by several threads
-/

namespace QED
namespace SharedHist

open Numerics
open Threads (sum_set)

theorem exec_append {D : Type} [Dbl D] : ∀ (a b : List Nat) (s : State D),
    exec (a ++ b) s = (exec a s >>= fun s' => exec b s')
  | [], b, s => rfl
  | t :: a, b, s => by
    simp only [List.cons_append, exec]
    cases step t s with
    | ok s' => simp only [Res.ok_bind]; exact exec_append a b s'
    | exit c => rfl
    | throw w => rfl
    | ub w => rfl

/-- The steps of a thread, for a histogram with `n` bins from `lo` to `hi`. -/
inductive Move (lo hi : ℝ) (n t : Nat) (s : State ℝ) : State ℝ → Prop
  | stay : (∀ l, s.threads[t]? = some l → l.todo = [] ∧ l.pc = .idle) → Move lo hi n t s s
  | start {x xs} : s.threads[t]? = some ⟨x :: xs, .idle⟩ →
      Move lo hi n t s (s.put t xs (.sawEntries x s.hist.entries))
  | entry {todo x m} : s.threads[t]? = some ⟨todo, .sawEntries x m⟩ →
      Move lo hi n t s
        ({ s with hist := { s.hist with entries := Hist.incr m } }.put t todo (.counted x))
  | inside {todo x i v} : s.threads[t]? = some ⟨todo, .counted x⟩ → InBin lo hi n i x →
      s.hist.values[i]? = some v → Move lo hi n t s (s.put t todo (.sawBin i v))
  | outside {todo x} : s.threads[t]? = some ⟨todo, .counted x⟩ → ¬ (lo < x ∧ x < hi) →
      Move lo hi n t s (s.put t todo .idle)
  | write {todo i v} : s.threads[t]? = some ⟨todo, .sawBin i v⟩ →
      Move lo hi n t s
        ({ s with hist := { s.hist with values := s.hist.values.set i (v + 1) } }.put t todo .idle)

/-- No step fails. -/
theorem step_move {lo hi : ℝ} {n : Nat} (hlt : lo < hi) (hn : 2 ≤ n) (hb : n < 2 ^ 32) (t : Nat)
    {s : State ℝ} (hs : s.hist.Shape lo hi n) : ∃ s', step t s = .ok s' ∧ Move lo hi n t s s' := by
  unfold step
  cases ht : s.threads[t]? with
  | none => exact ⟨s, rfl, .stay (by rw [ht]; intro l h; cases h)⟩
  | some l =>
    obtain ⟨todo, pc⟩ := l
    cases pc with
    | idle =>
      cases todo with
      | nil => exact ⟨s, rfl, .stay (by rw [ht]; intro l h; cases h; exact ⟨rfl, rfl⟩)⟩
      | cons x xs =>
        refine ⟨_, ?_, .start ht⟩
        show (if s.hist.nBins = 0 then _ else _) = _
        rw [if_neg (by rw [hs.nBins]; omega)]
    | sawEntries x m => exact ⟨_, rfl, .entry ht⟩
    | sawBin i v => exact ⟨_, by simp, .write ht⟩
    | counted x =>
      obtain ⟨h1, h2, h3⟩ := hs
      have hlen : s.hist.centres.length = n := by rw [h2]; simp
      have hget : ∀ i (hi' : i < s.hist.centres.length), s.hist.centres[i] = binCentre lo hi n i := by
        intro i hi'
        simp [h2]
      dsimp only
      rw [rd_ok (by omega : 0 < s.hist.centres.length), Res.ok_bind, h1, usub_of_le (by omega) hb,
        rd_ok (by omega : n - 1 < s.hist.centres.length), Res.ok_bind, hget, hget, binCentre_zero,
        binCentre_last lo hi hn]
      by_cases hin : lo < x ∧ x < hi
      · rw [if_pos (by simpa using hin)]
        have hsort : s.hist.centres.Pairwise (· < ·) := by rw [h2]; exact centres_sorted hlt hn
        obtain ⟨i, hi1, hi2, hi3, hi4⟩ := C07_nearest hsort
          (by intro h0; rw [h0] at hlen; simp at hlen; omega) (by rw [hlen]; exact hb) x
        have hin' : InBin lo hi n i x := by
          refine ⟨hin.1, hin.2, by omega, ?_, ?_⟩
          · intro j hj
            have := hi3 j (by omega)
            rwa [hget, hget] at this
          · intro j hj
            have := hi4 j (by omega)
            rwa [hget, hget] at this
        rw [hi2, Res.ok_bind, rd_ok (by omega : i < s.hist.values.length), Res.ok_bind]
        exact ⟨_, rfl, .inside ht hin' (List.getElem?_eq_getElem (by omega))⟩
      · rw [if_neg (by simpa using hin)]
        exact ⟨_, rfl, .outside ht hin⟩

theorem Move.shape {lo hi : ℝ} {n t : Nat} {s s' : State ℝ} (h : Move lo hi n t s s')
    (hs : s.hist.Shape lo hi n) : s'.hist.Shape lo hi n := by
  obtain ⟨h1, h2, h3⟩ := hs
  cases h <;> first
    | exact ⟨h1, h2, h3⟩
    | exact ⟨h1, h2, by simpa [State.put] using h3⟩

/-- An invariant of all moves is one of all executions. -/
theorem exec_invariant {lo hi : ℝ} {n : Nat} (hlt : lo < hi) (hn : 2 ≤ n) (hb : n < 2 ^ 32)
    {I : State ℝ → Prop}
    (hI : ∀ t s s', s.hist.Shape lo hi n → I s → Move lo hi n t s s' → I s') :
    ∀ (sched : List Nat) {s : State ℝ}, s.hist.Shape lo hi n → I s →
      ∃ s', exec sched s = .ok s' ∧ s'.hist.Shape lo hi n ∧ I s'
  | [], s, hs, h => ⟨s, rfl, hs, h⟩
  | t :: ts, s, hs, h => by
    obtain ⟨s1, e1, m1⟩ := step_move hlt hn hb t hs
    obtain ⟨s2, e2, h2⟩ := exec_invariant hlt hn hb hI ts (m1.shape hs) (hI t s s1 hs h m1)
    exact ⟨s2, by simp only [exec]; rw [e1, Res.ok_bind, e2], h2⟩

/-! ### How much a thread has still to add to a bin -/

open Classical in
/-- What the place inside `AppParticle` still owes to bin `i`. -/
noncomputable def Pc.owes (lo hi : ℝ) (n i : Nat) : Pc ℝ → Nat
  | .idle => 0
  | .sawEntries x _ => if InBin lo hi n i x then 1 else 0
  | .counted x => if InBin lo hi n i x then 1 else 0
  | .sawBin j _ => if j = i then 1 else 0

open Classical in
/-- What a thread still owes to bin `i`. -/
noncomputable def Local.owes (lo hi : ℝ) (n i : Nat) (l : Local ℝ) : Nat :=
  l.todo.countP (fun x => InBin lo hi n i x) + l.pc.owes lo hi n i

/-- What all threads still owe to bin `i`. -/
noncomputable def State.owed (lo hi : ℝ) (n i : Nat) (s : State ℝ) : Nat :=
  (s.threads.map (Local.owes lo hi n i)).sum

theorem owed_put {lo hi : ℝ} {n i t : Nat} {s : State ℝ} {l : Local ℝ} (h : s.threads[t]? = some l)
    (todo : List ℝ) (pc : Pc ℝ) :
    (s.put t todo pc).owed lo hi n i + l.owes lo hi n i =
      s.owed lo hi n i + (⟨todo, pc⟩ : Local ℝ).owes lo hi n i :=
  sum_set (Local.owes lo hi n i) s.threads t l ⟨todo, pc⟩ h

theorem owes_le {lo hi : ℝ} {n i t : Nat} {s : State ℝ} {l : Local ℝ} (h : s.threads[t]? = some l) :
    l.owes lo hi n i ≤ s.owed lo hi n i :=
  List.le_sum_of_mem (List.mem_map_of_mem (List.mem_of_getElem? h))

/-- A move other than the writing of bin `i` leaves what is owed as it is; the writing reduces it by
one. -/
theorem Move.owed {lo hi : ℝ} {n t : Nat} {s s' : State ℝ} (h : Move lo hi n t s s') (i : Nat) :
    (s'.owed lo hi n i = s.owed lo hi n i ∧ s'.hist.values[i]? = s.hist.values[i]?) ∨
    (∃ todo v, s.threads[t]? = some ⟨todo, .sawBin i v⟩ ∧ s'.owed lo hi n i + 1 = s.owed lo hi n i ∧
      s'.hist.values = s.hist.values.set i (v + 1)) := by
  cases h with
  | stay h => exact .inl ⟨rfl, rfl⟩
  | @start x xs h =>
    refine .inl ⟨?_, rfl⟩
    have := owed_put (lo := lo) (hi := hi) (n := n) (i := i) h xs (.sawEntries x s.hist.entries)
    simp only [Local.owes, Pc.owes, List.countP_cons] at this
    by_cases hx : InBin lo hi n i x <;> simp [hx] at this <;> omega
  | @entry todo x m h =>
    refine .inl ⟨?_, rfl⟩
    have := owed_put (lo := lo) (hi := hi) (n := n) (i := i) h todo (.counted x)
    simp only [Local.owes, Pc.owes] at this
    show (s.put t todo (.counted x)).owed lo hi n i = _
    omega
  | @inside todo x j v h hj hv =>
    refine .inl ⟨?_, rfl⟩
    have := owed_put (lo := lo) (hi := hi) (n := n) (i := i) h todo (.sawBin j v)
    simp only [Local.owes, Pc.owes] at this
    have e : InBin lo hi n i x ↔ j = i := ⟨fun h' => hj.unique h', fun h' => h' ▸ hj⟩
    by_cases hx : InBin lo hi n i x
    · rw [if_pos hx, if_pos (e.1 hx)] at this; omega
    · rw [if_neg hx, if_neg (fun h' => hx (e.2 h'))] at this; omega
  | @outside todo x h hx =>
    refine .inl ⟨?_, rfl⟩
    have := owed_put (lo := lo) (hi := hi) (n := n) (i := i) h todo .idle
    simp only [Local.owes, Pc.owes] at this
    rw [if_neg (fun h' => hx ⟨h'.1, h'.2.1⟩)] at this
    omega
  | @write todo j v h =>
    have := owed_put (lo := lo) (hi := hi) (n := n) (i := i) h todo .idle
    simp only [Local.owes, Pc.owes] at this
    by_cases hj : j = i
    · subst hj
      rw [if_pos rfl] at this
      refine .inr ⟨todo, v, h, ?_, rfl⟩
      show (s.put t todo .idle).owed lo hi n j + 1 = _
      omega
    · rw [if_neg hj] at this
      refine .inl ⟨?_, ?_⟩
      · show (s.put t todo .idle).owed lo hi n i = _
        omega
      · show (s.hist.values.set j (v + 1))[i]? = _
        rw [List.getElem?_set_ne hj]

/-- Where the values of bin `i` seen by the threads come from. -/
theorem Move.seen {lo hi : ℝ} {n t : Nat} {s s' : State ℝ} (h : Move lo hi n t s s') {i : Nat} {l : Local ℝ}
    {v : ℝ} (hl : l ∈ s'.threads) (hv : l.pc = .sawBin i v) :
    (∃ l' ∈ s.threads, l'.pc = .sawBin i v) ∨ s.hist.values[i]? = some v := by
  have key : ∀ {todo : List ℝ} {pc : Pc ℝ}, l ∈ s.threads.set t ⟨todo, pc⟩ →
      (l ∈ s.threads ∨ l.pc = pc) := by
    intro todo pc hm
    rcases List.mem_or_eq_of_mem_set hm with h | h
    · exact .inl h
    · exact .inr (by rw [h])
  cases h with
  | stay h => exact .inl ⟨l, hl, hv⟩
  | inside h hj hv' =>
    rcases key hl with h | h
    · exact .inl ⟨l, h, hv⟩
    · rw [hv] at h; cases h; exact .inr hv'
  | _ h =>
    rcases key hl with h | h
    · exact .inl ⟨l, h, hv⟩
    · rw [hv] at h; cases h

/-! ### Finishing -/

/-- How many steps a thread may still take. -/
def Local.work (l : Local ℝ) : Nat :=
  4 * l.todo.length + (match l.pc with | .idle => 0 | .sawEntries _ _ => 3 | .counted _ => 2 | .sawBin _ _ => 1)

/-- How many steps all threads may still take. -/
def State.work (s : State ℝ) : Nat := (s.threads.map Local.work).sum

theorem work_put {t : Nat} {s : State ℝ} {l : Local ℝ} (h : s.threads[t]? = some l)
    (todo : List ℝ) (pc : Pc ℝ) :
    (s.put t todo pc).work + l.work = s.work + (⟨todo, pc⟩ : Local ℝ).work :=
  sum_set Local.work s.threads t l ⟨todo, pc⟩ h

theorem Move.work {lo hi : ℝ} {n t : Nat} {s s' : State ℝ} (h : Move lo hi n t s s') {l : Local ℝ}
    (hl : s.threads[t]? = some l) (hw : l.todo ≠ [] ∨ l.pc ≠ .idle) : s'.work < s.work := by
  cases h with
  | stay h =>
    obtain ⟨h1, h2⟩ := h l hl
    rcases hw with h | h
    · exact absurd h1 h
    · exact absurd h2 h
  | @start x xs h =>
    have := work_put h xs (.sawEntries x s.hist.entries)
    simp only [Local.work, List.length_cons] at this
    omega
  | @entry todo x m h =>
    have := work_put h todo (.counted x)
    simp only [Local.work] at this
    show (s.put t todo (.counted x)).work < _
    omega
  | @inside todo x j v h hj hv =>
    have := work_put h todo (.sawBin j v)
    simp only [Local.work] at this
    omega
  | @outside todo x h hx =>
    have := work_put h todo .idle
    simp only [Local.work] at this
    omega
  | @write todo j v h =>
    have := work_put h todo .idle
    simp only [Local.work] at this
    show (s.put t todo .idle).work < _
    omega

theorem complete {lo hi : ℝ} {n : Nat} (hlt : lo < hi) (hn : 2 ≤ n) (hb : n < 2 ^ 32) :
    ∀ (w : Nat) (s : State ℝ), s.work ≤ w → s.hist.Shape lo hi n →
      ∃ rest s', exec rest s = .ok s' ∧ s'.Finished := by
  intro w
  induction w with
  | zero =>
    intro s hw hs
    refine ⟨[], s, rfl, fun l hl => ?_⟩
    have : l.work ≤ s.work := List.le_sum_of_mem (List.mem_map_of_mem hl)
    have h0 : l.work = 0 := by omega
    obtain ⟨todo, pc⟩ := l
    cases pc <;> simp [Local.work] at h0
    exact ⟨h0, rfl⟩
  | succ w ih =>
    intro s hw hs
    by_cases hf : s.Finished
    · exact ⟨[], s, rfl, hf⟩
    · unfold State.Finished at hf
      push Not at hf
      obtain ⟨l, hl, hx⟩ := hf
      obtain ⟨t, ht⟩ := List.mem_iff_getElem?.1 hl
      obtain ⟨s1, e1, m1⟩ := step_move hlt hn hb t hs
      have hlt' := m1.work ht (by
        by_cases h0 : l.todo = []
        · exact .inr (hx h0)
        · exact .inl h0)
      obtain ⟨rest, s2, e2, h2⟩ := ih s1 (by omega) (m1.shape hs)
      exact ⟨t :: rest, s2, by simp only [exec]; rw [e1, Res.ok_bind, e2], h2⟩

theorem Finished.owed {lo hi : ℝ} {n i : Nat} {s : State ℝ} (h : s.Finished) : s.owed lo hi n i = 0 := by
  unfold State.owed
  rw [List.sum_eq_zero]
  intro x hx
  obtain ⟨l, hl, rfl⟩ := List.mem_map.1 hx
  obtain ⟨h1, h2⟩ := h l hl
  simp [Local.owes, Pc.owes, h1, h2]

end SharedHist
end QED

namespace QED
namespace SharedHist

/-! ### A thread running alone -/

theorem put_threads {D : Type} [Dbl D] (s : State D) (t : Nat) (todo : List D) (pc : Pc D) :
    (s.put t todo pc).threads = s.threads.set t ⟨todo, pc⟩ := rfl

/-- A thread that starts with its next value and gets as far as having read the bin, if the value has
one. -/
theorem alone_seen {lo hi : ℝ} {n : Nat} (hlt : lo < hi) (hn : 2 ≤ n) (hb : n < 2 ^ 32) {t : Nat}
    {s : State ℝ} (hs : s.hist.Shape lo hi n) {x : ℝ} {xs : List ℝ}
    (ht : s.threads[t]? = some ⟨x :: xs, .idle⟩) :
    ∃ s', exec [t, t, t] s = .ok s' ∧ s'.hist.Shape lo hi n ∧ s'.hist.values = s.hist.values ∧
      ((∃ i v, InBin lo hi n i x ∧ s.hist.values[i]? = some v ∧
          s'.threads = s.threads.set t ⟨xs, .sawBin i v⟩) ∨
        (¬ (lo < x ∧ x < hi) ∧ s'.threads = s.threads.set t ⟨xs, .idle⟩)) := by
  have hlt' : t < s.threads.length := (List.getElem?_eq_some_iff.1 ht).1
  obtain ⟨s1, e1, m1⟩ := step_move hlt hn hb t hs
  have hs1 := m1.shape hs
  have k1 : s1.threads = s.threads.set t ⟨xs, .sawEntries x s.hist.entries⟩ ∧
      s1.hist.values = s.hist.values := by
    cases m1 with
    | stay h => exact absurd (h _ ht).1 (by simp)
    | start h => rw [ht] at h; cases h; exact ⟨rfl, rfl⟩
    | _ h => rw [ht] at h; cases h
  have ht1 : s1.threads[t]? = some ⟨xs, .sawEntries x s.hist.entries⟩ := by
    rw [k1.1, List.getElem?_set_self hlt']
  obtain ⟨s2, e2, m2⟩ := step_move hlt hn hb t hs1
  have hs2 := m2.shape hs1
  have k2 : s2.threads = s.threads.set t ⟨xs, .counted x⟩ ∧ s2.hist.values = s.hist.values := by
    cases m2 with
    | stay h => exact absurd (h _ ht1).2 (by simp)
    | entry h =>
      rw [ht1] at h; cases h
      exact ⟨by rw [put_threads]; dsimp only; rw [k1.1, List.set_set], k1.2⟩
    | _ h => rw [ht1] at h; cases h
  have ht2 : s2.threads[t]? = some ⟨xs, .counted x⟩ := by
    rw [k2.1, List.getElem?_set_self hlt']
  obtain ⟨s3, e3, m3⟩ := step_move hlt hn hb t hs2
  have hs3 := m3.shape hs2
  refine ⟨s3, ?_, hs3, ?_⟩
  · simp only [exec]
    rw [e1, Res.ok_bind, e2, Res.ok_bind, e3, Res.ok_bind]
  · cases m3 with
    | stay h => exact absurd (h _ ht2).2 (by simp)
    | @inside todo y i v h hj hv =>
      rw [ht2] at h; cases h
      exact ⟨k2.2, .inl ⟨i, v, hj, by rw [← k2.2]; exact hv,
        by rw [put_threads, k2.1, List.set_set]⟩⟩
    | outside h hx =>
      rw [ht2] at h; cases h
      exact ⟨k2.2, .inr ⟨hx, by rw [put_threads, k2.1, List.set_set]⟩⟩
    | _ h => rw [ht2] at h; cases h

/-- The write that ends a call. -/
theorem write_step {lo hi : ℝ} {n : Nat} (hlt : lo < hi) (hn : 2 ≤ n) (hb : n < 2 ^ 32) {t : Nat}
    {s : State ℝ} (hs : s.hist.Shape lo hi n) {i : Nat} {v : ℝ} {xs : List ℝ}
    (ht : s.threads[t]? = some ⟨xs, .sawBin i v⟩) :
    ∃ s', exec [t] s = .ok s' ∧ s'.hist.Shape lo hi n ∧ s'.hist.values = s.hist.values.set i (v + 1) ∧
      s'.threads = s.threads.set t ⟨xs, .idle⟩ := by
  obtain ⟨s1, e1, m1⟩ := step_move hlt hn hb t hs
  refine ⟨s1, by simp only [exec]; rw [e1, Res.ok_bind], m1.shape hs, ?_⟩
  cases m1 with
  | stay h => exact absurd (h _ ht).2 (by simp)
  | write h => rw [ht] at h; cases h; exact ⟨rfl, rfl⟩
  | _ h => rw [ht] at h; cases h

open Classical in
/-- A thread that runs alone through the values `xs` adds each of them to its bin. -/
theorem alone {lo hi : ℝ} {n : Nat} (hlt : lo < hi) (hn : 2 ≤ n) (hb : n < 2 ^ 32) {t : Nat}
    {rest : List ℝ} : ∀ (xs : List ℝ) {s : State ℝ}, s.hist.Shape lo hi n →
    s.threads[t]? = some ⟨xs ++ rest, .idle⟩ →
    ∃ sched s', exec sched s = .ok s' ∧ s'.hist.Shape lo hi n ∧
      s'.threads = s.threads.set t ⟨rest, .idle⟩ ∧
      ∀ (i : Nat) (v : ℝ), s.hist.values[i]? = some v →
        s'.hist.values[i]? = some (v + xs.countP (fun x => InBin lo hi n i x))
  | [], s, hs, ht => ⟨[], s, rfl, hs, by
      obtain ⟨h1, h2⟩ := List.getElem?_eq_some_iff.1 ht
      have : s.threads.set t s.threads[t] = s.threads := List.set_getElem_self h1
      rw [h2] at this; exact this.symm, by simp⟩
  | x :: xs, s, hs, ht => by
    have hlt' : t < s.threads.length := (List.getElem?_eq_some_iff.1 ht).1
    obtain ⟨s1, e1, hs1, hv1, h1⟩ := alone_seen hlt hn hb hs (x := x) (xs := xs ++ rest) ht
    have hone : ∃ sched s2, exec sched s1 = .ok s2 ∧ s2.hist.Shape lo hi n ∧
        s2.threads = s.threads.set t ⟨xs ++ rest, .idle⟩ ∧
        ∀ (i : Nat) (v : ℝ), s.hist.values[i]? = some v →
          s2.hist.values[i]? = some (v + if InBin lo hi n i x then 1 else 0) := by
      rcases h1 with ⟨j, w, hj, hw, h1⟩ | ⟨hx, h1⟩
      · obtain ⟨s2, e2, hs2, hv2, h2⟩ := write_step hlt hn hb hs1 (t := t) (i := j) (v := w)
          (xs := xs ++ rest) (by rw [h1, List.getElem?_set_self hlt'])
        refine ⟨[t], s2, e2, hs2, by rw [h2, h1, List.set_set], ?_⟩
        intro i v hv
        rw [hv2, hv1, List.getElem?_set]
        by_cases hij : j = i
        · subst hij
          rw [hw] at hv; cases hv
          rw [if_pos rfl, if_pos (List.getElem?_eq_some_iff.1 hw).1, if_pos hj]
        · rw [if_neg hij, hv, if_neg (fun h' => hij (hj.unique h')), add_zero]
      · refine ⟨[], s1, rfl, hs1, h1, ?_⟩
        intro i v hv
        rw [hv1, hv, if_neg (fun h' => hx ⟨h'.1, h'.2.1⟩), add_zero]
    obtain ⟨sc2, s2, e2, hs2, ht2, hv2⟩ := hone
    obtain ⟨sc3, s3, e3, hs3, ht3, hv3⟩ := alone hlt hn hb xs hs2
      (by rw [ht2, List.getElem?_set_self hlt'])
    refine ⟨[t, t, t] ++ (sc2 ++ sc3), s3, ?_, hs3, ?_, ?_⟩
    · rw [exec_append, e1, Res.ok_bind, exec_append, e2, Res.ok_bind, e3]
    · rw [ht3, ht2, List.set_set]
    · intro i v hv
      rw [hv3 i _ (hv2 i v hv), List.countP_cons]
      by_cases hx : InBin lo hi n i x <;> simp [hx]
      ring

end SharedHist
end QED

namespace QED
namespace SharedHist

/-! ### Calls that do not overlap -/

section serial

variable {D : Type} [Dbl D]

/-- The values still to be added, over all threads. -/
def State.todo (s : State D) : List D := (s.threads.map Local.todo).flatten

/-- The histogram in the middle of adding `x` to `h`. -/
def Mid (x : D) (h hist : Hist D) : Pc D → Prop
  | .idle => False
  | .sawEntries y m => y = x ∧ m = h.entries ∧ hist = h
  | .counted y => y = x ∧ hist = { h with entries := Hist.incr h.entries }
  | .sawBin i v => h.count x = .ok { hist with values := hist.values.set i (Dbl.add v (Dbl.lit 1)) }

/-- What holds as long as no two calls overlap: the histogram is what adding some of the values one by
one gives, up to a single call in progress. -/
def Serial (h0 : Hist D) (all : List D) (s : State D) : Prop :=
  ∃ done h, done.foldlM Hist.count h0 = .ok h ∧
    (((∀ l ∈ s.threads, l.pc = .idle) ∧ s.hist = h ∧ (done ++ s.todo).Perm all) ∨
     (∃ (t : Nat) (l : Local D) (x : D), s.threads[t]? = some l ∧ (done ++ x :: s.todo).Perm all ∧ Mid x h s.hist l.pc ∧
        ∀ (u : Nat) (lu : Local D), u ≠ t → s.threads[u]? = some lu → lu.pc = .idle))

theorem todo_set : ∀ (ls : List (Local D)) (t : Nat) (l : Local D) (x : D) (xs : List D) (pc : Pc D),
    ls[t]? = some l → l.todo = x :: xs →
    ((ls.map Local.todo).flatten).Perm (x :: ((ls.set t ⟨xs, pc⟩).map Local.todo).flatten)
  | [], t, l, x, xs, pc, h, _ => by simp at h
  | a :: ls, 0, l, x, xs, pc, h, hl => by
      simp at h; subst h
      simp [hl]
  | a :: ls, t + 1, l, x, xs, pc, h, hl => by
      simp at h
      have := todo_set ls t l x xs pc h hl
      simp only [List.map_cons, List.flatten_cons, List.set_cons_succ]
      exact (this.append_left a.todo).trans List.perm_middle

theorem todo_set_same : ∀ (ls : List (Local D)) (t : Nat) (l : Local D) (pc : Pc D),
    ls[t]? = some l → ((ls.set t ⟨l.todo, pc⟩).map Local.todo).flatten = (ls.map Local.todo).flatten
  | [], t, l, pc, h => by simp at h
  | a :: ls, 0, l, pc, h => by simp at h; subst h; simp
  | a :: ls, t + 1, l, pc, h => by
      simp at h
      have := todo_set_same ls t l pc h
      simp only [List.map_cons, List.flatten_cons, List.set_cons_succ, this]

theorem Serial.init (h : Hist D) (shares : List (List D)) :
    Serial h shares.flatten (.init h shares) := by
  refine ⟨[], h, rfl, .inl ⟨?_, rfl, ?_⟩⟩
  · intro l hl
    obtain ⟨todo, -, rfl⟩ := List.mem_map.1 hl
    rfl
  · simp [State.init, State.todo, Function.comp_def]

/-- The end of a call. -/
theorem Serial.end_call {h0 : Hist D} {all : List D} {s s' : State D} {done : List D} {h : Hist D}
    {t : Nat} {l : Local D} {x : D} (hd : done.foldlM Hist.count h0 = .ok h)
    (hp : (done ++ x :: s.todo).Perm all)
    (ho : ∀ (u : Nat) (lu : Local D), u ≠ t → s.threads[u]? = some lu → lu.pc = .idle)
    (ht : s.threads[t]? = some l) (hc : h.count x = .ok s'.hist)
    (hs' : s'.threads = s.threads.set t ⟨l.todo, .idle⟩) : Serial h0 all s' := by
  refine ⟨done ++ [x], s'.hist, ?_, .inl ⟨?_, rfl, ?_⟩⟩
  · rw [List.foldlM_append, hd]
    simp only [Res.ok_bind, List.foldlM_cons, List.foldlM_nil]
    rw [hc]; rfl
  · intro lu hu
    rw [hs'] at hu
    obtain ⟨u, hu⟩ := List.mem_iff_getElem?.1 hu
    by_cases hut : u = t
    · subst hut
      rw [List.getElem?_set_self (List.getElem?_eq_some_iff.1 ht).1] at hu
      cases hu; rfl
    · rw [List.getElem?_set_ne (Ne.symm hut)] at hu
      exact ho u lu hut hu
  · unfold State.todo
    rw [hs', todo_set_same _ _ _ _ ht]
    simpa [State.todo] using hp

theorem Serial.step {h0 : Hist D} {all : List D} {s s' : State D} (h : Serial h0 all s) {t : Nat}
    (he : step t s = .ok s') (ho : s'.AtMostOne) : Serial h0 all s' := by
  obtain ⟨done, hh, hd, hc⟩ := h
  unfold SharedHist.step at he
  cases ht : s.threads[t]? with
  | none => rw [ht] at he; cases he; exact ⟨done, hh, hd, hc⟩
  | some l =>
    have hlt : t < s.threads.length := (List.getElem?_eq_some_iff.1 ht).1
    rw [ht] at he
    obtain ⟨todo, pc⟩ := l
    -- the thread that is inside a call is `t`
    have inside : pc ≠ .idle → ∃ x, (done ++ x :: s.todo).Perm all ∧ Mid x hh s.hist pc ∧
        ∀ (u : Nat) (lu : Local D), u ≠ t → s.threads[u]? = some lu → lu.pc = .idle := by
      intro hpc
      rcases hc with ⟨h1, -, -⟩ | ⟨t', l', x, h1, h2, h3, h4⟩
      · exact absurd (h1 _ (List.mem_of_getElem? ht)) hpc
      · by_cases htt : t = t'
        · subst htt
          rw [ht] at h1; cases h1
          exact ⟨x, h2, h3, h4⟩
        · exact absurd (h4 t _ htt ht) hpc
    cases pc with
    | idle =>
      cases todo with
      | nil => cases he; exact ⟨done, hh, hd, hc⟩
      | cons x xs =>
        dsimp only at he
        split at he
        · cases he
        · cases he
          rcases hc with ⟨h1, h2, h3⟩ | ⟨t', l', y, h1, h2, h3, h4⟩
          · refine ⟨done, hh, hd, .inr ⟨t, ⟨xs, .sawEntries x s.hist.entries⟩, x, ?_, ?_, ?_, ?_⟩⟩
            · rw [put_threads, List.getElem?_set_self hlt]
            · refine List.Perm.trans ?_ h3
              refine List.Perm.append_left done (List.Perm.symm ?_)
              exact todo_set s.threads t _ x xs _ ht rfl
            · exact ⟨rfl, by rw [h2], h2⟩
            · intro u lu hu hl
              rw [put_threads, List.getElem?_set_ne (Ne.symm hu)] at hl
              exact h1 lu (List.mem_of_getElem? hl)
          · exfalso
            have htt : t ≠ t' := by
              rintro rfl
              rw [ht] at h1; cases h1; exact h3
            have hpc : l'.pc ≠ .idle := by
              intro h0; rw [h0] at h3; exact h3
            exact htt (ho t t' ⟨xs, .sawEntries x s.hist.entries⟩ l'
              (by rw [put_threads, List.getElem?_set_self hlt])
              (by rw [put_threads, List.getElem?_set_ne htt]; exact h1) (by simp) hpc)
    | sawEntries y m =>
      cases he
      obtain ⟨x, h1, ⟨rfl, rfl, h3⟩, h4⟩ := inside (by simp)
      refine ⟨done, hh, hd, .inr ⟨t, ⟨todo, .counted y⟩, y, ?_, ?_, ⟨rfl, ?_⟩, ?_⟩⟩
      · rw [put_threads, List.getElem?_set_self hlt]
      · have := todo_set_same s.threads t _ (.counted y) ht
        unfold State.todo
        rw [put_threads]
        dsimp only at this ⊢
        rw [this]
        exact h1
      · show { s.hist with entries := Hist.incr hh.entries } = _
        rw [h3]
      · intro u lu hu hl
        rw [put_threads, List.getElem?_set_ne (Ne.symm hu)] at hl
        exact h4 u lu hu hl
    | counted y =>
      obtain ⟨x, h1, ⟨rfl, h3⟩, h4⟩ := inside (by simp)
      have hcount : hh.count y = (do
          let first ← rd s.hist.centres 0
          let last ← rd s.hist.centres (Numerics.usub s.hist.nBins 1)
          if Dbl.lt first y && Dbl.lt y last then
            let index ← Numerics.arrayIndex s.hist.centres y
            let v ← rd s.hist.values index
            .ok { s.hist with values := s.hist.values.set index (Dbl.add v (Dbl.lit 1)) }
          else .ok s.hist) := by
        rw [h3]; rfl
      dsimp only at he
      cases e1 : rd s.hist.centres 0 with
      | ok first =>
        rw [e1, Res.ok_bind] at he hcount
        cases e2 : rd s.hist.centres (Numerics.usub s.hist.nBins 1) with
        | ok last =>
          rw [e2, Res.ok_bind] at he hcount
          split at he
          · rename_i hin
            rw [if_pos hin] at hcount
            cases e3 : Numerics.arrayIndex s.hist.centres y with
            | ok i =>
              rw [e3, Res.ok_bind] at he hcount
              cases e4 : rd s.hist.values i with
              | ok v =>
                rw [e4, Res.ok_bind] at he hcount
                cases he
                refine ⟨done, hh, hd, .inr ⟨t, ⟨todo, .sawBin i v⟩, y, ?_, ?_, hcount, ?_⟩⟩
                · rw [put_threads, List.getElem?_set_self hlt]
                · have := todo_set_same s.threads t _ (.sawBin i v) ht
                  unfold State.todo
                  rw [put_threads]
                  dsimp only at this ⊢
                  rw [this]
                  exact h1
                · intro u lu hu hl
                  rw [put_threads, List.getElem?_set_ne (Ne.symm hu)] at hl
                  exact h4 u lu hu hl
              | exit c => rw [e4] at he; cases he
              | throw w => rw [e4] at he; cases he
              | ub w => rw [e4] at he; cases he
            | exit c => rw [e3] at he; cases he
            | throw w => rw [e3] at he; cases he
            | ub w => rw [e3] at he; cases he
          · rename_i hin
            rw [if_neg hin] at hcount
            cases he
            exact Serial.end_call (s := s) (l := ⟨todo, .counted y⟩) hd h1 h4 ht hcount rfl
        | exit c => rw [e2] at he; cases he
        | throw w => rw [e2] at he; cases he
        | ub w => rw [e2] at he; cases he
      | exit c => rw [e1] at he; cases he
      | throw w => rw [e1] at he; cases he
      | ub w => rw [e1] at he; cases he
    | sawBin i v =>
      cases he
      obtain ⟨x, h1, h3, h4⟩ := inside (by simp)
      exact Serial.end_call (s := s) (l := ⟨todo, .sawBin i v⟩) hd h1 h4 ht h3 rfl

theorem Serial.exec {h0 : Hist D} {all : List D} : ∀ (sched : List Nat) {s s' : State D},
    Serial h0 all s → (∀ k s', exec (sched.take k) s = .ok s' → s'.AtMostOne) →
    SharedHist.exec sched s = .ok s' → Serial h0 all s'
  | [], s, s', h, _, he => by cases he; exact h
  | t :: ts, s, s', h, ho, he => by
    simp only [SharedHist.exec] at he
    cases e1 : SharedHist.step t s with
    | ok s1 =>
      rw [e1, Res.ok_bind] at he
      refine Serial.exec ts (h.step e1 (ho 1 s1 ?_)) (fun k s2 hk => ho (k + 1) s2 ?_) he
      · simp only [List.take_succ_cons, List.take_zero, SharedHist.exec]; rw [e1, Res.ok_bind]
      · simp only [List.take_succ_cons, SharedHist.exec]; rw [e1, Res.ok_bind, hk]
    | exit c => rw [e1] at he; cases he
    | throw w => rw [e1] at he; cases he
    | ub w => rw [e1] at he; cases he

end serial

end SharedHist
end QED
