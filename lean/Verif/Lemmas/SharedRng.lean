import Verif.Model.SharedState
import Verif.Lemmas.Threads

set_option autoImplicit false

/-!
# Lemmas on random numbers drawn by several threads
-/

namespace QED
namespace SharedRng

open Threads (sum_set)

theorem exec_append : ∀ (a b : List Nat) (s : State), exec (a ++ b) s = exec b (exec a s)
  | [], _, _ => rfl
  | t :: a, b, s => exec_append a b (step t s)

/-- How many draws a thread has still to finish. -/
def Local.left (l : Local) : Nat := l.todo + (if l.seen.isSome then 1 else 0)

/-- Draws left over all threads. -/
def State.left (s : State) : Nat := (s.threads.map Local.left).sum

/-- How many steps a thread has still to take. -/
def Local.work (l : Local) : Nat := 2 * l.todo + (if l.seen.isSome then 1 else 0)

/-- Steps left over all threads. -/
def State.work (s : State) : Nat := (s.threads.map Local.work).sum

/-- The invariant of every interleaving. -/
structure Inv (n : Nat) (s : State) : Prop where
  pos : s.pos ≤ s.used.length
  seen : ∀ l ∈ s.threads, ∀ p, l.seen = some p → p ≤ s.used.length
  used : ∀ u ∈ s.used, u.2 < s.used.length
  total : s.used.length + s.left = n

theorem Inv.init (shares : List Nat) : Inv shares.sum (.init shares) := by
  refine ⟨Nat.zero_le _, ?_, ?_, ?_⟩
  · intro l hl p hp
    obtain ⟨k, -, rfl⟩ := List.mem_map.1 hl
    cases hp
  · intro u hu; cases hu
  · simp [State.init, State.left, Local.left, Function.comp_def]

theorem Inv.step {n t : Nat} {s : State} (h : Inv n s) : Inv n (step t s) := by
  obtain ⟨h1, h2, h3, h4⟩ := h
  unfold SharedRng.step
  cases ht : s.threads[t]? with
  | none => exact ⟨h1, h2, h3, h4⟩
  | some l =>
    obtain ⟨k, seen⟩ := l
    cases seen with
    | none =>
      cases k with
      | zero => exact ⟨h1, h2, h3, h4⟩
      | succ k =>
        refine ⟨h1, ?_, h3, ?_⟩
        · intro l hl p hp
          rcases List.mem_or_eq_of_mem_set hl with h | h
          · exact h2 l h p hp
          · subst h; cases hp; exact h1
        · have := sum_set Local.left s.threads t _ ⟨k, some s.pos⟩ ht
          simp only [Local.left, Option.isSome_none, Option.isSome_some, if_true] at this
          show s.used.length + ((s.threads.set t ⟨k, some s.pos⟩).map Local.left).sum = n
          unfold State.left at h4
          simp only [Bool.false_eq_true, if_false] at this
          omega
    | some p =>
      have hp := h2 _ (List.mem_of_getElem? ht) p rfl
      refine ⟨by simpa using hp, ?_, ?_, ?_⟩
      · intro l hl q hq
        rcases List.mem_or_eq_of_mem_set hl with h | h
        · have := h2 l h q hq; simp; omega
        · subst h; cases hq
      · intro u hu
        rcases List.mem_append.1 hu with h | h
        · have := h3 u h; simp; omega
        · simp only [List.mem_singleton] at h; subst h; simp; omega
      · have := sum_set Local.left s.threads t _ ⟨k, none⟩ ht
        simp only [Local.left, Option.isSome_none, Option.isSome_some, if_true, Bool.false_eq_true,
          if_false] at this
        show (s.used ++ [(t, p)]).length + ((s.threads.set t ⟨k, none⟩).map Local.left).sum = n
        unfold State.left at h4
        rw [List.length_append, List.length_singleton]
        omega

theorem Inv.exec {n : Nat} : ∀ (sched : List Nat) {s : State}, Inv n s → Inv n (exec sched s)
  | [], _, h => h
  | t :: ts, _, h => Inv.exec ts (h.step (t := t))

theorem step_work {t : Nat} {s : State} {l : Local} (ht : s.threads[t]? = some l)
    (hw : 0 < l.todo ∨ l.seen ≠ none) : (step t s).work < s.work := by
  obtain ⟨k, seen⟩ := l
  cases seen with
  | none =>
    cases k with
    | zero => simp at hw
    | succ k =>
      have e : step t s = { s with threads := s.threads.set t ⟨k, some s.pos⟩ } := by
        unfold step; rw [ht]
      rw [e]
      have := sum_set Local.work s.threads t _ ⟨k, some s.pos⟩ ht
      show ((s.threads.set t ⟨k, some s.pos⟩).map Local.work).sum < (s.threads.map Local.work).sum
      simp only [Local.work, Option.isSome_none, Option.isSome_some, if_true, Bool.false_eq_true,
          if_false] at this
      omega
  | some p =>
    have e : step t s =
        { pos := p + 1, threads := s.threads.set t ⟨k, none⟩, used := s.used ++ [(t, p)] } := by
      unfold step; rw [ht]
    rw [e]
    have := sum_set Local.work s.threads t _ ⟨k, none⟩ ht
    show ((s.threads.set t ⟨k, none⟩).map Local.work).sum < (s.threads.map Local.work).sum
    simp only [Local.work, Option.isSome_none, Option.isSome_some, if_true, Bool.false_eq_true,
          if_false] at this
    omega

theorem complete : ∀ (w : Nat) (s : State), s.work ≤ w → ∃ rest, (exec rest s).Finished := by
  intro w
  induction w with
  | zero =>
    intro s hw
    refine ⟨[], fun l hl => ?_⟩
    have : l.work ≤ s.work := List.le_sum_of_mem (List.mem_map_of_mem hl)
    have h0 : l.work = 0 := by omega
    obtain ⟨k, seen⟩ := l
    cases seen <;> simp [Local.work] at h0
    exact ⟨h0, rfl⟩
  | succ w ih =>
    intro s hw
    by_cases hf : s.Finished
    · exact ⟨[], hf⟩
    · unfold State.Finished at hf
      push Not at hf
      obtain ⟨l, hl, hx⟩ := hf
      obtain ⟨t, ht⟩ := List.mem_iff_getElem?.1 hl
      have := step_work ht (by
        by_cases h0 : l.todo = 0
        · exact .inr (hx h0)
        · exact .inl (by omega))
      obtain ⟨rest, h⟩ := ih (step t s) (by omega)
      exact ⟨t :: rest, h⟩

theorem step_used (t : Nat) (s : State) : s.used <+: (step t s).used := by
  unfold step
  (repeat' split) <;> first | exact List.prefix_refl _ | exact List.prefix_append _ _

theorem exec_used : ∀ (sched : List Nat) (s : State), s.used <+: (exec sched s).used
  | [], _ => List.prefix_refl _
  | t :: ts, s => (step_used t s).trans (exec_used ts (step t s))

/-! ### A single active thread -/

/-- Only thread `t` draws, and its draws are consecutive. -/
structure Alone (t : Nat) (s : State) : Prop where
  others : ∀ (u : Nat) (l : Local), u ≠ t → s.threads[u]? = some l → l.todo = 0 ∧ l.seen = none
  used : s.used = (List.range s.used.length).map fun i => (t, i)
  pos : s.pos = s.used.length
  seen : ∀ (l : Local) (p : Nat), s.threads[t]? = some l → l.seen = some p → p = s.used.length

theorem Alone.step {t : Nat} {s : State} (h : Alone t s) (u : Nat) : Alone t (step u s) := by
  unfold SharedRng.step
  cases hu : s.threads[u]? with
  | none => exact h
  | some l =>
    obtain ⟨k, seen⟩ := l
    have hlt := (List.getElem?_eq_some_iff.1 hu).1
    by_cases hut : u = t
    · subst hut
      cases seen with
      | none =>
        cases k with
        | zero => exact h
        | succ k =>
          refine ⟨?_, h.used, h.pos, ?_⟩
          · intro v l hv hl
            rw [List.getElem?_set_ne (Ne.symm hv)] at hl
            exact h.others v l hv hl
          · intro l p hl hp
            rw [List.getElem?_set_self hlt] at hl
            cases hl; cases hp
            exact h.pos
      | some p =>
        have hp := h.seen _ p hu rfl
        refine ⟨?_, ?_, ?_, ?_⟩
        · intro v l hv hl
          rw [List.getElem?_set_ne (Ne.symm hv)] at hl
          exact h.others v l hv hl
        · show s.used ++ [(u, p)] = _
          rw [List.length_append, List.length_singleton, List.range_succ, List.map_append, ← h.used, hp]
          rfl
        · show p + 1 = (s.used ++ [(u, p)]).length
          rw [List.length_append, List.length_singleton, hp]
        · intro l q hl hq
          rw [List.getElem?_set_self hlt] at hl
          cases hl; cases hq
    · obtain ⟨e1, e2⟩ := h.others u _ hut hu
      dsimp only at e1 e2
      subst e1; subst e2
      exact h

theorem Alone.exec {t : Nat} : ∀ (sched : List Nat) {s : State}, Alone t s → Alone t (exec sched s)
  | [], _, h => h
  | u :: ts, _, h => Alone.exec ts (h.step u)

/-- A thread that has nothing to draw stays so. -/
theorem step_busy {u t : Nat} {s : State} {l : Local} (h : (step u s).threads[t]? = some l)
    (hw : 0 < l.todo ∨ l.seen ≠ none) :
    ∃ l', s.threads[t]? = some l' ∧ (0 < l'.todo ∨ l'.seen ≠ none) := by
  unfold step at h
  cases hu : s.threads[u]? with
  | none => rw [hu] at h; exact ⟨l, h, hw⟩
  | some lu =>
    rw [hu] at h
    obtain ⟨k, seen⟩ := lu
    by_cases hut : u = t
    · subst hut
      refine ⟨_, hu, ?_⟩
      cases seen with
      | none =>
        cases k with
        | zero =>
          dsimp only at h
          rw [hu] at h; cases h; exact hw
        | succ k => exact .inl (Nat.succ_pos k)
      | some p => exact .inr (by simp)
    · refine ⟨l, ?_, hw⟩
      cases seen with
      | none =>
        cases k with
        | zero => exact h
        | succ k =>
          dsimp only at h
          rwa [List.getElem?_set_ne hut] at h
      | some p =>
        dsimp only at h
        rwa [List.getElem?_set_ne hut] at h

theorem exec_busy {t : Nat} : ∀ (sched : List Nat) {s : State} {l : Local},
    (exec sched s).threads[t]? = some l → (0 < l.todo ∨ l.seen ≠ none) →
    ∃ l', s.threads[t]? = some l' ∧ (0 < l'.todo ∨ l'.seen ≠ none)
  | [], _, l, h, hw => ⟨l, h, hw⟩
  | u :: ts, s, l, h, hw => by
    obtain ⟨l', h1, h2⟩ := exec_busy ts (s := step u s) h hw
    exact step_busy h1 h2

end SharedRng
end QED
