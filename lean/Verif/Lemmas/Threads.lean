import Verif.Model.Threads
import Verif.Lemmas.Input
import Mathlib.Algebra.BigOperators.Group.List.Basic
import Mathlib.Algebra.Order.BigOperators.Group.List
import Mathlib.Data.List.Perm.Basic

set_option autoImplicit false

/-!
# Lemmas on the threaded event loop
-/

namespace QED
namespace Threads

/-- How many calls a thread has still to finish. -/
def Local.left (l : Local) : Nat := l.todo.length + (if l.call.isSome then 1 else 0)

/-- How many steps a thread has still to take. -/
def Local.work (l : Local) : Nat :=
  14 * l.todo.length + (match l.call with | none => 0 | some (_, seen) => 13 - seen.length)

/-- Calls left over all threads. -/
def State.left (s : State) : Nat := (s.threads.map Local.left).sum

/-- Steps left over all threads. -/
def State.work (s : State) : Nat := (s.threads.map Local.work).sum

theorem sum_set {α : Type} (f : α → Nat) : ∀ (l : List α) (t : Nat) (x y : α), l[t]? = some x →
    ((l.set t y).map f).sum + f x = (l.map f).sum + f y
  | [], t, x, y, h => by simp at h
  | a :: l, 0, x, y, h => by
      simp at h; subst h; simp; omega
  | a :: l, t + 1, x, y, h => by
      simp at h
      have := sum_set f l t x y h
      simp [-List.map_set]; omega

theorem exec_append (n : Nat) : ∀ (a b : List Nat) (s : State),
    exec n (a ++ b) s = (exec n a s >>= fun s' => exec n b s')
  | [], b, s => rfl
  | t :: a, b, s => by
    simp only [List.cons_append, exec]
    cases step n t s with
    | ok s' => simp only [Res.ok_bind]; exact exec_append n a b s'
    | exit c => rfl
    | throw w => rfl
    | ub w => rfl

/-- The invariant of every interleaving: no more calls are counted than finished, no read has seen more
than that, and finished and unfinished calls add up to the number of samples. -/
structure Inv (n : Nat) (s : State) : Prop where
  count : s.count ≤ s.made.length
  seen : ∀ l ∈ s.threads, ∀ j seen, l.call = some (j, seen) →
    (∀ v ∈ seen, v ≤ s.made.length) ∧ seen.length ≤ 12
  total : s.made.length + s.left = n

theorem left_pos {s : State} {t : Nat} {l : Local} (h : s.threads[t]? = some l)
    (hl : 0 < l.left) : 0 < s.left := by
  have hm : l ∈ s.threads := List.mem_of_getElem? h
  have : l.left ≤ s.left := List.single_le_sum (by simp) _ (List.mem_map_of_mem hm)
  omega

theorem Inv.lt {n : Nat} {s : State} (h : Inv n s) {t : Nat} {l : Local}
    (ht : s.threads[t]? = some l) (hl : 0 < l.left) : s.count < n := by
  have := left_pos ht hl
  have := h.count
  have := h.total
  omega

/-- Reading keeps the invariant. -/
theorem Inv.see {n : Nat} {s : State} (h : Inv n s) {t j : Nat} {todo seen : List Nat}
    (ht : s.threads[t]? = some ⟨todo, some (j, seen)⟩) (hs : seen.length < 12) :
    Inv n (see t todo j seen s) := by
  refine ⟨h.count, ?_, ?_⟩
  · intro l hl j' seen' hc
    simp only [Threads.see] at hl ⊢
    rcases List.mem_or_eq_of_mem_set hl with hl | rfl
    · exact h.seen l hl j' seen' hc
    · simp only [Option.some.injEq, Prod.mk.injEq] at hc
      obtain ⟨_, rfl⟩ := hc
      obtain ⟨h1, _⟩ := h.seen _ (List.mem_of_getElem? ht) j seen rfl
      refine ⟨fun v hv => ?_, by simp; omega⟩
      rcases List.mem_append.1 hv with hv | hv
      · exact h1 v hv
      · simp at hv; subst hv; exact h.count
  · have := sum_set Local.left s.threads t _ ⟨todo, some (j, seen ++ [s.count])⟩ ht
    have h3 := h.total
    simp only [Threads.see, State.left, Local.left] at *
    simp only [Option.isSome_some] at this
    omega

/-- Every step of every thread keeps the invariant, and none fails. -/
theorem Inv.step {n t : Nat} {s : State} (h : Inv n s) :
    ∃ s', step n t s = .ok s' ∧ Inv n s' := by
  unfold Threads.step
  match ht : s.threads[t]? with
  | none => exact ⟨s, rfl, h⟩
  | some ⟨[], none⟩ => exact ⟨s, rfl, h⟩
  | some ⟨j :: js, none⟩ =>
    refine ⟨_, rfl, h.count, ?_, ?_⟩
    · intro l hl j' seen' hc
      rcases List.mem_or_eq_of_mem_set hl with hl | rfl
      · exact h.seen l hl j' seen' hc
      · simp only [Option.some.injEq, Prod.mk.injEq] at hc
        obtain ⟨_, rfl⟩ := hc
        simp
    · have := sum_set Local.left s.threads t _ ⟨js, some (j, [])⟩ ht
      have h3 := h.total
      simp only [State.left, Local.left] at *
      simp [-List.map_set] at this
      omega
  | some ⟨todo, some (j, seen)⟩ =>
    have hlt : s.count < n := h.lt ht (by simp [Local.left])
    have hlen := (h.seen _ (List.mem_of_getElem? ht) j seen rfl).2
    dsimp only
    split
    · rw [if_neg (by omega)]; exact ⟨_, rfl, h.see ht (by omega)⟩
    · split
      · exact ⟨_, rfl, h.see ht (by omega)⟩
      · split
        · exact ⟨_, rfl, h.see ht (by omega)⟩
        · split
          · exact ⟨_, rfl, h.see ht (by omega)⟩
          · refine ⟨_, rfl, ?_, ?_, ?_⟩
            · have h1 := (h.seen _ (List.mem_of_getElem? ht) j seen rfl).1
              have : seen.getLastD 0 ≤ s.made.length := by
                cases hsn : seen with
                | nil => simp
                | cons a as =>
                  rw [List.getLastD_cons, ← List.getLastD_cons (a := 0) , ← hsn]
                  rw [List.getLastD_eq_getLast?, List.getLast?_eq_some_getLast (by simp [hsn])]
                  exact h1 _ (List.getLast_mem _)
              simp only [List.length_append, List.length_singleton]; omega
            · intro l hl j' seen' hc
              dsimp only at hl
              rcases List.mem_or_eq_of_mem_set hl with hl | rfl
              · obtain ⟨h1, h2⟩ := h.seen l hl j' seen' hc
                refine ⟨fun v hv => ?_, h2⟩
                have := h1 v hv
                simp; omega
              · cases hc
            · have := sum_set Local.left s.threads t _ ⟨todo, none⟩ ht
              have h3 := h.total
              simp only [State.left, Local.left] at *
              simp [-List.map_set] at this ⊢
              omega

theorem Inv.exec {n : Nat} : ∀ (sched : List Nat) {s : State}, Inv n s →
    ∃ s', exec n sched s = .ok s' ∧ Inv n s'
  | [], s, h => ⟨s, rfl, h⟩
  | t :: ts, s, h => by
    obtain ⟨s', h1, h2⟩ := h.step (t := t)
    obtain ⟨s'', h3, h4⟩ := Inv.exec ts h2
    exact ⟨s'', by simp only [Threads.exec]; rw [h1, Res.ok_bind, h3], h4⟩

theorem Inv.init {n : Nat} {shares : List (List Nat)} (h : (shares.map List.length).sum = n) :
    Inv n (.init shares) := by
  refine ⟨by simp [State.init], ?_, ?_⟩
  · intro l hl j seen hc
    simp only [State.init, List.mem_map] at hl
    obtain ⟨_, _, rfl⟩ := hl
    cases hc
  · simp only [State.left, State.init, List.map_map, List.length_nil, Nat.zero_add]
    rw [← h]
    congr 1

/-! ### Every interleaving can be completed -/

theorem work_see {s : State} {t j : Nat} {todo seen : List Nat}
    (ht : s.threads[t]? = some ⟨todo, some (j, seen)⟩) (hs : seen.length < 12) :
    (see t todo j seen s).work < s.work := by
  have := sum_set Local.work s.threads t _ ⟨todo, some (j, seen ++ [s.count])⟩ ht
  simp only [Threads.see, State.work, Local.work] at *
  simp [-List.map_set] at this
  omega

theorem step_grows {n t : Nat} {s s' : State} (h : step n t s = .ok s') : s.made <+: s'.made := by
  unfold step at h
  split at h
  · cases h; exact List.prefix_refl _
  · split at h <;> cases h <;> exact List.prefix_refl _
  · split at h
    · split at h <;> cases h; exact List.prefix_refl _
    · split at h
      · cases h; exact List.prefix_refl _
      · split at h
        · split at h <;> cases h; exact List.prefix_refl _
        · split at h <;> cases h
          · exact List.prefix_refl _
          · exact List.prefix_append _ _

theorem exec_grows {n : Nat} : ∀ (sched : List Nat) {s s' : State}, exec n sched s = .ok s' →
    s.made <+: s'.made
  | [], s, s', h => by cases h; exact List.prefix_refl _
  | t :: ts, s, s', h => by
    simp only [exec] at h
    obtain ⟨s1, h1, h2⟩ := bind_eq_ok.1 h
    exact (step_grows h1).trans (exec_grows ts h2)

/-- A thread with something left to do makes progress. -/
theorem Inv.progress {n t : Nat} {s : State} (h : Inv n s) {l : Local}
    (ht : s.threads[t]? = some l) (hl : ¬ (l.todo = [] ∧ l.call = none)) :
    ∃ s', Threads.step n t s = .ok s' ∧ Inv n s' ∧ s'.work < s.work := by
  obtain ⟨s', h1, h2⟩ := h.step (t := t)
  refine ⟨s', h1, h2, ?_⟩
  unfold Threads.step at h1
  rw [ht] at h1
  match l, hl, ht with
  | ⟨[], none⟩, hl, _ => simp at hl
  | ⟨j :: js, none⟩, _, ht =>
    cases h1
    have := sum_set Local.work s.threads t _ ⟨js, some (j, [])⟩ ht
    simp only [State.work, Local.work] at *
    simp [-List.map_set] at this
    omega
  | ⟨todo, some (j, seen)⟩, _, ht =>
    have hlen := (h.seen _ (List.mem_of_getElem? ht) j seen rfl).2
    dsimp only at h1
    split at h1
    · split at h1 <;> cases h1
      exact work_see ht (by omega)
    · split at h1
      · cases h1; exact work_see ht (by omega)
      · split at h1
        · split at h1 <;> cases h1
          exact work_see ht (by omega)
        · split at h1 <;> cases h1
          · exact work_see ht (by omega)
          · have := sum_set Local.work s.threads t _ ⟨todo, none⟩ ht
            simp only [State.work, Local.work] at *
            simp [-List.map_set] at this
            omega

theorem Inv.complete {n : Nat} : ∀ (w : Nat) (s : State), s.work ≤ w → Inv n s →
    ∃ sched s', Threads.exec n sched s = .ok s' ∧ s'.Finished
  | w, s, hw, h => by
    by_cases hf : s.Finished
    · exact ⟨[], s, rfl, hf⟩
    · simp only [State.Finished, not_forall] at hf
      obtain ⟨l, hm, hl⟩ := hf
      obtain ⟨t, ht⟩ := List.getElem?_of_mem hm
      obtain ⟨s', h1, h2, h3⟩ := h.progress ht hl
      match w with
      | 0 => omega
      | w + 1 =>
        obtain ⟨sched, s'', h4, h5⟩ := Inv.complete w s' (by omega) h2
        exact ⟨t :: sched, s'', by simp only [Threads.exec]; rw [h1, Res.ok_bind, h4], h5⟩

/-! ### Runs of a single thread -/

theorem getElem?_set_ne {l : List Local} {a b : Nat} {x : Local} (h : a ≠ b) :
    (l.set a x)[b]? = l[b]? := by
  rw [List.getElem?_set_ne h]

/-- Thread `t` starts its next event. -/
theorem step_start {n t : Nat} {s : State} {j : Nat} {js : List Nat}
    (ht : s.threads[t]? = some ⟨j :: js, none⟩) :
    step n t s = .ok { s with threads := s.threads.set t ⟨js, some (j, [])⟩ } := by
  unfold step; rw [ht]

/-- Thread `t` reads while the source is not depleted. -/
theorem step_see {n t : Nat} {s : State} {j : Nat} {js seen : List Nat}
    (ht : s.threads[t]? = some ⟨js, some (j, seen)⟩) (hc : s.count < n) (hs : seen.length < 12) :
    step n t s = .ok (see t js j seen s) := by
  unfold step; rw [ht]; dsimp only
  split
  · rw [if_neg (by omega)]
  · split
    · rfl
    · split
      · rfl
      · rw [if_pos (by omega)]

/-- `k` reads in a row. -/
theorem exec_sees {n t : Nat} : ∀ (k : Nat) {s : State} {j : Nat} {js seen : List Nat},
    s.threads[t]? = some ⟨js, some (j, seen)⟩ → s.count < n → seen.length + k ≤ 12 →
    exec n (List.replicate k t) s = .ok { s with
      threads := s.threads.set t ⟨js, some (j, seen ++ List.replicate k s.count)⟩ }
  | 0, s, j, js, seen, ht, _, _ => by
    simp only [List.replicate, exec, List.append_nil]
    congr 1
    obtain ⟨hlt, he⟩ := List.getElem?_eq_some_iff.1 ht
    rw [← he, List.set_getElem_self]
  | k + 1, s, j, js, seen, ht, hc, hs => by
    simp only [List.replicate_succ, exec]
    rw [step_see ht hc (by omega), Res.ok_bind]
    have hlt : t < s.threads.length := (List.getElem?_eq_some_iff.1 ht).1
    rw [exec_sees k (s := see t js j seen s) (j := j) (js := js) (seen := seen ++ [s.count])
      (by simp [see, hlt]) hc (by simp; omega)]
    simp [see, List.append_assoc]

/-- The write that ends a call. -/
theorem step_write {n t : Nat} {s : State} {j : Nat} {js seen : List Nat}
    (ht : s.threads[t]? = some ⟨js, some (j, seen)⟩) (hs : seen.length = 12) :
    step n t s = .ok ⟨seen.getLastD 0 + 1, s.threads.set t ⟨js, none⟩,
      s.made ++ [(j, seen.take 11)]⟩ := by
  unfold step; rw [ht]; dsimp only
  rw [if_neg (by omega), if_neg (by omega), if_neg (by omega), if_neg (by omega)]

/-! ### Calls that do not overlap -/

/-- In a state reached without overlapping calls the counter is the number of finished calls, which used
the samples `0, 1, 2, ...` in turn. -/
structure Serial (s : State) : Prop where
  count : s.count = s.made.length
  made : s.made.map Prod.snd = (List.range s.made.length).map (List.replicate 11)
  seen : ∀ (t : Nat) (l : Local) (j : Nat) (seen : List Nat), s.threads[t]? = some l → l.call = some (j, seen) →
    seen = List.replicate seen.length s.count

/-- At most one thread is inside `GenerateList`. -/
def State.AtMostOne (s : State) : Prop :=
  ∀ (a b : Nat) (la lb : Local), s.threads[a]? = some la → s.threads[b]? = some lb →
    la.call.isSome → lb.call.isSome → a = b

theorem Serial.init (shares : List (List Nat)) : Serial (.init shares) := by
  refine ⟨rfl, rfl, ?_⟩
  intro t l j seen ht hc
  have := List.mem_of_getElem? ht
  simp only [State.init, List.mem_map] at this
  obtain ⟨_, _, rfl⟩ := this
  cases hc

theorem Serial.see {s : State} (h : Serial s) {t j : Nat} {todo seen : List Nat}
    (ht : s.threads[t]? = some ⟨todo, some (j, seen)⟩) : Serial (see t todo j seen s) := by
  refine ⟨h.count, h.made, ?_⟩
  intro t' l j' seen' ht' hc
  simp only [Threads.see] at ht' ⊢
  by_cases he : t = t'
  · subst he
    have hlt : t < s.threads.length := (List.getElem?_eq_some_iff.1 ht).1
    rw [List.getElem?_set_self hlt] at ht'
    cases ht'
    simp only [Option.some.injEq, Prod.mk.injEq] at hc
    obtain ⟨_, rfl⟩ := hc
    have := h.seen t _ j seen ht rfl
    rw [List.length_append, List.length_singleton, List.replicate_succ', ← this]
  · rw [List.getElem?_set_ne he] at ht'
    exact h.seen t' l j' seen' ht' hc

theorem Serial.step {n t : Nat} {s s' : State} (hi : Inv n s) (h : Serial s) (ho : s.AtMostOne)
    (hs : Threads.step n t s = .ok s') : Serial s' := by
  unfold Threads.step at hs
  match ht : s.threads[t]? with
  | none => rw [ht] at hs; cases hs; exact h
  | some ⟨[], none⟩ => rw [ht] at hs; cases hs; exact h
  | some ⟨j :: js, none⟩ =>
    rw [ht] at hs; cases hs
    refine ⟨h.count, h.made, ?_⟩
    intro t' l j' seen' ht' hc
    dsimp only at ht'
    by_cases he : t = t'
    · subst he
      have hlt : t < s.threads.length := (List.getElem?_eq_some_iff.1 ht).1
      rw [List.getElem?_set_self hlt] at ht'
      cases ht'
      simp only [Option.some.injEq, Prod.mk.injEq] at hc
      obtain ⟨_, rfl⟩ := hc
      rfl
    · rw [List.getElem?_set_ne he] at ht'
      exact h.seen t' l j' seen' ht' hc
  | some ⟨todo, some (j, seen)⟩ =>
    rw [ht] at hs; dsimp only at hs
    have hlen := (hi.seen _ (List.mem_of_getElem? ht) j seen rfl).2
    have hseen := h.seen t _ j seen ht rfl
    split at hs
    · split at hs <;> cases hs; exact h.see ht
    · split at hs
      · cases hs; exact h.see ht
      · split at hs
        · split at hs <;> cases hs; exact h.see ht
        · split at hs
          · cases hs; exact h.see ht
          · have h12 : seen.length = 12 := by omega
            rw [h12] at hseen
            cases hs
            have hlast : seen.getLastD 0 = s.made.length := by
              rw [hseen, ← h.count]; simp [List.replicate]
            refine ⟨by rw [hlast]; simp, ?_, ?_⟩
            · simp only [List.map_append, List.length_append, List.length_singleton,
                List.range_succ, h.made]
              rw [hseen, h.count]; simp
            · intro t' l j' seen' ht' hc
              dsimp only at ht'
              exfalso
              by_cases he : t = t'
              · subst he
                have hlt : t < s.threads.length := (List.getElem?_eq_some_iff.1 ht).1
                rw [List.getElem?_set_self hlt] at ht'
                cases ht'; cases hc
              · rw [List.getElem?_set_ne he] at ht'
                exact he (ho t t' _ _ ht ht' rfl (by rw [hc]; rfl))

/-! ### Threads without work stay out of it -/

/-- The threads that have events to run, or are running one. -/
def Busy (s : State) (t : Nat) : Prop :=
  ∃ l, s.threads[t]? = some l ∧ 0 < l.left

theorem busy_of_step {n t : Nat} {s s' : State} (hs : step n t s = .ok s') {b : Nat}
    (hb : Busy s' b) : Busy s b := by
  have aux : ∀ {x y : Local}, s.threads[t]? = some x → 0 < x.left →
      s'.threads = s.threads.set t y → Busy s b := by
    intro x y hx hl he
    obtain ⟨l, h1, h2⟩ := hb
    rw [he] at h1
    by_cases hbt : t = b
    · subst hbt; exact ⟨x, hx, hl⟩
    · rw [List.getElem?_set_ne hbt] at h1
      exact ⟨l, h1, h2⟩
  unfold step at hs
  match ht : s.threads[t]? with
  | none => rw [ht] at hs; cases hs; exact hb
  | some ⟨[], none⟩ => rw [ht] at hs; cases hs; exact hb
  | some ⟨j :: js, none⟩ =>
    rw [ht] at hs; cases hs
    exact aux ht (by simp [Local.left]) rfl
  | some ⟨todo, some (j, seen)⟩ =>
    rw [ht] at hs; dsimp only at hs
    have hp : 0 < Local.left ⟨todo, some (j, seen)⟩ := by simp [Local.left]
    split at hs
    · split at hs <;> cases hs; exact aux ht hp rfl
    · split at hs
      · cases hs; exact aux ht hp rfl
      · split at hs
        · split at hs <;> cases hs; exact aux ht hp rfl
        · split at hs <;> cases hs <;> exact aux ht hp rfl

theorem busy_of_exec {n : Nat} : ∀ (sched : List Nat) {s s' : State}, exec n sched s = .ok s' →
    ∀ {b : Nat}, Busy s' b → Busy s b
  | [], s, s', h, b, hb => by cases h; exact hb
  | t :: ts, s, s', h, b, hb => by
    simp only [exec] at h
    obtain ⟨s1, h1, h2⟩ := bind_eq_ok.1 h
    exact busy_of_step h1 (busy_of_exec ts h2 hb)

theorem busy_init {shares : List (List Nat)} {t : Nat} (h : Busy (.init shares) t) :
    ∃ todo, shares[t]? = some todo ∧ todo ≠ [] := by
  obtain ⟨l, h1, h2⟩ := h
  simp only [State.init, List.getElem?_map, Option.map_eq_some_iff] at h1
  obtain ⟨todo, h3, rfl⟩ := h1
  refine ⟨todo, h3, ?_⟩
  rintro rfl
  simp [Local.left] at h2

end Threads
end QED
