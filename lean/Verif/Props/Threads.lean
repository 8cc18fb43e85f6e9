import Verif.Lemmas.Threads
import Verif.Props.Source

set_option linter.unusedSectionVars false
set_option autoImplicit false

/-!
# Property C57: threads and the samples of a source

`exec n sched (.init shares)` is the event loop of a source of `n` samples, where thread `t` runs the
events `shares[t]` and the threads take their steps in the order `sched`. A finished call of
`GenerateList` is recorded with the eleven values of `m_partCount` it used; the last nine are the
indices of the samples that make up the primary particle.
-/

namespace QED

open Threads

/-- The indices of the nine samples (`x`, `y`, `z`, five angles, energy) behind an event. -/
def samplesOf (call : Nat × List Nat) : List Nat := call.2.drop 2

/-- Each of the `n` samples of the source is used by exactly one event, and each event uses one sample
throughout. -/
def EachSampleOnce (n : Nat) (made : List (Nat × List Nat)) : Prop :=
  (made.map samplesOf).Perm ((List.range n).map fun i => List.replicate 9 i)

/-- Property C57, in full: however the events are shared out and however the threads interleave, no step
fails, and at the end each sample has been used by exactly one event. -/
def ThreadsShareNothing (n : Nat) (shares : List (List Nat)) : Prop :=
  ∀ sched, ∃ s, exec n sched (.init shares) = .ok s ∧ (s.Finished → EachSampleOnce n s.made)

/-- The shares hand out all `n` events. -/
def Shared (n : Nat) (shares : List (List Nat)) : Prop := shares.flatten.Perm (List.range n)

theorem Shared.total {n : Nat} {shares : List (List Nat)} (h : Shared n shares) :
    (shares.map List.length).sum = n := by
  have := h.length_eq
  rwa [List.length_flatten, List.length_range] at this

/-- Two threads that both have events to run. -/
def TwoThreads (shares : List (List Nat)) : Prop :=
  ∃ (a b : Nat) (ta tb : List Nat), a ≠ b ∧ shares[a]? = some ta ∧ shares[b]? = some tb ∧
    ta ≠ [] ∧ tb ≠ []

/-! ### What holds for every interleaving -/

/-- Whatever the interleaving, no index is out of range, the source is never reported as depleted, and no
more than `n` events are made. -/
theorem C57_in_range_partial (n : Nat) (shares : List (List Nat)) (h : Shared n shares)
    (sched : List Nat) :
    ∃ s, exec n sched (.init shares) = .ok s ∧ s.made.length ≤ n ∧
      (s.Finished → s.made.length = n) := by
  obtain ⟨s, h1, h2⟩ := (Inv.init h.total).exec sched
  refine ⟨s, h1, by have := h2.total; omega, fun hf => ?_⟩
  have h0 : s.left = 0 := by
    unfold State.left
    rw [List.sum_eq_zero]
    intro x hx
    obtain ⟨l, hl, rfl⟩ := List.mem_map.1 hx
    obtain ⟨e1, e2⟩ := hf l hl
    simp [Local.left, e1, e2]
  have := h2.total
  omega

/-- No schedule can get stuck: every partial execution extends to a finished one. -/
theorem C57_completes_partial (n : Nat) (shares : List (List Nat)) (h : Shared n shares)
    (sched : List Nat) :
    ∃ rest s, exec n (sched ++ rest) (.init shares) = .ok s ∧ s.Finished := by
  obtain ⟨s, h1, h2⟩ := (Inv.init h.total).exec sched
  obtain ⟨rest, s', h3, h4⟩ := Inv.complete _ s (Nat.le_refl _) h2
  exact ⟨rest, s', by rw [exec_append, h1, Res.ok_bind, h3], h4⟩

/-- If the calls of `GenerateList` never overlap, the `k`-th finished call uses sample `k` throughout,
so each sample is used once. -/
theorem C57_no_overlap_partial (n : Nat) (shares : List (List Nat)) (h : Shared n shares)
    (sched : List Nat)
    (hx : ∀ k s, exec n (sched.take k) (.init shares) = .ok s → s.AtMostOne) :
    ∃ s, exec n sched (.init shares) = .ok s ∧
      s.made.map samplesOf = (List.range s.made.length).map (fun i => List.replicate 9 i) ∧
      (s.Finished → EachSampleOnce n s.made) := by
  have key : ∀ (sched : List Nat) (s : State), Inv n s → Serial s →
      (∀ k s', exec n (sched.take k) s = .ok s' → s'.AtMostOne) →
      ∃ s', exec n sched s = .ok s' ∧ Serial s' := by
    intro sched
    induction sched with
    | nil => intro s _ hs _; exact ⟨s, rfl, hs⟩
    | cons t ts ih =>
      intro s hi hs hx
      obtain ⟨s1, h1, h2⟩ := hi.step (t := t)
      obtain ⟨s2, h3, h4⟩ := ih s1 h2 (hs.step hi (hx 0 s rfl) h1) (fun k s' hk => by
        refine hx (k + 1) s' ?_
        simp only [List.take_succ_cons, exec]
        rw [h1, Res.ok_bind, hk])
      exact ⟨s2, by simp only [exec]; rw [h1, Res.ok_bind, h3], h4⟩
  obtain ⟨s, h1, h2⟩ := key sched _ (Inv.init h.total) (Serial.init shares) hx
  have hm : s.made.map samplesOf = (List.range s.made.length).map (fun i => List.replicate 9 i) := by
    have := congrArg (List.map (List.drop 2)) h2.made
    simp only [List.map_map, Function.comp_def, List.drop_replicate] at this
    exact this
  refine ⟨s, h1, hm, fun hf => ?_⟩
  obtain ⟨s', h3, _, h5⟩ := C57_in_range_partial n shares h sched
  rw [h1] at h3
  cases h3
  have hn := h5 hf
  unfold EachSampleOnce
  rw [hm, hn]

/-! ### Data race -/

theorem init_get {shares : List (List Nat)} {t : Nat} {todo : List Nat}
    (h : shares[t]? = some todo) : (State.init shares).threads[t]? = some ⟨todo, none⟩ := by
  simp [State.init, h]

/-- The start of a call and its twelve reads, by a thread that is not in a call. -/
theorem exec_reads {n t k : Nat} {s : State} {j : Nat} {js : List Nat}
    (ht : s.threads[t]? = some ⟨j :: js, none⟩) (hc : s.count < n) (hk : k ≤ 12) :
    exec n (List.replicate (k + 1) t) s = .ok { s with
      threads := s.threads.set t ⟨js, some (j, List.replicate k s.count)⟩ } := by
  simp only [List.replicate_succ, exec]
  rw [step_start ht, Res.ok_bind]
  have hlt : t < s.threads.length := (List.getElem?_eq_some_iff.1 ht).1
  rw [exec_sees (s := { s with threads := s.threads.set t ⟨js, some (j, [])⟩ }) k (j := j) (js := js)
    (seen := []) (by simp [hlt]) hc (by simpa using hk)]
  simp

theorem lt_of_two {n : Nat} {shares : List (List Nat)} (h : Shared n shares) {a b : Nat}
    {ta tb : List Nat} (hab : a ≠ b) (ha : shares[a]? = some ta) (hb : shares[b]? = some tb)
    (hta : ta ≠ []) (htb : tb ≠ []) : 1 < n := by
  have e := h.total
  have h1 := sum_set List.length shares a ta [] ha
  have h2 := sum_set List.length (shares.set a []) b tb [] (by rw [List.getElem?_set_ne hab]; exact hb)
  have := List.length_pos_of_ne_nil hta
  have := List.length_pos_of_ne_nil htb
  simp only [List.length_nil] at h1 h2
  omega

/-- The loop has a data race, so undefined behaviour, exactly when two threads have events to run. -/
theorem C57_race_iff (n : Nat) (shares : List (List Nat)) (h : Shared n shares) :
    (∃ sched s, exec n sched (.init shares) = .ok s ∧ s.Racing) ↔ TwoThreads shares := by
  constructor
  · rintro ⟨sched, s, h1, a, b, la, lb, wa, wb, hab, ha, hb, hwa, hwb, _⟩
    have busy : ∀ {t : Nat} {l : Local} {w : Bool}, s.threads[t]? = some l →
        nextAccess l = some w → Busy s t := by
      intro t l w ht hw
      refine ⟨l, ht, ?_⟩
      unfold nextAccess at hw
      unfold Local.left
      cases hc : l.call with
      | none => rw [hc] at hw; cases hw
      | some c => simp
    obtain ⟨ta, h2, h3⟩ := busy_init (busy_of_exec sched h1 (busy ha hwa))
    obtain ⟨tb, h4, h5⟩ := busy_init (busy_of_exec sched h1 (busy hb hwb))
    exact ⟨a, b, ta, tb, hab, h2, h4, h3, h5⟩
  · rintro ⟨a, b, ta, tb, hab, ha, hb, hta, htb⟩
    have hn := lt_of_two h hab ha hb hta htb
    obtain ⟨ja, jsa, rfl⟩ := List.exists_cons_of_ne_nil hta
    obtain ⟨jb, jsb, rfl⟩ := List.exists_cons_of_ne_nil htb
    have hla := (List.getElem?_eq_some_iff.1 ha).1
    have hlb := (List.getElem?_eq_some_iff.1 hb).1
    refine ⟨List.replicate 13 a ++ List.replicate 1 b, { (State.init shares) with
        threads := ((State.init shares).threads.set a ⟨jsa, some (ja, List.replicate 12 0)⟩).set b
          ⟨jsb, some (jb, [])⟩ }, ?_, a, b, ⟨jsa, some (ja, List.replicate 12 0)⟩,
      ⟨jsb, some (jb, [])⟩, true, false, hab, ?_, ?_, rfl, rfl, Or.inl rfl⟩
    · rw [exec_append, exec_reads (k := 12) (init_get ha) (by simp [State.init]; omega) (Nat.le_refl _),
        Res.ok_bind, exec_reads (k := 0) (j := jb) (js := jsb)
          (by simp only; rw [List.getElem?_set_ne hab]; exact init_get hb)
          (by simp [State.init]; omega) (by omega)]
      rfl
    · rw [List.getElem?_set_ne (Ne.symm hab), List.getElem?_set_self (by simpa [State.init] using hla)]
    · rw [List.getElem?_set_self (by simpa [State.init] using hlb)]

/-! ### What goes wrong with two threads -/

/-- A schedule in which the first events of threads `a` and `b` both use sample 0. -/
def overlap (a b : Nat) : List Nat := List.replicate 13 a ++ List.replicate 13 b ++ [a, b]

theorem exec_overlap {n : Nat} {shares : List (List Nat)} (hn : 1 < n) {a b ja jb : Nat}
    {jsa jsb : List Nat} (hab : a ≠ b) (ha : shares[a]? = some (ja :: jsa))
    (hb : shares[b]? = some (jb :: jsb)) :
    ∃ s, exec n (overlap a b) (.init shares) = .ok s ∧
      s.made = [(ja, List.replicate 11 0), (jb, List.replicate 11 0)] := by
  have hla := (List.getElem?_eq_some_iff.1 ha).1
  have hlb := (List.getElem?_eq_some_iff.1 hb).1
  unfold overlap
  rw [List.append_assoc, exec_append,
    exec_reads (k := 12) (init_get ha) (by simp [State.init]; omega) (Nat.le_refl _),
    Res.ok_bind, exec_append, exec_reads (k := 12) (j := jb) (js := jsb)
      (by simp only; rw [List.getElem?_set_ne hab]; exact init_get hb)
      (by simp [State.init]; omega) (by omega), Res.ok_bind]
  simp only [exec]
  rw [step_write (j := ja) (js := jsa) (seen := List.replicate 12 0)
    (by simp only [State.init]
        rw [List.getElem?_set_ne (Ne.symm hab), List.getElem?_set_self (by simpa [State.init] using hla)]) rfl, Res.ok_bind,
    step_write (j := jb) (js := jsb) (seen := List.replicate 12 0)
    (by simp only [State.init]
        rw [List.getElem?_set_ne hab, List.getElem?_set_self (by simpa [State.init] using hlb)]) rfl, Res.ok_bind]
  exact ⟨_, rfl, rfl⟩

/-- Whenever two threads have events to run, some interleaving that runs all events lets two events use
the same sample. -/
theorem C57_shared_sample_refuted (n : Nat) (shares : List (List Nat)) (h : Shared n shares)
    (h2 : TwoThreads shares) :
    ∃ sched s, exec n sched (.init shares) = .ok s ∧ s.Finished ∧
      (∃ c d rest, s.made = c :: d :: rest ∧ samplesOf c = List.replicate 9 0 ∧
        samplesOf d = List.replicate 9 0) ∧ ¬ EachSampleOnce n s.made := by
  obtain ⟨a, b, ta, tb, hab, ha, hb, hta, htb⟩ := h2
  have hn := lt_of_two h hab ha hb hta htb
  obtain ⟨ja, jsa, rfl⟩ := List.exists_cons_of_ne_nil hta
  obtain ⟨jb, jsb, rfl⟩ := List.exists_cons_of_ne_nil htb
  obtain ⟨s, h1, h3⟩ := exec_overlap hn hab ha hb
  obtain ⟨rest, s', h4, h5⟩ := C57_completes_partial n shares h (overlap a b)
  have h6 : exec n rest s = .ok s' := by
    rw [exec_append, h1, Res.ok_bind] at h4; exact h4
  obtain ⟨more, h7⟩ := exec_grows rest h6
  rw [h3] at h7
  refine ⟨_, s', h4, h5, ⟨_, _, more, h7.symm, rfl, rfl⟩, ?_⟩
  intro hp
  have hc := List.Perm.count_eq hp (List.replicate 9 0)
  rw [← h7] at hc
  simp only [List.cons_append, List.map_cons, samplesOf, List.drop_replicate, List.count_cons] at hc
  have hle : List.count (List.replicate 9 0) ((List.range n).map fun i => List.replicate 9 i) ≤ 1 := by
    refine List.nodup_iff_count_le_one.1 ?_ _
    refine List.Nodup.map ?_ List.nodup_range
    intro x y hxy
    exact (List.replicate_right_inj (by omega)).1 hxy
  simp only [Nat.reduceSub, BEq.rfl, if_true] at hc
  omega

/-- Whenever two threads have events to run, some interleaving that runs all events builds an event whose
`x` coordinate is that of sample 0 and whose other data are those of sample 1. -/
theorem C57_mixed_sample_refuted (n : Nat) (shares : List (List Nat)) (h : Shared n shares)
    (h2 : TwoThreads shares) :
    ∃ sched s, exec n sched (.init shares) = .ok s ∧ s.Finished ∧
      ∃ c ∈ s.made, samplesOf c = [0, 1, 1, 1, 1, 1, 1, 1, 1] := by
  obtain ⟨a, b, ta, tb, hab, ha, hb, hta, htb⟩ := h2
  have hn := lt_of_two h hab ha hb hta htb
  obtain ⟨ja, jsa, rfl⟩ := List.exists_cons_of_ne_nil hta
  obtain ⟨jb, jsb, rfl⟩ := List.exists_cons_of_ne_nil htb
  have hla := (List.getElem?_eq_some_iff.1 ha).1
  have hlb := (List.getElem?_eq_some_iff.1 hb).1
  let torn := List.replicate 4 a ++ (List.replicate 13 b ++ ([b] ++ (List.replicate 9 a ++ [a])))
  have h1 : ∃ s, exec n torn (.init shares) = .ok s ∧
      s.made = [(jb, List.replicate 11 0), (ja, [0, 0, 0, 1, 1, 1, 1, 1, 1, 1, 1])] := by
    show ∃ s, exec n (List.replicate 4 a ++ (List.replicate 13 b ++ ([b] ++
      (List.replicate 9 a ++ [a])))) _ = _ ∧ _
    rw [exec_append,
      exec_reads (k := 3) (init_get ha) (by simp [State.init]; omega) (by omega), Res.ok_bind,
      exec_append, exec_reads (k := 12) (j := jb) (js := jsb)
        (by simp only; rw [List.getElem?_set_ne hab]; exact init_get hb)
        (by simp [State.init]; omega) (by omega), Res.ok_bind, exec_append]
    rw [show ∀ s, exec n [b] s = (step n b s >>= fun s' => .ok s') from fun s => rfl,
      step_write (j := jb) (js := jsb) (seen := List.replicate 12 0)
        (by simp only [State.init]; rw [List.getElem?_set_self (by simpa [State.init] using hlb)]) rfl,
      Res.ok_bind, Res.ok_bind, exec_append,
      exec_sees (t := a) 9 (j := ja) (js := jsa) (seen := List.replicate 3 0)
        (by simp only [State.init]
            rw [List.getElem?_set_ne (Ne.symm hab), List.getElem?_set_ne (Ne.symm hab),
              List.getElem?_set_self (by simpa [State.init] using hla)])
        (by simp; omega) (by simp), Res.ok_bind]
    rw [show ∀ s, exec n [a] s = (step n a s >>= fun s' => .ok s') from fun s => rfl,
      step_write (j := ja) (js := jsa) (seen := List.replicate 3 0 ++ List.replicate 9 1)
        (by simp only [State.init]
            rw [List.getElem?_set_self (by simpa [State.init] using hla)]
            simp) (by simp), Res.ok_bind]
    exact ⟨_, rfl, rfl⟩
  obtain ⟨s, h1, h3⟩ := h1
  obtain ⟨rest, s', h4, h5⟩ := C57_completes_partial n shares h torn
  have h6 : exec n rest s = .ok s' := by
    rw [exec_append, h1, Res.ok_bind] at h4; exact h4
  obtain ⟨more, h7⟩ := exec_grows rest h6
  rw [h3] at h7
  exact ⟨_, s', h4, h5, (ja, [0, 0, 0, 1, 1, 1, 1, 1, 1, 1, 1]), by rw [← h7]; simp, rfl⟩

/-- The property holds exactly when at most one thread has events to run. -/
theorem C57_iff_partial (n : Nat) (shares : List (List Nat)) (h : Shared n shares) :
    ThreadsShareNothing n shares ↔ ¬ TwoThreads shares := by
  constructor
  · intro hs h2
    obtain ⟨sched, s, h3, h4, _, h5⟩ := C57_shared_sample_refuted n shares h h2
    obtain ⟨s', h6, h7⟩ := hs sched
    rw [h3] at h6; cases h6
    exact h5 (h7 h4)
  · intro h2 sched
    obtain ⟨s, h3, _, h4⟩ := C57_no_overlap_partial n shares h sched (by
      intro k s hs a b la lb ha hb hca hcb
      by_contra hab
      have busy : ∀ {t : Nat} {l : Local}, s.threads[t]? = some l → l.call.isSome → Busy s t :=
        fun ht hc => ⟨_, ht, by unfold Local.left; rw [if_pos hc]; omega⟩
      obtain ⟨ta, e1, e2⟩ := busy_init (busy_of_exec _ hs (busy ha hca))
      obtain ⟨tb, e3, e4⟩ := busy_init (busy_of_exec _ hs (busy hb hcb))
      exact h2 ⟨a, b, ta, tb, hab, e1, e3, e2, e4⟩)
    exact ⟨s, h3, h4⟩

/-- Property C57 is false of the code. -/
theorem C57_refuted : ¬ ∀ n shares, Shared n shares → ThreadsShareNothing n shares := by
  intro h
  have hs : Shared 2 [[0], [1]] := List.Perm.refl _
  exact (C57_iff_partial 2 _ hs).1 (h 2 _ hs) ⟨0, 1, [0], [1], by decide, rfl, rfl, by simp, by simp⟩

/-- One call of `GenerateList` by the only thread. -/
theorem exec_call {n c : Nat} {j : Nat} {js : List Nat} {made : List (Nat × List Nat)} (hc : c < n) :
    exec n (List.replicate 14 0) ⟨c, [⟨j :: js, none⟩], made⟩ =
      .ok ⟨c + 1, [⟨js, none⟩], made ++ [(j, List.replicate 11 c)]⟩ := by
  show exec n (List.replicate 13 0 ++ [0]) _ = _
  rw [exec_append, exec_reads (k := 12) (t := 0) (j := j) (js := js) rfl hc (by omega), Res.ok_bind,
    show ∀ s, exec n [0] s = (step n 0 s >>= fun s' => .ok s') from fun s => rfl,
    step_write (j := j) (js := js) (seen := List.replicate 12 c) rfl rfl]
  rfl

/-- A source gives as many events as it has samples. If there were more events than samples, the program
would exit with code 1 when the next event begins, after `n` calls of 14 steps each; the loop of the
program never asks for more (`C57_in_range`). -/
theorem C57_depleted (n : Nat) (js : List Nat) (h : n < js.length) :
    (∃ s, exec n (List.replicate (14 * n) 0) (.init [js]) = .ok s ∧ s.made.length = n ∧
      s.made.map samplesOf = (List.range n).map fun i => List.replicate 9 i) ∧
    exec n (List.replicate (14 * n + 2) 0) (.init [js]) = .exit 1 := by
  have key : ∀ k ≤ n, ∃ made, exec n (List.replicate (14 * k) 0) (.init [js]) =
      .ok ⟨k, [⟨js.drop k, none⟩], made⟩ ∧ made.map samplesOf =
        (List.range k).map fun i => List.replicate 9 i := by
    intro k
    induction k with
    | zero => intro _; exact ⟨[], rfl, rfl⟩
    | succ k ih =>
      intro hk
      obtain ⟨made, h1, h2⟩ := ih (by omega)
      refine ⟨made ++ [(js[k], List.replicate 11 k)], ?_, ?_⟩
      · rw [show 14 * (k + 1) = 14 * k + 14 by omega, ← List.replicate_append_replicate, exec_append, h1,
          Res.ok_bind, List.drop_eq_getElem_cons (by omega), exec_call (by omega)]
      · rw [List.map_append, h2, List.range_succ, List.map_append]
        rfl
  obtain ⟨made, h1, h2⟩ := key n le_rfl
  refine ⟨⟨_, h1, ?_, h2⟩, ?_⟩
  · have := congrArg List.length h2
    simpa using this
  · rw [← List.replicate_append_replicate, exec_append, h1, Res.ok_bind, List.drop_eq_getElem_cons h]
    simp only [List.replicate, exec]
    rw [step_start (j := js[n]) (js := js.drop (n + 1)) rfl, Res.ok_bind]
    simp [step]

/-! ### What the indices mean for the generated events -/

variable {D : Type} [Dbl D]
open MCTools

/-- A call whose reads all gave `i` returns what a lone call with the counter at `i` returns, up to the
counter. -/
theorem C57_coherent_call (s : Source D) (i : Nat) (hi : i ≠ s.nPart) (r : Rng D) :
    s.listFrom (List.replicate 11 i) r =
      (({ s with partCount := i } : Source D).generateList r >>= fun x => .ok (x.1, x.2.2)) := by
  unfold Source.listFrom Source.generateList
  rw [if_neg hi]
  simp only [List.getD_eq_getElem?_getD]
  simp only [List.replicate, List.getElem?_cons_succ, List.getElem?_cons_zero, Option.getD_some]
  unfold rd
  cases s.xPos[i]? <;> [rfl; skip]
  cases s.yPos[i]? <;> [rfl; skip]
  cases s.zPos[i]? <;> [rfl; skip]
  cases s.thetaDir[i]? <;> [rfl; skip]
  cases s.phiDir[i]? <;> [rfl; skip]
  cases s.energy[i]? <;> [rfl; skip]
  simp only [Res.ok_bind, Source.sphere]
  generalize hm : s.mkParticle _ _ _ _ = m
  have : ∀ (e : D) (p d : V3 D) (u : D),
    ({ s with partCount := i } : Source D).mkParticle e p d u = s.mkParticle e p d u := fun _ _ _ _ => rfl
  rw [this, hm]
  cases m <;> rfl

/-- An event whose reads gave different values is put together from different samples: each coordinate of
the starting point, each angle and the energy comes from the sample of its own read. -/
theorem C57_mixed_event (s : Source ℝ) (sp : Kind) (hk : speciesOf s.type = some sp)
    (test num ix iy iz iθ iφ jθ jφ kθ ie : Nat) (x y z θ φ θ' φ' θ'' energy : ℝ)
    (hx : s.xPos[ix]? = some x) (hy : s.yPos[iy]? = some y) (hz : s.zPos[iz]? = some z)
    (h1 : s.thetaDir[iθ]? = some θ) (h2 : s.phiDir[iφ]? = some φ) (h3 : s.thetaDir[jθ]? = some θ')
    (h4 : s.phiDir[jφ]? = some φ') (h5 : s.thetaDir[kθ]? = some θ'') (h6 : s.energy[ie]? = some energy)
    (r : Rng ℝ) : ∃ (l : PList ℝ) (q : Particle ℝ) (r' : Rng ℝ),
      s.listFrom [test, num, ix, iy, iz, iθ, iφ, jθ, jφ, kθ, ie] r = .ok (l, r') ∧ l.items = [q] ∧
      q.kind = sp ∧ q.position = (s.rotation.mulVec ⟨x, y, z⟩).add s.position ∧
      q.momentum = (s.rotation.mulVec ⟨Real.sin θ * Real.cos φ, Real.sin θ' * Real.sin φ',
        Real.cos θ''⟩).norm.smul energy := by
  obtain ⟨q, hq, hkind, -, -, -, -, hpos, hmom⟩ := mkParticle_spec saneReal s sp hk energy
    ((s.rotation.mulVec ⟨x, y, z⟩).add s.position)
    (s.rotation.mulVec ⟨Real.sin θ * Real.cos φ, Real.sin θ' * Real.sin φ', Real.cos θ''⟩) r.next.1
  refine ⟨(PList.new (toString num) PList.defaultMax).add q, q, r.next.2, ?_, rfl, hkind.1, hpos, hmom⟩
  unfold Source.listFrom rd
  simp only [List.getD_cons_succ, List.getD_cons_zero, hx, hy, hz, h1, h2, h3, h4, h5, h6, Res.ok_bind]
  exact (congrArg (fun m => m >>= fun part => Res.ok ((PList.new (toString num) PList.defaultMax).add part,
    r.next.2)) hq).trans rfl

/-- Four events over three threads meet the hypotheses. -/
example : Shared 4 [[0, 3], [2], [1]] ∧ TwoThreads [[0, 3], [2], [1]] :=
  ⟨by unfold Shared; decide, 0, 1, [0, 3], [2], by decide, rfl, rfl, by simp, by simp⟩

/-- Three events on the second of two threads: the property holds. -/
example : Shared 3 [[], [0, 1, 2]] ∧ ¬ TwoThreads [[], [0, 1, 2]] := by
  refine ⟨List.Perm.refl _, ?_⟩
  rintro ⟨a, b, ta, tb, hab, ha, hb, hta, htb⟩
  match a, b with
  | 0, _ => simp at ha; exact hta ha
  | 1, 0 => simp at hb; exact htb hb
  | 1, 1 => exact hab rfl
  | _, b + 2 => simp at hb
  | a + 2, _ => simp at ha

/-- Calls that do not overlap, over two threads: thread 1 runs its event, then thread 0. -/
example : ∀ k s, exec 2 ((List.replicate 14 1 ++ List.replicate 14 0).take k)
    (.init [[0], [1]]) = .ok s → s.AtMostOne := by
  intro k s h a b la lb ha hb hca hcb
  by_contra hab
  have key : ∀ (sched : List Nat) (s : State), exec 2 sched (.init [[0], [1]]) = .ok s →
      s.threads.length = 2 := by
    have hstep : ∀ (t : Nat) (s s' : State), step 2 t s = .ok s' →
        s'.threads.length = s.threads.length := by
      intro t s s' h
      unfold step see at h
      split at h
      · cases h; rfl
      · split at h <;> cases h <;> simp
      · (repeat' split at h) <;> cases h <;> simp
    have : ∀ (sched : List Nat) (s s' : State), exec 2 sched s = .ok s' →
        s'.threads.length = s.threads.length := by
      intro sched
      induction sched with
      | nil => intro s s' h; cases h; rfl
      | cons t ts ih =>
        intro s s' h
        simp only [exec] at h
        obtain ⟨s1, h1, h2⟩ := bind_eq_ok.1 h
        rw [ih s1 s' h2, hstep t s s1 h1]
    intro sched s h
    rw [this sched _ s h]; rfl
  have hlen := key _ s h
  have hk : ∀ k ≤ 28, ∀ s, exec 2 ((List.replicate 14 1 ++ List.replicate 14 0).take k)
      (.init [[0], [1]]) = .ok s → (s.threads.map fun l => l.call.isSome) ≠ [true, true] := by
    intro k hk s h
    have hd : ∀ k ∈ List.range 29,
        ((exec 2 ((List.replicate 14 1 ++ List.replicate 14 0).take k) (.init [[0], [1]])) >>= fun s =>
          Res.ok (s.threads.map fun l => l.call.isSome)) ≠ .ok [true, true] := by decide
    have := hd k (List.mem_range.2 (by omega))
    rw [h] at this
    simpa using this
  have hs : (List.replicate 14 1 ++ List.replicate 14 0).take k =
      (List.replicate 14 1 ++ List.replicate 14 0).take (min k 28) := by
    rcases Nat.le_total k 28 with h | h
    · rw [Nat.min_eq_left h]
    · rw [Nat.min_eq_right h, List.take_of_length_le (by simpa using h), List.take_of_length_le (by simp)]
  rw [hs] at h
  have h2 := hk (min k 28) (Nat.min_le_right _ _) s h
  match hth : s.threads, hlen with
  | [x, y], _ =>
    rw [hth] at ha hb h2
    match a, b with
    | 0, 0 => exact hab rfl
    | 1, 1 => exact hab rfl
    | 0, 1 => simp at ha hb; subst ha; subst hb; simp [hca, hcb] at h2
    | 1, 0 => simp at ha hb; subst ha; subst hb; simp [hca, hcb] at h2
    | _, b + 2 => simp at hb
    | a + 2, _ => simp at ha

end QED
