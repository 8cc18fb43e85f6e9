import Verif.Lemmas.SharedHist
import Verif.Lemmas.SharedRng
import Verif.Lemmas.Witness

set_option autoImplicit false

/-!
# Histograms and random numbers shared by threads (C106, C107)

`SharedHist.exec sched (.init h shares)`: thread `t` adds particles with the energies `shares[t]` to the
histogram `h`, the threads taking their steps in the order `sched`. `SharedRng.exec sched (.init shares)`:
thread `t` draws `shares[t]` random numbers.
-/

namespace QED

/-! ## C106 -/

namespace SharedHist

open Classical in
/-- How many of the values belong to bin `i`. -/
noncomputable def belongs (lo hi : ℝ) (n i : Nat) (shares : List (List ℝ)) : Nat :=
  shares.flatten.countP fun x => InBin lo hi n i x

/-- Two threads have values for bin `i`. -/
def TwoThreads (lo hi : ℝ) (n i : Nat) (shares : List (List ℝ)) : Prop :=
  ∃ (a b : Nat) (xs ys : List ℝ), a ≠ b ∧ shares[a]? = some xs ∧ shares[b]? = some ys ∧
    (∃ x ∈ xs, InBin lo hi n i x) ∧ (∃ y ∈ ys, InBin lo hi n i y)

/-- Property C106 for bin `i`: whatever the interleaving, at the end the bin holds the number of values
that belong to it. -/
def Complete (h : Hist ℝ) (lo hi : ℝ) (n i : Nat) (shares : List (List ℝ)) : Prop :=
  ∀ sched s, exec sched (.init h shares) = .ok s → s.Finished →
    s.hist.values[i]? = some (belongs lo hi n i shares : ℝ)

theorem owed_init (h : Hist ℝ) (lo hi : ℝ) (n i : Nat) (shares : List (List ℝ)) :
    (State.init h shares).owed lo hi n i = belongs lo hi n i shares := by
  simp [State.owed, State.init, belongs, Local.owes, Pc.owes, List.countP_flatten, Function.comp_def]

/-- An upper bound that no interleaving exceeds. -/
def Below (lo hi : ℝ) (n i : Nat) (m : ℝ) (s : State ℝ) : Prop :=
  (∀ v, s.hist.values[i]? = some v → v + s.owed lo hi n i ≤ m) ∧
    ∀ l ∈ s.threads, ∀ v, l.pc = .sawBin i v → v + s.owed lo hi n i ≤ m

theorem Below.move {lo hi : ℝ} {n i t : Nat} {m : ℝ} {s s' : State ℝ} (_ : s.hist.Shape lo hi n)
    (h : Below lo hi n i m s) (hm : Move lo hi n t s s') : Below lo hi n i m s' := by
  have hle : (s'.owed lo hi n i : ℝ) ≤ s.owed lo hi n i := by
    rcases hm.owed i with ⟨h1, -⟩ | ⟨_, _, -, h1, -⟩
    · rw [h1]
    · exact_mod_cast (by omega)
  refine ⟨?_, ?_⟩
  · intro v hv
    rcases hm.owed i with ⟨h1, h2⟩ | ⟨todo, w, ht, h1, h2⟩
    · rw [h1]; exact h.1 v (by rw [← h2]; exact hv)
    · rw [h2, List.getElem?_set] at hv
      have hw := h.2 _ (List.mem_of_getElem? ht) w rfl
      have h1' : (s'.owed lo hi n i : ℝ) + 1 = s.owed lo hi n i := by exact_mod_cast h1
      simp only [if_true] at hv
      split at hv
      · cases hv; linarith
      · cases hv
  · intro l hl v hv
    rcases hm.seen hl hv with ⟨l', h1, h2⟩ | h1
    · have := h.2 l' h1 v h2; linarith
    · have := h.1 v h1; linarith

/-- A lower bound: once something has been written, the bin holds at least one. -/
def Above (lo hi : ℝ) (n i N : Nat) (s : State ℝ) : Prop :=
  ((∀ v, s.hist.values[i]? = some v → 0 ≤ v) ∧ ∀ l ∈ s.threads, ∀ v, l.pc = .sawBin i v → 0 ≤ v) ∧
    (s.owed lo hi n i = N ∨ ∀ v, s.hist.values[i]? = some v → 1 ≤ v)

theorem Above.move {lo hi : ℝ} {n i N t : Nat} {s s' : State ℝ} (_ : s.hist.Shape lo hi n)
    (h : Above lo hi n i N s) (hm : Move lo hi n t s s') : Above lo hi n i N s' := by
  obtain ⟨⟨ha, hb⟩, hc⟩ := h
  rcases hm.owed i with ⟨h1, h2⟩ | ⟨todo, w, ht, h1, h2⟩
  · refine ⟨⟨by rw [h2]; exact ha, ?_⟩, by rw [h1, h2]; exact hc⟩
    intro l hl v hv
    rcases hm.seen hl hv with ⟨l', h3, h4⟩ | h3
    · exact hb l' h3 v h4
    · exact ha v h3
  · have hw := hb _ (List.mem_of_getElem? ht) w rfl
    have key : ∀ v, s'.hist.values[i]? = some v → 1 ≤ v := by
      intro v hv
      rw [h2, List.getElem?_set] at hv
      simp only [if_true] at hv
      split at hv
      · cases hv; linarith
      · cases hv
    refine ⟨⟨fun v hv => by have := key v hv; linarith, ?_⟩, .inr key⟩
    intro l hl v hv
    rcases hm.seen hl hv with ⟨l', h3, h4⟩ | h3
    · exact hb l' h3 v h4
    · exact ha v h3

/-- If only thread `t` has values for bin `i`, the bin is exact. -/
def Exact (lo hi : ℝ) (n i t N : Nat) (s : State ℝ) : Prop :=
  (∀ (u : Nat) (l : Local ℝ), u ≠ t → s.threads[u]? = some l → l.owes lo hi n i = 0) ∧
    (∀ v, s.hist.values[i]? = some v → v + s.owed lo hi n i = N) ∧
    ∀ (l : Local ℝ) (v : ℝ), s.threads[t]? = some l → l.pc = .sawBin i v → s.hist.values[i]? = some v

/-- What a thread owes never grows. -/
theorem Move.owes {lo hi : ℝ} {n t i : Nat} {s s' : State ℝ} (hm : Move lo hi n t s s') {u : Nat}
    {l : Local ℝ} (hl : s.threads[u]? = some l) (h0 : l.owes lo hi n i = 0) {l' : Local ℝ}
    (hl' : s'.threads[u]? = some l') : l'.owes lo hi n i = 0 := by
  have hlt := (List.getElem?_eq_some_iff.1 hl).1
  by_cases hut : u = t
  · subst hut
    cases hm with
    | stay h => rw [hl] at hl'; cases hl'; exact h0
    | start h =>
      rw [put_threads, List.getElem?_set_self hlt] at hl'; cases hl'
      rw [hl] at h; cases h
      simp only [Local.owes, Pc.owes, List.countP_cons] at h0 ⊢
      rename_i x xs
      by_cases hx : InBin lo hi n i x <;> simp_all
    | entry h =>
      rw [put_threads, List.getElem?_set_self hlt] at hl'; cases hl'
      rw [hl] at h; cases h
      simpa only [Local.owes, Pc.owes] using h0
    | inside h hj hv =>
      rw [put_threads, List.getElem?_set_self hlt] at hl'; cases hl'
      rw [hl] at h; cases h
      rename_i todo x j v
      simp only [Local.owes, Pc.owes] at h0 ⊢
      by_cases hji : j = i
      · subst hji; rw [if_pos hj] at h0; omega
      · rw [if_neg hji]; omega
    | outside h hx =>
      rw [put_threads, List.getElem?_set_self hlt] at hl'; cases hl'
      rw [hl] at h; cases h
      simp only [Local.owes, Pc.owes] at h0 ⊢; omega
    | write h =>
      rw [put_threads, List.getElem?_set_self hlt] at hl'; cases hl'
      rw [hl] at h; cases h
      simp only [Local.owes, Pc.owes] at h0 ⊢; omega
  · have : s'.threads[u]? = s.threads[u]? := by
      cases hm with
      | stay h => rfl
      | _ h => rw [put_threads, List.getElem?_set_ne (Ne.symm hut)]
    rw [this, hl] at hl'; cases hl'; exact h0

theorem move_length {lo hi : ℝ} {n t : Nat} {s s' : State ℝ} (hm : Move lo hi n t s s') :
    s'.threads.length = s.threads.length := by
  cases hm <;> simp [State.put]

theorem Exact.move {lo hi : ℝ} {n i t N u : Nat} {s s' : State ℝ} (_ : s.hist.Shape lo hi n)
    (h : Exact lo hi n i t N s) (hm : Move lo hi n u s s') : Exact lo hi n i t N s' := by
  obtain ⟨ha, hb, hc⟩ := h
  have ha' : ∀ (u : Nat) (l : Local ℝ), u ≠ t → s'.threads[u]? = some l → l.owes lo hi n i = 0 := by
    intro w l hw hl
    have hlt : w < s.threads.length := by
      rw [← move_length hm]; exact (List.getElem?_eq_some_iff.1 hl).1
    have h1 : s.threads[w]? = some s.threads[w] := List.getElem?_eq_getElem hlt
    exact hm.owes h1 (ha w _ hw h1) hl
  rcases hm.owed i with ⟨h1, h2⟩ | ⟨todo, w, ht, h1, h2⟩
  · refine ⟨ha', by rw [h1, h2]; exact hb, ?_⟩
    intro l v hl hv
    rw [h2]
    by_cases hut : u = t
    · subst hut
      have hlt := (List.getElem?_eq_some_iff.1 hl).1
      rw [move_length hm] at hlt
      cases hm with
      | stay h => exact hc l v hl hv
      | inside h hj hv' =>
        rw [put_threads, List.getElem?_set_self hlt] at hl; cases hl
        cases hv; exact hv'
      | _ h => rw [put_threads, List.getElem?_set_self hlt] at hl; cases hl; cases hv
    · refine hc l v ?_ hv
      cases hm with
      | stay h => exact hl
      | _ h => rwa [put_threads, List.getElem?_set_ne hut] at hl
  · have hut : u = t := by
      by_contra hne
      have := ha u _ hne ht
      simp [Local.owes, Pc.owes] at this
    subst hut
    have hw := hc _ w ht rfl
    have hil := (List.getElem?_eq_some_iff.1 hw).1
    have e := hb w hw
    refine ⟨ha', ?_, ?_⟩
    · intro v hv
      rw [h2, List.getElem?_set_self hil] at hv
      cases hv
      have h1' : (s'.owed lo hi n i : ℝ) + 1 = s.owed lo hi n i := by exact_mod_cast h1
      linarith
    · intro l v hl hv
      have hlt := (List.getElem?_eq_some_iff.1 ht).1
      cases hm with
      | stay h => exact absurd (h _ ht).2 (by simp)
      | write h => rw [put_threads, List.getElem?_set_self hlt] at hl; cases hl; cases hv
      | _ h => rw [ht] at h; cases h

theorem zero_values {name part type : String} {time lo hi : ℝ} {n g i : Nat} (hi' : i < n) :
    (Hist.new name part type time lo hi n g).values[i]? = some 0 := by
  simp [Hist.new, hi']

end SharedHist

open SharedHist

/-- Whatever the interleaving, adding particles never fails and can always be brought to an end; then
no bin holds more than the number of values that belong to it, and a bin that values belong to holds at
least one. -/
theorem C106_bounds_partial (name part type : String) (time : ℝ) {lo hi : ℝ} {n : Nat} (g : Nat)
    (hlt : lo < hi) (hn : 2 ≤ n) (hb : n < 2 ^ 32) (shares : List (List ℝ)) (sched : List Nat) :
    ∃ s, exec sched (.init (Hist.new name part type time lo hi n g) shares) = .ok s ∧
      (∃ rest s', exec rest s = .ok s' ∧ s'.Finished) ∧
      (s.Finished → ∀ i < n, ∃ v, s.hist.values[i]? = some v ∧ v ≤ belongs lo hi n i shares ∧
        (0 < belongs lo hi n i shares → 1 ≤ v)) := by
  have hs0 := Hist.new_shape name part type time lo hi n g
  obtain ⟨s, e, hs, -⟩ := exec_invariant hlt hn hb (I := fun _ => True) (fun _ _ _ _ _ _ => trivial)
    sched (s := .init (Hist.new name part type time lo hi n g) shares) hs0 trivial
  refine ⟨s, e, complete hlt hn hb _ s le_rfl hs, fun hf i hi' => ?_⟩
  obtain ⟨s1, e1, -, b1⟩ := exec_invariant hlt hn hb
    (I := Below lo hi n i (belongs lo hi n i shares)) (fun _ _ _ => Below.move)
    sched (s := .init (Hist.new name part type time lo hi n g) shares) hs0 (by
      refine ⟨?_, ?_⟩
      · intro v hv
        rw [show (State.init (Hist.new name part type time lo hi n g) shares).hist.values[i]? = some 0
          from zero_values hi'] at hv
        cases hv
        rw [owed_init]; simp
      · intro l hl v hv
        obtain ⟨todo, -, rfl⟩ := List.mem_map.1 hl
        cases hv)
  obtain ⟨s2, e2, -, b2⟩ := exec_invariant hlt hn hb
    (I := Above lo hi n i (belongs lo hi n i shares)) (fun _ _ _ => Above.move)
    sched (s := .init (Hist.new name part type time lo hi n g) shares) hs0 (by
      refine ⟨⟨?_, ?_⟩, .inl (owed_init _ _ _ _ _ _)⟩
      · intro v hv
        rw [show (State.init (Hist.new name part type time lo hi n g) shares).hist.values[i]? = some 0
          from zero_values hi'] at hv
        cases hv; exact le_rfl
      · intro l hl v hv
        obtain ⟨todo, -, rfl⟩ := List.mem_map.1 hl
        cases hv)
  rw [e] at e1 e2
  cases e1; cases e2
  have hv : s.hist.values[i]? = some (s.hist.values[i]'(by rw [hs.values]; exact hi')) :=
    List.getElem?_eq_getElem _
  refine ⟨_, hv, ?_, ?_⟩
  · have := b1.1 _ hv
    rw [Finished.owed hf] at this
    simpa using this
  · intro h0
    rcases b2.2 with h | h
    · rw [Finished.owed hf] at h; omega
    · exact h _ hv

/-- As long as no two calls overlap, the histogram is the one obtained by adding the values one by one
in some order (and C45 says what that is). This holds in any arithmetic. -/
theorem C106_no_overlap_partial {D : Type} [Dbl D] (h : Hist D) (shares : List (List D))
    (sched : List Nat)
    (hx : ∀ k s, exec (sched.take k) (.init h shares) = .ok s → s.AtMostOne)
    (s : State D) (he : exec sched (.init h shares) = .ok s) (hf : s.Finished) :
    ∃ order : List D, order.Perm shares.flatten ∧ order.foldlM Hist.count h = .ok s.hist := by
  obtain ⟨done, h', hd, hc⟩ := Serial.exec sched (Serial.init h shares) hx he
  have h0 : s.todo = [] := by
    unfold State.todo
    rw [List.flatten_eq_nil_iff]
    intro l hl
    obtain ⟨l', h1, rfl⟩ := List.mem_map.1 hl
    exact (hf l' h1).1
  rcases hc with ⟨-, h2, h3⟩ | ⟨t, l, x, h1, -, h3, -⟩
  · rw [h0, List.append_nil] at h3
    exact ⟨done, h3, by rw [hd, h2]⟩
  · rw [(hf l (List.mem_of_getElem? h1)).2] at h3
    exact h3.elim

/-- C106 for one bin holds exactly if at most one thread has values for it. Whenever two threads have,
some interleaving loses counts. -/
theorem C106_iff_partial (name part type : String) (time : ℝ) {lo hi : ℝ} {n : Nat} (g : Nat)
    (hlt : lo < hi) (hn : 2 ≤ n) (hb : n < 2 ^ 32) (shares : List (List ℝ)) {i : Nat} (hi' : i < n) :
    Complete (Hist.new name part type time lo hi n g) lo hi n i shares ↔
      ¬ TwoThreads lo hi n i shares := by
  classical
  have hs0 := Hist.new_shape name part type time lo hi n g
  constructor
  · rintro hc ⟨a, b, xs, ys, hab, ha, hb', ⟨x, hx, hxi⟩, ⟨y, hy, hyi⟩⟩
    -- `a` runs up to its first value in bin `i`, and reads the bin
    obtain ⟨pre, x0, post, rfl, hx0, hpre⟩ : ∃ pre x0 post, xs = pre ++ x0 :: post ∧
        InBin lo hi n i x0 ∧ pre.countP (fun x => InBin lo hi n i x) = 0 := by
      clear ha
      induction xs with
      | nil => cases hx
      | cons z zs ih =>
        by_cases hz : InBin lo hi n i z
        · exact ⟨[], z, zs, rfl, hz, rfl⟩
        · obtain ⟨pre, x0, post, h1, h2, h3⟩ := ih (by
            rcases List.mem_cons.1 hx with rfl | h
            · exact absurd hxi hz
            · exact h)
          exact ⟨z :: pre, x0, post, by rw [h1]; rfl, h2, by rw [List.countP_cons]; simp [hz, h3]⟩
    have hla := (List.getElem?_eq_some_iff.1 ha).1
    have hlb := (List.getElem?_eq_some_iff.1 hb').1
    have init_get : ∀ {t : Nat} {zs : List ℝ}, shares[t]? = some zs →
        (State.init (Hist.new name part type time lo hi n g) shares).threads[t]? = some ⟨zs, .idle⟩ := by
      intro t zs h
      simp [State.init, h]
    have hlen : (State.init (Hist.new name part type time lo hi n g) shares).threads.length =
        shares.length := by simp [State.init]
    obtain ⟨sc1, s1, e1, hs1, ht1, hv1⟩ := alone hlt hn hb pre (t := a) (rest := x0 :: post)
      (s := .init (Hist.new name part type time lo hi n g) shares) hs0 (init_get ha)
    have v1 := hv1 i 0 (zero_values hi')
    rw [hpre, Nat.cast_zero, add_zero] at v1
    obtain ⟨s2, e2, hs2, hv2, h2⟩ := alone_seen hlt hn hb hs1 (t := a) (x := x0) (xs := post)
      (by rw [ht1, List.getElem?_set_self (by rw [hlen]; exact hla)])
    obtain ⟨j, w, hj, hw, ht2⟩ : ∃ j w, InBin lo hi n j x0 ∧ s1.hist.values[j]? = some w ∧
        s2.threads = s1.threads.set a ⟨post, .sawBin j w⟩ := by
      rcases h2 with ⟨j, w, h3, h4, h5⟩ | ⟨h3, -⟩
      · exact ⟨j, w, h3, h4, h5⟩
      · exact absurd ⟨hx0.1, hx0.2.1⟩ h3
    obtain rfl : j = i := hj.unique hx0
    rw [v1] at hw; cases hw
    rw [ht1, List.set_set] at ht2
    -- `b` runs to its end
    obtain ⟨sc3, s3, e3, hs3, ht3, hv3⟩ := alone hlt hn hb ys (t := b) (rest := []) (s := s2) hs2
      (by rw [ht2, List.getElem?_set_ne hab, List.append_nil]; exact init_get hb')
    have v3 := hv3 j 0 (by rw [hv2]; exact v1)
    -- `a` writes
    have hta3 : s3.threads[a]? = some ⟨post, .sawBin j 0⟩ := by
      rw [ht3, ht2, List.getElem?_set_ne (Ne.symm hab), List.getElem?_set_self (by rw [hlen]; exact hla)]
    obtain ⟨s4, e4, hs4, hv4, ht4⟩ := write_step hlt hn hb hs3 (t := a) hta3
    have v4 : s4.hist.values[j]? = some 1 := by
      rw [hv4, List.getElem?_set_self (List.getElem?_eq_some_iff.1 v3).1]; simp
    -- what is owed after that
    have hth4 : s4.threads = ((State.init (Hist.new name part type time lo hi n g) shares).threads.set a
        ⟨post, .idle⟩).set b ⟨[], .idle⟩ := by
      rw [ht4, ht3, ht2, List.set_comm _ _ (Ne.symm hab), List.set_set]
    have ho : s4.owed lo hi n j + (ys.countP (fun x => InBin lo hi n j x) + 1) =
        belongs lo hi n j shares := by
      have o0 := owed_init (Hist.new name part type time lo hi n g) lo hi n j shares
      have o1 := Threads.sum_set (Local.owes lo hi n j)
        (State.init (Hist.new name part type time lo hi n g) shares).threads a _ ⟨post, .idle⟩ (init_get ha)
      have o2 := Threads.sum_set (Local.owes lo hi n j)
        ((State.init (Hist.new name part type time lo hi n g) shares).threads.set a ⟨post, .idle⟩)
        b ⟨ys, .idle⟩ ⟨[], .idle⟩ (by rw [List.getElem?_set_ne hab]; exact init_get hb')
      unfold State.owed at o0 ⊢
      rw [hth4]
      simp only [Local.owes, Pc.owes, List.countP_append, hpre, List.countP_cons, List.countP_nil] at o1 o2
      simp only [hx0, decide_true, if_true] at o1
      omega
    have hys : 0 < ys.countP (fun x => InBin lo hi n j x) :=
      List.countP_pos_iff.2 ⟨y, hy, by simpa using hyi⟩
    -- every way of finishing stays below
    obtain ⟨rest, s5, e5, hf5⟩ := complete hlt hn hb _ s4 le_rfl hs4
    obtain ⟨s6, e6, hs6, b6⟩ := exec_invariant hlt hn hb
      (I := Below lo hi n j ((belongs lo hi n j shares : ℝ) - 1)) (fun _ _ _ => Below.move) rest hs4 (by
        have ho' : (s4.owed lo hi n j : ℝ) + 2 ≤ belongs lo hi n j shares := by
          exact_mod_cast (by omega : s4.owed lo hi n j + 2 ≤ belongs lo hi n j shares)
        refine ⟨?_, ?_⟩
        · intro v hv
          rw [v4] at hv; cases hv; linarith
        · intro l hl v hv
          rw [hth4] at hl
          exfalso
          rcases List.mem_or_eq_of_mem_set hl with h | h
          · rcases List.mem_or_eq_of_mem_set h with h | h
            · obtain ⟨todo, -, rfl⟩ := List.mem_map.1 h; cases hv
            · subst h; cases hv
          · subst h; cases hv)
    rw [e5] at e6; cases e6
    have hfin := hc (sc1 ++ ([a, a, a] ++ (sc3 ++ ([a] ++ rest)))) s5 (by
      rw [exec_append, e1, Res.ok_bind, exec_append, e2, Res.ok_bind, exec_append, e3, Res.ok_bind,
        exec_append, e4, Res.ok_bind, e5]) hf5
    have := b6.1 _ hfin
    rw [Finished.owed hf5] at this
    simp at this
    linarith
  · intro h2 sched s he hf
    -- the thread that has values for the bin, if any
    obtain ⟨t, ht⟩ : ∃ t, ∀ (u : Nat) (zs : List ℝ), u ≠ t → shares[u]? = some zs →
        ∀ z ∈ zs, ¬ InBin lo hi n i z := by
      by_cases hex : ∃ (a : Nat) (xs : List ℝ), shares[a]? = some xs ∧ ∃ x ∈ xs, InBin lo hi n i x
      · obtain ⟨a, xs, h3, h4⟩ := hex
        exact ⟨a, fun u zs hu hz z hz1 hz2 => h2 ⟨a, u, xs, zs, Ne.symm hu, h3, hz, h4, z, hz1, hz2⟩⟩
      · exact ⟨0, fun u zs _ hz z hz1 hz2 => hex ⟨u, zs, hz, z, hz1, hz2⟩⟩
    obtain ⟨s1, e1, hs1, b1⟩ := exec_invariant hlt hn hb
      (I := Exact lo hi n i t (belongs lo hi n i shares)) (fun _ _ _ => Exact.move) sched
      (s := .init (Hist.new name part type time lo hi n g) shares) hs0 (by
        refine ⟨?_, ?_, ?_⟩
        · intro u l hu hl
          simp only [State.init, List.getElem?_map, Option.map_eq_some_iff] at hl
          obtain ⟨zs, hz, rfl⟩ := hl
          simp only [Local.owes, Pc.owes, Nat.add_zero]
          rw [List.countP_eq_zero]
          intro z hz1
          simpa using ht u zs hu hz z hz1
        · intro v hv
          rw [show (State.init (Hist.new name part type time lo hi n g) shares).hist.values[i]? = some 0
            from zero_values hi'] at hv
          cases hv
          rw [owed_init]; simp
        · intro l v hl hv
          simp only [State.init, List.getElem?_map, Option.map_eq_some_iff] at hl
          obtain ⟨zs, hz, rfl⟩ := hl
          cases hv)
    rw [he] at e1; cases e1
    have hv : s.hist.values[i]? = some (s.hist.values[i]'(by rw [hs1.values]; exact hi')) :=
      List.getElem?_eq_getElem _
    have := b1.2.1 _ hv
    rw [Finished.owed hf, Nat.cast_zero, add_zero] at this
    rw [hv, this]

/-- Two threads are at the entry counter of the histogram, one of them about to write it: a data race,
so that the program's behaviour is undefined. -/
def SharedHist.State.Racing (s : State ℝ) : Prop :=
  ∃ (a b : Nat) (la lb : Local ℝ), a ≠ b ∧ s.threads[a]? = some la ∧ s.threads[b]? = some lb ∧
    (∃ x e, la.pc = .sawEntries x e) ∧ ((∃ x e, lb.pc = .sawEntries x e) ∨ lb.pc = .idle ∧ lb.todo ≠ [])

/-- The histogram is subject to a data race exactly if two threads add particles to it, whether or not
these belong to the same bin, or to any. -/
theorem C106_race_iff (name part type : String) (time : ℝ) {lo hi : ℝ} {n : Nat} (g : Nat)
    (hlt : lo < hi) (hn : 2 ≤ n) (hb : n < 2 ^ 32) (shares : List (List ℝ)) :
    (∃ sched s, exec sched (.init (Hist.new name part type time lo hi n g) shares) = .ok s ∧ s.Racing) ↔
      ∃ (a b : Nat) (xs ys : List ℝ), a ≠ b ∧ shares[a]? = some xs ∧ shares[b]? = some ys ∧
        xs ≠ [] ∧ ys ≠ [] := by
  have hs0 := Hist.new_shape name part type time lo hi n g
  constructor
  · rintro ⟨sched, s, he, a, b, la, lb, hab, ha, hb', hpa, hpb⟩
    have busy : ∀ {t : Nat} {l : Local ℝ}, s.threads[t]? = some l → ¬ (l.todo = [] ∧ l.pc = .idle) →
        ∃ zs, shares[t]? = some zs ∧ zs ≠ [] := by
      intro t l hl hne
      obtain ⟨s0, e0, -, len⟩ := exec_invariant hlt hn hb
        (I := fun s => s.threads.length = shares.length)
        (fun _ _ _ _ h hm => (move_length hm).trans h) sched
        (s := .init (Hist.new name part type time lo hi n g) shares) hs0 (by simp [State.init])
      rw [he] at e0; cases e0
      have htl : t < shares.length := by rw [← len]; exact (List.getElem?_eq_some_iff.1 hl).1
      refine ⟨shares[t], List.getElem?_eq_getElem htl, fun h0 => hne ?_⟩
      obtain ⟨s1, e1, -, b1⟩ := exec_invariant hlt hn hb
        (I := fun s => s.threads[t]? = some ⟨[], .idle⟩) (by
          intro u s s' _ h hm
          by_cases hut : t = u
          · subst hut
            cases hm with
            | stay _ => exact h
            | _ h' => rw [h] at h'; cases h'
          · cases hm with
            | stay _ => exact h
            | _ h' => rw [put_threads, List.getElem?_set_ne (Ne.symm hut)]; exact h) sched
        (s := .init (Hist.new name part type time lo hi n g) shares) hs0
        (by simp [State.init, List.getElem?_eq_getElem htl, h0])
      rw [he] at e1; cases e1
      rw [hl] at b1; cases b1
      exact ⟨rfl, rfl⟩
    obtain ⟨x, e, hx⟩ := hpa
    obtain ⟨xs, h1, h2⟩ := busy ha (by rw [hx]; simp)
    obtain ⟨ys, h3, h4⟩ := busy hb' (by
      rcases hpb with ⟨y, e', hy⟩ | ⟨-, hy⟩
      · rw [hy]; simp
      · exact fun h => hy h.1)
    exact ⟨a, b, xs, ys, hab, h1, h3, h2, h4⟩
  · rintro ⟨a, b, xs, ys, hab, ha, hb', hx, hy⟩
    obtain ⟨x, xs, rfl⟩ := List.exists_cons_of_ne_nil hx
    have hga : (State.init (Hist.new name part type time lo hi n g) shares).threads[a]? =
        some ⟨x :: xs, .idle⟩ := by simp [State.init, ha]
    have hgb : (State.init (Hist.new name part type time lo hi n g) shares).threads[b]? =
        some ⟨ys, .idle⟩ := by simp [State.init, hb']
    have hn0 : ¬ n = 0 := by omega
    refine ⟨[a], (State.init (Hist.new name part type time lo hi n g) shares).put a xs (.sawEntries x g),
      ?_, a, b, ⟨xs, .sawEntries x g⟩, ⟨ys, .idle⟩, hab, ?_, ?_, ⟨x, g, rfl⟩, .inr ⟨rfl, hy⟩⟩
    · simp only [exec, step]
      rw [hga]
      dsimp only
      rw [show (State.init (Hist.new name part type time lo hi n g) shares).hist.nBins = n from rfl,
        if_neg hn0]
      rfl
    · rw [put_threads, List.getElem?_set_self (List.getElem?_eq_some_iff.1 hga).1]
    · rw [put_threads, List.getElem?_set_ne hab]; exact hgb

theorem inBin_five : InBin 0 8 5 2 4 := by
  refine ⟨by norm_num, by norm_num, by norm_num, ?_, ?_⟩
  · intro j hj
    interval_cases j <;> norm_num [binCentre, abs_le]
  · intro j hj
    interval_cases j <;> norm_num [binCentre, abs]

/-- C106 is false of the code: two threads with one particle each of the same energy. -/
theorem C106_refuted : ¬ ∀ (lo hi : ℝ) (n i : Nat) (shares : List (List ℝ)), lo < hi → 2 ≤ n →
    n < 2 ^ 32 → i < n →
    Complete (Hist.new "h" "Electron" "energy" 0 lo hi n 0) lo hi n i shares := by
  intro h
  refine (C106_iff_partial "h" "Electron" "energy" 0 (lo := 0) (hi := 8) (n := 5) 0 (by norm_num)
    (by norm_num) (by norm_num) [[4], [4]] (i := 2) (by norm_num)).1
    (h 0 8 5 2 _ (by norm_num) (by norm_num) (by norm_num) (by norm_num)) ?_
  exact ⟨0, 1, [4], [4], by decide, rfl, rfl, ⟨4, by simp, inBin_five⟩, ⟨4, by simp, inBin_five⟩⟩

/-! ## C107 -/

namespace SharedRng

/-- Two threads draw random numbers. -/
def TwoThreads (shares : List Nat) : Prop :=
  ∃ (a b k l : Nat), a ≠ b ∧ shares[a]? = some k ∧ shares[b]? = some l ∧ 0 < k ∧ 0 < l

theorem init_get {shares : List Nat} {t k : Nat} (h : shares[t]? = some k) :
    (State.init shares).threads[t]? = some ⟨k, none⟩ := by
  simp [State.init, h]

theorem step_read {s : State} {t k : Nat} (h : s.threads[t]? = some ⟨k + 1, none⟩) :
    step t s = { s with threads := s.threads.set t ⟨k, some s.pos⟩ } := by
  unfold step; rw [h]

theorem step_write {s : State} {t k p : Nat} (h : s.threads[t]? = some ⟨k, some p⟩) :
    step t s = { pos := p + 1, threads := s.threads.set t ⟨k, none⟩, used := s.used ++ [(t, p)] } := by
  unfold step; rw [h]

end SharedRng

/-- Property C107, in full: whatever the interleaving, no two draws give the same element of the
sequence of random numbers. -/
def DrawsDiffer (shares : List Nat) : Prop :=
  ∀ sched, (SharedRng.exec sched (.init shares)).Finished →
    ((SharedRng.exec sched (.init shares)).used.map Prod.snd).Nodup

/-- Whatever the interleaving, the draws can be brought to an end, then there are as many as asked for,
and only that many elements of the sequence are used. -/
theorem C107_range_partial (shares : List Nat) (sched : List Nat) :
    (∃ rest, (SharedRng.exec (sched ++ rest) (.init shares)).Finished) ∧
    ((SharedRng.exec sched (.init shares)).Finished →
      (SharedRng.exec sched (.init shares)).used.length = shares.sum ∧
      ∀ u ∈ (SharedRng.exec sched (.init shares)).used, u.2 < shares.sum) := by
  refine ⟨?_, fun hf => ?_⟩
  · obtain ⟨rest, h⟩ := SharedRng.complete _ (SharedRng.exec sched (.init shares)) le_rfl
    exact ⟨rest, by rw [SharedRng.exec_append]; exact h⟩
  · have h := (SharedRng.Inv.init shares).exec sched
    have h0 : (SharedRng.exec sched (.init shares)).left = 0 := by
      unfold SharedRng.State.left
      rw [List.sum_eq_zero]
      intro x hx
      obtain ⟨l, hl, rfl⟩ := List.mem_map.1 hx
      obtain ⟨e1, e2⟩ := hf l hl
      simp [SharedRng.Local.left, e1, e2]
    have ht := h.total
    refine ⟨by omega, fun u hu => ?_⟩
    have := h.used u hu
    omega

/-- C107 holds exactly if at most one thread draws random numbers. -/
theorem C107_iff_partial (shares : List Nat) : DrawsDiffer shares ↔ ¬ SharedRng.TwoThreads shares := by
  constructor
  · rintro hd ⟨a, b, k, l, hab, ha, hb, hk, hl⟩
    obtain ⟨k, rfl⟩ := Nat.exists_eq_succ_of_ne_zero (Nat.pos_iff_ne_zero.1 hk)
    obtain ⟨l, rfl⟩ := Nat.exists_eq_succ_of_ne_zero (Nat.pos_iff_ne_zero.1 hl)
    have hla := (List.getElem?_eq_some_iff.1 (SharedRng.init_get ha)).1
    have hlb := (List.getElem?_eq_some_iff.1 (SharedRng.init_get hb)).1
    have e : (SharedRng.exec [a, b, a, b] (.init shares)).used = [(a, 0), (b, 0)] := by
      have e1 := SharedRng.step_read (t := a) (SharedRng.init_get ha)
      have e2 := SharedRng.step_read (t := b) (k := l) (s := SharedRng.step a (.init shares))
        (by rw [e1, ← SharedRng.init_get hb]; exact List.getElem?_set_ne hab)
      have e3 := SharedRng.step_write (t := a) (k := k) (p := 0)
        (s := SharedRng.step b (SharedRng.step a (.init shares)))
        (by rw [e2]
            dsimp only
            rw [List.getElem?_set_ne (Ne.symm hab), e1]
            exact List.getElem?_set_self hla)
      have e4 := SharedRng.step_write (t := b) (k := l) (p := 0)
        (s := SharedRng.step a (SharedRng.step b (SharedRng.step a (.init shares))))
        (by rw [e3]
            dsimp only
            rw [List.getElem?_set_ne hab, e2]
            dsimp only
            rw [List.getElem?_set_self (by rw [e1]; simpa using hlb), e1]; rfl)
      simp only [SharedRng.exec]
      rw [e4, e3, e2, e1]
      rfl
    obtain ⟨rest, hf⟩ := (C107_range_partial shares [a, b, a, b]).1
    have hp := hd _ hf
    rw [SharedRng.exec_append] at hp
    obtain ⟨more, hm⟩ := SharedRng.exec_used rest (SharedRng.exec [a, b, a, b] (.init shares))
    rw [← hm, e] at hp
    simp at hp
  · intro h2 sched _
    obtain ⟨t, ht⟩ : ∃ t, ∀ (u k : Nat), u ≠ t → shares[u]? = some k → k = 0 := by
      by_cases hex : ∃ (a k : Nat), shares[a]? = some k ∧ 0 < k
      · obtain ⟨a, k, h3, h4⟩ := hex
        refine ⟨a, fun u l hu hl => ?_⟩
        by_contra h0
        exact h2 ⟨a, u, k, l, Ne.symm hu, h3, hl, h4, Nat.pos_of_ne_zero h0⟩
      · exact ⟨0, fun u k _ hk => by
          by_contra h0; exact hex ⟨u, k, hk, Nat.pos_of_ne_zero h0⟩⟩
    have h := SharedRng.Alone.exec (t := t) sched (s := .init shares) (by
      refine ⟨?_, rfl, rfl, ?_⟩
      · intro u l hu hl
        simp only [SharedRng.State.init, List.getElem?_map, Option.map_eq_some_iff] at hl
        obtain ⟨k, hk, rfl⟩ := hl
        exact ⟨ht u k hu hk, rfl⟩
      · intro l p hl hp
        simp only [SharedRng.State.init, List.getElem?_map, Option.map_eq_some_iff] at hl
        obtain ⟨k, hk, rfl⟩ := hl
        cases hp)
    rw [h.used, List.map_map]
    simpa [Function.comp_def] using List.nodup_range

/-- Two threads that draw equally many numbers can get exactly the same ones throughout, so that events
running at the same time are copies of each other as far as chance goes. -/
theorem C107_copies_refuted (k : Nat) :
    ∃ sched, (SharedRng.exec sched (.init [k, k])).Finished ∧
      ((SharedRng.exec sched (.init [k, k])).used.filter (·.1 = 0)).map Prod.snd = List.range k ∧
      ((SharedRng.exec sched (.init [k, k])).used.filter (·.1 = 1)).map Prod.snd = List.range k := by
  have key : ∀ (m p : Nat) (used : List (Nat × Nat)), ∃ sched,
      SharedRng.exec sched ⟨p, [⟨m, none⟩, ⟨m, none⟩], used⟩ =
        ⟨p + m, [⟨0, none⟩, ⟨0, none⟩],
          used ++ ((List.range' p m).map fun i => [(0, i), (1, i)]).flatten⟩ := by
    intro m
    induction m with
    | zero => intro p used; exact ⟨[], by simp [SharedRng.exec]⟩
    | succ m ih =>
      intro p used
      obtain ⟨sched, h⟩ := ih (p + 1) (used ++ [(0, p), (1, p)])
      refine ⟨[0, 1, 0, 1] ++ sched, ?_⟩
      rw [SharedRng.exec_append]
      have e : SharedRng.exec [0, 1, 0, 1] ⟨p, [⟨m + 1, none⟩, ⟨m + 1, none⟩], used⟩ =
          ⟨p + 1, [⟨m, none⟩, ⟨m, none⟩], used ++ [(0, p), (1, p)]⟩ := by
        simp [SharedRng.exec, SharedRng.step]
      rw [e, h, List.range'_succ]
      simp [Nat.add_comm, Nat.add_left_comm]
  obtain ⟨sched, h⟩ := key k 0 []
  have h' : SharedRng.exec sched (.init [k, k]) =
      ⟨k, [⟨0, none⟩, ⟨0, none⟩], ((List.range k).map fun i => [(0, i), (1, i)]).flatten⟩ := by
    have : SharedRng.State.init [k, k] = ⟨0, [⟨k, none⟩, ⟨k, none⟩], []⟩ := rfl
    rw [this, h, List.range_eq_range']
    simp
  refine ⟨sched, ?_, ?_, ?_⟩
  · rw [h']
    intro l hl
    simp only [List.mem_cons, List.not_mem_nil, or_false] at hl
    rcases hl with rfl | rfl <;> exact ⟨rfl, rfl⟩
  · rw [h']
    induction List.range k with
    | nil => rfl
    | cons a l ih => simpa using ih
  · rw [h']
    induction List.range k with
    | nil => rfl
    | cons a l ih => simpa using ih

/-- The generator is subject to a data race exactly if two threads draw random numbers. -/
theorem C107_race_iff (shares : List Nat) :
    (∃ sched, (SharedRng.exec sched (.init shares)).Racing) ↔ SharedRng.TwoThreads shares := by
  constructor
  · rintro ⟨sched, a, b, la, lb, hab, ha, hb, hsa, hsb⟩
    have busy : ∀ {t : Nat} {l : SharedRng.Local}, (SharedRng.State.init shares).threads[t]? = some l →
        (0 < l.todo ∨ l.seen ≠ none) → ∃ k, shares[t]? = some k ∧ 0 < k := by
      intro t l hl hw
      simp only [SharedRng.State.init, List.getElem?_map, Option.map_eq_some_iff] at hl
      obtain ⟨k, hk, rfl⟩ := hl
      exact ⟨k, hk, by simpa using hw⟩
    obtain ⟨la', h1, h2⟩ := SharedRng.exec_busy sched ha
      (.inr (by intro h0; rw [h0] at hsa; cases hsa))
    obtain ⟨lb', h3, h4⟩ := SharedRng.exec_busy sched hb (by
      rcases hsb with h | h
      · exact .inr (by intro h0; rw [h0] at h; cases h)
      · exact .inl h)
    obtain ⟨k, h5, h6⟩ := busy h1 h2
    obtain ⟨l, h7, h8⟩ := busy h3 h4
    exact ⟨a, b, k, l, hab, h5, h7, h6, h8⟩
  · rintro ⟨a, b, k, l, hab, ha, hb, hk, hl⟩
    obtain ⟨k, rfl⟩ := Nat.exists_eq_succ_of_ne_zero (Nat.pos_iff_ne_zero.1 hk)
    have hla := (List.getElem?_eq_some_iff.1 (SharedRng.init_get ha)).1
    refine ⟨[a], a, b, ⟨k, some 0⟩, ⟨l, none⟩, hab, ?_, ?_, rfl, .inr hl⟩
    · simp only [SharedRng.exec]
      rw [SharedRng.step_read (SharedRng.init_get ha)]
      dsimp only
      rw [List.getElem?_set_self hla]; rfl
    · simp only [SharedRng.exec]
      rw [SharedRng.step_read (SharedRng.init_get ha)]
      dsimp only
      rw [List.getElem?_set_ne hab]
      exact SharedRng.init_get hb

/-- C107 is false of the code. -/
theorem C107_refuted : ¬ ∀ shares, DrawsDiffer shares := by
  intro h
  exact (C107_iff_partial [1, 1]).1 (h _) ⟨0, 1, 1, 1, by decide, rfl, rfl, by decide, by decide⟩

/-! ### The hypotheses can be met -/

/-- Two threads with values for the same bin. -/
example : SharedHist.TwoThreads 0 8 5 2 [[4, 1], [], [7, 4]] :=
  ⟨0, 2, _, _, by decide, rfl, rfl, ⟨4, by simp, inBin_five⟩, ⟨4, by simp, inBin_five⟩⟩

/-- A bin that only one of two threads has values for. -/
example : ¬ SharedHist.TwoThreads 0 8 5 2 [[4, 1], [9]] := by
  rintro ⟨a, b, xs, ys, hab, ha, hb, ⟨x, hx, hx'⟩, ⟨y, hy, hy'⟩⟩
  match a, b with
  | 0, 0 => exact hab rfl
  | 1, 1 => exact hab rfl
  | 1, _ => simp at ha; subst ha; simp at hx; subst hx; exact absurd hx'.2.1 (by norm_num)
  | _, 1 => simp at hb; subst hb; simp at hy; subst hy; exact absurd hy'.2.1 (by norm_num)
  | a + 2, _ => simp at ha
  | _, b + 2 => simp at hb

/-- A finished execution whose calls never overlap: thread 1 runs before thread 0. -/
example : ∃ s : SharedHist.State ℝ, SharedHist.exec [1, 1, 1, 0, 0, 0]
      (.init (Hist.new "h" "Electron" "energy" 0 0 8 5 0) [[9], [10]]) = .ok s ∧ s.Finished ∧
    ∀ k s, SharedHist.exec ([1, 1, 1, 0, 0, 0].take k)
      (.init (Hist.new "h" "Electron" "energy" (0 : ℝ) 0 8 5 0) [[9], [10]]) = .ok s → s.AtMostOne := by
  have c0 : (Hist.new "h" "Electron" "energy" (0 : ℝ) 0 8 5 0).centres = [0, 2, 4, 6, 8] := by
    rw [(Hist.new_shape "h" "Electron" "energy" 0 0 8 5 0).centres]
    norm_num [List.range_succ, binCentre]
  have n0 : (Hist.new "h" "Electron" "energy" (0 : ℝ) 0 8 5 0).nBins = 5 := rfl
  generalize Hist.new "h" "Electron" "energy" (0 : ℝ) 0 8 5 0 = h at c0 n0
  obtain ⟨name, type, part, nBins, entries, time, centres, values⟩ := h
  dsimp only at c0 n0
  subst c0 n0
  have out : ∀ (t e : Nat) (l : List (SharedHist.Local ℝ)) (x : ℝ), 8 < x →
      l[t]? = some ⟨[], .counted x⟩ →
      SharedHist.step t ⟨⟨name, type, part, 5, e, time, [0, 2, 4, 6, 8], values⟩, l⟩ =
        .ok ⟨⟨name, type, part, 5, e, time, [0, 2, 4, 6, 8], values⟩, l.set t ⟨[], .idle⟩⟩ := by
    intro t e l x hx hl
    unfold SharedHist.step
    rw [hl]
    dsimp only
    rw [rd_eq_ok.2 (show ([0, 2, 4, 6, 8] : List ℝ)[0]? = some 0 from rfl), Res.ok_bind,
      rd_eq_ok.2 (show ([0, 2, 4, 6, 8] : List ℝ)[Numerics.usub 5 1]? = some 8 from rfl), Res.ok_bind]
    have h2 : (x <. (8 : ℝ)) = false := by simpa using hx.le
    rw [h2, Bool.and_false]
    rfl
  have one : ∀ (h : Hist ℝ) (a b : SharedHist.Local ℝ), a.pc = .idle ∨ b.pc = .idle →
      SharedHist.State.AtMostOne ⟨h, [a, b]⟩ := by
    rintro h a b hab i j la lb hi hj hla hlb
    match i, j with
    | 0, 0 => rfl
    | 1, 1 => rfl
    | 0, 1 => simp at hi hj; subst hi hj; tauto
    | 1, 0 => simp at hi hj; subst hi hj; tauto
    | i + 2, _ => simp at hi
    | _, j + 2 => simp at hj
  have run : ∀ k, ∃ s, SharedHist.exec ([1, 1, 1, 0, 0, 0].take k)
      (.init ⟨name, type, part, 5, entries, time, [0, 2, 4, 6, 8], values⟩ [[9], [10]]) = .ok s ∧
      s.AtMostOne ∧ (6 ≤ k → s.Finished) := by
    have rd1 : ∀ (t e : Nat) (l : List (SharedHist.Local ℝ)) (x : ℝ), l[t]? = some ⟨[x], .idle⟩ →
        SharedHist.step t ⟨⟨name, type, part, 5, e, time, [0, 2, 4, 6, 8], values⟩, l⟩ =
          .ok ⟨⟨name, type, part, 5, e, time, [0, 2, 4, 6, 8], values⟩,
            l.set t ⟨[], .sawEntries x e⟩⟩ := by
      intro t e l x hl
      unfold SharedHist.step
      rw [hl]
      rfl
    have wr : ∀ (t e : Nat) (l : List (SharedHist.Local ℝ)) (x : ℝ),
        l[t]? = some ⟨[], .sawEntries x e⟩ →
        SharedHist.step t ⟨⟨name, type, part, 5, e, time, [0, 2, 4, 6, 8], values⟩, l⟩ =
          .ok ⟨⟨name, type, part, 5, Hist.incr e, time, [0, 2, 4, 6, 8], values⟩,
            l.set t ⟨[], .counted x⟩⟩ := by
      intro t e l x hl
      unfold SharedHist.step
      rw [hl]
      rfl
    have ten : (8 : ℝ) < 10 := by norm_num
    have nine : (8 : ℝ) < 9 := by norm_num
    have s1 := rd1 1 entries [⟨[9], .idle⟩, ⟨[10], .idle⟩] 10 rfl
    have s2 := wr 1 entries [⟨[9], .idle⟩, ⟨[], .sawEntries 10 entries⟩] 10 rfl
    have s3 := out 1 (Hist.incr entries) [⟨[9], .idle⟩, ⟨[], .counted 10⟩] 10 ten rfl
    have s4 := rd1 0 (Hist.incr entries) [⟨[9], .idle⟩, ⟨[], .idle⟩] 9 rfl
    have s5 := wr 0 (Hist.incr entries) [⟨[], .sawEntries 9 (Hist.incr entries)⟩, ⟨[], .idle⟩] 9 rfl
    have s6 := out 0 (Hist.incr (Hist.incr entries)) [⟨[], .counted 9⟩, ⟨[], .idle⟩] 9 nine rfl
    generalize Hist.incr (Hist.incr entries) = e2 at *
    generalize Hist.incr entries = e1 at *
    simp only [List.set_cons_succ, List.set_cons_zero] at s1 s2 s3 s4 s5 s6
    intro k
    simp only [SharedHist.State.init, List.map_cons, List.map_nil]
    match k with
    | 0 => exact ⟨_, rfl, one _ _ _ (.inl rfl), by omega⟩
    | 1 =>
      simp only [List.take_succ_cons, List.take_zero, SharedHist.exec, s1, Res.ok_bind]
      exact ⟨_, rfl, one _ _ _ (.inl rfl), by omega⟩
    | 2 =>
      simp only [List.take_succ_cons, List.take_zero, SharedHist.exec, s1, s2, Res.ok_bind]
      exact ⟨_, rfl, one _ _ _ (.inl rfl), by omega⟩
    | 3 =>
      simp only [List.take_succ_cons, List.take_zero, SharedHist.exec, s1, s2, s3, Res.ok_bind]
      exact ⟨_, rfl, one _ _ _ (.inl rfl), by omega⟩
    | 4 =>
      simp only [List.take_succ_cons, List.take_zero, SharedHist.exec, s1, s2, s3, s4, Res.ok_bind]
      exact ⟨_, rfl, one _ _ _ (.inr rfl), by omega⟩
    | 5 =>
      simp only [List.take_succ_cons, List.take_zero, SharedHist.exec, s1, s2, s3, s4, s5, Res.ok_bind]
      exact ⟨_, rfl, one _ _ _ (.inr rfl), by omega⟩
    | k + 6 =>
      simp only [List.take_succ_cons, List.take_nil, SharedHist.exec, s1, s2, s3, s4, s5, s6, Res.ok_bind]
      refine ⟨_, rfl, one _ _ _ (.inr rfl), fun _ l hl => ?_⟩
      simp only [List.mem_cons, List.not_mem_nil, or_false, or_self] at hl
      subst hl; exact ⟨rfl, rfl⟩
  obtain ⟨s, h1, -, h3⟩ := run 6
  refine ⟨s, h1, h3 le_rfl, fun k s' hs' => ?_⟩
  obtain ⟨s'', h4, h5, -⟩ := run k
  rw [h4] at hs'
  cases hs'; exact h5

end QED
