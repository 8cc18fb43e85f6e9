import Verif.Lemmas.RunEvents

set_option linter.unusedSectionVars false
set_option autoImplicit false

/-!
# Properties C70 to C72, C75 and C81: the Python run manager

`History m h m'` is a sequence of calls that all return to Python, with their outcomes; it may contain
calls that raised an exception.
-/

namespace QED

open Dbl MCTools RunMgr

section generic
variable {D : Type} [Dbl D]

/-! ## C70 Run manager calls are memory safe in any order -/

/-- A `beamOn` that created a field, a pusher and a source. -/
def Started (x : Call D × Outcome D) : Prop :=
  (∃ m ls, x.2 = .ran m ls) ∨ ∃ m w, x.2 = .raised m w

/-- A `beamOn` that was turned down because something has not been set. (A call with several threads in
a build without OpenMP is turned down earlier.) -/
def TurnedDown (x : Call D × Outcome D) : Prop :=
  ∃ e n t m, x = (.beamOn e n t, .rejected m) ∧ (e.omp = true ∨ t = 1)

/-- Some `beamOn` that created objects is followed, at once or later, by one that was turned down. -/
def Misuse (h : List (Call D × Outcome D)) : Prop :=
  ∃ a b, Started a ∧ TurnedDown b ∧ [a, b].Sublist h

theorem not_started_of_turnedDown {x : Call D × Outcome D} (h : TurnedDown x) : ¬ Started x := by
  obtain ⟨e, n, t, m, rfl, _⟩ := h
  rintro (⟨_, _, h⟩ | ⟨_, _, h⟩) <;> cases h

theorem does_empty {m : Mgr D} {c : Call D} {o : Outcome D} (hm : Empty m) (h : Does m c o) :
    (Empty o.mgr ∧ ¬ Started (c, o)) ∨ (Holding o.mgr ∧ Started (c, o)) := by
  have setter : ∀ m', Does m c (.set m') →
      (Empty (Outcome.set m').mgr ∧ ¬ Started (c, Outcome.set m')) ∨
        (Holding (Outcome.set m').mgr ∧ Started (c, Outcome.set m')) := by
    intro m' h
    obtain ⟨h1, h2, h3, h4, h5, _⟩ := setters_keep h
    exact .inl ⟨hm.congr h1 h2 h3 h4 h5, by rintro (⟨_, _, h⟩ | ⟨_, _, h⟩) <;> cases h⟩
  cases h with
  | setTime => exact setter _ .setTime
  | setField => exact setter _ .setField
  | setPhysics => exact setter _ .setPhysics
  | setGenerator => exact setter _ .setGenerator
  | setSampleFraction => exact setter _ .setSampleFraction
  | usePairProduction => exact setter _ .usePairProduction
  | @beamOn e n t _ hb =>
    by_cases hp : Passes e t
    · obtain ⟨m1, h1, h2⟩ := beamOn_cases hb hp
      rw [freeOld_empty hm] at h1
      cases h1
      obtain ⟨a, ha, hl⟩ := hm.units
      have hh := made_holding (m := { m with procs := [] }) hm.wf ha hl
      rcases h2 with ⟨_, rfl⟩ | ⟨_, _, rfl⟩ | ⟨_, _, s, ls, rs, r, _, _, rfl⟩
      · exact .inl ⟨hm.congr rfl rfl rfl rfl rfl, by rintro (⟨_, _, h⟩ | ⟨_, _, h⟩) <;> cases h⟩
      · exact .inr ⟨hh, .inr ⟨_, _, rfl⟩⟩
      · exact .inr ⟨hh.congr rfl rfl rfl rfl rfl, .inl ⟨_, _, rfl⟩⟩
    · rw [beamOn_gate hb hp]
      exact .inl ⟨hm, by rintro (⟨_, _, h⟩ | ⟨_, _, h⟩) <;> cases h⟩

theorem does_holding {m : Mgr D} {c : Call D} {o : Outcome D} (hm : Holding m) (h : Does m c o) :
    (Holding o.mgr ∧ ¬ TurnedDown (c, o)) ∨ (Dangling o.mgr ∧ TurnedDown (c, o)) := by
  have setter : ∀ m', Does m c (.set m') →
      (Holding (Outcome.set m').mgr ∧ ¬ TurnedDown (c, Outcome.set m')) ∨
        (Dangling (Outcome.set m').mgr ∧ TurnedDown (c, Outcome.set m')) := by
    intro m' h
    obtain ⟨h1, h2, h3, h4, h5, _⟩ := setters_keep h
    exact .inl ⟨hm.congr h1 h2 h3 h4 h5, by rintro ⟨_, _, _, _, h, _⟩; cases h⟩
  cases h with
  | setTime => exact setter _ .setTime
  | setField => exact setter _ .setField
  | setPhysics => exact setter _ .setPhysics
  | setGenerator => exact setter _ .setGenerator
  | setSampleFraction => exact setter _ .setSampleFraction
  | usePairProduction => exact setter _ .usePairProduction
  | @beamOn e n t _ hb =>
    by_cases hp : Passes e t
    · obtain ⟨m1, h1, h2⟩ := beamOn_cases hb hp
      obtain ⟨m2, h3, h4, h5⟩ := freeOld_holding hm
      rw [h3] at h1
      cases h1
      obtain ⟨a, ha, hl⟩ := h4.units
      have hh := made_holding h4.wf ha hl
      rcases h2 with ⟨_, rfl⟩ | ⟨_, _, rfl⟩ | ⟨_, _, s, ls, rs, r, _, _, rfl⟩
      · exact .inr ⟨h4, e, n, t, _, rfl, hp⟩
      · exact .inl ⟨hh, by rintro ⟨_, _, _, _, h, _⟩; cases h⟩
      · exact .inl ⟨hh.congr rfl rfl rfl rfl rfl, by rintro ⟨_, _, _, _, h, _⟩; cases h⟩
    · rw [beamOn_gate hb hp]
      refine .inl ⟨hm, ?_⟩
      rintro ⟨_, _, _, _, h, hq⟩
      cases h
      exact hp hq

theorem does_dangling {m : Mgr D} {c : Call D} {o : Outcome D} (hm : Dangling m) (h : Does m c o) :
    Dangling o.mgr := by
  have setter : ∀ m', Does m c (.set m') → Dangling (Outcome.set m').mgr := by
    intro m' h
    obtain ⟨h1, h2, h3, h4, _⟩ := setters_keep h
    exact hm.congr h1 h2 h3 h4
  cases h with
  | setTime => exact setter _ .setTime
  | setField => exact setter _ .setField
  | setPhysics => exact setter _ .setPhysics
  | setGenerator => exact setter _ .setGenerator
  | setSampleFraction => exact setter _ .setSampleFraction
  | usePairProduction => exact setter _ .usePairProduction
  | @beamOn e n t _ hb =>
    by_cases hp : Passes e t
    · obtain ⟨m1, h1, _⟩ := beamOn_cases hb hp
      rw [freeOld_dangling hm] at h1
      cases h1
    · rw [beamOn_gate hb hp]
      exact hm

theorem history_dangling {m m' : Mgr D} {h : List (Call D × Outcome D)} (hh : History m h m') :
    Dangling m → Dangling m' := by
  induction hh with
  | nil => exact id
  | cons hd _ ih => exact fun hm => ih (does_dangling hm hd)

theorem history_holding {m m' : Mgr D} {h : List (Call D × Outcome D)} (hh : History m h m') :
    Holding m → (Holding m' ∧ ¬ ∃ b ∈ h, TurnedDown b) ∨ (Dangling m' ∧ ∃ b ∈ h, TurnedDown b) := by
  induction hh with
  | nil => exact fun hm => .inl ⟨hm, by simp⟩
  | cons hd hh ih =>
    intro hm
    rcases does_holding hm hd with ⟨h1, h2⟩ | ⟨h1, h2⟩
    · rcases ih h1 with ⟨h3, h4⟩ | ⟨h3, b, h4, h5⟩
      · refine .inl ⟨h3, ?_⟩
        rintro ⟨b, hb, hn⟩
        rcases List.mem_cons.1 hb with rfl | hb
        · exact h2 hn
        · exact h4 ⟨b, hb, hn⟩
      · exact .inr ⟨h3, b, List.mem_cons_of_mem _ h4, h5⟩
    · exact .inr ⟨history_dangling hh h1, _, List.mem_cons_self, h2⟩

theorem history_empty {m m' : Mgr D} {h : List (Call D × Outcome D)} (hh : History m h m') :
    Empty m → ((Empty m' ∨ Holding m') ∧ ¬ Misuse h) ∨ (Dangling m' ∧ Misuse h) := by
  induction hh with
  | nil =>
    refine fun hm => .inl ⟨.inl hm, ?_⟩
    rintro ⟨a, b, _, _, hs⟩
    cases hs
  | @cons m c o h m' hd hh ih =>
    intro hm
    rcases does_empty hm hd with ⟨h1, h2⟩ | ⟨h1, h2⟩
    · rcases ih h1 with ⟨h3, h4⟩ | ⟨h3, a, b, h4, h5, h6⟩
      · refine .inl ⟨h3, ?_⟩
        rintro ⟨a, b, ha, hb, hs⟩
        cases hs with
        | cons _ hs => exact h4 ⟨a, b, ha, hb, hs⟩
        | cons_cons _ hs => exact h2 ha
      · exact .inr ⟨h3, a, b, h4, h5, h6.cons _⟩
    · rcases history_holding hh h1 with ⟨h3, h4⟩ | ⟨h3, b, h4, h5⟩
      · refine .inl ⟨.inr h3, ?_⟩
        rintro ⟨a, b, ha, hb, hs⟩
        cases hs with
        | cons _ hs => exact h4 ⟨b, hs.subset (by simp), hb⟩
        | cons_cons _ hs => exact h4 ⟨b, hs.subset (by simp), hb⟩
      · exact .inr ⟨h3, (c, o), b, h2, h5, (List.singleton_sublist.2 h4).cons_cons _⟩

theorem new_empty (fa : FieldArgs D) (ga : GenArgs D) : Empty (RunMgr.new fa ga) :=
  ⟨⟨by simp [RunMgr.new], by simp [RunMgr.new]⟩, ⟨0, rfl, by simp [RunMgr.new]⟩, rfl, rfl, rfl⟩

/-- After any history, destroying the run manager frees an object twice exactly when a run has been
followed by a `beamOn` that was turned down; otherwise the destructor is safe. -/
theorem C70_destroy_iff (fa : FieldArgs D) (ga : GenArgs D) (h : List (Call D × Outcome D)) (m : Mgr D)
    (hh : History (RunMgr.new fa ga) h m) :
    (Misuse h → destroy m = .ub "double free") ∧ (¬ Misuse h → ∃ heap, destroy m = .ok heap) := by
  rcases history_empty hh (new_empty fa ga) with ⟨h1 | h1, h2⟩ | ⟨h1, h2⟩
  · exact ⟨fun h => absurd h h2, fun _ => destroy_empty h1⟩
  · exact ⟨fun h => absurd h h2, fun _ => destroy_holding h1⟩
  · exact ⟨fun _ => destroy_dangling h1, fun h => absurd h2 h⟩

/-- After any history, the next `beamOn` (that gets past the OpenMP test) frees an object twice exactly
under the same condition. -/
theorem C70_beamOn_iff (fa : FieldArgs D) (ga : GenArgs D) (h : List (Call D × Outcome D)) (m : Mgr D)
    (hh : History (RunMgr.new fa ga) h m) :
    (Misuse h → ∀ e n t, (e.omp = true ∨ t = 1) → BeamOn e n t m (.ub "double free")) ∧
      (¬ Misuse h → ∃ m', freeOld m = .ok m') := by
  rcases history_empty hh (new_empty fa ga) with ⟨h1 | h1, h2⟩ | ⟨h1, h2⟩
  · exact ⟨fun h => absurd h h2, fun _ => ⟨_, freeOld_empty h1⟩⟩
  · obtain ⟨m', h3, _⟩ := freeOld_holding h1
    exact ⟨fun h => absurd h h2, fun _ => ⟨m', h3⟩⟩
  · refine ⟨fun _ e n t hp => .ub ?_, fun h => absurd h2 h⟩
    rw [prepare_pass hp, freeOld_dangling h1]
    rfl

/-- The part of C70 that holds: as long as no run is followed by a `beamOn` that is turned down, neither
the next `beamOn` nor the destructor frees an object twice. -/
theorem C70_partial (fa : FieldArgs D) (ga : GenArgs D) (h : List (Call D × Outcome D)) (m : Mgr D)
    (hh : History (RunMgr.new fa ga) h m) (hs : ¬ Misuse h) :
    (freeOld m).NoUB ∧ (destroy m).NoUB := by
  obtain ⟨a, ha⟩ := (C70_beamOn_iff fa ga h m hh).2 hs
  obtain ⟨b, hb⟩ := (C70_destroy_iff fa ga h m hh).2 hs
  rw [ha, hb]
  exact ⟨trivial, trivial⟩

/-! ## C81 A run manager frees what it allocates -/

theorem alloc_count (h : Heap) : h.alloc.2.live.length = h.live.length + 1 := rfl

theorem made_count (m : Mgr D) :
    (allocGenerator (makeObjects m)).heap.live.length =
      m.heap.live.length + 3 + (allocGenerator (makeObjects m)).procs.length ∧
    (allocGenerator (makeObjects m)).procs.length = (if m.useBW then 2 else 1) := by
  unfold allocGenerator makeObjects
  cases m.useBW <;> simp [Heap.alloc]

theorem freeOld_count {m m' : Mgr D} (hm : Holding m) (h : freeOld m = .ok m') :
    m'.heap.live.length + 3 = m.heap.live.length := by
  obtain ⟨u, f, p, g, hu, hf, hp, hg, hnd, hl⟩ := hm.all
  simp only [List.nodup_cons, List.mem_cons, List.not_mem_nil, or_false, not_or,
    List.nodup_nil, and_true, not_false_eq_true] at hnd
  obtain ⟨⟨huf, hup, hug⟩, ⟨hfp, hfg⟩, hpg⟩ := hnd
  have lf := hl f (by simp)
  have lp := hl p (by simp)
  have lg := hl g (by simp)
  unfold freeOld at h
  rw [hp, free_live lp, Res.ok_bind, hg,
    free_live (h := { m.heap with live := m.heap.live.erase p })
      (by simp only; rw [List.mem_erase_of_ne (Ne.symm hpg)]; exact lg),
    Res.ok_bind, hf,
    free_live (h := { m.heap with live := (m.heap.live.erase p).erase g })
      (by simp only; rw [List.mem_erase_of_ne hfg, List.mem_erase_of_ne hfp]; exact lf),
    Res.ok_bind] at h
  cases h
  have m1 : g ∈ m.heap.live.erase p := by rw [List.mem_erase_of_ne (Ne.symm hpg)]; exact lg
  have m2 : f ∈ (m.heap.live.erase p).erase g := by
    rw [List.mem_erase_of_ne hfg, List.mem_erase_of_ne hfp]; exact lf
  have p1 := List.length_pos_of_mem lp
  have p2 := List.length_pos_of_mem m1
  have p3 := List.length_pos_of_mem m2
  simp only [List.length_erase_of_mem m2, List.length_erase_of_mem m1, List.length_erase_of_mem lp] at *
  omega

/-- The number of processes a call created. -/
def processesMade (x : Call D × Outcome D) : Nat :=
  match x.2 with
  | .ran m _ => m.procs.length
  | .raised m _ => m.procs.length
  | _ => 0

theorem does_count {m : Mgr D} {c : Call D} {o : Outcome D} (hm : Empty m ∨ Holding m)
    (ho : Empty o.mgr ∨ Holding o.mgr) (h : Does m c o) :
    o.mgr.heap.live.length + (if m.field.isSome then 3 else 0) =
      m.heap.live.length + (if o.mgr.field.isSome then 3 else 0) + processesMade (c, o) := by
  have setter : ∀ m', Does m c (.set m') →
      (Outcome.set m').mgr.heap.live.length + (if m.field.isSome then 3 else 0) =
      m.heap.live.length + (if (Outcome.set m').mgr.field.isSome then 3 else 0) +
        processesMade (c, .set m') := by
    intro m' h
    obtain ⟨h1, _, h3, _⟩ := setters_keep h
    simp only [Outcome.mgr, h1, h3, processesMade, Nat.add_zero]
  cases h with
  | setTime => exact setter _ .setTime
  | setField => exact setter _ .setField
  | setPhysics => exact setter _ .setPhysics
  | setGenerator => exact setter _ .setGenerator
  | setSampleFraction => exact setter _ .setSampleFraction
  | usePairProduction => exact setter _ .usePairProduction
  | @beamOn e n t _ hb =>
    by_cases hp : Passes e t
    · obtain ⟨m1, h1, h2⟩ := beamOn_cases hb hp
      have hc : m1.heap.live.length + (if m.field.isSome then 3 else 0) = m.heap.live.length := by
        rcases hm with hm | hm
        · rw [freeOld_empty hm] at h1; cases h1; simp [hm.field]
        · have := freeOld_count hm h1
          obtain ⟨_, f, _, _, _, hf, _⟩ := hm.all
          simp [hf, this]
      have hfs : (allocGenerator (makeObjects m1)).field.isSome = true := by
        unfold allocGenerator makeObjects
        cases m1.useBW <;> rfl
      have hmc := (made_count m1).1
      rcases h2 with ⟨_, rfl⟩ | ⟨_, _, rfl⟩ | ⟨_, _, s, ls, rs, r, _, _, rfl⟩
      · rcases hm with hm | hm
        · rw [freeOld_empty hm] at h1; cases h1; simp [Outcome.mgr, processesMade, hm.field]
        · exfalso
          obtain ⟨m2, h3, h4, _⟩ := freeOld_holding hm
          rw [h3] at h1; cases h1
          obtain ⟨f, hf, hfl⟩ := h4.field
          rcases ho with ho | ho
          · have := ho.field; simp only [Outcome.mgr] at this; rw [hf] at this; cases this
          · obtain ⟨_, f', _, _, _, hf', _, _, _, hl⟩ := ho.all
            simp only [Outcome.mgr] at hf' hl
            rw [hf] at hf'; cases hf'
            exact hfl (hl f (by simp))
      · simp only [Outcome.mgr, processesMade, hfs, if_true]
        omega
      · simp only [Outcome.mgr, processesMade, hfs, if_true]
        omega
    · have := beamOn_gate hb hp
      subst this
      rfl

theorem destroy_count {m : Mgr D} (hm : Empty m ∨ Holding m) {h : Heap} (hd : destroy m = .ok h) :
    h.live.length + 1 + (if m.field.isSome then 3 else 0) = m.heap.live.length := by
  rcases hm with hm | hm
  · obtain ⟨a, h1, h2⟩ := hm.units
    unfold destroy at hd
    rw [h1, free_live h2, hm.field, hm.generator, hm.pusher] at hd
    cases hd
    have := List.length_pos_of_mem h2
    simp only [hm.field, List.length_erase_of_mem h2]
    simp; omega
  · obtain ⟨u, f, p, g, hu, hf, hp, hg, hnd, hl⟩ := hm.all
    simp only [List.nodup_cons, List.mem_cons, List.not_mem_nil, or_false, not_or,
      List.nodup_nil, and_true, not_false_eq_true] at hnd
    obtain ⟨⟨huf, hup, hug⟩, ⟨hfp, hfg⟩, hpg⟩ := hnd
    have lu := hl u (by simp)
    have lf := hl f (by simp)
    have lp := hl p (by simp)
    have lg := hl g (by simp)
    have m1 : f ∈ m.heap.live.erase u := by rw [List.mem_erase_of_ne (Ne.symm huf)]; exact lf
    have m2 : g ∈ (m.heap.live.erase u).erase f := by
      rw [List.mem_erase_of_ne (Ne.symm hfg), List.mem_erase_of_ne (Ne.symm hug)]; exact lg
    have m3 : p ∈ ((m.heap.live.erase u).erase f).erase g := by
      rw [List.mem_erase_of_ne hpg, List.mem_erase_of_ne (Ne.symm hfp),
        List.mem_erase_of_ne (Ne.symm hup)]; exact lp
    unfold destroy at hd
    rw [hu, free_live lu, Res.ok_bind, hf, free_live (by exact m1), Res.ok_bind, hg,
      free_live (by exact m2), Res.ok_bind, hp, free_live (by exact m3)] at hd
    cases hd
    have p0 := List.length_pos_of_mem lu
    have p1 := List.length_pos_of_mem m1
    have p2 := List.length_pos_of_mem m2
    have p3 := List.length_pos_of_mem m3
    simp only [hf, Option.isSome_some, if_true]
    simp only [List.length_erase_of_mem m3, List.length_erase_of_mem m2, List.length_erase_of_mem m1,
      List.length_erase_of_mem lu] at *
    omega

theorem safe_of_history {m m' : Mgr D} {h : List (Call D × Outcome D)} (hh : History m h m') :
    (Empty m' ∨ Holding m') → (Empty m ∨ Holding m ∨ Dangling m) → Empty m ∨ Holding m := by
  intro h' hm
  rcases hm with hm | hm | hm
  · exact .inl hm
  · exact .inr hm
  · exfalso
    obtain ⟨f, hf, hfl⟩ := (history_dangling hh hm).field
    rcases h' with h' | h'
    · rw [h'.field] at hf; cases hf
    · obtain ⟨_, f', _, _, _, hf', _, _, _, hl⟩ := h'.all
      rw [hf] at hf'; cases hf'
      exact hfl (hl f (by simp))

/-- The objects still alive after the run manager is gone are the processes it created, all of them: one
per run, two with pair production. Nothing else leaks. -/
theorem C81_leak_partial (fa : FieldArgs D) (ga : GenArgs D) (h : List (Call D × Outcome D)) (m : Mgr D)
    (hh : History (RunMgr.new fa ga) h m) (heap : Heap) (hd : destroy m = .ok heap) :
    heap.live.length = (h.map processesMade).sum := by
  have key : ∀ {m m' : Mgr D} {h : List (Call D × Outcome D)}, History m h m' →
      (Empty m ∨ Holding m) → (Empty m' ∨ Holding m') →
      m'.heap.live.length + (if m.field.isSome then 3 else 0) =
        m.heap.live.length + (if m'.field.isSome then 3 else 0) + (h.map processesMade).sum := by
    intro m m' h hh
    induction hh with
    | nil => intro _ _; simp
    | @cons m c o h m' hd hh ih =>
      intro hm hm'
      have ho : Empty o.mgr ∨ Holding o.mgr := by
        refine safe_of_history hh hm' ?_
        rcases hm with hm | hm
        · rcases does_empty hm hd with ⟨a, _⟩ | ⟨a, _⟩
          · exact .inl a
          · exact .inr (.inl a)
        · rcases does_holding hm hd with ⟨a, _⟩ | ⟨a, _⟩
          · exact .inr (.inl a)
          · exact .inr (.inr a)
      have h1 := does_count hm ho hd
      have h2 := ih ho hm'
      simp only [List.map_cons, List.sum_cons]
      omega
  have hm' : Empty m ∨ Holding m := by
    rcases history_empty hh (new_empty fa ga) with ⟨h1, _⟩ | ⟨h1, _⟩
    · exact h1
    · rw [destroy_dangling h1] at hd; cases hd
  have h1 := key hh (.inl (new_empty fa ga)) hm'
  have h2 := destroy_count hm' hd
  have h3 : (RunMgr.new fa ga : Mgr D).heap.live.length = 1 := rfl
  have h4 : (RunMgr.new fa ga : Mgr D).field.isSome = false := rfl
  rw [h3, h4] at h1
  simp only [Bool.false_eq_true, if_false] at h1
  omega

end generic
end QED
