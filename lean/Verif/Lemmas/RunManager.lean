import Verif.Model.RunManager
import Verif.Lemmas.Sim
import Verif.Lemmas.Input

set_option linter.unusedSectionVars false
set_option autoImplicit false

/-!
# Lemmas on the run manager
-/

namespace QED
namespace RunMgr

open Dbl MCTools

variable {D : Type} [Dbl D]

/-! ### Heap -/

/-- Live addresses are distinct and below the next fresh one. -/
structure Heap.WF (h : Heap) : Prop where
  nodup : h.live.Nodup
  below : ∀ a ∈ h.live, a < h.next

/-- No object is owned yet. -/
structure Empty (m : Mgr D) : Prop where
  wf : Heap.WF m.heap
  units : ∃ a, m.units = some a ∧ a ∈ m.heap.live
  field : m.field = none
  pusher : m.pusher = none
  generator : m.generator = none

/-- The four objects are owned, distinct and alive. -/
structure Holding (m : Mgr D) : Prop where
  wf : Heap.WF m.heap
  all : ∃ u f p g, m.units = some u ∧ m.field = some f ∧ m.pusher = some p ∧ m.generator = some g ∧
    [u, f, p, g].Nodup ∧ ∀ a ∈ [u, f, p, g], a ∈ m.heap.live

/-- Field and pusher point to freed objects. -/
structure Dangling (m : Mgr D) : Prop where
  wf : Heap.WF m.heap
  units : ∃ u, m.units = some u ∧ u ∈ m.heap.live
  field : ∃ f, m.field = some f ∧ f ∉ m.heap.live
  pusher : ∃ p, m.pusher = some p ∧ p ∉ m.heap.live

theorem free_live {h : Heap} {a : Nat} (ha : a ∈ h.live) :
    h.free (some a) = .ok { h with live := h.live.erase a } := by
  simp [Heap.free, ha]

theorem free_dead {h : Heap} {a : Nat} (ha : a ∉ h.live) : h.free (some a) = .ub "double free" := by
  simp [Heap.free, ha]

@[simp] theorem free_none (h : Heap) : h.free none = .ok h := rfl

theorem Heap.WF.erase {h : Heap} (w : Heap.WF h) (a : Nat) :
    Heap.WF { h with live := h.live.erase a } :=
  ⟨w.nodup.erase a, fun b hb => w.below b (List.mem_of_mem_erase hb)⟩

theorem Heap.WF.alloc {h : Heap} (w : Heap.WF h) : Heap.WF h.alloc.2 := by
  refine ⟨List.nodup_cons.2 ⟨fun hm => by have := w.below _ hm; omega, w.nodup⟩, ?_⟩
  intro a ha
  simp only [Heap.alloc] at ha ⊢
  rcases List.mem_cons.1 ha with rfl | ha
  · omega
  · have := w.below a ha; omega

/-- Setters leave the pointers and the heap alone. -/
theorem setters_keep {m : Mgr D} {c : Call D} {m' : Mgr D} (h : Does m c (.set m')) :
    m'.heap = m.heap ∧ m'.units = m.units ∧ m'.field = m.field ∧ m'.pusher = m.pusher ∧
      m'.generator = m.generator ∧ m'.procs = m.procs ∧ m'.results = m.results := by
  cases h with
  | setTime => exact ⟨rfl, rfl, rfl, rfl, rfl, rfl, rfl⟩
  | setField => unfold RunMgr.setField; split <;> exact ⟨rfl, rfl, rfl, rfl, rfl, rfl, rfl⟩
  | setPhysics => unfold RunMgr.setPhysics; split <;> exact ⟨rfl, rfl, rfl, rfl, rfl, rfl, rfl⟩
  | setGenerator => exact ⟨rfl, rfl, rfl, rfl, rfl, rfl, rfl⟩
  | setSampleFraction =>
    unfold RunMgr.setSampleFraction; split <;> exact ⟨rfl, rfl, rfl, rfl, rfl, rfl, rfl⟩
  | usePairProduction => exact ⟨rfl, rfl, rfl, rfl, rfl, rfl, rfl⟩
  | beamOn h => cases h

/-! ### `freeOld` -/

theorem freeOld_empty {m : Mgr D} (h : Empty m) : freeOld m = .ok { m with procs := [] } := by
  unfold freeOld
  rw [h.pusher, h.generator, h.field]
  rfl

theorem freeOld_dangling {m : Mgr D} (h : Dangling m) : freeOld m = .ub "double free" := by
  obtain ⟨p, h1, h2⟩ := h.pusher
  unfold freeOld
  rw [h1, free_dead h2, Res.ub_bind]

theorem freeOld_holding {m : Mgr D} (h : Holding m) :
    ∃ m', freeOld m = .ok m' ∧ Dangling m' ∧ m' = { m with heap := m'.heap, procs := [] } := by
  obtain ⟨u, f, p, g, hu, hf, hp, hg, hnd, hl⟩ := h.all
  simp only [List.nodup_cons, List.mem_cons, List.not_mem_nil, or_false, not_or,
    List.nodup_nil, and_true, not_false_eq_true] at hnd
  obtain ⟨⟨huf, hup, hug⟩, ⟨hfp, hfg⟩, hpg⟩ := hnd
  have lu := hl u (by simp)
  have lf := hl f (by simp)
  have lp := hl p (by simp)
  have lg := hl g (by simp)
  have e1 : m.heap.free m.pusher = .ok { m.heap with live := m.heap.live.erase p } := by
    rw [hp]; exact free_live lp
  have e2 : Heap.free { m.heap with live := m.heap.live.erase p } m.generator =
      .ok { m.heap with live := (m.heap.live.erase p).erase g } := by
    rw [hg]
    exact free_live (by simp only; rw [List.mem_erase_of_ne (Ne.symm hpg)]; exact lg)
  have e3 : Heap.free { m.heap with live := (m.heap.live.erase p).erase g } m.field =
      .ok { m.heap with live := ((m.heap.live.erase p).erase g).erase f } := by
    rw [hf]
    exact free_live (by simp only; rw [List.mem_erase_of_ne hfg, List.mem_erase_of_ne hfp]; exact lf)
  unfold freeOld
  rw [e1, Res.ok_bind, e2, Res.ok_bind, e3, Res.ok_bind]
  have w1 : (m.heap.live.erase p).Nodup := h.wf.nodup.erase _
  have w2 : ((m.heap.live.erase p).erase g).Nodup := w1.erase _
  refine ⟨_, rfl, ⟨((h.wf.erase p).erase g).erase f, ⟨u, hu, ?_⟩, ⟨f, hf, ?_⟩, ⟨p, hp, ?_⟩⟩, rfl⟩
  · simp only
    rw [List.mem_erase_of_ne huf, List.mem_erase_of_ne hug, List.mem_erase_of_ne hup]
    exact lu
  · exact fun hm => (List.Nodup.mem_erase_iff w2).1 hm |>.1 rfl
  · intro hm
    have hm := List.mem_of_mem_erase (List.mem_of_mem_erase hm)
    exact (List.Nodup.mem_erase_iff h.wf.nodup).1 hm |>.1 rfl

/-! ### `prepare` -/

/-- The OpenMP test at the top of `beamOn` lets the call pass. -/
def Passes (e : Env D) (threads : Int) : Prop := e.omp = true ∨ threads = 1

theorem prepare_gate {e : Env D} {n t : Int} {m : Mgr D} (h : ¬ Passes e t) :
    prepare e.omp e.raw n t m = .ok (.rejected m) := by
  unfold prepare
  rw [if_pos]
  simp only [Passes, not_or, Bool.not_eq_true] at h
  exact h

theorem prepare_pass {e : Env D} {n t : Int} {m : Mgr D} (h : Passes e t) :
    prepare e.omp e.raw n t m = (freeOld m >>= fun m =>
      if incomplete m then .ok (.rejected m)
      else
        sourceOf n e.raw (makeObjects m) >>= fun s =>
          if t < 0 then .ok (.raised (allocGenerator (makeObjects m)) "std::length_error")
          else .ok (.go { allocGenerator (makeObjects m) with results := .empty t.toNat } s)) := by
  unfold prepare
  rw [if_neg]
  rintro ⟨h1, h2⟩
  rcases h with h | h
  · rw [h] at h1; cases h1
  · exact h2 h

/-- The manager after new objects have been made owns four live objects. -/
theorem made_holding {m : Mgr D} (w : Heap.WF m.heap) {a : Nat} (hu : m.units = some a)
    (ha : a ∈ m.heap.live) : Holding (allocGenerator (makeObjects m)) := by
  have hlt := w.below a ha
  unfold allocGenerator makeObjects
  cases hb : m.useBW with
  | true =>
    refine ⟨w.alloc.alloc.alloc.alloc.alloc, a, m.heap.next, m.heap.next + 1, m.heap.next + 4, hu, rfl,
      rfl, rfl, ?_, ?_⟩
    · simp; omega
    · intro x hx
      simp only [Heap.alloc, if_true, List.mem_cons, List.not_mem_nil, or_false] at hx ⊢
      rcases hx with rfl | rfl | rfl | rfl <;> simp [ha]
  | false =>
    refine ⟨w.alloc.alloc.alloc.alloc, a, m.heap.next, m.heap.next + 1, m.heap.next + 3, hu, rfl,
      rfl, rfl, ?_, ?_⟩
    · simp; omega
    · intro x hx
      simp only [Heap.alloc, List.mem_cons, List.not_mem_nil, or_false] at hx ⊢
      rcases hx with rfl | rfl | rfl | rfl <;> simp [ha]

/-- The parts of a manager that only the setters change. -/
structure SameConfig (m m' : Mgr D) : Prop where
  timeStep : m'.timeStep = m.timeStep
  timeEnd : m'.timeEnd = m.timeEnd
  fieldSet : m'.fieldSet = m.fieldSet
  fieldType : m'.fieldType = m.fieldType
  fieldArgs : m'.fieldArgs = m.fieldArgs
  physSet : m'.physSet = m.physSet
  physics : m'.physics = m.physics
  sampleFrac : m'.sampleFrac = m.sampleFrac
  useBW : m'.useBW = m.useBW
  genSet : m'.genSet = m.genSet
  genArgs : m'.genArgs = m.genArgs

theorem SameConfig.refl (m : Mgr D) : SameConfig m m :=
  ⟨rfl, rfl, rfl, rfl, rfl, rfl, rfl, rfl, rfl, rfl, rfl⟩

theorem SameConfig.trans {a b c : Mgr D} (h : SameConfig a b) (h' : SameConfig b c) : SameConfig a c :=
  ⟨h'.1.trans h.1, h'.2.trans h.2, h'.3.trans h.3, h'.4.trans h.4, h'.5.trans h.5, h'.6.trans h.6,
    h'.7.trans h.7, h'.8.trans h.8, h'.9.trans h.9, h'.10.trans h.10, h'.11.trans h.11⟩

theorem freeOld_config {m m' : Mgr D} (h : freeOld m = .ok m') :
    SameConfig m m' ∧ m'.results = m.results ∧ m'.units = m.units ∧ m'.procs = [] := by
  unfold freeOld at h
  obtain ⟨h1, _, h⟩ := bind_eq_ok.1 h
  obtain ⟨h2, _, h⟩ := bind_eq_ok.1 h
  obtain ⟨h3, _, h⟩ := bind_eq_ok.1 h
  cases h
  exact ⟨⟨rfl, rfl, rfl, rfl, rfl, rfl, rfl, rfl, rfl, rfl, rfl⟩, rfl, rfl, rfl⟩

theorem made_config (m : Mgr D) : SameConfig m (allocGenerator (makeObjects m)) ∧
    (allocGenerator (makeObjects m)).results = m.results := by
  unfold allocGenerator makeObjects
  rcases m with ⟨_, _, _, _, _, _, _, _, _, _, _, _, _, _, _, useBW, _, _⟩
  cases useBW <;> exact ⟨⟨rfl, rfl, rfl, rfl, rfl, rfl, rfl, rfl, rfl, rfl, rfl⟩, rfl⟩

theorem incomplete_congr {m m' : Mgr D} (h : SameConfig m m') : incomplete m' = incomplete m := by
  unfold incomplete
  rw [h.timeStep, h.fieldSet, h.physSet, h.genSet]

/-- A `beamOn` that passes the OpenMP test and returns to Python, split into its three cases. -/
theorem beamOn_cases {e : Env D} {n t : Int} {m : Mgr D} {o : Outcome D}
    (h : BeamOn e n t m (.ok o)) (hp : Passes e t) :
    ∃ m1, freeOld m = .ok m1 ∧
      ((incomplete m = true ∧ o = .rejected m1) ∨
       (incomplete m = false ∧ t < 0 ∧ o = .raised (allocGenerator (makeObjects m1)) "std::length_error") ∨
       (incomplete m = false ∧ 0 ≤ t ∧ ∃ s ls rs r, sourceOf n e.raw (makeObjects m1) = .ok s ∧
          Events (simOf e.tables { allocGenerator (makeObjects m1) with results := .empty t.toNat })
            (if e.omp then e.tid else fun _ => 0) 0 s (.empty t.toNat) e.rng (.ok (ls, rs, r)) ∧
          o = .ran { allocGenerator (makeObjects m1) with results := rs } ls)) := by
  have key : ∀ p, prepare e.omp e.raw n t m = .ok p → ∃ m1, freeOld m = .ok m1 ∧
      ((incomplete m = true ∧ p = .rejected m1) ∨
       (incomplete m = false ∧ t < 0 ∧ p = .raised (allocGenerator (makeObjects m1)) "std::length_error") ∨
       (incomplete m = false ∧ 0 ≤ t ∧ ∃ s, sourceOf n e.raw (makeObjects m1) = .ok s ∧
          p = .go { allocGenerator (makeObjects m1) with results := .empty t.toNat } s)) := by
    intro p hpr
    rw [prepare_pass hp] at hpr
    obtain ⟨m1, h1, h2⟩ := bind_eq_ok.1 hpr
    refine ⟨m1, h1, ?_⟩
    rw [incomplete_congr (freeOld_config h1).1] at h2
    split at h2
    · next hi => cases h2; exact .inl ⟨hi, rfl⟩
    · next hi =>
      simp only [Bool.not_eq_true] at hi
      obtain ⟨s, h3, h4⟩ := bind_eq_ok.1 h2
      split at h4
      · next ht => cases h4; exact .inr (.inl ⟨hi, ht, rfl⟩)
      · next ht => cases h4; exact .inr (.inr ⟨hi, by omega, s, h3, rfl⟩)
  cases h with
  | rejected h =>
    obtain ⟨m1, h1, h2⟩ := key _ h
    rcases h2 with ⟨a, b⟩ | ⟨_, _, b⟩ | ⟨_, _, _, _, b⟩ <;> cases b
    exact ⟨_, h1, .inl ⟨a, rfl⟩⟩
  | raised h =>
    obtain ⟨m1, h1, h2⟩ := key _ h
    rcases h2 with ⟨a, b⟩ | ⟨a, a', b⟩ | ⟨_, _, _, _, b⟩ <;> cases b
    exact ⟨m1, h1, .inr (.inl ⟨a, a', rfl⟩)⟩
  | ran h he =>
    obtain ⟨m1, h1, h2⟩ := key _ h
    rcases h2 with ⟨a, b⟩ | ⟨a, a', b⟩ | ⟨a, a', s, h3, b⟩ <;> cases b
    exact ⟨m1, h1, .inr (.inr ⟨a, a', _, _, _, _, h3, he, rfl⟩)⟩

theorem beamOn_gate {e : Env D} {n t : Int} {m : Mgr D} {o : Outcome D}
    (h : BeamOn e n t m (.ok o)) (hp : ¬ Passes e t) : o = .rejected m := by
  have hg := prepare_gate (n := n) (m := m) hp
  cases h with
  | rejected h => rw [hg] at h; cases h; rfl
  | raised h => rw [hg] at h; cases h
  | ran h _ => rw [hg] at h; cases h

/-! ### Histories -/

/-- `beamOn` changes no setting. -/
theorem beamOn_config {e : Env D} {n t : Int} {m : Mgr D} {o : Outcome D}
    (h : BeamOn e n t m (.ok o)) : SameConfig m o.mgr := by
  by_cases hp : Passes e t
  · obtain ⟨m1, h1, h2⟩ := beamOn_cases h hp
    have hc := (freeOld_config h1).1
    have hc' := hc.trans (made_config m1).1
    rcases h2 with ⟨_, rfl⟩ | ⟨_, _, rfl⟩ | ⟨_, _, s, ls, rs, r, _, _, rfl⟩
    · exact hc
    · exact hc'
    · exact ⟨hc'.1, hc'.2, hc'.3, hc'.4, hc'.5, hc'.6, hc'.7, hc'.8, hc'.9, hc'.10, hc'.11⟩
  · rw [beamOn_gate h hp]
    exact .refl m

theorem simOf_congr {m m' : Mgr D} (t : Main.Tables D) (h : SameConfig m m') : simOf t m' = simOf t m := by
  unfold simOf physicsOf emissionOf fieldOf
  simp only [h.timeStep, h.timeEnd, h.fieldType, h.fieldArgs, h.physics, h.sampleFrac, h.useBW]

theorem History.append {m m' m'' : Mgr D} {h h' : List (Call D × Outcome D)} (a : History m h m')
    (b : History m' h' m'') : History m (h ++ h') m'' := by
  induction a with
  | nil => exact b
  | cons hd _ ih => exact .cons hd (ih b)

theorem Holding.congr {m m' : Mgr D} (h : Holding m) (h1 : m'.heap = m.heap) (h2 : m'.units = m.units)
    (h3 : m'.field = m.field) (h4 : m'.pusher = m.pusher) (h5 : m'.generator = m.generator) :
    Holding m' := ⟨h1 ▸ h.wf, by rw [h1, h2, h3, h4, h5]; exact h.all⟩

theorem Empty.congr {m m' : Mgr D} (h : Empty m) (h1 : m'.heap = m.heap) (h2 : m'.units = m.units)
    (h3 : m'.field = m.field) (h4 : m'.pusher = m.pusher) (h5 : m'.generator = m.generator) :
    Empty m' := ⟨h1 ▸ h.wf, by rw [h1, h2]; exact h.units, h3 ▸ h.field, h4 ▸ h.pusher,
      h5 ▸ h.generator⟩

theorem Dangling.congr {m m' : Mgr D} (h : Dangling m) (h1 : m'.heap = m.heap)
    (h2 : m'.units = m.units) (h3 : m'.field = m.field) (h4 : m'.pusher = m.pusher) : Dangling m' :=
  ⟨h1 ▸ h.wf, by rw [h1, h2]; exact h.units, by rw [h1, h3]; exact h.field,
    by rw [h1, h4]; exact h.pusher⟩

theorem destroy_empty {m : Mgr D} (h : Empty m) : ∃ hp, destroy m = .ok hp := by
  obtain ⟨a, h1, h2⟩ := h.units
  unfold destroy
  rw [h1, free_live h2, h.field, h.generator, h.pusher]
  exact ⟨_, rfl⟩

theorem destroy_holding {m : Mgr D} (h : Holding m) : ∃ hp, destroy m = .ok hp := by
  obtain ⟨u, f, p, g, hu, hf, hp, hg, hnd, hl⟩ := h.all
  simp only [List.nodup_cons, List.mem_cons, List.not_mem_nil, or_false, not_or,
    List.nodup_nil, and_true, not_false_eq_true] at hnd
  obtain ⟨⟨huf, hup, hug⟩, ⟨hfp, hfg⟩, hpg⟩ := hnd
  have lu := hl u (by simp)
  have lf := hl f (by simp)
  have lp := hl p (by simp)
  have lg := hl g (by simp)
  unfold destroy
  rw [hu, free_live lu, Res.ok_bind, hf,
    free_live (h := { m.heap with live := m.heap.live.erase u })
      (by simp only; rw [List.mem_erase_of_ne (Ne.symm huf)]; exact lf), Res.ok_bind, hg,
    free_live (h := { m.heap with live := (m.heap.live.erase u).erase f })
      (by simp only; rw [List.mem_erase_of_ne (Ne.symm hfg), List.mem_erase_of_ne (Ne.symm hug)]
          exact lg), Res.ok_bind, hp,
    free_live (h := { m.heap with live := ((m.heap.live.erase u).erase f).erase g })
      (by simp only; rw [List.mem_erase_of_ne hpg, List.mem_erase_of_ne (Ne.symm hfp),
            List.mem_erase_of_ne (Ne.symm hup)]
          exact lp)]
  exact ⟨_, rfl⟩

theorem destroy_dangling {m : Mgr D} (h : Dangling m) : destroy m = .ub "double free" := by
  obtain ⟨u, h1, h2⟩ := h.units
  obtain ⟨f, h3, h4⟩ := h.field
  unfold destroy
  rw [h1, free_live h2, Res.ok_bind, h3, free_dead (fun hm => h4 (List.mem_of_mem_erase hm)), Res.ub_bind]

end RunMgr
end QED
