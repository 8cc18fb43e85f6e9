import Verif.Model.Geant
import Verif.Lemmas.Sim

set_option autoImplicit false

/-! # The pointers of the Geant4 emission process -/

namespace QED
namespace G4

open Dbl

/-- Addresses in use are below the next fresh one and listed once. -/
structure Heap.Good (h : Heap) : Prop where
  below : ∀ a ∈ h.live, a < h.next
  nodup : h.live.Nodup

/-- The states the process can be in. -/
structure EInv (e : Emitter) : Prop where
  heap : Heap.Good e.heap
  part : e.part = .indeterminate ∨ ∃ a, e.part = .is (some a) ∧ a < e.heap.next ∧ a ∉ e.heap.live
  objects : (e.field = .indeterminate ∧ e.process = .is none ∧ e.pusher = .is none) ∨
    ∃ f p q, e.field = .is (some f) ∧ e.process = .is (some p) ∧ e.pusher = .is (some q) ∧
      f ∈ e.heap.live ∧ f ∉ e.handed
  handed : ∀ a ∈ e.handed, a ∈ e.heap.live
  handedNodup : e.handed.Nodup

theorem EInv.new (steps : Bool) : EInv (Emitter.new steps) where
  heap := ⟨by simp [Emitter.new], by simp [Emitter.new]⟩
  part := .inl rfl
  objects := .inl ⟨rfl, rfl, rfl⟩
  handed := by simp [Emitter.new]
  handedNodup := by simp [Emitter.new]

theorem Heap.Good.alloc {h : Heap} (hg : Heap.Good h) : Heap.Good h.alloc.2 where
  below := by
    intro a ha
    simp only [Heap.alloc, List.mem_cons] at ha ⊢
    rcases ha with rfl | ha
    · omega
    · have := hg.below a ha; omega
  nodup := by
    simp only [Heap.alloc, List.nodup_cons]
    exact ⟨fun h => lt_irrefl _ (hg.below _ h), hg.nodup⟩

theorem Heap.Good.free {h h' : Heap} {p : Ptr} (hg : Heap.Good h) (hf : h.free p = .ok h') :
    Heap.Good h' := by
  unfold Heap.free at hf
  split at hf
  · cases hf; exact hg
  · split at hf
    · cases hf
      exact ⟨fun a ha => hg.below a (List.mem_of_mem_erase ha), hg.nodup.erase _⟩
    · cases hf

theorem EInv.setField {e : Emitter} (h : EInv e) : EInv e.setField := by
  have h1 := h.heap.alloc
  have h2 := h1.alloc
  have h3 := h2.alloc
  refine ⟨h3, ?_, .inr ⟨_, _, _, rfl, rfl, rfl, ?_, ?_⟩, ?_, h.handedNodup⟩
  · rcases h.part with hp | ⟨a, hp, h4, h5⟩
    · exact .inl hp
    · refine .inr ⟨a, hp, ?_, ?_⟩
      · simp only [Emitter.setField, newInto, Heap.alloc]; omega
      · simp only [Emitter.setField, newInto, Heap.alloc, List.mem_cons, not_or]
        exact ⟨by omega, by omega, by omega, h5⟩
  · simp [Emitter.setField, newInto, Heap.alloc]
  · intro hm
    exact lt_irrefl _ (h.heap.below _ (h.handed _ hm))
  · intro a ha
    have := h.handed a ha
    simp only [Emitter.setField, newInto, Heap.alloc, List.mem_cons]
    exact .inr (.inr (.inr this))

/-- Handing photons over keeps every other member and only adds fresh objects. -/
theorem hand_spec : ∀ (n : Nat) (e : Emitter), Heap.Good e.heap → (∀ a ∈ e.handed, a ∈ e.heap.live) →
    e.handed.Nodup →
    (e.hand n).part = e.part ∧ (e.hand n).photonList = e.photonList ∧ (e.hand n).field = e.field ∧
    (e.hand n).process = e.process ∧ (e.hand n).pusher = e.pusher ∧ (e.hand n).steps = e.steps ∧
    (e.hand n).switch = e.switch ∧ Heap.Good (e.hand n).heap ∧ e.heap.next ≤ (e.hand n).heap.next ∧
    (∀ a ∈ (e.hand n).handed, a ∈ (e.hand n).heap.live) ∧ (e.hand n).handed.Nodup ∧
    (∀ a, a < e.heap.next → (a ∈ (e.hand n).heap.live ↔ a ∈ e.heap.live)) ∧
    (∀ a, a < e.heap.next → (a ∈ (e.hand n).handed ↔ a ∈ e.handed))
  | 0, e, h1, h2, h3 => ⟨rfl, rfl, rfl, rfl, rfl, rfl, rfl, h1, le_refl _, h2, h3, fun _ _ => Iff.rfl,
      fun _ _ => Iff.rfl⟩
  | n + 1, e, h1, h2, h3 => by
    have := hand_spec n e.handOne h1.alloc (by
        intro a ha
        simp only [Emitter.handOne, newInto, Heap.alloc, List.mem_cons] at ha ⊢
        rcases ha with rfl | ha
        · exact .inl rfl
        · exact .inr (h2 a ha)) (by
        show (e.heap.next :: e.handed).Nodup
        rw [List.nodup_cons]
        exact ⟨fun hm => lt_irrefl _ (h1.below _ (h2 _ hm)), h3⟩)
    obtain ⟨k1, k2, k3, k4, k5, k6, k7, k8, k9, k10, k11, k12, k13⟩ := this
    simp only [Emitter.handOne, newInto, Heap.alloc] at k9 k12 k13
    refine ⟨k1, k2, k3, k4, k5, k6, k7, k8, ?_, k10, k11, ?_, ?_⟩
    · exact le_trans (Nat.le_succ _) k9
    · intro a ha
      rw [Emitter.hand]
      simp only [Emitter.handOne, newInto, Heap.alloc]
      rw [k12 a (by omega)]
      simp only [List.mem_cons]
      exact ⟨fun h => h.resolve_left (by omega), .inr⟩
    · intro a ha
      rw [Emitter.hand]
      simp only [Emitter.handOne, newInto, Heap.alloc]
      rw [k13 a (by omega)]
      simp only [List.mem_cons]
      exact ⟨fun h => h.resolve_left (by omega), .inr⟩

/-- `PostStepDoIt` succeeds unless it needs a pusher that is not there, and then its particle is dead. -/
theorem EInv.postStep {e : Emitter} (h : EInv e) (n : Nat)
    (hp : ¬ (e.steps = true ∧ e.field = .indeterminate)) :
    ∃ e', e.postStep n = .ok e' ∧ EInv e' ∧ e'.field = e.field ∧ e'.steps = e.steps ∧
      e'.part ≠ .indeterminate := by
  have hno : ¬ (e.steps = true ∧ (e.pusher = .is none ∨ e.process = .is none)) := by
    rintro ⟨hs, hn⟩
    rcases h.objects with ⟨h1, -, -⟩ | ⟨f, p, q, -, h2, h3, -⟩
    · exact hp ⟨hs, h1⟩
    · rw [h2, h3] at hn; simp at hn
  have hg2 := h.heap.alloc.alloc
  obtain ⟨k1, k2, k3, k4, k5, k6, k7, k8, k9, k10, k11, k12, k13⟩ := hand_spec n
    { e with part := (newInto e.heap).1, photonList := (newInto (newInto e.heap).2).1
             heap := (newInto (newInto e.heap).2).2 } hg2 (by
      intro a ha
      simp only [newInto, Heap.alloc, List.mem_cons]
      exact .inr (.inr (h.handed a ha))) h.handedNodup
  unfold Emitter.postStep
  dsimp only
  rw [if_neg hno]
  generalize he2 : Emitter.hand n
    { e with part := (newInto e.heap).1, photonList := (newInto (newInto e.heap).2).1
             heap := (newInto (newInto e.heap).2).2 } = e2 at *
  simp only [newInto, Heap.alloc] at k1 k2 k9 k12 k13
  have hlp : e.heap.next ∈ e2.heap.live := by rw [k12 _ (by omega)]; simp
  have hll : e.heap.next + 1 ∈ e2.heap.live := by rw [k12 _ (by omega)]; simp
  have hd1 : e2.part.delete e2.heap = .ok { e2.heap with live := e2.heap.live.erase e.heap.next } := by
    rw [k1]; simp [Member.delete, Heap.free, hlp]
  have hd2 : e2.photonList.delete { e2.heap with live := e2.heap.live.erase e.heap.next } =
      .ok { e2.heap with live := (e2.heap.live.erase e.heap.next).erase (e.heap.next + 1) } := by
    rw [k2]
    have : e.heap.next + 1 ∈ e2.heap.live.erase e.heap.next := by
      rw [k8.nodup.mem_erase_iff]; exact ⟨by omega, hll⟩
    simp [Member.delete, Heap.free, this]
  rw [hd1, Res.ok_bind, hd2, Res.ok_bind]
  have hmem : ∀ a, a ∈ (e2.heap.live.erase e.heap.next).erase (e.heap.next + 1) ↔
      a ≠ e.heap.next + 1 ∧ a ≠ e.heap.next ∧ a ∈ e2.heap.live := by
    intro a
    rw [(k8.nodup.erase _).mem_erase_iff, k8.nodup.mem_erase_iff]
  have hhand : ∀ a ∈ e2.handed, a ≠ e.heap.next + 1 ∧ a ≠ e.heap.next := by
    intro a ha
    constructor
    · rintro rfl
      have := (k13 _ (by omega)).1 ha
      have := h.heap.below _ (h.handed _ this); omega
    · rintro rfl
      have := (k13 _ (by omega)).1 ha
      have := h.heap.below _ (h.handed _ this); omega
  refine ⟨_, rfl, ⟨⟨?_, ?_⟩, ?_, ?_, ?_, k11⟩, k3, k6, ?_⟩
  · intro a ha; exact k8.below a ((hmem a).1 ha).2.2
  · exact (k8.nodup.erase _).erase _
  · refine .inr ⟨e.heap.next, k1, ?_, ?_⟩
    · show e.heap.next < e2.heap.next; omega
    · intro hm; exact ((hmem _).1 hm).2.1 rfl
  · rcases h.objects with ⟨h1, h2, h3⟩ | ⟨f, p, q, h1, h2, h3, h4, h5⟩
    · exact .inl ⟨k3.trans h1, k4.trans h2, k5.trans h3⟩
    · have hf := h.heap.below f h4
      refine .inr ⟨f, p, q, k3.trans h1, k4.trans h2, k5.trans h3, ?_, ?_⟩
      · show f ∈ (e2.heap.live.erase e.heap.next).erase (e.heap.next + 1)
        rw [hmem]
        refine ⟨by omega, by omega, ?_⟩
        rw [k12 f (by omega)]; simp [h4]
      · show f ∉ e2.handed
        rw [k13 f (by omega)]; exact h5
  · intro a ha
    exact (hmem a).2 ⟨(hhand a ha).1, (hhand a ha).2, k10 a ha⟩
  · show e2.part ≠ _
    rw [k1]; simp

theorem EInv.kernelDelete {e : Emitter} (h : EInv e) (a : Nat) :
    ∃ e', e.kernelDelete a = .ok e' ∧ EInv e' ∧ e'.field = e.field ∧ e'.steps = e.steps ∧
      e'.part = e.part := by
  unfold Emitter.kernelDelete
  split
  · next ha =>
    have hl := h.handed a ha
    simp only [Heap.free, hl, if_true, Res.ok_bind]
    refine ⟨_, rfl, ⟨⟨?_, h.heap.nodup.erase _⟩, ?_, ?_, ?_, h.handedNodup.erase _⟩, rfl, rfl, rfl⟩
    · intro b hb; exact h.heap.below b (List.mem_of_mem_erase hb)
    · rcases h.part with hp | ⟨b, hp, h1, h2⟩
      · exact .inl hp
      · exact .inr ⟨b, hp, h1, fun hm => h2 (List.mem_of_mem_erase hm)⟩
    · rcases h.objects with h1 | ⟨f, p, q, h1, h2, h3, h4, h5⟩
      · exact .inl h1
      · refine .inr ⟨f, p, q, h1, h2, h3, ?_, fun hm => h5 (List.mem_of_mem_erase hm)⟩
        rw [h.heap.nodup.mem_erase_iff]
        exact ⟨fun he => h5 (he ▸ ha), h4⟩
    · intro b hb
      rw [h.handedNodup.mem_erase_iff] at hb
      rw [h.heap.nodup.mem_erase_iff]
      exact ⟨hb.1, h.handed b hb.2⟩
  · exact ⟨e, rfl, h, rfl, rfl, rfl⟩

/-- A call fails exactly when it is a `PostStepDoIt` with time steps before any field was set. -/
theorem EInv.act {e : Emitter} (h : EInv e) (a : Act) :
    ((∃ n, a = .postStep n) ∧ e.steps = true ∧ e.field = .indeterminate ∧
      e.act a = .ub "null pusher") ∨
    (¬ ((∃ n, a = .postStep n) ∧ e.steps = true ∧ e.field = .indeterminate) ∧
      ∃ e', e.act a = .ok e' ∧ EInv e' ∧ e'.steps = e.steps ∧
      (e'.field = .indeterminate ↔ (e.field = .indeterminate ∧ a ≠ .setField)) ∧
      (e'.part = .indeterminate ↔ (e.part = .indeterminate ∧ ∀ n, a ≠ .postStep n))) := by
  cases a with
  | setField =>
    right
    refine ⟨by simp, _, rfl, h.setField, rfl, ?_, ?_⟩
    · simp [Emitter.setField, newInto]
    · simp [Emitter.setField]
  | meanFreePath b =>
    right
    cases b
    · exact ⟨by simp, _, rfl, h, rfl, by simp, by simp⟩
    · exact ⟨by simp, _, rfl, ⟨h.heap, h.part, h.objects, h.handed, h.handedNodup⟩, rfl, by simp, by simp⟩
  | kernelDelete a =>
    right
    obtain ⟨e', h1, h2, h3, h4, h5⟩ := h.kernelDelete a
    exact ⟨by simp, e', h1, h2, h4, by rw [h3]; simp, by rw [h5]; simp⟩
  | postStep n =>
    by_cases hp : e.steps = true ∧ e.field = .indeterminate
    · left
      refine ⟨⟨n, rfl⟩, hp.1, hp.2, ?_⟩
      rcases h.objects with ⟨_, h2, h3⟩ | ⟨f, _, _, h1, _⟩
      · show e.postStep _ = _
        unfold Emitter.postStep
        dsimp only
        rw [if_pos ⟨hp.1, .inl h3⟩]
      · rw [hp.2] at h1; cases h1
    · right
      obtain ⟨e', h1, h2, h3, h4, h5⟩ := h.postStep (if e.steps then n else 0) hp
      exact ⟨fun hh => hp hh.2, e', h1, h2, h4, by rw [h3]; simp, by simp [h5]⟩

end G4
end QED
