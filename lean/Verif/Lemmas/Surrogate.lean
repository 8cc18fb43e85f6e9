import Verif.Model.Surrogate
import Verif.Lemmas.TableFiles
import Verif.Lemmas.GeantHeap

set_option autoImplicit false
set_option linter.unusedSectionVars false

/-! # Lemmas about the surrogate process -/

namespace QED

open Dbl MCTools G4 TableFile

variable {D : Type} [Dbl D]

theorem readInto_failed (text : List Char) : ∀ xs : List (Option D), readInto xs ⟨text, false⟩ = xs
  | [] => rfl
  | x :: xs => by rw [readInto, double_failed, readInto_failed text xs]

/-- A file with enough numbers fills the array. -/
theorem readInto_full : ∀ (xs : List (Option D)) (as ns : List Numeral) (text : List Char),
    Lists (as ++ ns) text → as.length = xs.length →
    readInto xs ⟨text, true⟩ = as.map fun a => some (num a : D)
  | [], [], _, _, _, _ => rfl
  | x :: xs, a :: as, ns, text, h, hl => by
    obtain ⟨rest, h1, h2⟩ := double_lists (D := D) h
    rw [readInto, h2, List.map_cons, readInto_full xs as ns rest h1 (by simpa using hl)]

/-- A file with too few numbers leaves the rest of the array as it was. -/
theorem readInto_short : ∀ (as : List Numeral) (xs : List (Option D)) (text : List Char),
    Lists as text → as.length ≤ xs.length →
    readInto xs ⟨text, true⟩ = (as.map fun a => some (num a : D)) ++ xs.drop as.length
  | [], [], text, _, _ => rfl
  | [], x :: xs, text, h, _ => by
    rw [readInto, double_end h, readInto_failed]; rfl
  | a :: as, x :: xs, text, h, hl => by
    obtain ⟨rest, h1, h2⟩ := double_lists (D := D) h
    rw [readInto, h2, List.map_cons, readInto_short as xs rest h1 (by simpa using hl)]
    rfl

theorem useAll_none {xs : List (Option D)} (h : none ∈ xs) : ∃ w, useAll xs = .ub w := by
  induction xs with
  | nil => cases h
  | cons x xs ih =>
    cases x with
    | none => exact ⟨_, rfl⟩
    | some a =>
      obtain ⟨w, hw⟩ := ih (by simpa using h)
      exact ⟨w, by rw [useAll, hw]; rfl⟩

/-- A computation that neither throws nor exits. -/
def Plain {α : Type} (o : Res α) : Prop := (∃ w, o = .ub w) ∨ ∃ a, o = .ok a

theorem Plain.bind {α β : Type} {o : Res α} {f : α → Res β} (h : Plain o) (hf : ∀ a, Plain (f a)) :
    Plain (o >>= f) := by
  rcases h with ⟨w, rfl⟩ | ⟨a, rfl⟩
  · exact .inl ⟨w, rfl⟩
  · exact hf a

theorem plain_ok {α : Type} (a : α) : Plain (.ok a) := .inr ⟨a, rfl⟩

theorem plain_rd (l : List D) (i : Nat) : Plain (rd l i) := by
  unfold rd
  split
  · exact .inr ⟨_, rfl⟩
  · exact .inl ⟨_, rfl⟩

theorem plain_useAll : ∀ xs : List (Option D), Plain (useAll xs)
  | [] => plain_ok _
  | none :: _ => .inl ⟨_, rfl⟩
  | some a :: xs => (plain_ok a).bind fun _ => (plain_useAll xs).bind fun _ => plain_ok _

theorem plain_scales (xs : List (Option D)) : Plain (scales xs) :=
  (plain_useAll xs).bind fun _ => (plain_rd _ _).bind fun _ => (plain_rd _ _).bind fun _ =>
    (plain_rd _ _).bind fun _ => plain_ok _

theorem plain_input (s : Surrogate D) (t : Crossing D) : Plain (s.input t) :=
  (plain_useAll _).bind fun _ => (plain_rd _ _).bind fun _ => (plain_rd _ _).bind fun _ =>
    (plain_rd _ _).bind fun _ => (plain_rd _ _).bind fun _ => (plain_rd _ _).bind fun _ =>
    (plain_rd _ _).bind fun _ => plain_ok _

theorem input_length {s : Surrogate D} {t : Crossing D} {l : List D} (h : s.input t = .ok l) : l.length = 6 := by
  unfold Surrogate.input at h
  obtain ⟨_, -, h⟩ := Res.bind_eq_ok.1 h
  obtain ⟨_, -, h⟩ := Res.bind_eq_ok.1 h
  obtain ⟨_, -, h⟩ := Res.bind_eq_ok.1 h
  obtain ⟨_, -, h⟩ := Res.bind_eq_ok.1 h
  obtain ⟨_, -, h⟩ := Res.bind_eq_ok.1 h
  obtain ⟨_, -, h⟩ := Res.bind_eq_ok.1 h
  obtain ⟨_, -, h⟩ := Res.bind_eq_ok.1 h
  cases h
  rfl

theorem inputs_take (xs : List D) : ∀ n, n ≤ xs.length → inputs xs n = .ok (xs.take n)
  | 0, _ => by simp [inputs]
  | n + 1, h => by
    rw [inputs, inputs_take xs n (by omega), Res.ok_bind]
    have hr : rd xs n = .ok (xs[n]'(by omega)) := by
      unfold rd
      rw [List.getElem?_eq_getElem (by omega)]
    rw [hr, Res.ok_bind, List.take_add_one, List.getElem?_eq_getElem (by omega)]
    rfl

theorem run_six {α : Type} (net : List D → Option α) {xs : List D} (h : xs.length = 6) :
    Graph.run ⟨6, net⟩ xs = match net xs with
      | none => .throw "Error running graph!"
      | some out => .ok out := by
  unfold Graph.run
  dsimp only
  rw [inputs_take xs 6 (by omega), Res.ok_bind, List.take_of_length_le (by omega)]
  cases net xs <;> rfl

/-- A file that is missing or lists fewer than `n` numbers. -/
def Incomplete (d : Disk D) (path : List Char) (n : Nat) : Prop :=
  d.text path = none ∨ ∃ ns text, d.text path = some text ∧ Lists ns text ∧ ns.length < n

theorem incomplete_none {d : Disk D} {path : List Char} {n : Nat} (hn : 0 < n) (h : Incomplete d path n) :
    none ∈ readInto (List.replicate n (none : Option D)) (openText d path) := by
  unfold openText
  rcases h with h | ⟨ns, text, h1, h2, h3⟩
  · rw [h]
    dsimp only
    rw [readInto_failed]
    exact List.mem_replicate.2 ⟨hn.ne', rfl⟩
  · rw [h1]
    dsimp only [IStream.new]
    rw [readInto_short ns _ text h2 (by rw [List.length_replicate]; exact h3.le), List.drop_replicate]
    exact List.mem_append.2 (.inr (List.mem_replicate.2 ⟨by omega, rfl⟩))

/-- A crossing, once the models have answered. -/
theorem postStep_models {s : Surrogate D} {t : Crossing D} {r : Draws D}
    {ne np : List D → Option (Mixture D)} {nc : List D → Option D} {xs : List D} {e p : Mixture D} {c : D}
    (he : s.elec = some ⟨6, ne⟩) (hp : s.phot = some ⟨6, np⟩) (hc : s.photCount = some ⟨6, nc⟩)
    (hx : s.input t = .ok xs) (h1 : ne xs = some e) (h2 : np xs = some p) (h3 : nc xs = some c) :
    s.postStep t r = (do
      let pp ← if r.poisson c = 0 then .ok ⟨lit 0, lit 0, lit 0⟩ else scales s.photParams
      let ep ← scales s.elecParams
      tfPostStep e p ep pp r.u r.sampler (r.photons (r.poisson c))) := by
  have hl := input_length hx
  unfold Surrogate.postStep
  rw [hx, he, hp, hc]
  dsimp only [use]
  rw [Res.ok_bind, Res.ok_bind, Res.ok_bind, Res.ok_bind, run_six ne hl, run_six np hl, run_six nc hl, h1, h2, h3]
  rfl

/-! ## Pointers -/

/-- The states the process can be in. -/
structure TfInv (t : TfHeap) (loads : Nat) : Prop where
  heap : Heap.Good t.heap
  posi : t.posi = .indeterminate
  graphs : if loads = 0 then t.elec = .indeterminate ∧ t.phot = .indeterminate ∧ t.photCount = .indeterminate
    else t.elec ≠ .indeterminate ∧ t.phot ≠ .indeterminate ∧ t.photCount ≠ .indeterminate
  elec : t.elec = .indeterminate ∨ ∃ a, t.elec = .is (some a) ∧ a ∈ t.heap.live ∧ a ∉ t.handed
  handed : ∀ a ∈ t.handed, a ∈ t.heap.live
  handedNodup : t.handed.Nodup
  count : t.heap.live.length = 1 + 6 * loads + t.handed.length

theorem TfInv.new : TfInv TfHeap.new 0 where
  heap := ⟨by simp [TfHeap.new], by simp [TfHeap.new]⟩
  posi := rfl
  graphs := by simp [TfHeap.new]
  elec := .inl rfl
  handed := by simp [TfHeap.new]
  handedNodup := by simp [TfHeap.new]
  count := rfl

theorem TfInv.load {t : TfHeap} {k : Nat} (h : TfInv t k) : TfInv t.load (k + 1) := by
  have hb : ∀ a ∈ t.handed, a < t.heap.next := fun a ha => h.heap.below a (h.handed a ha)
  refine ⟨h.heap.alloc.alloc.alloc.alloc.alloc.alloc, h.posi, ?_, .inr ⟨t.heap.next + 1, ?_⟩, ?_, h.handedNodup, ?_⟩
  · simp [TfHeap.load, newGraph, newInto]
  · refine ⟨rfl, ?_, ?_⟩
    · simp [TfHeap.load, newGraph, newInto, Heap.alloc]
    · intro ha
      have := hb _ ha
      omega
  · intro a ha
    have := h.handed a ha
    simp [TfHeap.load, newGraph, newInto, Heap.alloc, this]
  · have := h.count
    simp only [TfHeap.load, newGraph, newInto, Heap.alloc, List.length_cons]
    omega

theorem TfInv.handOne {t : TfHeap} {k : Nat} (h : TfInv t k) : TfInv t.handOne k := by
  refine ⟨h.heap.alloc, h.posi, h.graphs, ?_, ?_, ?_, ?_⟩
  · rcases h.elec with h1 | ⟨a, h1, h2, h3⟩
    · exact .inl h1
    · refine .inr ⟨a, h1, List.mem_cons_of_mem _ h2, ?_⟩
      intro ha
      rcases List.mem_cons.1 ha with rfl | ha
      · exact lt_irrefl _ (h.heap.below _ h2)
      · exact h3 ha
  · intro a ha
    rcases List.mem_cons.1 ha with rfl | ha
    · exact List.mem_cons_self
    · exact List.mem_cons_of_mem _ (h.handed a ha)
  · exact List.nodup_cons.2 ⟨fun ha => lt_irrefl _ (h.heap.below _ (h.handed _ ha)), h.handedNodup⟩
  · have := h.count
    simp only [TfHeap.handOne, newInto, Heap.alloc, List.length_cons]
    omega

theorem TfInv.hand {k : Nat} : ∀ (n : Nat) {t : TfHeap}, TfInv t k → TfInv (t.hand n) k
  | 0, _, h => h
  | n + 1, _, h => TfInv.hand n h.handOne

theorem TfInv.kernelDelete {t : TfHeap} {k a : Nat} (h : TfInv t k) :
    ∃ t', t.act (.kernelDelete a) = .ok t' ∧ TfInv t' k := by
  by_cases ha : a ∈ t.handed
  · have hl := h.handed a ha
    refine ⟨_, by simp only [TfHeap.act, if_pos ha, Heap.free, if_pos hl, Res.ok_bind]; rfl, ?_⟩
    refine ⟨⟨fun b hb => h.heap.below b (List.mem_of_mem_erase hb), h.heap.nodup.erase _⟩, h.posi, h.graphs, ?_,
      ?_, h.handedNodup.erase _, ?_⟩
    · rcases h.elec with h1 | ⟨b, h1, h2, h3⟩
      · exact .inl h1
      · refine .inr ⟨b, h1, (List.mem_erase_of_ne ?_).2 h2, fun hb => h3 (List.mem_of_mem_erase hb)⟩
        rintro rfl
        exact h3 ha
    · intro b hb
      have hne : b ≠ a := fun e => by
        subst e
        exact absurd hb h.handedNodup.not_mem_erase
      exact (List.mem_erase_of_ne hne).2 (h.handed b (List.mem_of_mem_erase hb))
    · have := h.count
      have h1 := List.length_pos_of_mem hl
      have h2 := List.length_pos_of_mem ha
      simp only [List.length_erase_of_mem hl, List.length_erase_of_mem ha]
      omega
  · exact ⟨t, by simp only [TfHeap.act, if_neg ha], h⟩

end QED
