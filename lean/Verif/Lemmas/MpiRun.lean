import Verif.Lemmas.OutputMpi
import Mathlib.Data.Real.Basic
import Mathlib.Algebra.BigOperators.Intervals

set_option autoImplicit false
set_option linter.unusedSectionVars false

/-!
# Runs with several ranks: from the stored events to the result
-/

namespace QED.Mpi

open QED Dbl OutMgr OutSpec
open _root_.QED.MpiSpec

variable {D L : Type} [Dbl D]

/-- The manager `m` is what the calls for these events, in any order, make of some manager. -/
def Stored (m : OutMgr D) (ev : RankEvents D) : Prop :=
  ∃ (m0 : OutMgr D) (n : Nat) (start fin : Nat → PList D) (first : Nat → Particle D)
    (cs : List (Call D)),
    (∀ j < n, (start j).items[0]? = some (first j)) ∧
    (∀ c ∈ cs, StoreCall n start fin c) ∧ (∀ j < n, Call.storePrimary (start j) j ∈ cs) ∧
    (∀ j < n, Call.storeFinal (fin j) j ∈ cs) ∧ (∀ j < n, (fin j).items.length < 2 ^ 29) ∧
    (m0.initSource n).calls cs = .ok m ∧
    ev.firsts = (List.range n).map first ∧ ev.finals = (List.range n).map fun j => (fin j).items

/-- The rows of the events, as the manager holds them. -/
def dataOf (ev : RankEvents D) : RankData D where
  prim := primaryTable ev.firsts
  e := ev.finals.zipIdx.map fun x => speciesRows .electron x.2 x.1
  p := ev.finals.zipIdx.map fun x => speciesRows .positron x.2 x.1
  g := ev.finals.zipIdx.map fun x => speciesRows .photon x.2 x.1

theorem rowsOf_zipIdx (k : Kind) (n : Nat) (fin : Nat → PList D) :
    (((List.range n).map fun j => (fin j).items).zipIdx.map fun x => speciesRows k x.2 x.1) =
      rowsOf k n fin := by
  simp [zipIdx_range, rowsOf, Function.comp_def]

theorem Stored.holds {m : OutMgr D} {ev : RankEvents D} (h : Stored m ev) : HoldsRows m (dataOf ev) := by
  obtain ⟨m0, n, start, fin, first, cs, hstart, hcs, hp, hf, hfin, hm, h1, h2⟩ := h
  obtain ⟨m', hm', -, -, a1, a2, a3, a4, a5, a6, a7⟩ := stored m0 n start fin first hstart hfin cs
    hcs hp hf
  rw [hm] at hm'
  injection hm' with hm'
  subst hm'
  constructor <;> simp only [dataOf, h1, h2, rowsOf_zipIdx]
  · exact a1
  · exact a2
  · exact a4
  · exact a6
  · exact a3
  · exact a5
  · exact a7
  · exact primaryTable_eight _
  · exact rowsOf_eight _ _ _
  · exact rowsOf_eight _ _ _
  · exact rowsOf_eight _ _ _

theorem rowsFrom_gather (n : Nat) (f : Nat → List (List D)) : rowsFrom f 0 n = gather n f := by
  rw [rowsFrom, gather, List.range_eq_range']

/-- A source with what each rank stored. -/
def sourceOf (out : Bool) (mgr : Nat → OutMgr D) (ev : Nat → RankEvents D) : Source D :=
  ⟨out, mgr, fun r => dataOf (ev r)⟩

theorem sourceOf_good {n : Nat} {out : Bool} {mgr : Nat → OutMgr D} {ev : Nat → RankEvents D}
    (h : ∀ r < n, Stored (mgr r) (ev r)) (hf : Fits n ev) : (sourceOf out mgr ev).Good n := by
  refine ⟨fun i hi => (h i hi).holds, ?_, ?_, ?_, ?_⟩ <;> rw [rowsFrom_gather]
  · exact hf.1
  · exact hf.2 .electron
  · exact hf.2 .positron
  · exact hf.2 .photon

theorem sourceOf_put (n : Nat) (group : L → L) (put : L → String → Nat → Buf D → L) (l : L)
    (out : Bool) (mgr : Nat → OutMgr D) (ev : Nat → RankEvents D) :
    (sourceOf out mgr ev).put n group put l = if out then putSource n group put ev l else l := by
  unfold Source.put
  simp only [rowsFrom_gather]
  rfl

/-! ### Sums over ℝ -/

theorem addVals_getD {a b : List ℝ} (h : a.length = b.length) (i : Nat) :
    (addVals a b).getD i 0 = a.getD i 0 + b.getD i 0 := by
  simp only [addVals, List.getD_eq_getElem?_getD, List.getElem?_zipWith]
  by_cases hi : i < a.length
  · rw [List.getElem?_eq_getElem hi, List.getElem?_eq_getElem (h ▸ hi)]
    simp
  · rw [List.getElem?_eq_none (by omega), List.getElem?_eq_none (by omega)]
    simp

theorem sumIn_getD (v : Nat → List ℝ) (nBins : Nat) (i : Nat) : ∀ (l : List Nat) (values : List ℝ),
    values.length = nBins → (∀ j ∈ l, (v j).length = nBins) →
    (sumIn v values l).length = nBins ∧
    (sumIn v values l).getD i 0 = values.getD i 0 + (l.map fun j => (v j).getD i 0).sum := by
  intro l
  induction l with
  | nil => intro values hv _; simp [sumIn, hv]
  | cons j l ih =>
    intro values hv h
    have hj := h j (by simp)
    obtain ⟨h1, h2⟩ := ih (addVals values (v j))
      (by rw [addVals_length (by rw [hv, hj]), hv]) (fun x hx => h x (by simp [hx]))
    refine ⟨h1, ?_⟩
    rw [show sumIn v values (j :: l) = sumIn v (addVals values (v j)) l from rfl, h2,
      addVals_getD (by rw [hv, hj])]
    simp only [List.map_cons, List.sum_cons]
    ring

theorem sum_others (n : Nat) (hn : 0 < n) (f : Nat → ℝ) :
    f 0 + ((others n).map f).sum = ∑ r ∈ Finset.range n, f r := by
  obtain ⟨k, rfl⟩ : ∃ k, n = k + 1 := ⟨n - 1, by omega⟩
  rw [Finset.sum_range_succ', add_comm]
  congr 1
  rw [others, Nat.add_sub_cancel, List.range'_eq_map_range, List.map_map]
  simp only [Function.comp_def, Nat.add_comm 1]
  induction k with
  | zero => simp
  | succ k ih => rw [List.range_succ, List.map_append, List.sum_append, ih (by omega),
      Finset.sum_range_succ]; simp

theorem sumIn_binSums {n : Nat} (hn : 0 < n) {h : Nat → Hist ℝ} (hg : GoodHist n h) {order : List Nat}
    (ho : order.Perm (others n)) :
    sumIn (fun i => (h i).values) (h 0).values order = binSums n h := by
  have hlen : ∀ j ∈ order, ((h j).values).length = (h 0).nBins := fun j hj =>
    (hg.2 j (mem_others.1 (ho.mem_iff.1 hj)).2).2
  have key := fun i => sumIn_getD (fun i => (h i).values) (h 0).nBins i order (h 0).values
    (hg.2 0 hn).2 hlen
  refine List.ext_getElem (by rw [(key 0).1]; simp [binSums]) ?_
  intro i h1 h2
  have := (key i).2
  rw [List.getD_eq_getElem?_getD, List.getElem?_eq_getElem h1, Option.getD_some] at this
  rw [this, (ho.map _).sum_eq, sum_others n hn (fun j => (h j).values.getD i 0)]
  simp [binSums]

/-! ### Programs that cannot end normally -/

/-- No path through the program ends normally. -/
def NeverOk {α : Type} : Prog D α → Prop
  | .ret r => ∀ a, r ≠ .ok a
  | .send _ _ _ k => NeverOk k
  | .probe _ _ k => ∀ x, NeverOk (k x)
  | .recv _ _ k => ∀ x, NeverOk (k x)
  | .recvAny _ k => ∀ x, NeverOk (k x)
  | .barrier k => NeverOk k

theorem NeverOk.bind {α β : Type} (p : Prog D α) (f : α → Prog D β) (h : ∀ a, NeverOk (f a)) :
    NeverOk (p >>= f) := by
  change NeverOk (p.bind f)
  induction p with
  | ret r => cases r with
    | ok a => exact h a
    | exit _ => intro a h; cases h
    | throw _ => intro a h; cases h
    | ub _ => intro a h; cases h
  | send _ _ _ _ ih => exact ih
  | probe _ _ _ ih => exact fun x => ih x
  | recv _ _ _ ih => exact fun x => ih x
  | recvAny _ _ ih => exact fun x => ih x
  | barrier _ ih => exact ih

theorem NeverOk.left {α β : Type} (p : Prog D α) (f : α → Prog D β) (h : NeverOk p) :
    NeverOk (p >>= f) := by
  change NeverOk (p.bind f)
  induction p with
  | ret r => cases r with
    | ok a => exact absurd rfl (h a)
    | exit _ => intro a h; cases h
    | throw _ => intro a h; cases h
    | ub _ => intro a h; cases h
  | send _ _ _ _ ih => exact ih h
  | probe _ _ _ ih => exact fun x => ih x (h x)
  | recv _ _ _ ih => exact fun x => ih x (h x)
  | recvAny _ _ ih => exact fun x => ih x (h x)
  | barrier _ ih => exact ih h

theorem release_prog {α : Type} (s : State D α) (src dst : Nat) (last : Bool) (r : Nat) :
    ((s.release src dst last).procs r).prog = (s.procs r).prog := by
  unfold State.release
  split
  · simp only [State.setProc, Function.update_apply]
    split
    · rename_i h; rw [h]
    · rfl
  · rfl

theorem NeverOk.step {α : Type} {buffered : Bool} {n r0 : Nat} {s t : State D α} (hr : r0 < n)
    (h : NeverOk (s.procs r0).prog) (hst : Step buffered n s t) : NeverOk (t.procs r0).prog := by
  have upd : ∀ (r : Nat) (p : Proc D α), (r = r0 → NeverOk p.prog) →
      NeverOk (Function.update s.procs r p r0).prog := by
    intro r p hp
    rw [Function.update_apply]
    split
    · rename_i h; exact hp h.symm
    · exact h
  have rcv : ∀ (r src : Nat) (pre post : List (Nat × Msg D)) (k : Prog D α),
      (r = r0 → NeverOk k) → NeverOk ((s.received r src pre post k).procs r0).prog := by
    intro r src pre post k hk
    simp only [State.received, State.setProc, Function.update_apply]
    split
    · rename_i h; exact hk h.symm
    · rw [release_prog]; exact h
  cases hst with
  | send hrn hp =>
    simp only [State.setProc, State.setNet]
    refine upd _ _ ?_
    rintro rfl; rw [hp] at h; exact h
  | buffer _ hrn hp =>
    simp only [State.setProc]
    refine upd _ _ ?_
    rintro rfl; exact h
  | probe hrn hp _ _ =>
    simp only [State.setProc]
    refine upd _ _ ?_
    rintro rfl; rw [hp] at h; exact h _
  | recv hrn hp _ _ => refine rcv _ _ _ _ _ ?_; rintro rfl; rw [hp] at h; exact h _
  | recvAny hrn hp _ _ => refine rcv _ _ _ _ _ ?_; rintro rfl; rw [hp] at h; exact h _
  | barrier hp =>
    simp only [if_pos hr]
    have := hp r0 hr
    rw [this] at h
    exact h

theorem NeverOk.not_finished {α : Type} {buffered : Bool} {n r0 i : Nat} {progs : Nat → Prog D α}
    {s : State D α} (hr : r0 < n) (h : NeverOk (progs r0))
    (he : Exec buffered n i (State.start progs) s) (out : Nat → α) : ¬ Finished n s out := by
  have key : NeverOk (s.procs r0).prog := by
    generalize hs : State.start progs = s0 at he
    induction he with
    | nil => subst hs; exact h
    | snoc _ hst ih => exact (ih hs).step hr hst
  intro hf
  rw [hf r0 hr] at key
  exact key _ rfl

end QED.Mpi
