import Verif.Lemmas.MpiRun
import Verif.Props.Output

set_option autoImplicit false
set_option linter.unusedSectionVars false

/-!
# Output with several ranks (C55, C56)

`Spec/Mpi.lean` says what the master should write. `Exec true n i s t` is an execution of `i` steps of
`n` ranks in which the library may or may not buffer messages; `Step false` is a step that is possible
without any buffering. `Stored m ev` says that `m` is the manager of a rank after the calls for the
events `ev`.

In the model the file is a `Sink`. With `Sink.total` every write succeeds and the result is whatever
the functions `group`, `put` and `hist` make of it; `Sink.h5` is the file of the code.
-/

namespace QED

open Dbl OutMgr OutSpec Mpi
open _root_.QED.MpiSpec

variable {D L : Type} [Dbl D]

/-- One source of a run: whether its events are written, and for each rank the manager and the
events. -/
structure RunSource (D : Type) where
  out : Bool
  mgr : Nat → OutMgr D
  ev : Nat → RankEvents D

/-- What all sources together should add to the output. -/
def putSources (n : Nat) (group : L → L) (put : L → String → Nat → List (Option D) → L) :
    List (RunSource D) → L → L
  | [], l => l
  | s :: rest, l => putSources n group put rest (if s.out then putSource n group put s.ev l else l)

theorem foldl_put (n : Nat) (group : L → L) (put : L → String → Nat → Buf D → L) :
    ∀ (srcs : List (RunSource D)) (l : L),
      (srcs.map fun s => sourceOf s.out s.mgr s.ev).foldl (Source.put n group put) l =
        putSources n group put srcs l := by
  intro srcs
  induction srcs with
  | nil => intro l; rfl
  | cons s srcs ih =>
    intro l
    simp only [List.map_cons, List.foldl_cons, putSources]
    rw [sourceOf_put, ih]

theorem run_stored {n : Nat} (hn : 0 < n) (group : L → L) (put : L → String → Nat → Buf D → L)
    (hist : L → Hist D → List D → L) (srcs : List (RunSource D)) (hs : List (Nat → Hist D)) (l : L)
    (hsrc : ∀ s ∈ srcs, (∀ r < n, Stored (s.mgr r) (s.ev r)) ∧ Fits n s.ev)
    (hh : ∀ h ∈ hs, GoodHist n h) :
    ∃ N, ∀ i s, Exec true n i (State.start fun r => runRank (Sink.total group put hist) n r
        (srcs.map fun s => (s.out, s.mgr r)) (hs.map fun h => h r) l) s → i ≤ N ∧
      ((∃ a, HistsPut n hist hs (putSources n group put srcs l) a ∧
        Finished n s (fun r => if r = 0 then a else l)) ∨ ∃ t, Step false n s t) := by
  have h := run_every hn group put hist (srcs.map fun s => sourceOf s.out s.mgr s.ev) hs l
    (by
      intro s hs
      obtain ⟨s', hs', rfl⟩ := List.mem_map.1 hs
      exact sourceOf_good (hsrc s' hs').1 (hsrc s' hs').2) hh
  rw [foldl_put] at h
  simpa [List.map_map, Function.comp_def, sourceOf] using h

/-! ## C55 -/

/-- C55 for the messages and the tables that are handed to the file. For every number of ranks and
any sources: there is a bound on the length of all executions; as long as the ranks have not all ended
normally some rank can go on, even if no message is ever buffered; and when they have, the result on
the master is, source after source, the tables with the rows of rank 0, 1, 2, ... in this order.
What is missing is the writing itself (`C55_refuted`) and tables with `2 ^ 28` or more rows
(`C55_many_rows_refuted`). -/
theorem C55_partial {n : Nat} (hn : 0 < n) (group : L → L)
    (put : L → String → Nat → List (Option D) → L) (hist : L → Hist D → List D → L)
    (srcs : List (RunSource D)) (l : L)
    (hsrc : ∀ s ∈ srcs, (∀ r < n, Stored (s.mgr r) (s.ev r)) ∧ Fits n s.ev) :
    ∃ N, ∀ i s, Exec true n i (State.start fun r => runRank (Sink.total group put hist) n r
        (srcs.map fun s => (s.out, s.mgr r)) [] l) s → i ≤ N ∧
      (Finished n s (fun r => if r = 0 then putSources n group put srcs l else l) ∨
        ∃ t, Step false n s t) := by
  obtain ⟨N, hN⟩ := run_stored hn group put hist srcs [] l hsrc (by simp)
  refine ⟨N, fun i s he => ?_⟩
  obtain ⟨h1, ⟨a, ha, hf⟩ | h⟩ := hN i s he
  · exact ⟨h1, .inl ((show a = _ from ha) ▸ hf)⟩
  · exact ⟨h1, .inr h⟩

theorem masterEvents_never (n : Nat) (m : OutMgr D) (done : Bool) :
    NeverOk (masterEvents Sink.h5 n m (H5.empty, done)) := by
  unfold masterEvents
  have hg : (Sink.h5 : Sink D _).group (H5.empty, done) = .ok (H5.empty, true) := by
    simp only [Sink.h5]
    rw [addGroup_or _ _ (by simp)]
    rfl
  rw [hg, lift_ok_bind]
  refine NeverOk.bind _ _ ?_
  rintro ⟨sizes, total⟩
  refine NeverOk.bind _ _ fun prime => NeverOk.bind _ _ fun prime => NeverOk.bind _ _ fun prime => ?_
  have ht : (Sink.h5 : Sink D _).table (H5.empty, true) "Primary" (total.tdiv 8).toNat prime =
      .throw "H5::FileIException" := by
    simp only [Sink.h5]
    rw [H5.addArray2D, empty_createDataSet _ _ _ _ (by simp [sourcePath])]
    rfl
  rw [ht]
  exact NeverOk.left _ _ (fun a h => by cases h)

/-- C55 is false of the file: whatever the ranks hold, whatever the schedule, once the events of a
source are to be written to a new file, the ranks never all end normally. -/
theorem C55_refuted {n : Nat} (hn : 0 < n) (buffered : Bool) (m : Nat → OutMgr D)
    (rest : Nat → List (Bool × OutMgr D)) (hs : Nat → List (Hist D)) (i : Nat)
    (s : State D (H5 D × Bool))
    (he : Exec buffered n i (State.start fun r => runRank Sink.h5 n r ((true, m r) :: rest r) (hs r)
      (H5.empty, false)) s) (out : Nat → H5 D × Bool) : ¬ Finished n s out := by
  refine NeverOk.not_finished hn ?_ he out
  unfold runRank runSources
  refine NeverOk.left _ _ (NeverOk.left _ _ ?_)
  simp only [outputEventsMPI, if_true]
  exact masterEvents_never n (m 0) false

theorem lift_throw_bind {α β : Type} (w : String) (f : α → Prog D β) :
    (lift (.throw w) >>= f) = .ret (.throw w) := (id rfl : _)

theorem i32_negative {k : Nat} (h1 : 2 ^ 28 ≤ k) (h2 : k < 2 ^ 29) :
    i32 ((k * 8 : Nat) : Int) < 0 := by
  unfold i32
  rw [Int.bmod_def]
  norm_num at h1 h2 ⊢
  split <;> omega

/-- With `2 ^ 28` or more primaries (and fewer than `2 ^ 29`) on a single rank the size of the array is
negative, and the output ends in an exception although every write would succeed. -/
theorem C55_many_rows_refuted (group : L → L) (put : L → String → Nat → List (Option D) → L)
    (hist : L → Hist D → List D → L) (m : OutMgr D) (l : L) (h1 : 2 ^ 28 ≤ m.primary.length)
    (h2 : m.primary.length < 2 ^ 29) :
    masterEvents (Sink.total group put hist) 1 m l = .ret (.throw "std::bad_array_new_length") := by
  have hs := i32_negative h1 h2
  unfold masterEvents
  generalize i32 ((m.primary.length * 8 : Nat) : Int) = z at hs ⊢
  have hn : (newInt z : Res (Buf D)) = .throw "std::bad_array_new_length" := by
    unfold newInt
    rw [if_neg (by omega)]
  have hg : (Sink.total group put hist).group l = .ok (group l) := rfl
  have hp : (probeSizes (1 - 1) 1 z : Prog D _) = .ret (.ok ([], z)) := rfl
  rw [hg, lift_ok_bind, hp, ret_ok_bind]
  dsimp only
  rw [hn, lift_throw_bind]

namespace Witness

/-- The events of `calls2`. -/
noncomputable def events2 : RankEvents ℝ :=
  ⟨(List.range 2).map fun _ => photon, (List.range 2).map fun j => (fin2 j).items⟩

theorem stored2 : ∃ m, Stored m events2 := by
  obtain ⟨h1, -, h3, h4, h5⟩ := calls2_ok
  have hfin : ∀ j < 2, (fin2 j).items.length < 2 ^ 29 := by
    intro j hj
    have : j = 0 ∨ j = 1 := by omega
    rcases this with rfl | rfl <;> norm_num [fin2]
  obtain ⟨m0, -⟩ := new_file (none : Option (OutUnits ℝ))
  obtain ⟨m, hm, -⟩ := stored m0 2 start2 fin2 (fun _ => Witness.photon) h1 hfin calls2 h3 h4 h5
  exact ⟨m, m0, 2, start2, fin2, fun _ => Witness.photon, calls2, h1, h3, h4, h5, hfin, hm, rfl, rfl⟩

/-- All ranks store these events. -/
noncomputable def ranks2 : Nat → RankEvents ℝ := fun _ => events2

theorem fits2 : Fits 3 ranks2 := by
  constructor
  · simp [gather, ranks2, events2, primaryTable, List.range_succ]
  · intro k
    cases k <;>
      simp [gather, ranks2, events2, table, speciesRows, List.range_succ, fin2, photon,
        Particle.newPhotonE, Particle.newLepton, Particle.new, Particle.leptonKind]

end Witness

/-- The hypotheses of C55 and C56 hold of three ranks, two sources and two histograms with different
values on the ranks. -/
example : ∃ (srcs : List (RunSource ℝ)) (hs : List (Nat → Hist ℝ)), srcs.length = 2 ∧ hs.length = 2 ∧
    (∀ s ∈ srcs, (∀ r < 3, Stored (s.mgr r) (s.ev r)) ∧ Fits 3 s.ev) ∧
    (∀ h ∈ hs, (h 0).nBins < 2 ^ 31 ∧
      ∀ r < 3, (h r).nBins = (h 0).nBins ∧ (h r).values.length = (h 0).nBins) := by
  obtain ⟨m, hm⟩ := Witness.stored2
  refine ⟨[⟨true, fun _ => m, Witness.ranks2⟩, ⟨false, fun _ => m, Witness.ranks2⟩],
    [fun r => ⟨"a", "Energy", "Electron", 2, 0, 0, [1, 2], [r, 2 * r]⟩,
      fun r => ⟨"b", "Energy", "Electron", 1, 0, 0, [1], [r + 5]⟩], rfl, rfl, ?_, ?_⟩
  · intro s hs
    simp only [List.mem_cons, List.not_mem_nil, or_false] at hs
    rcases hs with rfl | rfl <;> exact ⟨fun r _ => hm, Witness.fits2⟩
  · intro h hh
    simp only [List.mem_cons, List.not_mem_nil, or_false] at hh
    rcases hh with rfl | rfl <;> simp

/-- Such a number of primaries. -/
example (m : OutMgr ℝ) : ∃ m' : OutMgr ℝ, 2 ^ 28 ≤ m'.primary.length ∧ m'.primary.length < 2 ^ 29 :=
  ⟨m.initSource (2 ^ 28), by simp [initSource, -List.reduceReplicate]⟩

/-! ## C56 -/

/-- C56 for the values that are handed to the file, in exact arithmetic. For every number of ranks, any
sources before and any number of histograms: every execution is finite, some rank can always go on
until all have ended normally, and then each histogram that the master has written holds in every bin
the sum of that bin of that histogram over all ranks. What is missing is the writing itself
(`C56_refuted`) and floating-point arithmetic, where the sum depends on the order of arrival
(`C56_order_partial`). -/
theorem C56_partial {n : Nat} (hn : 0 < n) (group : L → L)
    (put : L → String → Nat → List (Option ℝ) → L) (hist : L → Hist ℝ → List ℝ → L)
    (srcs : List (RunSource ℝ)) (hs : List (Nat → Hist ℝ)) (l : L)
    (hsrc : ∀ s ∈ srcs, (∀ r < n, Stored (s.mgr r) (s.ev r)) ∧ Fits n s.ev)
    (hh : ∀ h ∈ hs, (h 0).nBins < 2 ^ 31 ∧
      ∀ r < n, (h r).nBins = (h 0).nBins ∧ (h r).values.length = (h 0).nBins) :
    ∃ N, ∀ i s, Exec true n i (State.start fun r => runRank (Sink.total group put hist) n r
        (srcs.map fun s => (s.out, s.mgr r)) (hs.map fun h => h r) l) s → i ≤ N ∧
      (Finished n s (fun r => if r = 0 then
          hs.foldl (fun l h => hist l (h 0) (binSums n h)) (putSources n group put srcs l) else l) ∨
        ∃ t, Step false n s t) := by
  obtain ⟨N, hN⟩ := run_stored hn group put hist srcs hs l hsrc hh
  have key : ∀ (hs : List (Nat → Hist ℝ)) (l a : L), (∀ h ∈ hs, GoodHist n h) →
      HistsPut n hist hs l a → a = hs.foldl (fun l h => hist l (h 0) (binSums n h)) l := by
    intro hs
    induction hs with
    | nil => intro l a _ h; exact h
    | cons h hs ih =>
      rintro l a hg ⟨order, ho, ha⟩
      rw [sumIn_binSums hn (hg h (by simp)) ho] at ha
      exact ih _ _ (fun x hx => hg x (by simp [hx])) ha
  refine ⟨N, fun i s he => ?_⟩
  obtain ⟨h1, ⟨a, ha, hf⟩ | h⟩ := hN i s he
  · exact ⟨h1, .inl (key hs _ a hh ha ▸ hf)⟩
  · exact ⟨h1, .inr h⟩

/-- C56 for any arithmetic: the values of each histogram are those of the master with those of the
other ranks added, each rank once, in some order. -/
theorem C56_order_partial {n : Nat} (hn : 0 < n) (group : L → L)
    (put : L → String → Nat → List (Option D) → L) (hist : L → Hist D → List D → L)
    (srcs : List (RunSource D)) (h : Nat → Hist D) (l : L)
    (hsrc : ∀ s ∈ srcs, (∀ r < n, Stored (s.mgr r) (s.ev r)) ∧ Fits n s.ev)
    (hh : (h 0).nBins < 2 ^ 31 ∧
      ∀ r < n, (h r).nBins = (h 0).nBins ∧ (h r).values.length = (h 0).nBins) :
    ∃ N, ∀ i s, Exec true n i (State.start fun r => runRank (Sink.total group put hist) n r
        (srcs.map fun s => (s.out, s.mgr r)) [h r] l) s → i ≤ N ∧
      ((∃ order : List Nat, order.Perm (List.range' 1 (n - 1)) ∧
        Finished n s (fun r => if r = 0 then
          hist (putSources n group put srcs l) (h 0)
            (order.foldl (fun acc j => List.zipWith (· +. ·) acc (h j).values) (h 0).values)
          else l)) ∨ ∃ t, Step false n s t) := by
  obtain ⟨N, hN⟩ := run_stored hn group put hist srcs [h] l hsrc
    (fun x hx => by rw [List.mem_singleton.1 hx]; exact hh)
  refine ⟨N, fun i s he => ?_⟩
  obtain ⟨h1, ⟨a, ⟨order, ho, ha⟩, hf⟩ | h⟩ := hN i s he
  · exact ⟨h1, .inl ⟨order, ho, (show a = _ from ha) ▸ hf⟩⟩
  · exact ⟨h1, .inr h⟩

/-- C56 is false of the file: with at least one histogram the ranks never all end normally, whatever
is in the file and whatever the schedule. -/
theorem C56_refuted {n : Nat} (hn : 0 < n) (buffered : Bool) (srcs : Nat → List (Bool × OutMgr D))
    (h : Nat → Hist D) (rest : Nat → List (Hist D)) (l : H5 D × Bool) (i : Nat)
    (s : State D (H5 D × Bool))
    (he : Exec buffered n i (State.start fun r => runRank Sink.h5 n r (srcs r) (h r :: rest r) l) s)
    (out : Nat → H5 D × Bool) : ¬ Finished n s out := by
  refine NeverOk.not_finished hn ?_ he out
  unfold runRank
  refine NeverOk.bind _ _ fun l => ?_
  simp only [runHists, outputHistMPI, if_true]
  refine NeverOk.left _ _ (NeverOk.left _ _ ?_)
  unfold masterHist
  refine NeverOk.bind _ _ fun v => NeverOk.bind _ _ fun values => ?_
  have : ∀ a, (Sink.h5 : Sink D _).hist l (h 0) values ≠ .ok a := by
    intro a ha
    simp only [Sink.h5] at ha
    obtain ⟨f1, h1, h2⟩ := bind_eq_ok.1 ha
    obtain ⟨f2, h3, -⟩ := bind_eq_ok.1 h2
    have := addGroup_then_set l.1 ["Histograms", (h 0).name] "BinCentres" [(h 0).nBins]
      ((h 0).centres.map some) (h 0).nBins
    rw [h1, Res.ok_bind] at this
    unfold H5.addArray1D at h3
    rw [this] at h3
    cases h3
  exact this

end QED
