import Verif.Lemmas.OutputRun
import Verif.Lemmas.Witness
import Verif.Lemmas.Input
import Verif.Props.Histogram
import Mathlib.Tactic.NormNum

set_option autoImplicit false
set_option linter.unusedSectionVars false

/-!
# The output file (C51–C54, C80)

`OutSpec.table` (in `Spec/Output.lean`) says what the table of a species should contain. A source
with `n` events gives rise to one `storePrimary` call and one `storeFinal` call per event; with
several threads they come in any order. `StoreCall n start fin c` says that `c` is one of these calls
(or a `storeTrack` call), where `start j` and `fin j` are the particle lists at the start and at the
end of event `j`.
-/

namespace QED

open Dbl OutMgr OutSpec MCTools

variable {D : Type} [Dbl D]

/-! ## C54 -/

/-- C54 is false of every file and every name: `AddGroup` never ends with the group in the file. -/
theorem C54_refuted (f : H5 D) (p : Path) :
    ¬ ∃ f', f.addGroup p = .ok f' ∧ f'.hasGroup p = true := by
  rintro ⟨f', h, hg⟩
  rw [H5.addGroup_eq] at h
  split at h
  · cases h
  · rename_i hn
    injection h with h
    subst h
    exact hn (by simp [H5.exists_, hg])

/-- What `AddGroup` does instead: it leaves the file alone if the name is new and throws if it is
taken. -/
theorem C54_exact (f : H5 D) (p : Path) :
    ((f.hasGroup p = true ∨ ∃ d, (p, d) ∈ f.sets) → f.addGroup p = .throw "H5::FileIException") ∧
    (f.hasGroup p = false → (∀ d, (p, d) ∉ f.sets) → f.addGroup p = .ok f) := by
  rw [H5.addGroup_eq]
  constructor
  · rintro (h | ⟨d, h⟩)
    · rw [if_pos (by simp [H5.exists_, h])]
    · rw [if_pos]
      simp only [H5.exists_, H5.hasSet, Bool.or_eq_true, List.any_eq_true, decide_eq_true_eq]
      exact Or.inr ⟨_, h, rfl⟩
  · intro h1 h2
    rw [if_neg]
    simp only [H5.exists_, H5.hasSet, h1, Bool.false_or, List.any_eq_true, decide_eq_true_eq]
    rintro ⟨⟨q, d⟩, hm, rfl⟩
    exact h2 d hm

/-- A new file and a file with one group. -/
example : (H5.empty : H5 ℝ).addGroup ["Particles"] = .ok H5.empty ∧
    (⟨[["Particles"]], []⟩ : H5 ℝ).addGroup ["Particles"] = .throw "H5::FileIException" := by
  constructor <;> rfl

/-! ## C51 -/

theorem length_le_sum (n : Nat) (f : Nat → Nat) (j : Nat) (hj : j < n) :
    f j ≤ ((List.range n).map f).sum :=
  List.le_sum_of_mem (List.mem_map.2 ⟨j, List.mem_range.2 hj, rfl⟩)

/-- C51 for the arrays that are handed to the file: in whatever order the calls for the events are
made, none of them fails, and afterwards the array of primaries and the arrays of the three species
contain exactly the rows they should. What is missing is the writing itself (`C51_refuted`) and
sources with `2 ^ 29` or more rows (`C51_many_rows_refuted`). -/
theorem C51_tables_partial (m : OutMgr D) (n : Nat) (start fin : Nat → PList D)
    (first : Nat → Particle D) (hstart : ∀ j < n, (start j).items[0]? = some (first j))
    (hn : n ≤ 2 ^ 29) (hsum : ((List.range n).map fun j => (fin j).items.length).sum < 2 ^ 29)
    (cs : List (Call D)) (hcs : ∀ c ∈ cs, StoreCall n start fin c)
    (hp : ∀ j < n, Call.storePrimary (start j) j ∈ cs)
    (hf : ∀ j < n, Call.storeFinal (fin j) j ∈ cs) :
    ∃ m', (m.initSource n).calls cs = .ok m' ∧
      m'.primary.length = n ∧
      copyPrimary m'.primary 0 (Buf.new (n * 8)) =
        .ok ((primaryTable ((List.range n).map first)).flatten.map some) ∧
      (let events := (List.range n).map fun j => (fin j).items
       speciesTable m'.electron m'.electronCount =
         .ok ((table .electron events).length, (table .electron events).flatten.map some) ∧
       speciesTable m'.positron m'.positronCount =
         .ok ((table .positron events).length, (table .positron events).flatten.map some) ∧
       speciesTable m'.photon m'.photonCount =
         .ok ((table .photon events).length, (table .photon events).flatten.map some)) := by
  obtain ⟨m', hm', hfile, hb, h1, h2, h3, h4, h5, h6, h7⟩ := stored m n start fin first hstart
    (fun j hj => lt_of_le_of_lt (length_le_sum n (fun j => (fin j).items.length) j hj) hsum) cs hcs
    hp hf
  have hl : (primaryTable ((List.range n).map first)).length = n := by simp [primaryTable]
  refine ⟨m', hm', by rw [h1]; simpa using hl, ?_, ?_⟩
  · have := copyPrimary_eq (primaryTable ((List.range n).map first)) (primaryTable_eight _) []
      (by simp [Eight]) (by simpa [hl] using hn)
    rw [h1]
    simpa [full, hl, Buf.new] using this
  · simp only [table_rowsOf]
    rw [h2, h3, h4, h5, h6, h7]
    exact ⟨speciesTable_eq _ (rowsOf_eight _ _ _) (lt_of_le_of_lt (total_le _ _ _) hsum),
      speciesTable_eq _ (rowsOf_eight _ _ _) (lt_of_le_of_lt (total_le _ _ _) hsum),
      speciesTable_eq _ (rowsOf_eight _ _ _) (lt_of_le_of_lt (total_le _ _ _) hsum)⟩

/-- The row counts of the three tables add up to the number of stored particles. -/
theorem C51_counts (events : List (List (Particle D))) :
    (table .electron events).length + (table .positron events).length +
      (table .photon events).length = (events.map List.length).sum := by
  have key : ∀ (es : List (List (Particle D))) (i : Nat),
      ((es.zipIdx i).map fun e => speciesRows .electron e.2 e.1).flatten.length +
      ((es.zipIdx i).map fun e => speciesRows .positron e.2 e.1).flatten.length +
      ((es.zipIdx i).map fun e => speciesRows .photon e.2 e.1).flatten.length =
        (es.map List.length).sum := by
    intro es
    induction es with
    | nil => intro i; simp
    | cons e es ih =>
      intro i
      have h1 : ∀ l : List (Particle D), (speciesRows .electron i l).length +
          (speciesRows .positron i l).length + (speciesRows .photon i l).length = l.length := by
        intro l
        induction l with
        | nil => simp [speciesRows]
        | cons p ps ihp =>
          simp only [speciesRows, List.length_map] at ihp ⊢
          cases hk : p.kind <;> simp [hk] <;> omega
      have := ih (i + 1)
      have := h1 e
      simp only [List.zipIdx_cons, List.map_cons, List.flatten_cons, List.length_append,
        List.sum_cons]
      omega
  exact key events 0

/-- C51 in the file, if the groups were there: the four tables, those without rows left out. -/
theorem C51_file_partial (m : OutMgr D) (n : Nat) (start fin : Nat → PList D)
    (first : Nat → Particle D) (hstart : ∀ j < n, (start j).items[0]? = some (first j))
    (hn : n ≤ 2 ^ 29) (hsum : ((List.range n).map fun j => (fin j).items.length).sum < 2 ^ 29)
    (cs : List (Call D)) (hcs : ∀ c ∈ cs, StoreCall n start fin c)
    (hp : ∀ j < n, Call.storePrimary (start j) j ∈ cs)
    (hf : ∀ j < n, Call.storeFinal (fin j) j ∈ cs)
    (hgroup : ["Particles", "ParticleSource"] ∈ m.file.groups) (hbool : m.sourceBool = true)
    (hfree : ∀ name, m.file.exists_ ["Particles", "ParticleSource", name] = false) :
    ∃ m' m'', (m.initSource n).calls cs = .ok m' ∧ m'.outputEvents true false = .ok m'' ∧
      (let events := (List.range n).map fun j => (fin j).items
       let entry := fun (name : String) (rows : List (List D)) =>
         (["Particles", "ParticleSource", name], (⟨[rows.length, 8], rows.flatten⟩ : DataSet D))
       let some_rows := fun (name : String) (rows : List (List D)) =>
         if rows = [] then [] else [entry name rows]
       m''.file.sets = m.file.sets ++ [entry "Primary" (primaryTable ((List.range n).map first))] ++
         some_rows "Electrons" (table .electron events) ++
         some_rows "Positrons" (table .positron events) ++
         some_rows "Photons" (table .photon events)) := by
  obtain ⟨m', hm', hfile, hb, h1, h2, h3, h4, h5, h6, h7⟩ := stored m n start fin first hstart
    (fun j hj => lt_of_le_of_lt (length_le_sum n (fun j => (fin j).items.length) j hj) hsum) cs hcs
    hp hf
  have hl : (primaryTable ((List.range n).map first)).length = n := by simp [primaryTable]
  have hprim : copyPrimary m'.primary 0 (Buf.new (m'.primary.length * 8)) =
      .ok (full (primaryTable ((List.range n).map first))) := by
    have := copyPrimary_eq (primaryTable ((List.range n).map first)) (primaryTable_eight _) []
      (by simp [Eight]) (by simpa [hl] using hn)
    rw [h1]
    simpa [full, hl, Buf.new] using this
  have hlen : m'.primary.length = (primaryTable ((List.range n).map first)).length := by
    rw [h1]; simp
  -- adding one table
  have hadd : ∀ (f : H5 D) (rows : List (List D)) (name : String), Eight rows →
      ["Particles", "ParticleSource"] ∈ f.groups → f.exists_ (sourcePath name) = false →
      addTable f (rows.length, full rows) name = .ok { f with sets := f.sets ++
        if rows = [] then [] else [(sourcePath name, ⟨[rows.length, 8], rows.flatten⟩)] } := by
    intro f rows name h8 hg hx
    unfold addTable
    by_cases hr : rows = []
    · subst hr; simp
    · rw [if_pos (List.length_pos_iff.2 hr), addTable_rows f rows h8 _ hx
        (by simp [sourcePath, H5.hasGroup, hg]), if_neg hr]
  have hstill : ∀ (f : H5 D) (p q : Path) (d : DataSet D) (rows : List (List D)), q ≠ p →
      ({ f with sets := f.sets ++ if rows = [] then [] else [(q, d)] } : H5 D).exists_ p =
        f.exists_ p := by
    intro f p q d rows hq
    by_cases hr : rows = []
    · subst hr; simp [H5.exists_, H5.hasGroup, H5.hasSet]
    · rw [if_neg hr]; exact H5.exists_append f p q d hq
  refine ⟨m', ?_⟩
  unfold outputEvents outputSourceIf outputSource groupOnce
  rw [if_pos rfl, if_neg (by rw [hb]; simp [hbool]), hprim, hlen, hfile]
  simp only [Res.ok_bind]
  rw [addTable_rows m.file _ (primaryTable_eight _) (sourcePath "Primary") (hfree _)
    (by simp [sourcePath, H5.hasGroup, hgroup]), Res.ok_bind, h2, h3, h4, h5, h6, h7,
    speciesTable_eq _ (rowsOf_eight _ _ _) (lt_of_le_of_lt (total_le _ _ _) hsum), Res.ok_bind,
    speciesTable_eq _ (rowsOf_eight _ _ _) (lt_of_le_of_lt (total_le _ _ _) hsum), Res.ok_bind,
    speciesTable_eq _ (rowsOf_eight _ _ _) (lt_of_le_of_lt (total_le _ _ _) hsum), Res.ok_bind,
    hadd _ _ "Electrons" (table_eight _ _ _) (by exact hgroup) (by
      rw [H5.exists_append _ _ _ _ (by simp [sourcePath])]; exact hfree _), Res.ok_bind,
    hadd _ _ "Positrons" (table_eight _ _ _) (by exact hgroup) (by
      rw [hstill _ _ _ _ _ (by simp [sourcePath]), H5.exists_append _ _ _ _ (by simp [sourcePath])]
      exact hfree _), Res.ok_bind,
    hadd _ _ "Photons" (table_eight _ _ _) (by exact hgroup) (by
      rw [hstill _ _ _ _ _ (by simp [sourcePath]), hstill _ _ _ _ _ (by simp [sourcePath]),
        H5.exists_append _ _ _ _ (by simp [sourcePath])]
      exact hfree _), Res.ok_bind]
  refine ⟨_, hm', rfl, ?_⟩
  simp only [table_rowsOf, sourcePath]

/-- C51 and C53 are false of the file: for every source, the output of its events by a manager fresh
from its constructor ends in an uncaught exception. -/
theorem C51_refuted (u : Option (OutUnits D)) (n : Nat) (start fin : Nat → PList D)
    (first : Nat → Particle D) (hstart : ∀ j < n, (start j).items[0]? = some (first j))
    (hn : n ≤ 2 ^ 29) (hsum : ((List.range n).map fun j => (fin j).items.length).sum < 2 ^ 29)
    (cs : List (Call D)) (hcs : ∀ c ∈ cs, StoreCall n start fin c)
    (hp : ∀ j < n, Call.storePrimary (start j) j ∈ cs)
    (hf : ∀ j < n, Call.storeFinal (fin j) j ∈ cs) (track : Bool) :
    ∃ m m', OutMgr.new u = .ok m ∧ (m.initSource n).calls cs = .ok m' ∧
      m'.outputEvents true track = .throw "H5::FileIException" := by
  obtain ⟨m, hm, hfile, -⟩ := new_file u
  obtain ⟨m', hm', hlen, hprim, -⟩ := C51_tables_partial m n start fin first hstart hn hsum cs hcs
    hp hf
  have hempty : m'.file = H5.empty := calls_post kept_empty cs (m.initSource n) hfile m' hm'
  refine ⟨m, m', hm, hm', ?_⟩
  unfold outputEvents outputSourceIf outputSource
  rw [if_pos rfl, hempty, addGroup_or _ _ (by simp), hlen, hprim]
  simp only [Res.ok_bind]
  rw [H5.addArray2D, empty_createDataSet _ _ _ _ (by simp [sourcePath])]
  rfl

/-- With `2 ^ 29` or more rows of a species the size of the array overflows and the copy writes
outside it. -/
theorem C51_many_rows_refuted (m : OutMgr D) (n : Nat) (start fin : Nat → PList D)
    (first : Nat → Particle D) (hstart : ∀ j < n, (start j).items[0]? = some (first j))
    (hfin : ∀ j < n, (fin j).items.length < 2 ^ 29) (cs : List (Call D))
    (hcs : ∀ c ∈ cs, StoreCall n start fin c) (hp : ∀ j < n, Call.storePrimary (start j) j ∈ cs)
    (hf : ∀ j < n, Call.storeFinal (fin j) j ∈ cs)
    (hmany : 2 ^ 29 ≤ (table .photon ((List.range n).map fun j => (fin j).items)).length)
    (hless : (table .photon ((List.range n).map fun j => (fin j).items)).length < 2 ^ 32) :
    ∃ m', (m.initSource n).calls cs = .ok m' ∧
      speciesTable m'.photon m'.photonCount = .ub "out-of-bounds write" := by
  obtain ⟨m', hm', -, -, -, -, -, -, -, h6, h7⟩ := stored m n start fin first hstart hfin cs hcs hp hf
  have ht : total (rowsOf .photon n fin) =
      (table .photon ((List.range n).map fun j => (fin j).items)).length := by
    rw [table_rowsOf]; simp [total]
  refine ⟨m', hm', ?_⟩
  rw [h6, h7]
  refine speciesTable_over _ (fun e he => ⟨rowsOf_eight _ _ _ e he, ?_⟩) (ht ▸ hmany) (ht ▸ hless)
  simp only [rowsOf, List.mem_map, List.mem_range] at he
  obtain ⟨j, hj, rfl⟩ := he
  exact lt_of_le_of_lt (speciesRows_le _ _ _) (hfin j hj)

/-- Such a source: `2 ^ 29` events, each with one photon. -/
example : ∃ (n : Nat) (fin : Nat → PList ℝ), (∀ j < n, (fin j).items.length < 2 ^ 29) ∧
    2 ^ 29 ≤ (table .photon ((List.range n).map fun j => (fin j).items)).length ∧
    (table .photon ((List.range n).map fun j => (fin j).items)).length < 2 ^ 32 := by
  refine ⟨2 ^ 29, fun _ => ⟨"0", 10, [Witness.photon]⟩, fun _ _ => by simp, ?_⟩
  have : ∀ n, (table .photon ((List.range n).map fun _ => [Witness.photon])).length = n := by
    intro n
    have := table_rowsOf .photon n (fun _ => (⟨"0", 10, [Witness.photon]⟩ : PList ℝ))
    simp only at this
    rw [this]
    have hs : ∀ j, (speciesRows .photon j [Witness.photon]).length = 1 := fun j => by
      simp [speciesRows, Witness.photon, Particle.newPhotonE, Particle.new]
    simp [rowsOf, Function.comp_def, hs]
  simp only [this]
  norm_num

namespace Witness

/-- Two events: one ends as it began, the other with an additional electron. -/
noncomputable def fin2 : Nat → PList ℝ
  | 0 => ⟨"0", 10, [photon, .newLepton 1 (-1) ⟨0, 0, 0⟩ ⟨0, 0, 3⟩ 1 0 true 0]⟩
  | _ => ⟨"0", 10, [photon]⟩

noncomputable def start2 : Nat → PList ℝ := fun _ => ⟨"0", 10, [photon]⟩

/-- The calls of the two events, interleaved. -/
noncomputable def calls2 : List (Call ℝ) :=
  [.storePrimary (start2 1) 1, .storePrimary (start2 0) 0, .storeFinal (fin2 1) 1,
    .storeTrack (fin2 1) 1, .storeFinal (fin2 0) 0, .storeTrack (fin2 0) 0]

end Witness

open Witness in
/-- The hypotheses of C51 hold of two interleaved events. -/
theorem Witness.calls2_ok : (∀ j < 2, (start2 j).items[0]? = some Witness.photon) ∧
    ((List.range 2).map fun j => (fin2 j).items.length).sum < 2 ^ 29 ∧
    (∀ c ∈ calls2, StoreCall 2 start2 fin2 c) ∧
    (∀ j < 2, Call.storePrimary (start2 j) j ∈ calls2) ∧
    (∀ j < 2, Call.storeFinal (fin2 j) j ∈ calls2) := by
  refine ⟨fun j _ => rfl, by simp [List.range_succ, fin2], ?_, ?_, ?_⟩
  · intro c hc
    simp only [calls2, List.mem_cons, List.not_mem_nil, or_false] at hc
    rcases hc with rfl | rfl | rfl | rfl | rfl | rfl
    · exact ⟨1, by omega, Or.inl rfl⟩
    · exact ⟨0, by omega, Or.inl rfl⟩
    · exact ⟨1, by omega, Or.inr (Or.inl rfl)⟩
    · exact ⟨1, by omega, Or.inr (Or.inr ⟨_, rfl⟩)⟩
    · exact ⟨0, by omega, Or.inr (Or.inl rfl)⟩
    · exact ⟨0, by omega, Or.inr (Or.inr ⟨_, rfl⟩)⟩
  · intro j hj
    have : j = 0 ∨ j = 1 := by omega
    rcases this with rfl | rfl <;> simp [calls2]
  · intro j hj
    have : j = 0 ∨ j = 1 := by omega
    rcases this with rfl | rfl <;> simp [calls2]

/-- A file in which the groups exist. -/
example : ∃ m : OutMgr ℝ, ["Particles", "ParticleSource"] ∈ m.file.groups ∧ m.sourceBool = true ∧
    ∀ name, m.file.exists_ ["Particles", "ParticleSource", name] = false :=
  ⟨⟨⟨[["Particles"], ["Particles", "ParticleSource"]], []⟩, none, false, false, true, [], [], [], [],
    [], [], [], []⟩, by simp, rfl, fun name => by simp [H5.exists_, H5.hasGroup, H5.hasSet]⟩

/-! ## C53, C80 -/

/-- C53 and C80 are false of every history: whatever is called on a new manager, as long as the calls
return normally the file contains nothing at all. -/
theorem C53_refuted (u : Option (OutUnits D)) {m m' : OutMgr D} (hm : OutMgr.new u = .ok m)
    (cs : List (Call D)) (h : m.calls cs = .ok m') : m'.file.groups = [] ∧ m'.file.sets = [] := by
  obtain ⟨m0, hm0, hfile, -⟩ := new_file u
  rw [hm0] at hm
  injection hm with hm
  subst hm
  rw [show m'.file = H5.empty from calls_post kept_empty cs m0 hfile m' h]
  exact ⟨rfl, rfl⟩

/-- C53 is false even of a file with all groups: once the events of one source have been written,
writing those of another never succeeds, because the name of the table is taken. -/
theorem C53_second_source_refuted {m m1 m2 m3 : OutMgr D} (t1 t2 : Bool)
    (h1 : m.outputEvents true t1 = .ok m1) (cs : List (Call D)) (h2 : m1.calls cs = .ok m2) :
    m2.outputEvents true t2 ≠ .ok m3 := by
  have hex : m1.file.exists_ (sourcePath "Primary") = true := by
    unfold outputEvents at h1
    obtain ⟨ma, ha, hb⟩ := bind_eq_ok.1 h1
    have h := (outputSource_primary m ma ha).2
    cases t1
    · simp only [Bool.false_eq_true, if_false] at hb
      injection hb with hb
      exact hb ▸ h
    · exact outputTracks_post (kept_exists _) ma h m1 hb
  have hex2 : m2.file.exists_ (sourcePath "Primary") = true :=
    calls_post (kept_exists _) cs m1 hex m2 h2
  intro h3
  unfold outputEvents at h3
  obtain ⟨ma, ha, -⟩ := bind_eq_ok.1 h3
  rw [(outputSource_primary m2 ma ha).1] at hex2
  cases hex2

/-- A history that does return normally. -/
example : ∃ m m' : OutMgr ℝ, OutMgr.new none = .ok m ∧
    m.calls [.initSource 3, .storeTrack ⟨"0", 10, []⟩ 0, .outputEvents false true] = .ok m' := by
  obtain ⟨m, hm, hf, hu, ht, _, hb, _⟩ := new_file (D := ℝ) none
  refine ⟨m, ?_⟩
  simp only [calls, call, Res.ok_bind, outputEvents, outputSourceIf, Bool.false_eq_true, if_false,
    if_true, outputTracks]
  have : (m.initSource 3).storeTrack ⟨"0", 10, []⟩ 0 = m.initSource 3 := by
    simp [storeTrack, initSource]
  rw [this]
  have hf' : (m.initSource 3).file = H5.empty := hf
  have ht' : (m.initSource 3).tracks = [] := ht
  rw [hf', addGroup_or _ _ (by simp), Res.ok_bind, ht']
  exact ⟨_, hm, rfl⟩

/-- A data set in a group that has just been asked for is never created, whatever the file. -/
theorem addGroup_then_set (f : H5 D) (p : Path) (name : String) (dims : List Nat) (b : Buf D) (n : Nat) :
    (do let f ← f.addGroup p
        f.createDataSet (p ++ [name]) dims b n) = .throw "H5::FileIException" := by
  rw [H5.addGroup_eq]
  split
  · rfl
  · rename_i h
    rw [Res.ok_bind]
    apply H5.createDataSet_throw
    right
    simp only [H5.exists_, Bool.or_eq_true, not_or, Bool.not_eq_true] at h
    simpa using h.1

/-- C80 is false of every histogram and every state of the manager: its output ends in an uncaught
exception. -/
theorem C80_histogram_refuted (m : OutMgr D) (hist : Hist D) :
    m.outputHist hist = .throw "H5::FileIException" := by
  have h := addGroup_then_set m.file ["Histograms", hist.name] "BinCentres" [hist.nBins]
    (hist.centres.map some) hist.nBins
  unfold outputHist histSets H5.addArray1D
  dsimp only
  cases hg : m.file.addGroup ["Histograms", hist.name] with
  | ok f =>
    rw [hg, Res.ok_bind] at h
    rw [Res.ok_bind, h]
    rfl
  | exit c => rw [hg] at h; cases h
  | throw w => rw [hg] at h; rw [Res.throw_bind] at h ⊢; injection h with h; rw [h]
  | ub w => rw [hg] at h; cases h

/-- The output of tracks returns only if there are none. -/
theorem C80_tracks_refuted (u : Option (OutUnits D)) {m m' : OutMgr D}
    (hm : OutMgr.new u = .ok m) (cs : List (Call D)) (h : m.calls cs = .ok m') :
    (m'.tracks = [] → ∃ m'', m'.outputEvents false true = .ok m'') ∧
    (m'.tracks ≠ [] → m'.outputEvents false true = .throw "H5::FileIException") := by
  obtain ⟨m0, hm0, hfile, -⟩ := new_file u
  rw [hm0] at hm
  injection hm with hm
  subst hm
  have he : m'.file = H5.empty := calls_post kept_empty cs m0 hfile m' h
  unfold outputEvents outputSourceIf outputTracks
  simp only [Bool.false_eq_true, if_false, if_true, Res.ok_bind]
  rw [he, addGroup_or _ _ (by simp), Res.ok_bind]
  constructor
  · intro ht
    rw [ht]
    exact ⟨_, rfl⟩
  · intro ht
    obtain ⟨t, ts, hts⟩ := List.exists_cons_of_ne_nil ht
    rw [hts]
    unfold writeTracks writeTrack trackSets
    dsimp only
    rw [empty_addGroup _ (by simp), Res.ok_bind, H5.addArray2D,
      empty_createDataSet _ _ _ _ (by simp)]
    rfl

/-! ## C52 -/

/-- C52 exactly: the photon table is the table of the photons that still exist if and only if no
photon has converted. (By C51 the photon table holds all photons of the lists.) -/
theorem C52_table_partial (events : List (List (Particle D))) :
    table .photon events = table .photon (events.map fun l => l.filter (·.isAlive)) ↔
      ∀ l ∈ events, ∀ p ∈ l, p.kind = .photon → p.isAlive = true := by
  constructor
  · intro h
    have hlen : ∀ (es : List (List (Particle D))) (i : Nat),
        ((es.zipIdx i).map fun e => speciesRows .photon e.2 e.1).flatten.length ≤
        (((es.map fun l => l.filter (·.isAlive)).zipIdx i).map
          fun e => speciesRows .photon e.2 e.1).flatten.length →
        ∀ l ∈ es, ∀ p ∈ l, p.kind = .photon → p.isAlive = true := by
      have hrow : ∀ (l : List (Particle D)) (i j : Nat),
          (speciesRows .photon i (l.filter (·.isAlive))).length ≤ (speciesRows .photon j l).length ∧
          ((speciesRows .photon j l).length ≤ (speciesRows .photon i (l.filter (·.isAlive))).length →
            ∀ p ∈ l, p.kind = .photon → p.isAlive = true) := by
        intro l i j
        induction l with
        | nil => simp [speciesRows]
        | cons p ps ih =>
          simp only [speciesRows, List.length_map] at ih ⊢
          by_cases hk : p.kind = .photon <;> by_cases ha : p.isAlive = true
          · simp only [List.filter_cons, ha, hk, if_true, decide_true, List.length_cons]
            refine ⟨by omega, fun h q hq hqk => ?_⟩
            rcases List.mem_cons.1 hq with rfl | hq
            · exact ha
            · exact ih.2 (by omega) q hq hqk
          · simp only [List.filter_cons, ha, hk, if_true, decide_true, List.length_cons,
              Bool.false_eq_true, if_false]
            exact ⟨by omega, fun h => by omega⟩
          · simp only [List.filter_cons, ha, hk, if_true, decide_false, Bool.false_eq_true, if_false]
            refine ⟨ih.1, fun h q hq hqk => ?_⟩
            rcases List.mem_cons.1 hq with rfl | hq
            · exact ha
            · exact ih.2 h q hq hqk
          · simp only [List.filter_cons, ha, hk, decide_false, Bool.false_eq_true, if_false]
            refine ⟨ih.1, fun h q hq hqk => ?_⟩
            rcases List.mem_cons.1 hq with rfl | hq
            · exact absurd hqk hk
            · exact ih.2 h q hq hqk
      have hle : ∀ (es : List (List (Particle D))) (i : Nat),
          (((es.map fun l => l.filter (·.isAlive)).zipIdx i).map
            fun e => speciesRows .photon e.2 e.1).flatten.length ≤
          ((es.zipIdx i).map fun e => speciesRows .photon e.2 e.1).flatten.length := by
        intro es
        induction es with
        | nil => intro i; simp
        | cons e es ih =>
          intro i
          have := (hrow e i i).1
          have := ih (i + 1)
          simp only [List.zipIdx_cons, List.map_cons, List.flatten_cons, List.length_append]
          omega
      intro es
      induction es with
      | nil => intro i _ l hl; simp at hl
      | cons e es ih =>
        intro i h l hl
        have h1 := hrow e i i
        have h2 := hle es (i + 1)
        simp only [List.zipIdx_cons, List.map_cons, List.flatten_cons, List.length_append] at h
        rcases List.mem_cons.1 hl with rfl | hl
        · exact h1.2 (by omega)
        · exact ih (i + 1) (by omega) l hl
    exact hlen events 0 (le_of_eq (congrArg List.length h))
  · intro h
    have hrow : ∀ (l : List (Particle D)) (i : Nat), (∀ p ∈ l, p.kind = .photon → p.isAlive = true) →
        speciesRows .photon i (l.filter (·.isAlive)) = speciesRows .photon i l := by
      intro l i hl
      simp only [speciesRows, List.filter_filter]
      congr 1
      apply List.filter_congr
      intro p hp
      by_cases hk : p.kind = .photon
      · simp [hl p hp hk]
      · simp [hk]
    have : ∀ (es : List (List (Particle D))) (i : Nat),
        (∀ l ∈ es, ∀ p ∈ l, p.kind = .photon → p.isAlive = true) →
        ((es.zipIdx i).map fun e => speciesRows .photon e.2 e.1) =
        (((es.map fun l => l.filter (·.isAlive)).zipIdx i).map
          fun e => speciesRows .photon e.2 e.1) := by
      intro es
      induction es with
      | nil => intro i _; rfl
      | cons e es ih =>
        intro i hes
        simp only [List.zipIdx_cons, List.map_cons]
        rw [hrow e i (hes e (by simp)), ih (i + 1) fun l hl => hes l (by simp [hl])]
    unfold table
    rw [this events 0 h]

/-- The event of `Witness.step_eq` with a histogram due after its end. -/
theorem Witness.event_hist :
    ∃ ph pos ele : Particle ℝ, ph.isAlive = false ∧ ph.kind = .photon ∧ ph.momentum = ⟨0, 0, 4⟩ ∧
      pos.kind ≠ .photon ∧ ele.kind ≠ .photon ∧
      ∀ h h' : Hist ℝ, h.time = 7 → fillHist h [ph, pos, ele] = .ok h' →
        Event cfg start rng [h] 1 ⟨"0", 10, [ph, pos, ele]⟩ ⟨fun _ => 1 / 2, 3⟩ [h'] := by
  obtain ⟨ph, pos, ele, hstep, hph, -, -, -, -, hk, hm, hpos, hele⟩ := Witness.step_eq
  refine ⟨ph, pos, ele, hph, hk, hm, hpos, hele, fun h h' ht hfill => ?_⟩
  unfold timeStep histStep at hstep
  simp only [EvState.init, List.getElem?_nil, Res.ok_bind] at hstep
  obtain ⟨⟨l, r⟩, hadv, hs⟩ := bind_eq_ok.1 hstep
  injection hs with hs
  injection hs with hl hr htime _ _
  subst hl hr
  refine .mk (s := ⟨⟨"0", 10, [ph, pos, ele]⟩, ⟨fun _ => 1 / 2, 3⟩, 1, 0, [h]⟩)
    (.step (s' := ⟨⟨"0", 10, [ph, pos, ele]⟩, ⟨fun _ => 1 / 2, 3⟩, 1, 0, [h]⟩) ?_ ?_ (.done ?_)) ?_
  · simp [EvState.init, cfg]
  · have hh : histStep (EvState.init start rng [h]) = .ok (EvState.init start rng [h]) := by
      simp [histStep, EvState.init, ht]
    unfold timeStep
    rw [hh]
    simp only [EvState.init, Res.ok_bind, hadv]
    simp [cfg]
  · simp [cfg]
  · simp [fillRest, hfill]

/-- C52 is false: there is an event, from the state a source gives it to its end, whose only photon
has converted, and both the photon table and the histogram of photon energies still count it. -/
theorem C52_refuted : ∃ (cfg : SimCfg ℝ) (l l' : PList ℝ) (r r' : Rng ℝ) (h h' : Hist ℝ),
    r.Valid ∧ l.items = [.newPhotonE 4 ⟨0, 0, 0⟩ ⟨0, 0, 1⟩ 1 0 true 0] ∧
    Event cfg l r [h] 1 l' r' [h'] ∧
    (∀ p ∈ l'.items, p.kind = .photon → p.isAlive = false) ∧
    (table .photon [l'.items]).length = 1 ∧
    h.values.sum = 0 ∧ h'.values.sum = 1 := by
  obtain ⟨ph, pos, ele, hd, hk, hm, hpos, hele, hev⟩ := Witness.event_hist
  obtain ⟨h', hfill, -, -, hsum⟩ := C45_event "h" "Photon" "Energy" 7 (lo := 0) (hi := 10) (n := 10) 0
    (by norm_num) (by norm_num) (by norm_num) [ph, pos, ele]
  refine ⟨Witness.cfg, Witness.start, ⟨"0", 10, [ph, pos, ele]⟩, Witness.rng, _,
    Hist.new "h" "Photon" "Energy" 7 0 10 10 0, h', Witness.rng_valid, ?_, hev _ h' rfl hfill, ?_, ?_,
    ?_, ?_⟩
  · simp [Witness.start, PList.add, PList.new, Witness.photon]
  · intro p hp hpk
    simp only [List.mem_cons, List.not_mem_nil, or_false] at hp
    rcases hp with rfl | rfl | rfl
    · exact hd
    · exact absurd hpk hpos
    · exact absurd hpk hele
  · simp [table, speciesRows, hk, hpos, hele]
  · simp [Hist.new]
  · have he : ph.energy = 4 := by
      unfold Particle.energy; rw [hk, hm]; exact Witness.mag_z 4 (by norm_num)
    have n1 : ph.name = "Photon" := (name_photon ph).2 hk
    have n2 : pos.name ≠ "Photon" := fun h => hpos ((name_photon pos).1 h)
    have n3 : ele.name ≠ "Photon" := fun h => hele ((name_photon ele).1 h)
    rw [hsum]
    simp [List.countP_cons, n1, n2, n3, he]
    norm_num

end QED
