import Verif.Lemmas.Parallel
import Verif.Props.Mpi
import Verif.Props.Program

set_option autoImplicit false

/-!
# C128 A parallel run simulates the events asked for

`simRun` (`Spec/Parallel.lean`) is what one process simulates with its random numbers; `localRun` and
`rankProgram` (`Model/ProgramMpi.lean`) are what a rank of a parallel run does.
-/

namespace QED

open Dbl MCTools OutMgr Main OutSpec MpiSpec Mpi

variable {L : Type}

theorem forall₂_map {α β γ : Type} {R : α → β → Prop} {f : α → γ} {g : β → γ} {l : List α} {l' : List β}
    (h : List.Forall₂ R l l') (hR : ∀ a b, R a b → g b = f a) : l'.map g = l.map f := by
  induction h with
  | nil => rfl
  | cons a _ ih => rw [List.map_cons, List.map_cons, hR _ _ a, ih]

/-! ## From the local results to the communication -/

/-- The sources with output, for all ranks. -/
def savedSources (m0 : OutMgr ℝ) : List Bool → (Nat → List (Bool × OutMgr ℝ)) →
    (Nat → List (RankEvents ℝ)) → List (RunSource ℝ)
  | [], _, _ => []
  | b :: bs, sent, evs =>
    (if b = true then [⟨true, fun r => ((sent r).headD (true, m0)).2, fun r => (evs r).headD ⟨[], []⟩⟩]
      else []) ++ savedSources m0 bs (fun r => (sent r).tail) (fun r => (evs r).tail)

theorem putSources_append (n : Nat) (group : L → L) (put : L → String → Nat → List (Option ℝ) → L)
    (a b : List (RunSource ℝ)) (l : L) :
    putSources n group put (a ++ b) l = putSources n group put b (putSources n group put a l) := by
  induction a generalizing l with
  | nil => rfl
  | cons s a ih => exact ih _

theorem putSources_saved (n : Nat) (group : L → L) (put : L → String → Nat → List (Option ℝ) → L)
    (m0 : OutMgr ℝ) (bs : List Bool) : ∀ (sent : Nat → List (Bool × OutMgr ℝ))
    (evs : Nat → List (RankEvents ℝ)) (l : L),
    putSources n group put (savedSources m0 bs sent evs) l = putRun n group put bs evs l := by
  induction bs with
  | nil => intros; rfl
  | cons b bs ih =>
    intro sent evs l
    rw [savedSources, putSources_append, ih, putRun]
    cases b <;> rfl

theorem runSources_saved (S : Sink ℝ L) (n r : Nat) (m0 : OutMgr ℝ) (bs : List Bool) :
    ∀ (sent : Nat → List (Bool × OutMgr ℝ)) (evs : Nat → List (RankEvents ℝ)) (l : L),
    (sent r).map (·.1) = bs → Mpi.runSources S n r (sent r) l =
      Mpi.runSources S n r ((savedSources m0 bs sent evs).map fun s => (s.out, s.mgr r)) l := by
  induction bs with
  | nil =>
    intro sent evs l h
    rw [List.map_eq_nil_iff.1 h]; rfl
  | cons b bs ih =>
    intro sent evs l h
    obtain ⟨⟨b', m⟩, rest, hx, rfl, hrest⟩ := List.map_eq_cons_iff.1 h
    rw [savedSources]
    have ih := fun l => ih (fun r => (sent r).tail) (fun r => (evs r).tail) l (by
      show List.map _ (sent r).tail = bs; rw [hx]; exact hrest)
    have hx' : (sent r).tail = rest := by rw [hx]; rfl
    simp only [hx'] at ih
    rw [hx]
    cases b' with
    | true =>
      simp only [if_true, List.map_cons, List.singleton_append]
      rw [show ((sent r).headD (true, m0)).2 = m by rw [hx]; rfl]
      unfold Mpi.runSources
      congr 1
      funext l
      exact ih l
    | false => exact ih l

theorem saved_mem {m0 : OutMgr ℝ} {n : Nat} {bs : List Bool} : ∀ {sent : Nat → List (Bool × OutMgr ℝ)}
    {evs : Nat → List (RankEvents ℝ)}, (∀ r, (sent r).map (·.1) = bs) →
    (∀ r, List.Forall₂ (fun x ev => x.1 = true → Stored x.2 ev) (sent r) (evs r)) →
    (∀ k, Fits n fun r => (evs r).getD k ⟨[], []⟩) →
    ∀ s ∈ savedSources m0 bs sent evs, (∀ r, Stored (s.mgr r) (s.ev r)) ∧ Fits n s.ev := by
  induction bs with
  | nil => intro sent evs _ _ _ s hs; cases hs
  | cons b bs ih =>
    intro sent evs h1 h2 h3 s hs
    rw [savedSources] at hs
    rcases List.mem_append.1 hs with hs | hs
    · cases b with
      | false => cases hs
      | true =>
        obtain rfl := List.mem_singleton.1 hs
        refine ⟨fun r => ?_, ?_⟩
        · obtain ⟨⟨b', m⟩, rest, hx, hb, -⟩ := List.map_eq_cons_iff.1 (h1 r)
          have := h2 r
          dsimp only
          rw [hx] at this ⊢
          generalize evs r = e at this ⊢
          cases this with
          | cons ha _ => exact ha hb
        · have := h3 0
          have he : (fun r => (evs r).getD 0 ⟨[], []⟩) = fun r => (evs r).headD ⟨[], []⟩ := by
            funext r
            cases evs r <;> rfl
          rw [he] at this
          exact this
    · refine ih (sent := fun r => (sent r).tail) (evs := fun r => (evs r).tail) ?_ ?_ ?_ s hs
      · intro r
        show List.map _ (sent r).tail = bs
        rw [List.map_tail, h1 r]; rfl
      · intro r
        have := h2 r
        show List.Forall₂ _ (sent r).tail (evs r).tail
        generalize sent r = x at this ⊢
        generalize evs r = y at this ⊢
        cases this with
        | nil => exact .nil
        | cons _ h => exact h
      · intro k
        have := h3 (k + 1)
        have he : (fun r => (evs r).tail.getD k ⟨[], []⟩) = fun r => (evs r).getD (k + 1) ⟨[], []⟩ := by
          funext r
          cases evs r <;> simp
        rw [he]
        exact this

/-! ## C128 -/

/-- C128, the part that holds. A parallel run gives what its processes simulate, all together: if every
rank `r` simulates the events `evs r` and fills the histograms `hists r`, each with its own random
numbers, then every execution of the parallel run is finite, some rank can always go on until all have
ended normally, and then the tables that the master has written hold the rows of all ranks in rank order
and its histograms the sums over all ranks; and on every rank every source has its configured number of
events.
Missing: the ranks do not share the work, see `C128_refuted`. The writing itself is left open (`group`,
`put`, `hist`), see C54. -/
theorem C128_union_partial {n : Nat} (hn : 0 < n) (input : Input ℝ) (cfg : SimCfg ℝ)
    (raws : Nat → Nat → Nat → RawDraws ℝ) (garbage : Nat → Nat → Nat) (rng : Nat → Rng ℝ) (fuel : Nat)
    (hen : ∀ p ∈ input.particles, EnergiesInOrder p) (hraw : ∀ r i k, (raws r i k).Sized k)
    (hbins : ∀ h ∈ input.histograms, h.bins < 2 ^ 31)
    (evs : Nat → List (RankEvents ℝ)) (hists : Nat → List (Hist ℝ))
    (hsim : ∀ r, simRun input cfg (raws r) (garbage r) (rng r) fuel = (some (.ok (evs r, hists r)) : Timed _))
    (hfits : ∀ k, Fits n fun r => (evs r).getD k ⟨[], []⟩)
    (group : L → L) (put : L → String → Nat → List (Option ℝ) → L)
    (hist : L → Hist ℝ → List ℝ → L) (l : L) :
    (∀ r, (evs r).map (·.firsts.length) = input.particles.map (·.number) ∧
      (evs r).map (·.finals.length) = input.particles.map (·.number)) ∧
    ∃ x : Nat → List (Bool × OutMgr ℝ) × List (Hist ℝ),
      (∀ r, localRun input cfg (raws r) (garbage r) (rng r) fuel = (some (.ok (x r)) : Timed _)) ∧
      ∃ N, ∀ i s, Exec true n i (State.start fun r =>
          rankProgram (Sink.total group put hist) n r (x r) l) s → i ≤ N ∧
        (Finished n s (fun r => if r = 0 then
            (List.range input.histograms.length).foldl
              (fun l k => hist l (histOf hists k 0) (binSums n (histOf hists k)))
              (putRun n group put (input.particles.map (·.output)) evs l)
          else l) ∨ ∃ t, Step false n s t) := by
  have hloc : ∀ r, ∃ x : List (Bool × OutMgr ℝ) × List (Hist ℝ),
      localRun input cfg (raws r) (garbage r) (rng r) fuel = (some (.ok x) : Timed _) ∧
      x.1.map (·.1) = input.particles.map (·.output) ∧ x.2 = hists r ∧
      List.Forall₂ Frame (makeHists (garbage r) 0 input.histograms) (hists r) ∧
      List.Forall₂ (fun x ev => x.1 = true → Stored x.2 ev) x.1 (evs r) ∧
      (evs r).map (·.firsts.length) = input.particles.map (·.number) ∧
      (evs r).map (·.finals.length) = input.particles.map (·.number) := by
    intro r
    obtain ⟨ss, hss, hall⟩ := (makeSources_total angleInOrder input.general (raws r) (hraw r)
      input.particles 0).1 hen
    obtain ⟨m, hm, -⟩ := new_file (D := ℝ) none
    have h := hsim r
    unfold simRun at h
    rw [hss, Timed.ok_bind] at h
    have hfull : ∀ s ∈ ss, s.1.Full ∧ s.1.partCount = 0 := by
      intro s hs
      obtain ⟨i, hi, rfl⟩ := List.mem_iff_getElem.mp hs
      obtain ⟨h1, h2, -⟩ := (List.forall₂_iff_get.mp hall).2 i (by rw [hall.length_eq]; exact hi) hi
      exact ⟨h1, h2⟩
    obtain ⟨sent, w', g1, g2, g3, g4, g5, g6⟩ := localSources_sim input.general.tracking ss hfull m h
    have hout : ss.map (·.2) = input.particles.map (·.output) :=
      forall₂_map hall fun a b h => h.2.2.2
    have hnum : ss.map (·.1.nPart) = input.particles.map (·.number) :=
      forall₂_map hall fun a b h => h.2.2.1
    refine ⟨(sent, w'.hists), ?_, g3.trans hout, g2, g4, g5, ?_, ?_⟩
    · unfold localRun
      rw [hss, Timed.ok_bind, hm, Timed.ok_bind, g1]
      rfl
    · rw [← hnum]
      exact forall₂_map g6 fun a b h => h.1
    · rw [← hnum]
      exact forall₂_map g6 fun a b h => h.2
  choose x hx1 hx2 hx3 hx4 hx5 hx6 hx7 using hloc
  refine ⟨fun r => ⟨hx6 r, hx7 r⟩, x, hx1, ?_⟩
  obtain ⟨m0, -⟩ := new_file (D := ℝ) none
  set bs := input.particles.map (·.output) with hbs
  set srcs := savedSources m0 bs (fun r => (x r).1) evs with hsrcs
  set hs : List (Nat → Hist ℝ) := (List.range input.histograms.length).map (histOf hists) with hhs
  have hlen : ∀ r, (hists r).length = input.histograms.length := by
    intro r
    rw [← (hx4 r).length_eq]
    have : ∀ (l : List (HistogramParams ℝ)) i, (makeHists (garbage r) i l).length = l.length := by
      intro l
      induction l with
      | nil => intro i; rfl
      | cons a l ih => intro i; simp [makeHists, ih]
    exact this _ _
  have hrank : (fun r => rankProgram (Sink.total group put hist) n r (x r) l) =
      fun r => runRank (Sink.total group put hist) n r (srcs.map fun s => (s.out, s.mgr r))
        (hs.map fun h => h r) l := by
    funext r
    unfold rankProgram runRank
    rw [runSources_saved _ n r m0 bs (fun r => (x r).1) evs l (hx2 r), ← hsrcs]
    have : (x r).2 = hs.map fun h => h r := by
      rw [hx3 r]
      refine List.ext_getElem (by simp [hhs, hlen]) fun i h1 h2 => ?_
      simp [hhs, histOf, List.getD_eq_getElem?_getD, List.getElem?_eq_getElem h1]
    rw [this]
  have hgood : ∀ h ∈ hs, (h 0).nBins < 2 ^ 31 ∧
      ∀ r < n, (h r).nBins = (h 0).nBins ∧ (h r).values.length = (h 0).nBins := by
    intro h hh
    obtain ⟨k, hk, rfl⟩ := List.mem_map.1 hh
    have hk := List.mem_range.1 hk
    have key : ∀ r, (histOf hists k r).nBins = (input.histograms[k]).bins ∧
        (histOf hists k r).values.length = (input.histograms[k]).bins := by
      intro r
      have hkr : k < (hists r).length := by rw [hlen]; exact hk
      have he : histOf hists k r = (hists r)[k] := by
        simp [histOf, List.getD_eq_getElem?_getD, List.getElem?_eq_getElem hkr]
      have hf := (List.forall₂_iff_get.mp (hx4 r)).2 k (by rw [(hx4 r).length_eq]; exact hkr) hkr
      have hm : ∀ (l : List (HistogramParams ℝ)) i j (hj : j < (makeHists (garbage r) i l).length)
          (hj' : j < l.length), (makeHists (garbage r) i l)[j].nBins = l[j].bins ∧
            (makeHists (garbage r) i l)[j].values.length = l[j].bins := by
        intro l
        induction l with
        | nil => intro i j hj hj'; cases hj'
        | cons a l ih =>
          intro i j hj hj'
          cases j with
          | zero => simp [makeHists, makeHist, Hist.new]
          | succ j =>
            simp only [makeHists, List.getElem_cons_succ]
            exact ih _ _ _ _
      obtain ⟨a, b⟩ := hm input.histograms 0 k (by rw [(hx4 r).length_eq]; exact hkr) hk
      rw [he]
      exact ⟨hf.nBins.trans a, hf.values.trans b⟩
    refine ⟨?_, fun r _ => ?_⟩
    · rw [(key 0).1]; exact hbins _ (List.getElem_mem hk)
    · rw [(key r).1, (key r).2, (key 0).1]; exact ⟨rfl, rfl⟩
  obtain ⟨N, hN⟩ := C56_partial hn group put hist srcs hs l
    (fun s hs => by
      obtain ⟨h1, h2⟩ := saved_mem (n := n) hx2 hx5 hfits s hs
      exact ⟨fun r _ => h1 r, h2⟩) hgood
  refine ⟨N, fun i s he => ?_⟩
  rw [hrank] at he
  have := hN i s he
  rw [putSources_saved, hhs, List.foldl_map] at this
  exact this

/-- Every row of a table of primaries carries the number of its event. -/
theorem primaryTable_ids (firsts : List (Particle ℝ)) (id : Nat) :
    ((primaryTable firsts).filter fun row => row.head? = some (id : ℝ)).length =
      if id < firsts.length then 1 else 0 := by
  have key : ∀ (l : List (Particle ℝ)) (j : Nat),
      (((l.zipIdx j).map fun e => particleRow e.2 e.1).filter fun row => row.head? = some (id : ℝ)).length =
        if j ≤ id ∧ id < j + l.length then 1 else 0 := by
    intro l
    induction l with
    | nil => intro j; simp
    | cons a l ih =>
      intro j
      rw [List.zipIdx_cons, List.map_cons, List.filter_cons]
      have hd : (particleRow j a).head? = some (j : ℝ) := by simp [particleRow]
      by_cases h : j = id
      · subst h
        rw [if_pos (by simp [hd]), List.length_cons, ih]
        rw [if_neg (by omega), if_pos (by simp)]
      · rw [if_neg (by rw [hd]; simpa using h), ih]
        simp only [List.length_cons]
        by_cases hc : j + 1 ≤ id ∧ id < j + 1 + l.length
        · rw [if_pos hc, if_pos (by omega)]
        · rw [if_neg hc, if_neg (by omega)]
  have := key firsts 0
  simpa [primaryTable] using this

/-- What is written in a run: the names, numbers of rows and entries of its tables. -/
abbrev TableLog := List (String × Nat × List (Option ℝ))

/-- C128 is false of every run with at least two processes: each of them simulates all the events. With
one source of `p.number` particles, the table of the primaries that is written has `n * p.number` rows
and `n` of them carry the number of each event. -/
theorem C128_refuted {n : Nat} (hn : 2 ≤ n) (input : Input ℝ) (p : ParticleParams ℝ)
    (hp : input.particles = [p]) (hout : p.output = true) (hnum : 0 < p.number) (cfg : SimCfg ℝ)
    (raws : Nat → Nat → Nat → RawDraws ℝ) (garbage : Nat → Nat → Nat) (rng : Nat → Rng ℝ) (fuel : Nat)
    (hen : EnergiesInOrder p) (hraw : ∀ r i k, (raws r i k).Sized k)
    (hbins : ∀ h ∈ input.histograms, h.bins < 2 ^ 31)
    (evs : Nat → List (RankEvents ℝ)) (hists : Nat → List (Hist ℝ))
    (hsim : ∀ r, simRun input cfg (raws r) (garbage r) (rng r) fuel = (some (.ok (evs r, hists r)) : Timed _))
    (hfits : ∀ k, Fits n fun r => (evs r).getD k ⟨[], []⟩) :
    ∃ rows : List (List ℝ), rows.length = n * p.number ∧ rows.length ≠ p.number ∧
      (∀ id < p.number, (rows.filter fun row => row.head? = some (id : ℝ)).length = n) ∧
    ∃ x : Nat → List (Bool × OutMgr ℝ) × List (Hist ℝ),
      (∀ r, localRun input cfg (raws r) (garbage r) (rng r) fuel = (some (.ok (x r)) : Timed _)) ∧
      ∃ N, ∀ i s, Exec true n i (State.start fun r => rankProgram (Sink.total id
          (fun (l : TableLog) name k data => l ++ [(name, k, data)]) (fun l _ _ => l)) n r (x r) []) s →
        i ≤ N ∧ ((∃ written, Finished n s written ∧
            (written 0).filter (·.1 = "Primary") = [("Primary", rows.length, rows.flatten.map some)]) ∨
          ∃ t, Step false n s t) := by
  obtain ⟨hlen, x, hx, N, hN⟩ := C128_union_partial (by omega) input cfg raws garbage rng fuel
    (by rw [hp]; simpa using hen) hraw hbins evs hists hsim hfits id
    (fun (l : TableLog) name k data => l ++ [(name, k, data)]) (fun l _ _ => l) []
  have hev : ∀ r, (((evs r).headD ⟨[], []⟩).firsts).length = p.number := by
    intro r
    have h := (hlen r).1
    rw [hp] at h
    obtain ⟨e, rest, he, h1, -⟩ := List.map_eq_cons_iff.1 h
    rw [he]; exact h1
  have hgather : ∀ (m : Nat) (f : Nat → List (List ℝ)) (c : Nat) (q : List ℝ → Bool),
      (∀ r, ((f r).filter q).length = c) → ((gather m f).filter q).length = m * c := by
    intro m f c q hf
    induction m with
    | zero => simp [gather]
    | succ m ih =>
      have : gather (m + 1) f = gather m f ++ f m := by
        simp [gather, List.range_succ, List.flatMap_append]
      rw [this, List.filter_append, List.length_append, ih, hf, Nat.succ_mul]
  set rows := gather n fun r => primaryTable ((evs r).headD ⟨[], []⟩).firsts with hrows
  have hl : rows.length = n * p.number := by
    have := hgather n (fun r => primaryTable ((evs r).headD ⟨[], []⟩).firsts) p.number (fun _ => true)
      fun r => by rw [← hev r]; simp [primaryTable]
    simpa [hrows] using this
  refine ⟨rows, hl, ?_, ?_, x, hx, N, fun i s hs => ?_⟩
  · rw [hl]
    have : 2 * p.number ≤ n * p.number := Nat.mul_le_mul_right _ hn
    omega
  · intro id hid
    have := hgather n (fun r => primaryTable ((evs r).headD ⟨[], []⟩).firsts) 1
      (fun row => row.head? = some (id : ℝ)) fun r => by
        rw [primaryTable_ids, if_pos (by rw [hev r]; exact hid)]
    simpa [hrows] using this
  · obtain ⟨h1, h2⟩ := hN i s hs
    refine ⟨h1, h2.imp (fun h => ⟨_, h, ?_⟩) id⟩
    have hfold : ∀ (ks : List Nat) (l : TableLog), ks.foldl (fun l _ => l) l = l := by
      intro ks
      induction ks with
      | nil => intro l; rfl
      | cons a ks ih => intro l; exact ih l
    rw [if_pos rfl, hfold, hp, List.map_cons, List.map_nil, hout]
    simp only [putRun, putSource, putEvents, putTable, ← hrows, id]
    split_ifs <;> simp

namespace ParallelWitness

/-- One photon, followed for one step and saved. -/
noncomputable def input : Input ℝ :=
  ⟨⟨"SI", 1, 1, "out.h5", false⟩, .static ⟨1, 0, 0⟩ ⟨0, 0, 0⟩,
    [⟨1, "beam", "Photon", "mono", ⟨0, 0, 0⟩, ⟨0, 0, 1⟩, 1, 1, 0, 0, 0, true⟩],
    ⟨"Quantum", 0, 1, false⟩, []⟩

theorem ordered : ∀ q ∈ input.particles, EnergiesInOrder q := by
  intro q hq
  simp only [input, List.mem_cons, List.not_mem_nil, or_false] at hq
  subst hq
  exact Or.inr (Or.inr (by simp))

theorem bind_some {α β : Type} {x : Timed α} {f : α → Timed β} {a : α}
    (h : x = (some (.ok a) : Timed α)) : (x >>= f) = f a := by
  rw [h]; rfl

theorem sim (cfg : SimCfg ℝ) (hs : setup ProgramWitness.tables input = .ok cfg) (garbage : Nat → Nat)
    (rng : Rng ℝ) : ∃ (a b : Particle ℝ),
    simRun input cfg ProgramWitness.draws garbage rng 1 = (some (.ok ([⟨[a], [[b]]⟩], [])) : Timed _) := by
  obtain ⟨h1, h2, h3⟩ := setup_procs hs rfl
  obtain ⟨ss, hss, hall⟩ := (makeSources_total angleInOrder input.general ProgramWitness.draws
    ProgramWitness.draws_sized input.particles 0).1 ordered
  have htype : ∀ s ∈ ss, s.1.type = "Photon" := by
    have h := hss
    unfold input makeSources makeSources at h
    obtain ⟨s, hs, h⟩ := Res.bind_eq_ok.mp h
    obtain ⟨_, hs', h⟩ := Res.bind_eq_ok.mp h
    cases hs'
    obtain rfl := Res.ok.inj h
    intro s' hs'
    obtain rfl := List.mem_singleton.1 hs'
    unfold makeSource Source.new at hs
    obtain ⟨phi, -, hs⟩ := Res.bind_eq_ok.mp hs
    obtain ⟨es, -, hs⟩ := Res.bind_eq_ok.mp hs
    rw [← Res.ok.inj hs]
  unfold input at hall
  dsimp only at hall
  cases hall with
  | @cons _ s _ ss' hhd htl =>
  cases htl
  obtain ⟨hf, hc, hnum, -⟩ := hhd
  have hty := htype s List.mem_cons_self
  obtain ⟨l, r', hg, -, q, hq, ⟨-, hqm, -⟩, -⟩ := generateList_step saneReal s.1 .photon
    (by rw [hty]; decide) hf (by rw [hc, hnum]; decide) rng
  have hmax : l.maxParticles = PList.defaultMax := by
    rcases generateList_total s.1 hf (by rw [hc, hnum]; decide) rng with h | ⟨_, _, _, h, -, hmax⟩
    · rw [hg] at h; cases h
    · rw [hg] at h
      have := Res.ok.inj h
      simp only [Prod.mk.injEq] at this
      rw [this.1]; exact hmax
  obtain ⟨e, b, e1, e2, -, -, e5, e6⟩ := photon_step h3 (.init l r' []) q hq
    (by rw [hqm]; simp [Kind.massOf]) (by show 1 ≤ l.maxParticles; rw [hmax]; decide) rfl
  have htime : e.time = 1 := by
    rw [e6, h1]
    simp [EvState.init, input]
  have hloop : timeLoop cfg 1 (.init l r' []) = (some (.ok e) : Timed _) := by
    rw [timeLoop, if_pos (by rw [h2]; simp [EvState.init, input]), e1]
    show timeLoop cfg 0 e = _
    rw [timeLoop, if_neg (by rw [h2, htime]; simp [input])]
  refine ⟨q, b, ?_⟩
  unfold simRun
  rw [hss, Timed.ok_bind]
  have hfill : fillRest e.list e.histCount e.hists = .ok [] := by rw [e5]; rfl
  have hev : simEvents cfg 1 s.1.nPart s.1 rng [] =
      (some (.ok (⟨[q], [[b]]⟩, e.rng, [])) : Timed _) := by
    rw [hnum]
    show simEvents cfg 1 (0 + 1) s.1 rng [] = _
    unfold simEvents
    rw [hg, Timed.ok_bind]
    dsimp only
    refine (bind_some hloop).trans ?_
    rw [hfill, Timed.ok_bind, hq, e2]
    rfl
  show simSources cfg 1 [s.1] rng [] = _
  unfold simSources
  exact (bind_some hev).trans rfl

/-- The hypotheses of `C128_union_partial` and `C128_refuted` can be met: three processes. -/
example (garbage : Nat → Nat → Nat) (rng : Nat → Rng ℝ) :
    ∃ (cfg : SimCfg ℝ) (evs : Nat → List (RankEvents ℝ)) (hists : Nat → List (Hist ℝ)),
      setup ProgramWitness.tables input = .ok cfg ∧
      (∀ r, simRun input cfg ProgramWitness.draws (garbage r) (rng r) 1 = (some (.ok (evs r, hists r)) : Timed _)) ∧
      (∀ k, Fits 3 fun r => (evs r).getD k ⟨[], []⟩) ∧
      (∀ q ∈ input.particles, EnergiesInOrder q) ∧ ∀ i n, (ProgramWitness.draws i n).Sized n := by
  obtain ⟨cfg, hs⟩ : ∃ cfg, setup ProgramWitness.tables input = .ok cfg := ⟨_, rfl⟩
  choose a b hab using fun r => sim cfg hs (garbage r) (rng r)
  refine ⟨cfg, fun r => [⟨[a r], [[b r]]⟩], fun _ => [], hs, hab, fun k => ?_, ordered, ProgramWitness.draws_sized⟩
  have hk : ∀ r, (([⟨[a r], [[b r]]⟩] : List (RankEvents ℝ)).getD k ⟨[], []⟩) =
      if k = 0 then ⟨[a r], [[b r]]⟩ else ⟨[], []⟩ := by
    intro r
    cases k <;> simp
  simp only [hk]
  by_cases h0 : k = 0
  · simp only [h0, if_true]
    refine ⟨by simp [gather, List.range_succ, primaryTable], fun j => ?_⟩
    have : ∀ r, (table j [[b r]]).length ≤ 1 := by
      intro r
      simp only [table, speciesRows, List.zipIdx_cons, List.zipIdx_nil, List.map_cons, List.map_nil,
        List.flatten_cons, List.flatten_nil, List.append_nil, List.length_map]
      exact (List.length_filter_le _ _).trans (by simp)
    have h0 := this 0
    have h1 := this 1
    have h2 := this 2
    simp only [gather, List.range_succ, List.range_zero, List.flatMap_append, List.nil_append,
      List.flatMap_cons, List.flatMap_nil, List.append_nil, List.length_append]
    omega
  · simp only [h0, if_false]
    exact ⟨by simp [gather, List.range_succ, primaryTable],
      fun j => by simp [gather, List.range_succ, table]⟩

end ParallelWitness

end QED
