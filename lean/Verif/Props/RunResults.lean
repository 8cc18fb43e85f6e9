import Verif.Props.RunSettings
import Verif.Spec.PythonRows

set_option linter.unusedSectionVars false
set_option autoImplicit false

/-! # Property C73: the result arrays of the Python run manager -/

namespace QED

open Dbl MCTools RunMgr

section generic
variable {D : Type} [Dbl D]

/-- The comparisons of charges with literals at `RunManager.cpp:245,260,275`. -/
structure ChargeLits (D : Type) [Dbl D] : Prop where
  nn : ((lit (-1) : D) ==. lit (-1)) = true
  zn : ((lit 0 : D) ==. lit (-1)) = false
  zz : ((lit 0 : D) ==. lit 0) = true
  pn : ((lit 1 : D) ==. lit (-1)) = false
  pz : ((lit 1 : D) ==. lit 0) = false
  pp : ((lit 1 : D) ==. lit 1) = true

theorem chargeReal : ChargeLits ℝ := by
  constructor <;> (simp; try norm_num)

theorem chargeXR : ChargeLits XR := by
  constructor <;> (simp; try norm_num)

theorem ChargeLits.sane (h : ChargeLits D) : SaneLits D := ⟨h.nn, h.pn⟩

/-! ## Species of the stored particles -/

/-- The charge is that of the species. -/
def Named (p : Particle D) : Prop := p.charge = p.kind.chargeOf

theorem isEl_iff (h : ChargeLits D) {p : Particle D} (hp : Named p) :
    isEl p.charge = decide (p.kind = .electron) := by
  unfold Named at hp
  rw [hp]
  cases p.kind <;> simp [isEl, Kind.chargeOf, h.nn, h.zn, h.pn]

theorem isPh_iff (h : ChargeLits D) {p : Particle D} (hp : Named p) :
    isPh p.charge = decide (p.kind = .photon) := by
  unfold Named at hp
  rw [hp]
  cases p.kind <;> simp [isPh, Kind.chargeOf, h.nn, h.zn, h.pn, h.zz, h.pz]

theorem isPo_iff (h : ChargeLits D) {p : Particle D} (hp : Named p) :
    isPo p.charge = decide (p.kind = .positron) := by
  unfold Named at hp
  rw [hp]
  cases p.kind <;> simp [isPo, Kind.chargeOf, h.nn, h.zn, h.pn, h.zz, h.pz, h.pp]

/-- A source makes one particle, whose charge is that of its species. -/
theorem generateList_single (hl : SaneLits D) {s s' : Source D} {r r' : Rng D} {l : PList D}
    (h : s.generateList r = .ok (l, s', r')) : ∃ p, l.items = [p] ∧ Named p := by
  unfold Source.generateList at h
  split at h
  · cases h
  · obtain ⟨_, _, h⟩ := bind_eq_ok.1 h
    obtain ⟨_, _, h⟩ := bind_eq_ok.1 h
    obtain ⟨_, _, h⟩ := bind_eq_ok.1 h
    obtain ⟨_, _, h⟩ := bind_eq_ok.1 h
    obtain ⟨_, _, h⟩ := bind_eq_ok.1 h
    obtain ⟨_, _, h⟩ := bind_eq_ok.1 h
    obtain ⟨p, hp, h⟩ := bind_eq_ok.1 h
    cases h
    refine ⟨p, by simp [PList.add, PList.new, PList.defaultMax], ?_⟩
    rcases hk : speciesOf s.type with _ | k
    · unfold speciesOf at hk
      unfold Source.mkParticle at hp
      split at hk
      · cases hk
      · split at hk
        · cases hk
        · split at hk
          · cases hk
          · rename_i h1 h2 h3
            rw [if_neg h1, if_neg h2, if_neg h3] at hp
            cases hp
    · obtain ⟨q, hq, ⟨h1, _, h3⟩, _⟩ := mkParticle_spec hl s k hk _ _ _ _
      rw [hq] at hp
      cases hp
      unfold Named
      rw [h1, h3]

/-- Charges stay those of the species throughout an event. -/
theorem run_named (hl : SaneLits D) {cfg : SimCfg D} {s : EvState D} {n : Nat} {es : EvState D}
    (h : Run cfg s n (.ok es)) (hs : ∀ p ∈ s.list.items, Named p) : ∀ p ∈ es.list.items, Named p := by
  refine reach_forall (P := Named) ?_ ?_ h.reach hs
  · intro p hp
    obtain ⟨h1, _, h3, _⟩ := push_identity cfg.push cfg.field cfg.dt p
    show (pushParticle _ _ _ p).charge = (pushParticle _ _ _ p).kind.chargeOf
    rw [h1, h3]
    exact hp
  · intro proc _ p l r p' l' r' new hp he _
    refine ⟨?_, ?_⟩
    · show p'.charge = p'.kind.chargeOf
      rw [he.same.kind, he.same.charge]
      exact hp
    · intro q hq
      rcases he.kinds with ⟨h1, _⟩ | ⟨ph, h1, h2, _, h4, _⟩ | ⟨pos, ele, h1, _, _, h4, h5, _, _, _, h9, h10, _⟩
      · rw [h1] at hq; cases hq
      · rw [h1, List.mem_singleton] at hq
        subst hq
        show q.charge = q.kind.chargeOf
        rw [h2, h4]
        rfl
      · rw [h1] at hq
        simp only [List.mem_cons, List.not_mem_nil, or_false] at hq
        rcases hq with rfl | rfl
        · show q.charge = q.kind.chargeOf
          rw [h9, h4]
          simp [Particle.leptonKind, hl.pos, Kind.chargeOf]
        · show q.charge = q.kind.chargeOf
          rw [h10, h5]
          simp [Particle.leptonKind, hl.neg, Kind.chargeOf]

/-! ## Threads -/

theorem storeInput_tid {tid : Nat} {p : Particle D} {ps : List (Particle D)} {rs rs' : Results D}
    (h : storeInput tid (p :: ps) rs = .ok rs') : tid < rs.input.length := by
  simp only [storeInput] at h
  obtain ⟨v, h1, _⟩ := bind_eq_ok.1 h
  exact (pushRow_inv h1).1

theorem events_tid (hl : SaneLits D) {cfg : SimCfg D} {tid : Nat → Nat} {i : Nat} {s : Source D}
    {rs : Results D} {r : Rng D} {o : Res (List (PList D × PList D) × Results D × Rng D)}
    (h : Events cfg tid i s rs r o) : ∀ ls rs' r', o = .ok (ls, rs', r') →
      ∀ j < ls.length, tid (i + j) < rs.input.length := by
  induction h with
  | done hi => intro ls rs' r' ho; cases ho; simp
  | @event i s rs r l s' r' rs1 n es rs2 ls rs3 r3 hi hg hin hrun hfin _ ih =>
    intro ls' rs' r'' ho
    cases ho
    obtain ⟨p, hp, _⟩ := generateList_single hl hg
    intro j hj
    cases j with
    | zero => rw [hp] at hin; exact storeInput_tid hin
    | succ j =>
      have := ih ls rs3 r3 rfl j (by simpa using hj)
      rw [storeFinals_inv hfin, storeInput_inv hin] at this
      rw [show i + (j + 1) = i + 1 + j by omega]
      simpa using this
  | later _ _ _ _ _ _ hne _ => intro ls rs' r' ho; exact absurd ho (hne _)
  | source => intro ls rs' r' ho; cases ho
  | sourceUb => intro ls rs' r' ho; cases ho
  | inputUb => intro ls rs' r' ho; cases ho
  | runUb => intro ls rs' r' ho; cases ho
  | runExit => intro ls rs' r' ho; cases ho
  | finalUb => intro ls rs' r' ho; cases ho

/-! ## C73 Result arrays have consistent shape and content -/

/-- The array `a` consists of one row per particle of `ps`, in some order. -/
structure OneRowEach (a : Array2 D) (w : Nat) (row : Particle D → List D)
    (ps : List (Particle D)) : Prop where
  columns : a.columns = w
  width : ∀ p, (row p).length = w
  data : ∃ qs : List (Particle D), qs.Perm ps ∧ a.data = qs.flatMap row
  rows : a.rows = Mpi.i32 ps.length

theorem oneRowEach {a : Array2 D} {w : Nat} (hw : 0 < w) {row : Particle D → List D}
    {tid : Nat → Nat} {n : Nat} {lists : List (List (Particle D))} (hrow : ∀ p, (row p).length = w)
    (htid : ∀ j < lists.length, tid (0 + j) < n)
    (ha : a = ⟨Mpi.i32 ((addAll tid 0 (List.replicate n []) (lists.map (·.flatMap row))).flatten.length / w
      : Nat), w, (addAll tid 0 (List.replicate n []) (lists.map (·.flatMap row))).flatten⟩) :
    OneRowEach a w row lists.flatten := by
  obtain ⟨parts, _, h2, h3⟩ := ofThread_perm (fun ps : List (Particle D) => ps.flatMap row) rfl
    (fun a b => List.flatMap_append) tid n lists 0 htid
  have hd : (addAll tid 0 (List.replicate n []) (lists.map (·.flatMap row))).flatten =
      parts.flatten.flatMap row := by
    rw [addAll_replicate, h2, List.flatMap_def, List.map_flatten, List.flatten_flatten, List.map_map]
    congr 1
  have hlen : ∀ ps : List (Particle D), (ps.flatMap row).length = w * ps.length := by
    intro ps
    induction ps with
    | nil => rfl
    | cons p ps ih => rw [List.flatMap_cons, List.length_append, ih, hrow, List.length_cons]; ring
  rw [hd] at ha
  subst ha
  refine ⟨rfl, hrow, ⟨_, h3, rfl⟩, ?_⟩
  dsimp only
  rw [hlen, Nat.mul_div_cancel_left _ hw, h3.length_eq]

/-- The final particles of all events, of one species. -/
def finalOf (k : Kind) (ls : List (PList D × PList D)) : List (Particle D) :=
  ls.flatMap fun l => l.2.items.filter fun p => p.kind = k

theorem finalCells_eq : (PythonRows.finalCells : Particle D → List D) = finalRow := rfl

theorem primaryCells_eq : (PythonRows.primaryCells : Particle D → List D) = inputRow := rfl

/-- After a run: one list of one primary per event, the input array has a row for every primary, and the
other arrays have a row for every final particle of their species, each row complete, whatever the
number of threads and the distribution of the events over them. -/
theorem C73_content (hl : ChargeLits D) (e : Env D) (n t : Int) (m m' : Mgr D)
    (ls : List (PList D × PList D)) (hb : BeamOn e n t m (.ok (.ran m' ls))) :
    ls.length = RunMgr.u32 n ∧ (∀ l ∈ ls, l.1.items.length = 1) ∧
    OneRowEach (getInput m'.results) 6 PythonRows.primaryCells (ls.flatMap fun l => l.1.items) ∧
    OneRowEach (getElectrons m'.results) 7 PythonRows.finalCells (finalOf .electron ls) ∧
    OneRowEach (getPositrons m'.results) 7 PythonRows.finalCells (finalOf .positron ls) ∧
    OneRowEach (getPhotons m'.results) 7 PythonRows.finalCells (finalOf .photon ls) := by
  rw [finalCells_eq, primaryCells_eq]
  by_cases hp : Passes e t
  swap
  · have := beamOn_gate hb hp
    cases this
  obtain ⟨m1, h1, ⟨_, ho⟩ | ⟨_, _, ho⟩ | ⟨_, _, s, ls', rs, r, hsrc, hev, ho⟩⟩ := beamOn_cases hb hp
  · cases ho
  · cases ho
  cases ho
  obtain ⟨hrs, hlen, hall⟩ := events_spec hev _ _ _ rfl
  have htid := events_tid hl.sane hev _ _ _ rfl
  have hti : (Results.empty t.toNat : Results D).input.length = t.toNat := by simp [Results.empty]
  rw [hti] at htid
  have hnp : s.nPart = RunMgr.u32 n := by
    unfold sourceOf Source.new at hsrc
    dsimp only at hsrc
    obtain ⟨_, _, hsrc⟩ := bind_eq_ok.1 hsrc
    obtain ⟨_, _, hsrc⟩ := bind_eq_ok.1 hsrc
    cases hsrc
    rfl
  have hone : ∀ l ∈ ls, ∃ p, l.1.items = [p] ∧ Named p := by
    intro l hl'
    obtain ⟨_, _, _, _, _, _, h4, _⟩ := hall l hl'
    exact generateList_single hl.sane h4
  have hnamed : ∀ l ∈ ls, ∀ p ∈ l.2.items, Named p := by
    intro l hl'
    obtain ⟨_, _, _, _, _, es, _, h5, h6⟩ := hall l hl'
    obtain ⟨p, hp1, hp2⟩ := hone l hl'
    rw [← h6]
    refine run_named hl.sane h5 ?_
    intro q hq
    change q ∈ l.1.items at hq
    rw [hp1, List.mem_singleton] at hq
    exact hq ▸ hp2
  have hrows : ∀ (c : D → Bool) (k : Kind), (∀ p : Particle D, Named p → c p.charge = decide (p.kind = k)) →
      (ls.map fun l => rowsWith c l.2.items) =
        (ls.map fun l => l.2.items.filter fun p => p.kind = k).map (·.flatMap finalRow) := by
    intro c k hck
    rw [List.map_map]
    apply List.map_congr_left
    intro l hl'
    simp only [Function.comp, rowsWith]
    congr 1
    apply List.filter_congr
    intro p hp'
    exact hck p (hnamed l hl' p hp')
  have hfin : ∀ k, finalOf k ls = (ls.map fun l => l.2.items.filter fun p => p.kind = k).flatten :=
    fun k => List.flatMap_def ..
  refine ⟨by rw [hlen, hnp]; rfl, ?_, ?_, ?_, ?_, ?_⟩
  · intro l hl'
    obtain ⟨p, h, _⟩ := hone l hl'
    rw [h]; rfl
  · rw [List.flatMap_def]
    refine oneRowEach (by norm_num) (tid := if e.omp = true then e.tid else fun _ => 0) (n := t.toNat)
      (fun _ => rfl) (by simpa using htid) ?_
    rw [hrs]
    simp only [getInput, after, Results.empty, List.map_map]
    rfl
  · rw [hfin]
    refine oneRowEach (by norm_num) (tid := if e.omp = true then e.tid else fun _ => 0) (n := t.toNat)
      (fun _ => rfl) (by simpa using htid) ?_
    rw [← hrows isEl _ (fun p hp => isEl_iff hl hp), hrs]
    rfl
  · rw [hfin]
    refine oneRowEach (by norm_num) (tid := if e.omp = true then e.tid else fun _ => 0) (n := t.toNat)
      (fun _ => rfl) (by simpa using htid) ?_
    rw [← hrows isPo _ (fun p hp => isPo_iff hl hp), hrs]
    rfl
  · rw [hfin]
    refine oneRowEach (by norm_num) (tid := if e.omp = true then e.tid else fun _ => 0) (n := t.toNat)
      (fun _ => rfl) (by simpa using htid) ?_
    rw [← hrows isPh _ (fun p hp => isPh_iff hl hp), hrs]
    rfl

theorem i32_small {k : Nat} (h : k < 2 ^ 31) : Mpi.i32 k = k := by
  unfold Mpi.i32
  rw [Int.bmod_def]
  split <;> omega

theorem total_single {ls : List (PList D × PList D)} (h : ∀ l ∈ ls, l.1.items.length = 1) :
    (ls.flatMap fun l => l.1.items).length = ls.length := by
  induction ls with
  | nil => rfl
  | cons l ls ih =>
    rw [List.flatMap_cons, List.length_append, h l (by simp), ih fun x hx => h x (by simp [hx]),
      List.length_cons]
    omega

/-- C73 for a number of events that is not negative, as long as no species has 2³¹ or more final
particles: the shapes of the four arrays. -/
theorem C73_shape_partial (hl : ChargeLits D) (e : Env D) (n : Nat) (t : Int) (m m' : Mgr D)
    (ls : List (PList D × PList D)) (hn : n < 2 ^ 31) (hb : BeamOn e n t m (.ok (.ran m' ls))) :
    ((getInput m'.results).rows = n ∧ (getInput m'.results).columns = 6 ∧
      (getInput m'.results).data.length = n * 6) ∧
    (∀ a k, (a, k) ∈ [(getElectrons m'.results, Kind.electron), (getPositrons m'.results, .positron),
      (getPhotons m'.results, .photon)] → (finalOf k ls).length < 2 ^ 31 →
      a.rows = (finalOf k ls).length ∧ a.columns = 7 ∧ a.data.length = (finalOf k ls).length * 7) := by
  obtain ⟨h1, h2, h3, h4, h5, h6⟩ := C73_content hl e n t m m' ls hb
  have hu : RunMgr.u32 n = n := by unfold RunMgr.u32; omega
  have hlen : ∀ {a : Array2 D} {w : Nat} {row : Particle D → List D} {ps : List (Particle D)},
      OneRowEach a w row ps → a.data.length = ps.length * w := by
    intro a w row ps h
    obtain ⟨qs, hq, hd⟩ := h.data
    rw [hd, ← hq.length_eq, List.length_flatMap]
    clear hq hd
    induction qs with
    | nil => simp
    | cons q qs ih => rw [List.map_cons, List.sum_cons, ih, h.width, List.length_cons]; ring
  have ht := total_single h2
  rw [h1, hu] at ht
  refine ⟨⟨?_, h3.columns, ?_⟩, ?_⟩
  · rw [h3.rows, ht, i32_small hn]
  · rw [hlen h3, ht]
  · intro a k ha hk
    simp only [List.mem_cons, Prod.mk.injEq, List.not_mem_nil, or_false] at ha
    rcases ha with ⟨rfl, rfl⟩ | ⟨rfl, rfl⟩ | ⟨rfl, rfl⟩
    · exact ⟨by rw [h4.rows, i32_small hk], h4.columns, hlen h4⟩
    · exact ⟨by rw [h5.rows, i32_small hk], h5.columns, hlen h5⟩
    · exact ⟨by rw [h6.rows, i32_small hk], h6.columns, hlen h6⟩

/-- With zero threads no event can be run: a call that returns has run no event. -/
theorem C73_zero_threads (hl : ChargeLits D) (e : Env D) (n : Int) (m m' : Mgr D)
    (ls : List (PList D × PList D)) (hb : BeamOn e n 0 m (.ok (.ran m' ls))) :
    ls = [] ∧ RunMgr.u32 n = 0 := by
  have h1 := (C73_content hl e n 0 m m' ls hb).1
  have hls : ls = [] := by
    by_cases hp : Passes e 0
    swap
    · have := beamOn_gate hb hp
      cases this
    obtain ⟨m1, _, ⟨_, ho⟩ | ⟨_, _, ho⟩ | ⟨_, _, s, ls', rs, r, _, hev, ho⟩⟩ := beamOn_cases hb hp
    · cases ho
    · cases ho
    cases ho
    cases ls with
    | nil => rfl
    | cons l ls =>
      have := events_tid hl.sane hev _ _ _ rfl 0 (by simp)
      simp [Results.empty] at this
  rw [hls] at h1
  exact ⟨hls, h1.symm⟩

end generic

open RunWitness in
/-- C73 is false for a negative number of events: `beamOn(-1, 1)` runs 2³² − 1 events, and the input
array gets −1 rows. -/
theorem C73_refuted (tables : Main.Tables ℝ) (rng : Rng ℝ) :
    ∃ e m' ls, BeamOn e (-1) 1 m4 (.ok (.ran m' ls)) ∧ ls.length = 2 ^ 32 - 1 ∧
      (getInput m'.results).rows = -1 := by
  obtain ⟨m', ls, hb⟩ := ran tables rng (-1) 1 (by norm_num)
  obtain ⟨h1, h2, h3, _⟩ := C73_content chargeReal _ _ _ _ _ _ hb
  have hu : RunMgr.u32 (-1) = 2 ^ 32 - 1 := by unfold RunMgr.u32; omega
  rw [hu] at h1
  refine ⟨_, m', ls, hb, h1, ?_⟩
  rw [h3.rows, total_single h2, h1]
  unfold Mpi.i32
  rw [Int.bmod_def]
  split <;> omega

open RunWitness in
/-- A run of three events on two threads. -/
example (tables : Main.Tables ℝ) (rng : Rng ℝ) : ∃ e m' ls, BeamOn e 3 2 m4 (.ok (.ran m' ls)) ∧
    (getInput m'.results).rows = 3 ∧ (getInput m'.results).data.length = 18 := by
  obtain ⟨m', ls, hb⟩ := ran tables rng 3 2 (by norm_num)
  have h := (C73_shape_partial chargeReal _ 3 _ _ _ _ (by norm_num) hb).1
  exact ⟨_, m', ls, hb, h.1, h.2.2⟩

end QED
