import Verif.Lemmas.Program

set_option linter.unusedSectionVars false
set_option autoImplicit false

/-!
# Lemmas on the whole program: the loops over events and sources
-/

namespace QED

open Dbl MCTools Numerics OutMgr Main OutSpec

variable {D : Type} [Dbl D]

/-! ## Output at the end of a source -/

/-- A stored primary: eight numbers. -/
def IsRow (b : Option (Buf D)) : Prop := ∃ r : List D, r.length = 8 ∧ b = some (full [r])

theorem writeRow_total (vs : List D) (b : Buf D) (i : Nat) (h : i + vs.length ≤ b.length) :
    ∃ b', b.writeRow i vs = .ok b' ∧ b'.length = b.length := by
  induction vs generalizing b i with
  | nil => exact ⟨b, rfl, rfl⟩
  | cons v vs ih =>
    simp only [List.length_cons] at h
    obtain ⟨b', h1, h2⟩ := ih (b.set i (some v)) (i + 1) (by simp; omega)
    refine ⟨b', ?_, by simpa using h2⟩
    rw [Buf.writeRow, Buf.write, if_pos (by omega), Res.ok_bind]
    exact h1

theorem copyPrimary_noUB (srcs : List (Option (Buf D))) (h : ∀ b ∈ srcs, IsRow b) (i : Nat)
    (dst : Buf D) (hd : (i + srcs.length) * 8 ≤ dst.length) : (copyPrimary srcs i dst).NoUB := by
  induction srcs generalizing i dst with
  | nil => trivial
  | cons b srcs ih =>
    obtain ⟨r, hr, rfl⟩ := h _ List.mem_cons_self
    simp only [List.length_cons] at hd
    have h1 : Eight [r] := by intro x hx; rw [List.mem_singleton.1 hx]; exact hr
    have hrd := row_read h1 0 (by simp)
    simp only [Nat.zero_mul, List.getElem_cons_zero] at hrd
    have hu : u32 (i * 8) ≤ i * 8 := Nat.mod_le _ _
    obtain ⟨dst', h2, h3⟩ := writeRow_total r dst (u32 (i * 8)) (by omega)
    simp only [copyPrimary, deref, Res.ok_bind]
    rw [hrd, Res.ok_bind, h2, Res.ok_bind]
    exact ih (fun b hb => h b (List.mem_cons_of_mem _ hb)) (i + 1) dst' (by rw [h3]; omega)

theorem outputTracks_total (m : OutMgr D) (he : m.file = H5.empty) :
    m.outputTracks.NoUB ∧ ∀ m', m.outputTracks = .ok m' → m'.file = H5.empty ∧ m.tracks = [] := by
  unfold outputTracks
  rw [he, addGroup_or _ _ (by simp), Res.ok_bind]
  cases ht : m.tracks with
  | nil => exact ⟨trivial, fun m' h => by cases h; exact ⟨rfl, rfl⟩⟩
  | cons t ts =>
    unfold writeTracks writeTrack trackSets
    dsimp only
    rw [empty_addGroup _ (by simp), Res.ok_bind, H5.addArray2D,
      empty_createDataSet _ _ _ _ (by simp)]
    exact ⟨trivial, fun m' h => by cases h⟩

theorem outputSource_total (m : OutMgr D) (he : m.file = H5.empty) (hp : ∀ b ∈ m.primary, IsRow b) :
    m.outputSource.NoUB ∧ ∀ m', m.outputSource ≠ .ok m' := by
  unfold outputSource
  rw [he, addGroup_or _ _ (by simp), Res.ok_bind]
  have h := copyPrimary_noUB m.primary hp 0 (Buf.new (m.primary.length * 8)) (by simp [Buf.new])
  cases hc : copyPrimary m.primary 0 (Buf.new (m.primary.length * 8)) with
  | ok b =>
    rw [Res.ok_bind, H5.addArray2D, empty_createDataSet _ _ _ _ (by simp [sourcePath])]
    exact ⟨trivial, fun m' h => by cases h⟩
  | exit c => exact ⟨trivial, fun m' h => by cases h⟩
  | throw w => exact ⟨trivial, fun m' h => by cases h⟩
  | ub w => rw [hc] at h; exact h.elim

theorem outputEvents_total (m : OutMgr D) (output tracking : Bool) (he : m.file = H5.empty)
    (hp : output = true → ∀ b ∈ m.primary, IsRow b) :
    (m.outputEvents output tracking).NoUB ∧ ∀ m', m.outputEvents output tracking = .ok m' →
      m'.file = H5.empty ∧ output = false ∧ (tracking = true → m.tracks = []) := by
  unfold outputEvents outputSourceIf
  cases output with
  | true =>
    obtain ⟨h1, h2⟩ := outputSource_total m he (hp rfl)
    refine ⟨h1.bind fun a ha => absurd ha (h2 a), fun m' h => ?_⟩
    obtain ⟨a, ha, -⟩ := Res.bind_eq_ok.mp h
    exact absurd ha (h2 a)
  | false =>
    rw [if_neg (by decide), Res.ok_bind]
    cases tracking with
    | false => exact ⟨trivial, fun m' h => by cases h; exact ⟨he, rfl, fun h => by cases h⟩⟩
    | true =>
      rw [if_pos rfl]
      obtain ⟨h1, h2⟩ := outputTracks_total m he
      exact ⟨h1, fun m' h => ⟨(h2 m' h).1, rfl, fun _ => (h2 m' h).2⟩⟩

/-! ## Events of a source -/

/-- What holds before event `j` of a source with `n` events and `N` histograms. -/
structure EventInv (output tracking : Bool) (n N j : Nat) (s : Source D × World D) : Prop where
  full : s.1.Full
  total : s.1.nPart = n
  count : s.1.partCount = j
  hists : Shaped N s.2.hists
  file : s.2.out.file = H5.empty
  sized : output = true → s.2.out.Sized n
  prim : output = true → ∀ i < j, ∃ b, s.2.out.primary[i]? = some b ∧ IsRow b
  tracks : tracking = true → 0 < j → s.2.out.tracks ≠ []

theorem particleRow_length (j : Nat) (p : Particle D) : (particleRow j p).length = 8 := rfl

theorem storePrimaryIf_total {output tracking : Bool} {n N j : Nat} {s : Source D × World D}
    (hi : EventInv output tracking n N j s) (hj : j < n) (l : PList D) (p : Particle D)
    (hl : l.items = [p]) : ∃ m, storePrimaryIf output s.2.out l j = .ok m ∧ m.file = H5.empty ∧
      m.tracks = s.2.out.tracks ∧ (output = true → m.Sized n) ∧
      (output = true → ∀ i < j + 1, ∃ b, m.primary[i]? = some b ∧ IsRow b) := by
  unfold storePrimaryIf
  cases output with
  | false => exact ⟨_, rfl, hi.file, rfl, (fun h => by cases h), fun h => by cases h⟩
  | true =>
    have hs := hi.sized rfl
    rw [if_pos rfl, storePrimary_eq hs l j hj (p := p) (by rw [hl]; rfl)]
    refine ⟨_, rfl, hi.file, rfl, fun _ => ⟨by simpa using hs.prim, hs.ec, hs.pc, hs.gc, hs.e, hs.p, hs.g⟩,
      fun _ i hlt => ?_⟩
    dsimp only
    by_cases hij : i = j
    · subst hij
      rw [List.getElem?_set_self (by rw [hs.prim]; exact hj)]
      exact ⟨_, rfl, _, particleRow_length i p, rfl⟩
    · rw [List.getElem?_set_ne (fun h => hij h.symm)]
      exact hi.prim rfl i (by omega)

theorem storeFinalIf_total {output : Bool} {n j : Nat} (hj : j < n) {m : OutMgr D}
    (hs : output = true → m.Sized n) (l : PList D) (hl : l.items.length < 2 ^ 29) :
    ∃ m', storeFinalIf output m l j = .ok m' ∧ m'.file = m.file ∧ m'.tracks = m.tracks ∧
      m'.primary = m.primary ∧ (output = true → m'.Sized n) := by
  unfold storeFinalIf
  cases output with
  | false => exact ⟨_, rfl, rfl, rfl, rfl, fun h => by cases h⟩
  | true =>
    have hs := hs rfl
    rw [if_pos rfl, storeFinal_eq hs l j hj hl]
    refine ⟨_, rfl, rfl, rfl, rfl, fun _ => ?_⟩
    exact ⟨hs.prim, by simpa [withFinal] using hs.ec, by simpa [withFinal] using hs.pc,
      by simpa [withFinal] using hs.gc, by simpa [withFinal] using hs.e,
      by simpa [withFinal] using hs.p, by simpa [withFinal] using hs.g⟩

theorem defaultMax_small : PList.defaultMax < 2 ^ 29 := by decide

theorem runEvent_good (cfg : SimCfg D) (hg : ∀ proc ∈ cfg.procs, proc.GoodTables) (fuel : Nat)
    {output tracking : Bool} {n N j : Nat} {s : Source D × World D}
    (hi : EventInv output tracking n N j s) (hj : j < n) :
    (runEvent cfg fuel output tracking j s).Good (EventInv output tracking n N (j + 1)) := by
  have hc : s.1.partCount < s.1.nPart := by rw [hi.count, hi.total]; exact hj
  unfold runEvent
  rcases generateList_total s.1 hi.full hc s.2.rng with he | ⟨p, l, r', he, hl, hmax⟩
  · rw [he]
    intro o ho
    obtain rfl := Option.some.inj ho
    exact ⟨trivial, fun a h => by cases h⟩
  · rw [he, Timed.ok_bind]
    dsimp only
    obtain ⟨m, hm, hfile, htracks, hsized, hprim⟩ := storePrimaryIf_total hi hj l p hl
    rw [hm, Timed.ok_bind]
    refine Timed.Good.bind (P := fun e => Shaped N e.hists ∧ Grows l e.list) ?_ ?_
    · intro o ho
      obtain ⟨k, hk⟩ := (timeLoop_iff_run cfg _ o).mp ⟨fuel, ho⟩
      have ht := run_total cfg hg N (.init l r' s.2.hists) hi.hists k o hk
      refine ⟨ht.1, fun e he => ⟨ht.2 e he, ?_⟩⟩
      subst he
      exact reach_grows (run_ok_iff.mp hk).1.reach
    · rintro e ⟨hh, hgrow⟩
      have hr := fillRest_total e.list e.histCount N e.hists hh
      refine Timed.Good.bind (Timed.Good.lift hr.1 hr.2) fun hists hhs => ?_
      have hlen : 1 ≤ e.list.items.length := by have := hgrow.length; rw [hl] at this; simpa using this
      have hcap : e.list.items.length ≤ PList.defaultMax := by
        rw [← hmax]; exact hgrow.cap (by rw [hl, hmax]; show 1 ≤ PList.defaultMax; decide)
      obtain ⟨m', hm', hf', ht', hp', hs'⟩ := storeFinalIf_total (output := output) hj hsized e.list
        (lt_of_le_of_lt hcap defaultMax_small)
      rw [hm', Timed.ok_bind]
      refine Timed.Good.pure ⟨⟨hi.full.x, hi.full.y, hi.full.z, hi.full.theta, hi.full.phi,
        hi.full.energy⟩, hi.total, congrArg (· + 1) hi.count, hhs, ?_, ?_, ?_, ?_⟩
      · unfold storeTrackIf; split
        · exact hf'.trans hfile
        · exact hf'.trans hfile
      · intro ho
        have := hs' ho
        unfold storeTrackIf; split
        · exact ⟨this.prim, this.ec, this.pc, this.gc, this.e, this.p, this.g⟩
        · exact this
      · intro ho
        have : (storeTrackIf tracking m' e.list j).primary = m.primary := by
          unfold storeTrackIf; split <;> exact hp'
        dsimp only
        rw [this]
        exact hprim ho
      · intro ht _
        subst ht
        intro h
        have := congrArg List.length h
        simp [storeTrackIf, storeTrack] at this
        rw [this.2] at hlen
        simp at hlen

theorem runEvents_good (cfg : SimCfg D) (hg : ∀ proc ∈ cfg.procs, proc.GoodTables) (fuel : Nat)
    {output tracking : Bool} {n N : Nat} (k j : Nat) (hkj : j + k = n) (s : Source D × World D)
    (hi : EventInv output tracking n N j s) :
    (runEvents cfg fuel output tracking k j s).Good (EventInv output tracking n N n) := by
  induction k generalizing j s with
  | zero =>
    rw [Nat.add_zero] at hkj
    subst hkj
    exact Timed.Good.pure hi
  | succ k ih =>
    exact (runEvent_good cfg hg fuel hi (by omega)).bind fun s' hs' => ih (j + 1) (by omega) s' hs'

/-! ## Sources -/

/-- What holds between sources. -/
structure WorldInv (N : Nat) (w : World D) : Prop where
  hists : Shaped N w.hists
  file : w.out.file = H5.empty

theorem runSource_good (cfg : SimCfg D) (hg : ∀ proc ∈ cfg.procs, proc.GoodTables) (fuel : Nat)
    (tracking : Bool) (N : Nat) (s : Source D × Bool) (hf : s.1.Full) (hc : s.1.partCount = 0)
    (w : World D) (hw : WorldInv N w) :
    (runSource cfg fuel tracking s w).Good fun w' =>
      WorldInv N w' ∧ s.2 = false ∧ (tracking = true → s.1.nPart = 0) := by
  unfold runSource
  have hi : EventInv s.2 tracking s.1.nPart N 0
      (s.1, { w with out := initSourceIf s.2 w.out s.1.nPart }) := by
    refine ⟨hf, rfl, hc, hw.hists, ?_, ?_, fun _ i h => by omega, fun _ h => by omega⟩
    · dsimp only; unfold initSourceIf; split <;> exact hw.file
    · intro ho
      dsimp only
      rw [initSourceIf, if_pos ho]
      exact initSource_sized _ _
  refine (runEvents_good cfg hg fuel s.1.nPart 0 (by omega) _ hi).bind ?_
  rintro ⟨src, w1⟩ h1
  dsimp only
  have hrows : s.2 = true → ∀ b ∈ w1.out.primary, IsRow b := by
    intro ho b hb
    obtain ⟨i, hlt, rfl⟩ := List.mem_iff_getElem.mp hb
    have hn := (h1.sized ho).prim
    obtain ⟨b, hb1, hb2⟩ := h1.prim ho i (by dsimp only at hn; omega)
    rw [List.getElem?_eq_getElem hlt] at hb1
    exact Option.some.inj hb1 ▸ hb2
  have ho := outputEvents_total w1.out s.2 tracking h1.file hrows
  refine Timed.Good.bind (Timed.Good.lift ho.1 ho.2) fun m hm => Timed.Good.pure ?_
  refine ⟨⟨h1.hists, hm.1⟩, hm.2.1, fun ht => ?_⟩
  by_contra hne
  exact h1.tracks ht (by omega) (hm.2.2 ht)

theorem runSources_good (cfg : SimCfg D) (hg : ∀ proc ∈ cfg.procs, proc.GoodTables) (fuel : Nat)
    (tracking : Bool) (N : Nat) (ss : List (Source D × Bool))
    (hs : ∀ s ∈ ss, s.1.Full ∧ s.1.partCount = 0) (w : World D) (hw : WorldInv N w) :
    (runSources cfg fuel tracking ss w).Good fun w' =>
      WorldInv N w' ∧ ∀ s ∈ ss, s.2 = false ∧ (tracking = true → s.1.nPart = 0) := by
  induction ss generalizing w with
  | nil => exact Timed.Good.pure ⟨hw, fun s h => by cases h⟩
  | cons s ss ih =>
    obtain ⟨h1, h2⟩ := hs s List.mem_cons_self
    refine (runSource_good cfg hg fuel tracking N s h1 h2 w hw).bind ?_
    rintro w1 ⟨hw1, hs1, hs2⟩
    refine (ih (fun t ht => hs t (List.mem_cons_of_mem _ ht)) w1 hw1).mono ?_
    rintro w2 ⟨hw2, h⟩
    refine ⟨hw2, fun t ht => ?_⟩
    rcases List.mem_cons.mp ht with rfl | ht
    · exact ⟨hs1, hs2⟩
    · exact h t ht

theorem outputHists_total (m : OutMgr D) (hs : List (Hist D)) :
    (outputHists m hs).NoUB ∧ ∀ m', outputHists m hs = .ok m' → hs = [] ∧ m' = m := by
  cases hs with
  | nil => exact ⟨trivial, fun m' h => by cases h; exact ⟨rfl, rfl⟩⟩
  | cons h hs =>
    unfold outputHists
    rw [C80_histogram_refuted]
    exact ⟨trivial, fun m' h => by cases h⟩

/-! ## Set-up -/

/-- The energies of a source can be sampled: `std::uniform_real_distribution(a, b)` requires
`a ≤ b`. -/
def EnergiesInOrder (p : ParticleParams D) : Prop :=
  p.distro = "gaussian" ∨ p.distro = "Gaussian" ∨ (p.energy1 <=. p.energy2) = true

/-- The azimuth can be sampled. -/
def AngleInOrder (D : Type) [Dbl D] : Prop := ((lit 0 : D) <=. lit 2 *. Units.pi) = true

theorem makeSource_total (ha : AngleInOrder D) (g : GeneralParams D) (p : ParticleParams D)
    (raw : RawDraws D) (hr : raw.Sized p.number) :
    (EnergiesInOrder p → ∃ s, makeSource g p raw = .ok s ∧ s.Full ∧ s.partCount = 0 ∧
      s.nPart = p.number) ∧
    (¬ EnergiesInOrder p → ∃ w, makeSource g p raw = .ub w) := by
  unfold makeSource Source.new
  dsimp only
  have h1 : sampleUniform (lit 0) (lit 2 *. Units.pi : D) raw.uPhi =
      .ok (raw.uPhi.map fun u => u *. (lit 2 *. Units.pi -. lit 0) +. lit 0) := by
    unfold AngleInOrder at ha; unfold sampleUniform; rw [if_pos ha]
  rw [h1, Res.ok_bind]
  obtain ⟨z1, z2, z3, z4, z5, z6⟩ := hr
  constructor
  · intro h
    have : ∃ es, Source.sampleEnergy p.distro p.energy1 p.energy2 raw.rawE = .ok es ∧
        es.length = p.number := by
      unfold Source.sampleEnergy
      split
      · exact ⟨_, rfl, by simp [sampleNorm, z6]⟩
      · next hn =>
        rcases h with h | h | h
        · exact absurd (Or.inl h) hn
        · exact absurd (Or.inr h) hn
        · have : sampleUniform p.energy1 p.energy2 raw.rawE =
              .ok (raw.rawE.map fun u => u *. (p.energy2 -. p.energy1) +. p.energy1) := by
            unfold sampleUniform; rw [if_pos h]
          split <;> exact ⟨_, this, by simp [z6]⟩
    obtain ⟨es, he, hlen⟩ := this
    rw [he, Res.ok_bind]
    refine ⟨_, rfl, ⟨?_, ?_, ?_, ?_, ?_, ?_⟩, rfl, rfl⟩
    · simpa [sampleNorm] using z1
    · simpa [sampleNorm] using z2
    · simpa [sampleNorm] using z3
    · simpa [sampleNorm] using z4
    · simpa using z5
    · exact hlen
  · intro h
    have : ∃ w, Source.sampleEnergy p.distro p.energy1 p.energy2 raw.rawE = .ub w := by
      unfold Source.sampleEnergy
      rw [if_neg (fun hd => h (hd.elim Or.inl fun h => Or.inr (Or.inl h)))]
      have : sampleUniform p.energy1 p.energy2 raw.rawE =
          .ub "uniform_real_distribution: requires a <= b" := by
        unfold sampleUniform; rw [if_neg (fun hh => h (Or.inr (Or.inr hh)))]
      split <;> exact ⟨_, this⟩
    obtain ⟨w, hw⟩ := this
    rw [hw]
    exact ⟨w, rfl⟩

theorem makeSources_total (ha : AngleInOrder D) (g : GeneralParams D)
    (raws : Nat → Nat → RawDraws D) (hr : ∀ i n, (raws i n).Sized n) (ps : List (ParticleParams D))
    (i : Nat) :
    ((∀ p ∈ ps, EnergiesInOrder p) → ∃ ss, makeSources g raws i ps = .ok ss ∧
      List.Forall₂ (fun p s => s.1.Full ∧ s.1.partCount = 0 ∧ s.1.nPart = p.number ∧
        s.2 = p.output) ps ss) ∧
    ((∃ p ∈ ps, ¬ EnergiesInOrder p) → ∃ w, makeSources g raws i ps = .ub w) := by
  induction ps generalizing i with
  | nil => exact ⟨fun _ => ⟨[], rfl, .nil⟩, fun ⟨p, h, _⟩ => by cases h⟩
  | cons p ps ih =>
    obtain ⟨h1, h2⟩ := makeSource_total ha g p (raws i p.number) (hr i p.number)
    unfold makeSources
    constructor
    · intro h
      obtain ⟨s, hs, hf, hc, hn⟩ := h1 (h p List.mem_cons_self)
      obtain ⟨ss, hss, hall⟩ := (ih (i + 1)).1 fun q hq => h q (List.mem_cons_of_mem _ hq)
      rw [hs, Res.ok_bind, hss, Res.ok_bind]
      exact ⟨_, rfl, .cons ⟨hf, hc, hn, rfl⟩ hall⟩
    · rintro ⟨q, hq, hbad⟩
      by_cases hp : EnergiesInOrder p
      · obtain ⟨s, hs, -⟩ := h1 hp
        have hq' : q ∈ ps := by
          rcases List.mem_cons.mp hq with rfl | h
          · exact absurd hp hbad
          · exact h
        obtain ⟨w, hw⟩ := (ih (i + 1)).2 ⟨q, hq', hbad⟩
        rw [hs, Res.ok_bind, hw]
        exact ⟨w, rfl⟩
      · obtain ⟨w, hw⟩ := h2 hp
        rw [hw]
        exact ⟨w, rfl⟩

theorem makeHists_shaped (garbage : Nat → Nat) (hs : List (HistogramParams D))
    (h : ∀ p ∈ hs, p.bins < 2 ^ 32) (i : Nat) : Shaped hs.length (makeHists garbage i hs) := by
  induction hs generalizing i with
  | nil => exact ⟨fun g hg => (by cases hg), rfl⟩
  | cons p hs ih =>
    obtain ⟨h1, h2⟩ := ih (fun q hq => h q (List.mem_cons_of_mem _ hq)) (i + 1)
    refine ⟨fun g hg => ?_, by simp [makeHists, h2]⟩
    rcases List.mem_cons.mp hg with rfl | hg
    · exact ⟨by simp [makeHist, Hist.new, Hist.binCentres], by simp [makeHist, Hist.new],
        h p List.mem_cons_self⟩
    · exact h1 g hg

theorem run_good (input : Input D) (cfg : SimCfg D) (hg : ∀ proc ∈ cfg.procs, proc.GoodTables)
    (ha : AngleInOrder D) (raws : Nat → Nat → RawDraws D) (hr : ∀ i n, (raws i n).Sized n)
    (hb : ∀ p ∈ input.histograms, p.bins < 2 ^ 32) (garbage : Nat → Nat) (rng : Rng D) (fuel : Nat)
    (he : ∀ p ∈ input.particles, EnergiesInOrder p) :
    (run input cfg raws garbage rng fuel).Good fun f => f = H5.empty ∧ input.histograms = [] ∧
      ∀ p ∈ input.particles, p.output = false ∧ (input.general.tracking = true → p.number = 0) := by
  unfold run
  obtain ⟨ss, hss, hall⟩ := (makeSources_total ha input.general raws hr input.particles 0).1 he
  obtain ⟨m, hm, hfile, -⟩ := new_file (D := D) none
  rw [hss, Timed.ok_bind, hm, Timed.ok_bind]
  have hfull : ∀ s ∈ ss, s.1.Full ∧ s.1.partCount = 0 := by
    intro s hs
    obtain ⟨i, hi, rfl⟩ := List.mem_iff_getElem.mp hs
    obtain ⟨h1, h2, -⟩ := (List.forall₂_iff_get.mp hall).2 i (by rw [hall.length_eq]; exact hi) hi
    exact ⟨h1, h2⟩
  have hw : WorldInv input.histograms.length
      (⟨rng, makeHists garbage 0 input.histograms, m⟩ : World D) :=
    ⟨makeHists_shaped garbage _ hb 0, hfile⟩
  refine (runSources_good cfg hg fuel _ _ ss hfull _ hw).bind ?_
  rintro w ⟨hw, hs⟩
  have ho := outputHists_total w.out w.hists
  refine Timed.Good.bind (Timed.Good.lift ho.1 ho.2) ?_
  rintro m' ⟨h1, rfl⟩
  refine Timed.Good.pure ⟨hw.file, ?_, fun p hp => ?_⟩
  · have := hw.hists.length
    rw [h1] at this
    exact List.eq_nil_of_length_eq_zero this.symm
  · obtain ⟨i, hi, rfl⟩ := List.mem_iff_getElem.mp hp
    have hi' : i < ss.length := by rw [← hall.length_eq]; exact hi
    obtain ⟨-, -, h3, h4⟩ := (List.forall₂_iff_get.mp hall).2 i hi hi'
    obtain ⟨h5, h6⟩ := hs ss[i] (List.getElem_mem hi')
    exact ⟨h4.symm.trans h5, fun ht => h3.symm.trans (h6 ht)⟩

/-! ## Start -/

/-- Tables of consistent sizes. -/
structure Main.Tables.Good (t : Tables D) : Prop where
  h : GoodAxis t.hAxis t.hData
  eta : 2 ≤ t.etaAxis.length ∧ t.etaAxis.length < 2 ^ 32
  rows : t.phEnTable.length = t.etaAxis.length ∧ t.chiAxis.length = t.etaAxis.length
  row : ∀ (i : Nat) (a c : List D), t.phEnTable[i]? = some a → t.chiAxis[i]? = some c → GoodAxis a c
  pair : GoodAxis t.tAxis t.tData
  chi : 2 ≤ t.bwChiAxis.length ∧ t.bwChiAxis.length < 2 ^ 32
  bwRows : t.bwFractTable.length = t.bwChiAxis.length
  bwRow : ∀ a ∈ t.bwFractTable, GoodAxis a t.bwFractAxis

theorem setup_total (t : Tables D) (ht : t.Good) (i : Input D) :
    OkOrOne (setup t i) ∧ ∀ cfg, setup t i = .ok cfg →
      (∀ proc ∈ cfg.procs, proc.GoodTables) ∧ cfg.dt = i.general.timeStep ∧
      cfg.timeEnd = i.general.timeEnd := by
  have hem : ∀ field dt a b c, (emissionCfg t field dt a b c).GoodTables :=
    fun _ _ _ _ _ => ⟨ht.h, ht.eta, ht.rows, ht.row⟩
  have hbw : ∀ field dt, (bwCfg t field dt).GoodTables := fun _ _ => ⟨ht.pair, ht.chi, ht.bwRows, ht.bwRow⟩
  have hme : ∀ cfg : EmissionCfg D, cfg.GoodTables → ∀ ph, OkOrOne (makeEmission cfg ph) ∧
      ∀ x, makeEmission cfg ph = .ok x → x.2.GoodTables := by
    intro cfg hc ph
    unfold makeEmission
    split
    · exact ⟨.ok _, fun x h => by cases h; exact hc⟩
    · split
      · exact ⟨.ok _, fun x h => by cases h; exact hc⟩
      · split
        · exact ⟨.ok _, fun x h => by cases h; exact hc⟩
        · exact ⟨.exit, fun x h => by cases h⟩
  have hmf : OkOrOne (makeField i.field) := by
    unfold makeField; split <;> first | exact .ok _ | exact .exit
  unfold setup
  constructor
  · refine hmf.bind fun field => OkOrOne.bind ?_ fun x => .ok _
    unfold makePhysics
    refine (hme _ (hem _ _ _ _ _) _).1.bind fun x => ?_
    dsimp only
    split <;> exact .ok _
  · intro cfg h
    obtain ⟨field, -, h⟩ := Res.bind_eq_ok.mp h
    obtain ⟨⟨push, procs⟩, hp, h⟩ := Res.bind_eq_ok.mp h
    obtain rfl := Res.ok.inj h
    refine ⟨?_, rfl, rfl⟩
    unfold makePhysics at hp
    obtain ⟨⟨push', em⟩, h1, h2⟩ := Res.bind_eq_ok.mp hp
    have hgood := (hme _ (hem _ _ _ _ _) _).2 _ h1
    dsimp only at h2 hgood ⊢
    split at h2
    · cases h2
      intro proc hproc
      simp only [List.mem_cons, List.not_mem_nil, or_false] at hproc
      rcases hproc with rfl | rfl
      · exact hgood
      · exact hbw _ _
    · cases h2
      intro proc hproc
      simp only [List.mem_cons, List.not_mem_nil, or_false] at hproc
      subst hproc
      exact hgood

theorem toU32_lt (n : Int) : FileParser.toU32 n < 2 ^ 32 := by
  unfold FileParser.toU32; omega

theorem parse_bins {r : Reader} {i : Input D} (h : FileParser.parse r = .ok i) :
    ∀ p ∈ i.histograms, p.bins < 2 ^ 32 := by
  obtain ⟨-, u, g, f, ps, hs, -, -, -, h5, rfl⟩ := parse_eq_ok.mp h
  intro p hp
  obtain ⟨j, hj, rfl⟩ := List.mem_iff_getElem.mp hp
  have h3 := (readNumbered_ok h5).2.2 j hj
  unfold FileParser.readHistogram at h3
  have := Res.ok.inj h3
  rw [← this]
  exact toU32_lt _

theorem start_total (t : Tables D) (ht : t.Good) (files : List Char → Option (List Char))
    (args : List (List Char)) : (start t files args).NoUB ∧
    ∀ x, start t files args = .ok x → (∀ proc ∈ x.2.procs, proc.GoodTables) ∧
      x.2.dt = x.1.general.timeStep ∧ x.2.timeEnd = x.1.general.timeEnd ∧
      ∀ p ∈ x.1.histograms, p.bins < 2 ^ 32 := by
  unfold start
  constructor
  · refine Res.NoUB.bind ?_ fun path _ => Res.NoUB.bind ?_ fun r _ =>
      (parse_okOrOne r).noUB.bind fun i _ => (setup_total t ht i).1.noUB.bind fun _ _ => trivial
    · unfold commandLine
      repeat' split
      all_goals trivial
    · unfold Reader.new
      split <;> trivial
  · rintro x h
    obtain ⟨path, -, h⟩ := Res.bind_eq_ok.mp h
    obtain ⟨r, -, h⟩ := Res.bind_eq_ok.mp h
    obtain ⟨i, hi, h⟩ := Res.bind_eq_ok.mp h
    obtain ⟨cfg, hc, h⟩ := Res.bind_eq_ok.mp h
    obtain rfl := Res.ok.inj h
    obtain ⟨h1, h2, h3⟩ := (setup_total t ht i).2 cfg hc
    exact ⟨h1, h2, h3, parse_bins hi⟩

end QED
