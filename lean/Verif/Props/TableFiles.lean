import Verif.Lemmas.TableFiles
import Verif.Props.Tables
import Mathlib.Analysis.SpecialFunctions.Log.Base
import Mathlib.Analysis.SpecialFunctions.Pow.Real

set_option autoImplicit false
set_option linter.unusedSectionVars false

/-!
# Properties C86 to C89: loading the tables
-/

namespace QED

open Dbl TableFile

section generic
variable {D : Type} [Dbl D]

/-! ## C86 The tables in use are the tables in the files -/

/-- The table of pairs is loaded as it stands in the file. -/
theorem readPairTable_lists {pairs : List (Numeral × Numeral)} {text : List Char}
    (h : PairFile pairs.length pairs text) :
    readPairTable text =
      .ok (pairs.map fun p => (lit p.1.value : D), pairs.map fun p => (lit p.2.value : D)) := by
  obtain ⟨n, hn, hl⟩ := h
  obtain ⟨rest, h1, h2⟩ := uint_lists hn hl
  unfold readPairTable IStream.new
  rw [h2]
  dsimp only [use]
  rw [Res.ok_bind]
  exact (readPairs_lists pairs [] rest none none (by rw [List.append_nil]; exact h1)).1

/-- C86 for photon emission: with the environment variable set and complete files, in any layout, the arrays
of the process hold exactly the numbers in the files. -/
theorem C86_emission (path : List Char) (files : List Char → Option (List Char))
    (pairs : List (Numeral × Numeral)) (columns : Nat) (logMin logMax : Numeral)
    (rows : List (List Numeral)) (chiMin : List Numeral) (hText text minText : List Char)
    (f1 : files (path ++ "/hsokolov.table".toList) = some hText)
    (f2 : files (path ++ "/ksi_sokolov.table".toList) = some text)
    (f3 : files (path ++ "/chimin.table".toList) = some minText)
    (hh : PairFile pairs.length pairs hText)
    (he : EnergyFiles columns logMin logMax rows chiMin text minText) :
    loadEmission (D := D) (some path) files = .ok
      { hAxis := pairs.map fun p => lit p.1.value
        hData := pairs.map fun p => lit p.2.value
        etaAxis := etaAxisOf rows.length (lit logMin.value) (lit logMax.value)
        chiMin := chiMin.map fun c => lit c.value
        chiAxis := List.zipWith (chiRow rows.length columns)
          (etaAxisOf rows.length (lit logMin.value) (lit logMax.value)) (chiMin.map fun c => lit c.value)
        data := rows.map fun r => r.map fun x => some (lit x.value) } := by
  obtain ⟨⟨m, n, hm, hn, hl⟩, hcol, hmin, heach⟩ := he
  obtain ⟨r1, a1, b1⟩ := uint_lists hm hl
  obtain ⟨r2, a2, b2⟩ := uint_lists hn a1
  obtain ⟨r3, a3, b3⟩ := double_lists (D := D) a2
  obtain ⟨r4, a4, b4⟩ := double_lists (D := D) a3
  obtain ⟨r5, a5, b5⟩ := readRows_lists (D := D) columns rows [] r4 hcol (by rw [List.append_nil]; exact a4)
  obtain ⟨r6, a6, b6⟩ := readArray_lists (D := D) chiMin [] minText (by rw [List.append_nil]; exact hmin)
  unfold loadEmission tablePath openTable IStream.new
  rw [Res.ok_bind, f1]
  dsimp only
  rw [Res.ok_bind, f2]
  dsimp only
  rw [Res.ok_bind, f3]
  dsimp only
  rw [Res.ok_bind, readPairTable_lists hh, Res.ok_bind]
  dsimp only
  rw [b1]
  dsimp only
  rw [b2]
  dsimp only
  rw [b3]
  dsimp only
  rw [b4]
  dsimp only [use]
  rw [Res.ok_bind, Res.ok_bind, ← heach, b6]
  dsimp only
  rw [Res.ok_bind, Res.ok_bind, useAll_some, Res.ok_bind, heach, b5]
  rfl

/-- C86 for pair production. -/
theorem C86_pairs (path : List Char) (files : List Char → Option (List Char))
    (pairs : List (Numeral × Numeral)) (rows : List (List Numeral)) (chi epsilon : List Numeral)
    (tText text chiText epsText : List Char)
    (f1 : files (path ++ "/pairprod.table".toList) = some tText)
    (f2 : files (path ++ "/e_split.table".toList) = some text)
    (f3 : files (path ++ "/epsilon.table".toList) = some epsText)
    (f4 : files (path ++ "/log_chi.table".toList) = some chiText)
    (ht : PairFile pairs.length pairs tText)
    (hs : SplitFiles rows chi epsilon text chiText epsText) :
    loadPairs (D := D) (some path) files = .ok
      { tAxis := pairs.map fun p => lit p.1.value
        tData := pairs.map fun p => lit p.2.value
        chiAxis := chi.map fun c => lit c.value
        fractAxis := epsilon.map fun e => some (lit e.value)
        data := rows.map fun r => r.map fun x => some (lit x.value) } := by
  obtain ⟨n, hn, hl⟩ := ht
  obtain ⟨rest, h1, h2⟩ := uint_lists hn hl
  obtain ⟨⟨m, hm, hl'⟩, hsq, ⟨hc, hcl⟩, ⟨he, hel⟩⟩ := hs
  obtain ⟨rest', h3, h4⟩ := uint_lists hm hl'
  have h5 := (readPairs_lists (D := D) pairs [] rest none none (by rw [List.append_nil]; exact h1)).1
  unfold loadPairs tablePath openTable IStream.new
  rw [Res.ok_bind, f1]
  dsimp only
  rw [Res.ok_bind, f2]
  dsimp only
  rw [Res.ok_bind, f3]
  dsimp only
  rw [Res.ok_bind, f4]
  dsimp only
  rw [Res.ok_bind, h2]
  dsimp only [use]
  rw [Res.ok_bind, h5, Res.ok_bind]
  dsimp only
  rw [h4]
  dsimp only
  rw [Res.ok_bind, readSplit_lists rows.length rows chi epsilon rest' chiText epsText _ hsq h3 hc hcl he hel]
  rfl

/-- The parameters of an emission process with the tables it has loaded, when every element was written. -/
def TableFile.Emission.Gives (t : Emission D) (cfg : EmissionCfg D) : Prop :=
  cfg.hAxis = t.hAxis ∧ cfg.hData = t.hData ∧ cfg.etaAxis = t.etaAxis ∧ cfg.chiAxis = t.chiAxis ∧
    t.data = cfg.phEnTable.map fun r => r.map some

/-- The same for pair production. -/
def TableFile.Pairs.Gives (t : Pairs D) (cfg : BWCfg D) : Prop :=
  cfg.tAxis = t.tAxis ∧ cfg.tData = t.tData ∧ cfg.chiAxis = t.chiAxis ∧
    t.fractAxis = cfg.fractAxis.map some ∧ t.data = cfg.fractTable.map fun r => r.map some

theorem map_some_inj {α : Type} {xs ys : List α} (h : xs.map some = ys.map some) : xs = ys :=
  List.map_injective_iff.2 (Option.some_injective _) h

theorem map_map_some_inj {α : Type} {xs ys : List (List α)}
    (h : (xs.map fun r => r.map some) = ys.map fun r => r.map some) : xs = ys :=
  List.map_injective_iff.2 (fun _ _ => map_some_inj) h

/-- C86: complete files with at least two rows and columns make every emission process safe: no call ever
reads outside a table. -/
theorem C86_emission_safe (path : List Char) (files : List Char → Option (List Char))
    (pairs : List (Numeral × Numeral)) (columns : Nat) (logMin logMax : Numeral)
    (rows : List (List Numeral)) (chiMin : List Numeral) (hText text minText : List Char)
    (f1 : files (path ++ "/hsokolov.table".toList) = some hText)
    (f2 : files (path ++ "/ksi_sokolov.table".toList) = some text)
    (f3 : files (path ++ "/chimin.table".toList) = some minText)
    (hh : PairFile pairs.length pairs hText)
    (he : EnergyFiles columns logMin logMax rows chiMin text minText)
    (n1 : 2 ≤ pairs.length) (n2 : 2 ≤ rows.length) (n3 : 2 ≤ columns)
    (t : Emission D) (ht : loadEmission (some path) files = .ok t)
    (cfg : EmissionCfg D) (hg : t.Gives cfg) : cfg.GoodTables := by
  rw [C86_emission path files pairs columns logMin logMax rows chiMin hText text minText f1 f2 f3 hh he] at ht
  obtain ⟨⟨m, n, hm, hn, -⟩, hcol, -, heach⟩ := he
  obtain ⟨k, hk, -⟩ := hh
  obtain rfl := Res.ok.inj ht
  obtain ⟨g1, g2, g3, g4, g5⟩ := hg
  dsimp only at g1 g2 g3 g4 g5
  have hdata : cfg.phEnTable = rows.map fun r => r.map fun x => (lit x.value : D) := by
    apply map_map_some_inj
    rw [← g5]
    simp [Function.comp_def]
  have hlen : cfg.etaAxis.length = rows.length := by rw [g3]; simp [etaAxisOf]
  refine ⟨⟨by rw [g1, g2]; simp, by rw [g1]; simpa using n1, by rw [g1]; simpa using hk.2.2.2.2⟩,
    ⟨by omega, by rw [hlen]; exact hm.2.2.2.2⟩, ⟨by rw [hdata, hlen]; simp, ?_⟩, ?_⟩
  · rw [hlen, g4]; simp [etaAxisOf, heach]
  · intro i a b ha hb
    rw [hdata, List.getElem?_map] at ha
    have hac : a.length = columns := by
      cases hr : rows[i]? with
      | none => rw [hr] at ha; cases ha
      | some r =>
        rw [hr] at ha
        cases ha
        rw [List.length_map]
        exact hcol r (List.mem_of_getElem? hr)
    have hbc : b.length = columns := by
      have := List.mem_of_getElem? hb
      rw [g4] at this
      obtain ⟨j, hj, hj'⟩ := List.mem_iff_getElem.1 this
      rw [List.getElem_zipWith] at hj'
      rw [← hj']
      simp [chiRow]
    exact ⟨by rw [hac, hbc], by omega, by rw [hac]; exact hn.2.2.2.2⟩

/-- C86: and every pair-production process. -/
theorem C86_pairs_safe (path : List Char) (files : List Char → Option (List Char))
    (pairs : List (Numeral × Numeral)) (rows : List (List Numeral)) (chi epsilon : List Numeral)
    (tText text chiText epsText : List Char)
    (f1 : files (path ++ "/pairprod.table".toList) = some tText)
    (f2 : files (path ++ "/e_split.table".toList) = some text)
    (f3 : files (path ++ "/epsilon.table".toList) = some epsText)
    (f4 : files (path ++ "/log_chi.table".toList) = some chiText)
    (ht : PairFile pairs.length pairs tText)
    (hs : SplitFiles rows chi epsilon text chiText epsText)
    (n1 : 2 ≤ pairs.length) (n2 : 2 ≤ rows.length)
    (t : Pairs D) (hl : loadPairs (some path) files = .ok t)
    (cfg : BWCfg D) (hg : t.Gives cfg) : cfg.GoodTables := by
  rw [C86_pairs path files pairs rows chi epsilon tText text chiText epsText f1 f2 f3 f4 ht hs] at hl
  obtain ⟨⟨m, hm, -⟩, hsq, ⟨-, hcl⟩, ⟨-, hel⟩⟩ := hs
  obtain ⟨k, hk, -⟩ := ht
  obtain rfl := Res.ok.inj hl
  obtain ⟨g1, g2, g3, g4, g5⟩ := hg
  dsimp only at g1 g2 g3 g4 g5
  have hdata : cfg.fractTable = rows.map fun r => r.map fun x => (lit x.value : D) := by
    apply map_map_some_inj
    rw [← g5]
    simp [Function.comp_def]
  have heps : cfg.fractAxis = epsilon.map fun x => (lit x.value : D) := by
    apply map_some_inj
    rw [← g4]
    simp [Function.comp_def]
  have hlen : cfg.chiAxis.length = rows.length := by rw [g3]; simp [hcl]
  refine ⟨⟨by rw [g1, g2]; simp, by rw [g1]; simpa using n1, by rw [g1]; simpa using hk.2.2.2.2⟩,
    ⟨by omega, by rw [hlen]; exact hm.2.2.2.2⟩, by rw [hdata, hlen]; simp, ?_⟩
  intro r hr
  rw [hdata] at hr
  obtain ⟨r', hr', rfl⟩ := List.mem_map.1 hr
  have := hsq r' hr'
  exact ⟨by rw [heps]; simp [this, hel], by rw [List.length_map]; omega,
    by rw [List.length_map, this]; exact hm.2.2.2.2⟩

/-! ## C88 Missing or incomplete table files are reported -/

/-- What holds of C88: the program ends with code 1 when a file of the photon-emission tables does not
exist, and for no other reason does it end while loading them. -/
theorem C88_missing_file_partial (path : List Char) (files : List Char → Option (List Char)) (c : Int) :
    loadEmission (D := D) (some path) files = .exit c ↔ c = 1 ∧
      (files (path ++ "/hsokolov.table".toList) = none ∨
        files (path ++ "/ksi_sokolov.table".toList) = none ∨
        files (path ++ "/chimin.table".toList) = none) := by
  have huse : ∀ {α : Type} (x : Option α) (k : Int), use x ≠ .exit k := by
    intro α x k h; cases x <;> cases h
  have hpairs : ∀ (n : Nat) (s : IStream) (a b : Option D) (k : Int), readPairs n s a b ≠ .exit k := by
    intro n
    induction n with
    | zero => intro s a b k h; cases h
    | succ n ih =>
      intro s a b k h
      rw [readPairs] at h
      generalize s.double a = x at h
      obtain ⟨a, s⟩ := x
      dsimp only at h
      generalize s.double b = x at h
      obtain ⟨b, s⟩ := x
      dsimp only at h
      cases a with
      | none => cases h
      | some a =>
        cases b with
        | none => cases h
        | some b =>
          dsimp only [use] at h
          rw [Res.ok_bind, Res.ok_bind] at h
          rcases hp : readPairs n s (some a) (some b) with x | x | x | x
          · rw [hp] at h; cases h
          · exact ih s _ _ x hp
          · rw [hp] at h; cases h
          · rw [hp] at h; cases h
  have hall : ∀ (xs : List (Option D)) (k : Int), useAll xs ≠ .exit k := by
    intro xs
    induction xs with
    | nil => intro k h; cases h
    | cons x xs ih =>
      intro k h
      cases x with
      | none => cases h
      | some x =>
        rw [useAll] at h
        dsimp only [use] at h
        rw [Res.ok_bind] at h
        rcases hp : useAll xs with y | y | y | y
        · rw [hp] at h; cases h
        · exact ih y hp
        · rw [hp] at h; cases h
        · rw [hp] at h; cases h
  unfold loadEmission tablePath openTable
  rw [Res.ok_bind]
  rcases h1 : files (path ++ "/hsokolov.table".toList) with _ | t1
  · simp [eq_comm]
  dsimp only
  rw [Res.ok_bind]
  rcases h2 : files (path ++ "/ksi_sokolov.table".toList) with _ | t2
  · simp [eq_comm]
  dsimp only
  rw [Res.ok_bind]
  rcases h3 : files (path ++ "/chimin.table".toList) with _ | t3
  · simp [eq_comm]
  dsimp only
  rw [Res.ok_bind]
  simp only [reduceCtorEq, or_self, and_false, iff_false]
  intro h
  unfold readPairTable at h
  generalize (IStream.new t1).uint none = x at h
  obtain ⟨n, s⟩ := x
  dsimp only at h
  cases n with
  | none => cases h
  | some n =>
  dsimp only [use] at h
  rw [Res.ok_bind] at h
  rcases hp : readPairs (D := D) n s none none with y | y | y | y
  · rw [hp, Res.ok_bind] at h
    generalize (IStream.new t2).uint none = x at h
    obtain ⟨n1, s⟩ := x
    dsimp only at h
    generalize s.uint none = x at h
    obtain ⟨n2, s⟩ := x
    dsimp only at h
    generalize s.double (none : Option D) = x at h
    obtain ⟨n3, s⟩ := x
    dsimp only at h
    generalize s.double (none : Option D) = x at h
    obtain ⟨n4, s⟩ := x
    dsimp only at h
    cases n1 with
    | none => cases h
    | some n1 =>
    cases n2 with
    | none => cases h
    | some n2 =>
    rw [Res.ok_bind, Res.ok_bind] at h
    generalize readArray (D := D) n1 (IStream.new t3) = x at h
    obtain ⟨xs, s'⟩ := x
    dsimp only at h
    cases n4 with
    | none => cases h
    | some n4 =>
    cases n3 with
    | none => cases h
    | some n3 =>
    rw [Res.ok_bind, Res.ok_bind] at h
    rcases hq : useAll xs with y | y | y | y
    · rw [hq] at h; cases h
    · exact hall _ _ hq
    · rw [hq] at h; cases h
    · rw [hq] at h; cases h
  · exact hpairs _ _ _ _ _ hp
  · rw [hp] at h; cases h
  · rw [hp] at h; cases h

/-- C88 is false. If the environment variable is not set, a null pointer is made into a string; -/
theorem C88_unset_refuted (files : List Char → Option (List Char)) :
    (∃ w, loadEmission (D := D) none files = .ub w) ∧ (∃ w, loadPairs (D := D) none files = .ub w) :=
  ⟨⟨_, rfl⟩, ⟨_, rfl⟩⟩

/-- and a file that ends too soon is not noticed: the emission table of a file that announces `n` more pairs
than it holds is filled up with the last pair. -/
theorem C88_short_refuted (p : Numeral × Numeral) (pairs : List (Numeral × Numeral)) (n : Nat)
    (text : List Char) (h : PairFile (pairs.length + 1 + n) (p :: pairs) text) :
    readPairTable text =
      .ok (((p :: pairs).map fun p => (lit p.1.value : D)) ++
          List.replicate n (lit ((p :: pairs).getLast (by simp)).1.value),
        ((p :: pairs).map fun p => (lit p.2.value : D)) ++
          List.replicate n (lit ((p :: pairs).getLast (by simp)).2.value)) := by
  obtain ⟨m, hm, hl⟩ := h
  obtain ⟨rest, h1, h2⟩ := uint_lists hm hl
  unfold readPairTable IStream.new
  rw [h2]
  dsimp only [use]
  rw [Res.ok_bind]
  rw [List.flatMap_cons] at h1
  obtain ⟨r1, a1, b1⟩ := double_lists (D := D) h1
  obtain ⟨r2, a2, b2⟩ := double_lists (D := D) a1
  have h5 := readPairs_short pairs r2 n (num p.1 : D) (num p.2) a2
  rw [show pairs.length + 1 + n = (pairs.length + n) + 1 by omega, readPairs, b1]
  dsimp only
  rw [b2]
  dsimp only [use]
  rw [Res.ok_bind, Res.ok_bind, h5]
  cases hp : pairs with
  | nil => rfl
  | cons q qs =>
    rw [List.getLast_cons (by simp), List.getLast?_eq_getLast_of_ne_nil (by simp)]
    rfl

/-- Nor is an energy table with too few entries noticed: loading succeeds, and the elements that were not in
the file are never written. -/
theorem C88_unwritten_refuted (path : List Char) (files : List Char → Option (List Char))
    (pairs : List (Numeral × Numeral)) (nRows columns : Nat) (logMin logMax m n : Numeral)
    (entries chiMin : List Numeral) (missing : Nat) (hText text minText : List Char)
    (f1 : files (path ++ "/hsokolov.table".toList) = some hText)
    (f2 : files (path ++ "/ksi_sokolov.table".toList) = some text)
    (f3 : files (path ++ "/chimin.table".toList) = some minText)
    (hh : PairFile pairs.length pairs hText) (hm : Count m nRows) (hn : Count n columns)
    (htext : Lists (m :: n :: logMin :: logMax :: entries) text)
    (hmin : Lists chiMin minText) (heach : chiMin.length = nRows)
    (hshort : nRows * columns = entries.length + missing) :
    ∃ t : Emission D, loadEmission (some path) files = .ok t ∧
      t.data.flatten = (entries.map fun x => some (lit x.value)) ++ List.replicate missing none := by
  obtain ⟨r1, a1, b1⟩ := uint_lists hm htext
  obtain ⟨r2, a2, b2⟩ := uint_lists hn a1
  obtain ⟨r3, a3, b3⟩ := double_lists (D := D) a2
  obtain ⟨r4, a4, b4⟩ := double_lists (D := D) a3
  obtain ⟨r6, a6, b6⟩ := readArray_lists (D := D) chiMin [] minText (by rw [List.append_nil]; exact hmin)
  have hdata := congrArg Prod.fst (readRows_flatten (D := D) columns nRows ⟨r4, true⟩)
  rw [hshort, readArray_short entries r4 missing a4] at hdata
  dsimp only at hdata
  unfold loadEmission tablePath openTable IStream.new
  rw [Res.ok_bind, f1]
  dsimp only
  rw [Res.ok_bind, f2]
  dsimp only
  rw [Res.ok_bind, f3]
  dsimp only
  rw [Res.ok_bind, readPairTable_lists hh, Res.ok_bind]
  dsimp only
  rw [b1]
  dsimp only
  rw [b2]
  dsimp only
  rw [b3]
  dsimp only
  rw [b4]
  dsimp only [use]
  rw [Res.ok_bind, Res.ok_bind, ← heach, b6]
  dsimp only
  rw [Res.ok_bind, Res.ok_bind, useAll_some, Res.ok_bind, heach]
  exact ⟨_, rfl, hdata⟩

/-! ## C89 The arrays are freed -/

/-- C89 for photon emission, whatever the number of rows: after loading no array is lost, and after
unloading none is left; nothing is freed twice and no row is reached through a freed array. -/
theorem C89_emission (etaLength : Nat) :
    ∃ live, runMem (emissionNew etaLength) [] [] = .ok (live, []) ∧
      live.length = 6 + 2 * etaLength ∧ runMem (emissionDelete etaLength) live [] = .ok ([], []) := by
  set spines : List TableFile.Array := [⟨"h_dataTable", none⟩, ⟨"h_etaAxis", none⟩, ⟨"phEn_etaAxis", none⟩,
    ⟨"phEn_chiMinAxis", none⟩, ⟨"phEn_chiAxis", none⟩, ⟨"phEn_dataTable", none⟩] with hsp
  set rows : List TableFile.Array := (List.range etaLength).flatMap fun i =>
    [⟨"phEn_chiAxis", some i⟩, ⟨"phEn_dataTable", some i⟩] with hrows
  have hn : emissionNew etaLength = spines.map .new ++ rows.map .new := by
    rw [hrows, List.map_flatMap]; rfl
  have hd : emissionDelete etaLength = [⟨"h_dataTable", none⟩, ⟨"h_etaAxis", none⟩].map .delete ++
      (rows.map .delete ++ [⟨"phEn_chiMinAxis", none⟩, ⟨"phEn_etaAxis", none⟩, ⟨"phEn_chiAxis", none⟩,
        ⟨"phEn_dataTable", none⟩].map .delete) := by
    rw [hrows, List.map_flatMap]; rfl
  have hmem : ∀ k, k ∈ rows ↔ ∃ i < etaLength, k = ⟨"phEn_chiAxis", some i⟩ ∨ k = ⟨"phEn_dataTable", some i⟩ := by
    intro k; simp [hrows]
  have hnd : rows.Nodup := by
    rw [hrows, List.nodup_flatMap]
    refine ⟨fun i _ => by simp, ?_⟩
    refine List.Pairwise.imp_of_mem ?_ (List.nodup_range (n := etaLength))
    intro i j _ _ hij
    simp [Function.onFun, List.disjoint_left, hij]
  have hrow : ∀ k ∈ rows, k.row ≠ none ∧ (k.member = "phEn_chiAxis" ∨ k.member = "phEn_dataTable") := by
    intro k hk
    obtain ⟨i, -, rfl | rfl⟩ := (hmem k).1 hk <;> simp
  obtain ⟨l1, a1, b1, c1⟩ := run_news spines [] [] (by simp [hsp]) List.nodup_nil (by simp) (by simp [hsp])
  obtain ⟨l2, a2, b2, c2⟩ := run_news rows l1 [] hnd b1
    (fun k hk hl => by
      rcases (c1 k).1 hl with h | h
      · cases h
      · exact (hrow k hk).1 (by simp only [hsp, List.mem_cons, List.not_mem_nil, or_false] at h
                                rcases h with rfl | rfl | rfl | rfl | rfl | rfl <;> rfl))
    (fun k hk _ => by
      rw [c1]
      right
      rcases (hrow k hk).2 with h | h <;> simp [hsp, h])
  refine ⟨l2, ?_, ?_, ?_⟩
  · rw [hn, runMem_append, a1, Res.ok_bind]
    exact a2
  · have hp : l2.Perm (spines ++ rows) := by
      rw [List.perm_ext_iff_of_nodup b2 ?_]
      · intro k; rw [c2, c1]; simp
      · rw [List.nodup_append]
        refine ⟨by simp [hsp], hnd, ?_⟩
        intro x hx y hy
        rintro rfl
        exact (hrow x hy).1 (by
          simp only [hsp, List.mem_cons, List.not_mem_nil, or_false] at hx
          rcases hx with rfl | rfl | rfl | rfl | rfl | rfl <;> rfl)
    rw [hp.length_eq, List.length_append]
    have : rows.length = 2 * etaLength := by simp [hrows, List.length_flatMap, Nat.mul_comm]
    rw [this]
    rfl
  · have hin : ∀ k, k ∈ l2 ↔ k ∈ spines ∨ k ∈ rows := by intro k; rw [c2, c1]; simp
    obtain ⟨l3, a3, b3, c3⟩ := run_deletes [⟨"h_dataTable", none⟩, ⟨"h_etaAxis", none⟩] l2 [] (by simp) b2
      (by intro k hk; rw [hin]; left; simp at hk; rcases hk with rfl | rfl <;> simp [hsp]) (by simp)
    obtain ⟨l4, a4, b4, c4⟩ := run_deletes rows l3 [] hnd b3
      (fun k hk => by
        rw [c3, hin]
        refine ⟨Or.inr hk, fun h => (hrow k hk).1 ?_⟩
        simp at h
        rcases h with rfl | rfl <;> rfl)
      (fun k hk _ => by
        refine ⟨?_, fun h => (hrow _ h).1 rfl⟩
        rw [c3, hin]
        rcases (hrow k hk).2 with h | h <;> simp [hsp, h])
    obtain ⟨l5, a5, b5, c5⟩ := run_deletes [⟨"phEn_chiMinAxis", none⟩, ⟨"phEn_etaAxis", none⟩,
      ⟨"phEn_chiAxis", none⟩, ⟨"phEn_dataTable", none⟩] l4 [] (by simp) b4
      (by
        intro k hk
        simp at hk
        rw [c4, c3, hin]
        refine ⟨⟨Or.inl ?_, ?_⟩, fun h => (hrow k h).1 ?_⟩
        · rcases hk with rfl | rfl | rfl | rfl <;> simp [hsp]
        · rcases hk with rfl | rfl | rfl | rfl <;> simp
        · rcases hk with rfl | rfl | rfl | rfl <;> rfl) (by simp)
    have hnil : l5 = [] := by
      rw [List.eq_nil_iff_forall_not_mem]
      intro k hk
      rw [c5, c4, c3, hin] at hk
      obtain ⟨⟨⟨h | h, h2⟩, h3⟩, h4⟩ := hk
      · simp only [hsp, List.mem_cons, List.not_mem_nil, or_false, not_or] at h h2 h4
        tauto
      · exact h3 h
    rw [hd, runMem_append, a3, Res.ok_bind]
    dsimp only
    rw [runMem_append, a4, Res.ok_bind]
    dsimp only
    rw [a5, hnil]

/-- C89 for pair production. -/
theorem C89_pairs (len : Nat) :
    ∃ live, runMem (pairsNew len) [] [] = .ok (live, []) ∧
      live.length = 5 + len ∧ runMem (pairsDelete len) live [] = .ok ([], []) := by
  set spines : List TableFile.Array := [⟨"t_chiAxis", none⟩, ⟨"t_dataTable", none⟩, ⟨"eFract_chiAxis", none⟩,
    ⟨"eFract_fractAxis", none⟩, ⟨"eFract_dataTable", none⟩] with hsp
  set rows : List TableFile.Array := (List.range len).map fun i => ⟨"eFract_dataTable", some i⟩ with hrows
  have hn : pairsNew len = spines.map .new ++ rows.map .new := by
    rw [hrows, List.map_map]; rfl
  have hd : pairsDelete len = [⟨"t_dataTable", none⟩, ⟨"t_chiAxis", none⟩, ⟨"eFract_chiAxis", none⟩,
      ⟨"eFract_fractAxis", none⟩].map .delete ++
      (rows.map .delete ++ [⟨"eFract_dataTable", none⟩].map .delete) := by
    rw [hrows, List.map_map]; rfl
  have hnd : rows.Nodup := by
    rw [hrows]
    refine List.Nodup.map ?_ List.nodup_range
    intro i j h
    simpa using h
  have hrow : ∀ k ∈ rows, k.row ≠ none ∧ k.member = "eFract_dataTable" := by
    intro k hk
    rw [hrows] at hk
    obtain ⟨i, -, rfl⟩ := List.mem_map.1 hk
    simp
  have hspn : ∀ k ∈ spines, k.row = none := by
    intro k h
    simp only [hsp, List.mem_cons, List.not_mem_nil, or_false] at h
    rcases h with rfl | rfl | rfl | rfl | rfl <;> rfl
  obtain ⟨l1, a1, b1, c1⟩ := run_news spines [] [] (by simp [hsp]) List.nodup_nil (by simp) (by simp [hsp])
  obtain ⟨l2, a2, b2, c2⟩ := run_news rows l1 [] hnd b1
    (fun k hk hl => by
      rcases (c1 k).1 hl with h | h
      · cases h
      · exact (hrow k hk).1 (hspn k h))
    (fun k hk _ => by
      rw [c1]
      right
      simp [hsp, (hrow k hk).2])
  have hin : ∀ k, k ∈ l2 ↔ k ∈ spines ∨ k ∈ rows := by intro k; rw [c2, c1]; simp
  refine ⟨l2, ?_, ?_, ?_⟩
  · rw [hn, runMem_append, a1, Res.ok_bind]
    exact a2
  · have hp : l2.Perm (spines ++ rows) := by
      rw [List.perm_ext_iff_of_nodup b2 ?_]
      · intro k; rw [hin]; simp
      · rw [List.nodup_append]
        refine ⟨by simp [hsp], hnd, ?_⟩
        intro x hx y hy
        rintro rfl
        exact (hrow x hy).1 (hspn x hx)
    rw [hp.length_eq, List.length_append]
    have : rows.length = len := by simp [hrows]
    rw [this]
    rfl
  · obtain ⟨l3, a3, b3, c3⟩ := run_deletes [⟨"t_dataTable", none⟩, ⟨"t_chiAxis", none⟩,
      ⟨"eFract_chiAxis", none⟩, ⟨"eFract_fractAxis", none⟩] l2 [] (by simp) b2
      (by intro k hk; rw [hin]; left; simp at hk; rcases hk with rfl | rfl | rfl | rfl <;> simp [hsp])
      (by simp)
    obtain ⟨l4, a4, b4, c4⟩ := run_deletes rows l3 [] hnd b3
      (fun k hk => by
        rw [c3, hin]
        refine ⟨Or.inr hk, fun h => (hrow k hk).1 ?_⟩
        simp at h
        rcases h with rfl | rfl | rfl | rfl <;> rfl)
      (fun k hk _ => by
        refine ⟨?_, fun h => (hrow _ h).1 rfl⟩
        rw [c3, hin]
        simp [hsp, (hrow k hk).2])
    obtain ⟨l5, a5, b5, c5⟩ := run_deletes [⟨"eFract_dataTable", none⟩] l4 [] (by simp) b4
      (by
        intro k hk
        simp at hk
        subst hk
        rw [c4, c3, hin]
        exact ⟨⟨Or.inl (by simp [hsp]), by simp⟩, fun h => (hrow _ h).1 rfl⟩) (by simp)
    have hnil : l5 = [] := by
      rw [List.eq_nil_iff_forall_not_mem]
      intro k hk
      rw [c5, c4, c3, hin] at hk
      obtain ⟨⟨⟨h | h, h2⟩, h3⟩, h4⟩ := hk
      · simp only [hsp, List.mem_cons, List.not_mem_nil, or_false, not_or] at h h2 h4
        tauto
      · exact h3 h
    rw [hd, runMem_append, a3, Res.ok_bind]
    dsimp only
    rw [runMem_append, a4, Res.ok_bind]
    dsimp only
    rw [a5, hnil]

end generic

/-! ## C87 The grid of the energy table -/

/-- The `eta` axis is evenly spaced and runs over the range given in the file. -/
theorem C87_eta (n : Nat) (hn : 2 ≤ n) (logMin logMax : ℝ) (i : Nat) (hi : i < n) :
    (etaAxisOf n logMin logMax)[i]? = some (logMin + (logMax - logMin) * (i / (n - 1))) := by
  have : ((n : ℝ) - 1) ≠ 0 := by
    have : (2:ℝ) ≤ n := by exact_mod_cast hn
    linarith
  simp only [etaAxisOf, List.getElem?_map, List.getElem?_range hi, Option.map_some, real_add, real_mul,
    real_sub, real_div, real_lit]
  push_cast
  congr 2
  field_simp

/-- A row of the grid: evenly spaced in `log10 chi`, starting at the smallest `chi`. -/
theorem C87_row (m c : Nat) (hm : 2 ≤ m) (logEta chiMin : ℝ) (j : Nat) (hj : j < c) :
    (chiRow m c logEta chiMin)[j]? = some (Real.logb 10 chiMin +
      (logEta - Real.logb 10 2 - Real.logb 10 chiMin) * (j / (m - 1))) := by
  have : ((m : ℝ) - 1) ≠ 0 := by
    have : (2:ℝ) ≤ m := by exact_mod_cast hm
    linarith
  simp only [chiRow, List.getElem?_map, List.getElem?_range hj, Option.map_some, real_add, real_mul,
    real_sub, real_div, real_lit, real_log10]
  push_cast
  congr 2
  field_simp

/-- C87 exactly: a row runs from the smallest `chi` to half of `eta` if and only if the table has as many
columns as rows (or the row has no width at all). -/
theorem C87_span_iff_partial (m c : Nat) (hm : 2 ≤ m) (hc : 2 ≤ c) (logEta chiMin : ℝ) (hpos : 0 < chiMin) :
    (∃ first last : ℝ, (chiRow m c logEta chiMin)[0]? = some first ∧
      (chiRow m c logEta chiMin)[c - 1]? = some last ∧
      (10:ℝ) ^ first = chiMin ∧ (10:ℝ) ^ last = (10:ℝ) ^ logEta / 2) ↔
    (c = m ∨ chiMin = (10:ℝ) ^ logEta / 2) := by
  have h10 : (0:ℝ) < 10 := by norm_num
  have h1 : (10:ℝ) ≠ 1 := by norm_num
  have hhalf : (10:ℝ) ^ logEta / 2 = (10:ℝ) ^ (logEta - Real.logb 10 2) := by
    rw [Real.rpow_sub h10, Real.rpow_logb h10 h1 (by norm_num)]
  have hm' : ((m : ℝ) - 1) ≠ 0 := by
    have : (2:ℝ) ≤ m := by exact_mod_cast hm
    linarith
  have hcm : ((c - 1 : Nat) : ℝ) = (c : ℝ) - 1 := by
    rw [Nat.cast_sub (by omega)]; norm_num
  rw [C87_row m c hm logEta chiMin 0 (by omega), C87_row m c hm logEta chiMin (c - 1) (by omega), hcm, hhalf]
  set w := logEta - Real.logb 10 2 - Real.logb 10 chiMin with hw
  have hinj : ∀ x y : ℝ, (10:ℝ) ^ x = (10:ℝ) ^ y ↔ x = y := fun x y =>
    ⟨fun h => (Real.rpow_right_inj h10 h1).1 h, fun h => by rw [h]⟩
  constructor
  · rintro ⟨a, b, ha, hb, -, hlast⟩
    obtain rfl := Option.some.inj hb
    rw [hinj] at hlast
    have : w * (((c:ℝ) - 1) / ((m:ℝ) - 1)) = w * 1 := by rw [mul_one]; linarith
    by_cases h0 : w = 0
    · right
      rw [← Real.rpow_logb h10 h1 hpos, hinj]
      linarith
    · left
      have := mul_left_cancel₀ h0 this
      rw [div_eq_one_iff_eq hm'] at this
      have : (c:ℝ) = m := by linarith
      exact_mod_cast this
  · intro h
    refine ⟨_, _, rfl, rfl, ?_, ?_⟩
    · simp only [Nat.cast_zero, zero_div, mul_zero, add_zero]
      exact Real.rpow_logb h10 h1 hpos
    · rw [hinj]
      rcases h with h | h
      · rw [h, div_self hm']; linarith
      · have : Real.logb 10 chiMin = logEta - Real.logb 10 2 := by
          rw [h, Real.logb_rpow h10 h1]
        have h0 : w = 0 := by rw [hw, this]; ring
        rw [h0, this]; ring

/-- C87 is false: with two rows and three columns, a `chi` range from 1 to 10 becomes one from 1 to 100. -/
theorem C87_refuted : ∃ (m c : Nat) (logEta chiMin last : ℝ), 2 ≤ m ∧ 2 ≤ c ∧ 0 < chiMin ∧
    chiMin < (10:ℝ) ^ logEta / 2 ∧ (chiRow m c logEta chiMin)[c - 1]? = some last ∧
    (10:ℝ) ^ last = 10 * ((10:ℝ) ^ logEta / 2) := by
  refine ⟨2, 3, 1 + Real.logb 10 2, 1, _, le_rfl, by norm_num, by norm_num, ?_,
    C87_row 2 3 le_rfl _ _ 2 (by norm_num), ?_⟩
  · rw [Real.rpow_add (by norm_num), Real.rpow_logb (by norm_num) (by norm_num) (by norm_num)]
    norm_num
  · rw [Real.rpow_add (by norm_num : (0:ℝ) < 10) 1 (Real.logb 10 2),
      Real.rpow_logb (by norm_num) (by norm_num) (by norm_num)]
    simp only [Real.logb_one, zero_add, sub_zero, add_sub_cancel_right]
    norm_num

/-- C87 for the tables in use: with complete files, the grid of row `i` starts at the smallest `chi` of the file for
that row and is evenly spaced towards half of the `eta` of that row. -/
theorem C87_loaded (path : List Char) (files : List Char → Option (List Char))
    (pairs : List (Numeral × Numeral)) (columns : Nat) (logMin logMax : Numeral)
    (rows : List (List Numeral)) (chiMin : List Numeral) (hText text minText : List Char)
    (f1 : files (path ++ "/hsokolov.table".toList) = some hText)
    (f2 : files (path ++ "/ksi_sokolov.table".toList) = some text)
    (f3 : files (path ++ "/chimin.table".toList) = some minText)
    (hh : PairFile pairs.length pairs hText)
    (he : EnergyFiles columns logMin logMax rows chiMin text minText)
    (n2 : 2 ≤ rows.length) (t : Emission ℝ) (ht : loadEmission (some path) files = .ok t)
    (i j : Nat) (hi : i < rows.length) (hj : j < columns) :
    ∃ (c : Numeral) (logEta : ℝ) (row : List ℝ), chiMin[i]? = some c ∧
      logEta = (logMin.value : ℝ) + (logMax.value - logMin.value) * (i / (rows.length - 1)) ∧
      t.etaAxis[i]? = some logEta ∧ t.chiAxis[i]? = some row ∧ row.length = columns ∧
      row[j]? = some (Real.logb 10 c.value + (logEta - Real.logb 10 2 - Real.logb 10 c.value) * (j / (rows.length - 1))) := by
  rw [C86_emission path files pairs columns logMin logMax rows chiMin hText text minText f1 f2 f3 hh he] at ht
  obtain rfl := Res.ok.inj ht
  have hc : i < chiMin.length := by rw [he.each]; exact hi
  have h1 := C87_eta rows.length n2 (lit logMin.value) (lit logMax.value) i hi
  simp only [real_lit] at h1
  refine ⟨chiMin[i], _, chiRow rows.length columns _ (chiMin[i].value : ℝ), List.getElem?_eq_getElem hc, rfl, h1, ?_, ?_,
    C87_row rows.length columns n2 _ _ j hj⟩
  · simp only [real_lit, List.getElem?_zipWith, h1, List.getElem?_map, List.getElem?_eq_getElem hc, Option.map_some]
  · simp [chiRow]

/-! ## Concrete files -/

namespace TableFile

/-- A file with one number per line. -/
def layout : List Numeral → List Char
  | [] => []
  | n :: ns => n.text ++ '\n' :: layout ns

theorem lists_newline {ns : List Numeral} {t : List Char} (h : Lists ns t) : Lists ns ('\n' :: t) := by
  cases h with
  | @done ws h => exact .done (by intro c hc; rcases List.mem_cons.1 hc with rfl | hc; decide; exact h c hc)
  | @more ws x n ns rest a e b c d =>
    exact Lists.more (ws := '\n' :: ws)
      (by intro x hx; rcases List.mem_cons.1 hx with rfl | hx; decide; exact a x hx) e b c d

theorem layout_lists : ∀ ns : List Numeral, (∀ n ∈ ns, n.WF) → Lists ns (layout ns)
  | [], _ => .done (by intro c hc; cases hc)
  | n :: ns, h => by
    rw [layout, Numeral.text_eq]
    exact Lists.more (ws := []) (by simp) (Or.inl rfl) (h n (by simp))
      (by intro c hc; obtain rfl : '\n' = c := by simpa using hc
          decide)
      (lists_newline (layout_lists ns fun m hm => h m (List.mem_cons_of_mem _ hm)))

/-- `0` to `9`. -/
def dig (d : Fin 10) : Numeral := ⟨false, [d], none, none⟩

/-- `0.d` -/
def tenths (d : Fin 10) : Numeral := ⟨false, [0], some [d], none⟩

theorem dig_wf (d : Fin 10) : (dig d).WF := by simp [Numeral.WF, dig]

theorem tenths_wf (d : Fin 10) : (tenths d).WF := by simp [Numeral.WF, tenths]

/-- Files in directory `t`: an emission rate of two points, an energy table of three rows and columns, a
positive rate of pairs and a split of two rows. -/
def exampleFiles (p : List Char) : Option (List Char) :=
  if p = "t/hsokolov.table".toList then some (layout [dig 2, dig 0, tenths 7, dig 1, tenths 3])
  else if p = "t/ksi_sokolov.table".toList then some (layout [dig 3, dig 3, dig 0, dig 2,
    tenths 1, tenths 5, dig 1, tenths 2, tenths 6, dig 1, tenths 2, tenths 3, dig 1])
  else if p = "t/chimin.table".toList then some (layout [tenths 1, tenths 2, tenths 3])
  else if p = "t/pairprod.table".toList then some (layout [dig 2, dig 0, tenths 2, dig 1, tenths 4])
  else if p = "t/e_split.table".toList then some (layout [dig 2, dig 0, dig 1, dig 0, dig 1])
  else if p = "t/epsilon.table".toList then some (layout [tenths 1, dig 1])
  else if p = "t/log_chi.table".toList then some (layout [dig 0, dig 3])
  else none

theorem count_dig (d : Fin 10) : Count (dig d) d.val := by
  refine ⟨rfl, rfl, rfl, ?_, by omega⟩
  simp [dig, Numeral.nat]

theorem wf_all {ns : List Numeral} (h : ∀ n ∈ ns, ∃ d, n = dig d ∨ n = tenths d) : ∀ n ∈ ns, n.WF := by
  intro n hn
  obtain ⟨d, rfl | rfl⟩ := h n hn
  · exact dig_wf d
  · exact tenths_wf d

end TableFile

/-- The hypotheses of C86 for photon emission. -/
example : ∃ hText text minText,
    exampleFiles ("t".toList ++ "/hsokolov.table".toList) = some hText ∧
    exampleFiles ("t".toList ++ "/ksi_sokolov.table".toList) = some text ∧
    exampleFiles ("t".toList ++ "/chimin.table".toList) = some minText ∧
    PairFile 2 [(dig 0, tenths 7), (dig 1, tenths 3)] hText ∧
    EnergyFiles 3 (dig 0) (dig 2) [[tenths 1, tenths 5, dig 1], [tenths 2, tenths 6, dig 1],
      [tenths 2, tenths 3, dig 1]] [tenths 1, tenths 2, tenths 3] text minText := by
  refine ⟨_, _, _, rfl, rfl, rfl, ⟨dig 2, count_dig 2, ?_⟩,
    ⟨⟨dig 3, dig 3, count_dig 3, count_dig 3, ?_⟩, by simp, ?_, rfl⟩⟩
  all_goals
    refine layout_lists _ ?_
    simp [dig_wf, tenths_wf]

/-- The hypotheses of C86 for pair production. -/
example : ∃ tText text chiText epsText,
    exampleFiles ("t".toList ++ "/pairprod.table".toList) = some tText ∧
    exampleFiles ("t".toList ++ "/e_split.table".toList) = some text ∧
    exampleFiles ("t".toList ++ "/epsilon.table".toList) = some epsText ∧
    exampleFiles ("t".toList ++ "/log_chi.table".toList) = some chiText ∧
    PairFile 2 [(dig 0, tenths 2), (dig 1, tenths 4)] tText ∧
    SplitFiles [[dig 0, dig 1], [dig 0, dig 1]] [dig 0, dig 3] [tenths 1, dig 1] text chiText epsText := by
  refine ⟨_, _, _, _, rfl, rfl, rfl, rfl, ⟨dig 2, count_dig 2, ?_⟩,
    ⟨⟨dig 2, count_dig 2, ?_⟩, by simp, ⟨?_, rfl⟩, ⟨?_, rfl⟩⟩⟩
  all_goals
    refine layout_lists _ ?_
    simp [dig_wf, tenths_wf]

/-- A file that announces five pairs and holds two. -/
example : PairFile (1 + 1 + 3) [(dig 0, tenths 7), (dig 1, tenths 3)]
    (layout [dig 5, dig 0, tenths 7, dig 1, tenths 3]) :=
  ⟨dig 5, count_dig 5, layout_lists _ (by simp [dig_wf, tenths_wf])⟩

/-- An energy table of two rows and columns of which only three entries are there. -/
example : Count (dig 2) 2 ∧ Lists [dig 2, dig 2, dig 0, dig 2, tenths 1, dig 1, tenths 3]
    (layout [dig 2, dig 2, dig 0, dig 2, tenths 1, dig 1, tenths 3]) ∧
    Lists [tenths 1, tenths 2] (layout [tenths 1, tenths 2]) ∧ 2 * 2 = [tenths 1, dig 1, tenths 3].length + 1 :=
  ⟨count_dig 2, layout_lists _ (by simp [dig_wf, tenths_wf]), layout_lists _ (by simp [tenths_wf]), rfl⟩

end QED
