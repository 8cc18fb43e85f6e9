import Verif.Lemmas.ShippedCheck
import Verif.Props.LoadedTables
import Verif.Props.FieldFree
import Verif.Props.Program

set_option autoImplicit false
set_option linter.unusedSectionVars false

/-!
# Property C98, and C37: the tables that come with the program
-/

namespace QED

open Dbl TableFile Main MCTools

namespace Shipped

/-! ## The files list the numbers -/

theorem nospace (c : Char) (h : c ∈ ([] : List Char)) : Ini.isSpace c = true := by cases h

theorem files_h (dir : List Char) : tables dir (dir ++ "/hsokolov.table".toList) = some hText := by
  rw [tables, if_pos rfl]

theorem files_ksi (dir : List Char) : tables dir (dir ++ "/ksi_sokolov.table".toList) = some ksiText := by
  simp only [tables, List.append_cancel_left_eq]
  rw [if_neg (by decide), if_pos trivial]

theorem files_chiMin (dir : List Char) : tables dir (dir ++ "/chimin.table".toList) = some chiMinText := by
  simp only [tables, List.append_cancel_left_eq]
  rw [if_neg (by decide), if_neg (by decide), if_pos trivial]

theorem files_rate (dir : List Char) : tables dir (dir ++ "/pairprod.table".toList) = some rateText := by
  simp only [tables, List.append_cancel_left_eq]
  rw [if_neg (by decide), if_neg (by decide), if_neg (by decide), if_pos trivial]

theorem files_split (dir : List Char) : tables dir (dir ++ "/e_split.table".toList) = some splitText := by
  simp only [tables, List.append_cancel_left_eq]
  rw [if_neg (by decide), if_neg (by decide), if_neg (by decide), if_neg (by decide), if_pos trivial]

theorem files_epsilon (dir : List Char) : tables dir (dir ++ "/epsilon.table".toList) = some epsilonText := by
  simp only [tables, List.append_cancel_left_eq]
  rw [if_neg (by decide), if_neg (by decide), if_neg (by decide), if_neg (by decide), if_neg (by decide),
    if_pos trivial]

theorem files_logChi (dir : List Char) : tables dir (dir ++ "/log_chi.table".toList) = some logChiText := by
  simp only [tables, List.append_cancel_left_eq]
  rw [if_neg (by decide), if_neg (by decide), if_neg (by decide), if_neg (by decide), if_neg (by decide),
    if_neg (by decide), if_pos trivial]

/-- The numerals of a list of pairs. -/
def pairNums (ps : List (Tok × Tok)) : List (Numeral × Numeral) := ps.map fun p => (p.1.numeral, p.2.numeral)

/-- The numerals of a list. -/
def nums (ts : List Tok) : List Numeral := ts.map Tok.numeral

/-- The numerals of a list of rows. -/
def rowNums (rows : List (List Tok)) : List (List Numeral) := rows.map nums

theorem count (w m : Nat) (hm : m < 10 ^ w) (hs : m < 2 ^ 32) :
    Count (Tok.numeral ⟨false, w, m, none, none, 'e'⟩) m := by
  refine ⟨rfl, rfl, rfl, ?_, hs⟩
  show Numeral.nat (digits w (m / 10 ^ 0)) = m
  rw [digits_nat, pow_zero, Nat.div_one, Nat.mod_eq_of_lt hm]

theorem h_file : PairFile (pairNums hPairs).length (pairNums hPairs) hText := by
  refine ⟨Tok.numeral ⟨false, 3, 500, none, none, 'e'⟩, ?_, ?_⟩
  · rw [pairNums, List.length_map, h_length]
    exact count 3 500 (by norm_num) (by norm_num)
  · have := text_lists nospace _ [] nospace h_checked
    rw [List.map_cons, pairs_fst, List.nil_append] at this
    exact this

theorem rate_file : PairFile (pairNums ratePairs).length (pairNums ratePairs) rateText := by
  refine ⟨Tok.numeral ⟨false, 4, 1301, none, none, 'e'⟩, ?_, ?_⟩
  · rw [pairNums, List.length_map, rate_length]
    exact count 4 1301 (by norm_num) (by norm_num)
  · have := text_lists nospace _ [] nospace rate_checked
    rw [List.map_cons, pairs_fst, List.nil_append] at this
    exact this

theorem lines_lists (ts : List Tok) (h : checked (lines ts) = true) : Lists (nums ts) (text [] (lines ts)) := by
  have := text_lists nospace _ [] nospace h
  rw [List.nil_append, lines, List.map_map] at this
  exact this

theorem cdf_rows {rows : List (List Tok)} (h : rows.all cdf = true) : ∀ r ∈ rowNums rows, r.length = 100 := by
  intro r hr
  obtain ⟨ts, hts, rfl⟩ := List.mem_map.1 hr
  have := List.all_eq_true.1 h ts hts
  simp only [cdf, Bool.and_eq_true, decide_eq_true_eq] at this
  rw [nums, List.length_map]
  exact this.1.1.1.1

theorem ksi_file : EnergyFiles (rowNums ksiRows).length logMin.numeral logMax.numeral (rowNums ksiRows)
    (nums chiMin) ksiText chiMinText := by
  have hl : (rowNums ksiRows).length = 100 := by rw [rowNums, List.length_map, ksi_length]
  refine ⟨⟨Tok.numeral ⟨false, 3, 100, none, none, 'e'⟩, Tok.numeral ⟨false, 3, 100, none, none, 'e'⟩, ?_, ?_,
    ?_⟩, ?_, lines_lists _ chiMin_checked, ?_⟩
  · rw [hl]; exact count 3 100 (by norm_num) (by norm_num)
  · rw [hl]; exact count 3 100 (by norm_num) (by norm_num)
  · have := text_lists (last := ['\n']) (fun c hc => by rw [List.mem_singleton.1 hc]; decide) _ [] nospace
      ksi_checked
    rw [List.map_cons, List.map_cons, List.map_cons, List.map_cons, rows_fst, List.nil_append] at this
    exact this
  · rw [hl]; exact cdf_rows ksi_cdf
  · rw [hl, nums, List.length_map, chiMin_length]

theorem split_file : SplitFiles (rowNums splitRows) (nums logChi) (nums epsilon) splitText logChiText
    epsilonText := by
  have hl : (rowNums splitRows).length = 100 := by rw [rowNums, List.length_map, split_length]
  refine ⟨⟨Tok.numeral ⟨false, 3, 100, none, none, 'e'⟩, ?_, ?_⟩, ?_, ⟨lines_lists _ logChi_checked, ?_⟩,
    ⟨lines_lists _ epsilon_checked, ?_⟩⟩
  · rw [hl]; exact count 3 100 (by norm_num) (by norm_num)
  · have := text_lists nospace _ [] nospace split_checked
    rw [List.map_cons, rows_fst, List.nil_append] at this
    exact this
  · rw [hl]; exact cdf_rows split_cdf
  · rw [hl, nums, List.length_map, logChi_length]
  · rw [hl, nums, List.length_map, epsilon_length]

end Shipped

section generic
variable {D : Type} [Dbl D]

/-! ## C98 The shipped tables load completely, and no lookup in them goes wrong -/

open Shipped in
/-- C98: photon emission loads every number of the files that come with the program. -/
theorem C98_emission (dir : List Char) : ∃ t : Emission D, loadEmission (some dir) (tables dir) = .ok t ∧
    t.hAxis = (hPairs.map fun p => lit p.1.numeral.value) ∧
    t.hData = (hPairs.map fun p => lit p.2.numeral.value) ∧
    t.chiMin = (chiMin.map fun c => lit c.numeral.value) ∧
    t.data = ksiRows.map fun r => r.map fun c => some (lit c.numeral.value) := by
  refine ⟨_, C86_emission dir _ _ _ _ _ _ _ _ _ _ (files_h dir) (files_ksi dir) (files_chiMin dir) h_file
    ksi_file, ?_, ?_, ?_, ?_⟩ <;> simp [pairNums, nums, rowNums, Function.comp_def]

open Shipped in
/-- C98: and so does pair production. -/
theorem C98_pairs (dir : List Char) : ∃ t : Pairs D, loadPairs (some dir) (tables dir) = .ok t ∧
    t.tAxis = (ratePairs.map fun p => lit p.1.numeral.value) ∧
    t.tData = (ratePairs.map fun p => lit p.2.numeral.value) ∧
    t.chiAxis = (logChi.map fun c => lit c.numeral.value) ∧
    t.fractAxis = (epsilon.map fun c => some (lit c.numeral.value)) ∧
    t.data = splitRows.map fun r => r.map fun c => some (lit c.numeral.value) := by
  refine ⟨_, C86_pairs dir _ _ _ _ _ _ _ _ _ (files_rate dir) (files_split dir) (files_epsilon dir)
    (files_logChi dir) rate_file split_file, ?_, ?_, ?_, ?_, ?_⟩ <;>
    simp [pairNums, nums, rowNums, Function.comp_def]

/-- The tables of the program are the ones its processes load from these files, and every element of them was
written. -/
def LoadedFrom (t : Tables D) (path : Option (List Char)) (files : List Char → Option (List Char)) : Prop :=
  ∃ e p, loadEmission path files = .ok e ∧ loadPairs path files = .ok p ∧
    t.hAxis = e.hAxis ∧ t.hData = e.hData ∧ t.etaAxis = e.etaAxis ∧ t.chiAxis = e.chiAxis ∧
    (e.data = t.phEnTable.map fun r => r.map some) ∧
    t.tAxis = p.tAxis ∧ t.tData = p.tData ∧ t.bwChiAxis = p.chiAxis ∧
    p.fractAxis = t.bwFractAxis.map some ∧ p.data = t.bwFractTable.map fun r => r.map some

open Shipped in
/-- C98: the program has such tables when it is started with the files that come with it. -/
theorem C98_loaded (dir : List Char) : ∃ t : Tables D, LoadedFrom t (some dir) (Shipped.tables dir) := by
  obtain ⟨e, he, -, -, -, h5⟩ := C98_emission (D := D) dir
  obtain ⟨p, hp, -, -, -, g4, g5⟩ := C98_pairs (D := D) dir
  refine ⟨⟨e.hAxis, e.hData, e.etaAxis, e.chiAxis, ksiRows.map fun r => r.map fun c => lit c.numeral.value,
    p.tAxis, p.tData, p.chiAxis, epsilon.map fun c => lit c.numeral.value,
    splitRows.map fun r => r.map fun c => lit c.numeral.value⟩, e, p, he, hp, rfl, rfl, rfl, rfl, ?_, rfl, rfl,
    rfl, ?_, ?_⟩
  · simp [h5, Function.comp_def]
  · simp [g4, Function.comp_def]
  · simp [g5, Function.comp_def]

open Shipped in
/-- C98: they have the sizes all lookups need. -/
theorem C98_good (dir : List Char) (t : Tables D) (h : LoadedFrom t (some dir) (Shipped.tables dir)) :
    t.Good := by
  obtain ⟨e, p, he, hp, h1, h2, h3, h4, h5, g1, g2, g3, g4, g5⟩ := h
  have he' := C86_emission_safe dir _ _ _ _ _ _ _ _ _ _ (files_h dir) (files_ksi dir) (files_chiMin dir) h_file
    ksi_file (by rw [pairNums, List.length_map, h_length]; norm_num)
    (by rw [rowNums, List.length_map, ksi_length]; norm_num)
    (by rw [rowNums, List.length_map, ksi_length]; norm_num) e he
    (emissionCfg t (staticField ⟨lit 0, lit 0, lit 0⟩ ⟨lit 0, lit 0, lit 0⟩) (lit 0) (lit 0) (lit 0) false)
    ⟨h1, h2, h3, h4, h5⟩
  have hp' := C86_pairs_safe dir _ _ _ _ _ _ _ _ _ (files_rate dir) (files_split dir) (files_epsilon dir)
    (files_logChi dir) rate_file split_file (by rw [pairNums, List.length_map, rate_length]; norm_num)
    (by rw [rowNums, List.length_map, split_length]; norm_num) p hp
    (bwCfg t (staticField ⟨lit 0, lit 0, lit 0⟩ ⟨lit 0, lit 0, lit 0⟩) (lit 0)) ⟨g1, g2, g3, g4, g5⟩
  exact ⟨he'.h, he'.eta, he'.rows, he'.row, hp'.t, hp'.chi, hp'.rows, hp'.row⟩

/-- C98: so with the files that come with it the program meets undefined behaviour only for the one reason
C94 names, whatever the input file, the draws and the number of steps. -/
theorem C98_program (ha : AngleInOrder D) (dir : List Char) (t : Tables D)
    (h : LoadedFrom t (some dir) (Shipped.tables dir))
    (files : List Char → Option (List Char)) (args : List (List Char))
    (raws : Nat → Nat → RawDraws D) (hr : ∀ i n, (raws i n).Sized n) (garbage : Nat → Nat)
    (rng : Rng D) (fuel : Nat) :
    (∃ w, program t files args raws garbage rng fuel = some (.ub w)) ↔
      ∃ x, start t files args = .ok x ∧ ∃ p ∈ x.1.particles, ¬ EnergiesInOrder p :=
  C94_undefined_iff_partial ha t (C98_good dir t h) files args raws hr garbage rng fuel

end generic

/-! ## C37 with the shipped tables -/

open Shipped in
/-- C37 is false with the tables that come with the program: the optical depth of every photon in a vacuum
becomes not-a-number. -/
theorem C37_shipped_refuted (dir : List Char) (t : Pairs XR)
    (hl : loadPairs (some dir) (tables dir) = .ok t) (cfg : BWCfg XR) (hg : t.Gives cfg)
    {p : Particle XR} {tau : ℝ} (h : InVacuum cfg.field p tau) {dt : ℝ} (hdt : cfg.dt = .fin dt)
    (l : PList XR) (r : Rng XR) :
    bwInteract cfg p l r = .ok ({ p with opticalDepth := .nan }, l, r) := by
  obtain ⟨t', ht', g1, g2, -⟩ := C98_pairs (D := XR) dir
  rw [hl] at ht'
  obtain rfl := Res.ok.inj ht'
  obtain ⟨k1, k2, -⟩ := hg
  rw [g1] at k1
  rw [g2] at k2
  have hc := rate_checked
  have hf := rate_first
  rw [Prod.mk.injEq] at hf
  obtain ⟨hf0, hf1⟩ := hf
  rw [checked, List.all_cons, Bool.and_eq_true] at hc
  have hval : ∀ (i : Nat) (a b : Int), ratePairs[i]?.map (fun p => (p.1.units, p.2.units)) = some (a, b) →
      cfg.tAxis[i]? = some (.fin ((a : ℝ) / 10 ^ 40)) ∧ cfg.tData[i]? = some (.fin ((b : ℝ) / 10 ^ 40)) := by
    intro i a b hi
    rw [k1, k2, List.getElem?_map, List.getElem?_map]
    cases hq : ratePairs[i]? with
    | none => rw [hq] at hi; cases hi
    | some q =>
      rw [hq] at hi
      obtain ⟨rfl, rfl⟩ := Prod.mk.inj (Option.some.inj hi)
      have hm := List.mem_of_getElem? hq
      have h1 := List.all_eq_true.1 hc.2 (q.1, ['\t']) (List.mem_flatMap.2 ⟨q, hm, by simp⟩)
      have h2 := List.all_eq_true.1 hc.2 (q.2, ['\n']) (List.mem_flatMap.2 ⟨q, hm, by simp⟩)
      simp only [Bool.and_eq_true] at h1 h2
      simp [(Tok.good h1.1.1).value, (Tok.good h2.1.1).value]
  obtain ⟨a0, b0⟩ := hval 0 _ _ hf0
  obtain ⟨a1, b1⟩ := hval 1 _ _ hf1
  exact C37_vacuum_refuted h ⟨a0, a1, b0, b1, by norm_num⟩ le_rfl hdt l r

/-- A photon in a static field of zero meets the hypotheses. -/
example (dir : List Char) : ∃ (t : Pairs XR) (cfg : BWCfg XR) (p : Particle XR),
    loadPairs (some dir) (Shipped.tables dir) = .ok t ∧ t.Gives cfg ∧ InVacuum cfg.field p 1 ∧
    cfg.dt = .fin 1 := by
  obtain ⟨m, -, t, -, ht, -, -, -, -, -, h1, h2, h3, h4, h5⟩ := C98_loaded (D := XR) dir
  exact ⟨t, bwCfg m (staticField V3.zeroX V3.zeroX) (.fin 1),
    ⟨.photon, .fin 0, .fin 0, .fin 1, .fin 0, .fin 1, false, true, V3.zeroX,
      ⟨.fin 0, .fin 0, .fin 4⟩, [], [], [], []⟩, ht, ⟨h1, h2, h3, h4, h5⟩,
    ⟨rfl, rfl, ⟨0, 0, 4, rfl, by norm_num⟩, rfl, rfl⟩, rfl⟩

end QED
