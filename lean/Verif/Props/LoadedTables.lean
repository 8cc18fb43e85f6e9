import Verif.Props.TableFiles
import Verif.Props.PhotonEnergy

set_option autoImplicit false

/-!
# Property C38 for tables loaded from files
-/

namespace QED

open Dbl TableFile MCTools Numerics

/-- A row of an energy table: cumulative probabilities that never decrease, up to 1; the first is 0 or less
than the second. -/
structure TableFile.Cumulative (row : List Numeral) : Prop where
  mono : row.Pairwise fun a b => a.value ≤ b.value
  last : ∃ e, row.getLast? = some e ∧ e.value = 1
  first : ∀ a b, row[0]? = some a → row[1]? = some b → a.value = 0 ∨ a.value < b.value

/-- The place of row `i` of `n` in the range of `log10 eta`. -/
noncomputable def TableFile.logEta (n : Nat) (logMin logMax : Numeral) (i : Nat) : ℝ :=
  (logMin.value : ℝ) + ((logMax.value : ℝ) - logMin.value) * (i / (n - 1))

theorem zipWith_some {α β γ : Type} {f : α → β → γ} {as : List α} {bs : List β} {i : Nat} {c : γ}
    (h : (List.zipWith f as bs)[i]? = some c) : ∃ a b, as[i]? = some a ∧ bs[i]? = some b ∧ c = f a b := by
  rw [List.getElem?_zipWith] at h
  cases ha : as[i]? with
  | none => rw [ha] at h; cases h
  | some a =>
    cases hb : bs[i]? with
    | none => rw [ha, hb] at h; cases h
    | some b => rw [ha, hb] at h; exact ⟨a, b, rfl, rfl, (Option.some.inj h).symm⟩

/-- Square files with cumulative rows and no smallest `chi` beyond half of `eta` give tables as C38 supposes
them. -/
theorem loaded_half_eta (path : List Char) (files : List Char → Option (List Char))
    (pairs : List (Numeral × Numeral)) (logMin logMax : Numeral)
    (rows : List (List Numeral)) (chiMin : List Numeral) (hText text minText : List Char)
    (f1 : files (path ++ "/hsokolov.table".toList) = some hText)
    (f2 : files (path ++ "/ksi_sokolov.table".toList) = some text)
    (f3 : files (path ++ "/chimin.table".toList) = some minText)
    (hh : PairFile pairs.length pairs hText)
    (he : EnergyFiles rows.length logMin logMax rows chiMin text minText)
    (n3 : 3 ≤ rows.length) (hrange : logMin.value < logMax.value) (hrows : ∀ r ∈ rows, Cumulative r)
    (hmin : ∀ (i : Nat) (x : Numeral), chiMin[i]? = some x →
      0 < x.value ∧ (x.value : ℝ) ≤ 10 ^ logEta rows.length logMin logMax i / 2)
    (t : Emission ℝ) (ht : loadEmission (some path) files = .ok t)
    (cfg : EmissionCfg ℝ) (hg : t.Gives cfg) : HalfEtaTables cfg := by
  rw [C86_emission path files pairs rows.length logMin logMax rows chiMin hText text minText f1 f2 f3 hh he]
    at ht
  obtain ⟨⟨m, n, hm, hn, -⟩, hcol, -, heach⟩ := he
  obtain rfl := Res.ok.inj ht
  obtain ⟨g1, g2, g3, g4, g5⟩ := hg
  dsimp only at g1 g2 g3 g4 g5
  have hdata : cfg.phEnTable = rows.map fun r => r.map fun x => (lit x.value : ℝ) := by
    apply map_map_some_inj
    rw [← g5]
    simp [Function.comp_def]
  have h10 : (0:ℝ) < 10 := by norm_num
  have h1 : (10:ℝ) ≠ 1 := by norm_num
  have hN : (3:ℝ) ≤ rows.length := by exact_mod_cast n3
  have hlen : cfg.etaAxis.length = rows.length := by rw [g3]; simp [etaAxisOf]
  have hr : (logMin.value : ℝ) < logMax.value := by exact_mod_cast hrange
  have haxis : ∀ i (hi : i < rows.length), cfg.etaAxis[i]? = some (logEta rows.length logMin logMax i) := by
    intro i hi
    rw [g3]
    exact C87_eta rows.length (by omega) _ _ i hi
  have hchi : ∀ (i : Nat) (c : List ℝ), cfg.chiAxis[i]? = some c → i < rows.length ∧ c.length = rows.length ∧
      ∃ w a : ℝ, 0 ≤ w ∧ (10:ℝ) ^ (a + w) = 10 ^ logEta rows.length logMin logMax i / 2 ∧
      ∀ j < rows.length, c[j]? = some (a + w * (j / (rows.length - 1))) := by
    intro i c hc
    rw [g4] at hc
    obtain ⟨a, b, ha, hb, rfl⟩ := zipWith_some hc
    rw [List.getElem?_map] at hb
    cases hx : chiMin[i]? with
    | none => rw [hx] at hb; cases hb
    | some x =>
    rw [hx] at hb
    obtain rfl := Option.some.inj hb
    have hi : i < rows.length := by
      rw [← heach]; exact (List.getElem?_eq_some_iff.1 hx).1
    have ha' := haxis i hi
    rw [g3, ha] at ha'
    obtain rfl := Option.some.inj ha'
    obtain ⟨hpos, hle⟩ := hmin i x hx
    have hpos' : (0:ℝ) < x.value := by exact_mod_cast hpos
    have hhalf : (10:ℝ) ^ logEta rows.length logMin logMax i / 2 =
        (10:ℝ) ^ (logEta rows.length logMin logMax i - Real.logb 10 2) := by
      rw [Real.rpow_sub h10, Real.rpow_logb h10 h1 (by norm_num)]
    refine ⟨hi, by simp [chiRow], logEta rows.length logMin logMax i - Real.logb 10 2 - Real.logb 10 x.value,
      Real.logb 10 x.value, ?_, ?_, fun j hj => C87_row rows.length rows.length (by omega) _ _ j hj⟩
    · rw [hhalf] at hle
      have := (Real.logb_le_iff_le_rpow (by norm_num) hpos').2 hle
      linarith
    · rw [hhalf]; congr 1; ring
  refine ⟨?_, by omega, by rw [hlen]; exact hm.2.2.2.2, ⟨by rw [hdata, hlen]; simp, ?_⟩, ?_, ?_⟩
  · rw [List.pairwise_iff_getElem]
    intro i j hi hj hij
    have e1 := haxis i (by omega)
    have e2 := haxis j (by omega)
    rw [List.getElem?_eq_getElem hi] at e1
    rw [List.getElem?_eq_getElem hj] at e2
    rw [Option.some.inj e1, Option.some.inj e2]
    unfold logEta
    have : (i:ℝ) / (rows.length - 1) < j / (rows.length - 1) :=
      div_lt_div_of_pos_right (by exact_mod_cast hij) (by linarith)
    have := mul_lt_mul_of_pos_left this (sub_pos.2 hr)
    linarith
  · rw [hlen, g4]; simp [etaAxisOf, heach]
  · intro i t c ht' hc
    obtain ⟨hi, hcl, w, a, hw, -, hj⟩ := hchi i c hc
    rw [hdata, List.getElem?_map, List.getElem?_eq_getElem hi] at ht'
    obtain rfl := Option.some.inj ht'
    have hmem := List.getElem_mem hi
    have hl := hcol _ hmem
    obtain ⟨mono, ⟨e, he1, he2⟩, first⟩ := hrows _ hmem
    refine ⟨⟨by rw [hcl, List.length_map, hl], by rw [List.length_map, hl]; omega,
      by rw [List.length_map, hl]; exact hm.2.2.2.2, ?_⟩, ?_, ?_⟩
    · rw [List.pairwise_map]
      exact mono.imp fun h => by simp only [real_lit]; exact_mod_cast h
    · rw [List.getLast?_map, he1]
      simp [he2]
    · have l0 : 0 < (rows[i]).length := by omega
      have l1 : 1 < (rows[i]).length := by omega
      rcases first _ _ (List.getElem?_eq_getElem l0) (List.getElem?_eq_getElem l1) with h | h
      · left
        rw [List.head?_eq_getElem?, List.getElem?_map, List.getElem?_eq_getElem l0]
        simp [h]
      · right
        intro t0 t1 c0 c1 a0 a1 a2 a3
        rw [List.getElem?_map, List.getElem?_eq_getElem l0] at a0
        rw [List.getElem?_map, List.getElem?_eq_getElem l1] at a1
        rw [hj 0 (by omega)] at a2
        rw [hj 1 (by omega)] at a3
        obtain rfl := Option.some.inj a0
        obtain rfl := Option.some.inj a1
        obtain rfl := Option.some.inj a2
        obtain rfl := Option.some.inj a3
        refine ⟨by simp only [real_lit]; exact_mod_cast h, ?_⟩
        have : (0:ℝ) ≤ 1 / (rows.length - 1) := div_nonneg (by norm_num) (by linarith)
        have := mul_nonneg hw this
        push_cast
        simp only [zero_div, mul_zero, add_zero]
        linarith
  · intro i c a' hc ha' x hx
    obtain ⟨hi, hcl, w, a, hw, htop, hj⟩ := hchi i c hc
    rw [haxis i hi] at ha'
    obtain rfl := Option.some.inj ha'
    obtain ⟨j, hjl, rfl⟩ := List.mem_iff_getElem.1 hx
    have e := hj j (by omega)
    rw [List.getElem?_eq_getElem hjl] at e
    rw [Option.some.inj e, ← htop]
    refine Real.rpow_le_rpow_of_exponent_le (by norm_num) ?_
    have hj1 : (j:ℝ) ≤ rows.length - 1 := by
      have : j + 1 ≤ rows.length := by omega
      have : (j:ℝ) + 1 ≤ rows.length := by exact_mod_cast this
      linarith
    have : (j:ℝ) / (rows.length - 1) ≤ 1 := by
      rw [div_le_one (by linarith)]; exact hj1
    have := mul_le_mul_of_nonneg_left this hw
    linarith

/-- C38 for tables loaded from square files: a lepton whose eta is not below the table never loses, and no
photon takes, more than its energy. -/
theorem C38_loaded_partial (path : List Char) (files : List Char → Option (List Char))
    (pairs : List (Numeral × Numeral)) (logMin logMax : Numeral)
    (rows : List (List Numeral)) (chiMin : List Numeral) (hText text minText : List Char)
    (f1 : files (path ++ "/hsokolov.table".toList) = some hText)
    (f2 : files (path ++ "/ksi_sokolov.table".toList) = some text)
    (f3 : files (path ++ "/chimin.table".toList) = some minText)
    (hh : PairFile pairs.length pairs hText)
    (he : EnergyFiles rows.length logMin logMax rows chiMin text minText)
    (n3 : 3 ≤ rows.length) (hrange : logMin.value < logMax.value) (hrows : ∀ r ∈ rows, Cumulative r)
    (hmin : ∀ (i : Nat) (x : Numeral), chiMin[i]? = some x →
      0 < x.value ∧ (x.value : ℝ) ≤ 10 ^ logEta rows.length logMin logMax i / 2)
    (t : Emission ℝ) (ht : loadEmission (some path) files = .ok t)
    (cfg : EmissionCfg ℝ) (hg : t.Gives cfg)
    {p : Particle ℝ} {l : PList ℝ} {r : Rng ℝ} (hr : r.Valid) (hk : p.kind ≠ .photon) (hmass : p.mass = 1)
    (hp : p.momentum ≠ ⟨0, 0, 0⟩) (heta : 0 < calculateEta cfg.field p)
    (hlow : (10:ℝ) ^ (logMin.value : ℝ) ≤ calculateEta cfg.field p)
    {p' : Particle ℝ} {l' : PList ℝ} {r' : Rng ℝ}
    (h : stochasticInteract cfg p l r = .ok (p', l', r')) :
    (p.momentum.sub p'.momentum).mag ≤ p.energy ∧
    ∀ ph, l'.items = l.items ++ [ph] → ph.energy ≤ p.energy := by
  refine C38_energy_partial (loaded_half_eta path files pairs logMin logMax rows chiMin hText text minText
    f1 f2 f3 hh he n3 hrange hrows hmin t ht cfg hg) hr hk hmass hp heta ?_ h
  intro a ha
  have h0 : t.etaAxis[0]? = some (logEta rows.length logMin logMax 0) := by
    rw [C86_emission path files pairs rows.length logMin logMax rows chiMin hText text minText f1 f2 f3 hh he]
      at ht
    obtain rfl := Res.ok.inj ht
    exact C87_eta rows.length (by omega) _ _ 0 (by omega)
  rw [hg.2.2.1, h0] at ha
  obtain rfl := Option.some.inj ha
  simpa [logEta] using hlow

/-- The example files meet these hypotheses. -/
example : (∀ r ∈ [[tenths 1, tenths 5, dig 1], [tenths 2, tenths 6, dig 1], [tenths 2, tenths 3, dig 1]],
      Cumulative r) ∧ (dig 0).value < (dig 2).value ∧
    ∀ (i : Nat) (x : Numeral), [tenths 1, tenths 2, tenths 3][i]? = some x →
      0 < x.value ∧ (x.value : ℝ) ≤ 10 ^ logEta 3 (dig 0) (dig 2) i / 2 := by
  have hd : ∀ d : Fin 10, (dig d).value = d.val := by intro d; simp [Numeral.value, dig, Numeral.nat, Numeral.expVal]
  have ht : ∀ d : Fin 10, (tenths d).value = d.val / 10 := by
    intro d; simp [Numeral.value, tenths, Numeral.nat, Numeral.expVal]
  refine ⟨?_, by rw [hd, hd]; norm_num, ?_⟩
  · intro r hr
    simp only [List.mem_cons, List.not_mem_nil, or_false] at hr
    rcases hr with rfl | rfl | rfl
    all_goals
      refine ⟨by simp [hd, ht]; norm_num, ⟨dig 1, rfl, by rw [hd]; norm_num⟩, ?_⟩
      rintro a b ⟨⟩ ⟨⟩
      right
      rw [ht, ht]
      norm_num
  · have h10 : ∀ i : Nat, (1:ℝ) ≤ 10 ^ logEta 3 (dig 0) (dig 2) i := by
      intro i
      refine Real.one_le_rpow (by norm_num) ?_
      unfold logEta
      rw [hd, hd]
      norm_num
      positivity
    intro i x hx
    have := h10 i
    have hx := List.mem_of_getElem? hx
    simp only [List.mem_cons, List.not_mem_nil, or_false] at hx
    rcases hx with rfl | rfl | rfl <;> rw [ht] <;> norm_num <;> linarith

end QED
