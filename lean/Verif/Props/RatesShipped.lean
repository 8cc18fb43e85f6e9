import Verif.Props.Rates
import Verif.Props.ShippedSplit
import Verif.Props.Shipped

set_option autoImplicit false

/-!
# Property C133 with the tables that come with the program
-/

namespace QED

open Dbl TableFile Main MCTools

namespace Shipped

theorem h_incr : incr (hPairs.map (·.1)) = true := by decide +kernel

theorem rate_incr : incr (ratePairs.map (·.1)) = true := by decide +kernel

theorem h_ends : ((hPairs.map (·.1))[0]?.map Tok.units, (hPairs.map (·.1))[499]?.map Tok.units) =
    (some (-5 * 10 ^ 40), some (10 ^ 40)) := by decide +kernel

theorem rate_ends : ((ratePairs.map (·.1))[0]?.map Tok.units, (ratePairs.map (·.1))[1300]?.map Tok.units) =
    (some (-5 * 10 ^ 40), some (8 * 10 ^ 40)) := by decide +kernel

theorem pairs_table {ps : List (Tok × Tok)} {n : Nat} {a b : Int} {s d : List ℝ}
    (hok : ∀ p ∈ ps, p.1.ok = true) (hlen : ps.length = n + 2) (hn : n < 1000000) (hi : incr (ps.map (·.1)) = true)
    (he : ((ps.map (·.1))[0]?.map Tok.units, (ps.map (·.1))[n + 1]?.map Tok.units) =
      (some (a * 10 ^ 40), some (b * 10 ^ 40)))
    (hs : s = ps.map fun p => (lit p.1.numeral.value : ℝ)) (hd : d = ps.map fun p => (lit p.2.numeral.value : ℝ)) :
    IsTable s d ∧ ∀ q, Inside s q ↔ (a : ℝ) < q ∧ q < b := by
  have hs' : s = (ps.map (·.1)).map val := by
    rw [hs, List.map_map]
    exact List.map_congr_left fun p hp => ok_val (hok p hp)
  have hl : s.length = n + 2 := by rw [hs, List.length_map, hlen]
  refine ⟨⟨by rw [hs, hd]; simp, by omega, by omega, ?_⟩, fun q => ?_⟩
  · rw [hs', List.pairwise_map]
    exact (incr_pairwise hi).imp fun h => val_lt h
  · obtain ⟨e0, e1⟩ := Prod.mk.inj he
    have v0 := val_at e0
    have v1 := val_at e1
    rw [← hs'] at v0 v1
    have c0 : s[0]'(by omega) = a := by
      have := List.getElem?_eq_getElem (show 0 < s.length by omega)
      rw [this] at v0
      rw [Option.some.inj v0]; push_cast; field_simp; norm_num
    have c1 : s[s.length - 1]'(by omega) = b := by
      have h1 : s.length - 1 = n + 1 := by omega
      have := List.getElem?_eq_getElem (show n + 1 < s.length by omega)
      rw [this] at v1
      simp only [h1]
      rw [Option.some.inj v1]; push_cast; field_simp; norm_num
    unfold Inside
    constructor
    · rintro ⟨_, h1, h2⟩
      rw [c0] at h1; rw [c1] at h2
      exact ⟨h1, h2⟩
    · rintro ⟨h1, h2⟩
      exact ⟨by omega, by rw [c0]; exact h1, by rw [c1]; exact h2⟩

end Shipped

open Shipped in
/-- C133 applies to the tables that come with the program: emission for `η` between `10 ^ -5` and `10`, pair
production for `χ` between `10 ^ -5` and `10 ^ 8`. -/
theorem C133_shipped (dir : List Char) (t : Tables ℝ) (h : LoadedFrom t (some dir) (Shipped.tables dir)) :
    IsTable t.hAxis t.hData ∧ IsTable t.tAxis t.tData ∧
    (∀ q, Inside t.hAxis q ↔ -5 < q ∧ q < 1) ∧ ∀ q, Inside t.tAxis q ↔ -5 < q ∧ q < 8 := by
  obtain ⟨e, p, he, hp, h1, h2, -, -, -, g1, g2, -⟩ := h
  obtain ⟨e', he', a1, a2, -⟩ := C98_emission (D := ℝ) dir
  obtain ⟨p', hp', b1, b2, -⟩ := C98_pairs (D := ℝ) dir
  obtain rfl : e' = e := Res.ok.inj (he'.symm.trans he)
  obtain rfl : p' = p := Res.ok.inj (hp'.symm.trans hp)
  have ok1 : ∀ p ∈ hPairs, p.1.ok = true := by
    intro p hp
    have := List.all_eq_true.1 h_checked (p.1, [' ']) (by simp; exact ⟨_, hp⟩)
    simp only [Bool.and_eq_true] at this
    exact this.1.1
  have ok2 : ∀ p ∈ ratePairs, p.1.ok = true := by
    intro p hp
    have := List.all_eq_true.1 rate_checked (p.1, ['\t']) (by simp; exact ⟨_, hp⟩)
    simp only [Bool.and_eq_true] at this
    exact this.1.1
  obtain ⟨c1, c2⟩ := pairs_table (n := 498) (a := -5) (b := 1) ok1 h_length (by norm_num) h_incr (by rw [h_ends]; rfl)
    (h1.trans a1) (h2.trans a2)
  obtain ⟨d1, d2⟩ := pairs_table (n := 1299) (a := -5) (b := 8) ok2 rate_length (by norm_num) rate_incr (by rw [rate_ends])
    (g1.trans b1) (g2.trans b2)
  refine ⟨c1, d1, fun q => ?_, fun q => ?_⟩
  · rw [c2]; norm_num
  · rw [d2]; norm_num

/-- The files can be loaded, and the values `η = 0.1` and `χ = 100` are in their range. -/
example (dir : List Char) : ∃ t : Tables ℝ, LoadedFrom t (some dir) (Shipped.tables dir) ∧
    Inside t.hAxis (Real.logb 10 0.1) ∧ Inside t.tAxis (Real.logb 10 100) := by
  obtain ⟨t, h⟩ := C98_loaded (D := ℝ) dir
  obtain ⟨-, -, h1, h2⟩ := C133_shipped dir t h
  have e1 : Real.logb 10 0.1 = -1 := by
    rw [show (0.1 : ℝ) = 10 ^ (-1 : ℝ) by rw [Real.rpow_neg_one]; norm_num]
    exact Real.logb_rpow (by norm_num) (by norm_num)
  have e2 : Real.logb 10 100 = 2 := by
    rw [show (100 : ℝ) = 10 ^ (2 : ℝ) by norm_num]
    exact Real.logb_rpow (by norm_num) (by norm_num)
  exact ⟨t, h, (h1 _).2 (by rw [e1]; norm_num), (h2 _).2 (by rw [e2]; norm_num)⟩

end QED
