import Verif.Lemmas.FirstPair
import Verif.Lemmas.TableCurves
import Verif.Props.Convergence

set_option autoImplicit false

/-!
# The conversion of a photon: tables, the first push of the pair, and means
-/

namespace QED

open Numerics Dbl MeasureTheory

/-! ## The tables -/

section tables

variable {b : BWCfg ℝ}

theorem split_rows (hg : b.GoodTables) : ∃ V : Nat → ℝ → ℝ, (∀ i, Measurable (V i)) ∧
    ∀ (i : Nat) (t : List ℝ), b.fractTable[i]? = some t → ∀ v, interpolate1D t b.fractAxis v = .ok (V i v) := by
  have hrow : ∀ k : Nat, ∃ V : ℝ → ℝ, Measurable V ∧
      ∀ t : List ℝ, b.fractTable[k]? = some t → ∀ v, interpolate1D t b.fractAxis v = .ok (V v) := by
    intro k
    by_cases hk : k < b.fractTable.length
    · have e1 := List.getElem?_eq_getElem (l := b.fractTable) hk
      obtain ⟨f, h1, -, h3⟩ := interpolate_curve (hg.row _ (List.mem_of_getElem? e1))
      refine ⟨f, h1, fun t ht => ?_⟩
      rw [e1] at ht
      rw [← Option.some.inj ht]
      exact h3
    · refine ⟨fun _ => 0, measurable_const, fun t ht => ?_⟩
      rw [List.getElem?_eq_none (by omega)] at ht
      cases ht
  choose V h1 h2 using hrow
  exact ⟨V, h1, h2⟩

theorem split_lookup {V : Nat → ℝ → ℝ} (hg : b.GoodTables)
    (hV : ∀ (i : Nat) (t : List ℝ), b.fractTable[i]? = some t → ∀ v, interpolate1D t b.fractAxis v = .ok (V i v))
    {χ : ℝ} {low : Nat} {f : ℝ} (hc : closestPoints b.chiAxis (log10 χ) = .ok (low, f))
    (hlow : low + 1 < b.chiAxis.length) (v : ℝ) :
    bwSplit b χ v = .ok ((1 - f) * V low v + f * V (low + 1) v) := by
  have r1 := hg.rows
  have l0 : low < b.fractTable.length := by omega
  have l1 : low + 1 < b.fractTable.length := by omega
  unfold bwSplit
  rw [hc]
  simp only [Res.ok_bind, rd_ok l0, rd_ok l1, hV low _ (List.getElem?_eq_getElem l0),
    hV (low + 1) _ (List.getElem?_eq_getElem l1)]
  simp

theorem split_polyline {V : Nat → ℝ → ℝ} (hg : b.GoodTables) (hs : b.chiAxis.Pairwise (· < ·))
    (hV : ∀ (i : Nat) (t : List ℝ), b.fractTable[i]? = some t → ∀ v, interpolate1D t b.fractAxis v = .ok (V i v))
    (h3 : 3 ≤ b.chiAxis.length) {χ : ℝ}
    (h0 : b.chiAxis[0] < Real.logb 10 χ) (h1 : Real.logb 10 χ < b.chiAxis[b.chiAxis.length - 2]) (v : ℝ) :
    bwSplit b χ v = .ok (polyline b.chiAxis ((List.range b.chiAxis.length).map fun i => V i v) (Real.logb 10 χ)) := by
  obtain ⟨s, hs'⟩ : ∃ s, s = b.chiAxis := ⟨_, rfl⟩
  obtain ⟨q, hq⟩ : ∃ q, q = Real.logb 10 χ := ⟨_, rfl⟩
  have hl : (log10 χ : ℝ) = q := by rw [hq]; simp [Real.logb]
  have hsmall := hg.chi.2
  have key : ∀ (low : Nat) (f : ℝ), closestPoints b.chiAxis (log10 χ) = .ok (low, f) → low + 1 < b.chiAxis.length →
      bwSplit b χ v = .ok ((1 - f) * V low v + f * V (low + 1) v) :=
    fun low f hc hlow => split_lookup hg hV hc hlow v
  rw [hl] at key
  rw [← hq] at h0 h1 ⊢
  simp only [← hs'] at h0 h1 h3 hs key hsmall ⊢
  have hlast : s[s.length - 2] < s[s.length - 1] := sorted_lt hs (by omega) (by omega)
  have ht : IsTable s ((List.range s.length).map fun i => V i v) := ⟨by simp, by omega, hsmall, hs⟩
  obtain ⟨j, hj, g0, g1⟩ := exists_segment (by omega) h0.le (h1.trans hlast)
  have hj2 : j + 2 < s.length := by
    by_contra hn
    have : s[s.length - 2] ≤ s[j] := sorted_le hs (by omega) (by omega)
    linarith
  have hpos : 0 < s[j + 1] - s[j] := by linarith
  obtain ⟨low, f, hlow, hc, hval⟩ := closest_between (w := (q - s[j]) / (s[j + 1] - s[j])) hs hsmall h3 j hj2
    (div_nonneg (by linarith) hpos.le) (by rw [div_le_one hpos]; linarith)
  have e1 : (1 - (q - s[j]) / (s[j + 1] - s[j])) * s[j] + (q - s[j]) / (s[j + 1] - s[j]) * s[j + 1] = q := by
    field_simp
    ring
  rw [e1] at hc
  rw [key low f hc hlow, hval (fun i => V i v)]
  have := (interpolate_polyline ht q h0.le (h1.trans hlast)).symm.trans (C05_on_segment ht q j hj g0 g1)
  rw [Res.ok.inj this]
  unfold lineThrough
  simp only [List.getElem_map, List.getElem_range]
  refine congrArg (fun x : ℝ => Res.ok x) ?_
  field_simp
  ring

end tables

/-! ## One push -/

theorem rungeKutta_near {V : Type} [NormedAddCommGroup V] [NormedSpace ℝ V] {f : ℝ → V → V} {M : ℝ}
    (hf : ∀ t y, ‖f t y‖ ≤ M) {h : ℝ} (hh : 0 ≤ h) (t : ℝ) (y : V) : ‖rungeKutta f h t y - y‖ ≤ h * M := by
  unfold rungeKutta
  dsimp only
  rw [add_sub_cancel_left, norm_smul, Real.norm_eq_abs, abs_of_nonneg (by positivity)]
  generalize hk1 : f t y = k1
  generalize hk2 : f (t + h / 2) (y + (h / 2) • k1) = k2
  generalize hk3 : f (t + h / 2) (y + (h / 2) • k2) = k3
  generalize hk4 : f (t + h) (y + h • k3) = k4
  have b1 : ‖k1‖ ≤ M := by rw [← hk1]; exact hf _ _
  have b2 : ‖k2‖ ≤ M := by rw [← hk2]; exact hf _ _
  have b3 : ‖k3‖ ≤ M := by rw [← hk3]; exact hf _ _
  have b4 : ‖k4‖ ≤ M := by rw [← hk4]; exact hf _ _
  have c2 : ‖(2 : ℝ) • k2‖ ≤ 2 * M := by rw [norm_smul]; norm_num; exact b2
  have c3 : ‖(2 : ℝ) • k3‖ ≤ 2 * M := by rw [norm_smul]; norm_num; exact b3
  have h1 := norm_add_le (k1 + (2 : ℝ) • k2 + (2 : ℝ) • k3) k4
  have h2 := norm_add_le (k1 + (2 : ℝ) • k2) ((2 : ℝ) • k3)
  have h3 := norm_add_le k1 ((2 : ℝ) • k2)
  have h4 : ‖k1 + (2 : ℝ) • k2 + (2 : ℝ) • k3 + k4‖ ≤ 6 * M := by linarith
  calc _ ≤ h / 6 * (6 * M) := by gcongr
    _ = h * M := by ring

/-- A push moves the clock by the step and the momentum by at most the largest force times the step. -/
theorem push_near {field : Field ℝ} {F K : ℝ} (hf : SmoothField field F K) (x : Particle ℝ) (ha : x.isAlive = true)
    (hm : 0 < x.mass) {dt : ℝ} (hdt : 0 ≤ dt) :
    (pushParticle lorentzForce field dt x).time = x.time + dt ∧
    ‖(pushParticle lorentzForce field dt x).momentum.toVec - x.momentum.toVec‖ ≤ dt * (1 + 3 * |x.charge| * F) := by
  obtain ⟨h1, h2, -⟩ := C103_pushes lorentzForce field dt x ha hm 1
  simp only [Function.iterate_one] at h1 h2
  have hrhs : (motion x.mass fun s y k => (lorentzForce x.mass x.charge (V3.ofVec k) (field s (V3.ofVec y)).1
      (field s (V3.ofVec y)).2).toVec) = motion x.mass (lorentz x.mass x.charge field) := by
    funext s z
    unfold motion
    dsimp only
    rw [C103_lorentz hm x.charge field s (V3.ofVec z.1) (V3.ofVec z.2), toVec_ofVec, toVec_ofVec]
  rw [hrhs] at h1
  refine ⟨by rw [h2]; simp, ?_⟩
  have h3 := rungeKutta_near (motion_le hf hm x.charge) hdt (x.time + (0 : Nat) * dt) (x.position.toVec, x.momentum.toVec)
  have h4 : rungeKutta (motion x.mass (lorentz x.mass x.charge field)) dt (x.time + (0 : Nat) * dt)
      (x.position.toVec, x.momentum.toVec) = ((pushParticle lorentzForce field dt x).position.toVec,
        (pushParticle lorentzForce field dt x).momentum.toVec) := h1.symm
  rw [h4] at h3
  exact (norm_snd_le _).trans h3

/-! ## Means -/

/-- A function that need not be measurable, near one that is. -/
theorem near_mean {f g : ℝ → ℝ} (hg : Measurable g) (hg0 : ∀ v ∈ Set.Ico (0 : ℝ) 1, 0 ≤ g v) {B : ℝ}
    (hB : ∀ v ∈ Set.Ico (0 : ℝ) 1, g v ≤ B) {ε : ℝ} (hε : 0 ≤ ε) (h : ∀ v ∈ Set.Ico (0 : ℝ) 1, |f v - g v| ≤ ε) :
    (∫⁻ v in Set.Ico (0 : ℝ) 1, ENNReal.ofReal (f v)) ≠ ⊤ ∧
    |(∫⁻ v in Set.Ico (0 : ℝ) 1, ENNReal.ofReal (f v)).toReal - ∫ v in Set.Ico (0 : ℝ) 1, g v| ≤ ε := by
  have hvol : volume (Set.Ico (0 : ℝ) 1) = 1 := by rw [Real.volume_Ico]; simp
  have hconst : ∀ c : ENNReal, ∫⁻ _ in Set.Ico (0 : ℝ) 1, c = c := by intro c; rw [lintegral_const]; simp
  have hint : IntegrableOn g (Set.Ico (0 : ℝ) 1) := by
    refine Measure.integrableOn_of_bounded (M := B) (by rw [hvol]; simp) hg.aestronglyMeasurable ?_
    refine (ae_restrict_mem measurableSet_Ico).mono fun v hv => ?_
    rw [Real.norm_eq_abs, abs_of_nonneg (hg0 v hv)]
    exact hB v hv
  have hI0 : 0 ≤ ∫ v in Set.Ico (0 : ℝ) 1, g v := setIntegral_nonneg measurableSet_Ico hg0
  have hG : ∫⁻ v in Set.Ico (0 : ℝ) 1, ENNReal.ofReal (g v) = ENNReal.ofReal (∫ v in Set.Ico (0 : ℝ) 1, g v) := by
    rw [ofReal_integral_eq_lintegral_ofReal hint]
    exact (ae_restrict_mem measurableSet_Ico).mono fun v hv => hg0 v hv
  have hup : ∫⁻ v in Set.Ico (0 : ℝ) 1, ENNReal.ofReal (f v) ≤ ENNReal.ofReal (∫ v in Set.Ico (0 : ℝ) 1, g v) +
      ENNReal.ofReal ε := by
    rw [← hG]
    conv_rhs => rw [← hconst (ENNReal.ofReal ε)]
    rw [← lintegral_add_right _ measurable_const]
    refine setLIntegral_mono' measurableSet_Ico fun v hv => ?_
    rw [← ENNReal.ofReal_add (hg0 v hv) hε]
    refine ENNReal.ofReal_le_ofReal ?_
    have := (abs_le.1 (h v hv)).2
    linarith
  have hlow : ENNReal.ofReal (∫ v in Set.Ico (0 : ℝ) 1, g v) ≤ (∫⁻ v in Set.Ico (0 : ℝ) 1, ENNReal.ofReal (f v)) +
      ENNReal.ofReal ε := by
    rw [← hG]
    conv_rhs => rw [← hconst (ENNReal.ofReal ε)]
    rw [← lintegral_add_right _ measurable_const]
    refine setLIntegral_mono' measurableSet_Ico fun v hv => ?_
    refine (ENNReal.ofReal_le_ofReal (q := f v + ε) ?_).trans ENNReal.ofReal_add_le
    have := (abs_le.1 (h v hv)).1
    linarith
  have hfin : (∫⁻ v in Set.Ico (0 : ℝ) 1, ENNReal.ofReal (f v)) ≠ ⊤ :=
    ne_top_of_le_ne_top (ENNReal.add_ne_top.2 ⟨ENNReal.ofReal_ne_top, ENNReal.ofReal_ne_top⟩) hup
  refine ⟨hfin, ?_⟩
  generalize (∫⁻ v in Set.Ico (0 : ℝ) 1, ENNReal.ofReal (f v)) = J at hup hlow hfin ⊢
  lift J to NNReal using hfin with j
  generalize (∫ v in Set.Ico (0 : ℝ) 1, g v) = I at hup hlow hI0 ⊢
  rw [← ENNReal.ofReal_add hI0 hε] at hup
  rw [← ENNReal.ofReal_coe_nnreal] at hup hlow
  rw [← ENNReal.ofReal_add j.coe_nonneg hε] at hlow
  have a1 := (ENNReal.ofReal_le_ofReal_iff (add_nonneg hI0 hε)).1 hup
  have a2 := (ENNReal.ofReal_le_ofReal_iff (add_nonneg j.coe_nonneg hε)).1 hlow
  rw [ENNReal.coe_toReal, abs_le]
  have a2' : I ≤ (j : ℝ) + ε := a2
  exact ⟨by linarith, by linarith⟩

end QED
