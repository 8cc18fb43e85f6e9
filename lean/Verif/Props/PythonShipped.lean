import Verif.Props.Gain
import Verif.Props.PythonExample
import Verif.Props.ShippedEnergy

set_option autoImplicit false

/-!
# Property C124 with the tables that come with the program
-/

namespace QED

open Dbl TableFile MCTools Numerics RunMgr _root_.QED.Units

/-- The pulse of the script is nowhere stronger than its peak, electric and magnetic field together. -/
theorem script_fields : FieldsAtMost scriptPulse.getField (2 * (1e14 / (unitsSI : UnitsSystem ℝ).refEField)) := by
  intro t x
  obtain ⟨-, -, he, -, -⟩ := si_pos
  obtain ⟨-, -, -, h⟩ := C124_collision
  obtain ⟨h1, h2⟩ := h t x
  have hb : len (scriptPulse.getField t x).2.toVec ≤ 1e14 / (unitsSI : UnitsSystem ℝ).refEField := by
    by_cases hne : scriptPulse.amplitude t x = 0
    · have : (scriptPulse.getField t x).2 = ⟨0, 0, 0⟩ := by
        unfold GaussField.getField
        dsimp only
        rw [hne]
        simp [M3.mulVec, M3.acc3]
      rw [this]
      have : len (⟨0, 0, 0⟩ : V3 ℝ).toVec = 0 := by simp [len, V3.toVec]
      rw [this]
      positivity
    · rw [← (h2 hne).2.2.1]
      exact h1
  linarith

theorem script_numbers :
    2 * (1e14 / (unitsSI : UnitsSystem ℝ).refEField) ≤ 1.512e-4 ∧
    5e-17 / (unitsSI : UnitsSystem ℝ).refTime ≤ 38830 ∧
    8.176e-11 / (unitsSI : UnitsSystem ℝ).refEnergy ≤ 999 ∧ (Units.alpha : ℝ) ≤ 0.0073 := by
  simp only [unitsSI, SI_c, SI_me, SI_qe, SI_eSchw, Units.alpha, real_lit, real_div, real_mul]
  norm_num

open Shipped in
/-- The axes of the shipped tables that the run of the script uses. -/
theorem shipped_axes {dir : List Char} {t : Main.Tables ℝ} (h : LoadedFrom t (some dir) (Shipped.tables dir)) :
    t.etaAxis.Pairwise (· < ·) ∧ t.etaAxis.length = 100 ∧
    t.etaAxis[98]? = some (-5 + (1 - -5) * (98 / 99) : ℝ) ∧ t.hAxis.getD 0 0 = -5 := by
  obtain ⟨e, p, ht, -, h1, h2, h3, h4, h5, -⟩ := h
  let cfg := Main.emissionCfg t (fun _ _ => (⟨0, 0, 0⟩, ⟨0, 0, 0⟩)) 1 1 0 false
  have hg : e.Gives cfg := ⟨h1, h2, h3, h4, h5⟩
  have hh := halfEta dir e ht cfg hg
  have hf := firstRows dir e ht cfg hg
  refine ⟨hh.sorted, hf.axis.1, ?_, ?_⟩
  · rw [C86_emission dir _ _ _ _ _ _ _ _ _ _ (files_h dir) (files_ksi dir) (files_chiMin dir) h_file
      ksi_file] at ht
    obtain rfl := Res.ok.inj ht
    have hlen : (rowNums ksiRows).length = 100 := by rw [rowNums, List.length_map, ksi_length]
    rw [h3]
    dsimp only
    rw [hlen, C87_eta 100 (by norm_num) _ _ 98 (by norm_num), logMin_value, logMax_value]
    norm_num
  · obtain ⟨e', he', ha, -⟩ := C98_emission (D := ℝ) dir
    rw [ht] at he'
    obtain rfl := Res.ok.inj he'
    have hv : (⟨true, 1, 5, none, none, 'e'⟩ : Tok).numeral.value = -5 := by
      rw [(Tok.good (by decide : (⟨true, 1, 5, none, none, 'e'⟩ : Tok).ok = true)).value]
      norm_num [Tok.units, Tok.size, Tok.width, Tok.down]
    have h0 : hPairs[0]?.map (fun p => p.1) = some (⟨true, 1, 5, none, none, 'e'⟩ : Tok) := rfl
    rw [h1, ha, List.getD_eq_getElem?_getD, List.getElem?_map]
    obtain ⟨q, hq, hq'⟩ := Option.map_eq_some_iff.mp h0
    rw [hq]
    simp only [Option.map_some, Option.getD_some, hq', hv, real_lit]
    norm_num

/-- On its whole path an electron of the script with a sample of at most 40 standard deviations has an `eta` of
at most 2.6. -/
theorem script_eta {z : ℝ} (hz : |z| ≤ 40) {k : Nat} (hk : k ≤ 2000) : 0 ≤ scriptEta z k ∧ scriptEta z k ≤ 2.6 := by
  obtain ⟨n1, n2, n3, n4⟩ := script_numbers
  obtain ⟨ht, -, he, -, hen⟩ := si_pos
  have ha0 := alpha_pos
  have hF0 : 0 ≤ 2 * (1e14 / (unitsSI : UnitsSystem ℝ).refEField) := by positivity
  have hF := script_fields
  have hdt0 : 0 ≤ 5e-17 / (unitsSI : UnitsSystem ℝ).refTime := by positivity
  unfold scriptEta
  have hp : len (scriptElectron z).momentum.toVec ≤ 4995 := by
    have e : len (scriptElectron z).momentum.toVec = |8.176e-11 / (unitsSI : UnitsSystem ℝ).refEnergy * (1 + z / 10)| := by
      show len (⟨0, 0, (8.176e-11 + 8.176e-12 * z) / (unitsSI : UnitsSystem ℝ).refEnergy⟩ : V3 ℝ).toVec = _
      rw [show 8.176e-11 / (unitsSI : UnitsSystem ℝ).refEnergy * (1 + z / 10) =
        (8.176e-11 + 8.176e-12 * z) / (unitsSI : UnitsSystem ℝ).refEnergy by ring]
      simp [len, V3.toVec, Real.sqrt_sq_eq_abs]
    have h0 : 0 ≤ 8.176e-11 / (unitsSI : UnitsSystem ℝ).refEnergy := by positivity
    rw [e, abs_mul, abs_of_nonneg h0]
    have : |1 + z / 10| ≤ 5 := by
      rw [abs_le] at hz ⊢
      constructor <;> linarith
    calc _ ≤ 999 * (5 : ℝ) := by gcongr
      _ = 4995 := by norm_num
  generalize 2 * (1e14 / (unitsSI : UnitsSystem ℝ).refEField) = F at n1 hF0 hF
  generalize 5e-17 / (unitsSI : UnitsSystem ℝ).refTime = dt at n2 hdt0
  generalize scriptPulse.getField = field at hF
  have hm : (scriptElectron z).mass = 1 := rfl
  have hc : |(scriptElectron z).charge| = 1 := by
    show |(-1 : ℝ)| = 1
    norm_num
  have hK : 2 / 3 * (Units.alpha : ℝ) * F ^ 2 ≤ 1.2e-10 := by
    calc _ ≤ 2 / 3 * 0.0073 * (1.512e-4 : ℝ) ^ 2 := by gcongr
      _ ≤ _ := by norm_num
  have hK0 : 0 ≤ 2 / 3 * (Units.alpha : ℝ) * F ^ 2 := by positivity
  have hB : max (len (scriptElectron z).momentum.toVec)
      (6 * dt * (|(scriptElectron z).charge| * F + 2 / 3 * (Units.alpha : ℝ) * F ^ 2)) ≤ 4995 := by
    refine max_le hp ?_
    rw [hc]
    calc _ ≤ 6 * 38830 * (1 * 1.512e-4 + 1.2e-10 : ℝ) := by gcongr
      _ ≤ _ := by norm_num
  have hP : max (len (scriptElectron z).momentum.toVec)
      (6 * dt * (|(scriptElectron z).charge| * F + 2 / 3 * (Units.alpha : ℝ) * F ^ 2)) +
      k * dt * (|(scriptElectron z).charge| * F) ≤ 16740 := by
    rw [hc] at hB ⊢
    have hk' : (k : ℝ) ≤ 2000 := by exact_mod_cast hk
    calc _ ≤ 4995 + 2000 * 38830 * (1 * 1.512e-4 : ℝ) := by gcongr
      _ ≤ _ := by norm_num
  have key := C126_bound_partial (.inr rfl) hF hdt0 (scriptElectron z) rfl (by rw [hm]; exact one_pos) k _ rfl (by
    rw [hm]
    calc _ ≤ 9 * 38830 * (1.2e-10 : ℝ) * 16740 := by gcongr
      _ ≤ _ := by norm_num)
  obtain ⟨-, s2, -, s4⟩ := pushes_same modLandauForce field dt (scriptElectron z) k
  rw [scriptElectron_kind] at s4
  rw [hm] at s2
  have hlen := key.trans hP
  generalize (pushParticle modLandauForce field dt)^[k] (scriptElectron z) = q at s2 s4 hlen
  obtain ⟨h1, h2⟩ := C126_eta field q (by rw [s4]; decide)
  have hg : q.gamma ≤ 16741 := by
    rw [h2, s2]
    refine Real.sqrt_le_iff.mpr ⟨by norm_num, ?_⟩
    have : len q.momentum.toVec ^ 2 ≤ 16740 ^ 2 := pow_le_pow_left₀ (len_nonneg _) hlen 2
    norm_num at this ⊢
    linarith
  have hg0 : 0 ≤ q.gamma := by rw [h2]; positivity
  refine ⟨?_, h1.trans ?_⟩
  · unfold calculateEta
    simp only [real_mul, real_sqrt]
    positivity
  · calc _ ≤ 16741 * (1.512e-4 : ℝ) := by
          have := hF q.time q.position
          have := add_nonneg (len_nonneg (field q.time q.position).1.toVec) (len_nonneg (field q.time q.position).2.toVec)
          gcongr
          linarith
      _ ≤ _ := by norm_num

/-- C124, the run with the tables that come with the program: the call always runs to its end unless a normally
distributed sample of the energy is more than 40 standard deviations from the mean. The standard library of GNU C++
gives none beyond 13, which is not part of the model. -/
theorem C124_shipped_partial (fa : FieldArgs ℝ) (ga : GenArgs ℝ) (e : Env ℝ) (ho : e.omp = true)
    (he : InOrder e 1000 2) (dir : List Char) (ht : LoadedFrom e.tables (some dir) (Shipped.tables dir))
    (hz : ∀ z ∈ e.raw.rawE, |z| ≤ 40)
    (o : Res (Outcome ℝ)) (hb : BeamOn e 1000 2 (scriptManager fa ga) o) : ∃ m ls, o = .ok (.ran m ls) := by
  obtain ⟨h1, h2, h3, h4⟩ := shipped_axes ht
  have h98 : e.tables.etaAxis[e.tables.etaAxis.length - 2]'(by omega) = -5 + (1 - -5) * (98 / 99) := by
    rw [List.getElem?_eq_getElem (by omega)] at h3
    have := Option.some.inj h3
    simpa [h2] using this
  have hlog : 0 < Real.log 10 := Real.log_pos (by norm_num)
  refine C124_completes_partial fa ga e ho he h1 (by omega) ?_ ?_ o hb
  · rw [h98, h4, Real.logb, Real.log_exp]
    have : (-5 : ℝ) / Real.log 10 ≤ 0 := div_nonpos_of_nonpos_of_nonneg (by norm_num) hlog.le
    linarith
  · intro z hzm k _ hk
    rw [h98]
    obtain ⟨g0, g1⟩ := script_eta (hz z hzm) hk
    have hb : Real.logb 10 (scriptEta z k) ≤ 1 / 2 := by
      rcases g0.eq_or_lt with h | h
      · rw [← h, Real.logb_zero]
        norm_num
      · rw [Real.logb_le_iff_le_rpow (by norm_num) h, ← Real.sqrt_eq_rpow]
        refine g1.trans (Real.le_sqrt_of_sq_le (by norm_num))
    linarith

open ScriptWitness in
/-- The hypotheses of `C124_shipped_partial` can be met: with the shipped tables and energies at the mean the script
runs to its end. -/
example (fa : FieldArgs ℝ) (ga : GenArgs ℝ) (rng : Rng ℝ) (dir : List Char) : ∃ e m ls, e.omp = true ∧
    LoadedFrom e.tables (some dir) (Shipped.tables dir) ∧ InOrder e 1000 2 ∧ (∀ z ∈ e.raw.rawE, |z| ≤ 40) ∧
    ScriptRun fa ga e (.ran m ls) := by
  obtain ⟨t, ht⟩ := C98_loaded (D := ℝ) dir
  have h0 := env_inOrder 0 rng
  let e : Env ℝ := { env 0 rng with tables := t }
  have he : InOrder e 1000 2 := ⟨C98_good dir t ht, h0.raw, h0.threads⟩
  have hz : ∀ z ∈ e.raw.rawE, |z| ≤ 40 := fun z hz => by
    have hz : z = 0 := List.eq_of_mem_replicate hz
    rw [hz]
    norm_num
  obtain ⟨o, ho⟩ := (C124_runs_partial fa ga e rfl he).1
  obtain ⟨m, ls, rfl⟩ := C124_shipped_partial fa ga e rfl he dir ht hz o ho
  exact ⟨e, m, ls, rfl, ht, he, hz, ho⟩

end QED
