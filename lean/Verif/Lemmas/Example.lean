import Verif.Data.Example
import Verif.Spec.Example
import Verif.Lemmas.Input

set_option autoImplicit false

/-!
# Reading the shipped example
-/

namespace QED

open Ini FileParser _root_.QED.Units

namespace Example

/-- What the lines of the example hand over. -/
def calls : List Call :=
  let call (s n v : String) : Call := ⟨s.toList, n.toList, v.toList⟩
  [call "General" "units" "SI", call "General" "time_step" "0.01e-15",
   call "General" "time_end" "100e-15", call "General" "file_name" "example.h5",
   call "Field" "field_type" "gaussian", call "Field" "e_max" "2.00e+14",
   call "Field" "duration" "10.0e-15", call "Field" "waist" "5.0e-6",
   call "Field" "wavelength" "0.8e-6", call "Field" "start" "[0 0 10.0e-6]",
   call "Field" "focus" "[0 0 0]", call "Particle1" "number_particles" "100",
   call "Particle1" "name" "electron", call "Particle1" "particle_type" "electron",
   call "Particle1" "energy_distribution" "gaussian", call "Particle1" "position" "[0 0 -10e-6]",
   call "Particle1" "direction" "[0 0 1]", call "Particle1" "energy_mean" "8.176e-12",
   call "Particle1" "energy_sig" "8.176e-13", call "Particle1" "duration" "5.0e-15",
   call "Particle1" "radius" "1.0e-6", call "Particle1" "divergence" "0.0",
   call "Particle1" "output" "true", call "Physics" "radiation_model" "Classical",
   call "Physics" "sample_fraction" "0.1", call "Physics" "pair_production" "false",
   call "Histogram1" "name" "start", call "Histogram1" "particle" "Electron",
   call "Histogram1" "type" "energy", call "Histogram1" "time" "0e-15", call "Histogram1" "bins" "400",
   call "Histogram1" "min_bin" "0", call "Histogram1" "max_bin" "5000",
   call "Histogram2" "name" "end", call "Histogram2" "particle" "Electron",
   call "Histogram2" "type" "energy", call "Histogram2" "time" "100e-15",
   call "Histogram2" "bins" "400", call "Histogram2" "min_bin" "0", call "Histogram2" "max_bin" "5000"]

set_option maxRecDepth 100000 in
theorem parsed : (parseFile (fileOf exampleLines)).calls = calls ∧
    (parseFile (fileOf exampleLines)).error = 0 := by decide +kernel

/-- The reader after the example. -/
def reader : Reader := { calls.foldl Reader.handle Reader.empty with error := 0 }

theorem reader_eq : Reader.ofFile (fileOf exampleLines) = reader := by
  unfold Reader.ofFile reader
  dsimp only
  rw [parsed.1, parsed.2]

theorem sections_eq : reader.sections = ["General".toList, "Field".toList, "Particle1".toList,
    "Physics".toList, "Histogram1".toList, "Histogram2".toList] := by decide +kernel

theorem real_of {sect : List Char} {name : String} {d : ℝ} {q : ℚ}
    (h : Num.strtod (reader.get sect name.toList []) = some q) : real reader sect name d = q := by
  unfold real Reader.getReal
  rw [h]
  simp

theorem real_default {sect : List Char} {name : String} {d : ℝ}
    (h : Num.strtod (reader.get sect name.toList []) = none) : real reader sect name d = d := by
  unfold real Reader.getReal
  rw [h]

theorem vec_of {sect : List Char} {name : String} {d : V3 ℝ} {a b c : ℚ}
    (h : let s := (reader.get sect name.toList []).filter Num.vecChar
      Num.extractAll s.length s = [a, b, c]) : vec reader sect name d = .ok ⟨a, b, c⟩ := by
  unfold vec Reader.getThreeVector Reader.threeVectorOf
  dsimp only at h ⊢
  rw [h]
  simp

theorem vitals : checkVitals reader = .ok () := by decide +kernel

theorem general : readGeneral (D := ℝ) reader = .ok (unitsSI, exampleInput.general) := by
  unfold readGeneral
  have hu : str reader "General".toList "units" "None" = "SI" := by decide +kernel
  have hn : str reader "General".toList "file_name" "out.h5" = "example.h5" := by decide +kernel
  have ht : reader.getBoolean "General".toList "tracking".toList false = false := by decide +kernel
  have h1 : ∀ d : ℝ, real reader "General".toList "time_step" d = ((1 / 10 ^ 17 : ℚ) : ℝ) :=
    fun _ => real_of (by decide +kernel)
  have h2 : ∀ d : ℝ, real reader "General".toList "time_end" d = ((1 / 10 ^ 13 : ℚ) : ℝ) :=
    fun _ => real_of (by decide +kernel)
  simp only [hu, hn, ht, h1, h2, UnitsSystem.new, true_or, if_true, Res.ok_bind, exampleInput]
  norm_num

theorem field : readField (D := ℝ) reader unitsSI = .ok exampleInput.field := by
  unfold readField
  have hs : "Field".toList ∈ reader.sections := by rw [sections_eq]; decide
  have ht : str reader "Field".toList "field_type" "" = "gaussian" := by decide +kernel
  have h1 : ∀ d : ℝ, real reader "Field".toList "e_max" d = ((2 * 10 ^ 14 : ℚ) : ℝ) :=
    fun _ => real_of (by decide +kernel)
  have h2 : ∀ d : ℝ, real reader "Field".toList "wavelength" d = ((8 / 10 ^ 7 : ℚ) : ℝ) :=
    fun _ => real_of (by decide +kernel)
  have h3 : ∀ d : ℝ, real reader "Field".toList "duration" d = ((1 / 10 ^ 14 : ℚ) : ℝ) :=
    fun _ => real_of (by decide +kernel)
  have h4 : ∀ d : ℝ, real reader "Field".toList "waist" d = ((5 / 10 ^ 6 : ℚ) : ℝ) :=
    fun _ => real_of (by decide +kernel)
  have h5 : ∀ d : ℝ, real reader "Field".toList "polerisation" d = d :=
    fun _ => real_default (by decide +kernel)
  have h6 : ∀ d : V3 ℝ, vec reader "Field".toList "start" d =
      .ok ⟨((0 : ℚ) : ℝ), ((0 : ℚ) : ℝ), ((1 / 10 ^ 5 : ℚ) : ℝ)⟩ :=
    fun _ => vec_of (by decide +kernel)
  have h7 : ∀ d : V3 ℝ, vec reader "Field".toList "focus" d =
      .ok ⟨((0 : ℚ) : ℝ), ((0 : ℚ) : ℝ), ((0 : ℚ) : ℝ)⟩ :=
    fun _ => vec_of (by decide +kernel)
  dsimp only
  rw [if_pos hs, ht, if_neg (by decide), if_neg (by decide), if_neg (by decide), h6, Res.ok_bind, h7,
    Res.ok_bind, if_pos rfl]
  simp only [h1, h2, h3, h4, h5, exampleInput, V3.divs, real_div, real_lit]
  norm_num

theorem particle : readParticle (D := ℝ) reader unitsSI "Particle1".toList =
    .ok (exampleInput.particles.head (by simp [exampleInput])) := by
  unfold readParticle
  have h1 : ∀ d : V3 ℝ, vec reader "Particle1".toList "position" d =
      .ok ⟨((0 : ℚ) : ℝ), ((0 : ℚ) : ℝ), ((-1 / 10 ^ 5 : ℚ) : ℝ)⟩ :=
    fun _ => vec_of (by decide +kernel)
  have h2 : ∀ d : V3 ℝ, vec reader "Particle1".toList "direction" d =
      .ok ⟨((0 : ℚ) : ℝ), ((0 : ℚ) : ℝ), ((1 : ℚ) : ℝ)⟩ :=
    fun _ => vec_of (by decide +kernel)
  have h3 : toU32 (reader.getInteger "Particle1".toList "number_particles".toList 1) = 100 := by
    decide +kernel
  have h4 : String.ofList (reader.getString "Particle1".toList "name".toList "Particle1".toList) =
      "electron" := by decide +kernel
  have h5 : str reader "Particle1".toList "particle_type" "Electron" = "electron" := by decide +kernel
  have h6 : str reader "Particle1".toList "energy_distribution" "mono" = "gaussian" := by
    decide +kernel
  have h7 : ∀ d : ℝ, real reader "Particle1".toList "energy_mean" d = ((8176 / 10 ^ 15 : ℚ) : ℝ) :=
    fun _ => real_of (by decide +kernel)
  have h8 : ∀ d : ℝ, real reader "Particle1".toList "energy_sig" d = ((8176 / 10 ^ 16 : ℚ) : ℝ) :=
    fun _ => real_of (by decide +kernel)
  have h9 : ∀ d : ℝ, real reader "Particle1".toList "radius" d = ((1 / 10 ^ 6 : ℚ) : ℝ) :=
    fun _ => real_of (by decide +kernel)
  have h10 : ∀ d : ℝ, real reader "Particle1".toList "divergence" d = ((0 : ℚ) : ℝ) :=
    fun _ => real_of (by decide +kernel)
  have h11 : ∀ d : ℝ, real reader "Particle1".toList "duration" d = ((5 / 10 ^ 15 : ℚ) : ℝ) :=
    fun _ => real_of (by decide +kernel)
  have h12 : reader.getBoolean "Particle1".toList "output".toList false = true := by decide +kernel
  rw [h1, Res.ok_bind, h2, Res.ok_bind]
  simp only [h3, h4, h5, h6, h7, h8, h9, h10, h11, h12, exampleInput, V3.divs, real_div, List.head_cons]
  norm_num

theorem physics : readPhysics (D := ℝ) reader unitsSI = exampleInput.physics := by
  unfold readPhysics
  have h1 : str reader "Physics".toList "radiation_model" "" = "Classical" := by decide +kernel
  have h2 : ∀ d : ℝ, real reader "Physics".toList "min_energy" d = d :=
    fun _ => real_default (by decide +kernel)
  have h3 : ∀ d : ℝ, real reader "Physics".toList "sample_fraction" d = ((1 / 10 : ℚ) : ℝ) :=
    fun _ => real_of (by decide +kernel)
  have h4 : reader.getBoolean "Physics".toList "pair_production".toList false = false := by
    decide +kernel
  simp only [h1, h2, h3, h4, exampleInput, real_div, real_lit]
  norm_num

theorem hist1 : readHistogram (D := ℝ) reader unitsSI "Histogram1".toList =
    .ok (exampleInput.histograms.head (by simp [exampleInput])) := by
  unfold readHistogram
  have h1 : String.ofList (reader.getString "Histogram1".toList "name".toList "Histogram1".toList) =
      "start" := by decide +kernel
  have h2 : str reader "Histogram1".toList "particle" "" = "Electron" := by decide +kernel
  have h3 : str reader "Histogram1".toList "type" "" = "energy" := by decide +kernel
  have h4 : ∀ d : ℝ, real reader "Histogram1".toList "time" d = ((0 : ℚ) : ℝ) :=
    fun _ => real_of (by decide +kernel)
  have h5 : toU32 (reader.getInteger "Histogram1".toList "bins".toList 1) = 400 := by decide +kernel
  have h6 : ∀ d : ℝ, real reader "Histogram1".toList "min_bin" d = ((0 : ℚ) : ℝ) :=
    fun _ => real_of (by decide +kernel)
  have h7 : ∀ d : ℝ, real reader "Histogram1".toList "max_bin" d = ((5000 : ℚ) : ℝ) :=
    fun _ => real_of (by decide +kernel)
  simp only [h1, h2, h3, h4, h5, h6, h7, exampleInput, real_div, List.head_cons]
  norm_num

theorem hist2 : readHistogram (D := ℝ) reader unitsSI "Histogram2".toList =
    .ok (exampleInput.histograms.getLast (by simp [exampleInput])) := by
  unfold readHistogram
  have h1 : String.ofList (reader.getString "Histogram2".toList "name".toList "Histogram2".toList) =
      "end" := by decide +kernel
  have h2 : str reader "Histogram2".toList "particle" "" = "Electron" := by decide +kernel
  have h3 : str reader "Histogram2".toList "type" "" = "energy" := by decide +kernel
  have h4 : ∀ d : ℝ, real reader "Histogram2".toList "time" d = ((1 / 10 ^ 13 : ℚ) : ℝ) :=
    fun _ => real_of (by decide +kernel)
  have h5 : toU32 (reader.getInteger "Histogram2".toList "bins".toList 1) = 400 := by decide +kernel
  have h6 : ∀ d : ℝ, real reader "Histogram2".toList "min_bin" d = ((0 : ℚ) : ℝ) :=
    fun _ => real_of (by decide +kernel)
  have h7 : ∀ d : ℝ, real reader "Histogram2".toList "max_bin" d = ((5000 : ℚ) : ℝ) :=
    fun _ => real_of (by decide +kernel)
  simp only [h1, h2, h3, h4, h5, h6, h7, exampleInput, real_div, List.getLast_cons_cons,
    List.getLast_singleton]
  norm_num

theorem numbered_particles (a : ParticleParams ℝ)
    (h : readParticle reader unitsSI "Particle1".toList = .ok a) :
    readNumbered reader.sections "Particle" (readParticle (D := ℝ) reader unitsSI)
      (reader.sections.length + 1) 1 = .ok [a] := by
  have h1 : numbered "Particle" 1 = "Particle1".toList := by decide
  have h2 : numbered "Particle" 2 ∉ reader.sections := by rw [sections_eq]; decide
  have hlen : reader.sections.length + 1 = 5 + 1 + 1 := by rw [sections_eq]; rfl
  rw [hlen, readNumbered, h1, if_pos (by rw [sections_eq]; decide), h, Res.ok_bind, readNumbered,
    if_neg h2, Res.ok_bind]

theorem numbered_hists (a b : HistogramParams ℝ)
    (h : readHistogram reader unitsSI "Histogram1".toList = .ok a)
    (h' : readHistogram reader unitsSI "Histogram2".toList = .ok b) :
    readNumbered reader.sections "Histogram" (readHistogram (D := ℝ) reader unitsSI)
      (reader.sections.length + 1) 1 = .ok [a, b] := by
  have h1 : numbered "Histogram" 1 = "Histogram1".toList := by decide
  have h2 : numbered "Histogram" (1 + 1) = "Histogram2".toList := by decide
  have h3 : numbered "Histogram" (1 + 1 + 1) ∉ reader.sections := by rw [sections_eq]; decide
  have hlen : reader.sections.length + 1 = 4 + 1 + 1 + 1 := by rw [sections_eq]; rfl
  rw [hlen, readNumbered, h1, if_pos (by rw [sections_eq]; decide), h, Res.ok_bind, readNumbered, h2,
    if_pos (by rw [sections_eq]; decide), h', Res.ok_bind, readNumbered, if_neg h3, Res.ok_bind,
    Res.ok_bind]

theorem parsed_input : parse (Reader.ofFile (fileOf exampleLines)) = .ok exampleInput := by
  rw [reader_eq]
  unfold parse
  rw [vitals, Res.ok_bind, general, Res.ok_bind]
  dsimp only
  rw [field, Res.ok_bind, numbered_particles _ particle, Res.ok_bind, numbered_hists _ _ hist1 hist2,
    Res.ok_bind, physics]
  rfl

end Example
end QED
