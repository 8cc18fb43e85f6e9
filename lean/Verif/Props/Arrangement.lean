import Verif.Spec.Arrangement
import Verif.Props.Settings

set_option autoImplicit false

/-!
# C158: the arrangement of the settings file
-/

namespace QED

open Ini Settings FileParser

variable {D : Type} [Dbl D]

namespace Arrangement

theorem noBom {lines : List (List Char)} (h : Unmarked lines) : NoBom lines := by
  intro l hl
  have := h l hl
  rw [Bool.eq_false_iff]
  intro hb
  exact this (List.isPrefixOf_iff_prefix.mp hb)

theorem says_of_covers {c c' : Config} (h : Covers c' c) {s k v : List Char} (hs : c.Says s k v) : c'.Says s k v := by
  obtain ⟨x, hx, e, he, h1, h2, rfl⟩ := hs
  obtain ⟨e', he', h3, h4, h5⟩ := h (x.1, e.1, e.2) (by
    simp only [Config.entries, List.mem_flatMap, List.mem_map]
    exact ⟨x, hx, e, he, rfl⟩)
  simp only [Config.entries, List.mem_flatMap, List.mem_map] at he'
  obtain ⟨y, hy, f, hf, rfl⟩ := he'
  refine ⟨y, hy, f, hf, ?_, ?_, h5⟩
  · rw [h3]; exact h1
  · exact h2.trans h4.symm

theorem sections_of_covers {c c' : Config} (h : Covers c' c) {s : List Char} (hs : c.HasEntries s) :
    c'.HasEntries s := by
  obtain ⟨es, hes, hne⟩ := hs
  obtain ⟨e, es', rfl⟩ := List.exists_cons_of_ne_nil hne
  obtain ⟨e', he', h3, -, -⟩ := h (s, e.1, e.2) (by
    simp only [Config.entries, List.mem_flatMap, List.mem_map]
    exact ⟨_, hes, e, List.mem_cons_self, rfl⟩)
  simp only [Config.entries, List.mem_flatMap, List.mem_map] at he'
  obtain ⟨y, hy, f, hf, rfl⟩ := he'
  refine ⟨y.2, ?_, List.ne_nil_of_mem hf⟩
  have h3 : y.1 = s := h3
  rw [← h3]
  exact hy

theorem writes_same {lines : List (List Char)} {c : Config} (hc : c.WF) (h : Writes lines c) :
    (Reader.ofFile (fileOf lines)).values = (Reader.ofFile (fileOf c.lines)).values ∧
      (Reader.ofFile (fileOf lines)).sections = (Reader.ofFile (fileOf c.lines)).sections := by
  classical
  refine C60_inert_lines_partial lines c.lines h.1 (fun l hl => (config_plain hc l hl).readable) (noBom h.2.1)
    (config_nobom c) ?_
  have h2 := h.2.2
  have : c.lines.filter (¬ IsInert ·) = c.lines := by
    rw [← h2, List.filter_filter]
    simp
  rw [this]
  convert h2

end Arrangement

open Arrangement

/-- Two settings files with the same settings make the program do the same, wherever their sections, the entries of
each section, comments and blank lines stand, whether a section is written in one piece or in several, and in
whatever case the names of the entries are. -/
theorem C158_arrangement {c c' : Config} (hc : c.WF) (hc' : c'.WF) (h : SameSettings c c')
    {lines lines' : List (List Char)} (hl : Writes lines c) (hl' : Writes lines' c') (t : Main.Tables D)
    (files : List Char → Option (List Char)) (path : List Char) (args : List (List Char))
    (raws : Nat → Nat → RawDraws D) (garbage : Nat → Nat) (rng : MCTools.Rng D) (fuel : Nat) :
    Main.program t (place files path (fileOf lines)) args raws garbage rng fuel =
      Main.program t (place files path (fileOf lines')) args raws garbage rng fuel := by
  obtain ⟨hv, hs⟩ := writes_same hc hl
  obtain ⟨hv', hs'⟩ := writes_same hc' hl'
  have hsays : ∀ s k v, c.Says s k v ↔ c'.Says s k v := fun s k v =>
    ⟨says_of_covers h.1, says_of_covers h.2⟩
  have hget : ∀ s k, (Reader.ofFile (fileOf lines)).get s k [] = (Reader.ofFile (fileOf c.lines)).get s k [] ∧
      (Reader.ofFile (fileOf lines)).hasValue s k = (Reader.ofFile (fileOf c.lines)).hasValue s k := fun s k => by
    unfold Reader.get Reader.hasValue
    rw [hv]
    exact ⟨rfl, rfl⟩
  have hget' : ∀ s k, (Reader.ofFile (fileOf lines')).get s k [] = (Reader.ofFile (fileOf c'.lines)).get s k [] ∧
      (Reader.ofFile (fileOf lines')).hasValue s k = (Reader.ofFile (fileOf c'.lines)).hasValue s k := fun s k => by
    unfold Reader.get Reader.hasValue
    rw [hv']
    exact ⟨rfl, rfl⟩
  refine C150_depends_partial ⟨fun s _ => ?_, fun k hk => ?_, fun s k t hk => ?_⟩ t files path args raws garbage rng fuel
  · rw [hs, hs', mem_sections_iff hc, mem_sections_iff hc']
    exact ⟨sections_of_covers h.1, sections_of_covers h.2⟩
  · rw [(hget _ _).2, (hget' _ _).2]
    refine (get_same hc hc' ?_ (hsays _ _)).2
    simp only [List.mem_cons, List.not_mem_nil, or_false] at hk
    rcases hk with rfl | rfl | rfl <;> decide
  · rw [(hget _ _).1, (hget' _ _).1, (get_same hc hc' (known_name hk) (hsays _ _)).1]
    exact same_refl _ _

namespace ArrangementWitness

/-- A file that the program accepts. -/
def plain : Config :=
  [("General".toList, [("time_step".toList, "1e-18".toList), ("time_end".toList, "1e-15".toList),
    ("units".toList, "SI".toList)]), ("Field".toList, [("field_type".toList, "static".toList)])]

/-- The same in another order, with the section `General` in two pieces and a name in capitals. -/
def mixed : Config :=
  [("General".toList, [("UNITS".toList, "SI".toList)]), ("Field".toList, [("field_type".toList, "static".toList)]),
    ("General".toList, [("time_end".toList, "1e-15".toList), ("time_step".toList, "1e-18".toList)])]

end ArrangementWitness

open ArrangementWitness in
/-- Two arrangements of a file, the second with a comment. -/
example : plain.WF ∧ mixed.WF ∧ SameSettings plain mixed ∧ Writes plain.lines plain ∧
    Writes ("# run 7".toList :: mixed.lines) mixed ∧ plain.lines ≠ mixed.lines := by
  have hp : plain.WF := Config.wfB_spec (by decide +kernel)
  have hm : mixed.WF := Config.wfB_spec (by decide +kernel)
  classical
  have inert : ∀ c : Config, c.WF → ∀ l ∈ c.lines, ¬ IsInert l := by
    intro c hc l hl
    simp only [Config.lines, List.mem_flatMap, List.mem_cons, List.mem_map] at hl
    obtain ⟨s, hs, rfl | ⟨e, he, rfl⟩⟩ := hl
    · exact not_inert_of_head (c := '[') rfl rfl (by decide) (by decide)
    · have hm : (s.1, e.1, e.2) ∈ c.entries := by
        simp only [Config.entries, List.mem_flatMap, List.mem_map]
        exact ⟨s, hs, e, he, rfl⟩
      exact (entry_is False (hc.names _ hm) (hc.values _ hm)).1
  have keep : ∀ c : Config, c.WF → c.lines.filter (¬ IsInert ·) = c.lines := fun c hc =>
    List.filter_eq_self.mpr fun l hl => by simpa using inert c hc l hl
  have hi : IsInert "# run 7".toList := Or.inr ⟨[], '#', _, rfl, blank_nil, Or.inr rfl⟩
  refine ⟨hp, hm, ⟨?_, ?_⟩, ⟨fun l hl => (config_plain hp l hl).readable, ?_, ?_⟩, ⟨?_, ?_, ?_⟩, by decide +kernel⟩
  · unfold Covers SameName; decide +kernel
  · unfold Covers SameName; decide +kernel
  · intro l hl; cases hl; decide
  · convert keep plain hp
  · intro l hl
    rcases List.mem_cons.mp hl with rfl | hl
    · decide
    · exact (config_plain hm l hl).readable
  · intro l hl; cases hl; decide
  · rw [List.filter_cons_of_neg (by simpa using hi)]
    convert keep mixed hm

end QED
