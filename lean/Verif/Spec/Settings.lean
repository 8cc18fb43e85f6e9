import Verif.Spec.Input

set_option autoImplicit false

/-!
# The settings the program knows

Used by C150: the names that mean something in each section, with the sort of value and the default.
-/

namespace QED
namespace Settings

open Ini

/-- Sorts of values, numbers with their defaults. -/
inductive ValueSort where
  | text
  | number (dflt : ℚ)
  | count (dflt : Int)
  | vector
  | truth
  deriving DecidableEq

/-- Names in the section `General`. -/
def general : List (String × ValueSort) :=
  [("units", .text), ("time_step", .number 0), ("time_end", .number 0), ("file_name", .text), ("tracking", .truth)]

/-- Names in the section `Field`. -/
def field : List (String × ValueSort) :=
  [("field_type", .text), ("e_field", .vector), ("b_field", .vector), ("direction", .vector), ("e_max", .number 0),
    ("wavelength", .number 1), ("polerisation", .number 0), ("start", .vector), ("focus", .vector),
    ("duration", .number 1), ("waist", .number 1)]

/-- Names in the section `Physics`. -/
def physics : List (String × ValueSort) :=
  [("radiation_model", .text), ("min_energy", .number 0), ("sample_fraction", .number 1), ("pair_production", .truth)]

/-- Names in the sections `Particle1`, `Particle2` and so on. -/
def particle : List (String × ValueSort) :=
  [("number_particles", .count 1), ("name", .text), ("particle_type", .text), ("energy_distribution", .text),
    ("position", .vector), ("direction", .vector), ("energy_mean", .number 0), ("energy_sig", .number 0),
    ("radius", .number 0), ("divergence", .number 0), ("duration", .number 0), ("output", .truth)]

/-- Names in the sections `Histogram1`, `Histogram2` and so on. -/
def histogram : List (String × ValueSort) :=
  [("name", .text), ("particle", .text), ("type", .text), ("time", .number 0), ("bins", .count 1),
    ("min_bin", .number 0), ("max_bin", .number 1)]

/-- The name means something in the section. -/
inductive Known : List Char → List Char → ValueSort → Prop
  | general {k : String} {t : ValueSort} : (k, t) ∈ general → Known "General".toList k.toList t
  | field {k : String} {t : ValueSort} : (k, t) ∈ field → Known "Field".toList k.toList t
  | physics {k : String} {t : ValueSort} : (k, t) ∈ physics → Known "Physics".toList k.toList t
  | particle (i : Nat) {k : String} {t : ValueSort} : (k, t) ∈ particle →
      Known ("Particle".toList ++ Nat.toDigits 10 i) k.toList t
  | histogram (i : Nat) {k : String} {t : ValueSort} : (k, t) ∈ histogram →
      Known ("Histogram".toList ++ Nat.toDigits 10 i) k.toList t

/-- Sections that are looked for. -/
inductive KnownSection : List Char → Prop
  | general : KnownSection "General".toList
  | field : KnownSection "Field".toList
  | particle (i : Nat) : KnownSection ("Particle".toList ++ Nat.toDigits 10 i)
  | histogram (i : Nat) : KnownSection ("Histogram".toList ++ Nat.toDigits 10 i)

/-- The name means nothing in the section, in any case. -/
def Unknown (s k : List Char) : Prop := ∀ s' k' t, Known s' k' t → ¬ (SameName s s' ∧ SameName k k')

/-- A word for true. -/
def Yes (v : List Char) : Prop :=
  SameName v "true".toList ∨ SameName v "yes".toList ∨ SameName v "on".toList ∨ SameName v "1".toList

/-- The text is a word or begins with one, and cannot be read as a number (as `inf` and `nan` can). -/
def Wordy (v : List Char) : Prop := ∃ c rest, v = c :: rest ∧ c.isAlpha = true ∧ c ∉ ['i', 'I', 'n', 'N']

/-- Two texts are the same as values of a sort; what is not a number is the same as the default, and what is not a word
for true is false. -/
def Same : ValueSort → List Char → List Char → Prop
  | .text, v, w => v = w
  | .number d, v, w => (Num.strtod v).getD d = (Num.strtod w).getD d
  | .count d, v, w => (Num.strtol v).getD d = (Num.strtol w).getD d
  | .vector, v, w => v = w
  | .truth, v, w => Yes v ↔ Yes w

/-- Two files say the same about everything the program knows: which sections there are, which of the required
values, and the values, an absent one being the empty text. -/
structure SameFor (a b : List Char) : Prop where
  sections : ∀ s, KnownSection s → (s ∈ (Reader.ofFile a).sections ↔ s ∈ (Reader.ofFile b).sections)
  required : ∀ k ∈ ["time_step", "time_end", "units"],
    (Reader.ofFile a).hasValue "General".toList k.toList = (Reader.ofFile b).hasValue "General".toList k.toList
  values : ∀ s k t, Known s k t → Same t ((Reader.ofFile a).get s k []) ((Reader.ofFile b).get s k [])

/-- A configuration with one entry more in one of its sections. -/
def withEntry (pre : Config) (s : List Char) (before : List (List Char × List Char)) (k v : List Char)
    (after : List (List Char × List Char)) (post : Config) : Config :=
  pre ++ (s, before ++ (k, v) :: after) :: post

/-- The same without it. -/
def withoutEntry (pre : Config) (s : List Char) (before after : List (List Char × List Char)) (post : Config) : Config :=
  pre ++ (s, before ++ after) :: post

/-- The file system with this file at the path. -/
def place (files : List Char → Option (List Char)) (path text : List Char) : List Char → Option (List Char) :=
  fun p => if p = path then some text else files p

end Settings
end QED
