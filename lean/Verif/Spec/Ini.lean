import Verif.Model.Ini

set_option autoImplicit false

/-!
# What the lines of an INI file mean

A specification of single lines (without their newline) by decomposition, independent of the
scanning functions of the parser. Only `isSpace` and the record `Call` are shared with the model.
-/

namespace QED
namespace Ini

/-- Only white space. -/
def Blank (s : List Char) : Prop := ∀ c ∈ s, isSpace c = true

/-- White space directly followed by a semicolon somewhere in `s`. -/
def HasInlineComment (s : List Char) : Prop :=
  ∃ a w b, s = a ++ w :: ';' :: b ∧ isSpace w = true

/-- `t` is `s` without white space at both ends. -/
def Trim (s t : List Char) : Prop :=
  ∃ a b, s = a ++ t ++ b ∧ Blank a ∧ Blank b ∧
    (∀ c, t.head? = some c → isSpace c = false) ∧ (∀ c, t.getLast? = some c → isSpace c = false)

/-- `u` is `s` up to its first inline comment. -/
def Uncommented (s u : List Char) : Prop :=
  ¬ HasInlineComment u ∧
    (s = u ∨ ∃ w v rest, u = v ++ [w] ∧ isSpace w = true ∧ s = u ++ ';' :: rest)

/-- What one line says. -/
inductive Kind where
  /-- a comment or a blank line -/
  | inert
  /-- the continuation of the previous value -/
  | more (v : List Char)
  /-- a section header -/
  | header (s : List Char)
  /-- a name and a value -/
  | entry (k v : List Char)
  /-- none of these -/
  | bad
  deriving DecidableEq, Repr

/-- The first character that is not white space, if any, starts a comment. -/
def IsInert (l : List Char) : Prop :=
  Blank l ∨ ∃ ws c t, l = ws ++ c :: t ∧ Blank ws ∧ (c = ';' ∨ c = '#')

/-- After a name, an indented line continues its value. -/
def IsMore (hasName : Prop) (l : List Char) : Prop :=
  ¬ IsInert l ∧ hasName ∧ ∃ c t, l = c :: t ∧ isSpace c = true

/-- `[s]`, possibly followed by anything. -/
def IsHeader (l s : List Char) : Prop :=
  ∃ rest, Trim l ('[' :: s ++ ']' :: rest) ∧ ']' ∉ s ∧ ¬ HasInlineComment s

/-- `k = v` or `k : v`, possibly followed by an inline comment. -/
def IsEntry (l k v : List Char) : Prop :=
  ∃ t c0 kRaw d vRaw vBare, Trim l t ∧ t.head? = some c0 ∧ c0 ≠ '[' ∧ t = kRaw ++ d :: vRaw ∧
    (d = '=' ∨ d = ':') ∧ '=' ∉ kRaw ∧ ':' ∉ kRaw ∧ ¬ HasInlineComment kRaw ∧ Trim kRaw k ∧
    Uncommented vRaw vBare ∧ Trim vBare v

/-- The meaning of a line; `hasName` says that a value may be continued. -/
def Is (hasName : Prop) (l : List Char) : Kind → Prop
  | .inert => IsInert l
  | .more v => IsMore hasName l ∧ Trim l v
  | .header s => ¬ IsInert l ∧ ¬ IsMore hasName l ∧ IsHeader l s
  | .entry k v => ¬ IsInert l ∧ ¬ IsMore hasName l ∧ IsEntry l k v
  | .bad => ¬ IsInert l ∧ ¬ IsMore hasName l ∧ (∀ s, ¬ IsHeader l s) ∧ ∀ k v, ¬ IsEntry l k v

/-- Names of sections are kept to 49 characters, and so is the name a continued value goes to. -/
def short (s : List Char) : List Char := s.take 49

/-- The section after a line. -/
def Kind.sectAfter (sect : List Char) : Kind → List Char
  | .header s => short s
  | _ => sect

/-- The name a continuation would go to after a line. -/
def Kind.nameAfter (name : List Char) : Kind → List Char
  | .header _ => []
  | .entry k _ => short k
  | _ => name

/-- What a line hands over. -/
def Kind.calls (sect name : List Char) : Kind → List Call
  | .more v => [⟨sect, name, v⟩]
  | .entry k v => [⟨sect, k, v⟩]
  | _ => []

/-- `Kinds sect name lines ks`: from the given section and name on, the lines mean `ks`. -/
inductive Kinds : List Char → List Char → List (List Char) → List Kind → Prop
  | nil {sect name} : Kinds sect name [] []
  | cons {sect name l ls k ks} : Is (name ≠ []) l k →
      Kinds (k.sectAfter sect) (k.nameAfter name) ls ks → Kinds sect name (l :: ls) (k :: ks)

/-- Everything a list of lines hands over. -/
def allCalls : List Char → List Char → List Kind → List Call
  | _, _, [] => []
  | sect, name, k :: ks => k.calls sect name ++ allCalls (k.sectAfter sect) (k.nameAfter name) ks

/-- The number of the first bad line, counting from one; zero if there is none. -/
def firstBad (ks : List Kind) : Nat :=
  match ks.findIdx? (· = .bad) with
  | some i => i + 1
  | none => 0

/-- A file made of lines, each ended by a newline. -/
def fileOf (lines : List (List Char)) : List Char := (lines.map (· ++ ['\n'])).flatten

/-- A line the parser can hold: no newline, no NUL, at most 198 characters. -/
def PlainLine (l : List Char) : Prop := '\n' ∉ l ∧ '\x00' ∉ l ∧ l.length ≤ 198

/-! ## Configurations -/

/-- A configuration: sections, each with its names and values. -/
abbrev Config := List (List Char × List (List Char × List Char))

/-- How a configuration is written: `[section]`, then a line `name = value` for each entry. -/
def Config.lines (c : Config) : List (List Char) :=
  c.flatMap fun s => ('[' :: s.1 ++ [']']) :: s.2.map fun e => e.1 ++ ' ' :: '=' :: ' ' :: e.2

/-- All entries: section, name, value. -/
def Config.entries (c : Config) : List (List Char × List Char × List Char) :=
  c.flatMap fun s => s.2.map fun e => (s.1, e.1, e.2)

/-- No newline and no NUL. -/
def Clean (s : List Char) : Prop := '\n' ∉ s ∧ '\x00' ∉ s

/-- Neither begins nor ends with white space. -/
def Trimmed (s : List Char) : Prop :=
  (∀ c, s.head? = some c → isSpace c = false) ∧ (∀ c, s.getLast? = some c → isSpace c = false)

/-- A section name that can be written. -/
structure GoodSection (s : List Char) : Prop where
  clean : Clean s
  bracket : ']' ∉ s
  comment : ¬ HasInlineComment s
  size : s.length ≤ 49

/-- A name that can be written. -/
structure GoodName (k : List Char) : Prop where
  clean : Clean k
  trimmed : Trimmed k
  start : ∃ c, k.head? = some c ∧ c ≠ ';' ∧ c ≠ '#' ∧ c ≠ '['
  eq : '=' ∉ k
  colon : ':' ∉ k
  comment : ¬ HasInlineComment k

/-- A value that can be written. -/
structure GoodValue (v : List Char) : Prop where
  clean : Clean v
  trimmed : Trimmed v
  comment : ¬ HasInlineComment (' ' :: v)

/-- Names that differ only by case count as the same. -/
def SameName (a b : List Char) : Prop := a.map Char.toLower = b.map Char.toLower

/-- A configuration that can be written: all its parts can, the lines fit into the buffer, and no
name is given twice in a section. -/
structure Config.WF (c : Config) : Prop where
  sects : ∀ s ∈ c, GoodSection s.1
  names : ∀ e ∈ c.entries, GoodName e.2.1
  values : ∀ e ∈ c.entries, GoodValue e.2.2
  size : ∀ e ∈ c.entries, e.2.1.length + 3 + e.2.2.length ≤ 198
  once : c.entries.Pairwise fun e e' => ¬ (SameName e.1 e'.1 ∧ SameName e.2.1 e'.2.1)

end Ini
end QED
