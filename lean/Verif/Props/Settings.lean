import Verif.Lemmas.Settings
import Verif.Props.Input

set_option autoImplicit false

/-!
# C150: mistakes in the settings file
-/

namespace QED

open Ini Settings FileParser

variable {D : Type} [Dbl D]

theorem same_refl (t : ValueSort) (v : List Char) : Same t v v := by
  cases t <;> first | exact rfl | exact Iff.rfl

theorem place_same (t : Main.Tables D) (files : List Char → Option (List Char)) (path : List Char) {a b : List Char}
    (h : parse (D := D) (Reader.ofFile a) = parse (Reader.ofFile b)) (args : List (List Char))
    (raws : Nat → Nat → RawDraws D) (garbage : Nat → Nat) (rng : MCTools.Rng D) (fuel : Nat) :
    Main.program t (place files path a) args raws garbage rng fuel =
      Main.program t (place files path b) args raws garbage rng fuel := by
  refine program_same t (fun p => ?_) args raws garbage rng fuel
  unfold place
  split_ifs
  · exact Or.inr ⟨a, b, rfl, rfl, h⟩
  · exact Or.inl rfl

/-- What a run does depends on the settings file only through the sections and names the program knows: if two files
say the same about these, the program does the same with either. -/
theorem C150_depends_partial {a b : List Char} (h : SameFor a b) (t : Main.Tables D)
    (files : List Char → Option (List Char)) (path : List Char) (args : List (List Char))
    (raws : Nat → Nat → RawDraws D) (garbage : Nat → Nat) (rng : MCTools.Rng D) (fuel : Nat) :
    Main.program t (place files path a) args raws garbage rng fuel =
      Main.program t (place files path b) args raws garbage rng fuel :=
  place_same t files path (parse_same h.sections h.required h.values) args raws garbage rng fuel

/-- C150 is false of lines: a line that is neither a comment nor a header, entry or continuation changes nothing, in
any file and at any place. -/
theorem C150_line_refuted (pre post : List (List Char)) (l : List Char) (ks : List Ini.Kind)
    (hl : ∀ l' ∈ pre ++ l :: post, Readable l') (hb : NoBom (pre ++ l :: post)) (hb' : NoBom (pre ++ post))
    (hk : Kinds [] [] (pre ++ l :: post) ks) (hbad : ks[pre.length]? = some .bad) (t : Main.Tables D)
    (files : List Char → Option (List Char)) (path : List Char) (args : List (List Char))
    (raws : Nat → Nat → RawDraws D) (garbage : Nat → Nat) (rng : MCTools.Rng D) (fuel : Nat) :
    Main.program t (place files path (fileOf (pre ++ l :: post))) args raws garbage rng fuel =
      Main.program t (place files path (fileOf (pre ++ post))) args raws garbage rng fuel := by
  have hc := C62_bad_lines_skipped pre post l ks hl hb hb' hk hbad
  have hv : (Reader.ofFile (fileOf (pre ++ l :: post))).values = (Reader.ofFile (fileOf (pre ++ post))).values ∧
      (Reader.ofFile (fileOf (pre ++ l :: post))).sections = (Reader.ofFile (fileOf (pre ++ post))).sections := by
    unfold Reader.ofFile
    dsimp only
    rw [hc]
    exact ⟨rfl, rfl⟩
  refine C150_depends_partial ⟨fun s _ => by rw [hv.2], fun k _ => by rw [Reader.hasValue, Reader.hasValue, hv.1], ?_⟩
    t files path args raws garbage rng fuel
  intro s k t _
  rw [Reader.get, Reader.get, hv.1]
  exact same_refl _ _

theorem known_name {s k : List Char} {t : ValueSort} (h : Known s k t) : '=' ∉ k := by
  cases h <;> rename_i h <;>
    simp only [general, field, physics, particle, histogram, List.mem_cons, Prod.mk.injEq, List.not_mem_nil, or_false] at h
  · rcases h with h | h | h | h | h <;> (rw [h.1]; decide)
  · rcases h with h | h | h | h | h | h | h | h | h | h | h <;> (rw [h.1]; decide)
  · rcases h with h | h | h | h <;> (rw [h.1]; decide)
  · rcases h with h | h | h | h | h | h | h | h | h | h | h | h <;> (rw [h.1]; decide)
  · rcases h with h | h | h | h | h | h | h <;> (rw [h.1]; decide)

theorem sort_of (l : List (String × ValueSort)) (hl : (l.map fun x => x.1.toList.map Char.toLower).Nodup)
    {k k' : String} {t t' : ValueSort} (h : (k, t) ∈ l) (h' : (k', t') ∈ l) (he : SameName k.toList k'.toList) : t' = t := by
  obtain ⟨i, hi, e⟩ := List.getElem_of_mem h
  obtain ⟨j, hj, e'⟩ := List.getElem_of_mem h'
  have : i = j := by
    refine (List.Nodup.getElem_inj_iff hl (hi := by simpa using hi) (hj := by simpa using hj)).1 ?_
    simp only [List.getElem_map, e, e']
    exact he
  subst this
  rw [e] at e'
  exact (congrArg Prod.snd e').symm

theorem known_sort {s s' k k' : List Char} {t t' : ValueSort} (h : Known s k t) (h' : Known s' k' t') (hs : SameName s s')
    (hk : SameName k k') : t' = t := by
  have h2 : (s.map Char.toLower).take 2 = (s'.map Char.toLower).take 2 := by rw [show s.map Char.toLower = _ from hs]
  have g : ("General".toList.map Char.toLower).take 2 = ['g', 'e'] := by decide
  have f : ("Field".toList.map Char.toLower).take 2 = ['f', 'i'] := by decide
  have p : ("Physics".toList.map Char.toLower).take 2 = ['p', 'h'] := by decide
  have a : ∀ i, (("Particle".toList ++ Nat.toDigits 10 i).map Char.toLower).take 2 = ['p', 'a'] := fun i => rfl
  have b : ∀ i, (("Histogram".toList ++ Nat.toDigits 10 i).map Char.toLower).take 2 = ['h', 'i'] := fun i => rfl
  cases h <;> rename_i h <;> cases h' <;> rename_i h' <;> simp only [g, f, p, a, b] at h2
  all_goals first
    | exact absurd h2 (by decide)
    | exact sort_of general (by decide +kernel) h h' hk
    | exact sort_of field (by decide +kernel) h h' hk
    | exact sort_of physics (by decide +kernel) h h' hk
    | exact sort_of particle (by decide +kernel) h h' hk
    | exact sort_of histogram (by decide +kernel) h h' hk

theorem get_same {c c' : Config} (h : c.WF) (h' : c'.WF) {s k : List Char} (hn : '=' ∉ k)
    (hs : ∀ v, c.Says s k v ↔ c'.Says s k v) :
    (Reader.ofFile (fileOf c.lines)).get s k [] = (Reader.ofFile (fileOf c'.lines)).get s k [] ∧
    (Reader.ofFile (fileOf c.lines)).hasValue s k = (Reader.ofFile (fileOf c'.lines)).hasValue s k := by
  by_cases hv : ∃ v, c.Says s k v
  · obtain ⟨v, hv⟩ := hv
    rw [(get_of_says h hv []).1, (get_of_says h' ((hs v).1 hv) []).1, (get_of_says h hv []).2,
      (get_of_says h' ((hs v).1 hv) []).2]
    exact ⟨rfl, rfl⟩
  · have e : c.Silent s k := fun v hh => hv ⟨v, hh⟩
    have e' : c'.Silent s k := fun v hh => hv ⟨v, (hs v).2 hh⟩
    rw [(get_of_silent h hn e []).1, (get_of_silent h' hn e' []).1, (get_of_silent h hn e []).2,
      (get_of_silent h' hn e' []).2]
    exact ⟨rfl, rfl⟩

section entries

variable {pre post : Config} {s k v : List Char} {before after : List (List Char × List Char)}

theorem withEntry_says (s' k' w : List Char) :
    (withEntry pre s before k v after post).Says s' k' w ↔
      (withoutEntry pre s before after post).Says s' k' w ∨ (SameName s' s ∧ SameName k' k ∧ v = w) := by
  unfold Config.Says withEntry withoutEntry
  simp only [List.mem_append, List.mem_cons]
  constructor
  · rintro ⟨x, (hx | rfl | hx), e, he, h⟩
    · exact Or.inl ⟨x, Or.inl hx, e, he, h⟩
    · simp only [List.mem_append, List.mem_cons] at he
      rcases he with he | rfl | he
      · exact Or.inl ⟨_, Or.inr (Or.inl rfl), e, by simp [he], h⟩
      · exact Or.inr h
      · exact Or.inl ⟨_, Or.inr (Or.inl rfl), e, by simp [he], h⟩
    · exact Or.inl ⟨x, Or.inr (Or.inr hx), e, he, h⟩
  · rintro (⟨x, (hx | rfl | hx), e, he, h⟩ | h)
    · exact ⟨x, Or.inl hx, e, he, h⟩
    · refine ⟨_, Or.inr (Or.inl rfl), e, ?_, h⟩
      simp only [List.mem_append, List.mem_cons] at he ⊢
      rcases he with he | he <;> simp [he]
    · exact ⟨x, Or.inr (Or.inr hx), e, he, h⟩
    · exact ⟨_, Or.inr (Or.inl rfl), (k, v), by simp, h⟩

theorem withEntry_sections (hne : before ++ after ≠ []) (s' : List Char) :
    (withEntry pre s before k v after post).HasEntries s' ↔ (withoutEntry pre s before after post).HasEntries s' := by
  unfold Config.HasEntries withEntry withoutEntry
  simp only [List.mem_append, List.mem_cons, Prod.mk.injEq]
  constructor
  · rintro ⟨es, (h | ⟨rfl, rfl⟩ | h), hes⟩
    · exact ⟨es, Or.inl h, hes⟩
    · exact ⟨_, Or.inr (Or.inl ⟨rfl, rfl⟩), hne⟩
    · exact ⟨es, Or.inr (Or.inr h), hes⟩
  · rintro ⟨es, (h | ⟨rfl, rfl⟩ | h), hes⟩
    · exact ⟨es, Or.inl h, hes⟩
    · exact ⟨_, Or.inr (Or.inl ⟨rfl, rfl⟩), by simp⟩
    · exact ⟨es, Or.inr (Or.inr h), hes⟩

theorem withEntry_sections' (w : List Char) (s' : List Char) :
    (withEntry pre s before k v after post).HasEntries s' ↔ (withEntry pre s before k w after post).HasEntries s' := by
  unfold Config.HasEntries withEntry
  simp only [List.mem_append, List.mem_cons, Prod.mk.injEq]
  constructor
  · rintro ⟨es, (h | ⟨rfl, rfl⟩ | h), hes⟩
    · exact ⟨es, Or.inl h, hes⟩
    · exact ⟨_, Or.inr (Or.inl ⟨rfl, rfl⟩), by simp⟩
    · exact ⟨es, Or.inr (Or.inr h), hes⟩
  · rintro ⟨es, (h | ⟨rfl, rfl⟩ | h), hes⟩
    · exact ⟨es, Or.inl h, hes⟩
    · exact ⟨_, Or.inr (Or.inl ⟨rfl, rfl⟩), by simp⟩
    · exact ⟨es, Or.inr (Or.inr h), hes⟩

/-- The entry is in a configuration that can be written, so no other has its name. -/
theorem withoutEntry_silent (hwf : (withEntry pre s before k v after post).WF) (w : List Char) :
    ¬ (withoutEntry pre s before after post).Says s k w := by
  rintro ⟨x, hx, e, he, h1, h2, -⟩
  have ho := hwf.once
  simp only [Config.entries, withEntry, List.flatMap_append, List.flatMap_cons, List.map_append, List.map_cons] at ho
  rw [List.append_assoc, ← List.append_assoc, List.cons_append] at ho
  rw [List.pairwise_append] at ho
  obtain ⟨-, o1, o2⟩ := ho
  rw [List.pairwise_cons] at o1
  unfold withoutEntry at hx
  simp only [List.mem_append, List.mem_cons] at hx
  rcases hx with hx | rfl | hx
  · exact o2 (x.1, e.1, e.2) (by
      simp only [List.mem_append, List.mem_flatMap, List.mem_map]
      exact Or.inl ⟨x, hx, e, he, rfl⟩) _ List.mem_cons_self ⟨h1.symm, h2.symm⟩
  · simp only [List.mem_append] at he
    rcases he with he | he
    · exact o2 (s, e.1, e.2) (by
        simp only [List.mem_append, List.mem_map]
        exact Or.inr ⟨e, he, rfl⟩) _ List.mem_cons_self ⟨rfl, h2.symm⟩
    · exact o1.1 (s, e.1, e.2) (by
        simp only [List.mem_append, List.mem_map]
        exact Or.inl ⟨e, he, rfl⟩) ⟨rfl, h2⟩
  · exact o1.1 (x.1, e.1, e.2) (by
      simp only [List.mem_append, List.mem_flatMap, List.mem_map]
      exact Or.inr ⟨x, hx, e, he, rfl⟩) ⟨h1, h2⟩

theorem withoutEntry_wf (hwf : (withEntry pre s before k v after post).WF) :
    (withoutEntry pre s before after post).WF := by
  have hsub : (withoutEntry pre s before after post).entries.Sublist (withEntry pre s before k v after post).entries := by
    simp only [Config.entries, withEntry, withoutEntry, List.flatMap_append, List.flatMap_cons, List.map_append,
      List.map_cons]
    exact (List.Sublist.refl _).append (((List.Sublist.refl _).append (List.sublist_cons_self _ _)).append
      (List.Sublist.refl _))
  refine ⟨?_, fun e he => hwf.names e (hsub.subset he), fun e he => hwf.values e (hsub.subset he),
    fun e he => hwf.size e (hsub.subset he), hwf.once.sublist hsub⟩
  intro x hx
  unfold withoutEntry at hx
  simp only [List.mem_append, List.mem_cons] at hx
  rcases hx with hx | rfl | hx
  · exact hwf.sects x (by simp [withEntry, hx])
  · exact hwf.sects (s, before ++ (k, v) :: after) (by simp [withEntry])
  · exact hwf.sects x (by simp [withEntry, hx])

/-- C150 is false of names: an entry with a name that the program does not know changes nothing, in any file and at
any place of a section with other entries. -/
theorem C150_name_refuted (hwf : (withEntry pre s before k v after post).WF) (hu : Unknown s k)
    (hne : before ++ after ≠ []) (t : Main.Tables D)
    (files : List Char → Option (List Char)) (path : List Char) (args : List (List Char))
    (raws : Nat → Nat → RawDraws D) (garbage : Nat → Nat) (rng : MCTools.Rng D) (fuel : Nat) :
    Main.program t (place files path (fileOf (withEntry pre s before k v after post).lines)) args raws garbage rng fuel =
      Main.program t (place files path (fileOf (withoutEntry pre s before after post).lines)) args raws garbage rng fuel := by
  have hwf' := withoutEntry_wf hwf
  have hsays : ∀ s' k' t, Known s' k' t → ∀ w, (withEntry pre s before k v after post).Says s' k' w ↔
      (withoutEntry pre s before after post).Says s' k' w := by
    intro s' k' t hk w
    rw [withEntry_says]
    refine ⟨fun h => h.resolve_right fun hh => hu s' k' t hk ⟨hh.1.symm, hh.2.1.symm⟩, Or.inl⟩
  refine C150_depends_partial ⟨fun s' _ => ?_, fun k' hk' => ?_, fun s' k' t hk => ?_⟩ t files path args raws garbage rng fuel
  · rw [mem_sections_iff hwf, mem_sections_iff hwf', withEntry_sections hne]
  · simp only [List.mem_cons, List.not_mem_nil, or_false] at hk'
    obtain ⟨t', ht'⟩ : ∃ t', Known "General".toList k'.toList t' := by
      rcases hk' with rfl | rfl | rfl
      · exact ⟨_, .general (t := .number 0) (by simp [general])⟩
      · exact ⟨_, .general (t := .number 0) (by simp [general])⟩
      · exact ⟨_, .general (t := .text) (by simp [general])⟩
    exact (get_same hwf hwf' (known_name ht') (hsays _ _ _ ht')).2
  · rw [(get_same hwf hwf' (known_name hk) (hsays _ _ _ hk)).1]
    exact same_refl _ _

/-- Two values that are the same for a known name give the same run. -/
theorem value_same {w : List Char} (hwf : (withEntry pre s before k v after post).WF)
    (hwf' : (withEntry pre s before k w after post).WF)
    (hsame : ∀ s' k' t, Known s' k' t → SameName s s' → SameName k k' → Same t v w) (t : Main.Tables D)
    (files : List Char → Option (List Char)) (path : List Char) (args : List (List Char))
    (raws : Nat → Nat → RawDraws D) (garbage : Nat → Nat) (rng : MCTools.Rng D) (fuel : Nat) :
    Main.program t (place files path (fileOf (withEntry pre s before k v after post).lines)) args raws garbage rng fuel =
      Main.program t (place files path (fileOf (withEntry pre s before k w after post).lines)) args raws garbage rng fuel := by
  have hother : ∀ s' k', ¬ (SameName s' s ∧ SameName k' k) → ∀ x, (withEntry pre s before k v after post).Says s' k' x ↔
      (withEntry pre s before k w after post).Says s' k' x := by
    intro s' k' hno x
    rw [withEntry_says, withEntry_says]
    exact ⟨fun h => Or.inl (h.resolve_right fun hh => hno ⟨hh.1, hh.2.1⟩),
      fun h => Or.inl (h.resolve_right fun hh => hno ⟨hh.1, hh.2.1⟩)⟩
  have hthis : ∀ s' k' x, SameName s' s → SameName k' k → (withEntry pre s before k x after post).Says s' k' x :=
    fun s' k' x h1 h2 => (withEntry_says s' k' x).2 (Or.inr ⟨h1, h2, rfl⟩)
  refine C150_depends_partial ⟨fun s' _ => ?_, fun k' hk' => ?_, fun s' k' t hk => ?_⟩ t files path args raws garbage rng fuel
  · rw [mem_sections_iff hwf, mem_sections_iff hwf', withEntry_sections']
  · by_cases h : SameName "General".toList s ∧ SameName k'.toList k
    · rw [(get_of_says hwf (hthis _ _ v h.1 h.2) []).2, (get_of_says hwf' (hthis _ _ w h.1 h.2) []).2]
    · simp only [List.mem_cons, List.not_mem_nil, or_false] at hk'
      refine (get_same hwf hwf' ?_ (hother _ _ h)).2
      rcases hk' with rfl | rfl | rfl <;> decide
  · by_cases h : SameName s' s ∧ SameName k' k
    · rw [(get_of_says hwf (hthis _ _ v h.1 h.2) []).1, (get_of_says hwf' (hthis _ _ w h.1 h.2) []).1]
      exact hsame s' k' t hk h.1.symm h.2.symm
    · rw [(get_same hwf hwf' (known_name hk) (hother _ _ h)).1]
      exact same_refl _ _

/-- C150 is false of numbers: a word in the place of a number is taken as the default, in any file. -/
theorem C150_number_refuted {d : ℚ} (hk : Known s k (.number d)) (hv : Wordy v) (n : Numeral) (hn : n.WF)
    (hd : n.value = d) (hwf : (withEntry pre s before k v after post).WF)
    (hwf' : (withEntry pre s before k n.text after post).WF) (t : Main.Tables D)
    (files : List Char → Option (List Char)) (path : List Char) (args : List (List Char))
    (raws : Nat → Nat → RawDraws D) (garbage : Nat → Nat) (rng : MCTools.Rng D) (fuel : Nat) :
    Main.program t (place files path (fileOf (withEntry pre s before k v after post).lines)) args raws garbage rng fuel =
      Main.program t (place files path (fileOf (withEntry pre s before k n.text after post).lines)) args raws garbage rng
        fuel := by
  refine value_same hwf hwf' (fun s' k' t' hk' h1 h2 => ?_) t files path args raws garbage rng fuel
  obtain rfl := known_sort hk hk' h1 h2
  show (Num.strtod v).getD d = (Num.strtod n.text).getD d
  rw [(wordy_head hv).1, strtod_text hn, hd]
  rfl

/-- C150 is false of numbers of particles and bins: a word in their place is taken as one, in any file. -/
theorem C150_count_refuted {d : Nat} (hk : Known s k (.count d)) (hv : Wordy v) (hd : d < 2 ^ 63)
    (hwf : (withEntry pre s before k v after post).WF)
    (hwf' : (withEntry pre s before k (Nat.toDigits 10 d) after post).WF) (t : Main.Tables D)
    (files : List Char → Option (List Char)) (path : List Char) (args : List (List Char))
    (raws : Nat → Nat → RawDraws D) (garbage : Nat → Nat) (rng : MCTools.Rng D) (fuel : Nat) :
    Main.program t (place files path (fileOf (withEntry pre s before k v after post).lines)) args raws garbage rng fuel =
      Main.program t (place files path (fileOf (withEntry pre s before k (Nat.toDigits 10 d) after post).lines)) args raws
        garbage rng fuel := by
  refine value_same hwf hwf' (fun s' k' t' hk' h1 h2 => ?_) t files path args raws garbage rng fuel
  obtain rfl := known_sort hk hk' h1 h2
  show (Num.strtol v).getD (d : Int) = (Num.strtol (Nat.toDigits 10 d)).getD (d : Int)
  rw [(wordy_head hv).2, strtol_toDigits d hd]
  rfl

/-- C150 is false of switches: any word that does not mean true is taken as false, in any file. -/
theorem C150_switch_refuted {w : List Char} (hk : Known s k .truth) (hv : ¬ Yes v) (hw : ¬ Yes w)
    (hwf : (withEntry pre s before k v after post).WF) (hwf' : (withEntry pre s before k w after post).WF)
    (t : Main.Tables D) (files : List Char → Option (List Char)) (path : List Char) (args : List (List Char))
    (raws : Nat → Nat → RawDraws D) (garbage : Nat → Nat) (rng : MCTools.Rng D) (fuel : Nat) :
    Main.program t (place files path (fileOf (withEntry pre s before k v after post).lines)) args raws garbage rng fuel =
      Main.program t (place files path (fileOf (withEntry pre s before k w after post).lines)) args raws garbage rng
        fuel := by
  refine value_same hwf hwf' (fun s' k' t' hk' h1 h2 => ?_) t files path args raws garbage rng fuel
  obtain rfl := known_sort hk hk' h1 h2
  exact iff_of_false hv hw

end entries

/-! ## The hypotheses can be met -/

/-- Unknown names can be found by looking at the names alone. -/
theorem unknown_of_name (s : List Char) {k : List Char}
    (h : k.map Char.toLower ∉ (general ++ field ++ physics ++ particle ++ histogram).map fun x => x.1.toList.map Char.toLower) :
    Unknown s k := by
  rintro s' k' t hk ⟨-, h2⟩
  apply h
  rw [show k.map Char.toLower = k'.map Char.toLower from h2]
  simp only [List.mem_map, List.mem_append]
  cases hk <;> rename_i h
  · exact ⟨_, Or.inl (Or.inl (Or.inl (Or.inl h))), rfl⟩
  · exact ⟨_, Or.inl (Or.inl (Or.inl (Or.inr h))), rfl⟩
  · exact ⟨_, Or.inl (Or.inl (Or.inr h)), rfl⟩
  · exact ⟨_, Or.inl (Or.inr h), rfl⟩
  · exact ⟨_, Or.inr h, rfl⟩

/-- A file that is accepted, with a misspelt name in its first section. -/
example : ∃ (s k v : List Char) (before : List (List Char × List Char)) (post : Config),
    (withEntry [] s before k v [] post).WF ∧ Unknown s k ∧ before ++ [] ≠ [] ∧
    withoutEntry [] s before [] post = inputConfig "General" [] ∧
    ∃ inp : Input ℝ, parse (Reader.ofFile (fileOf (inputConfig "General" []).lines)) = .ok inp := by
  refine ⟨"General".toList, "file_nmae".toList, "run.h5".toList,
    [("time_step".toList, "1e-18".toList), ("time_end".toList, "1e-15".toList), ("units".toList, "SI".toList)],
    [("Field".toList, [("field_type".toList, "static".toList)])], Config.wfB_spec (by decide +kernel),
    unknown_of_name _ (by decide +kernel), by simp, rfl, ?_⟩
  apply inputConfig_ok [] (Config.wfB_spec (by decide)) (by decide) (by decide)
  · intro n; simp [silentB, inputConfig, numbered]
  · intro n; simp [silentB, inputConfig, numbered]

/-- The number 0. -/
def Settings.zero : Numeral := ⟨false, [0], none, none⟩

/-- A source whose mean energy is a word. -/
example : Known "Particle1".toList "energy_mean".toList (.number 0) ∧ Wordy "high".toList ∧ Settings.zero.WF ∧
    Settings.zero.value = 0 ∧
    (withEntry (inputConfig "General" []) "Particle1".toList [] "energy_mean".toList "high".toList [] []).WF ∧
    (withEntry (inputConfig "General" []) "Particle1".toList [] "energy_mean".toList Settings.zero.text [] []).WF := by
  refine ⟨.particle 1 (by simp [particle]), ⟨'h', "igh".toList, rfl, rfl, by decide⟩, ?_, ?_,
    Config.wfB_spec (by decide +kernel), Config.wfB_spec (by decide +kernel)⟩
  · exact ⟨Or.inl (by simp [Settings.zero]), by simp [Settings.zero]⟩
  · simp [Settings.zero, Numeral.value, Numeral.nat, Numeral.expVal]

/-- A number of particles and a switch that are words. -/
example : Known "Particle1".toList "number_particles".toList (.count (1 : Nat)) ∧ Wordy "many".toList ∧
    (withEntry (inputConfig "General" []) "Particle1".toList [] "number_particles".toList "many".toList [] []).WF ∧
    (withEntry (inputConfig "General" []) "Particle1".toList [] "number_particles".toList (Nat.toDigits 10 1) [] []).WF ∧
    Known "Physics".toList "pair_production".toList .truth ∧ ¬ Yes "ja".toList ∧ ¬ Yes "off".toList ∧
    (withEntry (inputConfig "General" []) "Physics".toList [] "pair_production".toList "ja".toList [] []).WF ∧
    (withEntry (inputConfig "General" []) "Physics".toList [] "pair_production".toList "off".toList [] []).WF := by
  refine ⟨.particle 1 (by simp [particle]), ⟨'m', "any".toList, rfl, rfl, by decide⟩,
    Config.wfB_spec (by decide +kernel), Config.wfB_spec (by decide +kernel), .physics (by simp [physics]),
    by unfold Yes SameName; decide, by unfold Yes SameName; decide,
    Config.wfB_spec (by decide +kernel), Config.wfB_spec (by decide +kernel)⟩

/-- A file with a line without a sign of equality. -/
example : ∃ (pre post : List (List Char)) (l : List Char) (ks : List Ini.Kind),
    l = "time_end 5".toList ∧ (∀ l' ∈ pre ++ l :: post, Readable l') ∧ NoBom (pre ++ l :: post) ∧ NoBom (pre ++ post) ∧
    Kinds [] [] (pre ++ l :: post) ks ∧ ks[pre.length]? = some .bad := by
  refine ⟨["[General]".toList], ["units = SI".toList], "time_end 5".toList,
    [.header "General".toList, .bad, .entry "units".toList "SI".toList], rfl, by unfold Readable; decide, ?_, ?_, ?_, rfl⟩
  · intro l hl; cases hl; rfl
  · intro l hl; cases hl; rfl
  · have : ∀ (h : Bool) (n l : List Char), (h = true ↔ n ≠ []) → Is (n ≠ []) l (classify h l) := by
      intro h n l hn
      have := (is_iff h l _).mpr rfl
      rwa [propext hn] at this
    exact .cons (this false _ _ (by simp)) (.cons (this false _ _ (by simp [Ini.Kind.nameAfter]))
      (.cons (this false _ _ (by simp [Ini.Kind.nameAfter])) .nil))

end QED
