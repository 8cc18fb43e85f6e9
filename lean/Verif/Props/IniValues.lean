import Verif.Spec.IniValues
import Verif.Props.Ini

set_option autoImplicit false

/-!
# Property C132: values given more than once, or on several lines
-/

namespace QED

open Ini

theorem given_calls : ∀ (ks : List Kind) (s n : List Char), ShortNames ks →
    (allCalls s n ks).map (fun c => (c.sect, c.name, c.value)) = given s n ks
  | [], _, _, _ => rfl
  | k :: ks, s, n, h => by
    have ih := fun s n => given_calls ks s n fun k hk => h k (List.mem_cons_of_mem _ hk)
    have hk := h k List.mem_cons_self
    rw [allCalls, List.map_append, ih]
    cases k with
    | inert => rfl
    | bad => rfl
    | more v => rfl
    | header s' => simp only [Kind.sectAfter, short, List.take_of_length_le hk]; rfl
    | entry k v => simp only [Kind.nameAfter, short, List.take_of_length_le hk]; rfl

theorem kinds_no_eq {s n : List Char} {lines : List (List Char)} {ks : List Kind} (h : Kinds s n lines ks)
    (hn : '=' ∉ n) : ∀ c ∈ allCalls s n ks, '=' ∉ c.name := by
  induction h with
  | nil => intro c hc; cases hc
  | @cons s n l ls k ks h1 h2 ih =>
    have key : '=' ∉ k.nameAfter n ∧ ∀ c ∈ k.calls s n, '=' ∉ c.name := by
      cases k with
      | inert => exact ⟨hn, by intro c hc; cases hc⟩
      | bad => exact ⟨hn, by intro c hc; cases hc⟩
      | more v =>
        refine ⟨hn, ?_⟩
        intro c hc
        obtain rfl := List.mem_singleton.mp hc
        exact hn
      | header s' => exact ⟨by simp [Kind.nameAfter], by intro c hc; cases hc⟩
      | entry k v =>
        obtain ⟨-, -, t, c0, kRaw, d, vRaw, vBare, -, -, -, -, -, he, -, -, htr, -⟩ := h1
        obtain ⟨a, b, e, -⟩ := htr
        have hk : '=' ∉ k := fun hm => he (by rw [e]; simp [hm])
        refine ⟨fun hm => hk (List.mem_of_mem_take hm), ?_⟩
        intro c hc
        obtain rfl := List.mem_singleton.mp hc
        exact hk
    intro c hc
    rcases List.mem_append.mp hc with h | h
    · exact key.2 c h
    · exact ih key.1 c h

/-- One more value. -/
def addValue (old v : List Char) : List Char := (if old ≠ [] then old ++ ['\n'] else old) ++ v

theorem handle_joins (key : List Char) : ∀ (cs : List Call) (r : Reader),
    (cs.foldl Reader.handle r).values key =
      if (cs.filter fun c => c.key = key) = [] then r.values key
      else some (((cs.filter fun c => c.key = key).map (·.value)).foldl addValue ((r.values key).getD []))
  | [], r => by simp
  | c :: cs, r => by
    rw [List.foldl_cons, handle_joins key cs]
    have hv : (r.handle c).values key = if key = c.key then
        some (addValue ((r.values key).getD []) c.value) else r.values key := by
      unfold Reader.handle Call.key addValue
      dsimp only
      split <;> rename_i h
      · rw [h]
      · rfl
    by_cases hc : c.key = key
    · rw [List.filter_cons_of_pos (by simpa using hc), if_neg (List.cons_ne_nil _ _), hv, if_pos hc.symm]
      by_cases hf : (cs.filter fun c => c.key = key) = []
      · rw [if_pos hf, hf]; rfl
      · rw [if_neg hf]; rfl
    · rw [List.filter_cons_of_neg (by simpa using hc), hv, if_neg (Ne.symm hc)]

theorem fold_joined : ∀ (vs : List (List Char)) (old : List Char),
    vs.foldl addValue old = if old = [] then joined vs else ['\n'].intercalate (old :: vs)
  | [], old => by
    by_cases h : old = []
    · simp [h, joined]
    · simp [h]
  | v :: vs, old => by
    rw [List.foldl_cons, fold_joined vs]
    by_cases h : old = []
    · subst h
      by_cases hv : v = []
      · subst hv; simp [addValue, joined]
      · simp [addValue, hv, joined]
    · have : addValue old v ≠ [] := by simp [addValue, h]
      rw [if_neg this, if_neg h]
      simp only [addValue, if_pos h]
      cases vs <;> simp [List.intercalate]

theorem lower_same {a b : List Char} : lower a = lower b ↔ SameName a b := Iff.rfl

/-- C132 for lines of at most 199 characters, and sections and names of at most 49: a name in a section gets
all values given for it there, in the order of the file and separated by line breaks, and the default
if there are none. -/
theorem C132_joined_partial (lines : List (List Char)) (ks : List Kind) (hl : ∀ l ∈ lines, Readable l)
    (hb : NoBom lines) (hk : Kinds [] [] lines ks) (hs : ShortNames ks) (s k d : List Char) (he : '=' ∉ k) :
    (Reader.ofFile (fileOf lines)).get s k d =
      (if givenFor ks s k = [] then d else joined (givenFor ks s k)) ∧
    ((Reader.ofFile (fileOf lines)).hasValue s k = true ↔ givenFor ks s k ≠ []) := by
  classical
  have hv : ((allCalls [] [] ks).filter fun c => c.key = makeKey s k).map (·.value) = givenFor ks s k := by
    unfold givenFor
    rw [← given_calls ks [] [] hs, List.filter_map, List.map_map]
    have hf : (allCalls [] [] ks).filter (fun c => c.key = makeKey s k) =
        (allCalls [] [] ks).filter ((fun e : List Char × List Char × List Char =>
          decide (SameName e.1 s ∧ SameName e.2.1 k)) ∘ fun c => (c.sect, c.name, c.value)) := by
      apply List.filter_congr
      intro c hc
      exact decide_eq_decide.mpr (makeKey_inj (kinds_no_eq hk (by simp) c hc) he)
    rw [hf]
    congr 1
  have hfold := handle_joins (makeKey s k) (allCalls [] [] ks) Reader.empty
  rw [hv] at hfold
  have hnil : ((allCalls [] [] ks).filter fun c => c.key = makeKey s k) = [] ↔ givenFor ks s k = [] := by
    rw [← hv, List.map_eq_nil_iff]
  have hval : (Reader.ofFile (fileOf lines)).values (makeKey s k) =
      if givenFor ks s k = [] then none else some (joined (givenFor ks s k)) := by
    unfold Reader.ofFile
    dsimp only
    rw [parseFile_calls hl hb hk, hfold, fold_joined]
    by_cases hg : givenFor ks s k = []
    · rw [if_pos hg, if_pos (hnil.mpr hg)]; rfl
    · rw [if_neg hg, if_neg fun h => hg (hnil.mp h)]; rfl
  constructor
  · unfold Reader.get
    rw [hval]
    by_cases hg : givenFor ks s k = []
    · rw [if_pos hg, if_pos hg]; rfl
    · rw [if_neg hg, if_neg hg]; rfl
  · unfold Reader.hasValue
    rw [hval]
    by_cases hg : givenFor ks s k = []
    · rw [if_pos hg]; simp [hg]
    · rw [if_neg hg]; simp [hg]

/-- What counts as white space at the ends of names and values, at the start of a continued line and before an
inline comment. -/
theorem C132_white_space (c : Char) : isSpace c = true ↔ c ∈ whiteSpace := by
  simp [isSpace, whiteSpace, or_assoc]

/-- A name of 50 characters with a value on two lines. -/
def longName : List Char := List.replicate 50 'a'

/-- C132 is false of longer names: a line that continues the value of a name of 50 characters is stored
under the name without its last character. -/
theorem C132_refuted :
    Kinds [] [] [longName ++ "= 1".toList, " 2".toList] [.entry longName ['1'], .more ['2']] ∧
    givenFor [.entry longName ['1'], .more ['2']] [] longName = [['1'], ['2']] ∧
    (Reader.ofFile (fileOf [longName ++ "= 1".toList, " 2".toList])).get [] longName [] = ['1'] ∧
    (Reader.ofFile (fileOf [longName ++ "= 1".toList, " 2".toList])).get [] (longName.take 49) [] = ['2'] := by
  refine ⟨.cons ?_ (.cons ?_ .nil), ?_, by decide +kernel, by decide +kernel⟩
  · have := (is_iff false (longName ++ "= 1".toList) (.entry longName ['1'])).mpr (by decide +kernel)
    simpa using this
  · have := (is_iff true " 2".toList (.more ['2'])).mpr (by decide +kernel)
    have e : (Kind.entry longName ['1']).nameAfter [] ≠ [] := by decide +kernel
    simpa [e] using this
  · classical
    unfold givenFor
    simp [given, SameName]

/-! ## The hypotheses can be met -/

/-- A name given twice in two spellings, with a continued line, after an empty value. -/
def twiceLines : List (List Char) :=
  ["[Run]".toList, "Path =".toList, "path\t= a".toList, "\tb ; comment".toList, "Other = x".toList, "PATH: c".toList]

/-- What they mean. -/
def twiceKinds : List Kind :=
  [.header "Run".toList, .entry "Path".toList [], .entry "path".toList ['a'], .more "b ; comment".toList,
    .entry "Other".toList ['x'], .entry "PATH".toList ['c']]

example : (∀ l ∈ twiceLines, Readable l) ∧ NoBom twiceLines ∧ Kinds [] [] twiceLines twiceKinds ∧
    ShortNames twiceKinds ∧
    givenFor twiceKinds "run".toList "path".toList = [[], ['a'], "b ; comment".toList, ['c']] ∧
    (Reader.ofFile (fileOf twiceLines)).get "run".toList "path".toList [] = "a\nb ; comment\nc".toList := by
  have is : ∀ (h : Bool) (n l : List Char), (h = true ↔ n ≠ []) → Is (n ≠ []) l (classify h l) := by
    intro h n l hn
    have := (is_iff h l _).mpr rfl
    rwa [propext hn] at this
  refine ⟨?_, ?_, ?_, ?_, ?_, by decide +kernel⟩
  · intro l hl
    refine PlainLine.readable ?_
    revert l
    unfold PlainLine
    decide
  · intro l hl; cases hl; rfl
  · exact .cons (is false _ _ (by simp)) (.cons (is false _ _ (by simp [Kind.nameAfter]))
      (.cons (is true _ _ (by decide)) (.cons (is true _ _ (by decide)) (.cons (is true _ _ (by decide))
        (.cons (is true _ _ (by decide)) .nil)))))
  · intro k hk
    simp only [twiceKinds, List.mem_cons, List.not_mem_nil, or_false] at hk
    rcases hk with rfl | rfl | rfl | rfl | rfl | rfl <;> simp
  · have e : givenFor twiceKinds "run".toList "path".toList = ((given [] [] twiceKinds).filter fun e =>
        decide (e.1.map Char.toLower = "run".toList.map Char.toLower ∧
          e.2.1.map Char.toLower = "path".toList.map Char.toLower)).map (·.2.2) := by
      unfold givenFor
      congr 1
      exact List.filter_congr fun c _ => decide_eq_decide.mpr Iff.rfl
    rw [e]
    decide +kernel

end QED
