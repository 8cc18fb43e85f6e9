import Verif.Lemmas.Output

set_option autoImplicit false
set_option linter.unusedSectionVars false

/-!
# Histories of calls of the output manager
-/

namespace QED

open Dbl OutMgr OutSpec

variable {D : Type} [Dbl D]

/-! ### Files -/

theorem H5.exists_false {f : H5 D} {p : Path} (h : f.exists_ p = false) :
    f.hasGroup p = false ∧ f.hasSet p = false := by
  simpa [H5.exists_] using h

theorem H5.addGroup_eq (f : H5 D) (p : Path) :
    f.addGroup p = if f.exists_ p then .throw "H5::FileIException" else .ok f := by
  unfold H5.addGroup H5.objInfo
  by_cases h : f.exists_ p = true
  · simp [h, H5.createGroup]
  · simp [h]

theorem H5.createDataSet_throw (f : H5 D) (p : Path) (dims : List Nat) (b : Buf D) (n : Nat)
    (h : f.exists_ p = true ∨ f.hasGroup p.dropLast = false) :
    f.createDataSet p dims b n = .throw "H5::FileIException" := by
  unfold H5.createDataSet
  rw [if_neg]
  rintro ⟨h1, h2⟩
  rcases h with h | h
  · rw [h1] at h; cases h
  · rw [h2] at h; cases h

theorem H5.createDataSet_ok (f : H5 D) (p : Path) (dims : List Nat) (b : Buf D) (n : Nat) (f' : H5 D)
    (h : f.createDataSet p dims b n = .ok f') :
    f.exists_ p = false ∧ f.hasGroup p.dropLast = true ∧ ∃ data, b.readRow 0 n = .ok data ∧
      f' = { f with sets := f.sets ++ [(p, ⟨dims, data⟩)] } := by
  unfold H5.createDataSet at h
  by_cases hc : f.exists_ p = false ∧ f.hasGroup p.dropLast = true
  · rw [if_pos hc] at h
    cases hr : b.readRow 0 n with
    | ok data =>
      rw [hr, Res.ok_bind] at h
      exact ⟨hc.1, hc.2, data, rfl, by injection h with h; exact h.symm⟩
    | exit c => rw [hr] at h; cases h
    | throw c => rw [hr] at h; cases h
    | ub c => rw [hr] at h; cases h
  · rw [if_neg hc] at h; cases h

theorem addTable_rows (f : H5 D) (rows : List (List D)) (h8 : Eight rows) (p : Path)
    (hf : f.exists_ p = false) (hg : f.hasGroup p.dropLast = true) :
    f.addArray2D (full rows) rows.length 8 p =
      .ok { f with sets := f.sets ++ [(p, ⟨[rows.length, 8], rows.flatten⟩)] } := by
  unfold H5.addArray2D H5.createDataSet
  rw [if_pos ⟨hf, hg⟩, full, Buf.readRow_full _ _ _ (by rw [h8.length]; omega), Res.ok_bind,
    List.drop_zero, ← h8.length, List.take_length]

theorem H5.exists_append (f : H5 D) (p q : Path) (d : DataSet D) (h : q ≠ p) :
    ({ f with sets := f.sets ++ [(q, d)] } : H5 D).exists_ p = f.exists_ p := by
  simp [H5.exists_, H5.hasGroup, H5.hasSet, h]

/-! ### The stores of one source -/

/-- The calls made for the events `0, ..., n-1` of one source, in any order and any number of times:
`start j` is the list at the start of event `j` and `fin j` the list at its end. -/
def StoreCall (n : Nat) (start fin : Nat → PList D) (c : Call D) : Prop :=
  ∃ j < n, c = .storePrimary (start j) j ∨ c = .storeFinal (fin j) j ∨ ∃ l, c = .storeTrack l j

/-- What the manager holds about event `j`. -/
structure Holds (m : OutMgr D) (j : Nat) (l : List (Particle D)) : Prop where
  e : m.electron[j]? = some (some (full (speciesRows .electron j l)))
  p : m.positron[j]? = some (some (full (speciesRows .positron j l)))
  g : m.photon[j]? = some (some (full (speciesRows .photon j l)))
  ec : m.electronCount[j]? = some (speciesRows .electron j l).length
  pc : m.positronCount[j]? = some (speciesRows .positron j l).length
  gc : m.photonCount[j]? = some (speciesRows .photon j l).length

theorem calls_store (n : Nat) (start fin : Nat → PList D) (first : Nat → Particle D)
    (hstart : ∀ j < n, (start j).items[0]? = some (first j))
    (hfin : ∀ j < n, (fin j).items.length < 2 ^ 29) (cs : List (Call D)) :
    ∀ (m : OutMgr D), m.Sized n → (∀ c ∈ cs, StoreCall n start fin c) →
    ∃ m', m.calls cs = .ok m' ∧ m'.Sized n ∧ m'.file = m.file ∧ m'.sourceBool = m.sourceBool ∧
      (∀ j < n, (Call.storePrimary (start j) j ∈ cs ∨
          m.primary[j]? = some (some (full [particleRow j (first j)]))) →
        m'.primary[j]? = some (some (full [particleRow j (first j)]))) ∧
      (∀ j < n, (Call.storeFinal (fin j) j ∈ cs ∨ Holds m j (fin j).items) →
        Holds m' j (fin j).items) := by
  induction cs with
  | nil =>
    intro m hm _
    refine ⟨m, rfl, hm, rfl, rfl, ?_, ?_⟩
    · rintro j _ (h | h)
      · simp at h
      · exact h
    · rintro j _ (h | h)
      · simp at h
      · exact h
  | cons c cs ih =>
    intro m hm hcs
    have hrest : ∀ c ∈ cs, StoreCall n start fin c := fun x hx => hcs x (by simp [hx])
    obtain ⟨j, hj, hc | hc | ⟨l, hc⟩⟩ := hcs c (by simp)
    · subst hc
      have h1 := storePrimary_eq hm (start j) j hj (hstart j hj)
      obtain ⟨m', hm', hs, hf, hb, hp, hfl⟩ := ih
        { m with primary := m.primary.set j (some (full [particleRow j (first j)])) }
        ⟨by simp [hm.prim], hm.ec, hm.pc, hm.gc, hm.e, hm.p, hm.g⟩ hrest
      refine ⟨m', by simp only [calls, call, h1, Res.ok_bind, hm'], hs, hf, hb, ?_, ?_⟩
      · intro i hi h
        apply hp i hi
        by_cases hij : j = i
        · subst hij; right; simp [hm.prim, hi]
        · rcases h with h | h
          · rcases List.mem_cons.1 h with h | h
            · injection h with _ h; exact absurd h.symm hij
            · exact Or.inl h
          · right; rw [List.getElem?_set_ne hij]; exact h
      · intro i hi h
        apply hfl i hi
        rcases h with h | h
        · rcases List.mem_cons.1 h with h | h
          · cases h
          · exact Or.inl h
        · exact Or.inr ⟨h.e, h.p, h.g, h.ec, h.pc, h.gc⟩
    · subst hc
      have h1 := storeFinal_eq hm (fin j) j hj (hfin j hj)
      obtain ⟨m', hm', hs, hf, hb, hp, hfl⟩ := ih (m.withFinal (fin j).items j)
        ⟨hm.prim, by simp [withFinal, hm.ec], by simp [withFinal, hm.pc], by simp [withFinal, hm.gc],
          by simp [withFinal, hm.e], by simp [withFinal, hm.p], by simp [withFinal, hm.g]⟩ hrest
      refine ⟨m', by simp only [calls, call, h1, Res.ok_bind, hm'], hs, hf, hb, ?_, ?_⟩
      · intro i hi h
        apply hp i hi
        rcases h with h | h
        · rcases List.mem_cons.1 h with h | h
          · cases h
          · exact Or.inl h
        · exact Or.inr h
      · intro i hi h
        apply hfl i hi
        by_cases hij : j = i
        · subst hij; right
          constructor <;> simp [withFinal, hm.ec, hm.pc, hm.gc, hm.e, hm.p, hm.g, hi]
        · rcases h with h | h
          · rcases List.mem_cons.1 h with h | h
            · injection h with _ h; exact absurd h.symm hij
            · exact Or.inl h
          · right
            constructor <;> simp only [withFinal] <;> rw [List.getElem?_set_ne hij]
            exacts [h.e, h.p, h.g, h.ec, h.pc, h.gc]
    · subst hc
      obtain ⟨m', hm', hs, hf, hb, hp, hfl⟩ := ih (m.storeTrack l j)
        ⟨hm.prim, hm.ec, hm.pc, hm.gc, hm.e, hm.p, hm.g⟩ hrest
      refine ⟨m', by simp only [calls, call, Res.ok_bind, hm'], hs, hf, hb, ?_, ?_⟩
      · intro i hi h
        apply hp i hi
        rcases h with h | h
        · rcases List.mem_cons.1 h with h | h
          · cases h
          · exact Or.inl h
        · exact Or.inr h
      · intro i hi h
        apply hfl i hi
        rcases h with h | h
        · rcases List.mem_cons.1 h with h | h
          · cases h
          · exact Or.inl h
        · exact Or.inr ⟨h.e, h.p, h.g, h.ec, h.pc, h.gc⟩

theorem eq_map_range {α : Type} {n : Nat} {v : List α} {f : Nat → α} (hl : v.length = n)
    (h : ∀ j < n, v[j]? = some (f j)) : v = (List.range n).map f := by
  apply List.ext_getElem?
  intro j
  by_cases hj : j < n
  · rw [h j hj]; simp [hj]
  · rw [List.getElem?_eq_none (by omega), List.getElem?_eq_none (by simp; omega)]

theorem zipIdx_range {α : Type} (n : Nat) (f : Nat → α) :
    ((List.range n).map f).zipIdx = (List.range n).map fun j => (f j, j) := by
  apply List.ext_getElem <;> simp

theorem initSource_sized (m : OutMgr D) (n : Nat) : (m.initSource n).Sized n := by
  constructor <;> simp [initSource]

/-- The rows of event `j`, for all events. -/
def rowsOf (k : Kind) (n : Nat) (fin : Nat → PList D) : List (List (List D)) :=
  (List.range n).map fun j => speciesRows k j (fin j).items

theorem table_rowsOf (k : Kind) (n : Nat) (fin : Nat → PList D) :
    table k ((List.range n).map fun j => (fin j).items) = (rowsOf k n fin).flatten := by
  simp [table, zipIdx_range, rowsOf, Function.comp_def]

theorem primaryTable_range (n : Nat) (first : Nat → Particle D) :
    primaryTable ((List.range n).map first) = (List.range n).map fun j => particleRow j (first j) := by
  simp [primaryTable, zipIdx_range, Function.comp_def]

theorem rowsOf_eight (k : Kind) (n : Nat) (fin : Nat → PList D) : ∀ e ∈ rowsOf k n fin, Eight e := by
  intro e he
  simp only [rowsOf, List.mem_map] at he
  obtain ⟨j, _, rfl⟩ := he
  exact speciesRows_eight k j _

theorem table_eight (k : Kind) (n : Nat) (fin : Nat → PList D) : Eight (rowsOf k n fin).flatten := by
  intro r hr
  obtain ⟨e, he, hre⟩ := List.mem_flatten.1 hr
  exact rowsOf_eight k n fin e he r hre

theorem primaryTable_eight (l : List (Particle D)) : Eight (primaryTable l) := by
  intro r hr
  simp only [primaryTable, List.mem_map] at hr
  obtain ⟨e, _, rfl⟩ := hr
  rfl

theorem total_le (k : Kind) (n : Nat) (fin : Nat → PList D) :
    total (rowsOf k n fin) ≤ ((List.range n).map fun j => (fin j).items.length).sum := by
  induction n with
  | zero => simp [total, rowsOf]
  | succ n ih =>
    have := speciesRows_le k n (fin n).items
    simp only [total, rowsOf, List.range_succ, List.map_append, List.sum_append, List.map_cons,
      List.map_nil, List.sum_cons, List.sum_nil] at ih ⊢
    omega

/-- Both the primaries and the tables after all stores of a source. -/
theorem stored (m : OutMgr D) (n : Nat) (start fin : Nat → PList D) (first : Nat → Particle D)
    (hstart : ∀ j < n, (start j).items[0]? = some (first j))
    (hfin : ∀ j < n, (fin j).items.length < 2 ^ 29) (cs : List (Call D))
    (hcs : ∀ c ∈ cs, StoreCall n start fin c)
    (hp : ∀ j < n, Call.storePrimary (start j) j ∈ cs)
    (hf : ∀ j < n, Call.storeFinal (fin j) j ∈ cs) :
    ∃ m', (m.initSource n).calls cs = .ok m' ∧ m'.file = m.file ∧ m'.sourceBool = m.sourceBool ∧
      m'.primary = (primaryTable ((List.range n).map first)).map (fun r => some (full [r])) ∧
      m'.electron = (rowsOf .electron n fin).map (fun e => some (full e)) ∧
      m'.electronCount = (rowsOf .electron n fin).map List.length ∧
      m'.positron = (rowsOf .positron n fin).map (fun e => some (full e)) ∧
      m'.positronCount = (rowsOf .positron n fin).map List.length ∧
      m'.photon = (rowsOf .photon n fin).map (fun e => some (full e)) ∧
      m'.photonCount = (rowsOf .photon n fin).map List.length := by
  obtain ⟨m', hm', hs, hfile, hb, hprim, hfinal⟩ := calls_store n start fin first hstart hfin cs
    (m.initSource n) (initSource_sized m n) hcs
  have P := fun j hj => hprim j hj (Or.inl (hp j hj))
  have F := fun j hj => hfinal j hj (Or.inl (hf j hj))
  refine ⟨m', hm', hfile, hb, ?_, ?_, ?_, ?_, ?_, ?_, ?_⟩
  · rw [primaryTable_range, List.map_map]; exact eq_map_range hs.prim P
  all_goals rw [rowsOf, List.map_map]
  · exact eq_map_range hs.e fun j hj => (F j hj).e
  · exact eq_map_range hs.ec fun j hj => (F j hj).ec
  · exact eq_map_range hs.p fun j hj => (F j hj).p
  · exact eq_map_range hs.pc fun j hj => (F j hj).pc
  · exact eq_map_range hs.g fun j hj => (F j hj).g
  · exact eq_map_range hs.gc fun j hj => (F j hj).gc

/-! ### Nothing ever gets into the file -/

theorem empty_addGroup (p : Path) (h : p ≠ []) :
    (H5.empty : H5 D).addGroup p = .ok H5.empty := by
  rw [H5.addGroup_eq]; simp [H5.exists_, H5.hasGroup, H5.hasSet, H5.empty, h]

theorem empty_createDataSet (p : Path) (dims : List Nat) (b : Buf D) (n : Nat) (h : p.dropLast ≠ []) :
    (H5.empty : H5 D).createDataSet p dims b n = .throw "H5::FileIException" :=
  H5.createDataSet_throw _ _ _ _ _ (Or.inr (by simp [H5.hasGroup, H5.empty, h]))

theorem new_file (u : Option (OutUnits D)) : ∃ m, OutMgr.new u = .ok m ∧ m.file = H5.empty ∧
    m.units = u ∧ m.tracks = [] ∧ m.sourceBool = false ∧ m.partListBool = false ∧
    m.primary = [] := by
  unfold OutMgr.new
  rw [empty_addGroup _ (by simp), Res.ok_bind, empty_addGroup _ (by simp), Res.ok_bind,
    empty_addGroup _ (by simp), Res.ok_bind]
  exact ⟨_, rfl, rfl, rfl, rfl, rfl, rfl, rfl⟩

theorem addGroup_or (b : Bool) (p : Path) (h : p ≠ []) :
    groupOnce (H5.empty : H5 D) b p = .ok H5.empty := by
  cases b <;> simp [groupOnce, empty_addGroup p h]

/-! ### Invariants of the file -/

/-- Every normal result satisfies `P`. -/
def Res.Post {α : Type} (x : Res α) (P : α → Prop) : Prop := ∀ a, x = .ok a → P a

theorem Res.Post.ok {α : Type} {a : α} {P : α → Prop} (h : P a) : Res.Post (.ok a) P := by
  intro b hb; injection hb with hb; exact hb ▸ h

theorem Res.Post.bind {α β : Type} {x : Res α} {f : α → Res β} {P : α → Prop} {R : β → Prop}
    (hx : Res.Post x P) (hf : ∀ a, P a → Res.Post (f a) R) : Res.Post (x >>= f) R := by
  intro b hb
  cases x with
  | ok a => exact hf a (hx a rfl) b hb
  | exit c => cases hb
  | throw w => cases hb
  | ub w => cases hb

theorem Res.Post.any {α β : Type} {x : Res α} {f : α → Res β} {R : β → Prop}
    (hf : ∀ a, Res.Post (f a) R) : Res.Post (x >>= f) R :=
  Res.Post.bind (P := fun _ => True) (fun _ _ => trivial) fun a _ => hf a

theorem Res.Post.fail {α : Type} {x : Res α} {P : α → Prop} (h : ∀ a, x ≠ .ok a) : Res.Post x P :=
  fun a ha => absurd ha (h a)

theorem addGroup_post {Q : H5 D → Prop} {f : H5 D} (h : Q f) (p : Path) :
    Res.Post (f.addGroup p) Q := by
  rw [H5.addGroup_eq]
  split
  · exact .fail fun a => by simp
  · exact .ok h

theorem addGroup_if_post {Q : H5 D → Prop} {f : H5 D} (h : Q f) (b : Bool) (p : Path) :
    Res.Post (groupOnce f b p) Q := by
  unfold groupOnce
  split
  · exact addGroup_post h p
  · exact .ok h

/-- `Q` is kept by the creation of a data set that is not in the root group. -/
def KeptBySets (Q : H5 D → Prop) : Prop :=
  ∀ (f : H5 D) (p : Path) (dims : List Nat) (b : Buf D) (n : Nat), p.dropLast ≠ [] → Q f →
    Res.Post (f.createDataSet p dims b n) Q

theorem writeHistories_post {Q : H5 D → Prop} (hQ : KeptBySets Q) (u : OutUnits D) (f : H5 D)
    (p : Particle D) (path : Path) (hp : path ≠ []) (h : Q f) :
    Res.Post (writeHistories u f p path) Q := by
  unfold writeHistories historySets
  exact .bind (addGroup_post h _) fun f h => .bind (hQ _ _ _ _ _ (by simpa using hp) h) fun f h =>
    .bind (hQ _ _ _ _ _ (by simpa using hp) h) fun f h =>
    .bind (hQ _ _ _ _ _ (by simpa using hp) h) fun f h => hQ _ _ _ _ _ (by simpa using hp) h

theorem writeTrack_post {Q : H5 D → Prop} (hQ : KeptBySets Q) (u : OutUnits D) (f : H5 D) (i : Nat)
    (t : Track D) (h : Q f) : Res.Post (writeTrack u f i t) Q := by
  unfold writeTrack trackSets
  exact .bind (addGroup_post h _) fun f h => .bind (hQ _ _ _ _ _ (by simp) h) fun f h =>
    .bind (hQ _ _ _ _ _ (by simp) h) fun f h =>
    .bind (hQ _ _ _ _ _ (by simp) h) fun f h => hQ _ _ _ _ _ (by simp) h

theorem writeTracks_post {Q : H5 D → Prop} (hQ : KeptBySets Q) (u : OutUnits D) :
    ∀ (ts : List (Track D)) (f : H5 D) (i : Nat), Q f → Res.Post (writeTracks u f i ts) Q
  | [], _, _, h => .ok h
  | t :: ts, f, i, h =>
    .bind (writeTrack_post hQ u f i t h) fun f h => writeTracks_post hQ u ts f (i + 1) h

theorem listTracksLoop_post {Q : H5 D → Prop} (hQ : KeptBySets Q) (u : OutUnits D) (name : String) :
    ∀ (ps : List (Particle D)) (f : H5 D) (i : Nat), Q f →
      Res.Post (listTracksLoop u name i ps f) Q
  | [], _, _, h => .ok h
  | p :: ps, f, i, h => by
    unfold listTracksLoop
    split
    · exact .fail fun a => by simp
    · exact .bind (writeHistories_post hQ u f p _ (by simp) h) fun f h =>
        listTracksLoop_post hQ u name ps f (i + 1) h

theorem addTable_post {Q : H5 D → Prop} (hQ : KeptBySets Q) (f : H5 D) (t : Nat × Buf D)
    (name : String) (h : Q f) : Res.Post (addTable f t name) Q := by
  unfold addTable
  split
  · exact hQ _ _ _ _ _ (by simp [sourcePath]) h
  · exact .ok h

theorem outFieldTime_post {Q : H5 D → Prop} (hQ : KeptBySets Q) (f : H5 D) (field : Field D) (n : Nat)
    (t : D) (xs ys zs : List D) (h : Q f) : Res.Post (outFieldTime f field n t xs ys zs) Q := by
  have hput : ∀ (f : H5 D) (g : V3 D × V3 D → D) (name : String), Q f →
      Res.Post (outComponent f field t xs ys zs g (["Fields", toString n] ++ [name])) Q :=
    fun f g name h => .any fun b => hQ _ _ _ _ _ (by simp) h
  unfold outFieldTime fieldSets
  exact .bind (addGroup_post h _) fun f h => .bind (hput _ _ _ h) fun f h =>
    .bind (hput _ _ _ h) fun f h => .bind (hput _ _ _ h) fun f h => .bind (hput _ _ _ h) fun f h =>
    .bind (hput _ _ _ h) fun f h => hput _ _ _ h

theorem outFieldTimes_post {Q : H5 D → Prop} (hQ : KeptBySets Q) (field : Field D)
    (xs ys zs : List D) : ∀ (ts : List D) (n : Nat) (f : H5 D), Q f →
      Res.Post (outFieldTimes field xs ys zs n ts f) Q
  | [], _, _, h => .ok h
  | t :: ts, n, f, h =>
    .bind (outFieldTime_post hQ f field n t xs ys zs h) fun f h =>
      outFieldTimes_post hQ field xs ys zs ts (n + 1) f h

theorem outputSource_post {Q : H5 D → Prop} (hQ : KeptBySets Q) (m : OutMgr D) (h : Q m.file) :
    Res.Post m.outputSource (fun m' => Q m'.file) := by
  unfold outputSource
  exact .bind (addGroup_if_post h _ _) fun f h => .any fun prime =>
    .bind (hQ _ _ _ _ _ (by simp [sourcePath]) h) fun f h => .any fun e => .any fun p =>
    .any fun g => .bind (addTable_post hQ _ _ _ h) fun f h => .bind (addTable_post hQ _ _ _ h)
    fun f h => .bind (addTable_post hQ _ _ _ h) fun f h => .ok h

theorem outputTracks_post {Q : H5 D → Prop} (hQ : KeptBySets Q) (m : OutMgr D) (h : Q m.file) :
    Res.Post m.outputTracks (fun m' => Q m'.file) := by
  unfold outputTracks
  exact .bind (addGroup_if_post h _ _) fun f h => .bind (writeTracks_post hQ _ _ _ _ h) fun f h => .ok h

theorem call_post {Q : H5 D → Prop} (hQ : KeptBySets Q) (m : OutMgr D) (c : Call D) (h : Q m.file) :
    Res.Post (m.call c) (fun m' => Q m'.file) := by
  cases c with
  | initSource n => exact .ok h
  | storePrimary l j =>
    exact .any fun p => .any fun b => .any fun v => .ok h
  | storeFinal l j =>
    exact .any fun s => .any fun _ => .any fun _ => .any fun _ => .any fun _ => .any fun _ =>
      .any fun _ => .ok h
  | storeTrack l j => exact .ok h
  | outputEvents s t =>
    refine .bind (P := fun m' : OutMgr D => Q m'.file) ?_ fun m' h' => ?_
    · cases s
      · exact .ok h
      · exact outputSource_post hQ m h
    · cases t
      · exact .ok h'
      · exact outputTracks_post hQ m' h'
  | outputHist hist =>
    exact .bind (addGroup_post h _) fun f h => .bind (.bind (hQ _ _ _ _ _ (by simp) h) fun f h =>
      hQ _ _ _ _ _ (by simp) h) fun f h => .ok h
  | outEMField field ts xs ys zs =>
    exact .bind (outFieldTimes_post hQ field xs ys zs ts 0 m.file h) fun f h => .ok h
  | singleParticle p name =>
    refine .bind (addGroup_if_post h _ _) fun f h => ?_
    split
    · exact .fail fun a => by simp
    · exact .bind (writeHistories_post hQ _ f p _ (by simp) h) fun f h => .ok h
  | listTracks l name =>
    exact .bind (addGroup_if_post h _ _) fun f h => .bind (addGroup_post h _) fun f h =>
      .bind (listTracksLoop_post hQ _ name _ f 0 h) fun f h => .ok h
  | listProperties l name =>
    exact .bind (addGroup_if_post h _ _) fun f h => .bind (addGroup_post h _) fun f h =>
      .bind (hQ _ _ _ _ _ (by simp) h) fun f h => .ok h

theorem calls_post {Q : H5 D → Prop} (hQ : KeptBySets Q) : ∀ (cs : List (Call D)) (m : OutMgr D),
    Q m.file → Res.Post (m.calls cs) (fun m' => Q m'.file)
  | [], m, h => .ok h
  | c :: cs, m, h => .bind (call_post hQ m c h) fun m' h' => calls_post hQ cs m' h'

theorem kept_empty : KeptBySets (fun f : H5 D => f = H5.empty) := by
  intro f p dims b n hp hf
  subst hf
  rw [empty_createDataSet p dims b n hp]
  exact .fail fun a => by simp

theorem kept_exists (q : Path) : KeptBySets (fun f : H5 D => f.exists_ q = true) := by
  intro f p dims b n _ hf f' h
  obtain ⟨_, _, data, _, rfl⟩ := H5.createDataSet_ok f p dims b n f' h
  simp only [H5.exists_, H5.hasGroup, H5.hasSet, Bool.or_eq_true, List.any_append] at hf ⊢
  rcases hf with hf | hf
  · exact Or.inl hf
  · exact Or.inr (Or.inl hf)

/-- The primary table is written by every successful output of a source. -/
theorem outputSource_primary (m : OutMgr D) : Res.Post m.outputSource
    (fun m' => m.file.exists_ (sourcePath "Primary") = false ∧
      m'.file.exists_ (sourcePath "Primary") = true) := by
  unfold outputSource
  refine .bind (addGroup_if_post (Q := fun f => f = m.file) rfl _ _) fun f hf => ?_
  subst hf
  refine .any fun prime => ?_
  refine .bind (P := fun f => m.file.exists_ (sourcePath "Primary") = false ∧
    f.exists_ (sourcePath "Primary") = true) ?_ fun f h => ?_
  · intro f' hf'
    obtain ⟨h1, _, data, _, rfl⟩ := H5.createDataSet_ok _ _ _ _ _ _ hf'
    exact ⟨h1, by simp [H5.exists_, H5.hasSet]⟩
  · have hQ := kept_exists (D := D) (sourcePath "Primary")
    exact .any fun e => .any fun p => .any fun g =>
      .bind (addTable_post hQ _ _ _ h.2) fun f h2 => .bind (addTable_post hQ _ _ _ h2)
      fun f h2 => .bind (addTable_post hQ _ _ _ h2) fun f h2 => .ok ⟨h.1, h2⟩

end QED
