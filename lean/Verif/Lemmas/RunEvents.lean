import Verif.Lemmas.RunManager
import Verif.Lemmas.Events
import Verif.Props.Source

set_option linter.unusedSectionVars false
set_option autoImplicit false

/-!
# Lemmas on the event loop of the run manager
-/

namespace QED
namespace RunMgr

open Dbl MCTools

variable {D : Type} [Dbl D]

/-! ### Rows -/

/-- Values appended to the vector of thread `tid`. -/
def addTo (v : List (List D)) (tid : Nat) (row : List D) : List (List D) := v.modify tid (· ++ row)

theorem pushRow_ok {v : List (List D)} {tid : Nat} {row : List D} (h : tid < v.length) :
    pushRow v tid row = .ok (addTo v tid row) := by
  unfold pushRow addTo
  rw [List.getElem?_eq_getElem h, List.modify_eq_set_getElem?, List.getElem?_eq_getElem h]
  rfl

theorem pushRow_inv {v w : List (List D)} {tid : Nat} {row : List D} (h : pushRow v tid row = .ok w) :
    tid < v.length ∧ w = addTo v tid row := by
  by_cases ht : tid < v.length
  · rw [pushRow_ok ht] at h; cases h; exact ⟨ht, rfl⟩
  · unfold pushRow at h
    rw [List.getElem?_eq_none (by omega)] at h
    cases h

@[simp] theorem addTo_length (v : List (List D)) (tid : Nat) (row : List D) :
    (addTo v tid row).length = v.length := by simp [addTo]

theorem addTo_addTo (v : List (List D)) (tid : Nat) (a b : List D) :
    addTo (addTo v tid a) tid b = addTo v tid (a ++ b) := by
  unfold addTo
  rw [List.modify_modify_eq]
  congr 1
  funext x
  simp

theorem addTo_nil (v : List (List D)) (tid : Nat) : addTo v tid [] = v := by
  unfold addTo
  apply List.ext_getElem?
  intro i
  rw [List.getElem?_modify]
  split
  · cases v[i]? <;> simp
  · simp

theorem storeInput_inv {tid : Nat} : ∀ {ps : List (Particle D)} {rs rs' : Results D},
    storeInput tid ps rs = .ok rs' → rs' = { rs with input := addTo rs.input tid (ps.flatMap inputRow) }
  | [], rs, rs', h => by cases h; simp [addTo_nil]
  | p :: ps, rs, rs', h => by
    simp only [storeInput] at h
    obtain ⟨v, h1, h2⟩ := bind_eq_ok.1 h
    obtain ⟨_, rfl⟩ := pushRow_inv h1
    rw [storeInput_inv h2]
    simp [addTo_addTo]

theorem storeInput_ok {tid : Nat} : ∀ (ps : List (Particle D)) (rs : Results D),
    tid < rs.input.length → ∃ rs', storeInput tid ps rs = .ok rs'
  | [], rs, _ => ⟨rs, rfl⟩
  | p :: ps, rs, h => by
    simp only [storeInput]
    rw [pushRow_ok h, Res.ok_bind]
    exact storeInput_ok ps _ (by simpa using h)

/-- The final rows of the particles of a given charge, in order. -/
def rowsWith (c : D → Bool) (ps : List (Particle D)) : List D :=
  (ps.filter fun p => c p.charge).flatMap finalRow

/-- The tests at `RunManager.cpp:245,260,275`. -/
def isEl (q : D) : Bool := q ==. lit (-1)
def isPh (q : D) : Bool := !(q ==. lit (-1)) && (q ==. lit 0)
def isPo (q : D) : Bool := !(q ==. lit (-1)) && !(q ==. lit 0) && (q ==. lit 1)

theorem storeFinals_inv {tid : Nat} : ∀ {ps : List (Particle D)} {rs rs' : Results D},
    storeFinals tid ps rs = .ok rs' → rs' = { rs with
      electrons := addTo rs.electrons tid (rowsWith isEl ps)
      photons := addTo rs.photons tid (rowsWith isPh ps)
      positrons := addTo rs.positrons tid (rowsWith isPo ps) }
  | [], rs, rs', h => by cases h; simp [rowsWith, addTo_nil]
  | p :: ps, rs, rs', h => by
    simp only [storeFinals] at h
    obtain ⟨rs1, h1, h2⟩ := bind_eq_ok.1 h
    rw [storeFinals_inv h2]
    unfold storeFinal at h1
    simp only [rowsWith, List.filter_cons]
    split at h1
    · next c1 =>
      obtain ⟨v, h3, h4⟩ := bind_eq_ok.1 h1
      obtain ⟨_, rfl⟩ := pushRow_inv h3
      cases h4
      simp [isEl, isPh, isPo, c1, addTo_addTo]
    · next c1 =>
      split at h1
      · next c2 =>
        obtain ⟨v, h3, h4⟩ := bind_eq_ok.1 h1
        obtain ⟨_, rfl⟩ := pushRow_inv h3
        cases h4
        simp [isEl, isPh, isPo, c1, c2, addTo_addTo]
      · next c2 =>
        split at h1
        · next c3 =>
          obtain ⟨v, h3, h4⟩ := bind_eq_ok.1 h1
          obtain ⟨_, rfl⟩ := pushRow_inv h3
          cases h4
          simp [isEl, isPh, isPo, c1, c2, c3, addTo_addTo]
        · next c3 =>
          cases h1
          simp [isEl, isPh, isPo, c1, c2, c3]

theorem storeFinals_ok {tid : Nat} : ∀ (ps : List (Particle D)) (rs : Results D),
    tid < rs.electrons.length → tid < rs.photons.length → tid < rs.positrons.length →
    ∃ rs', storeFinals tid ps rs = .ok rs'
  | [], rs, _, _, _ => ⟨rs, rfl⟩
  | p :: ps, rs, h1, h2, h3 => by
    simp only [storeFinals]
    unfold storeFinal
    split
    · rw [pushRow_ok h1, Res.ok_bind, Res.ok_bind]
      exact storeFinals_ok ps _ (by simpa using h1) h2 h3
    · split
      · rw [pushRow_ok h2, Res.ok_bind, Res.ok_bind]
        exact storeFinals_ok ps _ h1 (by simpa using h2) h3
      · split
        · rw [pushRow_ok h3, Res.ok_bind, Res.ok_bind]
          exact storeFinals_ok ps _ h1 h2 (by simpa using h3)
        · rw [Res.ok_bind]
          exact storeFinals_ok ps _ h1 h2 h3

/-! ### Events -/

/-- Rows of successive events from number `i` on, each appended to the vector of its thread. -/
def addAll (tid : Nat → Nat) : Nat → List (List D) → List (List D) → List (List D)
  | _, v, [] => v
  | i, v, r :: rs => addAll tid (i + 1) (addTo v (tid i) r) rs

/-- The results after the events `ls` from number `i` on. -/
def after (tid : Nat → Nat) (i : Nat) (rs : Results D) (ls : List (PList D × PList D)) : Results D :=
  { input := addAll tid i rs.input (ls.map fun l => l.1.items.flatMap inputRow)
    electrons := addAll tid i rs.electrons (ls.map fun l => rowsWith isEl l.2.items)
    positrons := addAll tid i rs.positrons (ls.map fun l => rowsWith isPo l.2.items)
    photons := addAll tid i rs.photons (ls.map fun l => rowsWith isPh l.2.items) }

/-- What a complete event loop did. -/
theorem events_spec {cfg : SimCfg D} {tid : Nat → Nat} {i : Nat} {s : Source D} {rs : Results D}
    {r : Rng D} {o : Res (List (PList D × PList D) × Results D × Rng D)}
    (h : Events cfg tid i s rs r o) : ∀ ls rs' r', o = .ok (ls, rs', r') →
      rs' = after tid i rs ls ∧ ls.length = s.nPart - i ∧
      ∀ l ∈ ls, ∃ s' ρ ρ' s'' n es, ({ s with partCount := s'} : Source D).generateList ρ =
        .ok (l.1, s'', ρ') ∧ Run cfg (.init l.1 ρ' []) n (.ok es) ∧ es.list = l.2 := by
  induction h with
  | done hi =>
    intro ls rs' r' ho
    cases ho
    exact ⟨rfl, by simp; omega, by simp⟩
  | @event i s rs r l s' r' rs1 n es rs2 ls rs3 r3 hi hg hin hrun hfin _ ih =>
    intro ls' rs' r'' ho
    cases ho
    obtain ⟨h1, h2, h3⟩ := ih ls rs3 r3 rfl
    have hs : ∃ k, s' = { s with partCount := k } := by
      unfold Source.generateList at hg
      split at hg
      · cases hg
      · obtain ⟨_, _, hg⟩ := bind_eq_ok.1 hg
        obtain ⟨_, _, hg⟩ := bind_eq_ok.1 hg
        obtain ⟨_, _, hg⟩ := bind_eq_ok.1 hg
        obtain ⟨_, _, hg⟩ := bind_eq_ok.1 hg
        obtain ⟨_, _, hg⟩ := bind_eq_ok.1 hg
        obtain ⟨_, _, hg⟩ := bind_eq_ok.1 hg
        obtain ⟨_, _, hg⟩ := bind_eq_ok.1 hg
        cases hg
        exact ⟨_, rfl⟩
    obtain ⟨k, rfl⟩ := hs
    refine ⟨?_, ?_, ?_⟩
    · rw [h1, storeFinals_inv hfin, storeInput_inv hin]
      rfl
    · rw [List.length_cons, h2]
      show s.nPart - (i + 1) + 1 = s.nPart - i
      omega
    · intro x hx
      rcases List.mem_cons.1 hx with rfl | hx
      · exact ⟨s.partCount, r, r', _, n, es, hg, hrun, rfl⟩
      · obtain ⟨a, b, c, d, e, f, h4, h5⟩ := h3 x hx
        exact ⟨a, b, c, d, e, f, h4, h5⟩
  | later _ _ _ _ _ _ hne _ => intro ls rs' r' ho; exact absurd ho (hne _)
  | source => intro ls rs' r' ho; cases ho
  | sourceUb => intro ls rs' r' ho; cases ho
  | inputUb => intro ls rs' r' ho; cases ho
  | runUb => intro ls rs' r' ho; cases ho
  | runExit => intro ls rs' r' ho; cases ho
  | finalUb => intro ls rs' r' ho; cases ho

/-- With no time step to take, every event loop over a full source comes to its end. -/
theorem events_no_steps {cfg : SimCfg D} {tid : Nat → Nat} (h0 : (lit 0 <. cfg.timeEnd) = false)
    (hl : SaneLits D) (k : Kind) : ∀ (m : Nat) (s : Source D) (rs : Results D) (r : Rng D),
    speciesOf s.type = some k → s.Full → s.nPart - s.partCount = m → s.partCount ≤ s.nPart →
    (∀ i, tid i < rs.input.length ∧ tid i < rs.electrons.length ∧ tid i < rs.photons.length ∧
      tid i < rs.positrons.length) →
    ∃ x, Events cfg tid s.partCount s rs r (.ok x)
  | 0, s, rs, r, _, _, h1, h2, _ => ⟨_, .done (by omega)⟩
  | m + 1, s, rs, r, hk, hf, h1, h2, ht => by
    obtain ⟨l, r', hg, _⟩ := generateList_step hl s k hk hf (by omega) r
    obtain ⟨rs1, hin⟩ := storeInput_ok l.items rs (ht s.partCount).1
    have e1 := storeInput_inv hin
    obtain ⟨rs2, hfin⟩ := storeFinals_ok (tid := tid s.partCount) l.items rs1
      (by rw [e1]; exact (ht _).2.1) (by rw [e1]; exact (ht _).2.2.1) (by rw [e1]; exact (ht _).2.2.2)
    have e2 := storeFinals_inv hfin
    obtain ⟨⟨ls, rs3, r3⟩, he⟩ := events_no_steps h0 hl k m { s with partCount := s.partCount + 1 } rs2 r'
      hk ⟨hf.x, hf.y, hf.z, hf.theta, hf.phi, hf.energy⟩ (by dsimp only; omega) (by dsimp only; omega)
      (by intro i; rw [e2, e1]; simpa using ht i)
    exact ⟨_, .event (by omega) hg hin
      (n := 0) (es := .init l r' []) (.done h0) hfin he⟩

/-! ### Rows by thread -/

/-- The values that the events run by thread `t` leave, in order of the events. -/
def ofThread (tid : Nat → Nat) (t : Nat) : Nat → List (List D) → List D
  | _, [] => []
  | i, r :: rs => (if tid i = t then r else []) ++ ofThread tid t (i + 1) rs

theorem addAll_eq (tid : Nat → Nat) : ∀ (rs : List (List D)) (i : Nat) (v : List (List D)),
    addAll tid i v rs = v.mapIdx fun t old => old ++ ofThread tid t i rs
  | [], i, v => by
    simp only [addAll, ofThread, List.append_nil]
    apply List.ext_getElem? 
    intro j
    simp
  | r :: rs, i, v => by
    rw [addAll, addAll_eq tid rs]
    apply List.ext_getElem?
    intro j
    simp only [List.getElem?_mapIdx, addTo, List.getElem?_modify, ofThread]
    split <;> cases v[j]? <;> simp

theorem addAll_replicate (tid : Nat → Nat) (rs : List (List D)) (n : Nat) :
    addAll tid 0 (List.replicate n []) rs = (List.range n).map fun t => ofThread tid t 0 rs := by
  rw [addAll_eq]
  apply List.ext_getElem?
  intro j
  simp only [List.getElem?_mapIdx, List.getElem?_replicate, List.getElem?_map]
  by_cases h : j < n <;> simp [h]

/-- Every event lands in exactly one thread. -/
theorem ofThread_perm {α : Type} (f : List α → List D) (hf0 : f [] = [])
    (hfa : ∀ a b, f (a ++ b) = f a ++ f b) (tid : Nat → Nat) (n : Nat) :
    ∀ (rs : List (List α)) (i : Nat), (∀ j < rs.length, tid (i + j) < n) →
    ∃ parts : List (List α), parts.length = n ∧
      (List.range n).map (fun t => ofThread tid t i (rs.map f)) = parts.map f ∧
      parts.flatten.Perm rs.flatten
  | [], i, _ => ⟨List.replicate n [], by simp, by
      apply List.ext_getElem?; intro j
      by_cases h : j < n <;> simp [ofThread, h, hf0], by simp⟩
  | r :: rs, i, h => by
    obtain ⟨parts, h1, h2, h3⟩ := ofThread_perm f hf0 hfa tid n rs (i + 1) (fun j hj => by
      have := h (j + 1) (by simpa using hj)
      rwa [show i + (j + 1) = i + 1 + j by omega] at this)
    have hi : tid i < n := h 0 (by simp)
    have hil : tid i < parts.length := by omega
    refine ⟨parts.modify (tid i) (r ++ ·), by simpa using h1, ?_, ?_⟩
    · apply List.ext_getElem?
      intro j
      have hj := congrArg (·[j]?) h2
      simp only [List.getElem?_map, List.getElem?_modify] at hj ⊢
      by_cases hjn : j < n
      · rw [List.getElem?_range hjn] at hj ⊢
        rw [List.getElem?_eq_getElem (by omega)] at hj ⊢
        simp only [Option.map_some, Option.some.injEq, List.map_cons, ofThread] at hj ⊢
        rw [hj]
        split <;> simp [hfa]
      · rw [List.getElem?_eq_none (by simpa using hjn), List.getElem?_eq_none (by omega)]
        rfl
    · rw [List.flatten_cons]
      refine List.Perm.trans ?_ (List.Perm.append_left r h3)
      clear h1 h2 h3 hi
      generalize tid i = t at *
      induction parts generalizing t with
      | nil => simp at hil
      | cons p ps ih =>
        cases t with
        | zero => simp [List.append_assoc]
        | succ t =>
          simp only [List.modify_succ_cons, List.flatten_cons]
          refine (List.Perm.append_left p (ih t (by simpa using hil))).trans ?_
          rw [← List.append_assoc, ← List.append_assoc]
          exact List.Perm.append_right _ List.perm_append_comm

end RunMgr
end QED
