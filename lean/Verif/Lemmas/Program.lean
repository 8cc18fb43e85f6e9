import Verif.Model.Program
import Verif.Props.Tables
import Verif.Props.Source
import Verif.Props.Event
import Verif.Props.Output
import Verif.Props.Main

set_option linter.unusedSectionVars false
set_option autoImplicit false

/-!
# Lemmas on the whole program
-/

namespace QED

open Dbl MCTools Numerics OutMgr

/-! ## Outcomes with fuel -/

namespace Timed

/-- Whatever the outcome, it is not undefined behaviour, and a normal result satisfies `P`. -/
def Good {α : Type} (x : Timed α) (P : α → Prop) : Prop :=
  ∀ o : Res α, x = some o → o.NoUB ∧ ∀ a, o = .ok a → P a

theorem Good.pure {α : Type} {a : α} {P : α → Prop} (h : P a) : Good (Pure.pure a : Timed α) P := by
  intro o ho
  obtain rfl := Option.some.inj ho
  exact ⟨trivial, fun b hb => Res.ok.inj hb ▸ h⟩

theorem Good.lift {α : Type} {x : Res α} {P : α → Prop} (h : x.NoUB) (hp : ∀ a, x = .ok a → P a) :
    Good (Timed.lift x) P := by
  intro o ho
  obtain rfl := Option.some.inj ho
  exact ⟨h, hp⟩

theorem Good.bind {α β : Type} {x : Timed α} {f : α → Timed β} {P : α → Prop} {Q : β → Prop}
    (hx : Good x P) (hf : ∀ a, P a → Good (f a) Q) : Good (x >>= f) Q := by
  intro o ho
  change Timed.bind x f = some o at ho
  match x, hx with
  | none, _ => cases ho
  | some (.ok a), hx => exact hf a ((hx _ rfl).2 a rfl) o ho
  | some (.exit c), _ =>
    obtain rfl := Option.some.inj ho; exact ⟨trivial, fun a h => by cases h⟩
  | some (.throw c), _ =>
    obtain rfl := Option.some.inj ho; exact ⟨trivial, fun a h => by cases h⟩
  | some (.ub c), hx => exact ((hx _ rfl).1).elim

theorem Good.mono {α : Type} {x : Timed α} {P Q : α → Prop} (h : Good x P) (hpq : ∀ a, P a → Q a) :
    Good x Q := fun o ho => ⟨(h o ho).1, fun a ha => hpq a ((h o ho).2 a ha)⟩

@[simp] theorem ok_bind {α β : Type} (a : α) (f : α → Timed β) :
    ((Timed.lift (.ok a) : Timed α) >>= f) = f a := rfl
@[simp] theorem pure_bind' {α β : Type} (a : α) (f : α → Timed β) :
    ((Pure.pure a : Timed α) >>= f) = f a := rfl
@[simp] theorem exit_bind {α β : Type} (c : Int) (f : α → Timed β) :
    ((Timed.lift (.exit c) : Timed α) >>= f) = some (.exit c) := rfl
@[simp] theorem throw_bind {α β : Type} (c : String) (f : α → Timed β) :
    ((Timed.lift (.throw c) : Timed α) >>= f) = some (.throw c) := rfl
@[simp] theorem ub_bind {α β : Type} (c : String) (f : α → Timed β) :
    ((Timed.lift (.ub c) : Timed α) >>= f) = some (.ub c) := rfl

/-- A normal result of two steps in a row. -/
theorem bind_eq {α β : Type} {x : Timed α} {f : α → Timed β} {b : β} :
    (x >>= f) = some (.ok b) ↔ ∃ a, x = some (.ok a) ∧ f a = some (.ok b) := by
  change Timed.bind x f = some (.ok b) ↔ _
  match x with
  | none => exact ⟨fun h => (by cases h), fun ⟨a, h, _⟩ => by cases h⟩
  | some (.ok a) =>
    exact ⟨fun h => ⟨a, rfl, h⟩, fun ⟨a', h, h'⟩ => by
      obtain rfl := Res.ok.inj (Option.some.inj h); exact h'⟩
  | some (.exit c) => exact ⟨fun h => (by cases h), fun ⟨a, h, _⟩ => by cases h⟩
  | some (.throw c) => exact ⟨fun h => (by cases h), fun ⟨a, h, _⟩ => by cases h⟩
  | some (.ub c) => exact ⟨fun h => (by cases h), fun ⟨a, h, _⟩ => by cases h⟩

theorem lift_eq {α : Type} {x : Res α} {a : α} :
    (Timed.lift x : Timed α) = some (.ok a) ↔ x = .ok a := by
  constructor
  · intro h; exact Option.some.inj h
  · intro h; rw [h]; rfl

/-- With enough fuel there is an outcome: `x n` has one for every `n ≥ n0`, always the same. -/
def Ends {α : Type} (x : Nat → Timed α) : Prop := ∃ n0 o, ∀ n, n0 ≤ n → x n = some o

theorem Ends.lift {α : Type} (x : Res α) : Ends fun _ => Timed.lift x := ⟨0, x, fun _ _ => rfl⟩

theorem Ends.pure {α : Type} (a : α) : Ends fun _ => (Pure.pure a : Timed α) :=
  ⟨0, .ok a, fun _ _ => rfl⟩

theorem Ends.bind {α β : Type} {x : Nat → Timed α} {f : Nat → α → Timed β} (hx : Ends x)
    (hf : ∀ a, Ends fun n => f n a) : Ends fun n => x n >>= f n := by
  obtain ⟨n0, o, h⟩ := hx
  cases o with
  | ok a =>
    obtain ⟨n1, o, h'⟩ := hf a
    refine ⟨max n0 n1, o, fun n hn => ?_⟩
    dsimp only
    rw [h n (by omega)]
    exact h' n (by omega)
  | exit c => exact ⟨n0, .exit c, fun n hn => by dsimp only; rw [h n hn]; rfl⟩
  | throw c => exact ⟨n0, .throw c, fun n hn => by dsimp only; rw [h n hn]; rfl⟩
  | ub c => exact ⟨n0, .ub c, fun n hn => by dsimp only; rw [h n hn]; rfl⟩

end Timed

variable {D : Type} [Dbl D]

theorem timeLoop_mono (cfg : SimCfg D) (s : EvState D) (o : Res (EvState D)) (n m : Nat) (hnm : n ≤ m)
    (h : timeLoop cfg n s = some o) : timeLoop cfg m s = some o := by
  induction n generalizing s m with
  | zero =>
    simp only [timeLoop] at h
    split at h
    · cases h
    · next h' =>
      cases m with
      | zero => simp only [timeLoop, h']; exact h
      | succ m => simp only [timeLoop, h']; exact h
  | succ n ih =>
    obtain ⟨m, rfl⟩ : ∃ m', m = m' + 1 := ⟨m - 1, by omega⟩
    simp only [timeLoop] at h ⊢
    split at h
    · next h' =>
      rw [if_pos h']
      split at h
      · next s' hs => exact ih s' m (by omega) h
      all_goals exact h
    · next h' => rw [if_neg h']; exact h

/-! ## Histograms -/

/-- Both arrays have `nBins` entries. -/
structure Hist.Shaped (h : Hist D) : Prop where
  centres : h.centres.length = h.nBins
  values : h.values.length = h.nBins
  small : h.nBins < 2 ^ 32

theorem usub_one {n : Nat} (h0 : 0 < n) (h : n < 2 ^ 32) : usub n 1 = n - 1 := by
  unfold usub; omega

theorem arrayIndex_total (s : List D) (q : D) (h0 : 0 < s.length) (h : s.length < 2 ^ 32) :
    ∃ i, arrayIndex s q = .ok i ∧ i < s.length := by
  unfold arrayIndex
  dsimp only
  rw [usub_one h0 h]
  split
  · next hlt =>
    rw [rd_ok (by omega), Res.ok_bind, rd_ok (by omega), Res.ok_bind]
    split
    · exact ⟨_, rfl, by omega⟩
    · exact ⟨_, rfl, by omega⟩
  · exact ⟨_, rfl, by omega⟩

theorem Hist.count_total {h : Hist D} (hs : h.Shaped) (h0 : 0 < h.nBins) (x : D) :
    ∃ h', h.count x = .ok h' ∧ h'.Shaped := by
  unfold Hist.count
  dsimp only
  have hc := hs.centres
  rw [usub_one h0 hs.small, rd_ok (by omega), Res.ok_bind, rd_ok (by omega), Res.ok_bind]
  split
  · obtain ⟨i, hi, hlt⟩ := arrayIndex_total h.centres x (by omega) (by rw [hc]; exact hs.small)
    rw [hi, Res.ok_bind, rd_ok (by rw [hs.values]; omega), Res.ok_bind]
    exact ⟨_, rfl, hs.centres, by simpa using hs.values, hs.small⟩
  · exact ⟨_, rfl, hs.centres, hs.values, hs.small⟩

/-- A shaped histogram, or the end of the program. -/
def Hist.OkOrEnd (x : Res (Hist D)) : Prop := x = .exit 1 ∨ ∃ h, x = .ok h ∧ h.Shaped

theorem fillHist_total (ps : List (Particle D)) (h : Hist D) (hs : h.Shaped) :
    Hist.OkOrEnd (fillHist h ps) := by
  induction ps generalizing h with
  | nil => exact Or.inr ⟨h, rfl, hs⟩
  | cons p ps ih =>
    unfold fillHist
    split
    · unfold Hist.appParticle
      split
      · exact Or.inl rfl
      · obtain ⟨h', hh, hs'⟩ := Hist.count_total hs (by omega) p.energy
        rw [hh, Res.ok_bind]
        exact ih h' hs'
    · rw [Res.ok_bind]; exact ih h hs

/-- All histograms have their shape; there are `n` of them. -/
structure Shaped (n : Nat) (hs : List (Hist D)) : Prop where
  all : ∀ h ∈ hs, h.Shaped
  length : hs.length = n

theorem histStep_total {n : Nat} {s : EvState D} (hs : Shaped n s.hists) :
    (histStep s).NoUB ∧ ∀ s', histStep s = .ok s' → Shaped n s'.hists := by
  unfold histStep
  split
  · exact ⟨trivial, fun s' h => by cases h; exact hs⟩
  · next h hh =>
    split
    · rcases fillHist_total s.list.items h (hs.all h (List.mem_of_getElem? hh)) with he | ⟨h', he, hs'⟩
      · rw [he]; exact ⟨trivial, fun s' h => by cases h⟩
      · rw [he, Res.ok_bind]
        refine ⟨trivial, fun s' h => ?_⟩
        cases h
        refine ⟨fun g hg => ?_, by simpa using hs.length⟩
        rcases List.mem_or_eq_of_mem_set hg with hg | rfl
        · exact hs.all g hg
        · exact hs'
    · exact ⟨trivial, fun s' h => by cases h; exact hs⟩

theorem fillRest_total (l : PList D) (c n : Nat) (hists : List (Hist D)) (hs : Shaped n hists) :
    (fillRest l c hists).NoUB ∧ ∀ hs', fillRest l c hists = .ok hs' → Shaped n hs' := by
  induction hists generalizing c n with
  | nil =>
    cases c <;> (unfold fillRest; exact ⟨trivial, fun s' h => by cases h; exact hs⟩)
  | cons h hists ih =>
    obtain ⟨hall, hlen⟩ := hs
    simp only [List.length_cons] at hlen
    have ht : ∀ c, (fillRest l c hists).NoUB ∧ ∀ hs', fillRest l c hists = .ok hs' →
        Shaped (n - 1) hs' := fun c =>
      ih c (n - 1) ⟨fun g hg => hall g (List.mem_cons_of_mem _ hg), by omega⟩
    have hcons : ∀ c (h : Hist D), h.Shaped →
        (fillRest l c hists >>= fun hs' => .ok (h :: hs')).NoUB ∧
        ∀ hs', (fillRest l c hists >>= fun hs' => (.ok (h :: hs') : Res _)) = .ok hs' →
          Shaped n hs' := by
      intro c h hh
      refine ⟨(ht c).1.bind fun _ _ => trivial, fun hs' he => ?_⟩
      obtain ⟨a, h1, h2⟩ := Res.bind_eq_ok.mp he
      cases h2
      obtain ⟨ha, hl⟩ := (ht c).2 a h1
      exact ⟨fun g hg => (List.mem_cons.mp hg).elim (fun e => e ▸ hh) (ha g),
        by simp only [List.length_cons]; omega⟩
    cases c with
    | succ c => unfold fillRest; exact hcons c h (hall h List.mem_cons_self)
    | zero =>
      unfold fillRest
      rcases fillHist_total l.items h (hall h List.mem_cons_self) with he | ⟨h', he, hs'⟩
      · rw [he]; exact ⟨trivial, fun s' h => by cases h⟩
      · rw [he]; exact hcons 0 h' hs'

/-! ## One event -/

theorem OkOrExit.noUB {α : Type} {x : Res α} (h : OkOrExit x) : x.NoUB := by
  rcases h with ⟨a, rfl⟩ | rfl <;> trivial

theorem OkOrOne.noUB {α : Type} {x : Res α} (h : OkOrOne x) : x.NoUB := by
  rcases h with ⟨a, rfl⟩ | rfl <;> trivial

theorem run_total (cfg : SimCfg D) (hg : ∀ proc ∈ cfg.procs, proc.GoodTables) (N : Nat)
    (s : EvState D) (hs : Shaped N s.hists) (n : Nat) (o : Res (EvState D)) (h : Run cfg s n o) :
    o.NoUB ∧ ∀ s', o = .ok s' → Shaped N s'.hists := by
  have hstep : ∀ (s : EvState D), Shaped N s.hists →
      (timeStep cfg s).NoUB ∧ ∀ s', timeStep cfg s = .ok s' → Shaped N s'.hists := by
    intro s hs
    unfold timeStep
    refine ⟨(histStep_total hs).1.bind fun s1 _ =>
      (advance_okOrExit cfg hg _ _).noUB.bind fun _ _ => trivial, fun s' h => ?_⟩
    obtain ⟨s1, h1, h⟩ := Res.bind_eq_ok.mp h
    obtain ⟨⟨l, r⟩, h2, h⟩ := Res.bind_eq_ok.mp h
    obtain rfl := Res.ok.inj h
    exact (histStep_total hs).2 s1 h1
  induction h with
  | done _ => exact ⟨trivial, fun s' h => Res.ok.inj h ▸ hs⟩
  | step _ h2 _ ih => exact ih ((hstep _ hs).2 _ h2)
  | abort _ h2 h3 =>
    rw [← h2]; exact ⟨(hstep _ hs).1, fun s' h => absurd (h2.symm.trans h) (h3 s')⟩

/-- A call of a source that is not depleted. -/
theorem generateList_total (s : Source D) (hf : s.Full) (hc : s.partCount < s.nPart) (r : Rng D) :
    s.generateList r = .exit (-1) ∨ ∃ p l r', s.generateList r =
      .ok (l, { s with partCount := s.partCount + 1 }, r') ∧ l.items = [p] ∧
      l.maxParticles = PList.defaultMax := by
  have hx : s.partCount < s.xPos.length := by rw [hf.x]; exact hc
  have hy : s.partCount < s.yPos.length := by rw [hf.y]; exact hc
  have hz : s.partCount < s.zPos.length := by rw [hf.z]; exact hc
  have ht : s.partCount < s.thetaDir.length := by rw [hf.theta]; exact hc
  have hp : s.partCount < s.phiDir.length := by rw [hf.phi]; exact hc
  have he : s.partCount < s.energy.length := by rw [hf.energy]; exact hc
  unfold Source.generateList
  rw [if_neg (by omega)]
  dsimp only
  rw [rd_ok hx, Res.ok_bind, rd_ok hy, Res.ok_bind, rd_ok hz, Res.ok_bind, rd_ok ht, Res.ok_bind,
    rd_ok hp, Res.ok_bind, rd_ok he, Res.ok_bind]
  unfold Source.mkParticle
  split
  · exact Or.inr ⟨_, _, _, rfl, rfl, rfl⟩
  · split
    · exact Or.inr ⟨_, _, _, rfl, rfl, rfl⟩
    · split
      · exact Or.inr ⟨_, _, _, rfl, rfl, rfl⟩
      · exact Or.inl rfl

end QED
