import Verif.Model.Geant
import Verif.Spec.Geant
import Verif.Lemmas.Loop
import Verif.Props.Source

set_option autoImplicit false
set_option linter.unusedSectionVars false

/-! # Facts about the Geant4 generator and its events -/

namespace QED
namespace G4

open Dbl MCTools

variable {D : Type} [Dbl D]

theorem generateList_shape {s s' : Source D} {r r' : Rng D} {l : PList D}
    (h : s.generateList r = .ok (l, s', r')) :
    s' = { s with partCount := s.partCount + 1 } ∧ l.items.length = 1 ∧
      l.maxParticles = PList.defaultMax := by
  unfold Source.generateList at h
  split at h
  · cases h
  · obtain ⟨_, _, h⟩ := Res.bind_eq_ok.1 h
    obtain ⟨_, _, h⟩ := Res.bind_eq_ok.1 h
    obtain ⟨_, _, h⟩ := Res.bind_eq_ok.1 h
    obtain ⟨_, _, h⟩ := Res.bind_eq_ok.1 h
    obtain ⟨_, _, h⟩ := Res.bind_eq_ok.1 h
    obtain ⟨_, _, h⟩ := Res.bind_eq_ok.1 h
    obtain ⟨p, hp, h⟩ := Res.bind_eq_ok.1 h
    cases h
    exact ⟨rfl, by simp [PList.add, PList.new, PList.defaultMax], by simp [PList.new]⟩

theorem event_size {cfg : SimCfg D} {s s' : Source D} {r r' : Rng D} {l : PList D} {n : Nat}
    {e : EvState D} (h : s.generateList r = .ok (l, s', r')) (hr : Run cfg (.init l r' []) n (.ok e)) :
    1 ≤ e.list.items.length ∧ e.list.items.length ≤ 1000000 := by
  obtain ⟨-, h1, h2⟩ := generateList_shape h
  have hg := reach_grows hr.reach
  have hl := hg.length
  have hc := hg.cap (by simp [EvState.init, h1, h2, PList.defaultMax])
  simp only [EvState.init, h2, PList.defaultMax] at hl hc
  exact ⟨by omega, by omega⟩

theorem lastIndex_eq {n : Nat} (h1 : 1 ≤ n) (h2 : n ≤ 1000000) : lastIndex n = (n : Int) - 1 := by
  unfold lastIndex Mpi.i32 RunMgr.u32
  rw [Int.bmod_def]
  split <;> omega

theorem u32_nat {n : Nat} (h : n < 2 ^ 32) : RunMgr.u32 (n : Int) = n := by
  unfold RunMgr.u32; omega

/-- What a cascade leaves behind. -/
theorem cascade_source {cfg : SimCfg D} {s s' : Source D} {r r' : Rng D} {es : List (PList D)}
    (h : Cascade cfg s r es s' r') : s' = { s with partCount := s.partCount + es.length } := by
  induction h with
  | nil => rfl
  | snoc _ hg _ ih =>
    rw [(generateList_shape hg).1, ih]
    simp [Nat.add_assoc]

/-- The state of a generator that has simulated `es` and fired `fired` of their particles, with `m`
particles of the last event still to come and `a` aborts. -/
structure Inv (cfg : SimCfg D) (s : Source D) (r : Rng D) (out : List (Option (Shot D))) (g : Gen D)
    (es : List (PList D)) (fired : List (Particle D)) (m a : Nat) : Prop where
  cascade : Cascade cfg s r es g.source g.rng
  sim : g.sim = cfg
  count : g.currentEvent = es.length
  le : es.length ≤ s.nPart
  secondary : g.currentSecondary = (m : Int) - 1
  last : (es = [] ∧ m = 0 ∧ fired = []) ∨ ∃ es' l, es = es' ++ [l] ∧ g.event = some l ∧
    1 ≤ l.items.length ∧ l.items.length ≤ 1000000 ∧
    m ≤ l.items.length ∧ newestFirst es = fired ++ (l.items.take m).reverse
  out : out = fired.map (some ∘ shotOf) ++ List.replicate a none
  aborted : 0 < a → m = 0 ∧ es.length = s.nPart

theorem Inv.start (cfg : SimCfg D) (s : Source D) (r : Rng D) :
    Inv cfg s r [] (Gen.new cfg s r) [] [] 0 0 where
  cascade := .nil
  sim := rfl
  count := rfl
  le := Nat.zero_le _
  secondary := rfl
  last := .inl ⟨rfl, rfl, rfl⟩
  out := rfl
  aborted := fun h => absurd h (lt_irrefl 0)

/-- Firing from a state with particles left. -/
theorem fire_eq {g : Gen D} {l : PList D} {m : Nat} (he : g.event = some l)
    (hc : g.currentSecondary = (m : Int)) (hm : m < l.items.length) (hl : l.items.length ≤ 1000000) :
    fire g = .ok (some (shotOf l.items[m]), { g with currentSecondary := (m : Int) - 1 }) := by
  unfold fire
  rw [he, hc, u32_nat (by omega)]
  dsimp only
  rw [PList.get_eq_ok.mpr (List.getElem?_eq_getElem hm), Res.ok_bind]

theorem Inv.fire {cfg : SimCfg D} {s : Source D} {r : Rng D} {out : List (Option (Shot D))} {g : Gen D}
    {es : List (PList D)} {fired : List (Particle D)} {m a : Nat}
    (h : Inv cfg s r out g es fired (m + 1) a) :
    ∃ p, G4.fire g = .ok (some (shotOf p), { g with currentSecondary := (m : Int) - 1 }) ∧
      Inv cfg s r (out ++ [some (shotOf p)]) { g with currentSecondary := (m : Int) - 1 } es
        (fired ++ [p]) m a := by
  rcases h.last with ⟨_, h0, _⟩ | ⟨es', l, hes, hev, h1, h2, hm, hf⟩
  · cases h0
  · have ha : a = 0 := by
      by_contra hne
      exact absurd (h.aborted (by omega)).1 (by omega)
    subst ha
    have hlt : m < l.items.length := hm
    refine ⟨l.items[m], fire_eq hev (by rw [h.secondary]; omega) hlt h2, ?_⟩
    refine ⟨h.cascade, h.sim, h.count, h.le, rfl, .inr ⟨es', l, hes, hev, h1, h2, by omega, ?_⟩, ?_,
      fun h => absurd h (lt_irrefl 0)⟩
    · rw [hf, List.take_succ_eq_append_getElem hlt, List.reverse_append]
      simp
    · rw [h.out]; simp

theorem Inv.event {cfg : SimCfg D} {s : Source D} {r : Rng D} {out : List (Option (Shot D))} {g : Gen D}
    {es : List (PList D)} {fired : List (Particle D)} {a : Nat} (h : Inv cfg s r out g es fired 0 a)
    (hn : s.nPart < 2 ^ 32) (hne : g.currentEvent ≠ s.nPart) {l : PList D} {s' : Source D} {r' : Rng D}
    {n : Nat} {e : EvState D} (hg : g.source.generateList g.rng = .ok (l, s', r'))
    (hr : Run g.sim (.init l r' []) n (.ok e)) :
    ∃ m, Inv cfg s r out (g.withEvent s' e) (es ++ [e.list]) fired (m + 1) a := by
  have hsz := event_size hg hr
  have hle := h.le
  rw [h.count] at hne
  have ha : a = 0 := by
    by_contra hne'
    exact hne (h.aborted (by omega)).2
  subst ha
  have hfired : newestFirst es = fired := by
    rcases h.last with ⟨h1, _, h2⟩ | ⟨_, _, _, _, _, _, _, hf⟩
    · subst h1 h2; rfl
    · simpa using hf
  refine ⟨e.list.items.length - 1, ?_⟩
  have hm : e.list.items.length - 1 + 1 = e.list.items.length := by omega
  rw [hm]
  rw [h.sim] at hr
  have hsec : (g.withEvent s' e).currentSecondary = (e.list.items.length : Int) - 1 := by
    have h1 : (g.withEvent s' e).currentSecondary = lastIndex e.list.items.length := by
      simp only [Gen.withEvent, PList.nPart]
    rw [h1, lastIndex_eq hsz.1 hsz.2]
  refine ⟨.snoc h.cascade hg hr, h.sim, ?_, by simp; omega, hsec,
    .inr ⟨es, e.list, rfl, rfl, hsz.1, hsz.2, le_refl _, ?_⟩, h.out, fun h => absurd h (lt_irrefl 0)⟩
  · show RunMgr.u32 ((g.currentEvent : Int) + 1) = _
    rw [h.count]
    rw [show ((es.length : Int) + 1) = ((es.length + 1 : Nat) : Int) by push_cast; rfl, u32_nat (by omega)]
    simp
  · rw [List.take_length]
    unfold newestFirst at hfired ⊢
    rw [List.flatMap_append, hfired]
    simp

/-- One successful call. -/
theorem Inv.call {cfg : SimCfg D} {s : Source D} {r : Rng D} {out : List (Option (Shot D))} {g g' : Gen D}
    {es : List (PList D)} {fired : List (Particle D)} {m a : Nat} {x : Option (Shot D)}
    (h : Inv cfg s r out g es fired m a) (hn : s.nPart < 2 ^ 32) (hc : Generate g (.ok (x, g'))) :
    ∃ es fired m a, Inv cfg s r (out ++ [x]) g' es fired m a := by
  have hnp : g.source.nPart = s.nPart := by rw [cascade_source h.cascade]
  generalize ho : (Res.ok (x, g') : Res (Option (Shot D) × Gen D)) = o at hc
  cases hc with
  | abort h1 h2 =>
    cases ho
    have hm : m = 0 := by have := h.secondary; omega
    subst hm
    exact ⟨es, fired, 0, a + 1, h.cascade, h.sim, h.count, h.le, h.secondary, h.last,
      by rw [h.out, List.replicate_succ', List.append_assoc],
      fun _ => ⟨rfl, by rw [← h.count, h1, hnp]⟩⟩
  | next h1 =>
    cases m with
    | zero => exact absurd h.secondary h1
    | succ m =>
      obtain ⟨p, hf, hi⟩ := h.fire
      rw [hf] at ho
      cases ho
      exact ⟨_, _, _, _, hi⟩
  | simulate h1 h2 h3 =>
    have hm : m = 0 := by have := h.secondary; omega
    subst hm
    rw [hnp] at h1
    cases h3 with
    | stale => cases ho
    | @source o _ _ hno =>
      cases o with
      | ok y => exact absurd rfl (hno y)
      | exit c => cases ho
      | throw w => cases ho
      | ub w => cases ho
    | @loop l s' r' n o _ hg hr =>
      cases o with
      | exit c => cases ho
      | throw w => cases ho
      | ub w => cases ho
      | ok e =>
        obtain ⟨m, hi⟩ := h.event hn h1 hg hr
        obtain ⟨p, hf, hi⟩ := hi.fire
        rw [Res.ok_bind, Res.ok_bind, hf] at ho
        cases ho
        exact ⟨_, _, _, _, hi⟩

theorem Calls.inv {cfg : SimCfg D} {s : Source D} {r : Rng D} {out : List (Option (Shot D))} {g : Gen D}
    (hn : s.nPart < 2 ^ 32) (h : Calls (Gen.new cfg s r) out g) :
    ∃ es fired m a, Inv cfg s r out g es fired m a := by
  generalize hg0 : Gen.new cfg s r = g0 at h
  induction h with
  | nil => subst hg0; exact ⟨_, _, _, _, Inv.start cfg s r⟩
  | snoc _ hc ih =>
    subst hg0
    obtain ⟨_, _, _, _, hi⟩ := ih
    exact hi.call hn hc

end G4
end QED
