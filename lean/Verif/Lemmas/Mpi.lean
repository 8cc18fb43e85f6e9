import Verif.Model.Mpi
import Mathlib.Algebra.BigOperators.Group.List.Basic
import Mathlib.Algebra.BigOperators.Group.Finset.Basic
import Mathlib.Algebra.Order.BigOperators.Group.Finset
import Mathlib.Tactic.Linarith

set_option autoImplicit false
set_option linter.unusedSectionVars false

/-!
# One rank receives, the others send

A method for programs in which rank 0 only receives and the other ranks follow a fixed script of sends
to rank 0 and barriers. `Runs n p str rem Q c` says: if the scripts of the other ranks are `str`, then
the program `p` of rank 0 ends normally after `c` steps of its own, its result satisfies `Q`, and the
scripts that are left are `rem`, whatever choices are made for `MPI_ANY_SOURCE`.
-/

namespace QED.Mpi

open QED

variable {D α β : Type}

/-- An action of a script. -/
inductive Act (D : Type) where
  | send (tag : Nat) (m : Msg D)
  | barrier

/-- The program that follows a script. -/
def script (a : α) : List (Act D) → Prog D α
  | [] => .ret (.ok a)
  | .send tag m :: rest => .send 0 tag m (script a rest)
  | .barrier :: rest => .barrier (script a rest)

/-- The scripts of all ranks. -/
abbrev Streams (D : Type) := Nat → List (Act D)

/-- See the head of the file. -/
inductive Runs (n : Nat) : Prog D α → Streams D → Streams D → (α → Prop) → Nat → Prop
  | ret {a : α} {str : Streams D} {Q : α → Prop} : Q a → Runs n (.ret (.ok a)) str str Q 0
  | probe {src tag : Nat} {k : Nat → Prog D α} {str rem : Streams D} {Q : α → Prop} {c : Nat}
      {m : Msg D} {rest : List (Act D)} : 0 < src → src < n → str src = .send tag m :: rest →
      Runs n (k m.count) str rem Q c → Runs n (.probe src tag k) str rem Q (c + 1)
  | recv {src tag : Nat} {k : Msg D → Prog D α} {str rem : Streams D} {Q : α → Prop} {c : Nat}
      {m : Msg D} {rest : List (Act D)} : 0 < src → src < n → str src = .send tag m :: rest →
      Runs n (k m) (Function.update str src rest) rem Q c → Runs n (.recv src tag k) str rem Q (c + 1)
  | recvAny {tag : Nat} {k : Msg D → Prog D α} {str rem : Streams D} {Q : α → Prop} {c : Nat} :
      (∃ i, 0 < i ∧ i < n ∧ ∃ m rest, str i = .send tag m :: rest) →
      (∀ i, 0 < i → i < n → (∃ m rest, str i = .send tag m :: rest) ∨ ∃ rest, str i = .barrier :: rest) →
      (∀ i m rest, 0 < i → i < n → str i = .send tag m :: rest →
        Runs n (k m) (Function.update str i rest) rem Q c) →
      Runs n (.recvAny tag k) str rem Q (c + 1)
  | barrier {k : Prog D α} {str str' rem : Streams D} {Q : α → Prop} {c : Nat} :
      (∀ i, 0 < i → i < n → str i = .barrier :: str' i) → (str' 0 = str 0) →
      (∀ i, n ≤ i → str' i = str i) →
      Runs n k str' rem Q c → Runs n (.barrier k) str rem Q (c + 1)

theorem Runs.imp {n : Nat} {p : Prog D α} {str rem : Streams D} {Q R : α → Prop} {c : Nat}
    (h : Runs n p str rem Q c) (hQ : ∀ a, Q a → R a) : Runs n p str rem R c := by
  induction h with
  | ret h => exact .ret (hQ _ h)
  | probe h1 h2 h3 _ ih => exact .probe h1 h2 h3 (ih hQ)
  | recv h1 h2 h3 _ ih => exact .recv h1 h2 h3 (ih hQ)
  | recvAny h1 h2 _ ih => exact .recvAny h1 h2 fun i m rest a b c => ih i m rest a b c hQ
  | barrier h1 h2 h3 _ ih => exact .barrier h1 h2 h3 (ih hQ)

theorem Runs.bind {n : Nat} {p : Prog D α} {f : α → Prog D β} {str mid rem : Streams D}
    {Q : α → Prop} {R : β → Prop} {c1 c2 : Nat} (h : Runs n p str mid Q c1)
    (hf : ∀ a, Q a → Runs n (f a) mid rem R c2) : Runs n (p >>= f) str rem R (c1 + c2) := by
  induction h with
  | ret h => rw [Nat.zero_add]; exact hf _ h
  | probe h1 h2 h3 _ ih => rw [Nat.add_right_comm]; exact .probe h1 h2 h3 (ih hf)
  | recv h1 h2 h3 _ ih => rw [Nat.add_right_comm]; exact .recv h1 h2 h3 (ih hf)
  | recvAny h1 h2 _ ih =>
    rw [Nat.add_right_comm]; exact .recvAny h1 h2 fun i m rest a b c => ih i m rest a b c hf
  | barrier h1 h2 h3 _ ih => rw [Nat.add_right_comm]; exact .barrier h1 h2 h3 (ih hf)

/-- What comes later in the scripts does not matter. -/
theorem Runs.frame {n : Nat} {p : Prog D α} {str rem : Streams D} {Q : α → Prop} {c : Nat}
    (h : Runs n p str rem Q c) (tail : Streams D) :
    Runs n p (fun i => str i ++ tail i) (fun i => rem i ++ tail i) Q c := by
  have hup : ∀ (str : Streams D) (i : Nat) (rest : List (Act D)),
      Function.update (fun i => str i ++ tail i) i (rest ++ tail i) =
        fun j => Function.update str i rest j ++ tail j := by
    intro str i rest
    funext j
    by_cases hj : j = i
    · subst hj; simp
    · simp [hj]
  induction h with
  | ret h => exact .ret h
  | @probe src _ _ str _ _ _ m rest h1 h2 h3 _ ih =>
    exact .probe (rest := rest ++ tail src) h1 h2 (by rw [h3]; rfl) ih
  | @recv src _ _ str _ _ _ m rest h1 h2 h3 _ ih =>
    exact .recv (rest := rest ++ tail src) h1 h2 (by rw [h3]; rfl) (by rw [hup]; exact ih)
  | @recvAny tag _ str _ _ _ h1 h2 _ ih =>
    refine .recvAny ?_ ?_ ?_
    · obtain ⟨i, hi, hin, m, rest, hs⟩ := h1
      exact ⟨i, hi, hin, m, rest ++ tail i, by rw [hs]; rfl⟩
    · intro i hi hin
      rcases h2 i hi hin with ⟨m, rest, hs⟩ | ⟨rest, hs⟩
      · exact .inl ⟨m, rest ++ tail i, by rw [hs]; rfl⟩
      · exact .inr ⟨rest ++ tail i, by rw [hs]; rfl⟩
    · intro i m rest hi hin hs
      rcases h2 i hi hin with ⟨m', rest', hs'⟩ | ⟨rest', hs'⟩
      · rw [hs'] at hs
        simp only [List.cons_append, List.cons.injEq, Act.send.injEq] at hs
        obtain ⟨⟨-, rfl⟩, rfl⟩ := hs
        rw [hup]
        exact ih i m' rest' hi hin hs'
      · rw [hs'] at hs
        simp at hs
  | @barrier _ str str' _ _ _ h1 h2 h3 _ ih =>
    exact .barrier (str' := fun i => str' i ++ tail i) (fun i hi hin => by rw [h1 i hi hin]; rfl)
      (by rw [h2]) (fun i hi => by rw [h3 i hi]) ih

/-! ### Every schedule -/

/-- The actions of messages that are under way. -/
def acts (l : List (Nat × Msg D)) : List (Act D) := l.map fun x => .send x.1 x.2

/-- Number of sends in a script. -/
def sends (l : List (Act D)) : Nat := (l.map fun
  | .send _ _ => 1
  | .barrier => 0).sum

/-- What holds in every reachable state: rank 0 still has `c` steps to make on the scripts `str`, which
consist of the messages under way and of what the other ranks have not yet done. -/
structure Inv (n : Nat) (out : Nat → α) (Q : α → Prop) (s : State D α) (str : Streams D)
    (rest : Streams D) (c : Nat) : Prop where
  idle : (s.procs 0).sending = none
  runs : Runs n (s.procs 0).prog str (fun _ => []) Q c
  prog : ∀ i, 0 < i → i < n → (s.procs i).prog = script (out i) (rest i)
  str_eq : ∀ i, 0 < i → i < n → str i = acts (s.net i 0) ++ rest i
  self : s.net 0 0 = []
  blocked : ∀ i, 0 < i → i < n → ∀ d, (s.procs i).sending = some d → d = 0 ∧ s.net i 0 ≠ []

/-- The number of steps that are left at most. -/
def left (n : Nat) (s : State D α) (rest : Streams D) (c : Nat) : Nat :=
  c + ∑ i ∈ Finset.range n, (2 * sends (rest i) + if (s.procs i).sending = none then 0 else 1)

theorem sum_change {n r x : Nat} {f g : Nat → Nat} (hr : r < n) (h : ∀ i, i ≠ r → f i = g i)
    (hx : f r + x = g r) : ∑ i ∈ Finset.range n, f i + x = ∑ i ∈ Finset.range n, g i := by
  have hm : r ∈ Finset.range n := Finset.mem_range.2 hr
  rw [← Finset.add_sum_erase _ f hm, ← Finset.add_sum_erase _ g hm, ← hx]
  have : ∑ i ∈ (Finset.range n).erase r, f i = ∑ i ∈ (Finset.range n).erase r, g i :=
    Finset.sum_congr rfl fun i hi => h i (Finset.ne_of_mem_erase hi)
  omega

theorem script_send {a : α} {l : List (Act D)} {dst tag : Nat} {m : Msg D} {k : Prog D α}
    (h : script a l = .send dst tag m k) :
    dst = 0 ∧ ∃ rest, l = .send tag m :: rest ∧ k = script a rest := by
  cases l with
  | nil => simp [script] at h
  | cons x l =>
    cases x with
    | send t m' =>
      simp only [script, Prog.send.injEq] at h
      obtain ⟨h1, h2, h3, h4⟩ := h
      exact ⟨h1.symm, l, by rw [h2, h3], h4.symm⟩
    | barrier => simp [script] at h

theorem script_barrier {a : α} {l : List (Act D)} {k : Prog D α} (h : script a l = .barrier k) :
    ∃ rest, l = .barrier :: rest ∧ k = script a rest := by
  cases l with
  | nil => simp [script] at h
  | cons x l =>
    cases x with
    | send t m' => simp [script] at h
    | barrier =>
      simp only [script, Prog.barrier.injEq] at h
      exact ⟨l, rfl, h.symm⟩

theorem script_cases (a : α) (l : List (Act D)) :
    (l = [] ∧ script a l = .ret (.ok a)) ∨
    (∃ tag m rest, l = .send tag m :: rest ∧ script a l = .send 0 tag m (script a rest)) ∨
    (∃ rest, l = .barrier :: rest ∧ script a l = .barrier (script a rest)) := by
  cases l with
  | nil => exact .inl ⟨rfl, rfl⟩
  | cons x l =>
    cases x with
    | send t m => exact .inr (.inl ⟨t, m, l, rfl, rfl⟩)
    | barrier => exact .inr (.inr ⟨l, rfl, rfl⟩)

/-- The first message with the tag at the head of the script is the head of the queue. -/
theorem first_head {l pre post : List (Nat × Msg D)} {tag : Nat} {m m' : Msg D}
    {rest rest' : List (Act D)} (h : First l tag m pre post)
    (hs : acts l ++ rest = .send tag m' :: rest') :
    m = m' ∧ pre = [] ∧ l = (tag, m) :: post ∧ rest' = acts post ++ rest := by
  obtain ⟨hl, hp⟩ := h
  cases pre with
  | nil =>
    subst hl
    simp only [acts, List.nil_append, List.map_cons, List.cons_append, List.cons.injEq,
      Act.send.injEq] at hs
    exact ⟨hs.1.2, rfl, rfl, hs.2.symm⟩
  | cons x pre =>
    subst hl
    simp only [acts, List.cons_append, List.map_cons, List.cons.injEq, Act.send.injEq] at hs
    exact absurd hs.1.1 (hp x (by simp))

theorem acts_cons_barrier {l : List (Nat × Msg D)} {rest rest' : List (Act D)}
    (h : acts l ++ rest = .barrier :: rest') : l = [] ∧ rest = .barrier :: rest' := by
  cases l with
  | nil => exact ⟨rfl, h⟩
  | cons x l => simp [acts] at h

/-- Receipt of the head of a queue by rank 0. -/
theorem Inv.received {n : Nat} {out : Nat → α} {Q : α → Prop} {s : State D α} {str rest : Streams D}
    {c c' : Nat} (h : Inv n out Q s str rest c) {src tag : Nat} {m : Msg D} {k : Prog D α}
    {post : List (Nat × Msg D)} (h0 : 0 < src) (hn : src < n) (hnet : s.net src 0 = (tag, m) :: post)
    (hk : Runs n k (Function.update str src (acts post ++ rest src)) (fun _ => []) Q c')
    (hc : c' < c) :
    Inv n out Q (s.received 0 src [] post k) (Function.update str src (acts post ++ rest src)) rest c' ∧
      left n (s.received 0 src [] post k) rest c' < left n s rest c := by
  have hne : src ≠ 0 := by omega
  have hproc : ∀ i, i ≠ 0 → ((s.received 0 src [] post k).procs i).prog = (s.procs i).prog ∧
      (((s.received 0 src [] post k).procs i).sending = (s.procs i).sending ∨
        ((s.received 0 src [] post k).procs i).sending = none) ∧
      (i = src → post = [] → ((s.received 0 src [] post k).procs i).sending ≠ some 0) := by
    intro i hi
    unfold State.received State.release
    split
    · rename_i hr
      by_cases his : i = src
      · subst his
        simp [State.setProc, State.setNet, Function.update_of_ne hi]
      · simp [State.setProc, State.setNet, Function.update_of_ne hi, his]
    · rename_i hr
      simp only [State.setProc, State.setNet, Function.update_of_ne hi]
      refine ⟨trivial, .inl trivial, ?_⟩
      rintro rfl rfl hc
      exact hr ⟨rfl, hc⟩
  have hnet' : (s.received 0 src [] post k).net = Function.update s.net src
      (Function.update (s.net src) 0 post) := by
    unfold State.received State.release
    split <;> rfl
  have hp0 : (s.received 0 src [] post k).procs 0 = ⟨k, none⟩ := by
    simp [State.received, State.setProc]
  refine ⟨⟨by rw [hp0], by rw [hp0]; exact hk, ?_, ?_, ?_, ?_⟩, ?_⟩
  · intro i hi hin
    rw [(hproc i (by omega)).1]; exact h.prog i hi hin
  · intro i hi hin
    rw [hnet']
    by_cases his : i = src
    · subst his; simp
    · rw [Function.update_of_ne his, Function.update_of_ne his]; exact h.str_eq i hi hin
  · rw [hnet', Function.update_of_ne (by omega)]; exact h.self
  · intro i hi hin d hd
    obtain ⟨-, h2, h3⟩ := hproc i (by omega)
    have hd' : (s.procs i).sending = some d := by
      rcases h2 with h2 | h2
      · rw [← h2]; exact hd
      · rw [h2] at hd; cases hd
    obtain ⟨rfl, hb⟩ := h.blocked i hi hin d hd'
    refine ⟨rfl, ?_⟩
    rw [hnet']
    by_cases his : i = src
    · subst his
      simp only [Function.update_self]
      intro hp
      exact h3 rfl hp hd
    · rw [Function.update_of_ne his]; exact hb
  · unfold left
    have : ∑ i ∈ Finset.range n, (2 * sends (rest i) +
          if ((s.received 0 src [] post k).procs i).sending = none then 0 else 1) ≤
        ∑ i ∈ Finset.range n, (2 * sends (rest i) + if (s.procs i).sending = none then 0 else 1) := by
      refine Finset.sum_le_sum fun i _ => ?_
      by_cases hi : i = 0
      · subst hi; rw [hp0]; simp
      · rcases (hproc i hi).2.1 with h2 | h2
        · rw [h2]
        · rw [h2]; simp
    omega

theorem Inv.step {n : Nat} {out : Nat → α} {Q : α → Prop} {s t : State D α} {str rest : Streams D}
    {c : Nat} (hn : 0 < n) (h : Inv n out Q s str rest c) (hst : Step true n s t) :
    ∃ str' rest' c', Inv n out Q t str' rest' c' ∧ left n t rest' c' < left n s rest c := by
  cases hst with
  | @send r dst tag m k hr hp =>
    have h0 : r ≠ 0 := by
      rintro rfl
      have := h.runs
      rw [hp] at this
      cases this
    have hpr := h.prog r (by omega) hr
    rw [hp] at hpr
    obtain ⟨rfl, l, hl, hk⟩ := script_send hpr.symm
    refine ⟨str, Function.update rest r l, c, ⟨?_, ?_, ?_, ?_, ?_, ?_⟩, ?_⟩
    · simp only [State.setNet, State.setProc, Function.update_of_ne (Ne.symm h0)]; exact h.idle
    · simp only [State.setNet, State.setProc, Function.update_of_ne (Ne.symm h0)]; exact h.runs
    · intro i hi hin
      by_cases hir : i = r
      · subst hir; simp [State.setNet, State.setProc, hk]
      · simp only [State.setNet, State.setProc, Function.update_of_ne hir]; exact h.prog i hi hin
    · intro i hi hin
      by_cases hir : i = r
      · subst hir
        rw [h.str_eq i hi hin, hl]
        simp [State.setNet, State.setProc, acts]
      · simp only [State.setNet, State.setProc, Function.update_of_ne hir]; exact h.str_eq i hi hin
    · simp only [State.setNet, State.setProc, Function.update_of_ne (Ne.symm h0)]; exact h.self
    · intro i hi hin d hd
      by_cases hir : i = r
      · subst hir
        simp only [State.setNet, State.setProc, Function.update_self, Option.some.injEq] at hd
        subst hd
        simp [State.setNet]
      · simp only [State.setNet, State.setProc, Function.update_of_ne hir] at hd ⊢
        exact h.blocked i hi hin d hd
    · unfold left
      have := sum_change (n := n) (r := r) (x := 1)
        (f := fun i => 2 * sends (Function.update rest r l i) +
          if (((s.setProc r ⟨k, some 0⟩).setNet r 0 (s.net r 0 ++ [(tag, m)])).procs i).sending = none
            then 0 else 1)
        (g := fun i => 2 * sends (rest i) + if (s.procs i).sending = none then 0 else 1) hr
        (fun i hi => by simp [State.setNet, State.setProc, hi])
        (by simp [State.setNet, State.setProc, hl, sends, hp]; omega)
      omega
  | @buffer r dst _ hr hp =>
    have h0 : r ≠ 0 := by
      rintro rfl
      rw [h.idle] at hp
      cases hp
    refine ⟨str, rest, c, ⟨?_, ?_, ?_, ?_, ?_, ?_⟩, ?_⟩
    · simp only [State.setProc, Function.update_of_ne (Ne.symm h0)]; exact h.idle
    · simp only [State.setProc, Function.update_of_ne (Ne.symm h0)]; exact h.runs
    · intro i hi hin
      by_cases hir : i = r
      · subst hir; simpa [State.setProc] using h.prog i hi hin
      · simp only [State.setProc, Function.update_of_ne hir]; exact h.prog i hi hin
    · exact h.str_eq
    · exact h.self
    · intro i hi hin d hd
      by_cases hir : i = r
      · subst hir; simp [State.setProc] at hd
      · simp only [State.setProc, Function.update_of_ne hir] at hd
        exact h.blocked i hi hin d hd
    · unfold left
      have := sum_change (n := n) (r := r) (x := 1)
        (f := fun i => 2 * sends (rest i) +
          if ((s.setProc r { s.procs r with sending := none }).procs i).sending = none then 0 else 1)
        (g := fun i => 2 * sends (rest i) + if (s.procs i).sending = none then 0 else 1) hr
        (fun i hi => by simp [State.setProc, hi])
        (by simp [State.setProc, hp])
      omega
  | @probe r src tag k m pre post hr hp hsrc hf =>
    have h0 : r = 0 := by
      by_contra h0
      have hpr := h.prog r (by omega) hr
      rw [hp] at hpr
      rcases script_cases (out r) (rest r) with ⟨-, e⟩ | ⟨_, _, _, -, e⟩ | ⟨_, -, e⟩ <;>
        rw [e] at hpr <;> cases hpr
    subst h0
    have hruns := h.runs
    rw [hp] at hruns
    cases hruns with
    | @probe _ _ _ _ _ _ c m' l h1 h2 h3 h4 =>
      have hs := h3
      rw [h.str_eq src h1 h2] at hs
      obtain ⟨rfl, -⟩ := first_head hf hs
      refine ⟨str, rest, c, ⟨?_, ?_, ?_, ?_, ?_, ?_⟩, ?_⟩
      · simp [State.setProc]
      · simpa [State.setProc] using h4
      · intro i hi hin
        simp only [State.setProc, Function.update_of_ne (Nat.ne_of_gt hi)]; exact h.prog i hi hin
      · exact h.str_eq
      · exact h.self
      · intro i hi hin d hd
        simp only [State.setProc, Function.update_of_ne (Nat.ne_of_gt hi)] at hd
        exact h.blocked i hi hin d hd
      · unfold left
        have : ∀ i, ((s.setProc 0 ⟨k m.count, none⟩).procs i).sending = (s.procs i).sending := by
          intro i
          by_cases hi : i = 0
          · subst hi; simp [State.setProc, hp]
          · simp [State.setProc, hi]
        simp only [this]
        omega
  | @recv r src tag k m pre post hr hp hsrc hf =>
    have h0 : r = 0 := by
      by_contra h0
      have hpr := h.prog r (by omega) hr
      rw [hp] at hpr
      rcases script_cases (out r) (rest r) with ⟨-, e⟩ | ⟨_, _, _, -, e⟩ | ⟨_, -, e⟩ <;>
        rw [e] at hpr <;> cases hpr
    subst h0
    have hruns := h.runs
    rw [hp] at hruns
    cases hruns with
    | @recv _ _ _ _ _ _ c m' l h1 h2 h3 h4 =>
      have hs := h3
      rw [h.str_eq src h1 h2] at hs
      obtain ⟨rfl, rfl, hnet, rfl⟩ := first_head hf hs
      exact ⟨_, _, _, h.received h1 h2 hnet h4 (by omega)⟩
  | @recvAny r src tag k m pre post hr hp hsrc hf =>
    have h0 : r = 0 := by
      by_contra h0
      have hpr := h.prog r (by omega) hr
      rw [hp] at hpr
      rcases script_cases (out r) (rest r) with ⟨-, e⟩ | ⟨_, _, _, -, e⟩ | ⟨_, -, e⟩ <;>
        rw [e] at hpr <;> cases hpr
    subst h0
    have hsrc0 : src ≠ 0 := by
      rintro rfl
      have := hf.1
      rw [h.self] at this
      simp at this
    have hruns := h.runs
    rw [hp] at hruns
    cases hruns with
    | @recvAny _ _ _ _ _ c h1 h2 h3 =>
      rcases h2 src (by omega) hsrc with ⟨m', l, hs⟩ | ⟨l, hs⟩
      · have hs' := hs
        rw [h.str_eq src (by omega) hsrc] at hs'
        obtain ⟨rfl, rfl, hnet, rfl⟩ := first_head hf hs'
        exact ⟨_, _, _, h.received (by omega) hsrc hnet (h3 src _ _ (by omega) hsrc hs) (by omega)⟩
      · rw [h.str_eq src (by omega) hsrc] at hs
        have := (acts_cons_barrier hs).1
        have h5 := hf.1
        rw [this] at h5
        simp at h5
  | @barrier ks hb =>
    have hruns := h.runs
    rw [hb 0 hn] at hruns
    cases hruns with
    | @barrier _ _ str' _ _ c h1 h2 h3 h4 =>
      have hi : ∀ i, 0 < i → i < n → s.net i 0 = [] ∧ rest i = .barrier :: str' i := by
        intro i hi hin
        have := h1 i hi hin
        rw [h.str_eq i hi hin] at this
        exact acts_cons_barrier this
      refine ⟨str', fun i => if 0 < i ∧ i < n then str' i else rest i, c,
        ⟨?_, ?_, ?_, ?_, ?_, ?_⟩, ?_⟩
      · simp [hn]
      · simpa [hn] using h4
      · intro i hi0 hin
        have := h.prog i hi0 hin
        rw [(hi i hi0 hin).2, hb i hin] at this
        simp only [script, Prog.barrier.injEq] at this
        simp [hin, hi0, this]
      · intro i hi0 hin
        simp [hi0, hin, (hi i hi0 hin).1, acts]
      · exact h.self
      · intro i hi0 hin d hd
        simp [hin] at hd
      · unfold left
        have : ∀ i ∈ Finset.range n, (2 * sends (if 0 < i ∧ i < n then str' i else rest i) +
            if ((if i < n then (⟨ks i, none⟩ : Proc D α) else s.procs i)).sending = none then 0 else 1)
            = 2 * sends (rest i) + if (s.procs i).sending = none then 0 else 1 := by
          intro i hir
          have hin := Finset.mem_range.1 hir
          rw [hb i hin]
          by_cases h0 : 0 < i
          · rw [(hi i h0 hin).2]; simp [hin, h0, sends]
          · simp [hin, h0]
        rw [Finset.sum_congr rfl this]
        omega

theorem Proc.eq {p : Proc D α} {P : Prog D α} (h1 : p.prog = P) (h2 : p.sending = none) :
    p = ⟨P, none⟩ := by
  cases p; subst h1 h2; rfl

/-- Unless everything is done some rank can go on, even if nothing is ever buffered. -/
theorem Inv.progress {n : Nat} {out : Nat → α} {Q : α → Prop} {s : State D α} {str rest : Streams D}
    {c : Nat} (hn : 0 < n) (h : Inv n out Q s str rest c) :
    (∃ a, Q a ∧ Finished n s (fun r => if r = 0 then a else out r)) ∨ ∃ t, Step false n s t := by
  have hp0 : s.procs 0 = ⟨(s.procs 0).prog, none⟩ := by rw [← h.idle]
  -- a rank whose script starts with a send: its message is there, or it can send it
  have hsend : ∀ i tag m l, 0 < i → i < n → str i = .send tag m :: l →
      First (s.net i 0) tag m [] (s.net i 0).tail ∨ ∃ t, Step false n s t := by
    intro i tag m l hi hin hs
    rw [h.str_eq i hi hin] at hs
    cases hnet : s.net i 0 with
    | nil =>
      right
      rw [hnet] at hs
      simp only [acts, List.map_nil, List.nil_append] at hs
      have hprog := h.prog i hi hin
      rw [hs] at hprog
      have hsending : (s.procs i).sending = none := by
        cases hx : (s.procs i).sending with
        | none => rfl
        | some d => exact absurd hnet (h.blocked i hi hin d hx).2
      exact ⟨_, .send hin (k := script (out i) l) (dst := 0) (tag := tag) (m := m)
        (Proc.eq hprog hsending)⟩
    | cons x xs =>
      left
      rw [hnet] at hs
      simp only [acts, List.map_cons, List.cons_append, List.cons.injEq, Act.send.injEq] at hs
      obtain ⟨⟨rfl, rfl⟩, -⟩ := hs
      exact ⟨rfl, by simp⟩
  have hruns := h.runs
  generalize hP : (s.procs 0).prog = P at hruns hp0
  generalize hE : (fun _ => [] : Streams D) = E at hruns
  cases hruns with
  | @ret a _ _ hQ =>
    subst hE
    left
    refine ⟨a, hQ, ?_⟩
    intro i hin
    by_cases hi : i = 0
    · subst hi; simpa using hp0
    · have hs := h.str_eq i (by omega) hin
      have hnet : s.net i 0 = [] := by
        cases hx : s.net i 0 with
        | nil => rfl
        | cons x xs => rw [hx] at hs; simp [acts] at hs
      have hrest : rest i = [] := by rw [hnet] at hs; simpa [acts] using hs.symm
      have hprog := h.prog i (by omega) hin
      rw [hrest] at hprog
      have hsending : (s.procs i).sending = none := by
        cases hx : (s.procs i).sending with
        | none => rfl
        | some d => exact absurd hnet (h.blocked i (by omega) hin d hx).2
      simp only [hi, if_false]
      exact Proc.eq hprog hsending
  | @probe src tag _ _ _ _ _ m l h1 h2 h3 _ =>
    right
    rcases hsend src tag m l h1 h2 h3 with hf | ht
    · exact ⟨_, .probe hn hp0 h2 hf⟩
    · exact ht
  | @recv src tag _ _ _ _ _ m l h1 h2 h3 _ =>
    right
    rcases hsend src tag m l h1 h2 h3 with hf | ht
    · exact ⟨_, .recv hn hp0 h2 hf⟩
    · exact ht
  | @recvAny tag _ _ _ _ _ h1 _ _ =>
    right
    obtain ⟨src, h0, h2, m, l, h3⟩ := h1
    rcases hsend src tag m l h0 h2 h3 with hf | ht
    · exact ⟨_, .recvAny hn hp0 h2 hf⟩
    · exact ht
  | @barrier k _ str' _ _ _ h1 _ _ _ =>
    right
    refine ⟨_, .barrier (ks := fun i => if i = 0 then k else script (out i) (str' i)) ?_⟩
    intro i hin
    by_cases hi : i = 0
    · subst hi; simpa using hp0
    · have hs := h1 i (by omega) hin
      rw [h.str_eq i (by omega) hin] at hs
      obtain ⟨hnet, hrest⟩ := acts_cons_barrier hs
      have hprog := h.prog i (by omega) hin
      rw [hrest] at hprog
      have hsending : (s.procs i).sending = none := by
        cases hx : (s.procs i).sending with
        | none => rfl
        | some d => exact absurd hnet (h.blocked i (by omega) hin d hx).2
      simp only [hi, if_false]
      exact Proc.eq hprog hsending

/-- Every execution is finite, can be continued until all ranks have ended normally, and then the result of rank
0 is as it should be. -/
theorem Runs.every {n : Nat} (hn : 0 < n) {progs : Nat → Prog D α} {str : Streams D} {out : Nat → α}
    {Q : α → Prop} {c : Nat} (h : Runs n (progs 0) str (fun _ => []) Q c)
    (hp : ∀ i, 0 < i → i < n → progs i = script (out i) (str i)) :
    ∃ N, ∀ i s, Exec true n i (State.start progs) s → i ≤ N ∧
      ((∃ a, Q a ∧ Finished n s (fun r => if r = 0 then a else out r)) ∨ ∃ t, Step false n s t) := by
  have h0 : Inv n out Q (State.start progs) str str c :=
    ⟨rfl, h, hp, fun i _ _ => by simp [State.start, acts], rfl, fun i _ _ d hd => by
      simp [State.start] at hd⟩
  have key : ∀ i s, Exec true n i (State.start progs) s → ∃ str' rest' c', Inv n out Q s str' rest' c' ∧
      left n s rest' c' + i ≤ left n (State.start progs) str c := by
    intro i s he
    generalize hs0 : State.start progs = s0 at he
    induction he with
    | nil s => subst hs0; exact ⟨str, str, c, h0, le_refl _⟩
    | snoc _ hst ih =>
      obtain ⟨str', rest', c', hinv, hle⟩ := ih hs0
      obtain ⟨str'', rest'', c'', hinv', hlt⟩ := hinv.step hn hst
      exact ⟨str'', rest'', c'', hinv', by omega⟩
  refine ⟨left n (State.start progs) str c, fun i s he => ?_⟩
  obtain ⟨str', rest', c', hinv, hle⟩ := key i s he
  exact ⟨by omega, hinv.progress hn⟩

end QED.Mpi
