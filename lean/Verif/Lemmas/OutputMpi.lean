import Verif.Model.OutputMpi
import Verif.Spec.Mpi
import Verif.Lemmas.Mpi
import Verif.Lemmas.OutputRun

set_option autoImplicit false
set_option linter.unusedSectionVars false

/-!
# The communication of the output manager
-/

namespace QED.Mpi

open QED Dbl OutMgr
open _root_.QED.MpiSpec (putTable putEvents)

variable {D L : Type} [Dbl D]

/-! ### Copying -/

theorem full_nil : full ([] : List (List D)) = [] := rfl

theorem copyRowsL_eq {rows : List (List D)} (h : Eight rows) (hb : rows.length < 2 ^ 29) :
    ∀ (n j : Nat) (acc : List (List D)) (r : Nat), j + n = rows.length → Eight acc →
      copyRowsL (some (full rows)) n j (full acc ++ List.replicate ((n + r) * 8) none) (acc.length * 8) =
        .ok (full (acc ++ rows.drop j) ++ List.replicate (r * 8) none, (acc ++ rows.drop j).length * 8) := by
  intro n
  induction n with
  | zero =>
    intro j acc r hj _
    have : rows.drop j = [] := List.drop_eq_nil_of_le (by omega)
    simp [copyRowsL, this]
  | succ n ih =>
    intro j acc r hj hacc
    have hjl : j < rows.length := by omega
    simp only [copyRowsL, deref, Res.ok_bind]
    rw [u32_lt (by omega), row_read h j hjl, Res.ok_bind,
      show n + 1 + r = (n + r) + 1 by omega, row_write hacc _ (h _ (by simp)), Res.ok_bind]
    have h2 : Eight (acc ++ [rows[j]]) := by
      intro x hx
      rcases List.mem_append.1 hx with hx | hx
      · exact hacc x hx
      · rw [List.mem_singleton.1 hx]; exact h _ (by simp)
    have := ih (j + 1) (acc ++ [rows[j]]) r (by omega) h2
    rw [show acc.length * 8 + 8 = (acc ++ [rows[j]]).length * 8 by simp; omega, this,
      List.drop_eq_getElem_cons hjl]
    simp

theorem copyEventsL_eq (evs : List (List (List D))) (h : ∀ e ∈ evs, Eight e ∧ e.length < 2 ^ 29)
    (acc : List (List D)) (hacc : Eight acc) (r : Nat) :
    copyEventsL (evs.map fun e => some (full e)) (evs.map List.length)
      (full acc ++ List.replicate ((total evs + r) * 8) none) (acc.length * 8) =
      .ok (full (acc ++ evs.flatten) ++ List.replicate (r * 8) none, (acc ++ evs.flatten).length * 8) := by
  induction evs generalizing acc with
  | nil => simp [copyEventsL, total]
  | cons e evs ih =>
    have ht : total (e :: evs) = e.length + total evs := by simp [total]
    obtain ⟨he, hel⟩ := h e (by simp)
    simp only [List.map_cons, copyEventsL]
    rw [rd_ok (by simp), Res.ok_bind]
    simp only [List.getElem_cons_zero]
    rw [ht, Nat.add_assoc, copyRowsL_eq he hel e.length 0 acc (total evs + r) (by omega) hacc,
      Res.ok_bind]
    simp only [List.drop_zero, List.drop_succ_cons]
    have hacc' : Eight (acc ++ e) := fun x hx => (List.mem_append.1 hx).elim (hacc x) (he x)
    rw [ih (fun x hx => h x (by simp [hx])) (acc ++ e) hacc']
    simp

theorem copyPrimaryL_eq (rows : List (List D)) (h : Eight rows) (acc : List (List D)) (hacc : Eight acc)
    (r : Nat) :
    copyPrimaryL (rows.map fun r => some (full [r])) acc.length
      (full acc ++ List.replicate ((rows.length + r) * 8) none) =
      .ok (full (acc ++ rows) ++ List.replicate (r * 8) none) := by
  induction rows generalizing acc with
  | nil => simp [copyPrimaryL]
  | cons x rows ih =>
    have hr : x.length = 8 := h x (by simp)
    have h1 : Eight [x] := by intro y hy; rw [List.mem_singleton.1 hy]; exact hr
    simp only [List.map_cons, copyPrimaryL, deref, Res.ok_bind, List.length_cons]
    have := row_read h1 0 (by simp)
    simp only [Nat.zero_mul, List.getElem_cons_zero] at this
    rw [this, Res.ok_bind, show rows.length + 1 + r = (rows.length + r) + 1 by omega,
      row_write hacc x hr, Res.ok_bind]
    have hacc' : Eight (acc ++ [x]) := fun y hy => (List.mem_append.1 hy).elim (hacc y) (h1 y)
    have := ih (fun y hy => h y (by simp [hy])) (acc ++ [x]) hacc'
    simp only [List.length_append, List.length_cons, List.length_nil, Nat.zero_add] at this
    rw [this]; simp

theorem totalRows_eq (counts : List Nat) : totalRows counts = counts.sum := by
  have : ∀ (cs : List Nat) (t : Nat), cs.foldl (· + ·) t = t + cs.sum := by
    intro cs
    induction cs with
    | nil => simp
    | cons c cs ih => intro t; simp [ih]; omega
  simpa [totalRows] using this counts 0

theorem i32_small {n : Nat} (h : n < 2 ^ 31) : i32 (n : Int) = n := by
  unfold i32
  apply Int.bmod_eq_of_le <;> omega

theorem addInt_small {a b : Nat} (h : a + b < 2 ^ 31) : addInt a b = .ok ((a + b : Nat) : Int) := by
  unfold addInt
  rw [if_pos ⟨by omega, by omega⟩]
  simp

theorem newInt_nat (n : Nat) : (newInt n : Res (Buf D)) = .ok (List.replicate n none) := by
  simp [newInt, Buf.new]

/-! ### The data of one rank -/

/-- The rows a rank holds: of the primaries, and of the three species event by event. -/
structure RankData (D : Type) where
  prim : List (List D)
  e : List (List (List D))
  p : List (List (List D))
  g : List (List (List D))

/-- The manager of a rank holds these rows. -/
structure HoldsRows (m : OutMgr D) (d : RankData D) : Prop where
  prim : m.primary = d.prim.map fun r => some (full [r])
  e : m.electron = d.e.map fun x => some (full x)
  p : m.positron = d.p.map fun x => some (full x)
  g : m.photon = d.g.map fun x => some (full x)
  ec : m.electronCount = d.e.map List.length
  pc : m.positronCount = d.p.map List.length
  gc : m.photonCount = d.g.map List.length
  prim8 : Eight d.prim
  e8 : ∀ x ∈ d.e, Eight x
  p8 : ∀ x ∈ d.p, Eight x
  g8 : ∀ x ∈ d.g, Eight x

theorem eight_flatten {evs : List (List (List D))} (h : ∀ x ∈ evs, Eight x) : Eight evs.flatten := by
  intro r hr
  obtain ⟨e, he, hre⟩ := List.mem_flatten.1 hr
  exact h e he r hre

theorem total_flatten (evs : List (List (List D))) : total evs = evs.flatten.length := by
  simp [total]

theorem length_le_total {evs : List (List (List D))} {e : List (List D)} (h : e ∈ evs) :
    e.length ≤ total evs :=
  List.le_sum_of_mem (List.mem_map.2 ⟨e, h, rfl⟩)

/-- What a slave sends. -/
def RankData.acts (d : RankData D) : List (Act D) :=
  [.send 1 (.doubles d.prim.flatten), .send 2 (.int ((d.e.flatten.length * 8 : Nat) : Int)),
    .send 3 (.int ((d.p.flatten.length * 8 : Nat) : Int)),
    .send 4 (.int ((d.g.flatten.length * 8 : Nat) : Int)),
    .send 2 (.doubles d.e.flatten.flatten), .send 3 (.doubles d.p.flatten.flatten),
    .send 4 (.doubles d.g.flatten.flatten)]

/-- All rows of a rank fit in arrays with `int` sizes. -/
structure RankData.Small (d : RankData D) : Prop where
  prim : d.prim.length < 2 ^ 28
  e : d.e.flatten.length < 2 ^ 28
  p : d.p.flatten.length < 2 ^ 28
  g : d.g.flatten.length < 2 ^ 28

/-- A script followed by a program. -/
def pre {α : Type} (l : List (Act D)) (k : Prog D α) : Prog D α :=
  match l with
  | [] => k
  | .send tag m :: rest => .send 0 tag m (pre rest k)
  | .barrier :: rest => .barrier (pre rest k)

theorem pre_script {α : Type} (l l' : List (Act D)) (a : α) :
    pre l (script a l') = script a (l ++ l') := by
  induction l with
  | nil => rfl
  | cons x l ih => cases x <;> simp [pre, script, ih]

theorem pre_append {α : Type} (l l' : List (Act D)) (k : Prog D α) :
    pre l (pre l' k) = pre (l ++ l') k := by
  induction l with
  | nil => rfl
  | cons x l ih => cases x <;> simp [pre, ih]

@[simp] theorem ret_ok_bind {α β : Type} (a : α) (f : α → Prog D β) :
    ((Prog.ret (.ok a) : Prog D α) >>= f) = f a := rfl

@[simp] theorem lift_ok_bind {α β : Type} (a : α) (f : α → Prog D β) :
    ((lift (.ok a) : Prog D α) >>= f) = f a := (id rfl : _)

instance : LawfulMonad (Prog D) := LawfulMonad.mk'
  (id_map := by
    intro α p
    change p.bind _ = p
    induction p with
    | ret r => cases r <;> rfl
    | send _ _ _ _ ih => simp only [Prog.bind]; rw [ih]
    | probe _ _ _ ih => simp only [Prog.bind]; congr; funext x; exact ih x
    | recv _ _ _ ih => simp only [Prog.bind]; congr; funext x; exact ih x
    | recvAny _ _ ih => simp only [Prog.bind]; congr; funext x; exact ih x
    | barrier _ ih => simp only [Prog.bind]; rw [ih])
  (pure_bind := fun _ _ => rfl)
  (bind_assoc := by
    intro α β γ p f g
    change (p.bind f).bind g = p.bind fun a => (f a).bind g
    induction p with
    | ret r => cases r <;> rfl
    | send _ _ _ _ ih => simp [Prog.bind, ih]
    | probe _ _ _ ih => simp [Prog.bind, ih]
    | recv _ _ _ ih => simp [Prog.bind, ih]
    | recvAny _ _ ih => simp [Prog.bind, ih]
    | barrier _ ih => simp [Prog.bind, ih])

theorem sendDoubles_bind {α : Type} (tag : Nat) (xs : List D) (n : Nat) (h : n = xs.length)
    (hn : n < 2 ^ 31) (f : Unit → Prog D α) :
    (sendDoubles 0 tag (xs.map some) (i32 n) >>= f) = .send 0 tag (.doubles xs) (f ()) := by
  subst h
  unfold sendDoubles
  rw [i32_small hn, if_neg (by omega)]
  simp only [Int.toNat_natCast]
  rw [Buf.readRow_full _ _ _ (by omega)]
  simp only [lift_ok_bind, List.drop_zero, List.take_length]
  rfl

theorem sendSize_bind {α : Type} (tag n : Nat) (hn : n < 2 ^ 31) (f : Unit → Prog D α) :
    (sendSize 0 tag n >>= f) = .send 0 tag (.int n) (f ()) := by
  unfold sendSize
  rw [i32_small hn]
  rfl

theorem slaveEvents_bind {α : Type} {m : OutMgr D} {d : RankData D} (h : HoldsRows m d) (hs : d.Small)
    (f : Unit → Prog D α) : (slaveEvents m >>= f) = pre d.acts (f ()) := by
  have c1 := copyPrimary_eq d.prim h.prim8 [] (by simp [Eight]) (by have := hs.prim; simp; omega)
  have key : ∀ (evs : List (List (List D))), (∀ x ∈ evs, Eight x) → evs.flatten.length < 2 ^ 28 →
      copyEventsL (evs.map fun e => some (full e)) (evs.map List.length)
        (Buf.new (totalRows (evs.map List.length) * 8)) 0 =
        .ok (full evs.flatten, evs.flatten.length * 8) := by
    intro evs h8 hl
    have := copyEventsL_eq evs (fun e he => ⟨h8 e he, lt_of_le_of_lt (length_le_total he)
      (by rw [total_flatten]; omega)⟩) [] (by simp [Eight]) 0
    simp only [full, List.flatten_nil, List.map_nil, List.nil_append, List.length_nil, Nat.zero_mul,
      Nat.add_zero, List.replicate_zero, List.append_nil] at this
    rw [totalRows_eq]
    exact this
  have b1 := hs.prim
  have b2 := hs.e
  have b3 := hs.p
  have b4 := hs.g
  have t : ∀ (evs : List (List (List D))), totalRows (evs.map List.length) = evs.flatten.length := by
    intro evs; rw [totalRows_eq, ← total_flatten]; rfl
  simp only [full_nil, List.nil_append, List.length_nil] at c1
  unfold slaveEvents
  rw [h.prim, h.e, h.p, h.g, h.ec, h.pc, h.gc]
  simp only [List.length_map, Buf.new]
  rw [c1]
  simp only [bind_assoc, lift_ok_bind]
  rw [show full d.prim = d.prim.flatten.map some from rfl]
  rw [sendDoubles_bind 1 d.prim.flatten (d.prim.length * 8) h.prim8.length.symm (by omega)]
  have k1 := key d.e h.e8 b2
  have k2 := key d.p h.p8 b3
  have k3 := key d.g h.g8 b4
  simp only [Buf.new] at k1 k2 k3
  rw [k1, k2, k3]
  simp only [lift_ok_bind, t]
  rw [sendSize_bind 2 _ (by omega), sendSize_bind 3 _ (by omega), sendSize_bind 4 _ (by omega)]
  simp only [full]
  rw [sendDoubles_bind 2 d.e.flatten.flatten _ (eight_flatten h.e8).length.symm (by omega),
    sendDoubles_bind 3 d.p.flatten.flatten _ (eight_flatten h.p8).length.symm (by omega),
    sendDoubles_bind 4 d.g.flatten.flatten _ (eight_flatten h.g8).length.symm (by omega)]
  simp only [RankData.acts, pre]

/-! ### Streams of all ranks -/

/-- The streams of ranks `1, ..., n-1`. -/
def clip (n : Nat) (f : Streams D) : Streams D := fun j => if 0 < j ∧ j < n then f j else []

/-- The ranks below `i` are at `a`, the others at `b`. -/
def mix (i : Nat) (a b : Streams D) : Streams D := fun j => if j < i then a j else b j

theorem mix_one (n : Nat) (a b : Streams D) : mix 1 (clip n a) (clip n b) = clip n b := by
  funext j
  unfold mix
  by_cases h : j < 1
  · have : j = 0 := by omega
    subst this; simp [clip]
  · simp [h]

theorem mix_last (n : Nat) (a b : Streams D) : mix n (clip n a) (clip n b) = clip n a := by
  funext j
  unfold mix
  by_cases h : j < n
  · simp [h]
  · simp [h, clip]

theorem mix_at {i n : Nat} (h0 : 0 < i) (hn : i < n) (a b : Streams D) :
    mix i (clip n a) (clip n b) i = b i := by
  simp [mix, clip, h0, hn]

theorem mix_update {i n : Nat} (h0 : 0 < i) (hn : i < n) (a b : Streams D) :
    Function.update (mix i (clip n a) (clip n b)) i (a i) = mix (i + 1) (clip n a) (clip n b) := by
  funext j
  by_cases h : j = i
  · subst h; simp [mix, clip, h0, hn]
  · rw [Function.update_of_ne h]
    unfold mix
    have : j < i + 1 ↔ j < i := by omega
    simp [this]

/-! ### The master -/

theorem Runs.eqBind {n : Nat} {α β : Type} {p : Prog D α} {f : α → Prog D β} {str mid rem : Streams D}
    {a : α} {R : β → Prop} {c1 c2 : Nat} (h : Runs n p str mid (· = a) c1)
    (hf : Runs n (f a) mid rem R c2) : Runs n (p >>= f) str rem R (c1 + c2) :=
  h.bind fun _ hb => hb ▸ hf

/-- The rows of the ranks `i, ..., i+c-1`. -/
def rowsFrom (f : Nat → List (List D)) (i c : Nat) : List (List D) := (List.range' i c).flatMap f

theorem rowsFrom_succ (f : Nat → List (List D)) (i c : Nat) :
    rowsFrom f i (c + 1) = f i ++ rowsFrom f (i + 1) c := by
  simp [rowsFrom, List.range'_succ]

theorem rowsFrom_zero (f : Nat → List (List D)) (i : Nat) : rowsFrom f i 0 = [] := rfl

theorem probe_runs {n src tag : Nat} {str rem : Streams D} {α : Type} {Q : α → Prop} {c : Nat}
    {m : Msg D} {rest : List (Act D)} (f : Nat → Prog D α) (h0 : 0 < src)
    (hn : src < n) (hs : str src = .send tag m :: rest) (h : Runs n (f m.count) str rem Q c) :
    Runs n (Prog.probe src tag (fun n => Prog.ret (.ok n)) >>= f) str rem Q (c + 1) :=
  .probe h0 hn hs h

theorem probeSizes_runs {n : Nat} (f : Nat → List (List D)) (h8 : ∀ i < n, Eight (f i)) (str : Streams D)
    (hstr : ∀ i, 0 < i → i < n → ∃ rest, str i = .send 1 (.doubles (f i).flatten) :: rest) :
    ∀ (c i t : Nat), 0 < i → i + c = n → t + (rowsFrom f i c).length * 8 < 2 ^ 31 →
      Runs n (probeSizes c i (t : Int) : Prog D (List Nat × Int)) str str
        (· = ((List.range' i c).map fun j => (f j).length * 8,
          ((t + (rowsFrom f i c).length * 8 : Nat) : Int))) c := by
  intro c
  induction c with
  | zero =>
    intro i t _ _ _
    exact .ret (by simp [rowsFrom_zero])
  | succ c ih =>
    intro i t h0 hi ht
    rw [rowsFrom_succ, List.length_append] at ht
    obtain ⟨rest, hr⟩ := hstr i h0 (by omega)
    unfold probeSizes
    refine probe_runs _ h0 (by omega) hr ?_
    simp only [Msg.count]
    rw [(h8 i (by omega)).length, addInt_small (by omega), lift_ok_bind]
    have h := ih (i + 1) (t + (f i).length * 8) (by omega) (by omega) (by omega)
    have h2 := Runs.eqBind (R := (· = ((List.range' i (c + 1)).map fun j => (f j).length * 8,
          ((t + (rowsFrom f i (c + 1)).length * 8 : Nat) : Int)))) (c2 := 0)
        (f := fun (x : List Nat × Int) => Prog.ret (.ok ((f i).length * 8 :: x.1, x.2))) h (.ret (by
          rw [rowsFrom_succ, List.length_append]
          simp only [List.range'_succ, List.map_cons, Prod.mk.injEq, true_and]
          congr 1
          omega))
    exact h2

theorem recvDoubles_runs {n src tag : Nat} {str rem : Streams D} {α : Type} {Q : α → Prop} {c : Nat}
    {rows : List (List D)} {rest : List (Act D)} (f : Buf D → Prog D α) (h8 : Eight rows) (h0 : 0 < src)
    (hn : src < n) (hs : str src = .send tag (.doubles rows.flatten) :: rest)
    (h : Runs n (f (full rows)) (Function.update str src rest) rem Q c) :
    Runs n (recvDoubles src tag ((rows.length * 8 : Nat) : Int) >>= f) str rem Q (c + 1) := by
  unfold recvDoubles
  rw [newInt_nat]
  refine .recv h0 hn hs ?_
  change Runs n (Prog.ret (asDoubles _ _) >>= f) _ _ _ _
  have : asDoubles ((rows.length * 8 : Nat) : Int) (.doubles rows.flatten) = .ok (full rows) := by
    simp only [asDoubles]
    rw [if_pos (by rw [h8.length])]
    simp [full, ← h8.length]
  rw [this]
  exact h

theorem recvPrimaries_runs {n : Nat} (f : Nat → List (List D)) (h8 : ∀ i < n, Eight (f i))
    (hb : ∀ i, 0 < i → i < n → (f i).length < 2 ^ 28) (a b : Streams D)
    (hstr : ∀ i, 0 < i → i < n → b i = .send 1 (.doubles (f i).flatten) :: a i) :
    ∀ (c i : Nat) (acc : List (List D)), 0 < i → i + c = n → Eight acc →
      Runs n (recvPrimaries ((List.range' i c).map fun j => (f j).length * 8) i
          (full acc ++ List.replicate ((rowsFrom f i c).length * 8) none) (acc.length * 8))
        (mix i (clip n a) (clip n b)) (clip n a) (· = full (acc ++ rowsFrom f i c)) c := by
  intro c
  induction c with
  | zero =>
    intro i acc _ hi _
    have : i = n := by omega
    subst this
    rw [mix_last]
    exact .ret (by simp [rowsFrom_zero])
  | succ c ih =>
    intro i acc h0 hi hacc
    simp only [List.range'_succ, List.map_cons, recvPrimaries]
    have hin : i < n := by omega
    refine recvDoubles_runs _ (h8 i hin) h0 hin ((mix_at h0 hin a b).trans (hstr i h0 hin)) ?_
    have hdiv : (f i).length * 8 / 8 = (f i).length := by omega
    have := copyRowsL_eq (h8 i hin) (by have := hb i h0 (by omega); omega) (f i).length 0 acc
      (rowsFrom f (i + 1) c).length (by omega) hacc
    rw [rowsFrom_succ, List.length_append, hdiv, this, lift_ok_bind, mix_update h0 (by omega)]
    simp only [List.drop_zero]
    have h2 := ih (i + 1) (acc ++ f i) (by omega) (by omega)
      (fun x hx => (List.mem_append.1 hx).elim (hacc x) (h8 i hin x))
    rw [List.append_assoc] at h2
    exact h2

theorem recvInt_runs {n src tag : Nat} {str rem : Streams D} {α : Type} {Q : α → Prop} {c : Nat}
    {z : Int} {rest : List (Act D)} (f : Int → Prog D α) (h0 : 0 < src)
    (hn : src < n) (hs : str src = .send tag (.int z) :: rest)
    (h : Runs n (f z) (Function.update str src rest) rem Q c) :
    Runs n (recvInt src tag >>= f) str rem Q (c + 1) :=
  .recv h0 hn hs h

theorem recvSizes_runs {n : Nat} (e p g : Nat → List (List D)) (a b : Streams D)
    (hstr : ∀ i, 0 < i → i < n → b i = .send 2 (.int ((e i).length * 8 : Nat)) ::
      .send 3 (.int ((p i).length * 8 : Nat)) :: .send 4 (.int ((g i).length * 8 : Nat)) :: a i) :
    ∀ (c i te tp tg : Nat), 0 < i → i + c = n → te + (rowsFrom e i c).length * 8 < 2 ^ 31 →
      tp + (rowsFrom p i c).length * 8 < 2 ^ 31 → tg + (rowsFrom g i c).length * 8 < 2 ^ 31 →
      Runs n (recvSizes c i ⟨te, tp, tg⟩ : Prog D (List Sizes × Sizes))
        (mix i (clip n a) (clip n b)) (clip n a)
        (· = ((List.range' i c).map fun j => ⟨((e j).length * 8 : Nat), ((p j).length * 8 : Nat),
            ((g j).length * 8 : Nat)⟩,
          ⟨(te + (rowsFrom e i c).length * 8 : Nat), (tp + (rowsFrom p i c).length * 8 : Nat),
            (tg + (rowsFrom g i c).length * 8 : Nat)⟩)) (3 * c) := by
  intro c
  induction c with
  | zero =>
    intro i te tp tg _ hi _ _ _
    have : i = n := by omega
    subst this
    rw [mix_last]
    exact .ret (by simp [rowsFrom_zero])
  | succ c ih =>
    intro i te tp tg h0 hi h1 h2 h3
    rw [rowsFrom_succ, List.length_append] at h1 h2 h3
    have hin : i < n := by omega
    unfold recvSizes
    refine recvInt_runs _ h0 hin (by rw [mix_at h0 hin]; exact hstr i h0 hin) ?_
    rw [addInt_small (by omega), lift_ok_bind]
    refine recvInt_runs _ h0 hin (by rw [Function.update_self]) ?_
    rw [addInt_small (by omega), lift_ok_bind, Function.update_idem]
    refine recvInt_runs _ h0 hin (by rw [Function.update_self]) ?_
    rw [addInt_small (by omega), lift_ok_bind, Function.update_idem, mix_update h0 hin]
    have h := ih (i + 1) (te + (e i).length * 8) (tp + (p i).length * 8) (tg + (g i).length * 8)
      (by omega) (by omega) (by omega) (by omega) (by omega)
    refine Runs.eqBind (c2 := 0) h (.ret ?_)
    simp only [rowsFrom_succ, List.length_append, List.range'_succ, List.map_cons, Prod.mk.injEq,
      Sizes.mk.injEq, true_and]
    refine ⟨?_, ?_, ?_⟩ <;> congr 1 <;> omega

theorem recvPart_runs {n i tag : Nat} {str rem : Streams D} {α : Type} {Q : α → Prop} {c : Nat}
    {rows : List (List D)} {rest : List (Act D)} (f : Part D → Prog D α) (h8 : Eight rows) (h0 : 0 < i)
    (hn : i < n) (hb : rows.length < 2 ^ 28) (hs : str i = .send tag (.doubles rows.flatten) :: rest)
    (acc : List (List D)) (hacc : Eight acc) (r : Nat)
    (h : Runs n (f (full (acc ++ rows) ++ List.replicate (r * 8) none, (acc ++ rows).length * 8))
      (Function.update str i rest) rem Q c) :
    Runs n (recvPart i tag ((rows.length * 8 : Nat) : Int)
      (full acc ++ List.replicate ((rows.length + r) * 8) none, acc.length * 8) >>= f) str rem Q (c + 1) := by
  unfold recvPart
  rw [bind_assoc]
  refine recvDoubles_runs _ h8 h0 hn hs ?_
  have hd : (((rows.length * 8 : Nat) : Int).tdiv 8).toNat = rows.length := by
    rw [Int.tdiv_eq_ediv_of_nonneg (by omega)]; omega
  rw [hd, copyRowsL_eq h8 (by omega) rows.length 0 acc r (by omega) hacc, lift_ok_bind, List.drop_zero]
  exact h

theorem recvArrays_runs {n : Nat} (e p g : Nat → List (List D)) (he : ∀ i < n, Eight (e i))
    (hp : ∀ i < n, Eight (p i)) (hg : ∀ i < n, Eight (g i))
    (hb : ∀ i, 0 < i → i < n → (e i).length < 2 ^ 28 ∧ (p i).length < 2 ^ 28 ∧ (g i).length < 2 ^ 28)
    (a b : Streams D)
    (hstr : ∀ i, 0 < i → i < n → b i = .send 2 (.doubles (e i).flatten) ::
      .send 3 (.doubles (p i).flatten) :: .send 4 (.doubles (g i).flatten) :: a i) :
    ∀ (c i : Nat) (ae ap ag : List (List D)), 0 < i → i + c = n → Eight ae → Eight ap → Eight ag →
      Runs n (recvArrays ((List.range' i c).map fun j => ⟨((e j).length * 8 : Nat),
            ((p j).length * 8 : Nat), ((g j).length * 8 : Nat)⟩) i
          (full ae ++ List.replicate ((rowsFrom e i c).length * 8) none, ae.length * 8)
          (full ap ++ List.replicate ((rowsFrom p i c).length * 8) none, ap.length * 8)
          (full ag ++ List.replicate ((rowsFrom g i c).length * 8) none, ag.length * 8))
        (mix i (clip n a) (clip n b)) (clip n a)
        (· = ((full (ae ++ rowsFrom e i c), (ae ++ rowsFrom e i c).length * 8),
          (full (ap ++ rowsFrom p i c), (ap ++ rowsFrom p i c).length * 8),
          (full (ag ++ rowsFrom g i c), (ag ++ rowsFrom g i c).length * 8))) (3 * c) := by
  intro c
  induction c with
  | zero =>
    intro i ae ap ag _ hi _ _ _
    have : i = n := by omega
    subst this
    rw [mix_last]
    exact .ret (by simp [rowsFrom_zero])
  | succ c ih =>
    intro i ae ap ag h0 hi h1 h2 h3
    have hin : i < n := by omega
    obtain ⟨b1, b2, b3⟩ := hb i h0 hin
    simp only [rowsFrom_succ, List.length_append, List.range'_succ, List.map_cons, recvArrays]
    refine recvPart_runs _ (he i hin) h0 hin b1 ((mix_at h0 hin a b).trans (hstr i h0 hin)) ae h1 _ ?_
    refine recvPart_runs _ (hp i hin) h0 hin b2 (by rw [Function.update_self]) ap h2 _ ?_
    rw [Function.update_idem]
    refine recvPart_runs _ (hg i hin) h0 hin b3 (by rw [Function.update_self]) ag h3 _ ?_
    rw [Function.update_idem, mix_update h0 hin]
    have happ : ∀ {x y : List (List D)}, Eight x → Eight y → Eight (x ++ y) :=
      fun hx hy r hr => (List.mem_append.1 hr).elim (hx r) (hy r)
    have h := ih (i + 1) (ae ++ e i) (ap ++ p i) (ag ++ g i) (by omega) (by omega) (happ h1 (he i hin))
      (happ h2 (hp i hin)) (happ h3 (hg i hin))
    simp only [List.append_assoc, List.length_append] at h ⊢
    exact h

/-- A file to which everything can be written. -/
def Sink.total (group : L → L) (table : L → String → Nat → Buf D → L)
    (hist : L → Hist D → List D → L) : Sink D L where
  group l := .ok (group l)
  table l name rows b := .ok (table l name rows b)
  hist l h v := .ok (hist l h v)

theorem sinkTable_eq (group : L → L) (table : L → String → Nat → Buf D → L)
    (hist : L → Hist D → List D → L) (l : L) (name : String) (rows : List (List D)) :
    sinkTable (Sink.total group table hist) l name ((rows.length * 8 : Nat) : Int) (full rows) =
      .ok (putTable table l name rows) := by
  have hd : (((rows.length * 8 : Nat) : Int).tdiv 8).toNat = rows.length := by
    rw [Int.tdiv_eq_ediv_of_nonneg (by omega)]; omega
  unfold sinkTable putTable
  by_cases h : rows = []
  · subst h; simp
  · have := List.length_pos_iff.2 h
    rw [if_pos (by omega), if_neg h, hd]
    rfl

theorem masterEvents_runs {n : Nat} (hn : 0 < n) (group : L → L) (table : L → String → Nat → Buf D → L)
    (hist : L → Hist D → List D → L) {m : OutMgr D} (d : Nat → RankData D) (h0 : HoldsRows m (d 0))
    (h8 : ∀ i < n, Eight (d i).prim ∧ Eight (d i).e.flatten ∧ Eight (d i).p.flatten ∧
      Eight (d i).g.flatten)
    (hprim : (rowsFrom (fun i => (d i).prim) 0 n).length < 2 ^ 28)
    (he : (rowsFrom (fun i => (d i).e.flatten) 0 n).length < 2 ^ 28)
    (hp : (rowsFrom (fun i => (d i).p.flatten) 0 n).length < 2 ^ 28)
    (hg : (rowsFrom (fun i => (d i).g.flatten) 0 n).length < 2 ^ 28) (l : L) :
    Runs n (masterEvents (Sink.total group table hist) n m l) (clip n fun i => (d i).acts)
      (clip n fun _ => [])
      (· = putEvents group table (rowsFrom (fun i => (d i).prim) 0 n)
        (rowsFrom (fun i => (d i).e.flatten) 0 n) (rowsFrom (fun i => (d i).p.flatten) 0 n)
        (rowsFrom (fun i => (d i).g.flatten) 0 n) l) (8 * (n - 1)) := by
  obtain ⟨k, rfl⟩ : ∃ k, n = k + 1 := ⟨n - 1, by omega⟩
  have hmem : ∀ (f : Nat → List (List D)) (i : Nat), i < k + 1 →
      (f i).length ≤ (rowsFrom f 0 (k + 1)).length := by
    intro f i hi
    unfold rowsFrom
    rw [List.length_flatMap]
    exact List.le_sum_of_mem (List.mem_map.2 ⟨i, by simp; omega, rfl⟩)
  have hsplit : ∀ f : Nat → List (List D), rowsFrom f 0 (k + 1) = f 0 ++ rowsFrom f 1 k :=
    fun f => rowsFrom_succ f 0 k
  have s1 := fun i (hi : i < k + 1) => lt_of_le_of_lt (hmem (fun i => (d i).prim) i hi) hprim
  have s2 := fun i (hi : i < k + 1) => lt_of_le_of_lt (hmem (fun i => (d i).e.flatten) i hi) he
  have s3 := fun i (hi : i < k + 1) => lt_of_le_of_lt (hmem (fun i => (d i).p.flatten) i hi) hp
  have s4 := fun i (hi : i < k + 1) => lt_of_le_of_lt (hmem (fun i => (d i).g.flatten) i hi) hg
  have l1 := hprim
  have l2 := he
  have l3 := hp
  have l4 := hg
  rw [hsplit, List.length_append] at l1 l2 l3 l4
  -- the copy of the own rows
  have key : ∀ (evs : List (List (List D))) (r : Nat), (∀ x ∈ evs, Eight x) →
      evs.flatten.length < 2 ^ 28 →
      copyEventsL (evs.map fun e => some (full e)) (evs.map List.length)
        (List.replicate (evs.flatten.length * 8 + r * 8) none) 0 =
        .ok (full evs.flatten ++ List.replicate (r * 8) none, evs.flatten.length * 8) := by
    intro evs r h8 hl
    have := copyEventsL_eq evs (fun e he => ⟨h8 e he, lt_of_le_of_lt (length_le_total he)
      (by rw [total_flatten]; omega)⟩) [] (by simp [Eight]) r
    simp only [full_nil, List.nil_append, List.length_nil, Nat.zero_mul] at this
    rw [← Nat.add_mul, ← total_flatten, this, total_flatten]
  have t : ∀ (evs : List (List (List D))), totalRows (evs.map List.length) = evs.flatten.length := by
    intro evs; rw [totalRows_eq, ← total_flatten]; rfl
  let A : Streams D := fun i => [.send 2 (.int (((d i).e.flatten.length * 8 : Nat) : Int)),
    .send 3 (.int (((d i).p.flatten.length * 8 : Nat) : Int)),
    .send 4 (.int (((d i).g.flatten.length * 8 : Nat) : Int)),
    .send 2 (.doubles (d i).e.flatten.flatten), .send 3 (.doubles (d i).p.flatten.flatten),
    .send 4 (.doubles (d i).g.flatten.flatten)]
  let B : Streams D := fun i => [.send 2 (.doubles (d i).e.flatten.flatten),
    .send 3 (.doubles (d i).p.flatten.flatten), .send 4 (.doubles (d i).g.flatten.flatten)]
  rw [show 8 * (k + 1 - 1) = k + (k + (3 * k + (3 * k + 0))) by omega]
  unfold masterEvents
  rw [h0.prim, h0.e, h0.p, h0.g, h0.ec, h0.pc, h0.gc]
  simp only [List.length_map, Nat.add_sub_cancel, t]
  rw [i32_small (by have := s1 0 hn; omega), i32_small (by have := s2 0 hn; omega),
    i32_small (by have := s3 0 hn; omega), i32_small (by have := s4 0 hn; omega)]
  change Runs _ (probeSizes k 1 _ >>= _) _ _ _ _
  refine Runs.eqBind (probeSizes_runs (n := k + 1) (fun i => (d i).prim) (fun i hin => (h8 i hin).1) _
    (fun i hi hin => ⟨A i, by simp [clip, hi, hin, RankData.acts, A]⟩) k 1 ((d 0).prim.length * 8)
    (by omega) (by omega) (by omega)) ?_
  dsimp only
  rw [newInt_nat, lift_ok_bind]
  have cp := copyPrimaryL_eq (d 0).prim (h8 0 hn).1 [] (by simp [Eight])
    (rowsFrom (fun i => (d i).prim) 1 k).length
  simp only [full_nil, List.nil_append, List.length_nil, Nat.add_mul] at cp
  rw [cp, lift_ok_bind]
  rw [← mix_one (k + 1) A]
  refine Runs.eqBind (recvPrimaries_runs (n := k + 1) (fun i => (d i).prim) (fun i hin => (h8 i hin).1)
    (fun i _ hin => s1 i hin) A _ (fun i hi hin => rfl) k 1 (d 0).prim (by omega) (by omega)
    (h8 0 hn).1) ?_
  rw [← mix_one (k + 1) B]
  change Runs _ (recvSizes k 1 _ >>= _) _ _ _ _
  refine Runs.eqBind (recvSizes_runs (n := k + 1) (fun i => (d i).e.flatten)
    (fun i => (d i).p.flatten) (fun i => (d i).g.flatten) B A (fun i hi hin => rfl) k 1
    _ _ _ (by omega) (by omega) (by omega) (by omega) (by omega)) ?_
  dsimp only
  rw [newInt_nat, lift_ok_bind, newInt_nat, lift_ok_bind, newInt_nat, lift_ok_bind,
    key _ _ h0.e8 (s2 0 hn), lift_ok_bind, key _ _ h0.p8 (s3 0 hn), lift_ok_bind,
    key _ _ h0.g8 (s4 0 hn), lift_ok_bind]
  rw [← mix_one (k + 1) (fun _ => [])]
  refine Runs.eqBind (recvArrays_runs (n := k + 1) (fun i => (d i).e.flatten)
    (fun i => (d i).p.flatten) (fun i => (d i).g.flatten) (fun i hin => (h8 i hin).2.1)
    (fun i hin => (h8 i hin).2.2.1) (fun i hin => (h8 i hin).2.2.2) (fun i _ hin => ⟨s2 i hin, s3 i hin, s4 i hin⟩)
    (fun _ => []) B (fun i hi hin => rfl) k 1 _ _ _ (by omega) (by omega) (h8 0 hn).2.1 (h8 0 hn).2.2.1
    (h8 0 hn).2.2.2) ?_
  dsimp only
  simp only [← Nat.add_mul, ← List.length_append]
  rw [sinkTable_eq, lift_ok_bind, sinkTable_eq, lift_ok_bind, sinkTable_eq]
  refine .ret ?_
  have hd : ∀ r : Nat, (((r * 8 : Nat) : Int).tdiv 8).toNat = r := by
    intro r
    rw [Int.tdiv_eq_ediv_of_nonneg (by omega)]; omega
  rw [hsplit, hsplit, hsplit, hsplit, hd]
  rfl

/-! ### Histograms -/

/-- Bin by bin. -/
def addVals (a b : List D) : List D := List.zipWith (· +. ·) a b

theorem addVals_length {a b : List D} (h : a.length = b.length) : (addVals a b).length = a.length := by
  simp [addVals, h]

theorem addBins_eq (w : List D) : ∀ (vs pre : List D), pre.length + vs.length = w.length →
    addBins vs (w.map some) pre.length = .ok (addVals vs (w.drop pre.length)) := by
  intro vs
  induction vs with
  | nil => intro pre _; simp [addBins, addVals]
  | cons v vs ih =>
    intro pre h
    simp only [List.length_cons] at h
    have hi : pre.length < w.length := by omega
    have hr : Buf.read (w.map some) pre.length = .ok w[pre.length] := by simp [Buf.read, hi]
    have := ih (pre ++ [v]) (by simp; omega)
    simp only [List.length_append, List.length_cons, List.length_nil, Nat.zero_add] at this
    simp only [addBins, hr, Res.ok_bind, this]
    rw [List.drop_eq_getElem_cons hi]
    simp only [addVals, List.zipWith_cons_cons]

/-- The values after those of the ranks in `l` have been added, in this order. -/
def sumIn (v : Nat → List D) (values : List D) (l : List Nat) : List D :=
  l.foldl (fun acc j => addVals acc (v j)) values

theorem recvAny_runs {n tag : Nat} {str rem : Streams D} {α β : Type} {Q : α → Prop} {c : Nat}
    (g : Msg D → Res β) (f : β → Prog D α)
    (h1 : ∃ i, 0 < i ∧ i < n ∧ ∃ m rest, str i = .send tag m :: rest)
    (h2 : ∀ i, 0 < i → i < n → (∃ m rest, str i = .send tag m :: rest) ∨ ∃ rest, str i = .barrier :: rest)
    (h3 : ∀ i m rest, 0 < i → i < n → str i = .send tag m :: rest →
      Runs n (lift (g m) >>= f) (Function.update str i rest) rem Q c) :
    Runs n (Prog.recvAny tag (fun m => Prog.ret (g m)) >>= f) str rem Q (c + 1) :=
  .recvAny h1 h2 h3

theorem recvHists_runs {n nBins : Nat} (v : Nat → List D)
    (hv : ∀ i, 0 < i → i < n → (v i).length = nBins) :
    ∀ (todo : List Nat) (values : List D), todo.Nodup → (∀ i ∈ todo, 0 < i ∧ i < n) →
      values.length = nBins →
      Runs n (recvHists nBins todo.length values)
        (clip n fun j => if j ∈ todo then [.send 0 (.doubles (v j)), .barrier] else [.barrier])
        (clip n fun _ => [.barrier]) (fun out => ∃ l, l.Perm todo ∧ out = sumIn v values l)
        todo.length := by
  intro todo
  generalize hk : todo.length = k
  induction k generalizing todo with
  | zero =>
    intro values _ _ _
    have : todo = [] := List.length_eq_zero_iff.1 hk
    subst this
    simp only [List.not_mem_nil, if_false]
    exact .ret ⟨[], List.Perm.nil, rfl⟩
  | succ k ih =>
    intro values hnd hin hlen
    unfold recvHists
    refine recvAny_runs _ _ ?_ ?_ ?_
    · obtain ⟨i, rest, rfl⟩ := List.exists_cons_of_length_pos (l := todo) (by omega)
      have := hin i (by simp)
      exact ⟨i, this.1, this.2, .doubles (v i), [.barrier], by simp [clip, this]⟩
    · intro i h0 hn
      by_cases hi : i ∈ todo
      · exact .inl ⟨.doubles (v i), [.barrier], by simp [clip, h0, hn, hi]⟩
      · exact .inr ⟨[], by simp [clip, h0, hn, hi]⟩
    · intro i m rest h0 hn hs
      have hi : i ∈ todo := by
        by_contra hi
        simp [clip, h0, hn, hi] at hs
      simp only [clip, h0, hn, hi, and_self, if_true, List.cons.injEq, Act.send.injEq, true_and] at hs
      obtain ⟨rfl, rfl⟩ := hs
      have hd : asDoubles (nBins : Int) (.doubles (v i)) = .ok ((v i).map some) := by
        simp only [asDoubles]
        rw [hv i h0 hn, if_pos (le_refl _)]
        simp
      have hadd := addBins_eq (v i) values [] (by rw [hv i h0 hn]; simpa using hlen)
      simp only [List.length_nil, List.drop_zero] at hadd
      rw [hd, lift_ok_bind, hadd, lift_ok_bind]
      have hup : Function.update (clip n fun j => if j ∈ todo then
            [.send 0 (.doubles (v j)), .barrier] else [.barrier]) i [.barrier] =
          clip n fun j => if j ∈ todo.erase i then [.send 0 (.doubles (v j)), .barrier]
            else [.barrier] := by
        funext j
        by_cases hj : j = i
        · subst hj; simp [clip, h0, hn, hnd.mem_erase_iff]
        · simp [clip, hj, hnd.mem_erase_iff]
      rw [hup]
      have h := ih (todo.erase i) (by rw [List.length_erase_of_mem hi, hk]; rfl)
        (addVals values (v i)) (hnd.erase i) (fun j hj => hin j (List.mem_of_mem_erase hj))
        (by rw [addVals_length (by rw [hlen, hv i h0 hn]), hlen])
      refine h.imp ?_
      rintro a ⟨l, hl, rfl⟩
      exact ⟨i :: l, (List.Perm.cons i hl).trans (List.perm_cons_erase hi).symm, rfl⟩

/-- The other ranks. -/
def others (n : Nat) : List Nat := List.range' 1 (n - 1)

theorem mem_others {n i : Nat} : i ∈ others n ↔ 0 < i ∧ i < n := by
  simp [others]; omega

/-- What a slave sends for a histogram. -/
def histActs (h : Hist D) : List (Act D) := [.send 0 (.doubles h.values), .barrier]

theorem masterHist_runs {n : Nat} (group : L → L) (table : L → String → Nat → Buf D → L)
    (hist : L → Hist D → List D → L) (h : Nat → Hist D) (nBins : Nat)
    (hb : ∀ i < n, (h i).nBins = nBins ∧ (h i).values.length = nBins) (hn : 0 < n) (l : L) :
    Runs n (outputHistMPI (Sink.total group table hist) n 0 (h 0) l) (clip n fun i => histActs (h i))
      (clip n fun _ => [])
      (fun l' => ∃ order, order.Perm (others n) ∧
        l' = hist l (h 0) (sumIn (fun i => (h i).values) (h 0).values order)) ((n - 1) + 1) := by
  unfold outputHistMPI masterHist
  rw [if_pos rfl]
  have hown : ownBins (h 0) = .ok (h 0).values := by
    obtain ⟨h1, h2⟩ := hb 0 hn
    unfold ownBins
    rw [Buf.readRow_full _ _ _ (by omega), h1, ← h2]
    simp
  rw [hown, lift_ok_bind, bind_assoc, (hb 0 hn).1]
  have hr := recvHists_runs (n := n) (fun i => (h i).values) (fun i _ hin => (hb i hin).2) (others n)
    (h 0).values (List.nodup_range' (step := 1)) (fun i hi => mem_others.1 hi) (hb 0 hn).2
  have hlen : (others n).length = n - 1 := by simp [others]
  have hstr : (clip n fun j => if j ∈ others n then
        [.send 0 (.doubles (h j).values), .barrier] else [.barrier]) =
      clip n fun i => histActs (h i) := by
    funext j
    unfold clip
    by_cases hj : 0 < j ∧ j < n
    · rw [if_pos hj, if_pos hj]; dsimp only; rw [if_pos (mem_others.2 hj)]; rfl
    · rw [if_neg hj, if_neg hj]
  rw [hlen, hstr] at hr
  refine hr.bind ?_
  rintro a ⟨order, ho, rfl⟩
  refine .barrier (str' := clip n fun _ => []) ?_ ?_ ?_ (.ret ⟨order, ho, rfl⟩)
  · intro i h0 hin
    simp [clip, h0, hin]
  · simp [clip]
  · intro i hi
    simp [clip]; omega

theorem slaveHist_eq (S : Sink D L) (n id : Nat) (hid : id ≠ 0) (h : Hist D)
    (hb : h.values.length = h.nBins) (hs : h.nBins < 2 ^ 31) (l : L) :
    outputHistMPI S n id h l = pre (histActs h) (.ret (.ok l)) := by
  unfold outputHistMPI
  rw [if_neg hid, sendDoubles_bind 0 h.values h.nBins hb.symm hs]
  rfl

/-! ### A whole run -/

/-- One source on all ranks. -/
structure Source (D : Type) where
  out : Bool
  mgr : Nat → OutMgr D
  data : Nat → RankData D

/-- The managers hold the data, and the tables of all ranks together have fewer than `2 ^ 28` rows. -/
structure Source.Good (n : Nat) (s : Source D) : Prop where
  holds : ∀ i < n, HoldsRows (s.mgr i) (s.data i)
  prim : (rowsFrom (fun i => (s.data i).prim) 0 n).length < 2 ^ 28
  e : (rowsFrom (fun i => (s.data i).e.flatten) 0 n).length < 2 ^ 28
  p : (rowsFrom (fun i => (s.data i).p.flatten) 0 n).length < 2 ^ 28
  g : (rowsFrom (fun i => (s.data i).g.flatten) 0 n).length < 2 ^ 28

/-- The result of one source. -/
def Source.put (n : Nat) (group : L → L) (table : L → String → Nat → Buf D → L) (l : L) (s : Source D) :
    L :=
  if s.out then putEvents group table (rowsFrom (fun i => (s.data i).prim) 0 n)
    (rowsFrom (fun i => (s.data i).e.flatten) 0 n) (rowsFrom (fun i => (s.data i).p.flatten) 0 n)
    (rowsFrom (fun i => (s.data i).g.flatten) 0 n) l
  else l

/-- What a slave sends for a source. -/
def Source.acts (s : Source D) (i : Nat) : List (Act D) := if s.out then (s.data i).acts else []

theorem length_rowsFrom_le {n i : Nat} (f : Nat → List (List D)) (hi : i < n) :
    (f i).length ≤ (rowsFrom f 0 n).length := by
  unfold rowsFrom
  rw [List.length_flatMap]
  exact List.le_sum_of_mem (List.mem_map.2 ⟨i, by simp; omega, rfl⟩)

theorem Source.Good.small {n : Nat} {s : Source D} (h : s.Good n) {i : Nat} (hi : i < n) :
    (s.data i).Small :=
  ⟨lt_of_le_of_lt (length_rowsFrom_le (fun i => (s.data i).prim) hi) h.prim,
    lt_of_le_of_lt (length_rowsFrom_le (fun i => (s.data i).e.flatten) hi) h.e,
    lt_of_le_of_lt (length_rowsFrom_le (fun i => (s.data i).p.flatten) hi) h.p,
    lt_of_le_of_lt (length_rowsFrom_le (fun i => (s.data i).g.flatten) hi) h.g⟩

theorem clip_append (n : Nat) (f g : Streams D) :
    (fun i => clip n f i ++ clip n g i) = clip n fun i => f i ++ g i := by
  funext i; unfold clip; split <;> simp

theorem clip_nil (n : Nat) : (clip n fun _ => ([] : List (Act D))) = fun _ => [] := by
  funext i; simp [clip]

/-- One program after another. -/
theorem Runs.seq {n : Nat} {α β : Type} {p : Prog D α} {f : α → Prog D β} {s1 s2 : Streams D}
    {Q : α → Prop} {R : β → Prop} {c1 c2 : Nat} (h : Runs n p (clip n s1) (clip n fun _ => []) Q c1)
    (hf : ∀ a, Q a → Runs n (f a) (clip n s2) (clip n fun _ => []) R c2) :
    Runs n (p >>= f) (clip n fun i => s1 i ++ s2 i) (clip n fun _ => []) R (c1 + c2) := by
  have h1 := h.frame (clip n s2)
  rw [clip_append, clip_append] at h1
  simp only [List.nil_append] at h1
  exact h1.bind hf

theorem masterSource_runs {n : Nat} (hn : 0 < n) (group : L → L)
    (table : L → String → Nat → Buf D → L) (hist : L → Hist D → List D → L) (s : Source D)
    (hs : s.Good n) : ∃ c, ∀ l, Runs n (outputEventsMPI (Sink.total group table hist) n 0 s.out (s.mgr 0) l)
        (clip n fun i => s.acts i) (clip n fun _ => []) (· = Source.put n group table l s) c := by
  by_cases ho : s.out = true
  · refine ⟨8 * (n - 1), fun l => ?_⟩
    simp only [outputEventsMPI, Source.acts, Source.put, ho, if_true]
    exact masterEvents_runs hn group table hist s.data (hs.holds 0 hn) (fun i hi =>
      ⟨(hs.holds i hi).prim8, eight_flatten (hs.holds i hi).e8, eight_flatten (hs.holds i hi).p8,
        eight_flatten (hs.holds i hi).g8⟩) hs.prim hs.e hs.p hs.g l
  · refine ⟨0, fun l => ?_⟩
    simp only [outputEventsMPI, Source.acts, Source.put, ho]
    exact .ret rfl

theorem masterSources_runs {n : Nat} (hn : 0 < n) (group : L → L)
    (table : L → String → Nat → Buf D → L) (hist : L → Hist D → List D → L) :
    ∀ (srcs : List (Source D)), (∀ s ∈ srcs, s.Good n) →
      ∃ c, ∀ l, Runs n (runSources (Sink.total group table hist) n 0
          (srcs.map fun s => (s.out, s.mgr 0)) l)
        (clip n fun i => (srcs.map fun s => s.acts i).flatten) (clip n fun _ => [])
        (· = srcs.foldl (Source.put n group table) l) c := by
  intro srcs
  induction srcs with
  | nil => exact fun _ => ⟨0, fun l => .ret rfl⟩
  | cons s srcs ih =>
    intro h
    obtain ⟨c1, h1⟩ := masterSource_runs hn group table hist s (h s (by simp))
    obtain ⟨c2, h2⟩ := ih fun s hs => h s (by simp [hs])
    refine ⟨c1 + c2, fun l => ?_⟩
    simp only [List.map_cons, runSources, List.flatten_cons]
    exact (h1 l).seq fun a ha => by subst ha; exact h2 _

/-- The results of the histograms, for some order of arrival of each. -/
def HistsPut (n : Nat) (hist : L → Hist D → List D → L) : List (Nat → Hist D) → L → L → Prop
  | [], l, l' => l' = l
  | h :: hs, l, l' => ∃ order, order.Perm (others n) ∧
      HistsPut n hist hs (hist l (h 0) (sumIn (fun i => (h i).values) (h 0).values order)) l'

/-- A histogram that has the same number of bins on all ranks. -/
def GoodHist (n : Nat) (h : Nat → Hist D) : Prop :=
  (h 0).nBins < 2 ^ 31 ∧ ∀ i < n, (h i).nBins = (h 0).nBins ∧ (h i).values.length = (h 0).nBins

theorem masterHists_runs {n : Nat} (hn : 0 < n) (group : L → L)
    (table : L → String → Nat → Buf D → L) (hist : L → Hist D → List D → L) :
    ∀ (hs : List (Nat → Hist D)) (l : L), (∀ h ∈ hs, GoodHist n h) →
      Runs n (runHists (Sink.total group table hist) n 0 (hs.map fun h => h 0) l)
        (clip n fun i => (hs.map fun h => histActs (h i)).flatten) (clip n fun _ => [])
        (HistsPut n hist hs l) (hs.length * ((n - 1) + 1)) := by
  intro hs
  induction hs with
  | nil => intro l _; rw [List.length_nil, Nat.zero_mul]; exact .ret rfl
  | cons h hs ih =>
    intro l hg
    simp only [List.map_cons, runHists, List.flatten_cons, List.length_cons]
    rw [Nat.succ_mul, Nat.add_comm (hs.length * _)]
    refine (masterHist_runs group table hist h _ (hg h (by simp)).2 hn l).seq ?_
    rintro a ⟨order, ho, rfl⟩
    exact (ih _ fun x hx => hg x (by simp [hx])).imp fun a ha => ⟨order, ho, ha⟩

theorem slaveSources_bind {α : Type} {n id : Nat} (hid : id ≠ 0) (hin : id < n) (S : Sink D L) :
    ∀ (srcs : List (Source D)) (l : L) (f : L → Prog D α), (∀ s ∈ srcs, s.Good n) →
      (runSources S n id (srcs.map fun s => (s.out, s.mgr id)) l >>= f) =
        pre (srcs.map fun s => s.acts id).flatten (f l) := by
  intro srcs
  induction srcs with
  | nil => intros; rfl
  | cons s srcs ih =>
    intro l f h
    have hs := h s (by simp)
    simp only [List.map_cons, runSources, List.flatten_cons, bind_assoc]
    rw [← pre_append]
    by_cases ho : s.out = true
    · simp only [outputEventsMPI, Source.acts, ho, if_true, hid, if_false, bind_assoc]
      rw [slaveEvents_bind (hs.holds id hin) (hs.small hin), ret_ok_bind,
        ih l f fun x hx => h x (by simp [hx])]
      rfl
    · have ho' : s.out = false := by simpa using ho
      simp only [outputEventsMPI, Source.acts, ho']
      exact ih l f fun x hx => h x (by simp [hx])

theorem slaveHists_eq {n id : Nat} (hid : id ≠ 0) (hin : id < n) (S : Sink D L) :
    ∀ (hs : List (Nat → Hist D)) (l : L), (∀ h ∈ hs, GoodHist n h) →
      runHists S n id (hs.map fun h => h id) l =
        pre (hs.map fun h => histActs (h id)).flatten (.ret (.ok l)) := by
  intro hs
  induction hs with
  | nil => intros; rfl
  | cons h hs ih =>
    intro l hg
    obtain ⟨h1, h2⟩ := hg h (by simp)
    obtain ⟨h3, h4⟩ := h2 id hin
    simp only [List.map_cons, runHists, List.flatten_cons]
    rw [slaveHist_eq S n id hid (h id) (by rw [h3, h4]) (by rw [h3]; exact h1), ← pre_append,
      ← ih l fun x hx => hg x (by simp [hx])]
    rfl

/-- A whole run, with a file to which everything can be written. -/
theorem run_every {n : Nat} (hn : 0 < n) (group : L → L) (table : L → String → Nat → Buf D → L)
    (hist : L → Hist D → List D → L) (srcs : List (Source D)) (hs : List (Nat → Hist D)) (l : L)
    (hsrc : ∀ s ∈ srcs, s.Good n) (hh : ∀ h ∈ hs, GoodHist n h) :
    ∃ N, ∀ i s, Exec true n i (State.start fun r => runRank (Sink.total group table hist) n r
        (srcs.map fun s => (s.out, s.mgr r)) (hs.map fun h => h r) l) s → i ≤ N ∧
      ((∃ a, HistsPut n hist hs (srcs.foldl (Source.put n group table) l) a ∧
        Finished n s (fun r => if r = 0 then a else l)) ∨ ∃ t, Step false n s t) := by
  obtain ⟨c, hc⟩ := masterSources_runs hn group table hist srcs hsrc
  have h := Runs.seq (hc l) (f := fun l => runHists (Sink.total group table hist) n 0
    (hs.map fun h => h 0) l) (fun a ha => by subst ha; exact masterHists_runs hn group table hist hs _ hh)
  rw [clip_nil] at h
  refine Runs.every hn (out := fun _ => l) (str := clip n _) h ?_
  intro i h0 hin
  simp only [runRank]
  rw [slaveSources_bind (by omega) hin _ srcs l _ hsrc, slaveHists_eq (by omega) hin _ hs l hh,
    pre_append]
  have := pre_script ((srcs.map fun s => s.acts i).flatten ++
    (hs.map fun h => histActs (h i)).flatten) [] l
  simp only [script, List.append_nil] at this
  rw [this]
  simp [clip, h0, hin]

end QED.Mpi
