import Verif.Model.TableFiles
import Verif.Spec.TableFiles
import Verif.Lemmas.Numeral
import Verif.Lemmas.Sim

set_option autoImplicit false
set_option linter.unusedSectionVars false

/-!
# Reading table files
-/

namespace QED
namespace TableFile

open Dbl Ini Numeral

variable {D : Type} [Dbl D]

/-- The value of a numeral as a `double`. -/
def num (n : Numeral) : D := lit n.value

theorem lskip_spaces {ws : List Char} (h : ∀ c ∈ ws, isSpace c = true) (t : List Char) :
    lskip (ws ++ t) = lskip t := by
  induction ws with
  | nil => rfl
  | cons c ws ih =>
    have hc := h c List.mem_cons_self
    show lskip (c :: (ws ++ t)) = _
    rw [← ih fun c hc => h c (List.mem_cons_of_mem _ hc)]
    unfold lskip
    rw [List.dropWhile_cons, if_pos hc]

theorem lskip_text {x : Char} {n : Numeral} (h : n.WF) (r : List Char) :
    lskip (n.textWith x ++ r) = n.textWith x ++ r :=
  lskip_of_head (text_head h r)

theorem extract_lskip (s : List Char) : Num.extract s = Num.extract (lskip s) := by
  have : lskip (lskip s) = lskip s := by
    unfold lskip
    exact List.dropWhile_idempotent _ _
  rw [extract_eq, extract_eq, this]

theorem sep_of {rest : List Char} (h : ∀ c, rest.head? = some c → isSpace c = true) : Sep rest := by
  cases rest with
  | nil => exact Or.inl rfl
  | cons c t => exact Or.inr ⟨c, t, rfl, h c rfl⟩

theorem double_lists {n : Numeral} {ns : List Numeral} {text : List Char} (h : Lists (n :: ns) text) :
    ∃ rest, Lists ns rest ∧ ∀ x : Option D,
      (⟨text, true⟩ : IStream).double x = (some (num n), ⟨rest, true⟩) := by
  cases h with
  | @more ws e _ _ rest h1 he h2 h3 h4 =>
    refine ⟨rest, h4, fun x => ?_⟩
    have hl : lskip (ws ++ (n.textWith e ++ rest)) = n.textWith e ++ rest := by rw [lskip_spaces h1, lskip_text h2]
    unfold IStream.double
    rw [if_pos ⟨rfl, by
      rw [hl]
      intro h0
      exact textWith_ne_nil h2 (List.append_eq_nil_iff.1 h0).1⟩]
    show (match Num.extract (ws ++ (n.textWith e ++ rest)) with
      | some (q, rest) => ((some (lit q), ⟨rest, true⟩) : Option D × IStream)
      | none => (some (lit 0), ⟨[], false⟩)) = _
    rw [extract_lskip, hl, extract_textWith he h2 (sep_of h3)]
    rfl

theorem double_end {text : List Char} (h : Lists [] text) (x : Option D) :
    (⟨text, true⟩ : IStream).double x = (x, ⟨text, false⟩) := by
  cases h with
  | done h =>
    have := lskip_spaces h []
    rw [List.append_nil] at this
    unfold IStream.double
    rw [if_neg (fun hh => hh.2 (by rw [this]; rfl))]

theorem double_failed (text : List Char) (x : Option D) :
    (⟨text, false⟩ : IStream).double x = (x, ⟨text, false⟩) := by
  unfold IStream.double
  rw [if_neg (by simp)]

theorem uint_lists {n : Numeral} {k : Nat} (hk : Count n k) {ns : List Numeral} {text : List Char}
    (h : Lists (n :: ns) text) :
    ∃ rest, Lists ns rest ∧ ∀ x : Option Nat,
      (⟨text, true⟩ : IStream).uint x = (some k, ⟨rest, true⟩) := by
  obtain ⟨neg, i, f, e⟩ := n
  obtain ⟨h1, h2, h3, h4, h5⟩ := hk
  dsimp only at h1 h2 h3 h4
  subst h1 h2 h3
  cases h with
  | @more ws e _ _ rest w1 _ w2 w3 w4 =>
    refine ⟨rest, w4, fun x => ?_⟩
    have hi : i ≠ [] := by
      rcases w2.1 with w | ⟨f, w, -⟩
      · exact w
      · cases w
    have ht : (⟨false, i, none, none⟩ : Numeral).textWith e = i.map digit := by
      simp [textWith, signText, fracText]
    have hl : lskip (ws ++ ((⟨false, i, none, none⟩ : Numeral).textWith e ++ rest)) = i.map digit ++ rest := by
      rw [lskip_spaces w1, lskip_text w2, ht]
    have hs : Num.sign (i.map digit ++ rest) = (false, i.map digit ++ rest) := by
      obtain ⟨d, i, rfl⟩ := List.exists_cons_of_ne_nil hi
      apply sign_of
      · simpa using digit_ne_minus d
      · simpa using digit_ne_plus d
    unfold IStream.uint
    rw [if_pos ⟨rfl, by
      rw [hl]
      intro h0
      have := (List.append_eq_nil_iff.1 h0).1
      simp at this
      exact hi this⟩, hl, hs]
    dsimp only
    have hnd := (sep_of w3).noDigit
    rw [takeWhile_digits i hnd, drop_digits, ofDigits_digits, h4, if_neg (by simpa using hi),
      if_neg (by omega), if_neg (by simp)]

theorem readArray_lists : ∀ (as ns : List Numeral) (text : List Char), Lists (as ++ ns) text →
    ∃ rest, Lists ns rest ∧
      readArray (D := D) as.length ⟨text, true⟩ = (as.map fun a => some (num a), ⟨rest, true⟩)
  | [], ns, text, h => ⟨text, h, rfl⟩
  | a :: as, ns, text, h => by
    obtain ⟨rest, h1, h2⟩ := double_lists (D := D) h
    obtain ⟨rest', h3, h4⟩ := readArray_lists as ns rest h1
    refine ⟨rest', h3, ?_⟩
    rw [List.length_cons, readArray, h2]
    dsimp only
    rw [h4]
    rfl

theorem readArray_failed (text : List Char) : ∀ n : Nat,
    (readArray (D := D) n ⟨text, false⟩).1 = List.replicate n none
  | 0 => rfl
  | n + 1 => by
    rw [readArray, double_failed]
    dsimp only
    rw [readArray_failed text n, List.replicate_succ]

/-- A file that ends too soon leaves the rest of the array unwritten. -/
theorem readArray_short : ∀ (as : List Numeral) (text : List Char) (n : Nat), Lists as text →
    (readArray (D := D) (as.length + n) ⟨text, true⟩).1 =
      (as.map fun a => some (num a)) ++ List.replicate n none
  | [], text, 0, _ => rfl
  | [], text, n + 1, h => by
    rw [List.length_nil, Nat.zero_add, readArray, double_end h]
    dsimp only
    rw [readArray_failed, List.replicate_succ]
    rfl
  | a :: as, text, n, h => by
    obtain ⟨rest, h1, h2⟩ := double_lists (D := D) h
    have := readArray_short as rest n h1
    rw [List.length_cons, show as.length + 1 + n = (as.length + n) + 1 by omega, readArray, h2]
    dsimp only
    rw [this]
    rfl

theorem readRows_lists (c : Nat) : ∀ (rows : List (List Numeral)) (ns : List Numeral) (text : List Char),
    (∀ r ∈ rows, r.length = c) → Lists (rows.flatten ++ ns) text →
    ∃ rest, Lists ns rest ∧
      readRows (D := D) c rows.length ⟨text, true⟩ =
        (rows.map fun r => r.map fun a => some (num a), ⟨rest, true⟩)
  | [], ns, text, _, h => ⟨text, h, rfl⟩
  | r :: rows, ns, text, hc, h => by
    rw [List.flatten_cons, List.append_assoc] at h
    obtain ⟨rest, h1, h2⟩ := readArray_lists (D := D) r _ text h
    obtain ⟨rest', h3, h4⟩ := readRows_lists c rows ns rest
      (fun r hr => hc r (List.mem_cons_of_mem _ hr)) h1
    refine ⟨rest', h3, ?_⟩
    rw [hc r List.mem_cons_self] at h2
    rw [List.length_cons, readRows, h2]
    dsimp only
    rw [h4]
    rfl

theorem readPairs_lists : ∀ (ps : List (Numeral × Numeral)) (ns : List Numeral) (text : List Char)
    (a b : Option D), Lists ((ps.flatMap fun p => [p.1, p.2]) ++ ns) text →
    readPairs ps.length ⟨text, true⟩ a b =
      .ok (ps.map fun p => (num p.1 : D), ps.map fun p => (num p.2 : D)) ∧
    lastA ps.length ⟨text, true⟩ a b = (ps.getLast?.map fun p => (num p.1 : D)).or a
  | [], ns, text, a, b, h => ⟨rfl, rfl⟩
  | p :: ps, ns, text, a, b, h => by
    rw [List.flatMap_cons] at h
    obtain ⟨r1, h1, h2⟩ := double_lists (D := D) h
    obtain ⟨r2, h3, h4⟩ := double_lists (D := D) h1
    obtain ⟨h5, h6⟩ := readPairs_lists ps ns r2 (some (num p.1)) (some (num p.2)) h3
    constructor
    · rw [List.length_cons, readPairs, h2]
      dsimp only
      rw [h4]
      dsimp only [use]
      rw [Res.ok_bind, Res.ok_bind, h5]
      rfl
    · rw [List.length_cons, lastA, h2]
      dsimp only
      rw [h4]
      dsimp only
      rw [h6]
      cases ps with
      | nil => rfl
      | cons q ps =>
        rw [List.getLast?_cons_cons]
        have : ((q :: ps).getLast?).isSome := by simp
        obtain ⟨z, hz⟩ := Option.isSome_iff_exists.1 this
        rw [hz]; rfl

theorem readPairs_failed (text : List Char) (a b : D) : ∀ n : Nat,
    readPairs n ⟨text, false⟩ (some a) (some b) = .ok (List.replicate n a, List.replicate n b)
  | 0 => rfl
  | n + 1 => by
    rw [readPairs, double_failed]
    dsimp only
    rw [double_failed]
    dsimp only [use]
    rw [Res.ok_bind, Res.ok_bind, readPairs_failed text a b n]
    rfl

/-- A pair file that ends too soon: the last pair is repeated. -/
theorem readPairs_short : ∀ (ps : List (Numeral × Numeral)) (text : List Char) (n : Nat) (a b : D),
    Lists (ps.flatMap fun p => [p.1, p.2]) text →
    readPairs (ps.length + n) ⟨text, true⟩ (some a) (some b) =
      .ok ((ps.map fun p => (num p.1 : D)) ++
          List.replicate n ((ps.getLast?.map fun p => (num p.1 : D)).getD a),
        (ps.map fun p => (num p.2 : D)) ++
          List.replicate n ((ps.getLast?.map fun p => (num p.2 : D)).getD b))
  | [], text, 0, a, b, h => rfl
  | [], text, n + 1, a, b, h => by
    have h' : Lists [] text := h
    rw [List.length_nil, Nat.zero_add, readPairs, double_end h']
    dsimp only
    rw [double_failed]
    dsimp only [use]
    rw [Res.ok_bind, Res.ok_bind, readPairs_failed text a b n]
    rfl
  | p :: ps, text, n, a, b, h => by
    rw [List.flatMap_cons] at h
    obtain ⟨r1, h1, h2⟩ := double_lists (D := D) h
    obtain ⟨r2, h3, h4⟩ := double_lists (D := D) h1
    have h5 := readPairs_short ps r2 n (num p.1) (num p.2) h3
    rw [List.length_cons, show ps.length + 1 + n = (ps.length + n) + 1 by omega, readPairs, h2]
    dsimp only
    rw [h4]
    dsimp only [use]
    rw [Res.ok_bind, Res.ok_bind, h5]
    cases ps with
    | nil => rfl
    | cons q ps =>
      rw [List.getLast?_cons_cons]
      have : ((q :: ps).getLast?).isSome := by simp
      obtain ⟨z, hz⟩ := Option.isSome_iff_exists.1 this
      rw [hz]; rfl

theorem readArray_add (a b : Nat) (s : IStream) :
    readArray (D := D) (a + b) s =
      ((readArray (D := D) a s).1 ++ (readArray (D := D) b (readArray (D := D) a s).2).1,
        (readArray (D := D) b (readArray (D := D) a s).2).2) := by
  induction a generalizing s with
  | zero => rw [Nat.zero_add]; rfl
  | succ a ih =>
    rw [Nat.succ_add, readArray, readArray]
    dsimp only
    rw [ih]
    rfl

/-- Row by row or all at once. -/
theorem readRows_flatten (c : Nat) : ∀ (m : Nat) (s : IStream),
    ((readRows (D := D) c m s).1.flatten, (readRows (D := D) c m s).2) = readArray (D := D) (m * c) s
  | 0, s => by rw [Nat.zero_mul]; rfl
  | m + 1, s => by
    rw [Nat.succ_mul, Nat.add_comm (m * c) c, readArray_add, ← readRows_flatten c m]
    simp [readRows]

theorem useAll_some (xs : List Numeral) :
    useAll (xs.map fun a => some (num a : D)) = .ok (xs.map num) := by
  induction xs with
  | nil => rfl
  | cons x xs ih =>
    rw [List.map_cons, useAll]
    dsimp only [use]
    rw [Res.ok_bind, ih]
    rfl

theorem readSplit_lists (len : Nat) : ∀ (rows : List (List Numeral)) (chi eps : List Numeral)
    (text chiText epsText : List Char) (a : Option D), (∀ r ∈ rows, r.length = len) →
    Lists rows.flatten text → Lists chi chiText → chi.length = rows.length → Lists eps epsText →
    eps.length = rows.length →
    readSplit len rows.length ⟨chiText, true⟩ ⟨epsText, true⟩ ⟨text, true⟩ a =
      .ok (chi.map num, eps.map fun a => some (num a), rows.map fun r => r.map fun a => some (num a))
  | [], chi, eps, text, chiText, epsText, a, _, _, _, hc, _, he => by
    rw [List.length_nil, List.length_eq_zero_iff] at hc he
    subst hc he
    rfl
  | r :: rows, [], eps, text, chiText, epsText, a, _, _, _, hc, _, he => by simp at hc
  | r :: rows, c :: chi, [], text, chiText, epsText, a, _, _, _, hc, _, he => by simp at he
  | r :: rows, c :: chi, e :: eps, text, chiText, epsText, a, hlen, h, hch, hc, hep, he => by
    obtain ⟨r1, h1, h2⟩ := double_lists (D := D) hch
    obtain ⟨r2, h3, h4⟩ := double_lists (D := D) hep
    rw [List.flatten_cons] at h
    obtain ⟨r3, h5, h6⟩ := readArray_lists (D := D) r _ text h
    rw [hlen r List.mem_cons_self] at h6
    have h7 := readSplit_lists len rows chi eps r3 r1 r2 (some (num c))
      (fun r hr => hlen r (List.mem_cons_of_mem _ hr)) h5 h1 (by simpa using hc) h3 (by simpa using he)
    rw [List.length_cons, readSplit, h2]
    dsimp only [use]
    rw [Res.ok_bind, h4]
    dsimp only
    rw [h6]
    dsimp only
    rw [h7]
    rfl

/-! ## Arrays -/

theorem runMem_append (as bs : List Mem) (live lost : List Array) :
    runMem (as ++ bs) live lost = (runMem as live lost >>= fun x => runMem bs x.1 x.2) := by
  induction as generalizing live lost with
  | nil => rfl
  | cons a as ih =>
    show (a.run live lost >>= fun x => runMem (as ++ bs) x.1 x.2) =
      ((a.run live lost >>= fun x => runMem as x.1 x.2) >>= fun x => runMem bs x.1 x.2)
    rcases a.run live lost with x | x | x | x
    · rw [Res.ok_bind, Res.ok_bind, ih]
    all_goals rfl

theorem run_news : ∀ (ks live lost : List Array), ks.Nodup → live.Nodup → (∀ k ∈ ks, k ∉ live) →
    (∀ k ∈ ks, k.row ≠ none → (⟨k.member, none⟩ : Array) ∈ live) →
    ∃ live', runMem (ks.map .new) live lost = .ok (live', lost) ∧ live'.Nodup ∧
      ∀ k, k ∈ live' ↔ k ∈ live ∨ k ∈ ks
  | [], live, lost, _, h, _, _ => ⟨live, rfl, h, by simp⟩
  | k :: ks, live, lost, h1, h2, h3, h4 => by
    have hk := h3 k List.mem_cons_self
    rw [List.nodup_cons] at h1
    obtain ⟨live', a, b, c⟩ := run_news ks (k :: live) lost h1.2 (List.nodup_cons.2 ⟨hk, h2⟩)
      (fun x hx hm => by
        rcases List.mem_cons.1 hm with rfl | hm
        · exact h1.1 hx
        · exact h3 x (List.mem_cons_of_mem _ hx) hm)
      (fun x hx hr => List.mem_cons_of_mem _ (h4 x (List.mem_cons_of_mem _ hx) hr))
    refine ⟨live', ?_, b, fun x => ?_⟩
    · have : Mem.run (.new k) live lost = .ok (k :: live, lost) := by
        unfold Mem.run
        dsimp only
        rw [if_neg (fun hh => hh.2 (h4 k List.mem_cons_self hh.1)), if_neg hk]
      rw [List.map_cons, runMem, this, Res.ok_bind]
      exact a
    · rw [c, List.mem_cons, List.mem_cons]
      tauto

theorem run_deletes : ∀ (ks live lost : List Array), ks.Nodup → live.Nodup → (∀ k ∈ ks, k ∈ live) →
    (∀ k ∈ ks, k.row ≠ none → (⟨k.member, none⟩ : Array) ∈ live ∧ (⟨k.member, none⟩ : Array) ∉ ks) →
    ∃ live', runMem (ks.map .delete) live lost = .ok (live', lost) ∧ live'.Nodup ∧
      ∀ k, k ∈ live' ↔ k ∈ live ∧ k ∉ ks
  | [], live, lost, _, h, _, _ => ⟨live, rfl, h, by simp⟩
  | k :: ks, live, lost, h1, h2, h3, h4 => by
    have hk := h3 k List.mem_cons_self
    rw [List.nodup_cons] at h1
    obtain ⟨live', a, b, c⟩ := run_deletes ks (live.erase k) lost h1.2 (h2.erase k)
      (fun x hx => (h2.mem_erase_iff).2 ⟨fun e => h1.1 (e ▸ hx), h3 x (List.mem_cons_of_mem _ hx)⟩)
      (fun x hx hr => by
        obtain ⟨a, b⟩ := h4 x (List.mem_cons_of_mem _ hx) hr
        rw [List.mem_cons, not_or] at b
        exact ⟨(h2.mem_erase_iff).2 ⟨b.1, a⟩, b.2⟩)
    refine ⟨live', ?_, b, fun x => ?_⟩
    · have : Mem.run (.delete k) live lost = .ok (live.erase k, lost) := by
        unfold Mem.run
        dsimp only
        rw [if_neg (fun hh => hh.2 (h4 k List.mem_cons_self hh.1).1), if_pos hk]
      rw [List.map_cons, runMem, this, Res.ok_bind]
      exact a
    · rw [c, h2.mem_erase_iff, List.mem_cons]
      tauto

end TableFile
end QED
