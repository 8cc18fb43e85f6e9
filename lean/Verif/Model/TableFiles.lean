import Verif.Model.Ini
import Verif.Model.Processes

set_option autoImplicit false
set_option linter.unusedSectionVars false

/-!
# Loading the tables of the processes

`PhotonEmission::LoadTables` and `NonLinearBreitWheeler::LoadTables`, with the `std::ifstream` extraction they
rest on. A variable or array element that has not been written is `none`. The file system is a function from
paths to contents. Simplified: memory is never exhausted; a `double` that is too large is kept exactly.
-/

namespace QED
namespace TableFile

open Dbl Ini

variable {D : Type} [Dbl D]

/-- An open file: the text not yet read, and `!fail()`. -/
structure IStream where
  text : List Char
  good : Bool

/-- Opening a file that exists. -/
def IStream.new (text : List Char) : IStream := ⟨text, true⟩

/-- `stream >> x` for a `double` (`PhotonEmission.cpp:95,103,117,137`,
`NonLinearBreitWheeler.cpp:123,135,137,141`): if the stream has failed, or holds nothing more but white
space, the variable keeps its value and the stream has failed; if what comes is no number, zero is stored and
the stream has failed. -/
def IStream.double (s : IStream) (x : Option D) : Option D × IStream :=
  if s.good = true ∧ lskip s.text ≠ [] then
    match Num.extract s.text with
    | some (q, rest) => (some (lit q), ⟨rest, true⟩)
    | none => (some (lit 0), ⟨[], false⟩)
  else (x, ⟨s.text, false⟩)

/-- `stream >> n` for an `unsigned int` (`PhotonEmission.cpp:89,103`, `NonLinearBreitWheeler.cpp:116,128`):
an optional sign and decimal digits. No digits: zero is stored; too large: the largest value is stored; in
both cases the stream has failed. A negative number is taken modulo `2 ^ 32`. -/
def IStream.uint (s : IStream) (n : Option Nat) : Option Nat × IStream :=
  if s.good = true ∧ lskip s.text ≠ [] then
    let (neg, t) := Num.sign (lskip s.text)
    let ds := t.takeWhile (Num.isDigit 10)
    let v := Num.ofDigits 10 ds
    if ds = [] then (some 0, ⟨[], false⟩)
    else if 2 ^ 32 ≤ v then (some (2 ^ 32 - 1), ⟨t.drop ds.length, false⟩)
    else (some (if neg then (2 ^ 32 - v) % 2 ^ 32 else v), ⟨t.drop ds.length, true⟩)
  else (n, ⟨s.text, false⟩)

/-- Using the value of a variable. -/
def use {α : Type} : Option α → Res α
  | some a => .ok a
  | none => .ub "use of an indeterminate value"

/-- Reading into the `n` elements of a fresh array (`PhotonEmission.cpp:115-118,135-139`,
`NonLinearBreitWheeler.cpp:138-142`). -/
def readArray : Nat → IStream → List (Option D) × IStream
  | 0, s => ([], s)
  | n + 1, s =>
    let (x, s) := s.double none
    let (xs, s) := readArray n s
    (x :: xs, s)

/-- Reading `m` rows of `n` elements (`PhotonEmission.cpp:133-140`). -/
def readRows (n : Nat) : Nat → IStream → List (List (Option D)) × IStream
  | 0, s => ([], s)
  | m + 1, s =>
    let (r, s) := readArray n s
    let (rs, s) := readRows n m s
    (r :: rs, s)

/-- The loop over pairs (`PhotonEmission.cpp:92-99`, `NonLinearBreitWheeler.cpp:120-126`): the variables `a`
and `b` live outside the loop. -/
def readPairs : Nat → IStream → Option D → Option D → Res (List D × List D)
  | 0, _, _, _ => .ok ([], [])
  | n + 1, s, a, b => do
    let (a, s) := s.double a
    let (b, s) := s.double b
    let x ← use a
    let y ← use b
    let (xs, ys) ← readPairs n s a b
    .ok (x :: xs, y :: ys)

/-- A table of pairs with its length in front (`PhotonEmission.cpp:89-99`,
`NonLinearBreitWheeler.cpp:116-126`). -/
def readPairTable (text : List Char) : Res (List D × List D) := do
  let (n, s) := (IStream.new text).uint none
  let n ← use n
  readPairs n s none none

/-- What `PhotonEmission` has loaded. -/
structure Emission (D : Type) where
  hAxis : List D
  hData : List D
  etaAxis : List D
  chiMin : List D
  chiAxis : List (List D)
  data : List (List (Option D))

/-- The table path (`PhotonEmission.cpp:52-61`, `NonLinearBreitWheeler.cpp:75-83`): a null pointer is reported
but then made a string all the same. -/
def tablePath (env : Option (List Char)) : Res (List Char) :=
  match env with
  | none => .ub "std::string of a null pointer"
  | some p => .ok p

/-- Opening a table (`PhotonEmission.cpp:63-86`, `NonLinearBreitWheeler.cpp:84-114`). -/
def openTable (files : List Char → Option (List Char)) (path : List Char) (name : String) :
    Res (List Char) :=
  match files (path ++ name.toList) with
  | none => .exit 1
  | some t => .ok t

/-- `m_phEn_etaAxis` (`PhotonEmission.cpp:120,124`). -/
def etaAxisOf (etaLength : Nat) (logMin logMax : D) : List D :=
  let delta := (logMax -. logMin) /. (lit etaLength -. lit 1)
  (List.range etaLength).map fun (i : Nat) => logMin +. lit i *. delta

/-- One row of `m_phEn_chiAxis` (`PhotonEmission.cpp:123,125-130`): the divisor is the number of eta
values. -/
def chiRow (etaLength chiLength : Nat) (eta chiMin : D) : List D :=
  let logMinChi := log10 chiMin
  let delta := (eta -. log10 (lit 2) -. logMinChi) /. (lit etaLength -. lit 1)
  (List.range chiLength).map fun (j : Nat) => logMinChi +. lit j *. delta

/-- `use` for a whole array. -/
def useAll : List (Option D) → Res (List D)
  | [] => .ok []
  | x :: xs => do
    let a ← use x
    let as ← useAll xs
    .ok (a :: as)

/-- `PhotonEmission::LoadTables` (`PhotonEmission.cpp:50-141`). -/
def loadEmission (env : Option (List Char)) (files : List Char → Option (List Char)) :
    Res (Emission D) := do
  let path ← tablePath env
  let hFile ← openTable files path "/hsokolov.table"
  let phEnFile ← openTable files path "/ksi_sokolov.table"
  let chiMinFile ← openTable files path "/chimin.table"
  let (hAxis, hData) ← readPairTable hFile
  let (etaLength, s) := (IStream.new phEnFile).uint none
  let (chiLength, s) := s.uint none
  let (logMin, s) := s.double (none : Option D)
  let (logMax, s) := s.double (none : Option D)
  let etaLength ← use etaLength
  let chiLength ← use chiLength
  let (mins, _) := readArray etaLength (IStream.new chiMinFile)
  let logMax ← use logMax
  let logMin ← use logMin
  let chiMin ← useAll mins
  let etaAxis := etaAxisOf etaLength logMin logMax
  let chiAxis := List.zipWith (chiRow etaLength chiLength) etaAxis chiMin
  let (data, _) := readRows chiLength etaLength s
  .ok { hAxis, hData, etaAxis, chiMin, chiAxis, data }

/-- What `NonLinearBreitWheeler` has loaded. -/
structure Pairs (D : Type) where
  tAxis : List D
  tData : List D
  chiAxis : List D
  fractAxis : List (Option D)
  data : List (List (Option D))

/-- The loop over the rows of the energy split (`NonLinearBreitWheeler.cpp:133-143`): `n` rows still to come,
of length `len`; `chi` is the variable `logChi`. -/
def readSplit (len : Nat) : Nat → IStream → IStream → IStream → Option D →
    Res (List D × List (Option D) × List (List (Option D)))
  | 0, _, _, _, _ => .ok ([], [], [])
  | n + 1, chiS, epsS, fractS, chi => do
    let (chi, chiS) := chiS.double chi
    let c ← use chi
    let (e, epsS) := epsS.double none
    let (row, fractS) := readArray len fractS
    let (cs, es, rows) ← readSplit len n chiS epsS fractS chi
    .ok (c :: cs, e :: es, row :: rows)

/-- The last value `readPairs` leaves in its first variable. -/
def lastA : Nat → IStream → Option D → Option D → Option D
  | 0, _, a, _ => a
  | n + 1, s, a, b =>
    let (a, s) := s.double a
    let (b, s) := s.double b
    lastA n s a b

/-- `NonLinearBreitWheeler::LoadTables` (`NonLinearBreitWheeler.cpp:73-144`). `logChi` is shared by both
loops. -/
def loadPairs (env : Option (List Char)) (files : List Char → Option (List Char)) :
    Res (Pairs D) := do
  let path ← tablePath env
  let tFile ← openTable files path "/pairprod.table"
  let fractFile ← openTable files path "/e_split.table"
  let epsilonFile ← openTable files path "/epsilon.table"
  let chiFile ← openTable files path "/log_chi.table"
  let (n, s) := (IStream.new tFile).uint none
  let n ← use n
  let (tAxis, tData) ← readPairs n s none none
  let (len, fractS) := (IStream.new fractFile).uint none
  let len ← use len
  let (chiAxis, fractAxis, data) ← readSplit len len (IStream.new chiFile) (IStream.new epsilonFile) fractS
    (lastA n s none none)
  .ok { tAxis, tData, chiAxis, fractAxis, data }

/-! ## The arrays -/

/-- An array: a member, or row `i` of a member that is an array of arrays. -/
structure Array where
  member : String
  row : Option Nat
deriving DecidableEq

/-- `new []` and `delete []`. -/
inductive Mem
  | new (a : Array)
  | delete (a : Array)

/-- What a request does to the arrays in existence. A row is found through its member, so that must exist;
making an array under a name in use loses the old one; freeing what does not exist is undefined. -/
def Mem.run (m : Mem) (live lost : List Array) : Res (List Array × List Array) :=
  match m with
  | .new a =>
    if a.row ≠ none ∧ (⟨a.member, none⟩ : Array) ∉ live then .ub "row of an array that does not exist"
    else if a ∈ live then .ok (live, a :: lost)
    else .ok (a :: live, lost)
  | .delete a =>
    if a.row ≠ none ∧ (⟨a.member, none⟩ : Array) ∉ live then .ub "row of an array that does not exist"
    else if a ∈ live then .ok (live.erase a, lost)
    else .ub "double free"

/-- A sequence of requests. -/
def runMem : List Mem → List Array → List Array → Res (List Array × List Array)
  | [], live, lost => .ok (live, lost)
  | m :: ms, live, lost => do
    let (live, lost) ← m.run live lost
    runMem ms live lost

/-- The arrays `PhotonEmission::LoadTables` makes (`PhotonEmission.cpp:90-91,104-112`). -/
def emissionNew (etaLength : Nat) : List Mem :=
  [.new ⟨"h_dataTable", none⟩, .new ⟨"h_etaAxis", none⟩, .new ⟨"phEn_etaAxis", none⟩,
    .new ⟨"phEn_chiMinAxis", none⟩, .new ⟨"phEn_chiAxis", none⟩, .new ⟨"phEn_dataTable", none⟩] ++
  (List.range etaLength).flatMap fun i =>
    [.new ⟨"phEn_chiAxis", some i⟩, .new ⟨"phEn_dataTable", some i⟩]

/-- The arrays `PhotonEmission::UnloadTables` frees (`PhotonEmission.cpp:143-156`). -/
def emissionDelete (etaLength : Nat) : List Mem :=
  [.delete ⟨"h_dataTable", none⟩, .delete ⟨"h_etaAxis", none⟩] ++
  ((List.range etaLength).flatMap fun i =>
    [.delete ⟨"phEn_chiAxis", some i⟩, .delete ⟨"phEn_dataTable", some i⟩]) ++
  [.delete ⟨"phEn_chiMinAxis", none⟩, .delete ⟨"phEn_etaAxis", none⟩, .delete ⟨"phEn_chiAxis", none⟩,
    .delete ⟨"phEn_dataTable", none⟩]

/-- The arrays `NonLinearBreitWheeler::LoadTables` makes (`NonLinearBreitWheeler.cpp:117-118,129-131,138`). -/
def pairsNew (len : Nat) : List Mem :=
  [.new ⟨"t_chiAxis", none⟩, .new ⟨"t_dataTable", none⟩, .new ⟨"eFract_chiAxis", none⟩,
    .new ⟨"eFract_fractAxis", none⟩, .new ⟨"eFract_dataTable", none⟩] ++
  (List.range len).map fun i => .new ⟨"eFract_dataTable", some i⟩

/-- The arrays `NonLinearBreitWheeler::UnloadTables` frees (`NonLinearBreitWheeler.cpp:146-157`). -/
def pairsDelete (len : Nat) : List Mem :=
  [.delete ⟨"t_dataTable", none⟩, .delete ⟨"t_chiAxis", none⟩, .delete ⟨"eFract_chiAxis", none⟩,
    .delete ⟨"eFract_fractAxis", none⟩] ++
  ((List.range len).map fun i => .delete ⟨"eFract_dataTable", some i⟩) ++
  [.delete ⟨"eFract_dataTable", none⟩]

end TableFile
end QED
