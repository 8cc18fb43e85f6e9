import Verif.Model.Output
import Verif.Model.Mpi

set_option autoImplicit false

/-!
# Output with MPI: `OutputManager::OutputEventsMPI`, `OutputManager::OutputHistMPI`

The operations on the output file are gathered in a structure `Sink`, so that the communication can be
studied apart from the file; `Sink.h5` is what the code does. 64-bit counters are taken not to wrap.
Simplified: of each rank the model uses the particle data in its manager; only rank 0 uses its file.
Only rank 0 opens the file (`OutputManager.cpp:7-19`).
-/

namespace QED.Mpi

open QED Dbl OutMgr

variable {D L : Type} [Dbl D]

/-- The operations on the output file. -/
structure Sink (D L : Type) where
  /-- `AddGroup("Particles/ParticleSource")`, the first time (`OutputManager.cpp:565-569`) -/
  group : L → Res L
  /-- `AddArray2D` of a table with the given number of rows -/
  table : L → String → Nat → Buf D → Res L
  /-- the output of a histogram with the given values -/
  hist : L → Hist D → List D → Res L

/-- The output of the code: the file and the flag `m_particleSourceBool` (`OutputManager.cpp:565-569`,
`620-621`, `761-775`, `928-933`). -/
def Sink.h5 : Sink D (H5 D × Bool) where
  group := fun (f, done) => do
    let f ← groupOnce f done ["Particles", "ParticleSource"]
    .ok (f, true)
  table := fun (f, done) name rows b => do
    let f ← f.addArray2D b rows 8 (sourcePath name)
    .ok (f, done)
  hist := fun (f, done) h values => do
    let path : Path := ["Histograms", h.name]
    let f ← f.addGroup path
    let f ← f.addArray1D (h.centres.map some) h.nBins (path ++ ["BinCentres"])
    let f ← f.addArray1D (values.map some) h.nBins (path ++ ["BinValues"])
    .ok (f, done)

/-- Conversion to `int`. -/
def i32 (n : Int) : Int := Int.bmod n (2 ^ 32)

/-- Addition of two `int`s. -/
def addInt (a b : Int) : Res Int :=
  if -2 ^ 31 ≤ a + b ∧ a + b < 2 ^ 31 then .ok (a + b) else .ub "signed overflow"

/-- `new double[n]` with `int n`. -/
def newInt (n : Int) : Res (Buf D) :=
  if 0 ≤ n then .ok (Buf.new n.toNat) else .throw "std::bad_array_new_length"

/-- `MPI_Send` of the first `count` cells of a buffer. -/
def sendDoubles (dst tag : Nat) (b : Buf D) (count : Int) : Prog D Unit := do
  if count < 0 then lift (.throw "MPI_ERR_COUNT")
  else do
    let xs ← lift (b.readRow 0 count.toNat)
    .send dst tag (.doubles xs) (.ret (.ok ()))

/-- `MPI_Send` of one `MPI_INT` from the address of a `long unsigned int`: on a little-endian machine
these are its low 32 bits (`OutputManager.cpp:868-876`). -/
def sendSize (dst tag : Nat) (n : Nat) : Prog D Unit :=
  .send dst tag (.int (i32 n)) (.ret (.ok ()))

/-- The `int` that was received. -/
def asInt : Msg D → Res Int
  | .int z => .ok z
  | .doubles _ => .ub "MPI type mismatch"

/-- The doubles that were received into an array of `n` cells. -/
def asDoubles (n : Int) : Msg D → Res (Buf D)
  | .int _ => .ub "MPI type mismatch"
  | .doubles xs =>
    if (xs.length : Int) ≤ n then .ok (xs.map some ++ List.replicate (n.toNat - xs.length) none)
    else .throw "MPI_ERR_TRUNCATE"

/-- `MPI_Recv` of one `MPI_INT`. -/
def recvInt (src tag : Nat) : Prog D Int := .recv src tag fun m => .ret (asInt m)

/-- `new double[n]` and `MPI_Recv` into it (`OutputManager.cpp:602-605`). -/
def recvDoubles (src tag : Nat) (n : Int) : Prog D (Buf D) := do
  let _ ← lift (newInt n : Res (Buf D))
  .recv src tag fun m => .ret (asDoubles n m)

/-! ## Copying with 64-bit indices -/

/-- `n` rows of a buffer, from row `j` on, copied to `dst` from cell `idx` on
(`OutputManager.cpp:666-677`, `711-722`, `830-841`; likewise for the other species and for the primaries
in `606-617`). -/
def copyRowsL (src : Option (Buf D)) : Nat → Nat → Buf D → Nat → Res (Buf D × Nat)
  | 0, _, dst, idx => .ok (dst, idx)
  | n + 1, j, dst, idx => do
    let b ← deref src
    let vs ← b.readRow (u32 (j * 8)) 8
    let dst ← dst.writeRow idx vs
    copyRowsL src n (j + 1) dst (idx + 8)

/-- The rows of all events of this rank, for one species (`OutputManager.cpp:664-702`, `828-866`). -/
def copyEventsL : List (Option (Buf D)) → List Nat → Buf D → Nat → Res (Buf D × Nat)
  | [], _, dst, idx => .ok (dst, idx)
  | src :: srcs, counts, dst, idx => do
    let n ← rd counts 0
    let (dst, idx) ← copyRowsL src n 0 dst idx
    copyEventsL srcs (counts.drop 1) dst idx

/-- The primaries of this rank (`OutputManager.cpp:586-596`). -/
def copyPrimaryL : List (Option (Buf D)) → Nat → Buf D → Res (Buf D)
  | [], _, dst => .ok dst
  | src :: srcs, i, dst => do
    let b ← deref src
    let vs ← b.readRow 0 8
    let dst ← dst.writeRow (i * 8) vs
    copyPrimaryL srcs (i + 1) dst

/-! ## The master, events -/

/-- The sizes of the arrays of primaries of the ranks `i, i+1, ...` (`OutputManager.cpp:575-581`). -/
def probeSizes : Nat → Nat → Int → Prog D (List Nat × Int)
  | 0, _, total => .ret (.ok ([], total))
  | c + 1, i, total => do
    let size ← .probe i 1 fun n => .ret (.ok n)
    let total ← lift (addInt total size)
    let (sizes, total) ← probeSizes c (i + 1) total
    .ret (.ok (size :: sizes, total))

/-- The primaries of the ranks `i, i+1, ...` (`OutputManager.cpp:600-619`). -/
def recvPrimaries : List Nat → Nat → Buf D → Nat → Prog D (Buf D)
  | [], _, dst, _ => .ret (.ok dst)
  | size :: sizes, i, dst, idx => do
    let b ← recvDoubles i 1 size
    let (dst, idx) ← lift (copyRowsL (some b) (size / 8) 0 dst idx)
    recvPrimaries sizes (i + 1) dst idx

/-- The sizes of the three arrays of one rank. -/
structure Sizes where
  e : Int
  p : Int
  g : Int

/-- The sizes of the arrays of the ranks `i, i+1, ...`, and the totals (`OutputManager.cpp:642-654`). -/
def recvSizes : Nat → Nat → Sizes → Prog D (List Sizes × Sizes)
  | 0, _, total => .ret (.ok ([], total))
  | c + 1, i, total => do
    let e ← recvInt i 2
    let te ← lift (addInt total.e e)
    let p ← recvInt i 3
    let tp ← lift (addInt total.p p)
    let g ← recvInt i 4
    let tg ← lift (addInt total.g g)
    let (sizes, total) ← recvSizes c (i + 1) ⟨te, tp, tg⟩
    .ret (.ok (⟨e, p, g⟩ :: sizes, total))

/-- A partly filled array: the cells and the next index. -/
abbrev Part (D : Type) := Buf D × Nat

/-- The array of one species from rank `i`, appended (`OutputManager.cpp:707-723`, `725-741`,
`743-759`). -/
def recvPart (i tag : Nat) (size : Int) (dst : Part D) : Prog D (Part D) := do
  let b ← recvDoubles i tag size
  lift (copyRowsL (some b) (size.tdiv 8).toNat 0 dst.1 dst.2)

/-- The arrays of the ranks `i, i+1, ...` (`OutputManager.cpp:705-760`). -/
def recvArrays : List Sizes → Nat → Part D → Part D → Part D →
    Prog D (Part D × Part D × Part D)
  | [], _, e, p, g => .ret (.ok (e, p, g))
  | s :: ss, i, e, p, g => do
    let e ← recvPart i 2 s.e e
    let p ← recvPart i 3 s.p p
    let g ← recvPart i 4 s.g g
    recvArrays ss (i + 1) e p g

/-- A table is written only if it has rows (`OutputManager.cpp:761-775`). -/
def sinkTable (S : Sink D L) (l : L) (name : String) (size : Int) (b : Buf D) : Res L :=
  if 0 < size then S.table l name (size.tdiv 8).toNat b else .ok l

/-- The number of rows of a species on this rank (`OutputManager.cpp:625-633`, `811-819`). -/
def totalRows (counts : List Nat) : Nat := counts.foldl (· + ·) 0

/-- The part of the master (`OutputManager.cpp:562-784`). -/
def masterEvents (S : Sink D L) (nProc : Nat) (m : OutMgr D) (l : L) : Prog D L := do
  let l ← lift (S.group l)
  let (sizes, total) ← probeSizes (nProc - 1) 1 (i32 (m.primary.length * 8 : Nat))
  let prime ← lift (newInt total)
  let prime ← lift (copyPrimaryL m.primary 0 prime)
  let prime ← recvPrimaries sizes 1 prime (m.primary.length * 8)
  let l ← lift (S.table l "Primary" (total.tdiv 8).toNat prime)
  let (sizes, total) ← recvSizes (nProc - 1) 1
    ⟨i32 (totalRows m.electronCount * 8 : Nat), i32 (totalRows m.positronCount * 8 : Nat),
      i32 (totalRows m.photonCount * 8 : Nat)⟩
  let e ← lift (newInt total.e)
  let p ← lift (newInt total.p)
  let g ← lift (newInt total.g)
  let e ← lift (copyEventsL m.electron m.electronCount e 0)
  let p ← lift (copyEventsL m.positron m.positronCount p 0)
  let g ← lift (copyEventsL m.photon m.photonCount g 0)
  let (e, p, g) ← recvArrays sizes 1 e p g
  let l ← lift (sinkTable S l "Electrons" total.e e.1)
  let l ← lift (sinkTable S l "Positrons" total.p p.1)
  lift (sinkTable S l "Photons" total.g g.1)

/-! ## The other ranks, events -/

/-- The part of a slave (`OutputManager.cpp:786-887`). -/
def slaveEvents (m : OutMgr D) : Prog D Unit := do
  let prime ← lift (copyPrimary m.primary 0 (Buf.new (m.primary.length * 8)))
  sendDoubles 0 1 prime (i32 (m.primary.length * 8 : Nat))
  let ne := totalRows m.electronCount * 8
  let np := totalRows m.positronCount * 8
  let ng := totalRows m.photonCount * 8
  let e ← lift (copyEventsL m.electron m.electronCount (Buf.new ne) 0)
  let p ← lift (copyEventsL m.positron m.positronCount (Buf.new np) 0)
  let g ← lift (copyEventsL m.photon m.photonCount (Buf.new ng) 0)
  sendSize 0 2 ne
  sendSize 0 3 np
  sendSize 0 4 ng
  sendDoubles 0 2 e.1 (i32 ne)
  sendDoubles 0 3 p.1 (i32 np)
  sendDoubles 0 4 g.1 (i32 ng)

/-- `OutputEventsMPI` (`OutputManager.cpp:550-889`). Nothing happens unless `outSource`. -/
def outputEventsMPI (S : Sink D L) (nProc id : Nat) (outSource : Bool) (m : OutMgr D) (l : L) :
    Prog D L :=
  if outSource then
    if id = 0 then masterEvents S nProc m l
    else do
      slaveEvents m
      .ret (.ok l)
  else .ret (.ok l)

/-! ## Histograms -/

/-- `binValues[i] += dataBuff[i]` (`OutputManager.cpp:921-924`). -/
def addBins : List D → Buf D → Nat → Res (List D)
  | [], _, _ => .ok []
  | v :: vs, b, i => do
    let x ← b.read i
    let rest ← addBins vs b (i + 1)
    .ok ((v +. x) :: rest)

/-- The values of `c` more ranks (`OutputManager.cpp:915-925`). -/
def recvHists (nBins : Nat) : Nat → List D → Prog D (List D)
  | 0, values => .ret (.ok values)
  | c + 1, values => do
    let b ← .recvAny 0 fun m => .ret (asDoubles nBins m)
    let values ← lift (addBins values b 0)
    recvHists nBins c values

/-- `hist->GetBinValues()[i]` for all bins (`OutputManager.cpp:909-912`). -/
def ownBins (h : Hist D) : Res (List D) := Buf.readRow (h.values.map some) 0 h.nBins

/-- The part of the master before the barrier (`OutputManager.cpp:902-936`). -/
def masterHist (S : Sink D L) (nProc : Nat) (h : Hist D) (l : L) : Prog D L := do
  let values ← lift (ownBins h)
  let values ← recvHists h.nBins (nProc - 1) values
  lift (S.hist l h values)

/-- `OutputHistMPI` (`OutputManager.cpp:891-945`). -/
def outputHistMPI (S : Sink D L) (nProc id : Nat) (h : Hist D) (l : L) : Prog D L :=
  if id = 0 then do
    let l ← masterHist S nProc h l
    .barrier (.ret (.ok l))
  else do
    sendDoubles 0 0 (h.values.map some) (i32 h.nBins)
    .barrier (.ret (.ok l))

/-! ## The calls made by `main` -/

/-- The output of the sources, one after the other, each with its own particle data
(`QEDCASC.cpp:190-275`). -/
def runSources (S : Sink D L) (nProc id : Nat) : List (Bool × OutMgr D) → L → Prog D L
  | [], l => .ret (.ok l)
  | (out, m) :: rest, l => do
    let l ← outputEventsMPI S nProc id out m l
    runSources S nProc id rest l

/-- The output of the histograms (`QEDCASC.cpp:284-292`). -/
def runHists (S : Sink D L) (nProc id : Nat) : List (Hist D) → L → Prog D L
  | [], l => .ret (.ok l)
  | h :: hs, l => do
    let l ← outputHistMPI S nProc id h l
    runHists S nProc id hs l

/-- The communication of one rank in a whole run (`QEDCASC.cpp:190-292`). -/
def runRank (S : Sink D L) (nProc id : Nat) (sources : List (Bool × OutMgr D)) (hists : List (Hist D))
    (l : L) : Prog D L := do
  let l ← runSources S nProc id sources l
  runHists S nProc id hists l

end QED.Mpi
