import Verif.Model.Decomposition

/-
Threaded assembly of one block of the Stokes matrix and the merge of the per-thread buffers.
/repo/MDLIB/StokesAssemblyDecoupled.c: AddCoeff3 (44-54), the parallel loops of
BuildStokesOperatorDecoupled (1401-1427, 1466-1491, 1527-1552), MergeParallelMatrix (2340-2386)
and MergeParallelMatrixDecoupled (1149-1196).

A row is given by the list of (column, coefficient) pairs its stencil routine appends; the
stencils themselves are in Model/Stencil.lean.
-/
namespace Verif

variable {K : Type*}

/-- Private buffers of one thread: Itemp[ith], Jtemp[ith], Atemp[ith], nnzc2[ith]
(AllocateTempMatArraysDecoupled, StokesAssemblyDecoupled.c:1251-1266). -/
structure ThBuf (K : Type*) where
  I : Nat → Nat
  J : Nat → Int
  A : Nat → K
  nnz : Nat

/-- The "append" branch of AddCoeff3, StokesAssemblyDecoupled.c:50-52. -/
def ThBuf.append (s : ThBuf K) (e : Int × K) : ThBuf K :=
  { s with J := upd s.J s.nnz e.1, A := upd s.A s.nnz e.2, nnz := s.nnz + 1 }

/-- One iteration of the assembly loop of a thread (StokesAssemblyDecoupled.c:1411-1424): record
the row start, then append the row's coefficients. -/
def assembleRow (solved : Nat → Bool) (eqn : Nat → Nat) (rows : Nat → List (Int × K))
    (s : ThBuf K) (c : Nat) : ThBuf K :=
  if solved c then (rows c).foldl ThBuf.append { s with I := upd s.I (eqn c) s.nnz } else s

/-- Assembly loop of one thread `for (c = estart; c < eend+1; c++)`
(StokesAssemblyDecoupled.c:1403-1426). -/
def assembleThread (solved : Nat → Bool) (eqn : Nat → Nat) (rows : Nat → List (Int × K))
    (estart eend : Int) (s : ThBuf K) : ThBuf K :=
  forUp (eend + 1 - estart).toNat s fun s i => assembleRow solved eqn rows s (estart + i).toNat

/-- Shared memory written by the merge: `Ic[e]`, `J[k]`, `A[k]`. -/
inductive Addr where
  | ic (e : Nat)
  | ja (k : Nat)
  | av (k : Nat)
deriving DecidableEq

/-- Contents of a shared cell. -/
inductive Cell (K : Type*) where
  | int (i : Int)
  | dbl (x : K)

/-- `begin[ith]`, StokesAssemblyDecoupled.c:1160-1167 (`end[ith] = begin[ith]+nnzc2[ith]-1`,
`begin[ith+1] = end[ith]+1`). -/
def mergeBegin (nnz0 : Nat) (nnz2 : Nat → Nat) : Nat → Nat
  | 0 => nnz0
  | i + 1 => mergeBegin nnz0 nnz2 i + nnz2 i

/-- Stores performed by thread `ith` in the parallel region of the merge, in program order
(StokesAssemblyDecoupled.c:1173-1189). `pass` is the tag test of line 1179. -/
def mergeStores (pass : Nat → Bool) (eqn : Nat → Nat) (estart eend : Int) (b : ThBuf K)
    (begin_ : Nat) : List (Addr × Cell K) :=
  ((List.range (eend + 1 - estart).toNat).flatMap fun (i : Nat) =>
    let c := (estart + i).toNat
    if pass c then [(Addr.ic (eqn c), Cell.int ((b.I (eqn c) + begin_ : Nat) : Int))] else []) ++
  ((List.range b.nnz).flatMap fun k =>
    [(Addr.av (begin_ + k), Cell.dbl (b.A k)), (Addr.ja (begin_ + k), Cell.int (b.J k))])

/-- Effect of a sequence of stores on the shared memory. -/
def applyStores (l : List (Addr × Cell K)) (m : Addr → Cell K) : Addr → Cell K :=
  l.foldl (fun m s a => if a = s.1 then s.2 else m a) m

/-- Buffers of thread `i` after its assembly loop; `junk i` is what its freshly allocated
buffers contain (StokesAssemblyDecoupled.c:1251-1266, `nnzc2` is zeroed by calloc). -/
def threadBuf (N nth : Nat) (ddJunk : Nat → Int) (solved : Nat → Bool) (eqn : Nat → Nat)
    (rows : Nat → List (Int × K)) (junk : Nat → ThBuf K) (i : Nat) : ThBuf K :=
  let dd := domainDecomposition N nth ddJunk
  assembleThread solved eqn rows (dd.estart i) (dd.eend i) { junk i with nnz := 0 }

/-- Stores of thread `i` in the merge of one block (StokesAssemblyDecoupled.c:1149-1196). -/
def threadStores (N nth : Nat) (ddJunk : Nat → Int) (solved pass : Nat → Bool) (eqn : Nat → Nat)
    (rows : Nat → List (Int × K)) (junk : Nat → ThBuf K) (nnz0 : Nat) (i : Nat) :
    List (Addr × Cell K) :=
  let dd := domainDecomposition N nth ddJunk
  let b := threadBuf N nth ddJunk solved eqn rows junk
  mergeStores pass eqn (dd.estart i) (dd.eend i) (b i) (mergeBegin nnz0 (fun i => (b i).nnz) i)

/-- Number of coefficients after the merge, `*nnzc += nnzc2[ith]`
(StokesAssemblyDecoupled.c:1192-1195). -/
def mergedNnz (N nth : Nat) (ddJunk : Nat → Int) (solved : Nat → Bool) (eqn : Nat → Nat)
    (rows : Nat → List (Int × K)) (junk : Nat → ThBuf K) (nnz0 : Nat) : Nat :=
  forUp nth nnz0 fun n i => n + (threadBuf N nth ddJunk solved eqn rows junk i).nnz

end Verif
