import Verif.Prelude
import Verif.Model.Basic

/-
Compressed row matrices and the sparse helper routines
(SparseTools.c, StokesRoutines.c:1223-1354).
-/
namespace Verif.Sparse
open Verif

variable {K : Type*} [Field K]

/-- `struct _SparseMat` (mdoodz-private.h), restricted to the members used by the scaling
routines: number of rows, row pointers `Ic`, column indices `J`, coefficients `A`,
right-hand side `b`, residual `F` and scaling vector `d`. -/
structure SparseMat (K : Type*) where
  neq : Nat
  Ic : Nat → Nat
  J : Nat → Nat
  A : Nat → K
  b : Nat → K
  F : Nat → K
  d : Nat → K

/-- Four blocks of the Stokes system (StokesA, StokesB, StokesC, StokesD of Main_DOODZ.c). -/
structure Blocks (K : Type*) where
  A : SparseMat K
  B : SparseMat K
  C : SparseMat K
  D : SparseMat K

/-- Inner loop of `ExtractDiagonalScale` (StokesRoutines.c:1230-1236 and 1251-1257): scan row `i`
and remember the coefficient standing on the diagonal. -/
def diagOfRow (M : SparseMat K) (d : Nat → K) (i : Nat) : Nat → K :=
  forUp (M.Ic (i + 1) - M.Ic i) d fun d J1 =>
    if i = M.J (M.Ic i + J1) then upd d i (M.A (M.Ic i + J1)) else d

/-- One of the two row loops of `ExtractDiagonalScale`; returns the diagonal vector of `M` and the
copy stored in the partner block (StokesRoutines.c:1229-1238 / 1250-1259). -/
def extractLoop (M : SparseMat K) (dCopy : Nat → K) : (Nat → K) × (Nat → K) :=
  forUp M.neq (M.d, dCopy) fun s i =>
    let d := diagOfRow M s.1 i
    (d, upd s.2 i (d i))

/-- `ExtractDiagonalScale` (StokesRoutines.c:1223-1261). -/
def extractDiagonalScale (S : Blocks K) : Blocks K :=
  let rA := extractLoop S.A S.B.d
  let rD := extractLoop S.D S.C.d
  { A := { S.A with d := rA.1 }, B := { S.B with d := rA.2 },
    C := { S.C with d := rD.2 }, D := { S.D with d := rD.1 } }

/-- Coefficient loop of one block of `ScaleMatrix`: `n` rows, coefficient `(i,j)` multiplied by
`dr[i]*dc[j]` (StokesRoutines.c:1279-1284, 1294-1299, 1309-1314, 1324-1329). -/
def scaleCoeffs (M : SparseMat K) (n : Nat) (dr dc : Nat → K) : Nat → K :=
  forUp n M.A fun a i =>
    forUp (M.Ic (i + 1) - M.Ic i) a fun a J1 =>
      upd a (M.Ic i + J1) (a (M.Ic i + J1) * (dr i * dc (M.J (M.Ic i + J1))))

/-- Right-hand side scaling of one block of `ScaleMatrix`
(StokesRoutines.c:1276-1277, 1291-1292, 1306-1307, 1321-1322). -/
def scaleVec (n : Nat) (d v : Nat → K) : Nat → K := forUp n v fun v i => upd v i (v i * d i)

/-- One block of `ScaleMatrix` (StokesRoutines.c:1273-1286 and its three copies). -/
def scaleBlock (M : SparseMat K) (n : Nat) (dr dc : Nat → K) : SparseMat K :=
  { M with A := scaleCoeffs M n dr dc, b := scaleVec n M.d M.b, F := scaleVec n M.d M.F }

/-- `ScaleMatrix` (StokesRoutines.c:1267-1333).  The D block is looped over with the row count of
the C block, as in the code (line 1319). -/
def scaleMatrix (S : Blocks K) : Blocks K :=
  { A := scaleBlock S.A S.A.neq S.A.d S.A.d
    B := scaleBlock S.B S.B.neq S.A.d S.D.d
    C := scaleBlock S.C S.C.neq S.D.d S.A.d
    D := scaleBlock S.D S.C.neq S.D.d S.D.d }

/-- `ScaleVelocitiesRHSBack` (StokesRoutines.c:1339-1354). -/
def scaleBack (S : Blocks K) (x : Nat → K) : Nat → K :=
  let x := forUp S.A.neq x fun x k => upd x k (x k * S.A.d k)
  forUp S.D.neq x fun x k => upd x (S.A.neq + k) (x (S.A.neq + k) * S.D.d k)

/-- `PermuteVector` (SparseTools.c:84-90): `vec1[k] = vec2[P[k]]`. -/
def permuteVector {α : Type*} (vec1 vec2 : Nat → α) (P : Nat → Nat) (size : Nat) : Nat → α :=
  forUp size vec1 fun v k => upd v k (vec2 (P k))

/-- `PermuteInverseVector` (SparseTools.c:96-103): `vec1[P[k]] = vec2[k]`. -/
def permuteInverseVector {α : Type*} (vec1 vec2 : Nat → α) (P : Nat → Nat) (size : Nat) : Nat → α :=
  forUp size vec1 fun v k => upd v (P k) (vec2 k)

/-- State of `DecompressCSRtoTriplets`: output array, write position `m`, current row `p`
(SparseTools.c:318-323). -/
structure Decomp where
  out : Nat → Nat
  m : Nat
  p : Nat

/-- `DecompressCSRtoTriplets` (SparseTools.c:316-333).  The loop variable of the code is `k+1`
here. Row pointers are assumed non-decreasing (so C's signed `off` equals the natural
difference). -/
def decompress (size : Nat) (Icsr : Nat → Nat) (Itriplets : Nat → Nat) : Decomp :=
  forUp size { out := upd Itriplets 0 0, m := 0, p := 0 } fun s k =>
    let off := Icsr (k + 1) - Icsr k
    { out := forUp off s.out (fun o l => upd o (s.m + l) s.p), m := s.m + off, p := s.p + 1 }

end Verif.Sparse
