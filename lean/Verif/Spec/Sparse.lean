import Verif.Model.SparseTools
import Mathlib.Algebra.BigOperators.Intervals
import Mathlib.Algebra.BigOperators.Ring.Finset

/- What a compressed row matrix means, and what it means to solve a block system. -/
namespace Verif.Sparse
open Finset

variable {K : Type*} [Field K]

/-- Row pointers are non-decreasing (each row owns the positions `Ic i .. Ic (i+1) - 1`). -/
def RowPtrOK (neq : Nat) (Ic : Nat → Nat) : Prop := ∀ i < neq, Ic i ≤ Ic (i + 1)

/-- Product of row `i` with a vector. -/
def rowDot (M : SparseMat K) (x : Nat → K) (i : Nat) : K :=
  ∑ k ∈ Ico (M.Ic i) (M.Ic (i + 1)), M.A k * x (M.J k)

/-- Matrix entry `(i,j)` (sum of the stored coefficients with that label). -/
def entry (M : SparseMat K) (i j : Nat) : K :=
  ∑ k ∈ Ico (M.Ic i) (M.Ic (i + 1)), if M.J k = j then M.A k else 0

/-- The four blocks fit together. -/
structure WellFormed (S : Blocks K) : Prop where
  ptrA : RowPtrOK S.A.neq S.A.Ic
  ptrB : RowPtrOK S.B.neq S.B.Ic
  ptrC : RowPtrOK S.C.neq S.C.Ic
  ptrD : RowPtrOK S.D.neq S.D.Ic
  rowsB : S.B.neq = S.A.neq
  rowsD : S.D.neq = S.C.neq
  colA : ∀ i < S.A.neq, ∀ k, S.A.Ic i ≤ k → k < S.A.Ic (i + 1) → S.A.J k < S.A.neq
  colB : ∀ i < S.B.neq, ∀ k, S.B.Ic i ≤ k → k < S.B.Ic (i + 1) → S.B.J k < S.C.neq
  colC : ∀ i < S.C.neq, ∀ k, S.C.Ic i ≤ k → k < S.C.Ic (i + 1) → S.C.J k < S.A.neq
  colD : ∀ i < S.D.neq, ∀ k, S.D.Ic i ≤ k → k < S.D.Ic (i + 1) → S.D.J k < S.C.neq

/-- `x` (velocities first, pressures behind) satisfies `A u + B p = f`, `C u + D p = g`. -/
def Solves (S : Blocks K) (f g : Nat → K) (x : Nat → K) : Prop :=
  (∀ i < S.A.neq, rowDot S.A x i + rowDot S.B (fun j => x (S.A.neq + j)) i = f i) ∧
  (∀ i < S.C.neq, rowDot S.C x i + rowDot S.D (fun j => x (S.A.neq + j)) i = g i)

end Verif.Sparse
