import Mathlib.Analysis.Real.Sqrt
import Mathlib.Algebra.BigOperators.Fin

/-
Vocabulary for linear solvers, independent of the model: entries of a residual, lengths, and the
vectors a Krylov method may combine.
-/
namespace Verif.LinSpec

open Finset

/-- Entry `i` of what is left of `b` after subtracting the matrix times `x`. -/
def left {n m : Nat} (M : Fin n → Fin m → ℝ) (b : Fin n → ℝ) (x : Fin m → ℝ) (i : Fin n) : ℝ :=
  b i - ∑ j, M i j * x j

/-- `x` solves the system. -/
def Solves {n m : Nat} (M : Fin n → Fin m → ℝ) (b : Fin n → ℝ) (x : Fin m → ℝ) : Prop :=
  ∀ i, ∑ j, M i j * x j = b i

/-- Euclidean length. -/
noncomputable def len {n : Nat} (v : Fin n → ℝ) : ℝ := Real.sqrt (∑ i, v i ^ 2)

/-- Matrix times vector. -/
def apply {n m : Nat} (M : Fin n → Fin m → ℝ) (x : Fin m → ℝ) (i : Fin n) : ℝ := ∑ j, M i j * x j

/-- The `j`-th vector of the Krylov sequence of `M` preconditioned by `Q`, started from the residual `r`:
`Q r`, `Q M Q r`, `Q M Q M Q r`, ... -/
def krylov {n : Nat} (Q M : Fin n → Fin n → ℝ) (r : Fin n → ℝ) : Nat → Fin n → ℝ
  | 0 => apply Q r
  | j + 1 => apply Q (apply M (krylov Q M r j))

end Verif.LinSpec
