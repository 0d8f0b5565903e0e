import Mathlib.Algebra.BigOperators.Group.Finset.Basic
import Mathlib.Algebra.Order.Field.Basic
import Mathlib.Order.Interval.Finset.Nat

/-
Vocabulary for fields on cells and vertices.
-/
namespace Verif.Spec

/-- Column of the cell to the left of vertex column `k` in a box of `N` cell columns: outside the box
the cell across the periodic side, or the nearest cell. -/
def cellLeft (per : Bool) (N k : Nat) : Nat := if k = 0 then (if per then N - 1 else 0) else k - 1

/-- Column of the cell to the right of vertex column `k`. -/
def cellRight (per : Bool) (N k : Nat) : Nat := if k = N then (if per then 0 else N - 1) else k

/-- The four cells that meet at vertex `(k,l)`, as (column, row); top and bottom are never periodic. -/
def cellsAt (per : Bool) (N M k l : Nat) : List (Nat × Nat) :=
  [(cellLeft per N k, cellLeft false M l), (cellRight per N k, cellLeft false M l),
   (cellLeft per N k, cellRight false M l), (cellRight per N k, cellRight false M l)]

/-- A cell flag that means air. -/
def AirFlag (t : Int) : Prop := t = 30 ∨ t = 31

instance (t : Int) : Decidable (AirFlag t) := by unfold AirFlag; infer_instance

/-- Weight per unit area above the centre of cell `l` of a column of cells with densities `rho` and
height `dz`, counting cells below row `s`. -/
def overburden {K : Type*} [Field K] (g dz : K) (rho : Nat → K) (l s : Nat) : K :=
  g * dz * (rho l / 2 + ∑ j ∈ Finset.Ico (l + 1) s, rho j)

end Verif.Spec
