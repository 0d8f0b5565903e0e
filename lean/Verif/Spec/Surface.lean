import Mathlib.Algebra.Order.Field.Basic

/-
The topographic profile as a user sees it: straight segments between the nodal heights.
-/
namespace Verif.Surf

variable {K : Type*} [Field K] [LinearOrder K]

/-- Height `y` at `x` of the polyline through `(xg j, h j)`, `j = 0..n`. -/
def OnPolyline (n : Nat) (xg h : Nat → K) (x y : K) : Prop :=
  ∃ j < n, xg j ≤ x ∧ x ≤ xg (j + 1) ∧
    y * (xg (j + 1) - xg j) = h j * (xg (j + 1) - x) + h (j + 1) * (x - xg j)

/-- Equally spaced columns. -/
def Even (n : Nat) (dx : K) (xg : Nat → K) : Prop := ∀ j ≤ n, xg j = xg 0 + j * dx

end Verif.Surf
