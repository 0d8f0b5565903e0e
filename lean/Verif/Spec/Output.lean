import Mathlib.Algebra.Order.Field.Basic
import Mathlib.Data.Real.Basic

/-
Vocabulary for what the output files show.
-/
namespace Verif.Spec

variable {K : Type*} [Field K] [LinearOrder K]

/-- Interval number `j` of a line divided into intervals of length `h` from `x0`: the end on the side
of larger `x` belongs to the interval, the origin belongs to interval 0. -/
def InCell (x0 h : K) (j : Nat) (x : K) : Prop :=
  (x0 + j * h < x ∧ x ≤ x0 + (j + 1) * h) ∨ (j = 0 ∧ x = x0)

/-- A point lies in the rectangle number `(j, i)`. -/
def InRect (x0 z0 hx hz : K) (j i : Nat) (x z : K) : Prop := InCell x0 hx j x ∧ InCell z0 hz i z

/-- Closeness of a point to the centre of a rectangle: 1 at the centre, falling linearly with the
distance in each direction. -/
def closeness (x0 z0 hx hz : K) (j i : Nat) (x z : K) : K :=
  (1 - |x - (x0 + (j + 1 / 2) * hx)| / hx) * (1 - |z - (z0 + (i + 1 / 2) * hz)| / hz)

/-- Nearest visible marker: among the markers `0..n-1` satisfying `vis`, marker `k` has the largest
`close`, and comes first among those with the same. -/
def Nearest {α : Type*} [LinearOrder α] (n : Nat) (vis : Nat → Prop) (close : Nat → α) (k : Nat) : Prop :=
  k < n ∧ vis k ∧ ∀ k' < n, vis k' → close k' ≤ close k ∧ (close k' = close k → k ≤ k')

end Verif.Spec
