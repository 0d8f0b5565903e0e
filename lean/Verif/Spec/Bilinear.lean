import Verif.Prelude
import Mathlib.Algebra.BigOperators.Ring.Finset
import Mathlib.Algebra.Order.Ring.Abs

/- Piecewise bilinear interpolation on a regular grid, written with hat functions. -/
namespace Verif.Interp

variable {K : Type*} [Field K] [LinearOrder K]

/-- The hat function: 1 at 0, linear, 0 beyond distance 1. -/
def hat (t : K) : K := max 0 (1 - |t|)

/-- The piecewise bilinear function with value `f j i` at the point `(x0 + j*dx, z0 + i*dz)`,
`j < nx`, `i < nz`. -/
def bilinear (nx nz : Nat) (x0 z0 dx dz : K) (f : Nat → Nat → K) (x z : K) : K :=
  ∑ i ∈ Finset.range nz, ∑ j ∈ Finset.range nx,
    f j i * (hat ((x - x0) / dx - j) * hat ((z - z0) / dz - i))

/-- `y` lies between two values. -/
def Between (lo hi y : K) : Prop := lo ≤ y ∧ y ≤ hi

end Verif.Interp
