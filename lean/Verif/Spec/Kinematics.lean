import Mathlib.Algebra.Field.Basic

/-
Vocabulary for flows sampled on the staggered grid: where the velocity nodes are.
-/
namespace Verif.Spec

variable {K : Type*} [Field K]

/-- A plane flow: the two velocity components as functions of position. -/
structure Flow (K : Type*) where
  (vx vz : K → K → K)

/-- The flow with velocity `(a + b x + c z, d + e x + f z)`. -/
def linearFlow (a b c d e f : K) : Flow K := ⟨fun x z => a + b * x + c * z, fun x z => d + e * x + f * z⟩

/-- Rigid motion: translation `(a, d)` and anticlockwise rotation at rate `w`. -/
def rigidFlow (a d w : K) : Flow K := ⟨fun _ z => a - w * z, fun x _ => d + w * x⟩

/-- Horizontal velocity node in column `k`, row `l`: on the vertical grid lines, half a cell below the
vertex of the same row. -/
def uNode (xmin zmin dx dz : K) (k l : Nat) : K × K := (xmin + k * dx, zmin + (l - 1 / 2) * dz)

/-- Vertical velocity node in column `k`, row `l`: on the horizontal grid lines, half a cell left of the
vertex of the same column. -/
def vNode (xmin zmin dx dz : K) (k l : Nat) : K × K := (xmin + (k - 1 / 2) * dx, zmin + l * dz)

/-- The arrays hold the flow at the nodes of a grid of `Nx` by `Nz` vertices. -/
structure Sampled (xmin zmin dx dz : K) (Nx Nz : Nat) (w : Flow K) (u v : Nat → K) : Prop where
  u : ∀ k l, k < Nx → l < Nz + 1 →
    u (k + l * Nx) = w.vx (uNode xmin zmin dx dz k l).1 (uNode xmin zmin dx dz k l).2
  v : ∀ k l, k < Nx + 1 → l < Nz →
    v (k + l * (Nx + 1)) = w.vz (vNode xmin zmin dx dz k l).1 (vNode xmin zmin dx dz k l).2

end Verif.Spec
