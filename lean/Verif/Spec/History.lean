import Verif.Prelude
import Mathlib.Data.Real.Basic
import Mathlib.Data.Matrix.Mul
import Mathlib.LinearAlgebra.Matrix.Notation

/- Vocabulary for the quantities carried by the markers. -/
namespace Verif.Hist

/-- Squared length of the image of the vector `(a, b)` under the tensor `(xx xz; zx zz)`. -/
def imageSq (xx xz zx zz a b : ℝ) : ℝ := (xx * a + xz * b) ^ 2 + (zx * a + zz * b) ^ 2

/-- `s1` and `s2` are the greatest and the least stretch of a tensor: the greatest and least length of the image
of a unit vector, both attained. -/
structure Stretches (xx xz zx zz s1 s2 : ℝ) : Prop where
  pos : 0 < s2
  bounds : ∀ a b : ℝ, a ^ 2 + b ^ 2 = 1 → s2 ^ 2 ≤ imageSq xx xz zx zz a b ∧ imageSq xx xz zx zz a b ≤ s1 ^ 2
  greatest : ∃ a b : ℝ, a ^ 2 + b ^ 2 = 1 ∧ imageSq xx xz zx zz a b = s1 ^ 2
  least : ∃ a b : ℝ, a ^ 2 + b ^ 2 = 1 ∧ imageSq xx xz zx zz a b = s2 ^ 2
  nonneg : 0 ≤ s1

/-- Stress turned by the angle `θ` counter-clockwise: `R T Rᵀ`. -/
def turned (c s : ℝ) (T : Matrix (Fin 2) (Fin 2) ℝ) : Matrix (Fin 2) (Fin 2) ℝ :=
  !![c, -s; s, c] * T * !![c, s; -s, c]

/-- Second invariant (squared) of a plane stress deviator with the out-of-plane component left out. -/
noncomputable def shearSq (xx zz xz : ℝ) : ℝ := ((xx - zz) / 2) ^ 2 + xz ^ 2

end Verif.Hist
