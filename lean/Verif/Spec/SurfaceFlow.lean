import Mathlib.Algebra.Order.Field.Basic
import Mathlib.Algebra.BigOperators.Group.Finset.Basic

/- Vocabulary for C125 to C128: columns of rock under air, regular rows, background flow. -/
namespace Verif.SFlow

variable {K : Type*} [Field K] [LinearOrder K]

/-- Rows of equal height `dz`: vertex rows `zg`, cell centres `zc` half way between them. -/
def Rows (n : Nat) (dz : K) (zg zc : Nat → K) : Prop :=
  (∀ j ≤ n, zg j = zg 0 + j * dz) ∧ ∀ j < n, zc j = zg 0 + (j + 1 / 2) * dz

/-- A column with rock (tag -1) in rows `0..m`, the first air cell (tag 31) in row `m+1` and air (30 or 31) above. -/
def RockTo (n m : Nat) (tag : Nat → Int) : Prop :=
  m + 1 < n ∧ (∀ j ≤ m, tag j = -1) ∧ tag (m + 1) = 31 ∧ ∀ j, m + 1 < j → j < n → tag j = 30 ∨ tag j = 31

/-- Weight of the rock between height `z` and the surface at `h`, per unit area. -/
def weightAbove (g rho h z : K) : K := g * rho * (h - z)

/-- Node row `j` of a column is the lowest air node above rock: air at `j`, no air at `j-1`. -/
def Interface (air : Nat → Prop) (j : Nat) : Prop := 1 ≤ j ∧ air j ∧ ¬ air (j - 1)

/-- Uniform flow with shortening rate `E` along x and areal growth `2D/3`: velocity at `(x, z)`. -/
def pureShear (E D x z : K) : K × K := (-x * (E - D / 3), z * (E + D / 3))

/-- Simple shear of rate `2E` along x with areal growth `2D/3`. -/
def simpleShear (E D x z : K) : K × K := (2 * z * E + x * D / 3, z * D / 3)

end Verif.SFlow
