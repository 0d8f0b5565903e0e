import Verif.Model.ViscGrid
import Verif.Spec.PointLaw
import Mathlib.Algebra.BigOperators.Group.Finset.Basic
import Mathlib.Algebra.BigOperators.Ring.Finset
import Mathlib.Algebra.Order.BigOperators.Group.Finset

/-! Vocabulary of the statements about viscosity and stress on the grid. -/
namespace Verif.Spec
open Verif.Point

/-- Fractions of `n` phases at a node: not negative, together one, none smaller than the threshold below which a phase is skipped. -/
structure Composition (n : Nat) (w : Nat → ℝ) : Prop where
  each : ∀ p < n, w p = 0 ∨ 1 / 10 ^ 13 < w p
  total : ∑ p ∈ Finset.range n, w p = 1

/-- Arithmetic, harmonic and geometric mean with weights. -/
noncomputable def mean (a : Mean) (n : Nat) (w x : Nat → ℝ) : ℝ :=
  match a with
  | .arithmetic => ∑ p ∈ Finset.range n, w p * x p
  | .harmonic => (∑ p ∈ Finset.range n, w p / x p)⁻¹
  | .geometric => ∏ p ∈ Finset.range n, x p ^ w p

/-- Mean of a property of the phases that is not a viscosity. -/
noncomputable def share (n : Nat) (w x : Nat → ℝ) : ℝ := ∑ p ∈ Finset.range n, w p * x p

end Verif.Spec
