import Mathlib.Analysis.SpecialFunctions.Log.Basic
import Mathlib.Tactic.TypeStar

/-! Words used to state the cell and marker steps: rate of volume change, floating-point numbers and rounding. -/
namespace Verif.Spec

/-- Rate at which a piece of material of fixed mass grows, relative to its size, while its density goes from `old` to `new`
during `dt`. -/
noncomputable def growthRate (old new dt : ℝ) : ℝ := -(new - old) / (new * dt)

/-- Positive numbers with a 53-bit significand (no bound on the exponent: neither overflow nor underflow). -/
def Double (x : ℚ) : Prop := ∃ (m : ℕ) (e : ℤ), 2 ^ 52 ≤ m ∧ m < 2 ^ 53 ∧ x = m * 2 ^ e

/-- `y` is a correctly rounded value of `q`, whatever the rule for ties. -/
def Rounds (q y : ℚ) : Prop := Double y ∧ ∀ z, Double z → |q - y| ≤ |q - z|

/-- The point lies inside an ellipse with half axes `a`, `b` around `(x0, z0)`. -/
def InEllipse {K : Type*} [Field K] [LinearOrder K] (x0 z0 a b x z : K) : Prop :=
  (x - x0) ^ 2 * b ^ 2 + (z - z0) ^ 2 * a ^ 2 < a ^ 2 * b ^ 2

end Verif.Spec
