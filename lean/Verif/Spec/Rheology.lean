import Verif.Prelude
import Mathlib.Algebra.Order.Field.Basic
import Mathlib.Algebra.BigOperators.Fin
import Mathlib.Analysis.SpecialFunctions.Log.Basic

/-! Vocabulary of the rheology statements, independent of the model. -/
namespace Verif.Spec

section
variable {K : Type*} [Field K] [LinearOrder K]

/-- `x` lies between `a` and `b`, in whichever order. -/
def Between (a b x : K) : Prop := min a b ≤ x ∧ x ≤ max a b

/-- `f` moves steadily from `a` towards `b` on a set `S` of arguments. -/
def MovesFromTo (a b : K) (S : Set K) (f : K → K) : Prop :=
  ∀ s ∈ S, ∀ t ∈ S, s ≤ t → (b ≤ a → f t ≤ f s) ∧ (a ≤ b → f s ≤ f t)

/-- Drucker-Prager condition at pressure `P` with linear visco-plastic overstress: the stress equals
cohesion and friction strength plus `etaVp` times the plastic rate. -/
def OnYield (C cosf sinf P etaVp gdot tau : K) : Prop := tau = C * cosf + P * sinf + etaVp * gdot

/-- A mixture of `n` phases: non-negative fractions adding to one, positive properties. -/
structure Mixture (n : Nat) (w eta : Nat → K) : Prop where
  frac : ∀ p < n, 0 ≤ w p
  total : ∑ p ∈ Finset.range n, w p = 1
  pos : ∀ p < n, 0 < eta p

/-- Transversely isotropic law in closed form: deviatoric stress for strain-rate components
`(xx, zz, xz)`, viscosity `eta`, anisotropy `a`, director functions `d1`, `d2`. -/
def transverse (eta a d1 d2 : K) (e : K × K × K) : K × K × K :=
  (eta * ((2 - 2 * a * d1) * e.1 + 2 * a * d1 * e.2.1 - 2 * a * d2 * (2 * e.2.2)),
   eta * (2 * a * d1 * e.1 + (2 - 2 * a * d1) * e.2.1 + 2 * a * d2 * (2 * e.2.2)),
   eta * (-2 * a * d2 * e.1 + 2 * a * d2 * e.2.1 + (1 + 2 * a * (d1 - 1 / 2)) * (2 * e.2.2)))

/-- The pairs `(d1, d2)` reachable as averages of the director functions `2 nx² nz²` and
`nx nz (nz² - nx²)` over unit directors: a disk. -/
def DirectorPair (d1 d2 : K) : Prop := d2 ^ 2 ≤ d1 / 2 * (1 - 2 * d1)

/-- Rate of work of a stress on a strain rate, both as `(xx, zz, xz)`. -/
def work (T E : K × K × K) : K := T.1 * E.1 + T.2.1 * E.2.1 + 2 * (T.2.2 * E.2.2)

end
end Verif.Spec
