import Verif.Model.Tangent
import Mathlib.Analysis.Calculus.Deriv.Basic

/- Vocabulary for Newton's method: derivatives of a stress along every change of the state. -/
namespace Verif.Spec.Newton
open Verif.Tan

/-- The state `x` moved by `t` times `d`. -/
def move (x : Pt ℝ) (t : ℝ) (d : Pt ℝ) : Pt ℝ := ⟨x.xx + t * d.xx, x.zz + t * d.zz, x.g + t * d.g, x.p + t * d.p⟩

/-- First-order change predicted by derivatives `g` for a change `d` of the state. -/
def dot (g : Grad ℝ) (d : Pt ℝ) : ℝ := g.xx * d.xx + g.zz * d.zz + g.g * d.g + g.p * d.p

/-- `g` are the derivatives of `f` at `x`: along every direction the rate of change of `f` is the one they
predict. -/
def Slope (f : Pt ℝ → ℝ) (x : Pt ℝ) (g : Grad ℝ) : Prop :=
  ∀ d : Pt ℝ, HasDerivAt (fun t => f (move x t d)) (dot g d) 0

/-- Deviatoric stress of a material with viscosity `eta`, weaker by the factor `ani` in shear along a foliation
with direction functions `d1 = 2 nx^2 nz^2`, `d2 = nx nz (nz^2 - nx^2)`; `ani = 1` is the isotropic law
`2 eta E`. -/
noncomputable def stress (eta ani d1 d2 : ℝ) (y : Pt ℝ) : ℝ × ℝ × ℝ :=
  let a := 1 - 1 / ani
  (2 * eta * y.xx + 2 * eta * a * (d1 * (y.zz - y.xx) - d2 * y.g),
   2 * eta * y.zz - 2 * eta * a * (d1 * (y.zz - y.xx) - d2 * y.g),
   eta * y.g + 2 * eta * a * (d2 * (y.zz - y.xx) + (d1 - 1 / 2) * y.g))

end Verif.Spec.Newton
