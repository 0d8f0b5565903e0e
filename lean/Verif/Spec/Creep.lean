import Verif.Model.LocalIter

/-! Flow laws as the user knows them. -/
namespace Verif.Spec
open Verif.LocalIter

/-- Strain rate of an optional mechanism. -/
def part {α : Type} (o : Option α) (f : α → ℝ) : ℝ := o.elim 0 f

/-- Total strain rate at stress `t` of all mechanisms, grain boundary sliding excepted: linear in
stress for elasticity and constant viscosity, `(t/2B)^n` for the power laws, times `d^(-m)` for
diffusion creep. -/
noncomputable def flowWithoutGbs (c : Creep) (t : ℝ) : ℝ :=
  part c.el (fun e => t / (2 * e)) + part c.cst (fun e => t / (2 * e))
  + part c.pwl (fun q => (t / (2 * q.1)) ^ q.2) + part c.exp (fun q => (t / (2 * q.1)) ^ q.2)
  + part c.lin (fun q => (t / (2 * q.1)) ^ q.2.1 * c.d ^ (-q.2.2))

/-- Total strain rate of all mechanisms the user switched on. -/
noncomputable def flow (c : Creep) (t : ℝ) : ℝ :=
  flowWithoutGbs c t + part c.gbs (fun q => (t / (2 * q.1)) ^ q.2)

/-- Physically meaningful parameters: positive viscosities and prefactors, exponents at least one. -/
structure Physical (c : Creep) : Prop where
  el : ∀ e ∈ c.el, 0 < e
  cst : ∀ e ∈ c.cst, 0 < e
  pwl : ∀ q ∈ c.pwl, 0 < q.1 ∧ 1 ≤ q.2
  exp : ∀ q ∈ c.exp, 0 < q.1 ∧ 1 ≤ q.2
  lin : ∀ q ∈ c.lin, 0 < q.1 ∧ 1 ≤ q.2.1
  gbs : ∀ q ∈ c.gbs, 0 < q.1 ∧ 1 ≤ q.2
  d : 0 < c.d

end Verif.Spec
