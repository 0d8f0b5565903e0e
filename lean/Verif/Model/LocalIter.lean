import Verif.Prelude
import Mathlib.Analysis.SpecialFunctions.Pow.Real

/-
Local visco-elastic iterations (/repo/MDLIB/RheologyDensity.c:82-127, 549-563, 584-617).
-/
namespace Verif.LocalIter

/-- Active mechanisms at a point: elastic viscosity, constant viscosity, prefactors `B` and exponents
of dislocation creep, Peierls creep (exponent `ST + n_exp`), grain boundary sliding, and of diffusion
creep, with grain size `d` to the power `m/n` in its viscosity (RheologyDensity.c:461-495). -/
structure Creep where
  el : Option ℝ
  cst : Option ℝ
  pwl : Option (ℝ × ℝ)
  exp : Option (ℝ × ℝ)
  lin : Option (ℝ × ℝ × ℝ)
  gbs : Option (ℝ × ℝ)
  d : ℝ

/-- Strain-rate prefactor `C = (2B)^(-n)` (RheologyDensity.c:470, 483, 495). -/
noncomputable def pref (B n : ℝ) : ℝ := (2 * B) ^ (-n)

/-- Strain rates of the mechanisms at stress `tii` (RheologyDensity.c:92-97).  `C_gbs` is a member of
the parameter structure that is never assigned (RheologyDensity.c:584-612), hence zero. -/
noncomputable def rates (c : Creep) (tii : ℝ) : List ℝ :=
  (c.cst.toList.map fun e => tii / 2 / e)
  ++ (c.pwl.toList.map fun q => pref q.1 q.2 * tii ^ q.2)
  ++ (c.gbs.toList.map fun q => 0 * tii ^ q.2)
  ++ (c.exp.toList.map fun q => pref q.1 q.2 * tii ^ q.2)
  ++ (c.lin.toList.map fun q => pref q.1 q.2.1 * tii ^ q.2.1 * c.d ^ (-q.2.2))

/-- Elastic strain rate (RheologyDensity.c:100). -/
noncomputable def elasticRate (c : Creep) (tii : ℝ) : ℝ := (c.el.toList.map fun e => tii / (2 * e)).sum

/-- Residual of the strain-rate partition (RheologyDensity.c:98-100). -/
noncomputable def residual (c : Creep) (E eta : ℝ) : ℝ :=
  E - elasticRate c (2 * eta * E) - (rates c (2 * eta * E)).sum

/-- Derivative used by the iteration (RheologyDensity.c:111-116); grain boundary sliding is absent. -/
noncomputable def slope (c : Creep) (E eta : ℝ) : ℝ :=
  let tii := 2 * eta * E
  (c.el.toList.map fun e => -E / e).sum
  + (c.exp.toList.map fun q => -(pref q.1 q.2 * tii ^ q.2) * q.2 / eta).sum
  + (c.lin.toList.map fun q => -(pref q.1 q.2.1 * tii ^ q.2.1 * c.d ^ (-q.2.2)) * q.2.1 / eta).sum
  + (c.pwl.toList.map fun q => -(pref q.1 q.2 * tii ^ q.2) * q.2 / eta).sum
  + (c.cst.toList.map fun e => -E / e).sum

/-- Outcome of the iteration: viscosity and stress, the exit of a failed iteration, or a division by a
zero derivative. -/
inductive Out where
  | ok (eta tii : ℝ)
  | failed
  | zeroSlope

/-- The loop with `n` passes left (RheologyDensity.c:90-118). -/
noncomputable def solve (c : Creep) (E tol : ℝ) : Nat → ℝ → ℝ → Out
  | 0, eta, tii => .ok eta tii
  | n + 1, eta, _ =>
    let r := residual c E eta
    let res := |r / E|
    if res < tol / 100 then .ok eta (2 * eta * E)
    else if n = 0 ∧ tol < res then .failed
    else if slope c E eta = 0 then .zeroSlope
    else solve c E tol n (eta - r / slope c E eta) (2 * eta * E)

/-- Isolated viscosities of the mechanisms (RheologyDensity.c:530-551). -/
noncomputable def isolated (c : Creep) (E : ℝ) : List ℝ :=
  c.cst.toList
  ++ (c.pwl.toList.map fun q => q.1 * E ^ (1 / q.2 - 1))
  ++ c.el.toList
  ++ (c.exp.toList.map fun q => q.1 * E ^ (1 / q.2 - 1))
  ++ (c.lin.toList.map fun q => q.1 * E ^ (1 / q.2.1 - 1) * c.d ^ (q.2.2 / q.2.1))
  ++ (c.gbs.toList.map fun q => q.1 * E ^ (1 / q.2 - 1))

/-- Initial guess: smallest isolated viscosity, capped by a huge number (RheologyDensity.c:556-568). -/
noncomputable def guess (c : Creep) (E huge : ℝ) : ℝ := (isolated c E).foldl min huge

/-- `LocalIterationViscoElastic` from the initial guess, 20 passes (RheologyDensity.c:82-127, 615-617). -/
noncomputable def run (c : Creep) (E tol huge : ℝ) : Out :=
  solve c E tol 20 (guess c E huge) (2 * guess c E huge * E)

end Verif.LocalIter
