import Verif.Model.PointLaw

/-
Local iterations of viscosity and grain size, `LocalIterationViscoElasticGrainSize` (/repo/MDLIB/RheologyDensity.c:133-354) and the
stress update of a phase whose grain size follows the flow (360-807 with `gs == 1`).  Real arithmetic.  Dislocation creep is
taken to be on: without it the grain size is infinite.  The evaluations at the bounds (151-176) do not act on the result.
-/
namespace Verif.Point
open Verif

/-- Parameters of grain growth and reduction: growth prefactor `Ag = Kg exp(-Qg/RT)` (538-539), exponent `ppzm`, `Lpzm`, `cpzm`,
`Gpzm` (540-543). -/
structure Gse where
  Ag : ℝ
  p : ℝ
  lam : ℝ
  c : ℝ
  gam : ℝ

/-- `Bg` (144). -/
noncomputable def Gse.Bg (g : Gse) : ℝ := g.lam / (g.c * g.gam)

/-- Rate of dislocation creep with prefactor and exponent `q` (262). -/
noncomputable def pwlRate (q : ℝ × ℝ) (E eta : ℝ) : ℝ := LocalIter.pref q.1 q.2 * (2 * eta * E) ^ q.2

/-- Grain size at a viscosity (263). -/
noncomputable def grainAt (g : Gse) (q : ℝ × ℝ) (E eta : ℝ) : ℝ :=
  (2 * g.Bg * E * pwlRate q E eta * eta * g.p / g.Ag) ^ (-1 / (g.p + 1))

/-- `dddeta` (267). -/
noncomputable def grainSlope (g : Gse) (q : ℝ × ℝ) (E eta : ℝ) : ℝ :=
  let C := LocalIter.pref q.1 q.2;
  -1 / 2 * g.Ag * grainAt g q E eta * (2 * E * eta) ^ (-q.2)
    * (2 * g.Bg * C * E * q.2 * g.p * (2 * E * eta) ^ q.2 / g.Ag + 2 * g.Bg * C * E * g.p * (2 * E * eta) ^ q.2 / g.Ag)
    / (g.Bg * C * E * eta * g.p * (g.p + 1))

/-- The mechanisms at the grain size that belongs to a viscosity. -/
noncomputable def atGrain (c : LocalIter.Creep) (g : Gse) (q : ℝ × ℝ) (E eta : ℝ) : LocalIter.Creep :=
  { c with pwl := some q, d := grainAt g q E eta }

/-- What the change of grain size adds to the derivative (289). -/
noncomputable def grainTerm (c : LocalIter.Creep) (g : Gse) (q : ℝ × ℝ) (E eta : ℝ) : ℝ :=
  match c.lin with
  | none => 0
  | some l => l.2.2 * (LocalIter.pref l.1 l.2.1 * (2 * eta * E) ^ l.2.1 * grainAt g q E eta ^ (-l.2.2))
      * grainSlope g q E eta / grainAt g q E eta

/-- How the iterations end: viscosity, stress and grain size, `exit(0)`, or a division by a derivative of zero. -/
inductive GrainOut where
  | ok (eta tii d : ℝ)
  | failed
  | zeroSlope

/-- The loop with `n` passes left (258-292): pass `it = 20 - n`; the change of grain size enters the derivative from the third pass on. -/
noncomputable def grainSolve (c : LocalIter.Creep) (g : Gse) (q : ℝ × ℝ) (E tol : ℝ) : Nat → ℝ → ℝ → ℝ → GrainOut
  | 0, eta, tii, d => .ok eta tii d
  | n + 1, eta, _, _ =>
    let c1 := atGrain c g q E eta
    let r := LocalIter.residual c1 E eta
    let slope := LocalIter.slope c1 E eta + (if 1 < 20 - (n + 1) then grainTerm c g q E eta else 0)
    if |r / E| < tol / 100 then .ok eta (2 * eta * E) (grainAt g q E eta)
    else if n = 0 ∧ tol < |r / E| then .failed
    else if slope = 0 then .zeroSlope
    else grainSolve c g q E tol n (eta - r / slope) (2 * eta * E) (grainAt g q E eta)

/-- Grain size of the first guess (544-546): at the stress of elastic deformation `2 etaEl E`. -/
noncomputable def grainGuess (g : Gse) (q : ℝ × ℝ) (E etaEl : ℝ) : ℝ :=
  let T := 2 * etaEl * E
  let e := T / 2 / (q.1 * E ^ (1 / q.2 - 1))
  Real.exp (Real.log (g.Ag * g.gam / (g.lam * (1 / g.c) * T * e * g.p)) / (1 + g.p))

/-- First guess (549-568) and iterations. -/
noncomputable def grainRun (c : LocalIter.Creep) (g : Gse) (q : ℝ × ℝ) (E tol huge etaEl : ℝ) : GrainOut :=
  let c0 := { c with pwl := some q, d := grainGuess g q E etaEl }
  let eta := LocalIter.guess c0 E huge
  grainSolve c g q E tol 20 eta (2 * eta * E) (grainGuess g q E etaEl)

/-- `ViscosityConcise` for a phase whose grain size follows the flow (360-807): rates and heat use the grain size of the iterations,
which is also the one returned (`*d1`, 347, 732).  With `cpzm` or `Gpzm` zero, `Bg` (144) and the grain size are not numbers. -/
noncomputable def updateGrain (v : Env) (m : Mat) (g : Gse) (i : In) (cell : Bool) : Res :=
  if m.lin = true ∧ 0 < m.linLaw.m ∧ i.d < 1 / 10 ^ 13 / v.sL then .exit 1
  else if g.c * g.gam = 0 then .nan
  else
    let c := creep v m id i
    let q := (prefactor v m.pre (clampT v i.T) i.P i.d i.phi m.pwlLaw, m.pwlLaw.n)
    let E := rate v i.E
    match grainRun c g q E (1 / 10 ^ 11) (10 ^ 100 / v.sEta) ((moduli v i).1 * v.dtEff) with
    | .failed => .exit 0
    | .zeroSlope => .nan
    | .ok etaVe tii d => finish v { m with gsRef := d } { c with d := d } i cell E etaVe tii

end Verif.Point
