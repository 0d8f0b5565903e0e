import Verif.Model.Basic
import Verif.Model.Melting
import Mathlib.Analysis.SpecialFunctions.Pow.Real

/-
Model of the material laws of /repo/MDLIB/RheologyDensity.c outside the viscosity: density
(`EvaluateDensity` 1426-1491, `UpdateDensity` 1498-1539), elastic moduli (`ShearModCompExpGrid`
1299-1420), strength parameters on the grid (`CohesionFrictionDilationGrid` 1206-1290), reaction progress
(517-518) and the mixture flow law (`HuetAveragingModel` 1545-1591).

Real arithmetic.  `exp` and `pow` are the mathematical functions; `pow(a, b)` is only used here with
positive `a` in the theorems.
-/
namespace Verif.Dens
open Verif

/-- Parameters of one material used by the density laws (`materials->rho[p]`, ...); `dens` is
`density_model[p]` (RheologyDensity.c:1431-1486). -/
structure Mat where
  dens : Int
  rho : ℝ
  drho : ℝ
  T0 : ℝ
  alp : ℝ
  P0 : ℝ
  bet : ℝ
  /-- `reac_phase[p]` -/
  reac : Nat
  /-- phase diagram: sizes, limits and memory (`PDMnT`, `PDMnP`, `PDMTmin`, ..., `PDMrho`) -/
  nT : Nat
  nP : Nat
  Tlo : ℝ
  Thi : ℝ
  Plo : ℝ
  Phi : ℝ
  tab2 : Int → ℝ
  /-- one-dimensional table (`PD1DnP`, `PD1Dmin`, `PD1Dmax`, `PD1Drho`) -/
  n1 : Nat
  lo1 : ℝ
  hi1 : ℝ
  tab1 : Int → ℝ

/-- `EvaluateDensity` (RheologyDensity.c:1426-1491).  `dv` is `density_variations`; `junk` is the value of
the uninitialised variable `rho`. -/
noncomputable def evaluate (dv : Int) (mats : Nat → Mat) (p : Nat) (T P X phi junk : ℝ) : ℝ :=
  let m := mats p
  let rho := junk
  let rho := if m.dens = 0 then m.rho else rho
  let rho := if m.dens = 1 then
      let r := (1 - m.alp * (T - m.T0)) * (1 + m.bet * (P - m.P0))
      ((1 - X) * m.rho + X * (m.rho + m.drho)) * r
    else rho
  let rho := if m.dens = 2 then Melt.lookup2 m.nT m.nP m.Tlo m.Thi m.Plo m.Phi m.tab2 T P else rho
  let rho := if m.dens = 3 ∧ dv = 0 then m.rho * Real.exp (m.bet * P - m.alp * T) else rho
  let rho := if m.dens = 3 ∧ dv = 1 then
      ((1 - X) * m.rho + X * (mats m.reac).rho) * Real.exp (m.bet * P - m.alp * T)
    else rho
  let rho := if m.dens = 5 then
      (1 - phi) * (m.rho * Real.exp (m.bet * P - m.alp * T)) +
        phi * ((m.rho + m.drho) * Real.exp (m.bet * P - m.alp * T))
    else rho
  if m.dens = 4 then Melt.lookup1 m.n1 m.lo1 m.hi1 m.tab1 P else rho

/-- Density of a cell (`UpdateDensity`, RheologyDensity.c:1509-1535, `old = 0`): `flag` is the pressure
flag of the cell, `frac p` the volume fraction of phase `p`. -/
noncomputable def cellDensity (nph : Nat) (flag : Int) (frac rho : Nat → ℝ) : ℝ :=
  forUp nph 0 fun s p =>
    if 1 / 10 ^ 13 < |frac p| then (if flag ≠ 30 then s + frac p * rho p else s) else s

/-- Cells skipped in `ShearModCompExpGrid` (RheologyDensity.c:1322). -/
def airCell (flag : Int) : Bool := flag == 30 || flag == 31

/-- Vertices skipped in `ShearModCompExpGrid` (RheologyDensity.c:1372). -/
def airVertex (flag : Int) : Bool := flag == 30

/-- Harmonic phase average in `ShearModCompExpGrid` (RheologyDensity.c:1316-1351, 1367-1403; `average` is
fixed to 1): for a modulus or a compressibility, `air` when the node is above the surface.  `none`: the
reciprocal of zero (infinite; the code stops for a cell, 1353-1355, and prints for a vertex, 1395-1397). -/
noncomputable def modulus (nph : Nat) (air : Bool) (frac G : Nat → ℝ) : Option ℝ :=
  if air then some 0
  else
    let s := forUp nph 0 fun s p => s + frac p * 1 / G p
    if s = 0 then none else some (1 / s)

/-- Arithmetic phase average of the thermal expansivity (RheologyDensity.c:1319, 1344). -/
noncomputable def expansivity (nph : Nat) (air : Bool) (frac alp : Nat → ℝ) : ℝ :=
  if air then 0 else forUp nph 0 fun s p => s + frac p * alp p

/-- Side vertices with periodic sides (RheologyDensity.c:1409-1418). -/
noncomputable def periodicSides (Nx Nz : Nat) (mu : Nat → ℝ) : Nat → ℝ :=
  forUp Nz mu fun mu l =>
    let c1 := l * Nx + (Nx - 1)
    let av := 1 / 2 * (mu c1 + mu (l * Nx))
    upd (upd mu c1 av) (l * Nx) av

/-- Cohesion of a node with marker noise (RheologyDensity.c:1238, 1271). -/
noncomputable def noisyCohesion (markerNoise : Int) (C noise : ℝ) : ℝ :=
  if markerNoise = 1 then C + noise * C else C

/-- Reaction progress (RheologyDensity.c:518): `erfc` is the value of the complementary error function at
`(P - Pr)/dPr`. -/
noncomputable def progress (X0 tau dt erfc : ℝ) : ℝ := (X0 * tau - 0.5 * dt * erfc + dt) / (dt + tau)

/-- Parameters of a dislocation creep law: exponent, pre-exponential factor, activation energy. -/
structure Creep where
  n : ℝ
  A : ℝ
  Q : ℝ

/-- Bulk parameters of the mixture (`HuetAveragingModel`, RheologyDensity.c:1551-1574). -/
noncomputable def huet (c1 c2 : Creep) (X : ℝ) : Creep :=
  let f1 := 1 - X
  let f2 := X
  let a1 := c2.n + 1
  let a2 := c1.n + 1
  let down := f1 * a1 + f2 * a2
  let n := (f1 * a1 * c1.n + f2 * a2 * c2.n) / down
  let Q := (f1 * a1 * c1.Q + f2 * a2 * c2.Q) / down
  let prod1 := c1.A ^ (f1 * a1 / down) * c2.A ^ (f2 * a2 / down)
  let sumn := f1 * c1.n / (c1.n + 1) + f2 * c2.n / (c2.n + 1)
  let prod2 := (c1.n / (c1.n + 1)) ^ (f1 * a1 * c1.n / down) * (c2.n / (c2.n + 1)) ^ (f2 * a2 * c2.n / down)
  { n := n, Q := Q, A := prod1 * sumn ^ (-n) * prod2 }

/-- Correction factor of the mixture (RheologyDensity.c:1577-1586); `junk` when `t_pwl` is none of 0, 1, 2. -/
noncomputable def huetFactor (t : Int) (n junk : ℝ) : ℝ :=
  let F := junk
  let F := if t = 0 then 1 else F
  let F := if t = 1 then 1 / 6 * (2 : ℝ) ^ (1 / n) * (3 : ℝ) ^ ((n - 1) / 2 / n) else F
  if t = 2 then 1 / 4 * (2 : ℝ) ^ (1 / n) else F

/-- Viscosity pre-factor of the mixture (RheologyDensity.c:1588). -/
noncomputable def huetB (pre F R T : ℝ) (c : Creep) : ℝ :=
  pre * F * c.A ^ (-1 / c.n) * Real.exp (c.Q / R / c.n / T)

/-- Viscosity pre-factor of a pure phase (RheologyDensity.c:474): activation volume `V`, grain size `d` with
exponent `m`, fugacity `f` with exponent `r`, melt fraction `phi` with factor `a`. -/
noncomputable def pureB (pre F R T P V d m f r a phi : ℝ) (c : Creep) : ℝ :=
  pre * F * c.A ^ (-1 / c.n) * Real.exp ((c.Q + P * V) / R / c.n / T) * d ^ (m / c.n) * f ^ (-r / c.n) *
    Real.exp (-a * phi / c.n)

/-- Viscosity at strain rate `e` (RheologyDensity.c:535). -/
noncomputable def creepViscosity (B n e : ℝ) : ℝ := B * e ^ (1 / n - 1)

end Verif.Dens
