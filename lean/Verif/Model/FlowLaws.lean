import Verif.Model.Density

/-
Model of /repo/MDLIB/FlowLaws.c: reading, scaling and correction of flow laws, with the table of diffusion
creep.  The other tables are in Model/LawTables.lean.
-/
namespace Verif.Flow
open Verif

/-- Parameters of a creep law of one material (`tpwl`, `npwl`, `mpwl`, `rpwl`, `Qpwl`, `Vpwl`, `Apwl`,
`fpwl`, `apwl`, `Fpwl`, and the same with `lin`, `gbs`). -/
structure Law where
  t : ℝ
  n : ℝ
  m : ℝ
  r : ℝ
  Q : ℝ
  V : ℝ
  A : ℝ
  f : ℝ
  a : ℝ
  F : ℝ

/-- Units used by the scaling: length, stress, time, energy (`scaling->L`, `S`, `t`, `J`). -/
structure Units where
  L : ℝ
  S : ℝ
  t : ℝ
  J : ℝ

/-- Scaling block (FlowLaws.c:546-554, 677-685, 747-755). -/
noncomputable def scale (u : Units) (l : Law) : Law :=
  { l with
    Q := l.Q / u.J
    V := l.V / u.L ^ 3
    A := l.A / (u.S ^ (-l.n) * u.S ^ (-l.r) * u.L ^ l.m / u.t)
    f := l.f / u.S }

/-- Correction factor for the invariant formulation (FlowLaws.c:557-562, 688-693, 758-763). -/
noncomputable def correct (number : Int) (l : Law) : Law :=
  let F := l.F
  let F := if l.t = 0 then 1 else F
  let F := if l.t = 1 then 1 / 6 * (2 : ℝ) ^ (1 / l.n) * (3 : ℝ) ^ ((l.n - 1) / 2 / l.n) else F
  let F := if l.t = 2 then 1 / 4 * (2 : ℝ) ^ (1 / l.n) else F
  let F := if number < 0 then 1 else F
  { l with F := F }

/-- Creep parameters of one material: dislocation (`..pwl`) and diffusion (`..lin`). -/
structure Both where
  pwl : Law
  lin : Law

/-- The `switch` of `ReadDataLinear` (FlowLaws.c:579-674).  Case 1 assigns the dislocation parameters.
`ast` is `act_vol_dif_ast` when `force_act_vol_ast` is 1.  `none`: no such law. -/
noncomputable def linearTable (number : Int) (ast : Option ℝ) (b : Both) : Option Both :=
  match number.natAbs with
  | 1 => some { b with pwl := { b.pwl with t := 1, n := 3.3, m := 0, r := 0, Q := 186500, V := 0, A := 3.1623e-26, f := 0, a := 0 } }
  | 15 => some { b with lin := { b.lin with t := 1, n := 1.1, m := 3.3, r := 0, Q := 200000, V := 0, A := 1.7119e-19, f := 0, a := 0 } }
  | 19 => some { b with lin := { b.lin with t := 1, n := 1, m := 3, r := 0, Q := 170000, V := 0, A := 5.0119e-23, f := 0, a := 0 } }
  | 25 => some { b with lin := { b.lin with t := 1, n := 1, m := 3, r := 0, Q := 268000, V := 0, A := 1.2589e-19, f := 0, a := 0 } }
  | 40 => some { b with lin := { b.lin with t := 1, n := 1, m := 3, r := 0, Q := 375000, V := ast.getD 4e-6, A := 1.5e-15, f := 0, a := 0 } }
  | 41 => some { b with lin := { b.lin with t := 1, n := 1, m := 3, r := 1, Q := 375000, V := 7e-6, A := 2.5e-23, f := 1e9, a := 0 } }
  | _ => none

/-- `ReadDataLinear` (FlowLaws.c:575-700); `none` is `exit(12)` for an unknown law (695). -/
noncomputable def readLinear (u : Units) (number : Int) (ast : Option ℝ) (b : Both) : Option Both :=
  (linearTable number ast b).map fun b => { b with lin := correct number (scale u b.lin) }

/-- `'Homemade'` power law 1 (FlowLaws.c:56-69): `eta0` is the scaled reference viscosity, `eta` its unit. -/
noncomputable def homemade1 (eta0 eta : ℝ) (l : Law) : Law :=
  { l with t := 0, m := 0, r := 0, V := 0, A := (eta0 * eta) ^ (-l.n), f := 0, a := 0 }

/-- `'Homemade'` power law 2 "with constrained reference stress" (FlowLaws.c:70-84): `eps0` and `tau0` are the
scaled reference strain rate and stress (InputOutput.c:1320-1321). -/
noncomputable def homemade2 (eps0 tau0 : ℝ) (l : Law) : Law :=
  { l with t := 0, m := 0, r := 0, V := 0, A := ((2 : ℝ) ^ l.n * eps0 / tau0 ^ l.n) ^ (-l.n), f := 0, a := 0 }

/-- `ReadDataPowerLaw` for the two user-defined laws (FlowLaws.c:545-562 after the `switch`). -/
noncomputable def readHomemade (u : Units) (number : Int) (eta0 eta eps0 tau0 : ℝ) (l : Law) : Law :=
  correct number (scale u (if number.natAbs = 1 then homemade1 eta0 eta l else homemade2 eps0 tau0 l))

/-- Viscosity of a creep law at strain rate `e` (RheologyDensity.c:474, 535; for diffusion creep 482, 549). -/
noncomputable def viscosity (pre R T P d phi e : ℝ) (l : Law) : ℝ :=
  Dens.creepViscosity (Dens.pureB pre l.F R T P l.V d l.m l.f l.r l.a phi ⟨l.n, l.A, l.Q⟩) l.n e

/-- Parameters of a Peierls law (`Gexp`, `Sexp`, `Qexp`, `Eexp`, `nexp`, `texp`). -/
structure Peierls where
  t : ℝ
  G : ℝ
  S : ℝ
  Q : ℝ
  E : ℝ
  n : ℝ

/-- Scaling and "correction" of a Peierls law (FlowLaws.c:816-826); `scaling->E` is `1/t`. -/
noncomputable def scalePeierls (u : Units) (number : Int) (l : Peierls) : Peierls :=
  { l with
    S := l.S / u.S
    Q := l.Q / u.J
    E := l.E / (1 / u.t * u.S ^ (-l.n))
    t := if number < 0 then 0 else l.t }

/-- Correction factor of the Peierls law (RheologyDensity.c:492), `N = ST + n_exp`. -/
noncomputable def peierlsF (N : ℝ) : ℝ := ((2 : ℝ) ^ (1 - N) / Real.sqrt 3 ^ (N + 1)) ^ (1 / N)

/-- Viscosity of a Peierls law at strain rate `e` (RheologyDensity.c:489-493, 551). -/
noncomputable def peierlsViscosity (R T e : ℝ) (l : Peierls) : ℝ :=
  let ST := l.Q / R / T * 2 * l.G * (1 - l.G)
  let arr := Real.exp (-l.Q / R / T * (1 - l.G) ^ 2)
  let N := ST + l.n
  peierlsF N * ((l.G * l.S) ^ (ST / N) / (l.E * arr) ^ (1 / N)) * e ^ (1 / N - 1)

end Verif.Flow
