import Verif.Model.ViscGrid
import Verif.Model.Kinematics
import Verif.Model.Residual
import Verif.Model.LineSearch

/-
The nonlinear update of one time step put together: `UpdateNonLinearity` (/repo/MDLIB/StokesRoutines.c:53-67) with its parts
StrainRateComponents (Model/Kinematics.lean), NonNewtonianViscosityGrid (Model/ViscGrid.lean) and EvaluateRHS
(Model/Residual.lean), the rows of the residual (EvaluateStokesResidualDecoupled, 830-919), the trials of the line search
(640-656) and the end of the step (/repo/MDLIB/Main_DOODZ.c:712, 755-777, 850-851).  Isotropic case (`anisotropy = 0`), no
polar gravity, no reaction progress (`X_n`, `X_s` are not read by the rows).  Real arithmetic.
-/
namespace Verif.StepFlow
open Verif

/-- What does not change during a time step: the mesh without densities and viscosities (`m.rho`, `m.D11`, `m.D22`, `m.D33` are not
used), flags of periodicity, settings, materials, the fields known before the step at cells and vertices (everything in
`Point.Node` except strain rate and pressure; at vertices also not temperature, grain size and melt fraction), the switch
density_variations, the density law, the density before the step, gravity and surface process data, right-hand side and
flag comp_cells of the continuity equation, the switch diag_scaling, and what lies before the start of an array. -/
structure Setting where
  m : SMesh ℝ
  per : Bool
  env : Point.Env
  mean : Point.Mean
  n : Nat
  mats : Nat → Point.Mat
  huet : Nat → ℝ × ℝ → ℝ × ℝ
  cell : Nat → Point.Node
  vert : Nat → Point.Node
  vol : Bool
  dens : Nat → Point.Node → ℝ → ℝ
  rho0 : Nat → ℝ
  body : Resid.Body ℝ
  rhsP : Nat → ℝ
  comp : Nat → Bool
  diag : Bool
  low : Int → ℝ

/-- Number of cells and vertices, `Ncx*Ncz` and `Nx*Nz` (RheologyDensity.c:840, 1001). -/
def Setting.ncells (S : Setting) : Nat := (S.m.Nx - 1) * (S.m.Nz - 1)
/-- See `ncells`. -/
def Setting.nverts (S : Setting) : Nat := S.m.Nx * S.m.Nz

/-- Everything on the mesh that `UpdateNonLinearity` writes: strain rates, fields averaged to vertices, viscosities and stresses at
cells and vertices, cell density `rho_n`, body forces `roger_x`, `roger_z`. -/
structure Mech where
  rates : Kin.Rates ℝ
  Ts : Nat → ℝ
  Ps : Nat → ℝ
  ds : Nat → ℝ
  phis : Nat → ℝ
  cells : Nat → Point.Stored
  verts : Nat → Point.Stored
  rho : Nat → ℝ
  bx : Nat → ℝ
  bz : Nat → ℝ

/-- Array of the model as an array read with C `int` indices; `low` is the memory in front of it. -/
def Setting.arr (S : Setting) (a : Nat → ℝ) : Int → ℝ := fun i => if 0 ≤ i then a i.toNat else S.low i

/-- Array whose first `n` entries are written. -/
def written {α : Type*} (n : Nat) (old new : Nat → α) : Nat → α := fun c => if c < n then new c else old c

/-- Arguments of StrainRateComponents (RheologyDensity.c:1661-1677). -/
noncomputable def kinInp (S : Setting) (f : LS.Fields) : Kin.Inp ℝ where
  Nx := S.m.Nx
  Nz := S.m.Nz
  dx := S.m.dx
  dz := S.m.dz
  comp := flag S.m.comp
  oop := S.m.oop
  per := S.per
  tagP := fun c => S.m.tp c
  tagG := fun c => S.m.tg c
  u := f.u
  v := f.v

/-- Average from cells to vertices (RheologyDensity.c:832-836). -/
noncomputable def toVerts (S : Setting) (a old : Nat → ℝ) : Nat → ℝ :=
  GridField.centroidsToVertices S.per S.m.Nx S.m.Nz (fun c => S.m.tp c) (fun c => S.m.tg c) a old

/-- Data of cell `c` for the stress update (RheologyDensity.c:872-897). -/
noncomputable def cellData (S : Setting) (f : LS.Fields) (r : Kin.Rates ℝ) (c : Nat) : Point.Node :=
  { S.cell c with
    air := decide (S.m.tp c = 30 ∨ S.m.tp c = 31)
    P := f.p c
    e := ⟨r.exx c, r.ezz c, r.exzN c⟩ }

/-- Data of vertex `c` (RheologyDensity.c:1012-1036). -/
noncomputable def vertData (S : Setting) (r : Kin.Rates ℝ) (Ts Ps ds phis : Nat → ℝ) (c : Nat) : Point.Node :=
  { S.vert c with
    air := decide (S.m.tg c = 30)
    T := Ts c
    P := Ps c
    d := ds c
    phi := phis c
    e := ⟨r.exxS c, r.ezzS c, r.exz c⟩ }

/-- Density of a cell (RheologyDensity.c:681-686, 866-868, 948-951): sum over the phases present, each at the pressure of the
solution, or at its own corrected pressure in the final update; zero in the air. -/
noncomputable def cellDensity (S : Setting) (final : Bool) (k : Point.Node) : ℝ :=
  if k.air then 0
  else forUp S.n 0 fun s p =>
    if 1 / 10 ^ 13 < |k.w p| then
      match Point.update S.env (S.mats p) (S.huet p) (k.input S.env) true with
      | .ok o => s + k.w p * S.dens p k (if final then o.pcorr else k.P)
      | _ => s
    else s

/-- The mesh with the density of the cells; the viscosity tensor is put in by `meshWith`. -/
noncomputable def meshRho (S : Setting) (rho : Nat → ℝ) : SMesh ℝ := { S.m with rho := S.arr rho }

/-- `UpdateNonLinearity` (StokesRoutines.c:53-67); `final` is `final_update`, `f` the fields u_in, v_in, p_in, `t` what the mesh holds.
The density is summed in the loop on cells (948-951); each cell uses its own data only, so it is written here after
that loop. -/
noncomputable def updateNL (S : Setting) (final : Bool) (f : LS.Fields) (t : Mech) : Point.Outcome Mech :=
  let r := Kin.strainRates (kinInp S f) t.rates
  let Ts := toVerts S (fun c => (S.cell c).T) t.Ts
  let Ps := toVerts S f.p t.Ps
  let ds := toVerts S (fun c => (S.cell c).d) t.ds
  let phis := toVerts S (fun c => (S.cell c).phi) t.phis
  match Point.viscosityGrid S.env S.mean S.n S.mats S.huet S.ncells S.nverts (cellData S f r)
      (vertData S r Ts Ps ds phis) t.cells t.verts with
  | .ok (c, s) =>
    let rho := if S.vol then written S.ncells t.rho (fun j => cellDensity S final (cellData S f r j)) else t.rho
    let mm := meshRho S rho
    .ok
      { rates := r, Ts := Ts, Ps := Ps, ds := ds, phis := phis, cells := c, verts := s, rho := rho
        bx := written (S.m.Nx * (S.m.Nz + 1)) t.bx fun j => Resid.rogerX mm S.body (j % S.m.Nx : Nat) (j / S.m.Nx : Nat)
        bz := written ((S.m.Nx + 1) * S.m.Nz) t.bz fun j =>
          Resid.rogerZ mm S.body (j % (S.m.Nx + 1) : Nat) (j / (S.m.Nx + 1) : Nat) }
  | .exit code => .exit code
  | .nan => .nan

/-- The viscosity tensor used by the rows. -/
structure Ops where
  D11 : Nat → ℝ
  D22 : Nat → ℝ
  D33 : Nat → ℝ

/-- `RheologicalOperators` without Jacobian and anisotropy (StokesRoutines.c:93-237): twice the viscosity in rock cells, the
viscosity at rock vertices, zero in the air. -/
noncomputable def opsOf (S : Setting) (t : Mech) : Ops where
  D11 := fun c => if S.m.tp c ≠ 30 ∧ S.m.tp c ≠ 31 then 2 * (t.cells c).eta else 0
  D22 := fun c => if S.m.tp c ≠ 30 ∧ S.m.tp c ≠ 31 then 2 * (t.cells c).eta else 0
  D33 := fun c => if S.m.tg c ≠ 30 then (t.verts c).eta else 0

/-- The mesh the assembly sees. -/
noncomputable def meshWith (S : Setting) (o : Ops) (rho : Nat → ℝ) : SMesh ℝ :=
  { S.m with rho := S.arr rho, D11 := S.arr o.D11, D22 := S.arr o.D22, D33 := S.arr o.D33 }

/-- The rows of the residual: momentum at column `k`, row `l`, volume at cell `c`. -/
structure Rows where
  x : Int → Int → ℝ
  z : Int → Int → ℝ
  p : Nat → ℝ

/-- The function evaluation (StokesRoutines.c:840; StokesAssemblyDecoupled.c:181-206, 689-713, 1128-1141) with the viscosity tensor `o`,
which the line search does not renew (StokesRoutines.c:650-655). -/
noncomputable def rows (S : Setting) (o : Ops) (f : LS.Fields) (t : Mech) : Rows where
  x := fun k l => xResidual (meshWith S o t.rho) (S.arr fun c => (t.cells c).T.xx) (S.arr fun c => (t.verts c).T.xz)
    (S.arr fun c => (t.cells c).pcorr) (S.arr t.bx (k + l * S.m.Nx)) (S.arr f.u) k l
  z := fun k l => zResidual (meshWith S o t.rho) (S.arr fun c => (t.cells c).T.zz) (S.arr fun c => (t.verts c).T.xz)
    (S.arr fun c => (t.cells c).pcorr) (S.arr t.bz (k + l * (S.m.Nx + 1))) (S.arr f.v) k l
  p := fun c => Resid.contResidual (S.comp c) S.vol (S.cell c).beta (f.p c) (S.cell c).P0
    (Real.log (t.rho c) - Real.log (S.rho0 c)) S.m.dt (t.rates.divu c) (S.rhsP c) (S.m.dx * S.m.dz)

/-- Factors of the diagonal scaling (ExtractDiagonalScale; Main_DOODZ.c:767-773), `d` of StokesRoutines.c:858, 873: the diagonal coefficient
of the row assembled with tensor `o` and density `rho`.  The assembly adds the stabilisation only when it is switched on.  Picard matrix
(`Newton = 0`). -/
noncomputable def scaleX (S : Setting) (o : Ops) (rho : Nat → ℝ) (k l : Int) : ℝ :=
  let m := meshWith S o rho
  let a := xCoef (xIn m k l)
  if S.diag then (a.uC + xCorr m k l a.uC) * (m.dx * m.dz) else 1

/-- See `scaleX`. -/
noncomputable def scaleZ (S : Setting) (o : Ops) (rho : Nat → ℝ) (k l : Int) : ℝ :=
  let m := meshWith S o rho
  let a := zCoef (zIn m k l)
  if S.diag then (a.vC + zCorr m k l a) * (m.dx * m.dz) else 1

/-- What the momentum norms are computed from (StokesRoutines.c:858-861, 873-876): the rows times the factors; the volume rows are
summed unscaled (886).  `o`, `rho` are those of the assembly. -/
noncomputable def measured (S : Setting) (o : Ops) (rho : Nat → ℝ) (f : LS.Fields) (t : Mech) : Rows where
  x := fun k l => (rows S o f t).x k l * scaleX S o rho k l
  z := fun k l => (rows S o f t).z k l * scaleZ S o rho k l
  p := (rows S o f t).p

/-- One pass up to the residual (Main_DOODZ.c:712-777): update, assembly, function evaluation. -/
noncomputable def pass (S : Setting) (f : LS.Fields) (t : Mech) : Point.Outcome (Mech × Rows) :=
  match updateNL S false f t with
  | .ok t' => .ok (t', measured S (opsOf S t') t'.rho f t')
  | .exit c => .exit c
  | .nan => .nan

/-- One trial of the line search of a pass that left the state `o` (StokesRoutines.c:648-655). -/
noncomputable def trial (S : Setting) (o : Mech) (g : LS.Fields) (t : Mech) : Point.Outcome (Mech × Rows) :=
  match updateNL S true g t with
  | .ok t' => .ok (t', measured S (opsOf S o) o.rho g t')
  | .exit c => .exit c
  | .nan => .nan

/-- A sequence of updates, as the passes and trials of a step make them (Main_DOODZ.c:675-843). -/
noncomputable def updates (S : Setting) : List (Bool × LS.Fields) → Mech → Point.Outcome Mech
  | [], t => .ok t
  | h :: hs, t =>
    match updateNL S h.1 h.2 t with
    | .ok t' => updates S hs t'
    | .exit c => .exit c
    | .nan => .nan

/-- End of the mechanical part of a step (Main_DOODZ.c:850-851): final update, then the corrected pressure becomes the pressure. -/
noncomputable def finishStep (S : Setting) (f : LS.Fields) (t : Mech) : Point.Outcome (LS.Fields × Mech) :=
  match updateNL S true f t with
  | .ok t' => .ok ({ f with p := LS.copyArr S.ncells f.p fun c => (t'.cells c).pcorr }, t')
  | .exit c => .exit c
  | .nan => .nan

/-- State of the mesh as the line search sees it: none once the program has ended. -/
noncomputable def refresh (S : Setting) (g : LS.Fields) (t : Point.Outcome Mech) : Point.Outcome Mech :=
  match t with
  | .ok t => updateNL S true g t
  | t => t

/-- What a trial records (StokesRoutines.c:655-660): `norms` computes the three norms from the scaled rows. -/
noncomputable def measure (S : Setting) (norms : Rows → ℝ × ℝ × ℝ) (o : Mech) (g : LS.Fields) (t : Point.Outcome Mech) : ℝ × ℝ × ℝ :=
  match t with
  | .ok t => norms (measured S (opsOf S o) o.rho g t)
  | _ => (0, 0, 0)

end Verif.StepFlow
