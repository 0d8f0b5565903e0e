import Verif.Model.Basic
import Verif.Model.Config
import Mathlib.Data.Real.Basic

/-
The datasets of the output files: `WriteOutputHDF5`, `WriteOutputHDF5Particles` and `WriteResiduals`
(HDF5Output.c:261-1300).
-/
namespace Verif.Dataset

/-- Numbers that fix the sizes of arrays: grid lines, steps, non-linear iterations, markers and their
maximum, chain markers. -/
structure Dims where
  Nx : Nat
  Nz : Nat
  Nt : Nat
  nitMax : Nat
  mark : Nat
  markMax : Nat
  chain : Nat
  chainIni : Nat

/-- The expressions used as array lengths in HDF5Output.c:261-1300, MemoryAllocFree.c:191-262, 316-560,
FreeSurface.c:419-430. -/
inductive Ext
  | vert | cent | vx | vz | nx | nz | nxm | nzm | nxp | nzp | xviz | zviz | xvizhr | zvizhr | viz | vizhr
  | chain | chainIni | chainMax | mark | markMax | fineX | fine | series | nits | one | params | descr
deriving DecidableEq

/-- Their values.  `nxviz = res_fact*(Nx-1) + 1` with `res_fact` 1 and 2 (HDF5Output.c:294-312);
`Nb_part_max = 50*Nx` for both marker chains (FreeSurface.c:421). -/
def Ext.len (D : Dims) : Ext → Nat
  | .vert => D.Nx * D.Nz
  | .cent => (D.Nx - 1) * (D.Nz - 1)
  | .vx => D.Nx * (D.Nz + 1)
  | .vz => (D.Nx + 1) * D.Nz
  | .nx => D.Nx
  | .nz => D.Nz
  | .nxm => D.Nx - 1
  | .nzm => D.Nz - 1
  | .nxp => D.Nx + 1
  | .nzp => D.Nz + 1
  | .xviz => 1 * (D.Nx - 1) + 1
  | .zviz => 1 * (D.Nz - 1) + 1
  | .xvizhr => 2 * (D.Nx - 1) + 1
  | .zvizhr => 2 * (D.Nz - 1) + 1
  | .viz => (1 * (D.Nx - 1) + 1 - 1) * (1 * (D.Nz - 1) + 1 - 1)
  | .vizhr => (2 * (D.Nx - 1) + 1 - 1) * (2 * (D.Nz - 1) + 1 - 1)
  | .chain => D.chain
  | .chainIni => D.chainIni
  | .chainMax => 50 * D.Nx
  | .mark => D.mark
  | .markMax => D.markMax
  | .fineX => 2 * D.Nx - 2
  | .fine => (2 * D.Nx - 2) * (2 * D.Nz - 2)
  | .series => D.Nt + 1
  | .nits => D.nitMax + 1
  | .one => 1
  | .params => 8
  | .descr => 500

/-- Units of the run used as factors (`scaling.L`, ...). -/
inductive Unit
  | L | V | T | S | E | rho | eta
deriving DecidableEq

/-- Value of a unit in a scaling. -/
def Unit.val {K : Type*} (s : Config.Scale K) : Unit → K
  | .L => s.L
  | .V => s.V
  | .T => s.T
  | .S => s.S
  | .E => s.E
  | .rho => s.rho
  | .eta => s.eta

/-- Type letters of `AddFieldToGroup`. -/
inductive Typ
  | c | d | f | i
deriving DecidableEq

/-- How the array handed to `AddFieldToGroup` is made: the array itself, or a buffer of length `buf`
into which `conv` entries are copied (`DoubleToFloat`, HDF5Output.c:90-95, or the loop over markers,
HDF5Output.c:1031-1047). -/
inductive Via
  | direct
  | cast (buf conv : Ext)
deriving DecidableEq

/-- Switches that decide whether a dataset is written. -/
inductive Cond
  | always | surface | strain | aniso | track
deriving DecidableEq

structure Switch where
  free_surface : Int
  finite_strain : Int
  anisotropy : Int
  track_T_P_x_z : Int

/-- The conditions `model.free_surface == 1` etc. -/
def Cond.holds (w : Switch) : Cond → Bool
  | .always => true
  | .surface => w.free_surface == 1
  | .strain => w.finite_strain == 1
  | .aniso => w.anisotropy == 1
  | .track => w.track_T_P_x_z == 1

/-- One call of `AddFieldToGroup`: group, name, type, number of entries; source array (the C expression)
and the length it is allocated with; the way into the buffer; the call of `ScaleBack`; the condition.
Sources named `strain`, `Fxx`, `T0`, ... are the local arrays filled by `P2Mastah`. -/
structure Entry where
  group : String
  name : String
  typ : Typ
  len : Ext
  src : String
  alloc : Ext
  via : Via
  scale : Option (Unit × Ext)
  cond : Cond
deriving DecidableEq

/-- Groups created in the main output file (HDF5Output.c:695-705). -/
def mainGroups : List String := ["Model", "Vertices", "Centers", "VxNodes", "VzNodes", "Particles",
  "VizGrid", "Topo", "Flags", "Iterations", "TimeSeries"]

/-- Groups created in the marker file (HDF5Output.c:1134-1142). -/
def partGroups : List String := ["Model", "Vertices", "Centers", "VxNodes", "VzNodes", "Particles",
  "VizGrid", "Topo", "Topo_ini"]

/-- Datasets of the main output file in the order they are written (HDF5Output.c:707-848; buffers
329-677; allocations MemoryAllocFree.c:332-560, FreeSurface.c:419-430, HDF5Output.c:285-318). -/
def mainTable : List Entry := [
  ⟨"Model", "Description", .c, .descr, "model.description", .descr, .direct, none, .always⟩,
  ⟨"Model", "Params", .d, .params, "A", .params, .direct, none, .always⟩,
  ⟨"TimeSeries", "Time_time", .d, .series, "mesh->Time_time", .series, .direct, none, .always⟩,
  ⟨"TimeSeries", "Short_time", .d, .series, "mesh->Short_time", .series, .direct, none, .always⟩,
  ⟨"TimeSeries", "Work_time", .d, .series, "mesh->Work_time", .series, .direct, none, .always⟩,
  ⟨"TimeSeries", "Uthermal_time", .d, .series, "mesh->Uthermal_time", .series, .direct, none, .always⟩,
  ⟨"TimeSeries", "Uelastic_time", .d, .series, "mesh->Uelastic_time", .series, .direct, none, .always⟩,
  ⟨"TimeSeries", "T_mean_time", .d, .series, "mesh->T_mean_time", .series, .direct, none, .always⟩,
  ⟨"TimeSeries", "P_mean_time", .d, .series, "mesh->P_mean_time", .series, .direct, none, .always⟩,
  ⟨"TimeSeries", "sxxd_mean_time", .d, .series, "mesh->sxxd_mean_time", .series, .direct, none, .always⟩,
  ⟨"TimeSeries", "szzd_mean_time", .d, .series, "mesh->szzd_mean_time", .series, .direct, none, .always⟩,
  ⟨"TimeSeries", "sxz_mean_time", .d, .series, "mesh->sxz_mean_time", .series, .direct, none, .always⟩,
  ⟨"TimeSeries", "Tii_mean_time", .d, .series, "mesh->Tii_mean_time", .series, .direct, none, .always⟩,
  ⟨"TimeSeries", "exxd_mean_time", .d, .series, "mesh->exxd_mean_time", .series, .direct, none, .always⟩,
  ⟨"TimeSeries", "ezzd_mean_time", .d, .series, "mesh->ezzd_mean_time", .series, .direct, none, .always⟩,
  ⟨"TimeSeries", "exz_mean_time", .d, .series, "mesh->exz_mean_time", .series, .direct, none, .always⟩,
  ⟨"TimeSeries", "Eii_mean_time", .d, .series, "mesh->Eii_mean_time", .series, .direct, none, .always⟩,
  ⟨"Model", "xg_coord", .f, .nx, "mesh->xg_coord", .nx, .cast .nx .nx, some (.L, .nx), .always⟩,
  ⟨"Model", "zg_coord", .f, .nz, "mesh->zg_coord", .nz, .cast .nz .nz, some (.L, .nz), .always⟩,
  ⟨"Model", "xc_coord", .f, .nxm, "mesh->xc_coord", .nxm, .cast .nxm .nxm, some (.L, .nxm), .always⟩,
  ⟨"Model", "zc_coord", .f, .nzm, "mesh->zc_coord", .nzm, .cast .nzm .nzm, some (.L, .nzm), .always⟩,
  ⟨"Model", "xvz_coord", .f, .nxp, "mesh->xvz_coord", .nxp, .cast .nxp .nxp, some (.L, .nxp), .always⟩,
  ⟨"Model", "zvx_coord", .f, .nzp, "mesh->zvx_coord", .nzp, .cast .nzp .nzp, some (.L, .nzp), .always⟩,
  ⟨"VizGrid", "xviz", .f, .xviz, "xviz", .xviz, .cast .xviz .xviz, some (.L, .xviz), .always⟩,
  ⟨"VizGrid", "zviz", .f, .zviz, "zviz", .zviz, .cast .zviz .zviz, some (.L, .zviz), .always⟩,
  ⟨"VizGrid", "xviz_hr", .f, .xvizhr, "xviz_hr", .xvizhr, .cast .xvizhr .xvizhr, some (.L, .xvizhr), .always⟩,
  ⟨"VizGrid", "zviz_hr", .f, .zvizhr, "zviz_hr", .zvizhr, .cast .zvizhr .zvizhr, some (.L, .zvizhr), .always⟩,
  ⟨"VizGrid", "compo", .c, .viz, "compo", .viz, .direct, none, .always⟩,
  ⟨"VizGrid", "compo_hr", .c, .vizhr, "compo_hr", .vizhr, .direct, none, .always⟩,
  ⟨"VizGrid", "compo_dual_hr", .c, .vizhr, "compo_dual_hr", .vizhr, .direct, none, .always⟩,
  ⟨"Vertices", "rho_s", .f, .vert, "mesh->rho_s", .vert, .cast .vert .vert, some (.rho, .vert), .always⟩,
  ⟨"Centers", "rho_n", .f, .cent, "mesh->rho_n", .cent, .cast .cent .cent, some (.rho, .cent), .always⟩,
  ⟨"Vertices", "eta_s", .f, .vert, "mesh->eta_phys_s", .vert, .cast .vert .vert, some (.eta, .vert), .always⟩,
  ⟨"Centers", "eta_n", .f, .cent, "mesh->eta_phys_n", .cent, .cast .cent .cent, some (.eta, .cent), .always⟩,
  ⟨"VxNodes", "Vx", .f, .vx, "mesh->u_in", .vx, .cast .vx .vx, some (.V, .vx), .always⟩,
  ⟨"VzNodes", "Vz", .f, .vz, "mesh->v_in", .vz, .cast .vz .vz, some (.V, .vz), .always⟩,
  ⟨"Centers", "P", .f, .cent, "P_total", .cent, .cast .cent .cent, some (.S, .cent), .always⟩,
  ⟨"Centers", "sxxd", .f, .cent, "mesh->sxxd", .cent, .cast .cent .cent, some (.S, .cent), .always⟩,
  ⟨"Centers", "szzd", .f, .cent, "mesh->szzd", .cent, .cast .cent .cent, some (.S, .cent), .always⟩,
  ⟨"Centers", "strain", .f, .cent, "strain", .cent, .cast .cent .cent, none, .always⟩,
  ⟨"Centers", "strain_el", .f, .cent, "strain_el", .cent, .cast .cent .cent, none, .always⟩,
  ⟨"Centers", "strain_pl", .f, .cent, "strain_pl", .cent, .cast .cent .cent, none, .always⟩,
  ⟨"Centers", "strain_pwl", .f, .cent, "strain_pwl", .cent, .cast .cent .cent, none, .always⟩,
  ⟨"Centers", "strain_exp", .f, .cent, "strain_exp", .cent, .cast .cent .cent, none, .always⟩,
  ⟨"Centers", "strain_lin", .f, .cent, "strain_lin", .cent, .cast .cent .cent, none, .always⟩,
  ⟨"Centers", "strain_gbs", .f, .cent, "strain_gbs", .cent, .cast .cent .cent, none, .always⟩,
  ⟨"Centers", "T", .f, .cent, "mesh->T", .cent, .cast .cent .cent, some (.T, .cent), .always⟩,
  ⟨"Vertices", "sxz", .f, .vert, "mesh->sxz", .vert, .cast .vert .vert, some (.S, .vert), .always⟩,
  ⟨"Centers", "exxd", .f, .cent, "mesh->exxd", .cent, .cast .cent .cent, some (.E, .cent), .always⟩,
  ⟨"Centers", "ezzd", .f, .cent, "mesh->ezzd", .cent, .cast .cent .cent, some (.E, .cent), .always⟩,
  ⟨"Centers", "divu", .f, .cent, "mesh->div_u", .cent, .cast .cent .cent, some (.E, .cent), .always⟩,
  ⟨"Centers", "divu_el", .f, .cent, "mesh->div_u_el", .cent, .cast .cent .cent, some (.E, .cent), .always⟩,
  ⟨"Centers", "divu_pl", .f, .cent, "mesh->div_u_pl", .cent, .cast .cent .cent, some (.E, .cent), .always⟩,
  ⟨"Centers", "divu_th", .f, .cent, "mesh->divth0_n", .cent, .cast .cent .cent, some (.E, .cent), .always⟩,
  ⟨"Centers", "divu_r", .f, .cent, "mesh->div_u_r", .cent, .cast .cent .cent, some (.E, .cent), .always⟩,
  ⟨"Vertices", "exz", .f, .vert, "mesh->exz", .vert, .cast .vert .vert, some (.E, .vert), .always⟩,
  ⟨"Centers", "eII_el", .f, .cent, "mesh->eII_el", .cent, .cast .cent .cent, some (.E, .cent), .always⟩,
  ⟨"Centers", "eII_pl", .f, .cent, "mesh->eII_pl", .cent, .cast .cent .cent, some (.E, .cent), .always⟩,
  ⟨"Centers", "eII_pwl", .f, .cent, "mesh->eII_pwl", .cent, .cast .cent .cent, some (.E, .cent), .always⟩,
  ⟨"Centers", "eII_exp", .f, .cent, "mesh->eII_exp", .cent, .cast .cent .cent, some (.E, .cent), .always⟩,
  ⟨"Centers", "eII_lin", .f, .cent, "mesh->eII_lin", .cent, .cast .cent .cent, some (.E, .cent), .always⟩,
  ⟨"Centers", "eII_gbs", .f, .cent, "mesh->eII_gbs", .cent, .cast .cent .cent, some (.E, .cent), .always⟩,
  ⟨"Centers", "d", .f, .cent, "mesh->d_n", .cent, .cast .cent .cent, some (.L, .cent), .always⟩,
  ⟨"Centers", "X", .f, .cent, "mesh->X_n", .cent, .cast .cent .cent, none, .always⟩,
  ⟨"Centers", "phi", .f, .cent, "mesh->phi_n", .cent, .cast .cent .cent, none, .always⟩,
  ⟨"Centers", "OverS", .f, .cent, "mesh->OverS_n", .cent, .cast .cent .cent, some (.S, .cent), .always⟩,
  ⟨"Topo", "z_grid", .f, .nx, "topo->height", .nx, .cast .nx .nx, some (.L, .nx), .surface⟩,
  ⟨"Topo", "z_finer_cent", .f, .fineX, "topo->height_finer_c", .fineX, .cast .fineX .fineX, some (.L, .fineX), .surface⟩,
  ⟨"Topo", "Vx_grid", .f, .nx, "topo->vx", .nx, .cast .nx .nx, some (.V, .nx), .surface⟩,
  ⟨"Topo", "Vz_grid", .f, .nxp, "topo->vz", .nxp, .cast .nxp .nxp, some (.V, .nxp), .surface⟩,
  ⟨"Topo", "x_mark", .f, .chain, "topo_chain->x", .chainMax, .cast .chain .chain, some (.L, .chain), .surface⟩,
  ⟨"Topo", "z_mark", .f, .chain, "topo_chain->z", .chainMax, .cast .chain .chain, some (.L, .chain), .surface⟩,
  ⟨"Topo", "Vx_mark", .f, .chain, "topo_chain->Vx", .chainMax, .cast .chain .chain, some (.V, .chain), .surface⟩,
  ⟨"Topo", "Vz_mark", .f, .chain, "topo_chain->Vz", .chainMax, .cast .chain .chain, some (.V, .chain), .surface⟩,
  ⟨"Topo", "phase_mark", .i, .chain, "topo_chain->phase", .chainMax, .direct, none, .surface⟩,
  ⟨"Centers", "friction", .f, .cent, "mesh->fric_n", .cent, .cast .cent .cent, none, .always⟩,
  ⟨"Centers", "cohesion", .f, .cent, "mesh->C_n", .cent, .cast .cent .cent, some (.S, .cent), .always⟩,
  ⟨"Centers", "Fxx", .f, .cent, "Fxx", .cent, .cast .cent .cent, none, .strain⟩,
  ⟨"Centers", "Fxz", .f, .cent, "Fxz", .cent, .cast .cent .cent, none, .strain⟩,
  ⟨"Centers", "Fzx", .f, .cent, "Fzx", .cent, .cast .cent .cent, none, .strain⟩,
  ⟨"Centers", "Fzz", .f, .cent, "Fzz", .cent, .cast .cent .cent, none, .strain⟩,
  ⟨"Centers", "nx", .f, .cent, "nx", .cent, .cast .cent .cent, none, .aniso⟩,
  ⟨"Centers", "nz", .f, .cent, "nz", .cent, .cast .cent .cent, none, .aniso⟩,
  ⟨"Centers", "ani_fac", .f, .cent, "mesh->aniso_factor_n", .cent, .cast .cent .cent, none, .aniso⟩,
  ⟨"Centers", "T0", .f, .cent, "T0", .cent, .cast .cent .cent, some (.T, .cent), .track⟩,
  ⟨"Centers", "P0", .f, .cent, "P0", .cent, .cast .cent .cent, some (.S, .cent), .track⟩,
  ⟨"Centers", "Tmax", .f, .cent, "Tmax", .cent, .cast .cent .cent, some (.T, .cent), .track⟩,
  ⟨"Centers", "Pmax", .f, .cent, "Pmax", .cent, .cast .cent .cent, some (.S, .cent), .track⟩,
  ⟨"Centers", "x0", .f, .cent, "x0", .cent, .cast .cent .cent, some (.L, .cent), .track⟩,
  ⟨"Centers", "z0", .f, .cent, "z0", .cent, .cast .cent .cent, some (.L, .cent), .track⟩,
  ⟨"Centers", "BCp", .c, .cent, "mesh->BCp.type", .cent, .direct, none, .always⟩,
  ⟨"Flags", "tag_s", .c, .vert, "mesh->BCg.type", .vert, .direct, none, .always⟩,
  ⟨"Flags", "tag_n", .c, .cent, "mesh->BCp.type", .cent, .direct, none, .always⟩,
  ⟨"Flags", "tag_u", .c, .vx, "mesh->BCu.type", .vx, .direct, none, .always⟩,
  ⟨"Flags", "tag_v", .c, .vz, "mesh->BCv.type", .vz, .direct, none, .always⟩,
  ⟨"Flags", "tag_t_fine", .c, .fine, "mesh->BCt_fine.type", .fine, .direct, none, .always⟩,
  ⟨"Iterations", "rx_abs", .d, .nits, "Nmodel.rx_abs", .nits, .direct, none, .always⟩,
  ⟨"Iterations", "rz_abs", .d, .nits, "Nmodel.rz_abs", .nits, .direct, none, .always⟩,
  ⟨"Iterations", "rp_abs", .d, .nits, "Nmodel.rp_abs", .nits, .direct, none, .always⟩,
  ⟨"Iterations", "LogIsNewtonStep", .i, .nits, "Nmodel.LogIsNewtonStep", .nits, .direct, none, .always⟩,
  ⟨"Iterations", "NumberSteps", .i, .one, "&(Nmodel.nit)", .one, .direct, none, .always⟩]

/-- Datasets of the marker file (HDF5Output.c:1156-1198; buffers 997-1117; allocations
MemoryAllocFree.c:191-262, FreeSurface.c:419-430).  The number of chain markers of the initial surface is
that of its own chain. -/
def partTable : List Entry := [
  ⟨"Model", "Params", .d, .params, "A", .params, .direct, none, .always⟩,
  ⟨"Particles", "x", .f, .mark, "particles->x", .markMax, .cast .mark .mark, some (.L, .mark), .always⟩,
  ⟨"Particles", "z", .f, .mark, "particles->z", .markMax, .cast .mark .mark, some (.L, .mark), .always⟩,
  ⟨"Particles", "phase", .c, .mark, "particles->phase", .markMax, .cast .mark .mark, none, .always⟩,
  ⟨"Particles", "index", .i, .mark, "k", .mark, .cast .mark .mark, none, .always⟩,
  ⟨"Particles", "generation", .c, .mark, "particles->generation", .markMax, .cast .mark .mark, none, .always⟩,
  ⟨"Particles", "T", .f, .mark, "particles->T", .markMax, .cast .mark .mark, some (.T, .mark), .always⟩,
  ⟨"Particles", "P", .f, .mark, "particles->P", .markMax, .cast .mark .mark, some (.S, .mark), .always⟩,
  ⟨"Particles", "Vx", .f, .mark, "particles->Vx", .markMax, .cast .mark .mark, some (.V, .mark), .always⟩,
  ⟨"Particles", "Vz", .f, .mark, "particles->Vz", .markMax, .cast .mark .mark, some (.V, .mark), .always⟩,
  ⟨"Particles", "sxxd", .f, .mark, "particles->sxxd", .markMax, .cast .mark .mark, some (.S, .mark), .always⟩,
  ⟨"Particles", "sxz", .f, .mark, "particles->sxz", .markMax, .cast .mark .mark, some (.S, .mark), .always⟩,
  ⟨"Particles", "nx", .f, .mark, "particles->nx", .markMax, .cast .mark .mark, none, .aniso⟩,
  ⟨"Particles", "nz", .f, .mark, "particles->nz", .markMax, .cast .mark .mark, none, .aniso⟩,
  ⟨"Topo", "height", .f, .nx, "topo->height", .nx, .cast .nx .nx, some (.L, .nx), .surface⟩,
  ⟨"Topo", "vxsurf", .f, .nx, "topo->vx", .nx, .cast .nx .nx, some (.V, .nx), .surface⟩,
  ⟨"Topo", "vzsurf", .f, .nxp, "topo->vz", .nxp, .cast .nxp .nxp, some (.V, .nxp), .surface⟩,
  ⟨"Topo", "x", .f, .chain, "topo_chain->x", .chainMax, .cast .chain .chain, some (.L, .chain), .surface⟩,
  ⟨"Topo", "z", .f, .chain, "topo_chain->z", .chainMax, .cast .chain .chain, some (.L, .chain), .surface⟩,
  ⟨"Topo", "vx", .f, .chain, "topo_chain->Vx", .chainMax, .cast .chain .chain, some (.V, .chain), .surface⟩,
  ⟨"Topo", "vz", .f, .chain, "topo_chain->Vz", .chainMax, .cast .chain .chain, some (.V, .chain), .surface⟩,
  ⟨"Topo", "phase", .i, .chain, "topo_chain->phase", .chainMax, .direct, none, .surface⟩,
  ⟨"Topo_ini", "height", .f, .nx, "topo_ini->height", .nx, .cast .nx .nx, some (.L, .nx), .surface⟩,
  ⟨"Topo_ini", "vxsurf", .f, .nx, "topo_ini->vx", .nx, .cast .nx .nx, some (.V, .nx), .surface⟩,
  ⟨"Topo_ini", "vzsurf", .f, .nxp, "topo_ini->vz", .nxp, .cast .nxp .nxp, some (.V, .nxp), .surface⟩,
  ⟨"Topo_ini", "x", .f, .chainIni, "topo_chain_ini->x", .chainMax, .cast .chainIni .chainIni, some (.L, .chainIni), .surface⟩,
  ⟨"Topo_ini", "z", .f, .chainIni, "topo_chain_ini->z", .chainMax, .cast .chainIni .chainIni, some (.L, .chainIni), .surface⟩,
  ⟨"Topo_ini", "vx", .f, .chainIni, "topo_chain_ini->Vx", .chainMax, .cast .chainIni .chainIni, some (.V, .chainIni), .surface⟩,
  ⟨"Topo_ini", "vz", .f, .chainIni, "topo_chain_ini->Vz", .chainMax, .cast .chainIni .chainIni, some (.V, .chainIni), .surface⟩,
  ⟨"Topo_ini", "phase", .i, .chainIni, "topo_chain_ini->phase", .chainMax, .direct, none, .surface⟩]

/-- The array handed to `AddFieldToGroup`: length and entries (`none`: not initialised), from the source
array `a`; `none` if the conversion or the scaling leaves an array (HDF5Output.c:60-66, 90-95). -/
noncomputable def buffer (D : Dims) (s : Config.Scale ℝ) (e : Entry) (a : Nat → ℝ) :
    Option (Nat × (Nat → Option ℝ)) :=
  match e.via with
  | .direct => some (e.alloc.len D, fun k => some (a k))
  | .cast buf conv =>
    if e.alloc.len D < conv.len D ∨ buf.len D < conv.len D then none
    else
      let b : Nat → Option ℝ := forUp (conv.len D) (fun _ => none) fun b k => upd b k (some (a k))
      match e.scale with
      | none => some (buf.len D, b)
      | some (u, n) =>
        if buf.len D < n.len D then none
        else some (buf.len D, forUp (n.len D) b fun b k => upd b k ((b k).map (· * u.val s)))

/-- Result of one call: group, name and content; `none` if entries outside the array are read. -/
noncomputable def writeEntry (D : Dims) (s : Config.Scale ℝ) (arr : String → Nat → ℝ) (e : Entry) :
    Option (String × String × List (Option ℝ)) :=
  match buffer D s e (arr e.src) with
  | none => none
  | some (n, b) => if n < e.len.len D then none else some (e.group, e.name, (List.range (e.len.len D)).map b)

/-- All datasets of a file; `none` if an access was out of bounds. -/
noncomputable def writeFile (tab : List Entry) (w : Switch) (D : Dims) (s : Config.Scale ℝ)
    (arr : String → Nat → ℝ) : Option (List (String × String × List (Option ℝ))) :=
  (tab.filter fun e => e.cond.holds w).mapM (writeEntry D s arr)

/-- The array `A` of model parameters (HDF5Output.c:710-717, 1145-1152, 1251-1258). -/
noncomputable def params (s : Config.Scale ℝ) (time xmin xmax zmin zmax dx dz dt : ℝ) (Nx Nz : Nat) : List ℝ :=
  [time * s.t, (xmax - xmin) * s.L, (zmax - zmin) * s.L, Nx, Nz, dx * s.L, dz * s.L, dt * s.t]

/-! ### Effect on the run -/

/-- The fields that the writing routines may change. -/
@[ext] structure Fields where
  eta_n : Nat → ℝ
  rho_n : Nat → ℝ
  eta_s : Nat → ℝ
  rho_s : Nat → ℝ
  rp : Nat → ℝ
  ru : Nat → ℝ
  rv : Nat → ℝ
  X_n : Nat → ℝ

/-- `ArrayTimesScalar` (MiscFunctions.c:171-177). -/
noncomputable def timesScalar (a : Nat → ℝ) (c : ℝ) (n : Nat) : Nat → ℝ := forUp n a fun a k => upd a k (a k * c)

/-- One pass of the scaling of `WriteResiduals` with the factors `eta`, `rho`, `E`, `F`
(HDF5Output.c:1272-1278, 1292-1298). -/
noncomputable def scaleFields (D : Dims) (eta rho E F : ℝ) (f : Fields) : Fields where
  eta_n := timesScalar f.eta_n eta (Ext.cent.len D)
  rho_n := timesScalar f.rho_n rho (Ext.cent.len D)
  eta_s := timesScalar f.eta_s eta (Ext.vert.len D)
  rho_s := timesScalar f.rho_s rho (Ext.vert.len D)
  rp := timesScalar f.rp E (Ext.cent.len D)
  ru := timesScalar f.ru F (Ext.vx.len D)
  rv := timesScalar f.rv F (Ext.vz.len D)
  X_n := f.X_n

/-- `WriteResiduals` (HDF5Output.c:1242-1302): the fields as written, and the fields afterwards. -/
noncomputable def writeResiduals (D : Dims) (s : Config.Scale ℝ) (f : Fields) : Fields × Fields :=
  let f1 := scaleFields D s.eta s.rho s.E s.F f
  (f1, scaleFields D (1 / s.eta) (1 / s.rho) (1 / s.E) (1 / s.F) f1)

/-- The fields after `WriteOutputHDF5`: only `X_n` can change, to the interpolation `fromMarkers` of the
marker composition (HDF5Output.c:327). -/
def afterOutput (diffuse_X : Int) (fromMarkers : Nat → ℝ) (f : Fields) : Fields :=
  if diffuse_X ≠ 0 then { f with X_n := fromMarkers } else f

end Verif.Dataset
