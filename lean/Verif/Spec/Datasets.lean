import Mathlib.Data.Real.Basic
import Mathlib.Algebra.GroupWithZero.Basic

/-
What the output files contain, dataset by dataset: where the values live, what they are, and in which
physical dimension.
-/
namespace Verif.Spec.Dataset

/-- Sizes of a run. -/
structure Size where
  /-- Number of vertical and horizontal grid lines. -/
  cols : Nat
  rows : Nat
  steps : Nat
  iterations : Nat
  markers : Nat
  surfaceMarkers : Nat
  initialSurfaceMarkers : Nat

/-- Where the values of a dataset live. -/
inductive Place
  /-- Crossings of grid lines, cells, and the two velocity points of the staggered grid with one layer
  of points outside on each side. -/
  | vertices | cells | vxPoints | vzPoints
  /-- Columns and rows: of vertices, of cells, of cells and one outside on each side. -/
  | vertexCols | vertexRows | cellCols | cellRows | ghostCols | ghostRows
  /-- The grid refined twice: lines, cells. -/
  | fineLinesX | fineLinesZ | fineCols | fineCells
  | surface | initialSurface | markers
  | perStep | perIteration | single | eight | text

/-- Number of points. -/
def Place.count (S : Size) : Place → Nat
  | .vertices => S.cols * S.rows
  | .cells => (S.cols - 1) * (S.rows - 1)
  | .vxPoints => S.cols * ((S.rows - 1) + 2)
  | .vzPoints => ((S.cols - 1) + 2) * S.rows
  | .vertexCols => S.cols
  | .vertexRows => S.rows
  | .cellCols => S.cols - 1
  | .cellRows => S.rows - 1
  | .ghostCols => (S.cols - 1) + 2
  | .ghostRows => (S.rows - 1) + 2
  | .fineLinesX => 2 * (S.cols - 1) + 1
  | .fineLinesZ => 2 * (S.rows - 1) + 1
  | .fineCols => 2 * (S.cols - 1)
  | .fineCells => (2 * (S.cols - 1)) * (2 * (S.rows - 1))
  | .surface => S.surfaceMarkers
  | .initialSurface => S.initialSurfaceMarkers
  | .markers => S.markers
  | .perStep => S.steps + 1
  | .perIteration => S.iterations + 1
  | .single => 1
  | .eight => 8
  | .text => 500

/-- Exponents of mass, length, time and temperature. -/
structure Dimension where
  mass : Int
  length : Int
  time : Int
  temperature : Int
deriving DecidableEq

def pure : Dimension := ⟨0, 0, 0, 0⟩
def length : Dimension := ⟨0, 1, 0, 0⟩
def velocity : Dimension := ⟨0, 1, -1, 0⟩
def temperature : Dimension := ⟨0, 0, 0, 1⟩
def density : Dimension := ⟨1, -3, 0, 0⟩
/-- Pa = kg m⁻¹ s⁻². -/
def stress : Dimension := ⟨1, -1, -2, 0⟩
def strainRate : Dimension := ⟨0, 0, -1, 0⟩
/-- Pa s. -/
def viscosity : Dimension := ⟨1, -1, -1, 0⟩

/-- SI value of one unit of a quantity when mass, length, time and temperature are counted in units of
`m`, `L`, `t`, `T`. -/
noncomputable def Dimension.unit (m L t T : ℝ) (d : Dimension) : ℝ :=
  m ^ d.mass * L ^ d.length * t ^ d.time * T ^ d.temperature

/-- Dimension in which a dataset has to be converted, by its name; datasets that are counts, flags,
codes, ratios or already converted are `pure`. -/
def dimension : String → Dimension
  | "rho_s" => density
  | "rho_n" => density
  | "eta_s" => viscosity
  | "eta_n" => viscosity
  | "Vx" => velocity
  | "Vz" => velocity
  | "vx" => velocity
  | "vz" => velocity
  | "Vx_grid" => velocity
  | "Vz_grid" => velocity
  | "Vx_mark" => velocity
  | "Vz_mark" => velocity
  | "vxsurf" => velocity
  | "vzsurf" => velocity
  | "P" => stress
  | "P0" => stress
  | "Pmax" => stress
  | "sxxd" => stress
  | "szzd" => stress
  | "sxz" => stress
  | "OverS" => stress
  | "cohesion" => stress
  | "T" => temperature
  | "T0" => temperature
  | "Tmax" => temperature
  | "exxd" => strainRate
  | "ezzd" => strainRate
  | "exz" => strainRate
  | "divu" => strainRate
  | "divu_el" => strainRate
  | "divu_pl" => strainRate
  | "divu_th" => strainRate
  | "divu_r" => strainRate
  | "eII_el" => strainRate
  | "eII_pl" => strainRate
  | "eII_pwl" => strainRate
  | "eII_exp" => strainRate
  | "eII_lin" => strainRate
  | "eII_gbs" => strainRate
  | "xg_coord" => length
  | "zg_coord" => length
  | "xc_coord" => length
  | "zc_coord" => length
  | "xvz_coord" => length
  | "zvx_coord" => length
  | "xviz" => length
  | "zviz" => length
  | "xviz_hr" => length
  | "zviz_hr" => length
  | "d" => length
  | "x" => length
  | "z" => length
  | "x0" => length
  | "z0" => length
  | "height" => length
  | "z_grid" => length
  | "z_finer_cent" => length
  | "x_mark" => length
  | "z_mark" => length
  | _ => pure

/-- Place of a dataset by group and name. -/
def place : String → String → Place
  | "Vertices", _ => .vertices
  | "Centers", _ => .cells
  | "VxNodes", _ => .vxPoints
  | "VzNodes", _ => .vzPoints
  | "Particles", _ => .markers
  | "TimeSeries", _ => .perStep
  | "Iterations", "NumberSteps" => .single
  | "Iterations", _ => .perIteration
  | "Flags", "tag_s" => .vertices
  | "Flags", "tag_n" => .cells
  | "Flags", "tag_u" => .vxPoints
  | "Flags", "tag_v" => .vzPoints
  | "Flags", _ => .fineCells
  | "Topo", "z_grid" => .vertexCols
  | "Topo", "Vx_grid" => .vertexCols
  | "Topo", "Vz_grid" => .ghostCols
  | "Topo", "z_finer_cent" => .fineCols
  | "Topo", "height" => .vertexCols
  | "Topo", "vxsurf" => .vertexCols
  | "Topo", "vzsurf" => .ghostCols
  | "Topo", _ => .surface
  | "Topo_ini", "height" => .vertexCols
  | "Topo_ini", "vxsurf" => .vertexCols
  | "Topo_ini", "vzsurf" => .ghostCols
  | "Topo_ini", _ => .initialSurface
  | "Model", "xg_coord" => .vertexCols
  | "Model", "zg_coord" => .vertexRows
  | "Model", "xc_coord" => .cellCols
  | "Model", "zc_coord" => .cellRows
  | "Model", "xvz_coord" => .ghostCols
  | "Model", "zvx_coord" => .ghostRows
  | "Model", "Params" => .eight
  | "Model", _ => .text
  | "VizGrid", "xviz" => .vertexCols
  | "VizGrid", "zviz" => .vertexRows
  | "VizGrid", "xviz_hr" => .fineLinesX
  | "VizGrid", "zviz_hr" => .fineLinesZ
  | "VizGrid", "compo" => .cells
  | _, _ => .fineCells

/-- The array of the run a dataset shows: for most datasets the mesh array of the same name. -/
def field : String → String → String
  | "Model", "Description" => "model.description"
  | "Model", "Params" => "A"
  | "VizGrid", n => n
  | "Centers", "eta_n" => "mesh->eta_phys_n"
  | "Vertices", "eta_s" => "mesh->eta_phys_s"
  | "VxNodes", _ => "mesh->u_in"
  | "VzNodes", _ => "mesh->v_in"
  | "Centers", "P" => "P_total"
  | "Centers", "divu" => "mesh->div_u"
  | "Centers", "divu_el" => "mesh->div_u_el"
  | "Centers", "divu_pl" => "mesh->div_u_pl"
  | "Centers", "divu_th" => "mesh->divth0_n"
  | "Centers", "divu_r" => "mesh->div_u_r"
  | "Centers", "d" => "mesh->d_n"
  | "Centers", "X" => "mesh->X_n"
  | "Centers", "phi" => "mesh->phi_n"
  | "Centers", "OverS" => "mesh->OverS_n"
  | "Centers", "friction" => "mesh->fric_n"
  | "Centers", "cohesion" => "mesh->C_n"
  | "Centers", "ani_fac" => "mesh->aniso_factor_n"
  | "Centers", "BCp" => "mesh->BCp.type"
  | "Flags", "tag_s" => "mesh->BCg.type"
  | "Flags", "tag_n" => "mesh->BCp.type"
  | "Flags", "tag_u" => "mesh->BCu.type"
  | "Flags", "tag_v" => "mesh->BCv.type"
  | "Flags", "tag_t_fine" => "mesh->BCt_fine.type"
  | "Iterations", "NumberSteps" => "&(Nmodel.nit)"
  | "Iterations", n => "Nmodel." ++ n
  | "Topo", "z_grid" => "topo->height"
  | "Topo", "height" => "topo->height"
  | "Topo", "z_finer_cent" => "topo->height_finer_c"
  | "Topo", "Vx_grid" => "topo->vx"
  | "Topo", "Vz_grid" => "topo->vz"
  | "Topo", "vxsurf" => "topo->vx"
  | "Topo", "vzsurf" => "topo->vz"
  | "Topo", "x_mark" => "topo_chain->x"
  | "Topo", "z_mark" => "topo_chain->z"
  | "Topo", "Vx_mark" => "topo_chain->Vx"
  | "Topo", "Vz_mark" => "topo_chain->Vz"
  | "Topo", "phase_mark" => "topo_chain->phase"
  | "Topo", "vx" => "topo_chain->Vx"
  | "Topo", "vz" => "topo_chain->Vz"
  | "Topo", n => "topo_chain->" ++ n
  | "Topo_ini", "height" => "topo_ini->height"
  | "Topo_ini", "vxsurf" => "topo_ini->vx"
  | "Topo_ini", "vzsurf" => "topo_ini->vz"
  | "Topo_ini", "vx" => "topo_chain_ini->Vx"
  | "Topo_ini", "vz" => "topo_chain_ini->Vz"
  | "Topo_ini", n => "topo_chain_ini->" ++ n
  | "Particles", "index" => "k"
  | "Particles", n => "particles->" ++ n
  | "Centers", n =>
    -- fields interpolated from the markers for the output
    if n ∈ ["strain", "strain_el", "strain_pl", "strain_pwl", "strain_exp", "strain_lin", "strain_gbs",
      "Fxx", "Fxz", "Fzx", "Fzz", "nx", "nz", "T0", "P0", "Tmax", "Pmax", "x0", "z0"] then n
    else "mesh->" ++ n
  | _, n => "mesh->" ++ n

/-- The options on which datasets depend. -/
structure Options where
  freeSurface : Prop
  finiteStrain : Prop
  anisotropy : Prop
  track : Prop

/-- The datasets of the main output file: group, names, and when they are there. -/
def mainFile (o : Options) : List (String × List String × Prop) := [
  ("Model", ["Description", "Params", "xg_coord", "zg_coord", "xc_coord", "zc_coord", "xvz_coord",
    "zvx_coord"], True),
  ("TimeSeries", ["Time_time", "Short_time", "Work_time", "Uthermal_time", "Uelastic_time", "T_mean_time",
    "P_mean_time", "sxxd_mean_time", "szzd_mean_time", "sxz_mean_time", "Tii_mean_time", "exxd_mean_time",
    "ezzd_mean_time", "exz_mean_time", "Eii_mean_time"], True),
  ("VizGrid", ["xviz", "zviz", "xviz_hr", "zviz_hr", "compo", "compo_hr", "compo_dual_hr"], True),
  ("Vertices", ["rho_s", "eta_s", "sxz", "exz"], True),
  ("Centers", ["rho_n", "eta_n", "P", "sxxd", "szzd", "strain", "strain_el", "strain_pl", "strain_pwl",
    "strain_exp", "strain_lin", "strain_gbs", "T", "exxd", "ezzd", "divu", "divu_el", "divu_pl", "divu_th",
    "divu_r", "eII_el", "eII_pl", "eII_pwl", "eII_exp", "eII_lin", "eII_gbs", "d", "X", "phi", "OverS",
    "friction", "cohesion", "BCp"], True),
  ("Centers", ["Fxx", "Fxz", "Fzx", "Fzz"], o.finiteStrain),
  ("Centers", ["nx", "nz", "ani_fac"], o.anisotropy),
  ("Centers", ["T0", "P0", "Tmax", "Pmax", "x0", "z0"], o.track),
  ("VxNodes", ["Vx"], True),
  ("VzNodes", ["Vz"], True),
  ("Topo", ["z_grid", "z_finer_cent", "Vx_grid", "Vz_grid", "x_mark", "z_mark", "Vx_mark", "Vz_mark",
    "phase_mark"], o.freeSurface),
  ("Flags", ["tag_s", "tag_n", "tag_u", "tag_v", "tag_t_fine"], True),
  ("Iterations", ["rx_abs", "rz_abs", "rp_abs", "LogIsNewtonStep", "NumberSteps"], True)]

/-- The datasets of the marker file. -/
def markerFile (o : Options) : List (String × List String × Prop) := [
  ("Model", ["Params"], True),
  ("Particles", ["x", "z", "phase", "index", "generation", "T", "P", "Vx", "Vz", "sxxd", "sxz"], True),
  ("Particles", ["nx", "nz"], o.anisotropy),
  ("Topo", ["height", "vxsurf", "vzsurf", "x", "z", "vx", "vz", "phase"], o.freeSurface),
  ("Topo_ini", ["height", "vxsurf", "vzsurf", "x", "z", "vx", "vz", "phase"], o.freeSurface)]

/-- Dataset `g/n` belongs to the file. -/
def Listed (file : List (String × List String × Prop)) (g n : String) : Prop :=
  ∃ row ∈ file, row.1 = g ∧ n ∈ row.2.1 ∧ row.2.2

end Verif.Spec.Dataset
