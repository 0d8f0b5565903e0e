import Verif.Model.Breakpoint

/-
Specification of what a user expects of a breakpoint, written without reference to the order in
which the code stores things: the quantities that make up the state of a run, each with the number
of entries it has, and "loading gives them back".
-/
namespace Verif.Bp

/-- One number each: time step, time, box. -/
def scalars : List Fld := [.model_dt, .model_dt0, .model_time, .model_xmin, .model_xmax, .model_zmin,
  .model_zmax, .model_L0, .mesh_Uthermal, .mesh_Work]

/-- Real-valued quantities carried by every marker. -/
def markerReals (sw : Sw) : List Fld :=
  [.particles_x, .particles_z, .particles_P, .particles_rho, .particles_Vx, .particles_Vz,
    .particles_phi, .particles_X, .particles_noise, .particles_strain, .particles_strain_el,
    .particles_strain_pl, .particles_strain_pwl, .particles_strain_exp, .particles_strain_lin,
    .particles_strain_gbs, .particles_d, .particles_divth, .particles_T] ++
  (if sw.elastic = 1 then [.particles_sxxd, .particles_szzd, .particles_sxz] else []) ++
  (if sw.finite_strain = 1 then [.particles_Fxx, .particles_Fxz, .particles_Fzx, .particles_Fzz]
    else []) ++
  (if sw.anisotropy = 1 then [.particles_nx, .particles_nz] else []) ++
  (if sw.track_T_P_x_z = 1 then [.particles_T0, .particles_P0, .particles_x0, .particles_z0,
    .particles_Tmax, .particles_Pmax] else [])

/-- Whole-number quantities carried by every marker. -/
def markerInts : List Fld := [.particles_phase, .particles_dual]

/-- Real-valued quantities at cell centres (not the old stresses). -/
def centreReals (sw : Sw) : List Fld :=
  [.mesh_p0_n, .mesh_T0_n, .mesh_divth0_n, .mesh_X0_n, .mesh_d0_n, .mesh_phi0_n, .mesh_rho0_n,
    .mesh_eta_phys_n, .mesh_p_in, .mesh_p_lith, .mesh_p_lith0, .mesh_BCp_val] ++
  (if sw.elastic = 1 then [.mesh_eta_n, .mesh_VE_n] else []) ++
  (List.range sw.Nb_phases).map .mesh_phase_perc_n

/-- Real-valued quantities at grid vertices (not the old shear stress). -/
def vertexReals (sw : Sw) : List Fld :=
  [.mesh_X0_s, .mesh_eta_phys_s, .mesh_BCg_val] ++
  (if sw.elastic = 1 then [.mesh_eta_s, .mesh_VE_s] else []) ++
  (List.range sw.Nb_phases).map .mesh_phase_perc_s

/-- Time series, one entry per step. -/
def seriesReals : List Fld := [.mesh_Time_time, .mesh_Short_time, .mesh_Work_time,
  .mesh_Uthermal_time, .mesh_Uelastic_time, .mesh_T_mean_time, .mesh_P_mean_time,
  .mesh_sxxd_mean_time, .mesh_szzd_mean_time, .mesh_sxz_mean_time, .mesh_Tii_mean_time,
  .mesh_exxd_mean_time, .mesh_ezzd_mean_time, .mesh_exz_mean_time, .mesh_Eii_mean_time]

/-- The surface chains: name of the count and names of the coordinates and velocities. -/
def chains : List (Fld × List Fld) :=
  [(.topo_chain_Nb_part, [.topo_chain_x, .topo_chain_z, .topo_chain_Vx, .topo_chain_Vz]),
   (.topo_chain_ini_Nb_part,
    [.topo_chain_ini_x, .topo_chain_ini_z, .topo_chain_ini_Vx, .topo_chain_ini_Vz])]

/-- Surface quantities at grid columns (vertices). -/
def columnReals : List Fld := [.topo_height, .topo_height0, .topo_vx, .topo_ini_height,
  .topo_ini_height0, .topo_ini_vx]

/-- Surface quantities per cell column. -/
def segmentReals : List Fld := [.topo_a, .topo_a0, .topo_b, .topo_b0, .topo_ini_a, .topo_ini_a0,
  .topo_ini_b, .topo_ini_b0]

variable {K : Type*}

/-- Memories `m` and `r` hold the same first `n` entries of the real arrays `fs`. -/
def SameD (m r : Mem K) (fs : List Fld) (n : Nat) : Prop := ∀ f ∈ fs, ∀ i < n, r.D f i = m.D f i

/-- The same for integer arrays. -/
def SameZ (m r : Mem K) (fs : List Fld) (n : Nat) : Prop := ∀ f ∈ fs, ∀ i < n, r.Z f i = m.Z f i

/-- Number of markers. -/
def Mem.markers (m : Mem K) : Nat := (m.Z .particles_Nb_part 0).toNat

/-- `r` holds the state of the run that `m` holds. -/
structure Restored (sw : Sw) (m r : Mem K) : Prop where
  scalars : SameD m r scalars 1
  count : r.Z .particles_Nb_part 0 = m.Z .particles_Nb_part 0
  markers : SameD m r (markerReals sw) m.markers
  phases : SameZ m r markerInts m.markers
  centres : SameD m r (centreReals sw) ((sw.Nx - 1) * (sw.Nz - 1))
  centreTags : SameZ m r [.mesh_BCt_type, .mesh_BCp_type, .mesh_nb_part_cell]
    ((sw.Nx - 1) * (sw.Nz - 1))
  vertices : SameD m r (vertexReals sw) (sw.Nx * sw.Nz)
  vertexTags : SameZ m r [.mesh_BCg_type, .mesh_nb_part_vert] (sw.Nx * sw.Nz)
  vx : SameD m r [.mesh_u_in, .mesh_BCu_val] (sw.Nx * (sw.Nz + 1))
  vxTags : SameZ m r [.mesh_BCu_type] (sw.Nx * (sw.Nz + 1))
  vz : SameD m r [.mesh_v_in, .mesh_BCv_val] ((sw.Nx + 1) * sw.Nz)
  vzTags : SameZ m r [.mesh_BCv_type] ((sw.Nx + 1) * sw.Nz)
  series : SameD m r seriesReals (sw.Nt + 1)
  chain : sw.free_surface = 1 → ∀ c ∈ chains, r.Z c.1 0 = m.Z c.1 0 ∧
    SameD m r c.2 (m.Z c.1 0).toNat
  columns : sw.free_surface = 1 → SameD m r columnReals sw.Nx
  columns1 : sw.free_surface = 1 → SameD m r [.topo_vz, .topo_ini_vz] (sw.Nx + 1)
  segments : sw.free_surface = 1 → SameD m r segmentReals (sw.Nx - 1)

end Verif.Bp
