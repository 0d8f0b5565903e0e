import Verif.Prelude
import Verif.Model.Basic

/-
Model of the breakpoint writer and reader (InputOutput.c:145-1002) and of the way the time loop
uses them (Main_DOODZ.c:126-130, 408-435, 1204-1214).

The memory is a map from the C variables that the two routines touch to their contents: `D` for
floating-point arrays, `Z` for `int` and `char` arrays.  A file is the list of the items written,
each with its C type: reading an item with a wrong type is `none` (the model does not say what
happens), reading past the end of the file leaves the memory unchanged, as `fread` does.  The
results of `fread`/`fwrite` are not checked by the code, nor are they here.  Floating-point numbers
are elements of a field: rounding of `x*s/s` is not modelled.  The four size bytes at the head of
the file (InputOutput.c:166-169, 677-680) are not modelled: writer and reader are the same build.

The four operation lists were transcribed mechanically from the C source, one entry per
`fread`, `fwrite`, `*=` or `/=` statement and in source order.
-/
namespace Verif.Bp

/-- The variables read, written or scaled by the breakpoint routines (InputOutput.c:145-1002);
`a->b.c` in the source is `a_b_c` here.  `mesh->phase_perc_n[k]` is `mesh_phase_perc_n k`. -/
inductive Fld
  | model_dt | model_dt0 | model_time | model_xmin | model_xmax | model_zmin | model_zmax
  | topo_chain_Nb_part | topo_chain_x | topo_chain_z | topo_chain_Vx | topo_chain_Vz
  | topo_chain_ini_Nb_part | topo_chain_ini_x | topo_chain_ini_z | topo_chain_ini_Vx
  | topo_chain_ini_Vz | particles_Nb_part | particles_x | particles_z | particles_P
  | particles_rho | particles_Vx | particles_Vz | particles_phi | particles_X | particles_noise
  | particles_phase | particles_dual | particles_sxxd | particles_szzd | particles_sxz
  | mesh_eta_n | mesh_VE_n | mesh_eta_s | mesh_VE_s | particles_strain | particles_strain_el
  | particles_strain_pl | particles_strain_pwl | particles_strain_exp | particles_strain_lin
  | particles_strain_gbs | particles_d | particles_Fxx | particles_Fxz | particles_Fzx
  | particles_Fzz | particles_nx | particles_nz | particles_T0 | particles_P0 | particles_x0
  | particles_z0 | particles_Tmax | particles_Pmax | particles_divth | particles_T | mesh_p0_n
  | mesh_T0_n | mesh_divth0_n | mesh_X0_n | mesh_d0_n | mesh_phi0_n | mesh_rho0_n | mesh_sxxd
  | mesh_szzd | mesh_X0_s | mesh_sxz | mesh_eta_phys_n | mesh_eta_phys_s | mesh_u_in | mesh_v_in
  | mesh_p_in | mesh_p_lith | mesh_p_lith0 | mesh_Uthermal | mesh_Work | model_L0 | topo_height
  | topo_height0 | topo_a | topo_a0 | topo_b | topo_b0 | topo_vx | topo_vz | topo_ini_height
  | topo_ini_height0 | topo_ini_a | topo_ini_a0 | topo_ini_b | topo_ini_b0 | topo_ini_vx
  | topo_ini_vz | mesh_BCt_type | mesh_BCp_type | mesh_BCu_type | mesh_BCv_type | mesh_BCg_type
  | mesh_BCp_val | mesh_BCu_val | mesh_BCv_val | mesh_BCg_val | mesh_nb_part_cell
  | mesh_nb_part_vert | mesh_Time_time | mesh_Short_time | mesh_Work_time | mesh_Uthermal_time
  | mesh_Uelastic_time | mesh_T_mean_time | mesh_P_mean_time | mesh_sxxd_mean_time
  | mesh_szzd_mean_time | mesh_sxz_mean_time | mesh_Tii_mean_time | mesh_exxd_mean_time
  | mesh_ezzd_mean_time | mesh_exz_mean_time | mesh_Eii_mean_time | mesh_sxxd0 | mesh_szzd0
  | mesh_sxz0 | mesh_u_adv | mesh_v_adv
  | mesh_phase_perc_n (k : Nat) | mesh_phase_perc_s (k : Nat)
  deriving DecidableEq

/-- Conditions under which a group of items is stored (InputOutput.c:182, 209, 232, 239, 244, 285). -/
inductive Cond
  | always | freeSurface | elastic | finiteStrain | anisotropy | track
  deriving DecidableEq

/-- Sizes `s1` (int), `s2`/`s3` (double) and `s4` (char) of InputOutput.c:168-172. -/
inductive Kind
  | int | dbl | chr
  deriving DecidableEq

/-- Item counts that appear in the `fread`/`fwrite` calls and in the scaling loops. -/
inductive Cnt
  | one | nb (f : Fld) | cells | verts | vx | vz | nx | ncx | nx1 | nt1
  deriving DecidableEq

/-- Scale factors that appear in the scaling statements. -/
inductive Fac
  | one | t | L | V | S | T | E | eta | rho | rhoELL
  deriving DecidableEq

/-- Switches and sizes of `params` used by the routines. -/
structure Sw where
  free_surface : Int
  elastic : Int
  finite_strain : Int
  anisotropy : Int
  track_T_P_x_z : Int
  Nb_phases : Nat
  Nx : Nat
  Nz : Nat
  Nt : Nat

/-- The characteristic scales used here (`scale` of mdoodz.h). -/
structure Scales (K : Type*) where
  t : K
  L : K
  V : K
  S : K
  T : K
  E : K
  eta : K
  rho : K
  rhoE : K

/-- Memory: floating-point arrays and integer/char arrays. -/
structure Mem (K : Type*) where
  D : Fld → Nat → K
  Z : Fld → Nat → Int

/-- One item of the file with its type. -/
inductive Word (K : Type*)
  | int (z : Int) | dbl (x : K) | chr (z : Int)

/-- One `fread`/`fwrite` statement. -/
structure Op where
  cond : Cond
  f : Fld
  kind : Kind
  cnt : Cnt
  deriving DecidableEq

/-- One `*=` or `/=` statement (inside its loop). -/
structure Sc where
  cond : Cond
  f : Fld
  cnt : Cnt
  fac : Fac
  deriving DecidableEq

/-- The tests `model.xxx == 1`. -/
def Cond.on (sw : Sw) : Cond → Bool
  | .always => true
  | .freeSurface => sw.free_surface == 1
  | .elastic => sw.elastic == 1
  | .finiteStrain => sw.finite_strain == 1
  | .anisotropy => sw.anisotropy == 1
  | .track => sw.track_T_P_x_z == 1

variable {K : Type*}

/-- The counts; `Nb_part` fields are looked up in memory (a negative count, which C would turn into
a huge unsigned number, is read as zero here). -/
def Cnt.val (sw : Sw) (m : Mem K) : Cnt → Nat
  | .one => 1
  | .nb f => (m.Z f 0).toNat
  | .cells => (sw.Nx - 1) * (sw.Nz - 1)
  | .verts => sw.Nx * sw.Nz
  | .vx => sw.Nx * (sw.Nz + 1)
  | .vz => (sw.Nx + 1) * sw.Nz
  | .nx => sw.Nx
  | .ncx => sw.Nx - 1
  | .nx1 => sw.Nx + 1
  | .nt1 => sw.Nt + 1

/-- The scale factors. -/
def Fac.val [Field K] (sc : Scales K) : Fac → K
  | .one => 1
  | .t => sc.t
  | .L => sc.L
  | .V => sc.V
  | .S => sc.S
  | .T => sc.T
  | .E => sc.E
  | .eta => sc.eta
  | .rho => sc.rho
  | .rhoELL => sc.rhoE * sc.L * sc.L

/-- `fwrite` statements before the phase loop, InputOutput.c:681-817. -/
def writeA : List Op := [
  ⟨.always, .model_dt, .dbl, .one⟩, ⟨.always, .model_dt0, .dbl, .one⟩,
  ⟨.always, .model_time, .dbl, .one⟩, ⟨.always, .model_xmin, .dbl, .one⟩,
  ⟨.always, .model_xmax, .dbl, .one⟩, ⟨.always, .model_zmin, .dbl, .one⟩,
  ⟨.always, .model_zmax, .dbl, .one⟩, ⟨.freeSurface, .topo_chain_Nb_part, .int, .one⟩,
  ⟨.freeSurface, .topo_chain_x, .dbl, .nb .topo_chain_Nb_part⟩,
  ⟨.freeSurface, .topo_chain_z, .dbl, .nb .topo_chain_Nb_part⟩,
  ⟨.freeSurface, .topo_chain_Vx, .dbl, .nb .topo_chain_Nb_part⟩,
  ⟨.freeSurface, .topo_chain_Vz, .dbl, .nb .topo_chain_Nb_part⟩,
  ⟨.freeSurface, .topo_chain_ini_Nb_part, .int, .one⟩,
  ⟨.freeSurface, .topo_chain_ini_x, .dbl, .nb .topo_chain_ini_Nb_part⟩,
  ⟨.freeSurface, .topo_chain_ini_z, .dbl, .nb .topo_chain_ini_Nb_part⟩,
  ⟨.freeSurface, .topo_chain_ini_Vx, .dbl, .nb .topo_chain_ini_Nb_part⟩,
  ⟨.freeSurface, .topo_chain_ini_Vz, .dbl, .nb .topo_chain_ini_Nb_part⟩,
  ⟨.always, .particles_Nb_part, .int, .one⟩,
  ⟨.always, .particles_x, .dbl, .nb .particles_Nb_part⟩,
  ⟨.always, .particles_z, .dbl, .nb .particles_Nb_part⟩,
  ⟨.always, .particles_P, .dbl, .nb .particles_Nb_part⟩,
  ⟨.always, .particles_rho, .dbl, .nb .particles_Nb_part⟩,
  ⟨.always, .particles_Vx, .dbl, .nb .particles_Nb_part⟩,
  ⟨.always, .particles_Vz, .dbl, .nb .particles_Nb_part⟩,
  ⟨.always, .particles_phi, .dbl, .nb .particles_Nb_part⟩,
  ⟨.always, .particles_X, .dbl, .nb .particles_Nb_part⟩,
  ⟨.always, .particles_noise, .dbl, .nb .particles_Nb_part⟩,
  ⟨.always, .particles_phase, .int, .nb .particles_Nb_part⟩,
  ⟨.always, .particles_dual, .int, .nb .particles_Nb_part⟩,
  ⟨.elastic, .particles_sxxd, .dbl, .nb .particles_Nb_part⟩,
  ⟨.elastic, .particles_szzd, .dbl, .nb .particles_Nb_part⟩,
  ⟨.elastic, .particles_sxz, .dbl, .nb .particles_Nb_part⟩,
  ⟨.elastic, .mesh_eta_n, .dbl, .cells⟩, ⟨.elastic, .mesh_VE_n, .dbl, .cells⟩,
  ⟨.elastic, .mesh_eta_s, .dbl, .verts⟩, ⟨.elastic, .mesh_VE_s, .dbl, .verts⟩,
  ⟨.always, .particles_strain, .dbl, .nb .particles_Nb_part⟩,
  ⟨.always, .particles_strain_el, .dbl, .nb .particles_Nb_part⟩,
  ⟨.always, .particles_strain_pl, .dbl, .nb .particles_Nb_part⟩,
  ⟨.always, .particles_strain_pwl, .dbl, .nb .particles_Nb_part⟩,
  ⟨.always, .particles_strain_exp, .dbl, .nb .particles_Nb_part⟩,
  ⟨.always, .particles_strain_lin, .dbl, .nb .particles_Nb_part⟩,
  ⟨.always, .particles_strain_gbs, .dbl, .nb .particles_Nb_part⟩,
  ⟨.always, .particles_d, .dbl, .nb .particles_Nb_part⟩,
  ⟨.finiteStrain, .particles_Fxx, .dbl, .nb .particles_Nb_part⟩,
  ⟨.finiteStrain, .particles_Fxz, .dbl, .nb .particles_Nb_part⟩,
  ⟨.finiteStrain, .particles_Fzx, .dbl, .nb .particles_Nb_part⟩,
  ⟨.finiteStrain, .particles_Fzz, .dbl, .nb .particles_Nb_part⟩,
  ⟨.anisotropy, .particles_nx, .dbl, .nb .particles_Nb_part⟩,
  ⟨.anisotropy, .particles_nz, .dbl, .nb .particles_Nb_part⟩,
  ⟨.track, .particles_T0, .dbl, .nb .particles_Nb_part⟩,
  ⟨.track, .particles_P0, .dbl, .nb .particles_Nb_part⟩,
  ⟨.track, .particles_x0, .dbl, .nb .particles_Nb_part⟩,
  ⟨.track, .particles_z0, .dbl, .nb .particles_Nb_part⟩,
  ⟨.track, .particles_Tmax, .dbl, .nb .particles_Nb_part⟩,
  ⟨.track, .particles_Pmax, .dbl, .nb .particles_Nb_part⟩,
  ⟨.always, .particles_divth, .dbl, .nb .particles_Nb_part⟩,
  ⟨.always, .particles_T, .dbl, .nb .particles_Nb_part⟩, ⟨.always, .mesh_p0_n, .dbl, .cells⟩,
  ⟨.always, .mesh_T0_n, .dbl, .cells⟩, ⟨.always, .mesh_divth0_n, .dbl, .cells⟩,
  ⟨.always, .mesh_X0_n, .dbl, .cells⟩, ⟨.always, .mesh_d0_n, .dbl, .cells⟩,
  ⟨.always, .mesh_phi0_n, .dbl, .cells⟩, ⟨.always, .mesh_rho0_n, .dbl, .cells⟩,
  ⟨.always, .mesh_sxxd0, .dbl, .cells⟩, ⟨.always, .mesh_szzd0, .dbl, .cells⟩,
  ⟨.always, .mesh_X0_s, .dbl, .verts⟩, ⟨.always, .mesh_sxz0, .dbl, .verts⟩,
  ⟨.always, .mesh_eta_phys_n, .dbl, .cells⟩, ⟨.always, .mesh_eta_phys_s, .dbl, .verts⟩,
  ⟨.always, .mesh_u_in, .dbl, .vx⟩, ⟨.always, .mesh_v_in, .dbl, .vz⟩,
  ⟨.always, .mesh_p_in, .dbl, .cells⟩, ⟨.always, .mesh_p_lith, .dbl, .cells⟩,
  ⟨.always, .mesh_p_lith0, .dbl, .cells⟩, ⟨.always, .mesh_Uthermal, .dbl, .one⟩,
  ⟨.always, .mesh_Work, .dbl, .one⟩, ⟨.always, .model_L0, .dbl, .one⟩,
  ⟨.freeSurface, .topo_height, .dbl, .nx⟩, ⟨.freeSurface, .topo_height0, .dbl, .nx⟩,
  ⟨.freeSurface, .topo_a, .dbl, .ncx⟩, ⟨.freeSurface, .topo_a0, .dbl, .ncx⟩,
  ⟨.freeSurface, .topo_b, .dbl, .ncx⟩, ⟨.freeSurface, .topo_b0, .dbl, .ncx⟩,
  ⟨.freeSurface, .topo_vx, .dbl, .nx⟩, ⟨.freeSurface, .topo_vz, .dbl, .nx1⟩,
  ⟨.freeSurface, .topo_ini_height, .dbl, .nx⟩, ⟨.freeSurface, .topo_ini_height0, .dbl, .nx⟩,
  ⟨.freeSurface, .topo_ini_a, .dbl, .ncx⟩, ⟨.freeSurface, .topo_ini_a0, .dbl, .ncx⟩,
  ⟨.freeSurface, .topo_ini_b, .dbl, .ncx⟩, ⟨.freeSurface, .topo_ini_b0, .dbl, .ncx⟩,
  ⟨.freeSurface, .topo_ini_vx, .dbl, .nx⟩, ⟨.freeSurface, .topo_ini_vz, .dbl, .nx1⟩,
  ⟨.always, .mesh_BCt_type, .chr, .cells⟩, ⟨.always, .mesh_BCp_type, .chr, .cells⟩,
  ⟨.always, .mesh_BCu_type, .chr, .vx⟩, ⟨.always, .mesh_BCv_type, .chr, .vz⟩,
  ⟨.always, .mesh_BCg_type, .chr, .verts⟩, ⟨.always, .mesh_BCp_val, .dbl, .cells⟩,
  ⟨.always, .mesh_BCu_val, .dbl, .vx⟩, ⟨.always, .mesh_BCv_val, .dbl, .vz⟩,
  ⟨.always, .mesh_BCg_val, .dbl, .verts⟩]

/-- `fwrite` statements after the phase loop, InputOutput.c:826-844. -/
def writeB : List Op := [
  ⟨.always, .mesh_nb_part_cell, .int, .cells⟩, ⟨.always, .mesh_nb_part_vert, .int, .verts⟩,
  ⟨.always, .mesh_Time_time, .dbl, .nt1⟩, ⟨.always, .mesh_Short_time, .dbl, .nt1⟩,
  ⟨.always, .mesh_Work_time, .dbl, .nt1⟩, ⟨.always, .mesh_Uthermal_time, .dbl, .nt1⟩,
  ⟨.always, .mesh_Uelastic_time, .dbl, .nt1⟩, ⟨.always, .mesh_T_mean_time, .dbl, .nt1⟩,
  ⟨.always, .mesh_P_mean_time, .dbl, .nt1⟩, ⟨.always, .mesh_sxxd_mean_time, .dbl, .nt1⟩,
  ⟨.always, .mesh_szzd_mean_time, .dbl, .nt1⟩, ⟨.always, .mesh_sxz_mean_time, .dbl, .nt1⟩,
  ⟨.always, .mesh_Tii_mean_time, .dbl, .nt1⟩, ⟨.always, .mesh_exxd_mean_time, .dbl, .nt1⟩,
  ⟨.always, .mesh_ezzd_mean_time, .dbl, .nt1⟩, ⟨.always, .mesh_exz_mean_time, .dbl, .nt1⟩,
  ⟨.always, .mesh_Eii_mean_time, .dbl, .nt1⟩]

/-- `fread` statements before the phase loop, InputOutput.c:170-309. -/
def readA : List Op := [
  ⟨.always, .model_dt, .dbl, .one⟩, ⟨.always, .model_dt0, .dbl, .one⟩,
  ⟨.always, .model_time, .dbl, .one⟩, ⟨.always, .model_xmin, .dbl, .one⟩,
  ⟨.always, .model_xmax, .dbl, .one⟩, ⟨.always, .model_zmin, .dbl, .one⟩,
  ⟨.always, .model_zmax, .dbl, .one⟩, ⟨.freeSurface, .topo_chain_Nb_part, .int, .one⟩,
  ⟨.freeSurface, .topo_chain_x, .dbl, .nb .topo_chain_Nb_part⟩,
  ⟨.freeSurface, .topo_chain_z, .dbl, .nb .topo_chain_Nb_part⟩,
  ⟨.freeSurface, .topo_chain_Vx, .dbl, .nb .topo_chain_Nb_part⟩,
  ⟨.freeSurface, .topo_chain_Vz, .dbl, .nb .topo_chain_Nb_part⟩,
  ⟨.freeSurface, .topo_chain_ini_Nb_part, .int, .one⟩,
  ⟨.freeSurface, .topo_chain_ini_x, .dbl, .nb .topo_chain_ini_Nb_part⟩,
  ⟨.freeSurface, .topo_chain_ini_z, .dbl, .nb .topo_chain_ini_Nb_part⟩,
  ⟨.freeSurface, .topo_chain_ini_Vx, .dbl, .nb .topo_chain_ini_Nb_part⟩,
  ⟨.freeSurface, .topo_chain_ini_Vz, .dbl, .nb .topo_chain_ini_Nb_part⟩,
  ⟨.always, .particles_Nb_part, .int, .one⟩,
  ⟨.always, .particles_x, .dbl, .nb .particles_Nb_part⟩,
  ⟨.always, .particles_z, .dbl, .nb .particles_Nb_part⟩,
  ⟨.always, .particles_P, .dbl, .nb .particles_Nb_part⟩,
  ⟨.always, .particles_rho, .dbl, .nb .particles_Nb_part⟩,
  ⟨.always, .particles_Vx, .dbl, .nb .particles_Nb_part⟩,
  ⟨.always, .particles_Vz, .dbl, .nb .particles_Nb_part⟩,
  ⟨.always, .particles_phi, .dbl, .nb .particles_Nb_part⟩,
  ⟨.always, .particles_X, .dbl, .nb .particles_Nb_part⟩,
  ⟨.always, .particles_noise, .dbl, .nb .particles_Nb_part⟩,
  ⟨.always, .particles_phase, .int, .nb .particles_Nb_part⟩,
  ⟨.always, .particles_dual, .int, .nb .particles_Nb_part⟩,
  ⟨.elastic, .particles_sxxd, .dbl, .nb .particles_Nb_part⟩,
  ⟨.elastic, .particles_szzd, .dbl, .nb .particles_Nb_part⟩,
  ⟨.elastic, .particles_sxz, .dbl, .nb .particles_Nb_part⟩,
  ⟨.elastic, .mesh_eta_n, .dbl, .cells⟩, ⟨.elastic, .mesh_VE_n, .dbl, .cells⟩,
  ⟨.elastic, .mesh_eta_s, .dbl, .verts⟩, ⟨.elastic, .mesh_VE_s, .dbl, .verts⟩,
  ⟨.always, .particles_strain, .dbl, .nb .particles_Nb_part⟩,
  ⟨.always, .particles_strain_el, .dbl, .nb .particles_Nb_part⟩,
  ⟨.always, .particles_strain_pl, .dbl, .nb .particles_Nb_part⟩,
  ⟨.always, .particles_strain_pwl, .dbl, .nb .particles_Nb_part⟩,
  ⟨.always, .particles_strain_exp, .dbl, .nb .particles_Nb_part⟩,
  ⟨.always, .particles_strain_lin, .dbl, .nb .particles_Nb_part⟩,
  ⟨.always, .particles_strain_gbs, .dbl, .nb .particles_Nb_part⟩,
  ⟨.always, .particles_d, .dbl, .nb .particles_Nb_part⟩,
  ⟨.finiteStrain, .particles_Fxx, .dbl, .nb .particles_Nb_part⟩,
  ⟨.finiteStrain, .particles_Fxz, .dbl, .nb .particles_Nb_part⟩,
  ⟨.finiteStrain, .particles_Fzx, .dbl, .nb .particles_Nb_part⟩,
  ⟨.finiteStrain, .particles_Fzz, .dbl, .nb .particles_Nb_part⟩,
  ⟨.anisotropy, .particles_nx, .dbl, .nb .particles_Nb_part⟩,
  ⟨.anisotropy, .particles_nz, .dbl, .nb .particles_Nb_part⟩,
  ⟨.track, .particles_T0, .dbl, .nb .particles_Nb_part⟩,
  ⟨.track, .particles_P0, .dbl, .nb .particles_Nb_part⟩,
  ⟨.track, .particles_x0, .dbl, .nb .particles_Nb_part⟩,
  ⟨.track, .particles_z0, .dbl, .nb .particles_Nb_part⟩,
  ⟨.track, .particles_Tmax, .dbl, .nb .particles_Nb_part⟩,
  ⟨.track, .particles_Pmax, .dbl, .nb .particles_Nb_part⟩,
  ⟨.always, .particles_divth, .dbl, .nb .particles_Nb_part⟩,
  ⟨.always, .particles_T, .dbl, .nb .particles_Nb_part⟩, ⟨.always, .mesh_p0_n, .dbl, .cells⟩,
  ⟨.always, .mesh_T0_n, .dbl, .cells⟩, ⟨.always, .mesh_divth0_n, .dbl, .cells⟩,
  ⟨.always, .mesh_X0_n, .dbl, .cells⟩, ⟨.always, .mesh_d0_n, .dbl, .cells⟩,
  ⟨.always, .mesh_phi0_n, .dbl, .cells⟩, ⟨.always, .mesh_rho0_n, .dbl, .cells⟩,
  ⟨.always, .mesh_sxxd, .dbl, .cells⟩, ⟨.always, .mesh_szzd, .dbl, .cells⟩,
  ⟨.always, .mesh_X0_s, .dbl, .verts⟩, ⟨.always, .mesh_sxz, .dbl, .verts⟩,
  ⟨.always, .mesh_eta_phys_n, .dbl, .cells⟩, ⟨.always, .mesh_eta_phys_s, .dbl, .verts⟩,
  ⟨.always, .mesh_u_in, .dbl, .vx⟩, ⟨.always, .mesh_v_in, .dbl, .vz⟩,
  ⟨.always, .mesh_p_in, .dbl, .cells⟩, ⟨.always, .mesh_p_lith, .dbl, .cells⟩,
  ⟨.always, .mesh_p_lith0, .dbl, .cells⟩, ⟨.always, .mesh_Uthermal, .dbl, .one⟩,
  ⟨.always, .mesh_Work, .dbl, .one⟩, ⟨.always, .model_L0, .dbl, .one⟩,
  ⟨.freeSurface, .topo_height, .dbl, .nx⟩, ⟨.freeSurface, .topo_height0, .dbl, .nx⟩,
  ⟨.freeSurface, .topo_a, .dbl, .ncx⟩, ⟨.freeSurface, .topo_a0, .dbl, .ncx⟩,
  ⟨.freeSurface, .topo_b, .dbl, .ncx⟩, ⟨.freeSurface, .topo_b0, .dbl, .ncx⟩,
  ⟨.freeSurface, .topo_vx, .dbl, .nx⟩, ⟨.freeSurface, .topo_vz, .dbl, .nx1⟩,
  ⟨.freeSurface, .topo_ini_height, .dbl, .nx⟩, ⟨.freeSurface, .topo_ini_height0, .dbl, .nx⟩,
  ⟨.freeSurface, .topo_ini_a, .dbl, .ncx⟩, ⟨.freeSurface, .topo_ini_a0, .dbl, .ncx⟩,
  ⟨.freeSurface, .topo_ini_b, .dbl, .ncx⟩, ⟨.freeSurface, .topo_ini_b0, .dbl, .ncx⟩,
  ⟨.freeSurface, .topo_ini_vx, .dbl, .nx⟩, ⟨.freeSurface, .topo_ini_vz, .dbl, .nx1⟩,
  ⟨.always, .mesh_BCt_type, .chr, .cells⟩, ⟨.always, .mesh_BCp_type, .chr, .cells⟩,
  ⟨.always, .mesh_BCu_type, .chr, .vx⟩, ⟨.always, .mesh_BCv_type, .chr, .vz⟩,
  ⟨.always, .mesh_BCg_type, .chr, .verts⟩, ⟨.always, .mesh_BCp_val, .dbl, .cells⟩,
  ⟨.always, .mesh_BCu_val, .dbl, .vx⟩, ⟨.always, .mesh_BCv_val, .dbl, .vz⟩,
  ⟨.always, .mesh_BCg_val, .dbl, .verts⟩]

/-- `fread` statements after the phase loop, InputOutput.c:317-335. -/
def readB : List Op := [
  ⟨.always, .mesh_nb_part_cell, .int, .cells⟩, ⟨.always, .mesh_nb_part_vert, .int, .verts⟩,
  ⟨.always, .mesh_Time_time, .dbl, .nt1⟩, ⟨.always, .mesh_Short_time, .dbl, .nt1⟩,
  ⟨.always, .mesh_Work_time, .dbl, .nt1⟩, ⟨.always, .mesh_Uthermal_time, .dbl, .nt1⟩,
  ⟨.always, .mesh_Uelastic_time, .dbl, .nt1⟩, ⟨.always, .mesh_T_mean_time, .dbl, .nt1⟩,
  ⟨.always, .mesh_P_mean_time, .dbl, .nt1⟩, ⟨.always, .mesh_sxxd_mean_time, .dbl, .nt1⟩,
  ⟨.always, .mesh_szzd_mean_time, .dbl, .nt1⟩, ⟨.always, .mesh_sxz_mean_time, .dbl, .nt1⟩,
  ⟨.always, .mesh_Tii_mean_time, .dbl, .nt1⟩, ⟨.always, .mesh_exxd_mean_time, .dbl, .nt1⟩,
  ⟨.always, .mesh_ezzd_mean_time, .dbl, .nt1⟩, ⟨.always, .mesh_exz_mean_time, .dbl, .nt1⟩,
  ⟨.always, .mesh_Eii_mean_time, .dbl, .nt1⟩]

/-- The phase loop of the writer, InputOutput.c:822-825. -/
def writePhases (n : Nat) : List Op := (List.range n).flatMap fun k =>
  [⟨.always, .mesh_phase_perc_n k, .dbl, .cells⟩, ⟨.always, .mesh_phase_perc_s k, .dbl, .verts⟩]

/-- The phase loop of the reader, InputOutput.c:313-316. -/
def readPhases (n : Nat) : List Op := (List.range n).flatMap fun k =>
  [⟨.always, .mesh_phase_perc_n k, .dbl, .cells⟩, ⟨.always, .mesh_phase_perc_s k, .dbl, .verts⟩]

/-- All `fwrite` statements executed with the given switches (InputOutput.c:677-845). -/
def writeProg (sw : Sw) : List Op :=
  (writeA ++ (writePhases sw.Nb_phases ++ writeB)).filter fun o => o.cond.on sw

/-- All `fread` statements executed with the given switches (InputOutput.c:166-336). -/
def readProg (sw : Sw) : List Op :=
  (readA ++ (readPhases sw.Nb_phases ++ readB)).filter fun o => o.cond.on sw

/-- Multiplications before writing, InputOutput.c:510-659. -/
def scaleUp : List Sc := [
  ⟨.always, .model_dt, .one, .t⟩, ⟨.always, .model_dt0, .one, .t⟩,
  ⟨.always, .model_time, .one, .t⟩, ⟨.always, .model_xmin, .one, .L⟩,
  ⟨.always, .model_xmax, .one, .L⟩, ⟨.always, .model_zmin, .one, .L⟩,
  ⟨.always, .model_zmax, .one, .L⟩, ⟨.always, .mesh_Time_time, .nt1, .t⟩,
  ⟨.always, .mesh_Short_time, .nt1, .one⟩, ⟨.always, .mesh_Work_time, .nt1, .rhoELL⟩,
  ⟨.always, .mesh_Uthermal_time, .nt1, .rhoELL⟩, ⟨.always, .mesh_Uelastic_time, .nt1, .rhoELL⟩,
  ⟨.always, .mesh_T_mean_time, .nt1, .T⟩, ⟨.always, .mesh_P_mean_time, .nt1, .S⟩,
  ⟨.always, .mesh_sxxd_mean_time, .nt1, .S⟩, ⟨.always, .mesh_szzd_mean_time, .nt1, .S⟩,
  ⟨.always, .mesh_sxz_mean_time, .nt1, .S⟩, ⟨.always, .mesh_Tii_mean_time, .nt1, .S⟩,
  ⟨.always, .mesh_exxd_mean_time, .nt1, .E⟩, ⟨.always, .mesh_ezzd_mean_time, .nt1, .E⟩,
  ⟨.always, .mesh_exz_mean_time, .nt1, .E⟩, ⟨.always, .mesh_Eii_mean_time, .nt1, .E⟩,
  ⟨.always, .particles_x, .nb .particles_Nb_part, .L⟩,
  ⟨.always, .particles_z, .nb .particles_Nb_part, .L⟩,
  ⟨.always, .particles_P, .nb .particles_Nb_part, .S⟩,
  ⟨.always, .particles_rho, .nb .particles_Nb_part, .rho⟩,
  ⟨.always, .particles_Vx, .nb .particles_Nb_part, .V⟩,
  ⟨.always, .particles_Vz, .nb .particles_Nb_part, .V⟩,
  ⟨.always, .particles_phi, .nb .particles_Nb_part, .one⟩,
  ⟨.always, .particles_X, .nb .particles_Nb_part, .one⟩,
  ⟨.elastic, .particles_sxxd, .nb .particles_Nb_part, .S⟩,
  ⟨.elastic, .particles_szzd, .nb .particles_Nb_part, .S⟩,
  ⟨.elastic, .particles_sxz, .nb .particles_Nb_part, .S⟩,
  ⟨.always, .particles_divth, .nb .particles_Nb_part, .E⟩,
  ⟨.always, .particles_T, .nb .particles_Nb_part, .T⟩,
  ⟨.always, .particles_d, .nb .particles_Nb_part, .L⟩,
  ⟨.track, .particles_T0, .nb .particles_Nb_part, .T⟩,
  ⟨.track, .particles_P0, .nb .particles_Nb_part, .S⟩,
  ⟨.track, .particles_x0, .nb .particles_Nb_part, .L⟩,
  ⟨.track, .particles_z0, .nb .particles_Nb_part, .L⟩,
  ⟨.track, .particles_Tmax, .nb .particles_Nb_part, .T⟩,
  ⟨.track, .particles_Pmax, .nb .particles_Nb_part, .S⟩, ⟨.always, .mesh_u_adv, .vx, .V⟩,
  ⟨.always, .mesh_u_in, .vx, .V⟩, ⟨.always, .mesh_v_adv, .vz, .V⟩,
  ⟨.always, .mesh_v_in, .vz, .V⟩, ⟨.always, .mesh_eta_n, .cells, .eta⟩,
  ⟨.always, .mesh_VE_n, .cells, .one⟩, ⟨.always, .mesh_eta_phys_n, .cells, .eta⟩,
  ⟨.always, .mesh_p_in, .cells, .S⟩, ⟨.always, .mesh_p_lith, .cells, .S⟩,
  ⟨.always, .mesh_p_lith0, .cells, .S⟩, ⟨.always, .mesh_p0_n, .cells, .S⟩,
  ⟨.always, .mesh_T0_n, .cells, .T⟩, ⟨.always, .mesh_divth0_n, .cells, .E⟩,
  ⟨.always, .mesh_X0_n, .cells, .one⟩, ⟨.always, .mesh_d0_n, .cells, .L⟩,
  ⟨.always, .mesh_phi0_n, .cells, .one⟩, ⟨.always, .mesh_rho0_n, .cells, .rho⟩,
  ⟨.always, .mesh_sxxd0, .cells, .S⟩, ⟨.always, .mesh_szzd0, .cells, .S⟩,
  ⟨.always, .mesh_eta_phys_s, .verts, .eta⟩, ⟨.always, .mesh_eta_s, .verts, .eta⟩,
  ⟨.always, .mesh_VE_s, .verts, .one⟩, ⟨.always, .mesh_X0_s, .verts, .one⟩,
  ⟨.always, .mesh_sxz0, .verts, .S⟩, ⟨.freeSurface, .topo_chain_x, .nb .topo_chain_Nb_part, .L⟩,
  ⟨.freeSurface, .topo_chain_z, .nb .topo_chain_Nb_part, .L⟩,
  ⟨.freeSurface, .topo_chain_Vx, .nb .topo_chain_Nb_part, .V⟩,
  ⟨.freeSurface, .topo_chain_Vz, .nb .topo_chain_Nb_part, .V⟩,
  ⟨.freeSurface, .topo_chain_ini_x, .nb .topo_chain_ini_Nb_part, .L⟩,
  ⟨.freeSurface, .topo_chain_ini_z, .nb .topo_chain_ini_Nb_part, .L⟩,
  ⟨.freeSurface, .topo_chain_ini_Vx, .nb .topo_chain_ini_Nb_part, .V⟩,
  ⟨.freeSurface, .topo_chain_ini_Vz, .nb .topo_chain_ini_Nb_part, .V⟩,
  ⟨.freeSurface, .topo_height, .nx, .L⟩, ⟨.freeSurface, .topo_height0, .nx, .L⟩,
  ⟨.freeSurface, .topo_vx, .nx, .V⟩, ⟨.freeSurface, .topo_ini_height, .nx, .L⟩,
  ⟨.freeSurface, .topo_ini_height0, .nx, .L⟩, ⟨.freeSurface, .topo_ini_vx, .nx, .V⟩,
  ⟨.freeSurface, .topo_vz, .nx1, .V⟩, ⟨.freeSurface, .topo_ini_vz, .nx1, .V⟩,
  ⟨.freeSurface, .topo_b0, .ncx, .L⟩, ⟨.freeSurface, .topo_b, .ncx, .L⟩,
  ⟨.freeSurface, .topo_ini_b0, .ncx, .L⟩, ⟨.freeSurface, .topo_ini_b, .ncx, .L⟩,
  ⟨.always, .mesh_Uthermal, .one, .rhoELL⟩, ⟨.always, .mesh_Work, .one, .rhoELL⟩,
  ⟨.always, .model_L0, .one, .L⟩]

/-- Divisions after writing, InputOutput.c:852-1001. -/
def scaleDown : List Sc := [
  ⟨.always, .model_dt, .one, .t⟩, ⟨.always, .model_dt0, .one, .t⟩,
  ⟨.always, .model_time, .one, .t⟩, ⟨.always, .model_xmin, .one, .L⟩,
  ⟨.always, .model_xmax, .one, .L⟩, ⟨.always, .model_zmin, .one, .L⟩,
  ⟨.always, .model_zmax, .one, .L⟩, ⟨.always, .mesh_Time_time, .nt1, .t⟩,
  ⟨.always, .mesh_Short_time, .nt1, .one⟩, ⟨.always, .mesh_Work_time, .nt1, .rhoELL⟩,
  ⟨.always, .mesh_Uthermal_time, .nt1, .rhoELL⟩, ⟨.always, .mesh_Uelastic_time, .nt1, .rhoELL⟩,
  ⟨.always, .mesh_T_mean_time, .nt1, .T⟩, ⟨.always, .mesh_P_mean_time, .nt1, .S⟩,
  ⟨.always, .mesh_sxxd_mean_time, .nt1, .S⟩, ⟨.always, .mesh_szzd_mean_time, .nt1, .S⟩,
  ⟨.always, .mesh_sxz_mean_time, .nt1, .S⟩, ⟨.always, .mesh_Tii_mean_time, .nt1, .S⟩,
  ⟨.always, .mesh_exxd_mean_time, .nt1, .E⟩, ⟨.always, .mesh_ezzd_mean_time, .nt1, .E⟩,
  ⟨.always, .mesh_exz_mean_time, .nt1, .E⟩, ⟨.always, .mesh_Eii_mean_time, .nt1, .E⟩,
  ⟨.always, .particles_x, .nb .particles_Nb_part, .L⟩,
  ⟨.always, .particles_z, .nb .particles_Nb_part, .L⟩,
  ⟨.always, .particles_P, .nb .particles_Nb_part, .S⟩,
  ⟨.always, .particles_rho, .nb .particles_Nb_part, .rho⟩,
  ⟨.always, .particles_Vx, .nb .particles_Nb_part, .V⟩,
  ⟨.always, .particles_Vz, .nb .particles_Nb_part, .V⟩,
  ⟨.always, .particles_phi, .nb .particles_Nb_part, .one⟩,
  ⟨.always, .particles_X, .nb .particles_Nb_part, .one⟩,
  ⟨.elastic, .particles_sxxd, .nb .particles_Nb_part, .S⟩,
  ⟨.elastic, .particles_szzd, .nb .particles_Nb_part, .S⟩,
  ⟨.elastic, .particles_sxz, .nb .particles_Nb_part, .S⟩,
  ⟨.always, .particles_divth, .nb .particles_Nb_part, .E⟩,
  ⟨.always, .particles_T, .nb .particles_Nb_part, .T⟩,
  ⟨.always, .particles_d, .nb .particles_Nb_part, .L⟩,
  ⟨.track, .particles_T0, .nb .particles_Nb_part, .T⟩,
  ⟨.track, .particles_P0, .nb .particles_Nb_part, .S⟩,
  ⟨.track, .particles_x0, .nb .particles_Nb_part, .L⟩,
  ⟨.track, .particles_z0, .nb .particles_Nb_part, .L⟩,
  ⟨.track, .particles_Tmax, .nb .particles_Nb_part, .T⟩,
  ⟨.track, .particles_Pmax, .nb .particles_Nb_part, .S⟩, ⟨.always, .mesh_u_adv, .vx, .V⟩,
  ⟨.always, .mesh_u_in, .vx, .V⟩, ⟨.always, .mesh_v_adv, .vz, .V⟩,
  ⟨.always, .mesh_v_in, .vz, .V⟩, ⟨.always, .mesh_eta_n, .cells, .eta⟩,
  ⟨.always, .mesh_VE_n, .cells, .one⟩, ⟨.always, .mesh_eta_phys_n, .cells, .eta⟩,
  ⟨.always, .mesh_p_in, .cells, .S⟩, ⟨.always, .mesh_p_lith, .cells, .S⟩,
  ⟨.always, .mesh_p_lith0, .cells, .S⟩, ⟨.always, .mesh_p0_n, .cells, .S⟩,
  ⟨.always, .mesh_T0_n, .cells, .T⟩, ⟨.always, .mesh_divth0_n, .cells, .E⟩,
  ⟨.always, .mesh_X0_n, .cells, .one⟩, ⟨.always, .mesh_d0_n, .cells, .L⟩,
  ⟨.always, .mesh_phi0_n, .cells, .one⟩, ⟨.always, .mesh_rho0_n, .cells, .rho⟩,
  ⟨.always, .mesh_sxxd0, .cells, .S⟩, ⟨.always, .mesh_szzd0, .cells, .S⟩,
  ⟨.always, .mesh_eta_phys_s, .verts, .eta⟩, ⟨.always, .mesh_eta_s, .verts, .eta⟩,
  ⟨.always, .mesh_VE_s, .verts, .one⟩, ⟨.always, .mesh_X0_s, .verts, .one⟩,
  ⟨.always, .mesh_sxz0, .verts, .S⟩, ⟨.freeSurface, .topo_chain_x, .nb .topo_chain_Nb_part, .L⟩,
  ⟨.freeSurface, .topo_chain_z, .nb .topo_chain_Nb_part, .L⟩,
  ⟨.freeSurface, .topo_chain_Vx, .nb .topo_chain_Nb_part, .V⟩,
  ⟨.freeSurface, .topo_chain_Vz, .nb .topo_chain_Nb_part, .V⟩,
  ⟨.freeSurface, .topo_chain_ini_x, .nb .topo_chain_ini_Nb_part, .L⟩,
  ⟨.freeSurface, .topo_chain_ini_z, .nb .topo_chain_ini_Nb_part, .L⟩,
  ⟨.freeSurface, .topo_chain_ini_Vx, .nb .topo_chain_ini_Nb_part, .V⟩,
  ⟨.freeSurface, .topo_chain_ini_Vz, .nb .topo_chain_ini_Nb_part, .V⟩,
  ⟨.freeSurface, .topo_height, .nx, .L⟩, ⟨.freeSurface, .topo_height0, .nx, .L⟩,
  ⟨.freeSurface, .topo_vx, .nx, .V⟩, ⟨.freeSurface, .topo_ini_height, .nx, .L⟩,
  ⟨.freeSurface, .topo_ini_height0, .nx, .L⟩, ⟨.freeSurface, .topo_ini_vx, .nx, .V⟩,
  ⟨.freeSurface, .topo_vz, .nx1, .V⟩, ⟨.freeSurface, .topo_ini_vz, .nx1, .V⟩,
  ⟨.freeSurface, .topo_b0, .ncx, .L⟩, ⟨.freeSurface, .topo_b, .ncx, .L⟩,
  ⟨.freeSurface, .topo_ini_b0, .ncx, .L⟩, ⟨.freeSurface, .topo_ini_b, .ncx, .L⟩,
  ⟨.always, .mesh_Uthermal, .one, .rhoELL⟩, ⟨.always, .mesh_Work, .one, .rhoELL⟩,
  ⟨.always, .model_L0, .one, .L⟩]

/-- Divisions after reading, InputOutput.c:344-494. -/
def scaleLoad : List Sc := [
  ⟨.always, .model_dt, .one, .t⟩, ⟨.always, .model_dt0, .one, .t⟩,
  ⟨.always, .model_time, .one, .t⟩, ⟨.always, .model_xmin, .one, .L⟩,
  ⟨.always, .model_xmax, .one, .L⟩, ⟨.always, .model_zmin, .one, .L⟩,
  ⟨.always, .model_zmax, .one, .L⟩, ⟨.always, .mesh_Time_time, .nt1, .t⟩,
  ⟨.always, .mesh_Short_time, .nt1, .one⟩, ⟨.always, .mesh_Work_time, .nt1, .rhoELL⟩,
  ⟨.always, .mesh_Uthermal_time, .nt1, .rhoELL⟩, ⟨.always, .mesh_Uelastic_time, .nt1, .rhoELL⟩,
  ⟨.always, .mesh_T_mean_time, .nt1, .T⟩, ⟨.always, .mesh_P_mean_time, .nt1, .S⟩,
  ⟨.always, .mesh_sxxd_mean_time, .nt1, .S⟩, ⟨.always, .mesh_szzd_mean_time, .nt1, .S⟩,
  ⟨.always, .mesh_sxz_mean_time, .nt1, .S⟩, ⟨.always, .mesh_Tii_mean_time, .nt1, .S⟩,
  ⟨.always, .mesh_exxd_mean_time, .nt1, .E⟩, ⟨.always, .mesh_ezzd_mean_time, .nt1, .E⟩,
  ⟨.always, .mesh_exz_mean_time, .nt1, .E⟩, ⟨.always, .mesh_Eii_mean_time, .nt1, .E⟩,
  ⟨.always, .particles_x, .nb .particles_Nb_part, .L⟩,
  ⟨.always, .particles_z, .nb .particles_Nb_part, .L⟩,
  ⟨.always, .particles_P, .nb .particles_Nb_part, .S⟩,
  ⟨.always, .particles_rho, .nb .particles_Nb_part, .rho⟩,
  ⟨.always, .particles_Vx, .nb .particles_Nb_part, .V⟩,
  ⟨.always, .particles_Vz, .nb .particles_Nb_part, .V⟩,
  ⟨.always, .particles_phi, .nb .particles_Nb_part, .one⟩,
  ⟨.always, .particles_X, .nb .particles_Nb_part, .one⟩,
  ⟨.elastic, .particles_sxxd, .nb .particles_Nb_part, .S⟩,
  ⟨.elastic, .particles_szzd, .nb .particles_Nb_part, .S⟩,
  ⟨.elastic, .particles_sxz, .nb .particles_Nb_part, .S⟩,
  ⟨.always, .particles_d, .nb .particles_Nb_part, .L⟩,
  ⟨.always, .particles_divth, .nb .particles_Nb_part, .E⟩,
  ⟨.always, .particles_T, .nb .particles_Nb_part, .T⟩,
  ⟨.track, .particles_T0, .nb .particles_Nb_part, .T⟩,
  ⟨.track, .particles_P0, .nb .particles_Nb_part, .S⟩,
  ⟨.track, .particles_x0, .nb .particles_Nb_part, .L⟩,
  ⟨.track, .particles_z0, .nb .particles_Nb_part, .L⟩,
  ⟨.track, .particles_Tmax, .nb .particles_Nb_part, .T⟩,
  ⟨.track, .particles_Pmax, .nb .particles_Nb_part, .S⟩, ⟨.always, .mesh_u_adv, .vx, .V⟩,
  ⟨.always, .mesh_u_in, .vx, .V⟩, ⟨.always, .mesh_v_adv, .vz, .V⟩,
  ⟨.always, .mesh_v_in, .vz, .V⟩, ⟨.always, .mesh_eta_n, .cells, .eta⟩,
  ⟨.always, .mesh_VE_n, .cells, .one⟩, ⟨.always, .mesh_eta_phys_n, .cells, .eta⟩,
  ⟨.always, .mesh_p_in, .cells, .S⟩, ⟨.always, .mesh_p_lith, .cells, .S⟩,
  ⟨.always, .mesh_p_lith0, .cells, .S⟩, ⟨.always, .mesh_p0_n, .cells, .S⟩,
  ⟨.always, .mesh_T0_n, .cells, .T⟩, ⟨.always, .mesh_divth0_n, .cells, .E⟩,
  ⟨.always, .mesh_X0_n, .cells, .one⟩, ⟨.always, .mesh_d0_n, .cells, .L⟩,
  ⟨.always, .mesh_phi0_n, .cells, .one⟩, ⟨.always, .mesh_rho0_n, .cells, .rho⟩,
  ⟨.always, .mesh_sxxd, .cells, .S⟩, ⟨.always, .mesh_szzd, .cells, .S⟩,
  ⟨.always, .mesh_eta_phys_s, .verts, .eta⟩, ⟨.always, .mesh_eta_s, .verts, .eta⟩,
  ⟨.always, .mesh_VE_s, .verts, .one⟩, ⟨.always, .mesh_X0_s, .verts, .one⟩,
  ⟨.always, .mesh_sxz, .verts, .S⟩, ⟨.freeSurface, .topo_chain_x, .nb .topo_chain_Nb_part, .L⟩,
  ⟨.freeSurface, .topo_chain_z, .nb .topo_chain_Nb_part, .L⟩,
  ⟨.freeSurface, .topo_chain_Vx, .nb .topo_chain_Nb_part, .V⟩,
  ⟨.freeSurface, .topo_chain_Vz, .nb .topo_chain_Nb_part, .V⟩,
  ⟨.freeSurface, .topo_chain_ini_x, .nb .topo_chain_ini_Nb_part, .L⟩,
  ⟨.freeSurface, .topo_chain_ini_z, .nb .topo_chain_ini_Nb_part, .L⟩,
  ⟨.freeSurface, .topo_chain_ini_Vx, .nb .topo_chain_ini_Nb_part, .V⟩,
  ⟨.freeSurface, .topo_chain_ini_Vz, .nb .topo_chain_ini_Nb_part, .V⟩,
  ⟨.freeSurface, .topo_height, .nx, .L⟩, ⟨.freeSurface, .topo_height0, .nx, .L⟩,
  ⟨.freeSurface, .topo_vx, .nx, .V⟩, ⟨.freeSurface, .topo_ini_height, .nx, .L⟩,
  ⟨.freeSurface, .topo_ini_height0, .nx, .L⟩, ⟨.freeSurface, .topo_ini_vx, .nx, .V⟩,
  ⟨.freeSurface, .topo_vz, .nx1, .V⟩, ⟨.freeSurface, .topo_ini_vz, .nx1, .V⟩,
  ⟨.freeSurface, .topo_b0, .ncx, .L⟩, ⟨.freeSurface, .topo_b, .ncx, .L⟩,
  ⟨.freeSurface, .topo_ini_b0, .ncx, .L⟩, ⟨.freeSurface, .topo_ini_b, .ncx, .L⟩,
  ⟨.always, .mesh_Uthermal, .one, .rhoELL⟩, ⟨.always, .mesh_Work, .one, .rhoELL⟩,
  ⟨.always, .model_L0, .one, .L⟩]

/-- Components of `params model`, which `MakeBreakpointParticles` receives by value
(InputOutput.c:502): its changes to them are lost when it returns. -/
def Fld.byValue : Fld → Bool
  | .model_dt | .model_dt0 | .model_time | .model_xmin | .model_xmax | .model_zmin | .model_zmax
  | .model_L0 => true
  | _ => false

section
variable [Field K]

/-- One scaling statement with its loop: `f[i] *= c` (or `/=`) for `i < count`. -/
def applySc (op : K → K → K) (sw : Sw) (sc : Scales K) (m : Mem K) (e : Sc) : Mem K :=
  if e.cond.on sw then
    { m with
      D := fun f i =>
        if f = e.f ∧ i < e.cnt.val sw m then op (m.D f i) (e.fac.val sc) else m.D f i }
  else m

/-- A block of scaling statements. -/
def runSc (op : K → K → K) (sw : Sw) (sc : Scales K) (l : List Sc) (m : Mem K) : Mem K :=
  l.foldl (applySc op sw sc) m

/-- The items written by one `fwrite`. -/
def Op.words (sw : Sw) (m : Mem K) (o : Op) : List (Word K) :=
  (List.range (o.cnt.val sw m)).map fun i =>
    match o.kind with
    | .int => .int (m.Z o.f i)
    | .dbl => .dbl (m.D o.f i)
    | .chr => .chr (m.Z o.f i)

/-- `MakeBreakpointParticles` (InputOutput.c:502-1002): the file and the memory afterwards. -/
def make (sw : Sw) (sc : Scales K) (m : Mem K) : List (Word K) × Mem K :=
  let m1 := runSc (· * ·) sw sc scaleUp m
  let file := (writeProg sw).flatMap fun o => o.words sw m1
  let m2 := runSc (· / ·) sw sc scaleDown m1
  (file, { m2 with D := fun f => if f.byValue then m.D f else m2.D f })

/-- An item as a double, int or char; `none` when the type does not match. -/
def Word.asD : Word K → Option K
  | .dbl x => some x
  | _ => none

/-- See `Word.asD`. -/
def Word.asZ (k : Kind) : Word K → Option Int
  | .int z => if k = .int then some z else none
  | .chr z => if k = .chr then some z else none
  | .dbl _ => none

/-- Store the items of a list at the front of an array. -/
def store {α : Type*} (l : List α) (a : Nat → α) : Nat → α := fun i => l[i]?.getD (a i)

/-- One `fread`: at most `count` items are taken from the file. -/
def Op.read (sw : Sw) (o : Op) (st : Mem K × List (Word K)) : Option (Mem K × List (Word K)) :=
  let n := o.cnt.val sw st.1
  match o.kind with
  | .dbl =>
    ((st.2.take n).mapM Word.asD).map fun l =>
      ({ st.1 with D := fun f => if f = o.f then store l (st.1.D f) else st.1.D f }, st.2.drop n)
  | k =>
    ((st.2.take n).mapM (Word.asZ k)).map fun l =>
      ({ st.1 with Z := fun f => if f = o.f then store l (st.1.Z f) else st.1.Z f }, st.2.drop n)

/-- The sequence of `fread` statements. -/
def runRead (sw : Sw) : List Op → Mem K × List (Word K) → Option (Mem K × List (Word K))
  | [], st => some st
  | o :: l, st => (o.read sw st).bind (runRead sw l)

/-- `LoadBreakpointParticles` (InputOutput.c:145-495) on the contents of the file. -/
def load (sw : Sw) (sc : Scales K) (file : List (Word K)) (m : Mem K) : Option (Mem K) :=
  (runRead sw (readProg sw) (m, file)).map fun st => runSc (· / ·) sw sc scaleLoad st.1

end

end Verif.Bp
