import Verif.Model.Basic
import Mathlib.Data.Nat.Basic

/-
Blocks of memory over a run: what is allocated when the run starts, in every time step and in every pass of
the nonlinear loop, what is used under which switch, and what is released
(/repo/MDLIB/MemoryAllocFree.c, FreeSurface.c:418-464, InputOutput.c:1038-1050, 1401-1416, 1487-1663,
Main_DOODZ.c:44-130, 614-848, 1179-1286).  Sizes are not modelled here (Model/Datasets.lean, Model/Buffers.lean);
allocation never fails; blocks that live only inside one routine are not listed; `MutateInput` is absent.
-/
namespace Verif.Heap
open Verif

/-- Pointers in the structure `grid` (mdoodz-private.h), those of nested structures with an underscore. -/
inductive MeshVar
  | FreeSurfW_s | FreeSurfW_n | xg_coord | zg_coord | xg_coord_ext | zg_coord_ext | xg_coord0 | zg_coord0
  | xc_coord | zc_coord | xvz_coord | zvx_coord | eta_s | eta_n | rho_s | rho_n | rho0_n | u | ru | rhs_u | gx
  | v | rv | rhs_v | gz | p | rp | rhs_p | BCu_type | BCv_type | BCp_type | BCp_exp_type | BCu_val | BCv_val
  | BCp_val | BCp_exp_val | phase_perc_n | phase_perc_s | phase_eta_n | phase_eta_s | roger_x | roger_z | div_u
  | div_u_s | div_u_el | div_u_pl | div_u_r | Qrho | u_in | v_in | p_in | p_corr | u_start | v_start | p_start
  | sxxd | sxxd_s | szzd | szzd_s | sxz | sxz_n | exxd | ezzd | exz | wxz | wxz_n | mu_s | mu_n | VE_s | VE_n
  | sxxd0 | szzd0 | sxz0 | sxxd0_s | szzd0_s | sxz0_n | exxd_s | ezzd_s | exz_n | u_adv | v_adv | eta_phys_n
  | eta_phys_s | strain_n | strain_s | Cp | kx | kz | kc_x | kc_z | Qr | rhs_t | BCT_exp_type | BCT_exp_val
  | BCC_exp_type | BCC_exp_val | BCt_type | BCt_val | BCt_fine_type | BCt_fine_val | Wdiss | Wel | Wtot
  | BCc_type | BCc_val | BCg_type | BCg_val | p_lith | p_lith0 | dp | alp | bet_n | bet_s | sxx_W | sxx_E
  | szz_S | szz_N | kvx | lvx | kvz | lvz | kp | lp | kn | ln | nb_part_cell | nb_part_vert | VzVx | VxVz
  | Uthermal_time | Uelastic_time | Work_time | Time_time | Short_time | P_mean_time | T_mean_time
  | sxxd_mean_time | szzd_mean_time | sxz_mean_time | Tii_mean_time | exxd_mean_time | ezzd_mean_time
  | exz_mean_time | Eii_mean_time | T | T0_n | divth_n | divth0_n | eII_el | comp_cells | eII_pl | eII_pwl
  | eII_exp | eII_lin | eII_gbs | eII_cst | d_n | d0_n | phi_n | phi0_n | cell_min_z | cell_max_z | vert_min_z
  | vert_max_z | C_s | fric_s | dil_s | C_n | fric_n | dil_n | D11_n | D12_n | D13_n | D14_n | D21_n | D22_n
  | D23_n | D24_n | D31_s | D32_s | D33_s | D34_s | drhodp_n | d0_s | phi0_s | T_s | P_s | d1_n | d1_s | d2_n
  | d2_s | angle_n | angle_s | FS_AR_n | FS_AR_s | aniso_factor_n | aniso_factor_s | p0_n | p0_s | X0_n | X_n
  | noise_n | X0_s | X_s | noise_s | OverS_n | exz_n_el | exz_n_diss
deriving DecidableEq

/-- Pointers in the structure `markers` that `PartAlloc` deals with. -/
inductive PartVar
  | x | z | Vx | Vz | P | sxxd | szzd | sxz | phase | generation | dual | progress | divth | T | d | phi | X
  | noise | rho | strain | strain_el | strain_pl | strain_pwl | strain_exp | strain_lin | strain_gbs | intag
  | Fxx | Fxz | Fzx | Fzz | T0 | P0 | z0 | x0 | Tmax | Pmax | nx | nz | aniso_angle
deriving DecidableEq

/-- Pointers in `surface`. -/
inductive TopoVar
  | height | height0 | height_finer_c | vx | vz | a | b | a0 | b0 | VertInd
deriving DecidableEq

/-- Pointers in the `markers` structure of a chain. -/
inductive ChainVar
  | x | z | z0 | Vx | Vz | phase
deriving DecidableEq

/-- Pointers in `params`. -/
inductive ModelVar
  | writer_subfolder | import_files_dir | import_file | initial_markers_file | PD1DnP | PD1Drho | PD1Dmin | PD1Dmax
  | PDMnT | PDMnP | PDMTmin | PDMTmax | PDMPmin | PDMPmax | PDMrho | kin_dG
deriving DecidableEq

/-- Pointers in `Nparams`. -/
inductive NVar
  | rx_abs | rx_rel | rz_abs | rz_rel | rp_abs | rp_rel | LogIsNewtonStep
deriving DecidableEq

/-- The ten linear systems of `RunMDOODZ` (Main_DOODZ.c:429-431). -/
inductive System
  | Stokes | Jacob | StokesA | StokesB | StokesC | StokesD | JacobA | JacobB | JacobC | JacobD
deriving DecidableEq

/-- Pointers in `SparseMat`. -/
inductive SysVar
  | eqn_u | eqn_v | eqn_p | d | b | x | F | Ic | J | A | bbc
deriving DecidableEq

/-- A pointer variable of the run.  `topo true` is `topo_ini`, `chain true` is `topo_chain_ini`. -/
inductive Var
  | mesh (v : MeshVar)
  | part (v : PartVar)
  | topo (ini : Bool) (v : TopoVar)
  | chain (ini : Bool) (v : ChainVar)
  | model (v : ModelVar)
  | nmodel (v : NVar)
  | sys (m : System) (v : SysVar)
  | flux | stress | outputName | particleName
  /-- `CholmodSolver.Lfact` -/
  | factor
deriving DecidableEq

/-- A pointer: a variable, or an element of the array of pointers it points to. -/
inductive Slot
  | var (v : Var)
  | elem (v : Var) (k : Nat)
deriving DecidableEq

/-- Content of a pointer. -/
inductive Ptr
  /-- never assigned (automatic variables) -/
  | garbage
  | null
  | live
  /-- its block has been released -/
  | freed
deriving DecidableEq

/-- Memory: the pointers, the number of blocks whose only pointer was overwritten, and whether something
undefined happened (release or use of a pointer that does not point to a block). -/
structure Mem where
  ptr : Slot → Ptr
  lost : Nat
  bad : Bool

/-- Operations on pointers: `DoodzCalloc`/`malloc`, access, `DoodzFree`/`free`, and `cholmod_free_factor`, which
also sets the pointer to NULL. -/
inductive Op
  | alloc (s : Slot)
  | use (s : Slot)
  | free (s : Slot)
  | freeSet (s : Slot)

/-- Assignment to a pointer. -/
def Mem.set (m : Mem) (s : Slot) (v : Ptr) : Mem := { m with ptr := fun t => if t = s then v else m.ptr t }

/-- Something undefined happens. -/
def Mem.fail (m : Mem) : Mem := { m with bad := true }

/-- The pointer can be read: an element needs its array. -/
def Mem.reach (m : Mem) : Slot → Prop
  | .var _ => True
  | .elem v _ => m.ptr (.var v) = .live

instance (m : Mem) (s : Slot) : Decidable (m.reach s) := by
  cases s <;> unfold Mem.reach <;> infer_instance

/-- Release: nothing for NULL (MemoryAllocFree.c:88-96); `v` is left in the pointer. -/
def Mem.release (m : Mem) (s : Slot) (v : Ptr) : Mem :=
  match m.ptr s with
  | .live => m.set s v
  | .null => m
  | _ => m.fail

/-- Effect of an operation (MemoryAllocFree.c:36-96). -/
def Op.run (m : Mem) : Op → Mem
  | .alloc s =>
    if m.reach s then { m.set s .live with lost := if m.ptr s = .live then m.lost + 1 else m.lost } else m.fail
  | .use s => if m.reach s ∧ m.ptr s = .live then m else m.fail
  | .free s => if m.reach s then m.release s .freed else m.fail
  | .freeSet s => if m.reach s then m.release s .null else m.fail

/-- A sequence of operations. -/
def exec (ops : List Op) (m : Mem) : Mem := ops.foldl Op.run m

/-- Switches of the run (values of the input file after `ReadInputFile`). -/
structure Cfg where
  anisotropy : Int
  /-- `finite_strain` as written in the file -/
  fstrainFile : Int
  track : Int
  freeSurface : Int
  mechanical : Int
  newton : Int
  picard2newton : Int
  kinetics : Int
  markerAngle : Int
  linSolver : Int
  /-- the set-up has a function `SetAnisoAngle` -/
  angleCb : Bool
  /-- a phase has `kin == 9` -/
  kin9 : Bool
  nph : Nat
  dens : Nat → Int

/-- `finite_strain` (InputOutput.c:1088, 1228). -/
def Cfg.fstrain (c : Cfg) : Int := if c.anisotropy = 1 then 1 else c.fstrainFile

/-- `isPD` (InputOutput.c:1480-1487). -/
def Cfg.isPD (c : Cfg) : Bool := (List.range c.nph).any fun k => c.dens k == 2

/-- Condition of a statement. -/
inductive Guard
  | always | aniso | anisoAny | fstrain | track | angle | angleCb | fsAny | fs1 | pd | kin | kin9
  | dens2
deriving DecidableEq

/-- The `if` of a statement: `anisoAny` is the `else` of `anisotropy == 0` (StokesRoutines.c:100-110),
`angle` the nested test of MemoryAllocFree.c:247-252, `angleCb` that of Setup.c:135, `dens2` the test of
`EvaluateDensity` made for the phases present (RheologyDensity.c:1450-1452). -/
def Guard.holds (c : Cfg) : Guard → Bool
  | .always => true
  | .aniso => c.anisotropy == 1
  | .anisoAny => c.anisotropy != 0
  | .fstrain => c.fstrain == 1
  | .track => c.track == 1
  | .angle => c.anisotropy == 1 && c.markerAngle != 0
  | .angleCb => c.markerAngle != 0 && c.angleCb
  | .fsAny => c.freeSurface != 0
  | .fs1 => c.freeSurface == 1
  | .pd => c.isPD
  | .kin => c.kinetics == 1
  | .kin9 => c.kin9
  | .dens2 => (List.range c.nph).any fun k => c.dens k == 2

/-- What an entry stands for: the variable itself, or the elements of its array for the phases, for the phases
with density model 4, for the ten diagrams. -/
inductive Kind
  | self | phases | dens4 | diagrams
deriving DecidableEq

/-- An entry of a table. -/
structure Entry where
  var : Var
  guard : Guard
  kind : Kind
deriving DecidableEq

/-- `GridAlloc` (MemoryAllocFree.c:338-663). -/
def gridAlloc : List Entry := [
  ⟨.mesh .FreeSurfW_s, .always, .self⟩, ⟨.mesh .FreeSurfW_n, .always, .self⟩,
  ⟨.mesh .xg_coord, .always, .self⟩, ⟨.mesh .zg_coord, .always, .self⟩, ⟨.mesh .xg_coord_ext, .always, .self⟩,
  ⟨.mesh .zg_coord_ext, .always, .self⟩, ⟨.mesh .xg_coord0, .always, .self⟩,
  ⟨.mesh .zg_coord0, .always, .self⟩, ⟨.mesh .xc_coord, .always, .self⟩, ⟨.mesh .zc_coord, .always, .self⟩,
  ⟨.mesh .xvz_coord, .always, .self⟩, ⟨.mesh .zvx_coord, .always, .self⟩, ⟨.mesh .eta_s, .always, .self⟩,
  ⟨.mesh .eta_n, .always, .self⟩, ⟨.mesh .rho_s, .always, .self⟩, ⟨.mesh .rho_n, .always, .self⟩,
  ⟨.mesh .rho0_n, .always, .self⟩, ⟨.mesh .u, .always, .self⟩, ⟨.mesh .ru, .always, .self⟩,
  ⟨.mesh .rhs_u, .always, .self⟩, ⟨.mesh .gx, .always, .self⟩, ⟨.mesh .v, .always, .self⟩,
  ⟨.mesh .rv, .always, .self⟩, ⟨.mesh .rhs_v, .always, .self⟩, ⟨.mesh .gz, .always, .self⟩,
  ⟨.mesh .p, .always, .self⟩, ⟨.mesh .rp, .always, .self⟩, ⟨.mesh .rhs_p, .always, .self⟩,
  ⟨.mesh .BCu_type, .always, .self⟩, ⟨.mesh .BCv_type, .always, .self⟩, ⟨.mesh .BCp_type, .always, .self⟩,
  ⟨.mesh .BCp_exp_type, .always, .self⟩, ⟨.mesh .BCu_val, .always, .self⟩, ⟨.mesh .BCv_val, .always, .self⟩,
  ⟨.mesh .BCp_val, .always, .self⟩, ⟨.mesh .BCp_exp_val, .always, .self⟩,
  ⟨.mesh .phase_perc_n, .always, .self⟩, ⟨.mesh .phase_perc_n, .always, .phases⟩,
  ⟨.mesh .phase_perc_s, .always, .self⟩, ⟨.mesh .phase_perc_s, .always, .phases⟩,
  ⟨.mesh .phase_eta_n, .always, .self⟩, ⟨.mesh .phase_eta_n, .always, .phases⟩,
  ⟨.mesh .phase_eta_s, .always, .self⟩, ⟨.mesh .phase_eta_s, .always, .phases⟩,
  ⟨.mesh .roger_x, .always, .self⟩, ⟨.mesh .roger_z, .always, .self⟩, ⟨.mesh .div_u, .always, .self⟩,
  ⟨.mesh .div_u_s, .always, .self⟩, ⟨.mesh .div_u_el, .always, .self⟩, ⟨.mesh .div_u_pl, .always, .self⟩,
  ⟨.mesh .div_u_r, .always, .self⟩, ⟨.mesh .Qrho, .always, .self⟩, ⟨.mesh .u_in, .always, .self⟩,
  ⟨.mesh .v_in, .always, .self⟩, ⟨.mesh .p_in, .always, .self⟩, ⟨.mesh .p_corr, .always, .self⟩,
  ⟨.mesh .u_start, .always, .self⟩, ⟨.mesh .v_start, .always, .self⟩, ⟨.mesh .p_start, .always, .self⟩,
  ⟨.mesh .sxxd, .always, .self⟩, ⟨.mesh .sxxd_s, .always, .self⟩, ⟨.mesh .szzd, .always, .self⟩,
  ⟨.mesh .szzd_s, .always, .self⟩, ⟨.mesh .sxz, .always, .self⟩, ⟨.mesh .sxz_n, .always, .self⟩,
  ⟨.mesh .exxd, .always, .self⟩, ⟨.mesh .ezzd, .always, .self⟩, ⟨.mesh .exz, .always, .self⟩,
  ⟨.mesh .wxz, .always, .self⟩, ⟨.mesh .wxz_n, .always, .self⟩, ⟨.mesh .mu_s, .always, .self⟩,
  ⟨.mesh .mu_n, .always, .self⟩, ⟨.mesh .VE_s, .always, .self⟩, ⟨.mesh .VE_n, .always, .self⟩,
  ⟨.mesh .sxxd0, .always, .self⟩, ⟨.mesh .szzd0, .always, .self⟩, ⟨.mesh .sxz0, .always, .self⟩,
  ⟨.mesh .sxxd0_s, .always, .self⟩, ⟨.mesh .szzd0_s, .always, .self⟩, ⟨.mesh .sxz0_n, .always, .self⟩,
  ⟨.mesh .exxd_s, .always, .self⟩, ⟨.mesh .ezzd_s, .always, .self⟩, ⟨.mesh .exz_n, .always, .self⟩,
  ⟨.mesh .u_adv, .always, .self⟩, ⟨.mesh .v_adv, .always, .self⟩, ⟨.mesh .eta_phys_n, .always, .self⟩,
  ⟨.mesh .eta_phys_s, .always, .self⟩, ⟨.mesh .strain_n, .always, .self⟩, ⟨.mesh .strain_s, .always, .self⟩,
  ⟨.mesh .Cp, .always, .self⟩, ⟨.mesh .kx, .always, .self⟩, ⟨.mesh .kz, .always, .self⟩,
  ⟨.mesh .kc_x, .always, .self⟩, ⟨.mesh .kc_z, .always, .self⟩, ⟨.mesh .Qr, .always, .self⟩,
  ⟨.mesh .rhs_t, .always, .self⟩, ⟨.mesh .BCT_exp_type, .always, .self⟩, ⟨.mesh .BCT_exp_val, .always, .self⟩,
  ⟨.mesh .BCC_exp_type, .always, .self⟩, ⟨.mesh .BCC_exp_val, .always, .self⟩,
  ⟨.mesh .BCt_type, .always, .self⟩, ⟨.mesh .BCt_val, .always, .self⟩, ⟨.mesh .BCt_fine_type, .always, .self⟩,
  ⟨.mesh .BCt_fine_val, .always, .self⟩, ⟨.mesh .Wdiss, .always, .self⟩, ⟨.mesh .Wel, .always, .self⟩,
  ⟨.mesh .Wtot, .always, .self⟩, ⟨.mesh .BCc_type, .always, .self⟩, ⟨.mesh .BCc_val, .always, .self⟩,
  ⟨.mesh .BCg_type, .always, .self⟩, ⟨.mesh .BCg_val, .always, .self⟩, ⟨.mesh .p_lith, .always, .self⟩,
  ⟨.mesh .p_lith0, .always, .self⟩, ⟨.mesh .dp, .always, .self⟩, ⟨.mesh .alp, .always, .self⟩,
  ⟨.mesh .bet_n, .always, .self⟩, ⟨.mesh .bet_s, .always, .self⟩, ⟨.mesh .sxx_W, .always, .self⟩,
  ⟨.mesh .sxx_E, .always, .self⟩, ⟨.mesh .szz_S, .always, .self⟩, ⟨.mesh .szz_N, .always, .self⟩,
  ⟨.mesh .kvx, .always, .self⟩, ⟨.mesh .lvx, .always, .self⟩, ⟨.mesh .kvz, .always, .self⟩,
  ⟨.mesh .lvz, .always, .self⟩, ⟨.mesh .kp, .always, .self⟩, ⟨.mesh .lp, .always, .self⟩,
  ⟨.mesh .kn, .always, .self⟩, ⟨.mesh .ln, .always, .self⟩, ⟨.mesh .nb_part_cell, .always, .self⟩,
  ⟨.mesh .nb_part_vert, .always, .self⟩, ⟨.mesh .VzVx, .always, .self⟩, ⟨.mesh .VxVz, .always, .self⟩,
  ⟨.mesh .Uthermal_time, .always, .self⟩, ⟨.mesh .Uelastic_time, .always, .self⟩,
  ⟨.mesh .Work_time, .always, .self⟩, ⟨.mesh .Time_time, .always, .self⟩, ⟨.mesh .Short_time, .always, .self⟩,
  ⟨.mesh .P_mean_time, .always, .self⟩, ⟨.mesh .T_mean_time, .always, .self⟩,
  ⟨.mesh .sxxd_mean_time, .always, .self⟩, ⟨.mesh .szzd_mean_time, .always, .self⟩,
  ⟨.mesh .sxz_mean_time, .always, .self⟩, ⟨.mesh .Tii_mean_time, .always, .self⟩,
  ⟨.mesh .exxd_mean_time, .always, .self⟩, ⟨.mesh .ezzd_mean_time, .always, .self⟩,
  ⟨.mesh .exz_mean_time, .always, .self⟩, ⟨.mesh .Eii_mean_time, .always, .self⟩, ⟨.mesh .T, .always, .self⟩,
  ⟨.mesh .T0_n, .always, .self⟩, ⟨.mesh .divth_n, .always, .self⟩, ⟨.mesh .divth0_n, .always, .self⟩,
  ⟨.mesh .eII_el, .always, .self⟩, ⟨.mesh .comp_cells, .always, .self⟩, ⟨.mesh .eII_pl, .always, .self⟩,
  ⟨.mesh .eII_pwl, .always, .self⟩, ⟨.mesh .eII_exp, .always, .self⟩, ⟨.mesh .eII_lin, .always, .self⟩,
  ⟨.mesh .eII_gbs, .always, .self⟩, ⟨.mesh .eII_cst, .always, .self⟩, ⟨.mesh .d_n, .always, .self⟩,
  ⟨.mesh .d0_n, .always, .self⟩, ⟨.mesh .phi_n, .always, .self⟩, ⟨.mesh .phi0_n, .always, .self⟩,
  ⟨.mesh .cell_min_z, .always, .self⟩, ⟨.mesh .cell_max_z, .always, .self⟩,
  ⟨.mesh .vert_min_z, .always, .self⟩, ⟨.mesh .vert_max_z, .always, .self⟩, ⟨.mesh .C_s, .always, .self⟩,
  ⟨.mesh .fric_s, .always, .self⟩, ⟨.mesh .dil_s, .always, .self⟩, ⟨.mesh .C_n, .always, .self⟩,
  ⟨.mesh .fric_n, .always, .self⟩, ⟨.mesh .dil_n, .always, .self⟩, ⟨.mesh .D11_n, .always, .self⟩,
  ⟨.mesh .D12_n, .always, .self⟩, ⟨.mesh .D13_n, .always, .self⟩, ⟨.mesh .D14_n, .always, .self⟩,
  ⟨.mesh .D21_n, .always, .self⟩, ⟨.mesh .D22_n, .always, .self⟩, ⟨.mesh .D23_n, .always, .self⟩,
  ⟨.mesh .D24_n, .always, .self⟩, ⟨.mesh .D31_s, .always, .self⟩, ⟨.mesh .D32_s, .always, .self⟩,
  ⟨.mesh .D33_s, .always, .self⟩, ⟨.mesh .D34_s, .always, .self⟩, ⟨.mesh .drhodp_n, .always, .self⟩,
  ⟨.mesh .d0_s, .always, .self⟩, ⟨.mesh .phi0_s, .always, .self⟩, ⟨.mesh .T_s, .always, .self⟩,
  ⟨.mesh .P_s, .always, .self⟩, ⟨.mesh .d1_n, .aniso, .self⟩, ⟨.mesh .d1_s, .aniso, .self⟩,
  ⟨.mesh .d2_n, .aniso, .self⟩, ⟨.mesh .d2_s, .aniso, .self⟩, ⟨.mesh .angle_n, .aniso, .self⟩,
  ⟨.mesh .angle_s, .aniso, .self⟩, ⟨.mesh .FS_AR_n, .aniso, .self⟩, ⟨.mesh .FS_AR_s, .aniso, .self⟩,
  ⟨.mesh .aniso_factor_n, .aniso, .self⟩, ⟨.mesh .aniso_factor_s, .aniso, .self⟩,
  ⟨.mesh .p0_n, .always, .self⟩, ⟨.mesh .p0_s, .always, .self⟩, ⟨.mesh .X0_n, .always, .self⟩,
  ⟨.mesh .X_n, .always, .self⟩, ⟨.mesh .noise_n, .always, .self⟩, ⟨.mesh .X0_s, .always, .self⟩,
  ⟨.mesh .X_s, .always, .self⟩, ⟨.mesh .noise_s, .always, .self⟩, ⟨.mesh .OverS_n, .always, .self⟩]

/-- `GridFree` (MemoryAllocFree.c:693-997). -/
def gridFree : List Entry := [
  ⟨.mesh .FreeSurfW_s, .always, .self⟩, ⟨.mesh .FreeSurfW_n, .always, .self⟩, ⟨.mesh .roger_x, .always, .self⟩,
  ⟨.mesh .roger_z, .always, .self⟩, ⟨.mesh .div_u, .always, .self⟩, ⟨.mesh .div_u_s, .always, .self⟩,
  ⟨.mesh .div_u_el, .always, .self⟩, ⟨.mesh .div_u_pl, .always, .self⟩, ⟨.mesh .div_u_r, .always, .self⟩,
  ⟨.mesh .Qrho, .always, .self⟩, ⟨.mesh .u_in, .always, .self⟩, ⟨.mesh .v_in, .always, .self⟩,
  ⟨.mesh .p_in, .always, .self⟩, ⟨.mesh .p_corr, .always, .self⟩, ⟨.mesh .u_start, .always, .self⟩,
  ⟨.mesh .v_start, .always, .self⟩, ⟨.mesh .p_start, .always, .self⟩, ⟨.mesh .sxxd, .always, .self⟩,
  ⟨.mesh .sxxd_s, .always, .self⟩, ⟨.mesh .szzd, .always, .self⟩, ⟨.mesh .szzd_s, .always, .self⟩,
  ⟨.mesh .sxz, .always, .self⟩, ⟨.mesh .sxz_n, .always, .self⟩, ⟨.mesh .exxd, .always, .self⟩,
  ⟨.mesh .ezzd, .always, .self⟩, ⟨.mesh .exz, .always, .self⟩, ⟨.mesh .wxz, .always, .self⟩,
  ⟨.mesh .wxz_n, .always, .self⟩, ⟨.mesh .xg_coord, .always, .self⟩, ⟨.mesh .zg_coord, .always, .self⟩,
  ⟨.mesh .xg_coord_ext, .always, .self⟩, ⟨.mesh .zg_coord_ext, .always, .self⟩,
  ⟨.mesh .xg_coord0, .always, .self⟩, ⟨.mesh .zg_coord0, .always, .self⟩, ⟨.mesh .xc_coord, .always, .self⟩,
  ⟨.mesh .zc_coord, .always, .self⟩, ⟨.mesh .xvz_coord, .always, .self⟩, ⟨.mesh .zvx_coord, .always, .self⟩,
  ⟨.mesh .eta_s, .always, .self⟩, ⟨.mesh .eta_n, .always, .self⟩, ⟨.mesh .rho_s, .always, .self⟩,
  ⟨.mesh .rho_n, .always, .self⟩, ⟨.mesh .rho0_n, .always, .self⟩, ⟨.mesh .u, .always, .self⟩,
  ⟨.mesh .ru, .always, .self⟩, ⟨.mesh .v, .always, .self⟩, ⟨.mesh .rv, .always, .self⟩,
  ⟨.mesh .p, .always, .self⟩, ⟨.mesh .rp, .always, .self⟩, ⟨.mesh .rhs_u, .always, .self⟩,
  ⟨.mesh .gx, .always, .self⟩, ⟨.mesh .rhs_v, .always, .self⟩, ⟨.mesh .gz, .always, .self⟩,
  ⟨.mesh .rhs_p, .always, .self⟩, ⟨.mesh .BCu_val, .always, .self⟩, ⟨.mesh .BCv_val, .always, .self⟩,
  ⟨.mesh .BCp_val, .always, .self⟩, ⟨.mesh .BCp_exp_val, .always, .self⟩, ⟨.mesh .BCu_type, .always, .self⟩,
  ⟨.mesh .BCv_type, .always, .self⟩, ⟨.mesh .BCp_type, .always, .self⟩, ⟨.mesh .BCp_exp_type, .always, .self⟩,
  ⟨.mesh .mu_s, .always, .self⟩, ⟨.mesh .mu_n, .always, .self⟩, ⟨.mesh .VE_s, .always, .self⟩,
  ⟨.mesh .VE_n, .always, .self⟩, ⟨.mesh .sxxd0, .always, .self⟩, ⟨.mesh .szzd0, .always, .self⟩,
  ⟨.mesh .sxz0, .always, .self⟩, ⟨.mesh .sxxd0_s, .always, .self⟩, ⟨.mesh .szzd0_s, .always, .self⟩,
  ⟨.mesh .sxz0_n, .always, .self⟩, ⟨.mesh .exxd_s, .always, .self⟩, ⟨.mesh .ezzd_s, .always, .self⟩,
  ⟨.mesh .exz_n, .always, .self⟩, ⟨.mesh .u_adv, .always, .self⟩, ⟨.mesh .v_adv, .always, .self⟩,
  ⟨.mesh .eta_phys_s, .always, .self⟩, ⟨.mesh .eta_phys_n, .always, .self⟩, ⟨.mesh .strain_s, .always, .self⟩,
  ⟨.mesh .strain_n, .always, .self⟩, ⟨.mesh .Cp, .always, .self⟩, ⟨.mesh .kx, .always, .self⟩,
  ⟨.mesh .kz, .always, .self⟩, ⟨.mesh .kc_x, .always, .self⟩, ⟨.mesh .kc_z, .always, .self⟩,
  ⟨.mesh .Qr, .always, .self⟩, ⟨.mesh .rhs_t, .always, .self⟩, ⟨.mesh .BCT_exp_type, .always, .self⟩,
  ⟨.mesh .BCT_exp_val, .always, .self⟩, ⟨.mesh .BCC_exp_type, .always, .self⟩,
  ⟨.mesh .BCC_exp_val, .always, .self⟩, ⟨.mesh .BCt_val, .always, .self⟩, ⟨.mesh .BCt_type, .always, .self⟩,
  ⟨.mesh .BCt_fine_val, .always, .self⟩, ⟨.mesh .BCt_fine_type, .always, .self⟩,
  ⟨.mesh .Wdiss, .always, .self⟩, ⟨.mesh .Wel, .always, .self⟩, ⟨.mesh .Wtot, .always, .self⟩,
  ⟨.mesh .BCc_val, .always, .self⟩, ⟨.mesh .BCc_type, .always, .self⟩, ⟨.mesh .BCg_val, .always, .self⟩,
  ⟨.mesh .BCg_type, .always, .self⟩, ⟨.mesh .p_lith, .always, .self⟩, ⟨.mesh .p_lith0, .always, .self⟩,
  ⟨.mesh .dp, .always, .self⟩, ⟨.mesh .alp, .always, .self⟩, ⟨.mesh .bet_n, .always, .self⟩,
  ⟨.mesh .bet_s, .always, .self⟩, ⟨.mesh .sxx_W, .always, .self⟩, ⟨.mesh .sxx_E, .always, .self⟩,
  ⟨.mesh .szz_S, .always, .self⟩, ⟨.mesh .szz_N, .always, .self⟩, ⟨.mesh .kvx, .always, .self⟩,
  ⟨.mesh .lvx, .always, .self⟩, ⟨.mesh .kvz, .always, .self⟩, ⟨.mesh .lvz, .always, .self⟩,
  ⟨.mesh .kp, .always, .self⟩, ⟨.mesh .lp, .always, .self⟩, ⟨.mesh .kn, .always, .self⟩,
  ⟨.mesh .ln, .always, .self⟩, ⟨.mesh .phase_perc_n, .always, .phases⟩, ⟨.mesh .phase_perc_n, .always, .self⟩,
  ⟨.mesh .phase_perc_s, .always, .phases⟩, ⟨.mesh .phase_perc_s, .always, .self⟩,
  ⟨.mesh .phase_eta_n, .always, .phases⟩, ⟨.mesh .phase_eta_n, .always, .self⟩,
  ⟨.mesh .phase_eta_s, .always, .phases⟩, ⟨.mesh .phase_eta_s, .always, .self⟩, ⟨.mesh .VxVz, .always, .self⟩,
  ⟨.mesh .VzVx, .always, .self⟩, ⟨.mesh .nb_part_cell, .always, .self⟩, ⟨.mesh .nb_part_vert, .always, .self⟩,
  ⟨.mesh .Uthermal_time, .always, .self⟩, ⟨.mesh .Uelastic_time, .always, .self⟩,
  ⟨.mesh .Work_time, .always, .self⟩, ⟨.mesh .Time_time, .always, .self⟩, ⟨.mesh .Short_time, .always, .self⟩,
  ⟨.mesh .P_mean_time, .always, .self⟩, ⟨.mesh .T_mean_time, .always, .self⟩,
  ⟨.mesh .sxxd_mean_time, .always, .self⟩, ⟨.mesh .szzd_mean_time, .always, .self⟩,
  ⟨.mesh .sxz_mean_time, .always, .self⟩, ⟨.mesh .Tii_mean_time, .always, .self⟩,
  ⟨.mesh .exxd_mean_time, .always, .self⟩, ⟨.mesh .ezzd_mean_time, .always, .self⟩,
  ⟨.mesh .exz_mean_time, .always, .self⟩, ⟨.mesh .Eii_mean_time, .always, .self⟩, ⟨.mesh .T, .always, .self⟩,
  ⟨.mesh .T0_n, .always, .self⟩, ⟨.mesh .divth_n, .always, .self⟩, ⟨.mesh .divth0_n, .always, .self⟩,
  ⟨.mesh .eII_el, .always, .self⟩, ⟨.mesh .eII_pl, .always, .self⟩, ⟨.mesh .eII_pwl, .always, .self⟩,
  ⟨.mesh .eII_exp, .always, .self⟩, ⟨.mesh .eII_lin, .always, .self⟩, ⟨.mesh .eII_gbs, .always, .self⟩,
  ⟨.mesh .eII_cst, .always, .self⟩, ⟨.mesh .comp_cells, .always, .self⟩, ⟨.mesh .exz_n_el, .always, .self⟩,
  ⟨.mesh .exz_n_diss, .always, .self⟩, ⟨.mesh .d_n, .always, .self⟩, ⟨.mesh .d0_n, .always, .self⟩,
  ⟨.mesh .phi_n, .always, .self⟩, ⟨.mesh .phi0_n, .always, .self⟩, ⟨.mesh .cell_min_z, .always, .self⟩,
  ⟨.mesh .cell_max_z, .always, .self⟩, ⟨.mesh .vert_min_z, .always, .self⟩,
  ⟨.mesh .vert_max_z, .always, .self⟩, ⟨.mesh .C_s, .always, .self⟩, ⟨.mesh .fric_s, .always, .self⟩,
  ⟨.mesh .dil_s, .always, .self⟩, ⟨.mesh .C_n, .always, .self⟩, ⟨.mesh .fric_n, .always, .self⟩,
  ⟨.mesh .dil_n, .always, .self⟩, ⟨.mesh .D11_n, .always, .self⟩, ⟨.mesh .D12_n, .always, .self⟩,
  ⟨.mesh .D13_n, .always, .self⟩, ⟨.mesh .D14_n, .always, .self⟩, ⟨.mesh .D21_n, .always, .self⟩,
  ⟨.mesh .D22_n, .always, .self⟩, ⟨.mesh .D23_n, .always, .self⟩, ⟨.mesh .D24_n, .always, .self⟩,
  ⟨.mesh .D31_s, .always, .self⟩, ⟨.mesh .D32_s, .always, .self⟩, ⟨.mesh .D33_s, .always, .self⟩,
  ⟨.mesh .D34_s, .always, .self⟩, ⟨.mesh .drhodp_n, .always, .self⟩, ⟨.mesh .d0_s, .always, .self⟩,
  ⟨.mesh .phi0_s, .always, .self⟩, ⟨.mesh .T_s, .always, .self⟩, ⟨.mesh .P_s, .always, .self⟩,
  ⟨.mesh .d1_n, .aniso, .self⟩, ⟨.mesh .d1_s, .aniso, .self⟩, ⟨.mesh .d2_n, .aniso, .self⟩,
  ⟨.mesh .d2_s, .aniso, .self⟩, ⟨.mesh .angle_n, .aniso, .self⟩, ⟨.mesh .angle_s, .aniso, .self⟩,
  ⟨.mesh .FS_AR_n, .aniso, .self⟩, ⟨.mesh .FS_AR_s, .aniso, .self⟩, ⟨.mesh .aniso_factor_n, .aniso, .self⟩,
  ⟨.mesh .aniso_factor_s, .aniso, .self⟩, ⟨.mesh .p0_n, .always, .self⟩, ⟨.mesh .p0_s, .always, .self⟩,
  ⟨.mesh .X_n, .always, .self⟩, ⟨.mesh .noise_n, .always, .self⟩, ⟨.mesh .X_s, .always, .self⟩,
  ⟨.mesh .noise_s, .always, .self⟩, ⟨.mesh .X0_n, .always, .self⟩, ⟨.mesh .X0_s, .always, .self⟩,
  ⟨.mesh .OverS_n, .always, .self⟩]

/-- `PartAlloc` (MemoryAllocFree.c:182-255). -/
def partAlloc : List Entry := [
  ⟨.part .x, .always, .self⟩, ⟨.part .z, .always, .self⟩, ⟨.part .Vx, .always, .self⟩,
  ⟨.part .Vz, .always, .self⟩, ⟨.part .P, .always, .self⟩, ⟨.part .sxxd, .always, .self⟩,
  ⟨.part .szzd, .always, .self⟩, ⟨.part .sxz, .always, .self⟩, ⟨.part .phase, .always, .self⟩,
  ⟨.part .generation, .always, .self⟩, ⟨.part .dual, .always, .self⟩, ⟨.part .progress, .always, .self⟩,
  ⟨.part .divth, .always, .self⟩, ⟨.part .T, .always, .self⟩, ⟨.part .d, .always, .self⟩,
  ⟨.part .phi, .always, .self⟩, ⟨.part .X, .always, .self⟩, ⟨.part .noise, .always, .self⟩,
  ⟨.part .rho, .always, .self⟩, ⟨.part .strain, .always, .self⟩, ⟨.part .strain_el, .always, .self⟩,
  ⟨.part .strain_pl, .always, .self⟩, ⟨.part .strain_pwl, .always, .self⟩, ⟨.part .strain_exp, .always, .self⟩,
  ⟨.part .strain_lin, .always, .self⟩, ⟨.part .strain_gbs, .always, .self⟩, ⟨.part .intag, .always, .self⟩,
  ⟨.part .Fxx, .fstrain, .self⟩, ⟨.part .Fxz, .fstrain, .self⟩, ⟨.part .Fzx, .fstrain, .self⟩,
  ⟨.part .Fzz, .fstrain, .self⟩, ⟨.part .T0, .track, .self⟩, ⟨.part .P0, .track, .self⟩,
  ⟨.part .z0, .track, .self⟩, ⟨.part .x0, .track, .self⟩, ⟨.part .Tmax, .track, .self⟩,
  ⟨.part .Pmax, .track, .self⟩, ⟨.part .nx, .aniso, .self⟩, ⟨.part .nz, .aniso, .self⟩,
  ⟨.part .aniso_angle, .angle, .self⟩]

/-- `PartFree` (MemoryAllocFree.c:262-332). -/
def partFree : List Entry := [
  ⟨.part .x, .always, .self⟩, ⟨.part .z, .always, .self⟩, ⟨.part .Vx, .always, .self⟩,
  ⟨.part .Vz, .always, .self⟩, ⟨.part .P, .always, .self⟩, ⟨.part .sxxd, .always, .self⟩,
  ⟨.part .szzd, .always, .self⟩, ⟨.part .sxz, .always, .self⟩, ⟨.part .phase, .always, .self⟩,
  ⟨.part .progress, .always, .self⟩, ⟨.part .dual, .always, .self⟩, ⟨.part .generation, .always, .self⟩,
  ⟨.part .divth, .always, .self⟩, ⟨.part .T, .always, .self⟩, ⟨.part .d, .always, .self⟩,
  ⟨.part .phi, .always, .self⟩, ⟨.part .X, .always, .self⟩, ⟨.part .noise, .always, .self⟩,
  ⟨.part .rho, .always, .self⟩, ⟨.part .strain, .always, .self⟩, ⟨.part .strain_el, .always, .self⟩,
  ⟨.part .strain_pl, .always, .self⟩, ⟨.part .strain_pwl, .always, .self⟩, ⟨.part .strain_exp, .always, .self⟩,
  ⟨.part .strain_lin, .always, .self⟩, ⟨.part .strain_gbs, .always, .self⟩, ⟨.part .intag, .always, .self⟩,
  ⟨.part .Fxx, .fstrain, .self⟩, ⟨.part .Fxz, .fstrain, .self⟩, ⟨.part .Fzx, .fstrain, .self⟩,
  ⟨.part .Fzz, .fstrain, .self⟩, ⟨.part .T0, .track, .self⟩, ⟨.part .P0, .track, .self⟩,
  ⟨.part .x0, .track, .self⟩, ⟨.part .z0, .track, .self⟩, ⟨.part .Tmax, .track, .self⟩,
  ⟨.part .Pmax, .track, .self⟩, ⟨.part .nx, .aniso, .self⟩, ⟨.part .nz, .aniso, .self⟩,
  ⟨.part .aniso_angle, .angle, .self⟩]

/-- `AllocateMarkerChain` (FreeSurface.c:418-440), called for both chains (Main_DOODZ.c:121-122). -/
def chainAlloc (ini : Bool) : List Entry := [
  ⟨.chain ini .x, .fs1, .self⟩, ⟨.chain ini .z, .fs1, .self⟩, ⟨.chain ini .z0, .fs1, .self⟩,
  ⟨.chain ini .Vx, .fs1, .self⟩, ⟨.chain ini .Vz, .fs1, .self⟩, ⟨.chain ini .phase, .fs1, .self⟩,
  ⟨.topo ini .height, .fs1, .self⟩, ⟨.topo ini .height0, .fs1, .self⟩,
  ⟨.topo ini .height_finer_c, .fs1, .self⟩, ⟨.topo ini .vx, .fs1, .self⟩, ⟨.topo ini .vz, .fs1, .self⟩,
  ⟨.topo ini .a, .fs1, .self⟩, ⟨.topo ini .b, .fs1, .self⟩, ⟨.topo ini .a0, .fs1, .self⟩,
  ⟨.topo ini .b0, .fs1, .self⟩, ⟨.topo ini .VertInd, .fs1, .self⟩]

/-- `FreeMarkerChain` (FreeSurface.c:446-464, Main_DOODZ.c:1243-1244). -/
def chainFree (ini : Bool) : List Entry := [
  ⟨.chain ini .x, .fs1, .self⟩, ⟨.chain ini .z, .fs1, .self⟩, ⟨.chain ini .z0, .fs1, .self⟩,
  ⟨.chain ini .Vx, .fs1, .self⟩, ⟨.chain ini .Vz, .fs1, .self⟩, ⟨.chain ini .phase, .fs1, .self⟩,
  ⟨.topo ini .height, .fs1, .self⟩, ⟨.topo ini .height0, .fs1, .self⟩,
  ⟨.topo ini .height_finer_c, .fs1, .self⟩, ⟨.topo ini .a, .fs1, .self⟩, ⟨.topo ini .b, .fs1, .self⟩,
  ⟨.topo ini .a0, .fs1, .self⟩, ⟨.topo ini .b0, .fs1, .self⟩, ⟨.topo ini .vx, .fs1, .self⟩,
  ⟨.topo ini .vz, .fs1, .self⟩, ⟨.topo ini .VertInd, .fs1, .self⟩]

/-- Blocks allocated by `ReadInputFile`: names of files (InputOutput.c:1038-1050), one-dimensional diagrams
(1401-1416), two-dimensional diagrams (1487-1643, MemoryAllocFree.c:124-132), kinetics (1651-1663). -/
def inputAlloc : List Entry := [
  ⟨.model .writer_subfolder, .always, .self⟩, ⟨.model .import_files_dir, .always, .self⟩,
  ⟨.model .import_file, .always, .self⟩, ⟨.model .initial_markers_file, .always, .self⟩,
  ⟨.model .PD1DnP, .always, .self⟩, ⟨.model .PD1Drho, .always, .self⟩, ⟨.model .PD1Dmin, .always, .self⟩,
  ⟨.model .PD1Dmax, .always, .self⟩, ⟨.model .PD1Drho, .always, .dens4⟩,
  ⟨.model .PDMnT, .pd, .self⟩, ⟨.model .PDMnP, .pd, .self⟩, ⟨.model .PDMTmin, .pd, .self⟩,
  ⟨.model .PDMTmax, .pd, .self⟩, ⟨.model .PDMPmin, .pd, .self⟩, ⟨.model .PDMPmax, .pd, .self⟩,
  ⟨.model .PDMrho, .pd, .self⟩, ⟨.model .PDMrho, .pd, .diagrams⟩, ⟨.model .kin_dG, .kin, .self⟩]

/-- Blocks allocated by `RunMDOODZ` itself before the grid (Main_DOODZ.c:51-72). -/
def mainAlloc : List Entry := [
  ⟨.outputName, .always, .self⟩, ⟨.particleName, .always, .self⟩, ⟨.flux, .fsAny, .self⟩, ⟨.stress, .fsAny, .self⟩]

/-- `NmodelAlloc` (MemoryAllocFree.c:666-676). -/
def nmodelAlloc : List Entry := [
  ⟨.nmodel .rx_abs, .always, .self⟩, ⟨.nmodel .rx_rel, .always, .self⟩, ⟨.nmodel .rz_abs, .always, .self⟩,
  ⟨.nmodel .rz_rel, .always, .self⟩, ⟨.nmodel .rp_abs, .always, .self⟩, ⟨.nmodel .rp_rel, .always, .self⟩,
  ⟨.nmodel .LogIsNewtonStep, .always, .self⟩]

/-- Everything allocated before the time loop, in order. -/
def allocTable : List Entry :=
  inputAlloc ++ mainAlloc ++ gridAlloc ++ nmodelAlloc ++ partAlloc ++ chainAlloc false ++ chainAlloc true

/-- `FreePhaseDiagrams` (MemoryAllocFree.c:138-152, Main_DOODZ.c:1247). -/
def diagramFree : List Entry := [
  ⟨.model .PDMrho, .pd, .diagrams⟩, ⟨.model .PDMrho, .pd, .self⟩, ⟨.model .PDMnT, .pd, .self⟩,
  ⟨.model .PDMnP, .pd, .self⟩, ⟨.model .PDMTmin, .pd, .self⟩, ⟨.model .PDMTmax, .pd, .self⟩,
  ⟨.model .PDMPmin, .pd, .self⟩, ⟨.model .PDMPmax, .pd, .self⟩]

/-- The end of `RunMDOODZ` (Main_DOODZ.c:1255-1286) with `NmodelFree` (MemoryAllocFree.c:678-686);
`if (input.flux) free(input.flux)` is a release that ignores NULL. -/
def mainFree : List Entry := [
  ⟨.flux, .always, .self⟩, ⟨.outputName, .always, .self⟩, ⟨.particleName, .always, .self⟩,
  ⟨.model .import_file, .always, .self⟩, ⟨.model .import_files_dir, .always, .self⟩,
  ⟨.model .writer_subfolder, .always, .self⟩, ⟨.model .initial_markers_file, .always, .self⟩,
  ⟨.nmodel .rx_abs, .always, .self⟩, ⟨.nmodel .rz_abs, .always, .self⟩, ⟨.nmodel .rp_abs, .always, .self⟩,
  ⟨.nmodel .rx_rel, .always, .self⟩, ⟨.nmodel .rz_rel, .always, .self⟩, ⟨.nmodel .rp_rel, .always, .self⟩,
  ⟨.nmodel .LogIsNewtonStep, .always, .self⟩, ⟨.model .PD1Drho, .always, .dens4⟩,
  ⟨.model .PD1DnP, .always, .self⟩, ⟨.model .PD1Drho, .always, .self⟩, ⟨.model .PD1Dmin, .always, .self⟩,
  ⟨.model .PD1Dmax, .always, .self⟩, ⟨.model .kin_dG, .kin, .self⟩]

/-- Everything released after the time loop, in order (Main_DOODZ.c:1243-1286). -/
def freeTable : List Entry :=
  chainFree false ++ chainFree true ++ diagramFree ++ partFree ++ gridFree ++ mainFree

/-- Pointers an entry stands for. -/
def Kind.slots (c : Cfg) (v : Var) : Kind → List Slot
  | .self => [.var v]
  | .phases => (List.range c.nph).map (.elem v)
  | .dens4 => ((List.range c.nph).filter fun k => c.dens k == 4).map (.elem v)
  | .diagrams => (List.range 10).map (.elem v)

/-- Pointers of an entry, none if its condition does not hold. -/
def Entry.slots (c : Cfg) (e : Entry) : List Slot := if e.guard.holds c then e.kind.slots c e.var else []

/-- Pointers of a table. -/
def slots (c : Cfg) (t : List Entry) : List Slot := t.flatMap (Entry.slots c)

/-- Uses of the conditional arrays when a new run is prepared: `PartInit` (ParticleRoutines.c:903), `SetParticles`
(Setup.c:129-137), the surface (Main_DOODZ.c:146-163), `UpdateDensity`, `InitialiseDirectorVector`
(AnisotropyRoutines.c:832-844), interpolation (Main_DOODZ.c:316-321), `FiniteStrainAspectRatio`
(RheologyParticles.c:634-660), `UpdateAnisoFactor` (AnisotropyRoutines.c:370-456), the stored histories
(Main_DOODZ.c:384-391) and the kinetics of the first viscosity (RheologyDensity.c:691-695). -/
def startUses : List (Var × Guard) := [
  (.part .Fxx, .fstrain), (.part .Fxz, .fstrain), (.part .Fzx, .fstrain), (.part .Fzz, .fstrain),
  (.part .aniso_angle, .angleCb),
  (.chain false .x, .fs1), (.chain true .x, .fs1), (.topo false .height, .fs1), (.topo false .a, .fs1),
  (.topo false .b, .fs1), (.model .PDMrho, .dens2), (.model .PD1Drho, .always),
  (.part .aniso_angle, .angle), (.part .nx, .aniso), (.part .nz, .aniso),
  (.mesh .d1_n, .aniso), (.mesh .d2_n, .aniso), (.mesh .angle_n, .aniso),
  (.mesh .d1_s, .aniso), (.mesh .d2_s, .aniso), (.mesh .angle_s, .aniso),
  (.part .Fxx, .aniso), (.part .Fxz, .aniso), (.part .Fzx, .aniso), (.part .Fzz, .aniso),
  (.mesh .FS_AR_n, .aniso), (.mesh .FS_AR_s, .aniso),
  (.mesh .aniso_factor_n, .aniso), (.mesh .aniso_factor_s, .aniso),
  (.part .T0, .track), (.part .P0, .track), (.part .x0, .track), (.part .z0, .track),
  (.part .Tmax, .track), (.part .Pmax, .track), (.model .kin_dG, .kin9)]

/-- Uses when a run is continued: `LoadBreakpointParticles` (InputOutput.c:83-282). -/
def restartUses : List (Var × Guard) := [
  (.part .Fxx, .fstrain), (.part .Fxz, .fstrain), (.part .Fzx, .fstrain), (.part .Fzz, .fstrain),
  (.part .nx, .aniso), (.part .nz, .aniso),
  (.part .T0, .track), (.part .P0, .track), (.part .x0, .track), (.part .z0, .track),
  (.part .Tmax, .track), (.part .Pmax, .track),
  (.chain false .x, .fs1), (.chain true .x, .fs1), (.topo false .height, .fs1), (.topo true .height, .fs1)]

/-- Arrays of the grid that the routines of a step read or write: coordinates and indices (GridRoutines.c:21-160, 541-640), tags
(FreeSurface.c:492-798), interpolation from markers (Main_DOODZ.c:500-570, ParticleRoutines.c:2020-2400), densities (RheologyDensity.c:1440-1560,
FreeSurface.c:841-897), strain rates and stresses (RheologyDensity.c:840-1130, 1240-1430), operators, right-hand sides, assembly and residual
(StokesRoutines.c:73-920, 925-1119, StokesAssemblyDecoupled.c:20-1140), start values (GridRoutines.c:331-408, Main_DOODZ.c:656-658), heat
(ThermalRoutines.c:30-420), reseeding (ParticleReseeding.c:62-177) and breakpoints (InputOutput.c:400-960).  Taken to happen in every step
although some depend on switches: with more uses the memory is in order all the more. -/
def gridUses : List (Var × Guard) := [
  (.mesh .FreeSurfW_s, .always), (.mesh .FreeSurfW_n, .always), (.mesh .xg_coord, .always),
  (.mesh .zg_coord, .always), (.mesh .xg_coord_ext, .always), (.mesh .zg_coord_ext, .always),
  (.mesh .xg_coord0, .always), (.mesh .zg_coord0, .always), (.mesh .xc_coord, .always), (.mesh .zc_coord, .always),
  (.mesh .xvz_coord, .always), (.mesh .zvx_coord, .always), (.mesh .eta_s, .always), (.mesh .eta_n, .always),
  (.mesh .rho_s, .always), (.mesh .rho_n, .always), (.mesh .rho0_n, .always), (.mesh .ru, .always),
  (.mesh .gx, .always), (.mesh .rv, .always), (.mesh .gz, .always), (.mesh .rp, .always), (.mesh .rhs_p, .always),
  (.mesh .BCu_type, .always), (.mesh .BCv_type, .always), (.mesh .BCp_type, .always), (.mesh .BCp_exp_type, .always),
  (.mesh .BCu_val, .always), (.mesh .BCv_val, .always), (.mesh .BCp_val, .always), (.mesh .phase_perc_n, .always),
  (.mesh .phase_perc_n, .always), (.mesh .phase_perc_s, .always), (.mesh .phase_perc_s, .always),
  (.mesh .phase_eta_n, .always), (.mesh .phase_eta_n, .always), (.mesh .phase_eta_s, .always),
  (.mesh .phase_eta_s, .always), (.mesh .roger_x, .always), (.mesh .roger_z, .always), (.mesh .div_u, .always),
  (.mesh .div_u_s, .always), (.mesh .div_u_el, .always), (.mesh .div_u_pl, .always), (.mesh .div_u_r, .always),
  (.mesh .Qrho, .always), (.mesh .u_in, .always), (.mesh .v_in, .always), (.mesh .p_in, .always),
  (.mesh .p_corr, .always), (.mesh .u_start, .always), (.mesh .v_start, .always), (.mesh .p_start, .always),
  (.mesh .sxxd, .always), (.mesh .sxxd_s, .always), (.mesh .szzd, .always), (.mesh .szzd_s, .always),
  (.mesh .sxz, .always), (.mesh .sxz_n, .always), (.mesh .exxd, .always), (.mesh .ezzd, .always),
  (.mesh .exz, .always), (.mesh .wxz, .always), (.mesh .wxz_n, .always), (.mesh .mu_s, .always),
  (.mesh .mu_n, .always), (.mesh .VE_s, .always), (.mesh .VE_n, .always), (.mesh .sxxd0, .always),
  (.mesh .szzd0, .always), (.mesh .sxz0, .always), (.mesh .sxxd0_s, .always), (.mesh .szzd0_s, .always),
  (.mesh .sxz0_n, .always), (.mesh .exxd_s, .always), (.mesh .ezzd_s, .always), (.mesh .exz_n, .always),
  (.mesh .u_adv, .always), (.mesh .v_adv, .always), (.mesh .eta_phys_n, .always), (.mesh .eta_phys_s, .always),
  (.mesh .strain_n, .always), (.mesh .strain_s, .always), (.mesh .Cp, .always), (.mesh .kx, .always),
  (.mesh .kz, .always), (.mesh .kc_x, .always), (.mesh .kc_z, .always), (.mesh .Qr, .always),
  (.mesh .rhs_t, .always), (.mesh .BCT_exp_type, .always), (.mesh .BCT_exp_val, .always),
  (.mesh .BCC_exp_type, .always), (.mesh .BCC_exp_val, .always), (.mesh .BCt_type, .always),
  (.mesh .BCt_val, .always), (.mesh .BCt_fine_type, .always), (.mesh .Wdiss, .always), (.mesh .Wel, .always),
  (.mesh .Wtot, .always), (.mesh .BCc_type, .always), (.mesh .BCg_type, .always), (.mesh .BCg_val, .always),
  (.mesh .p_lith, .always), (.mesh .p_lith0, .always), (.mesh .dp, .always), (.mesh .alp, .always),
  (.mesh .bet_n, .always), (.mesh .bet_s, .always), (.mesh .sxx_W, .always), (.mesh .sxx_E, .always),
  (.mesh .kvx, .always), (.mesh .lvx, .always), (.mesh .kvz, .always), (.mesh .lvz, .always), (.mesh .kp, .always),
  (.mesh .lp, .always), (.mesh .kn, .always), (.mesh .ln, .always), (.mesh .nb_part_cell, .always),
  (.mesh .nb_part_vert, .always), (.mesh .Uthermal_time, .always), (.mesh .Uelastic_time, .always),
  (.mesh .Work_time, .always), (.mesh .Time_time, .always), (.mesh .Short_time, .always),
  (.mesh .P_mean_time, .always), (.mesh .T_mean_time, .always), (.mesh .sxxd_mean_time, .always),
  (.mesh .szzd_mean_time, .always), (.mesh .sxz_mean_time, .always), (.mesh .Tii_mean_time, .always),
  (.mesh .exxd_mean_time, .always), (.mesh .ezzd_mean_time, .always), (.mesh .exz_mean_time, .always),
  (.mesh .Eii_mean_time, .always), (.mesh .T, .always), (.mesh .T0_n, .always), (.mesh .divth_n, .always),
  (.mesh .divth0_n, .always), (.mesh .eII_el, .always), (.mesh .comp_cells, .always), (.mesh .eII_pl, .always),
  (.mesh .eII_pwl, .always), (.mesh .eII_exp, .always), (.mesh .eII_lin, .always), (.mesh .eII_gbs, .always),
  (.mesh .eII_cst, .always), (.mesh .d_n, .always), (.mesh .d0_n, .always), (.mesh .phi_n, .always),
  (.mesh .phi0_n, .always), (.mesh .C_s, .always), (.mesh .fric_s, .always), (.mesh .dil_s, .always),
  (.mesh .C_n, .always), (.mesh .fric_n, .always), (.mesh .dil_n, .always), (.mesh .D11_n, .always),
  (.mesh .D12_n, .always), (.mesh .D13_n, .always), (.mesh .D14_n, .always), (.mesh .D21_n, .always),
  (.mesh .D22_n, .always), (.mesh .D23_n, .always), (.mesh .D24_n, .always), (.mesh .D31_s, .always),
  (.mesh .D32_s, .always), (.mesh .D33_s, .always), (.mesh .D34_s, .always), (.mesh .drhodp_n, .always),
  (.mesh .d0_s, .always), (.mesh .phi0_s, .always), (.mesh .T_s, .always), (.mesh .P_s, .always),
  (.mesh .p0_n, .always), (.mesh .p0_s, .always), (.mesh .X0_n, .always), (.mesh .X_n, .always),
  (.mesh .noise_n, .always), (.mesh .X0_s, .always), (.mesh .X_s, .always), (.mesh .noise_s, .always),
  (.mesh .OverS_n, .always)]

/-- Uses in a time step before the equations are solved: surface (Main_DOODZ.c:466-471), `UpdateDensity`, finite
strain (525), anisotropy factor (561), kinetics. -/
def stepUses : List (Var × Guard) := [
  (.topo false .height0, .fs1), (.topo false .height, .fs1), (.topo true .height0, .fs1),
  (.topo true .height, .fs1), (.model .PDMrho, .dens2), (.model .PD1Drho, .always),
  (.part .Fxx, .aniso), (.mesh .FS_AR_n, .aniso), (.mesh .FS_AR_s, .aniso),
  (.mesh .aniso_factor_n, .aniso), (.mesh .aniso_factor_s, .aniso)] ++ gridUses

/-- Uses of the mechanical part: `RheologicalOperators` (Main_DOODZ.c:625, StokesRoutines.c:100-120, 182-200) and the
viscosity of the passes. -/
def mechUses : List (Var × Guard) := [
  (.mesh .aniso_factor_n, .anisoAny), (.mesh .aniso_factor_s, .anisoAny), (.mesh .d1_n, .anisoAny),
  (.mesh .d2_n, .anisoAny), (.mesh .d1_s, .anisoAny), (.mesh .d2_s, .anisoAny), (.model .kin_dG, .kin9)]

/-- Uses after the solve: advection of the chains (Main_DOODZ.c:1052-1053), deformation gradient (1072), rotation
of the director (RheologyParticles.c:1440-1455), sediments (FreeSurface.c:160-173), reseeding
(ParticleRoutines.c:731-830), histories (1004). -/
def lateUses : List (Var × Guard) := [
  (.chain false .x, .fs1), (.chain true .x, .fs1), (.topo false .vx, .fs1), (.topo false .vz, .fs1),
  (.part .Fxx, .fstrain), (.part .Fxz, .fstrain), (.part .Fzx, .fstrain), (.part .Fzz, .fstrain),
  (.part .nx, .aniso), (.part .nz, .aniso), (.mesh .aniso_factor_n, .aniso),
  (.part .T0, .track), (.part .P0, .track), (.part .x0, .track), (.part .z0, .track),
  (.part .Tmax, .track), (.part .Pmax, .track)]

/-- The uses made under the switches given. -/
def uses (c : Cfg) (t : List (Var × Guard)) : List Op :=
  (t.filter fun u => u.2.holds c).map fun u => .use (.var u.1)

/-! ### A time step -/

/-- `NeedJacobian` (Main_DOODZ.c:98). -/
def Cfg.needJacobian (c : Cfg) : Bool := c.newton == 1 || c.anisotropy == 1

/-- Pointers of a system. -/
def fields (m : System) (fs : List SysVar) : List Slot := fs.map fun f => .var (.sys m f)

/-- Numbering of the equations (StokesRoutines.c:1130-1132; released at Main_DOODZ.c:1192-1199). -/
def numbering (m : System) : List Slot := fields m [.eqn_u, .eqn_v, .eqn_p]

/-- `SAlloc` (MemoryAllocFree.c:159-165). -/
def sAlloc (m : System) : List Slot := fields m [.d, .b, .x, .F]

/-- `SFree` (MemoryAllocFree.c:171-176). -/
def sFree (m : System) : List Slot := fields m [.d, .x, .F, .b]

/-- `AllocMat` (MemoryAllocFree.c:102-107). -/
def matAlloc (m : System) : List Slot := fields m [.Ic, .J, .A, .bbc]

/-- `FreeMat` (MemoryAllocFree.c:113-118). -/
def matFree (m : System) : List Slot := fields m [.Ic, .J, .A, .bbc]

/-- Allocations at the start of the mechanical part (Main_DOODZ.c:631-645). -/
def solveAlloc (jac : Bool) : List Slot :=
  numbering .Stokes ++ (if jac then numbering .Jacob else []) ++ sAlloc .Stokes
    ++ (if jac then sAlloc .Jacob else [])
    ++ sAlloc .StokesA ++ sAlloc .StokesB ++ sAlloc .StokesC ++ sAlloc .StokesD
    ++ (if jac then sAlloc .JacobA ++ sAlloc .JacobB ++ sAlloc .JacobC ++ sAlloc .JacobD else [])

/-- Releases at the end of a step, made whether or not the mechanical part ran (Main_DOODZ.c:1180-1199). -/
def solveFree (jac : Bool) : List Slot :=
  sFree .Stokes ++ (if jac then sFree .Jacob else [])
    ++ sFree .StokesA ++ sFree .StokesB ++ sFree .StokesC ++ sFree .StokesD
    ++ (if jac then sFree .JacobA ++ sFree .JacobB ++ sFree .JacobC ++ sFree .JacobD else [])
    ++ numbering .Stokes ++ (if jac then numbering .Jacob else [])

/-- Matrices of a pass: `BuildStokesOperatorDecoupled` and, if the Jacobian is used,
`BuildJacobianOperatorDecoupled` (StokesAssemblyDecoupled.c:1351-1354, 1864-1867, Main_DOODZ.c:756-763). -/
def passAlloc (jac : Bool) : List Slot :=
  matAlloc .StokesA ++ matAlloc .StokesB ++ matAlloc .StokesC ++ matAlloc .StokesD
    ++ (if jac then matAlloc .JacobA ++ matAlloc .JacobB ++ matAlloc .JacobC ++ matAlloc .JacobD else [])

/-- `FreeSparseSystems` (MemoryAllocFree.c:1003-1020). -/
def passFree (jac : Bool) : List Slot :=
  matFree .StokesA ++ matFree .StokesB ++ matFree .StokesC ++ matFree .StokesD
    ++ (if jac then matFree .JacobA ++ matFree .JacobB ++ matFree .JacobC ++ matFree .JacobD else [])

/-- Vectors and numbering a pass works on (StokesAssemblyDecoupled.c:1351-1860, 1864-2200). -/
def passUses (jac : Bool) : List Slot :=
  numbering .Stokes ++ fields .StokesA [.b, .F, .d] ++ fields .StokesC [.b, .F, .d] ++ fields .Stokes [.x]
    ++ (if jac then numbering .Jacob ++ fields .JacobA [.b, .d] ++ fields .JacobC [.b, .d] else [])

/-- How a pass of the nonlinear loop ends: converged (Main_DOODZ.c:793-797), stagnated (804-810), time step
reduced and iterations restarted (813-835), next pass. -/
inductive Ending
  | converged | stagnated | restart | next
deriving DecidableEq

/-- What a pass meets: whether the residuals (or the count) ask for Newton steps (681), and how it ends.  Both
come from the physics and are arbitrary. -/
structure Pass where
  switch : Bool
  ending : Ending

/-- Variables of `RunMDOODZ` that decide about memory.  `first` is `IsFirstNewtonStep`, which is declared
inside the step (660): `none` until assigned. -/
structure St where
  mem : Mem
  newton : Bool
  isNewton : Bool
  first : Option Bool
  nit : Nat
  jac : Bool
  analyze : Bool

/-- One of the four solvers runs (StokesRoutines.c:810-820). -/
def Cfg.solves (c : Cfg) : Bool := c.linSolver == -1 || c.linSolver == 0 || c.linSolver == 1 || c.linSolver == 2

/-- Switch from Picard to Newton steps at the start of a pass (Main_DOODZ.c:679-691). -/
def switchNewton (c : Cfg) (p : Pass) (s : St) : St :=
  if 0 < s.nit ∧ c.picard2newton = 1 ∧ p.switch = true then
    match s.first with
    | none => { s with mem := s.mem.fail, newton := true, isNewton := true }
    | some false => { s with analyze := false, newton := true, isNewton := true }
    | some true =>
      { s with mem := Op.run s.mem (.freeSet (.var .factor)), analyze := true, first := some false,
               newton := true, isNewton := true }
  else s

/-- The linear solve: analysis if asked for, then use of the factor (Solvers.c:842-854, 1223-1234). -/
def linearSolve (c : Cfg) (s : St) : St :=
  if c.solves then
    if s.analyze then { s with mem := exec [.alloc (.var .factor), .use (.var .factor)] s.mem, analyze := false }
    else { s with mem := exec [.use (.var .factor)] s.mem }
  else s

/-- Switch, decision about the Jacobian, assembly (Main_DOODZ.c:679-792). -/
def assemble (c : Cfg) (p : Pass) (s : St) : St :=
  let s1 := switchNewton c p s
  let jac := s1.jac || s1.newton || c.anisotropy == 1
  { s1 with jac := jac, mem := exec ((passAlloc jac).map .alloc ++ (passUses jac).map .use) s1.mem }

/-- Release of the matrices of a pass (Main_DOODZ.c:796, 808, 837). -/
def clear (s : St) : St := { s with mem := exec ((passFree s.jac).map .free) s.mem }

/-- A pass of the loop (Main_DOODZ.c:677-840); the flag tells whether the loop goes on. -/
def pass (c : Cfg) (p : Pass) (s : St) : St × Bool :=
  match p.ending with
  | .converged => (clear (assemble c p s), false)
  | .stagnated => (clear (linearSolve c (assemble c p s)), false)
  | .restart => ({ clear (linearSolve c (assemble c p s)) with nit := 0 }, true)
  | .next => ({ clear (linearSolve c (assemble c p s)) with nit := s.nit + 1 }, true)

/-- The loop over the passes. -/
def passes (c : Cfg) : List Pass → St → St
  | [], s => s
  | p :: ps, s => if (pass c p s).2 then passes c ps (pass c p s).1 else (pass c p s).1

/-- State when the loop is entered (Main_DOODZ.c:625-672). -/
def enter (c : Cfg) (s : St) : St :=
  let s1 := { s with mem := exec (uses c mechUses ++ (solveAlloc c.needJacobian).map .alloc) s.mem
                     nit := 0, jac := false, analyze := true, first := none }
  if s1.isNewton = true ∧ c.picard2newton = 1 then
    { s1 with newton := false, isNewton := false, first := some true } else s1

/-- Release of the factor after the loop (Main_DOODZ.c:843-847). -/
def leave (s : St) : St := if 0 < s.nit then { s with mem := Op.run s.mem (.freeSet (.var .factor)) } else s

/-- A time step (Main_DOODZ.c:433-1221). -/
def step (c : Cfg) (s : St) (ps : List Pass) : St :=
  let s1 := { s with mem := exec (uses c stepUses) s.mem }
  let s2 := if c.mechanical = 1 then leave (passes c ps (enter c s1)) else s1
  { s2 with mem := exec (uses c lateUses ++ (solveFree c.needJacobian).map .free) s2.mem }

/-- Pointers before anything is done: the grid, the markers, and the members of `input` are initialised with zeros;
the rest are automatic variables (Main_DOODZ.c:51, 56-62, 118-120, 429-432, MemoryAllocFree.c:183, 339). -/
def initMem : Mem where
  ptr := fun s =>
    match s with
    | .var (.mesh _) => .null
    | .var (.part _) => .null
    | .var .flux => .null
    | .var .stress => .null
    | _ => .garbage
  lost := 0
  bad := false

/-- State at the start of the time loop (Main_DOODZ.c:44-432). -/
def prepare (c : Cfg) (restart : Bool) : St where
  mem := exec (uses c (if restart then restartUses else startUses)) (exec ((slots c allocTable).map .alloc) initMem)
  newton := c.newton == 1 || c.anisotropy == 1
  isNewton := c.newton == 1 || c.anisotropy == 1
  first := none
  nit := 0
  jac := false
  analyze := false

/-- The run: preparation, steps, release (Main_DOODZ.c:44-1291). -/
def run (c : Cfg) (restart : Bool) (steps : List (List Pass)) : Mem :=
  exec ((slots c freeTable).map .free) (steps.foldl (step c) (prepare c restart)).mem

end Verif.Heap
