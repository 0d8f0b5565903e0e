import Verif.Model.Config
import Verif.Model.Basic
import Mathlib.Analysis.SpecialFunctions.Pow.Real
import Mathlib.Analysis.Real.Pi.Bounds

/-
Reading and non-dimensionalisation of the numbers of the input file (`ReadInputFile`,
/repo/MDLIB/InputOutput.c:1062-1395) and the checks made on the material parameters.  Only the real-valued
parameters (`ReadDou2`, and `ReadMatProps` without conversion to an integer) are listed; whole numbers are
stored as they are.  The search for the parameters in the text is Model/Input.lean; here `get name` is its
result, `none` when the default is used.
-/
namespace Verif.Units
open Verif

/-- Expressions of the `scaling` structure used as divisors. -/
inductive U
  | one | L | V | T | t | a | E | S | rho | eta | Cp | k | W
  | mul (x y : U)
  | div (x y : U)
  | pow (x : U) (n : Nat)
deriving DecidableEq

/-- Value of a divisor. -/
noncomputable def U.val (s : Config.Scale ℝ) : U → ℝ
  | .one => 1
  | .L => s.L
  | .V => s.V
  | .T => s.T
  | .t => s.t
  | .a => s.a
  | .E => s.E
  | .S => s.S
  | .rho => s.rho
  | .eta => s.eta
  | .Cp => s.Cp
  | .k => s.k
  | .W => s.W
  | .mul x y => x.val s * y.val s
  | .div x y => x.val s / y.val s
  | .pow x n => x.val s ^ n

/-- What is done with the number read: nothing; `/ u`; `* M_PI / 180.0`; `+ zeroC` and `/ u`. -/
inductive Conv
  | raw
  | per (u : U)
  | angle
  | celsius (u : U)
deriving DecidableEq

/-- The conversion. -/
noncomputable def Conv.app (s : Config.Scale ℝ) (v : ℝ) : Conv → ℝ
  | .raw => v
  | .per u => v / u.val s
  | .angle => v * Real.pi / 180
  | .celsius u => (v + 27315 / 100) / u.val s

/-- One statement `field = Read(fin, "name", dflt) conv`. -/
structure Param where
  field : String
  name : String
  dflt : ℚ
  conv : Conv
deriving DecidableEq

/-- Real parameters of the model (InputOutput.c:1065-1253), in the order they are read. -/
def modelTable : List Param := [
  ⟨"model.xmin", "xmin", -1, .per .L⟩,
  ⟨"model.xmax", "xmax", 1, .per .L⟩,
  ⟨"model.zmin", "zmin", -1, .per .L⟩,
  ⟨"model.zmax", "zmax", 1, .per .L⟩,
  ⟨"model.dt", "dt", 0, .per .t⟩,
  ⟨"model.Courant", "Courant", 1 / 2, .raw⟩,
  ⟨"model.dt_max", "dt_max", 10 ^ 20, .per .t⟩,
  ⟨"model.dt_min", "dt_min", -10 ^ 20, .per .t⟩,
  ⟨"model.dt_reduction_factor", "dt_reduction_factor", 1, .raw⟩,
  ⟨"model.penalty", "penalty", 1000, .raw⟩,
  ⟨"model.auto_penalty", "auto_penalty", 0, .raw⟩,
  ⟨"model.lin_abs_div", "lin_abs_div", 1 / 10 ^ 9, .raw⟩,
  ⟨"model.lin_rel_div", "lin_rel_div", 1 / 10 ^ 5, .raw⟩,
  ⟨"model.lin_abs_mom", "lin_abs_mom", 1 / 10 ^ 9, .raw⟩,
  ⟨"model.lin_rel_mom", "lin_rel_mom", 1 / 10 ^ 5, .raw⟩,
  ⟨"Nmodel.Picard2Newton_tol", "Picard2Newton_tol", 1 / 10, .raw⟩,
  ⟨"model.rel_tol_KSP", "rel_tol_KSP", 1 / 10 ^ 4, .raw⟩,
  ⟨"Nmodel.nonlin_abs_mom", "nonlin_abs_mom", 1 / 10 ^ 6, .raw⟩,
  ⟨"Nmodel.nonlin_abs_div", "nonlin_abs_div", 1 / 10 ^ 6, .raw⟩,
  ⟨"Nmodel.nonlin_rel_mom", "nonlin_rel_mom", 1 / 10 ^ 6, .raw⟩,
  ⟨"Nmodel.nonlin_rel_div", "nonlin_rel_div", 1 / 10 ^ 6, .raw⟩,
  ⟨"model.min_eta", "min_eta", 10 ^ 18, .per .eta⟩,
  ⟨"model.max_eta", "max_eta", 10 ^ 24, .per .eta⟩,
  ⟨"model.eta_tol", "eta_tol", 10 ^ 11, .raw⟩,
  ⟨"model.safe_dt_div", "safe_dt_div", 5, .raw⟩,
  ⟨"model.line_search_min", "line_search_min", 0, .raw⟩,
  ⟨"model.free_surface_stab", "free_surface_stab", 0, .raw⟩,
  ⟨"model.cooling_duration", "cooling_duration", 31557600 * 10 ^ 9, .per .t⟩,
  ⟨"model.bkg_strain_rate", "bkg_strain_rate", 1 / 10 ^ 30, .per .E⟩,
  ⟨"model.bkg_div_rate", "bkg_div_rate", 0, .per .E⟩,
  ⟨"model.bkg_pressure", "bkg_pressure", 0, .per .S⟩,
  ⟨"model.bkg_temperature", "bkg_temperature", 0, .per .T⟩,
  ⟨"model.surf_diff", "surf_diff", 0, .per (.div (.pow .L 2) .t)⟩,
  ⟨"model.surf_sedirate", "surf_sedirate", 0, .per .V⟩,
  ⟨"model.surf_baselev", "surf_baselev", 0, .per .L⟩,
  ⟨"model.surf_Winc", "surf_Winc", 0, .per .L⟩,
  ⟨"model.surf_Vinc", "surf_Vinc", 0, .per .V⟩,
  ⟨"model.preload_sxxd", "preload_sxxd", 0, .per .S⟩,
  ⟨"model.preload_szzd", "preload_szzd", 0, .per .S⟩,
  ⟨"model.preload_sxz", "preload_sxz", 0, .per .S⟩,
  ⟨"model.therm_perturb_x0", "therm_perturb_x0", 0, .per .L⟩,
  ⟨"model.therm_perturb_z0", "therm_perturb_z0", 0, .per .L⟩,
  ⟨"model.therm_perturb_rad_x", "therm_perturb_rad_x", 0, .per .L⟩,
  ⟨"model.therm_perturb_rad_z", "therm_perturb_rad_z", 0, .per .L⟩,
  ⟨"model.therm_perturb_dT", "therm_perturb_dT", 0, .per .T⟩,
  ⟨"model.act_vol_dis_ast", "act_vol_dis_ast", 0, .raw⟩,
  ⟨"model.act_vol_dif_ast", "act_vol_dif_ast", 0, .raw⟩,
  ⟨"model.melt_weak", "melt_weak", 0, .raw⟩,
  ⟨"model.user0", "user0", 0, .raw⟩,
  ⟨"model.user1", "user1", 0, .raw⟩,
  ⟨"model.user2", "user2", 0, .raw⟩,
  ⟨"model.user3", "user3", 0, .raw⟩,
  ⟨"model.user4", "user4", 0, .raw⟩,
  ⟨"model.user5", "user5", 0, .raw⟩,
  ⟨"model.user6", "user6", 0, .raw⟩,
  ⟨"model.user7", "user7", 0, .raw⟩,
  ⟨"model.user8", "user8", 0, .raw⟩,
  ⟨"model.user9", "user9", 0, .raw⟩,
  ⟨"model.diffusion_length", "diffusion_length", 0, .per .L⟩,
  ⟨"model.gx", "gx", 0, .per .a⟩,
  ⟨"model.gz", "gz", 0, .per .a⟩,
  ⟨"model.Tmin", "Tmin", 100, .celsius .T⟩,
  ⟨"model.Tmax", "Tmax", 1000, .celsius .T⟩,
  ⟨"model.Emin", "Emin", -30, .raw⟩,
  ⟨"model.Emax", "Emax", -4, .raw⟩,
  ⟨"model.dmin", "dmin", -7, .raw⟩,
  ⟨"model.dmax", "dmax", -2, .raw⟩,
  ⟨"model.Pn", "Pn", 500000 * 10 ^ 3, .per .S⟩]

/-- Real parameters of a material (InputOutput.c:1260-1357) except the visco-plastic viscosity and the
values after softening, see `etaVp`, `cohesionEnd`, `angleEnd`. -/
def materialTable : List Param := [
  ⟨"materials.rho", "rho", 2700, .per .rho⟩,
  ⟨"materials.G", "G", 10 ^ 10, .per .S⟩,
  ⟨"materials.Cp", "Cp", 1000, .per .Cp⟩,
  ⟨"materials.k", "k", 1 / 10 ^ 6, .per .k⟩,
  ⟨"materials.Qr", "Qr", 1 / 10 ^ 30, .per (.div .W (.pow .L 3))⟩,
  ⟨"materials.alp", "alp", 0, .per (.div .one .T)⟩,
  ⟨"materials.bet", "bet", 1 / 10 ^ 40, .per (.div .one .S)⟩,
  ⟨"materials.drho", "drho", 0, .per .rho⟩,
  ⟨"materials.sig_tens", "sig_tens", 10 ^ 7, .per .S⟩,
  ⟨"materials.sig1", "sig1", 10 ^ 7, .per .S⟩,
  ⟨"materials.dsig1", "dsig1", 10 ^ 7, .per .S⟩,
  ⟨"materials.C", "C", 10 ^ 7, .per .S⟩,
  ⟨"materials.phi", "phi", 30, .angle⟩,
  ⟨"materials.psi", "psi", 0, .angle⟩,
  ⟨"materials.Slim", "Slim", 10 ^ 90, .per .S⟩,
  ⟨"materials.n_vp", "n_vp", 1, .raw⟩,
  ⟨"materials.pls_start", "plss", 1, .raw⟩,
  ⟨"materials.pls_end", "plse", 2, .raw⟩,
  ⟨"materials.eps0", "eps0", 1 / 10 ^ 14, .per .E⟩,
  ⟨"materials.tau0", "tau0", 2000000, .per .S⟩,
  ⟨"materials.eta0", "eta0", 10 ^ 20, .per .eta⟩,
  ⟨"materials.npwl", "npwl", 1, .raw⟩,
  ⟨"materials.Qpwl", "Qpwl", 0, .raw⟩,
  ⟨"materials.pref_pwl", "pref_pwl", 1, .raw⟩,
  ⟨"materials.gs_ref", "gs_ref", 1 / 500, .per .L⟩,
  ⟨"materials.Pr", "Pr", 0, .per .S⟩,
  ⟨"materials.dPr", "dPr", 0, .per .S⟩,
  ⟨"materials.tau_kin", "tau_kin", 0, .per .t⟩,
  ⟨"materials.k_chem", "k_chem", 0, .per (.div (.mul .L .L) .t)⟩,
  ⟨"materials.aniso_angle", "aniso_angle", 90, .angle⟩,
  ⟨"materials.aniso_factor", "aniso_factor", 1, .raw⟩,
  ⟨"materials.ani_fac_max", "ani_fac_max", 1000, .raw⟩,
  ⟨"materials.axx", "axx", 1, .raw⟩,
  ⟨"materials.azz", "azz", 1, .raw⟩,
  ⟨"materials.ayy", "ayy", 1, .raw⟩,
  ⟨"materials.transmutation_temperature", "transmutation_temperature", 1300, .per .T⟩]

/-- One assignment. -/
noncomputable def assign (s : Config.Scale ℝ) (get : String → Option ℝ) (m : String → Option ℝ) (p : Param) :
    String → Option ℝ :=
  fun f => if f = p.field then some (p.conv.app s ((get p.name).getD p.dflt)) else m f

/-- The assignments of a table, one after the other; fields not assigned keep `none`. -/
noncomputable def load (s : Config.Scale ℝ) (get : String → Option ℝ) (tab : List Param) : String → Option ℝ :=
  tab.foldl (assign s get) fun _ => none

/-- `eta_vp[k]` (InputOutput.c:1291), from the exponent `n_vp[k]`. -/
noncomputable def etaVp (s : Config.Scale ℝ) (v n : ℝ) : ℝ := v / s.S / s.t ^ (1 / n)

/-- `C_end[k]` (InputOutput.c:1301): the default is made from the stored cohesion. -/
noncomputable def cohesionEnd (s : Config.Scale ℝ) (v : Option ℝ) (C : ℝ) : ℝ := v.getD (C * s.S) / s.S

/-- `phi_end[k]`, `psi_end[k]` (InputOutput.c:1302-1303): the default is made from the stored angle. -/
noncomputable def angleEnd (v : Option ℝ) (phi : ℝ) : ℝ := v.getD (phi * 180 / Real.pi) * Real.pi / 180

/-- Reference temperature and pressure, gas constant (InputOutput.c:1269-1270, 1395; mdoodz.h:4-5). -/
noncomputable def refT (s : Config.Scale ℝ) : ℝ := 27315 / 100 / s.T
/-- See `refT`. -/
noncomputable def refP (s : Config.Scale ℝ) : ℝ := 100000 / s.S
/-- See `refT`. -/
noncomputable def gasR (s : Config.Scale ℝ) : ℝ := 8314510 / 1000000 / (s.J / s.T)

/-- Grid spacing (InputOutput.c:1209-1210). -/
noncomputable def spacing (lo hi : ℝ) (n : Nat) : ℝ := (hi - lo) / ((n : ℝ) - 1)

/-! ### Checks of the material parameters -/

/-- The numbers of one phase that are checked, as they stand in the file (or their defaults). -/
structure Phase where
  C : ℝ
  phi : ℝ
  psi : ℝ
  slim : ℝ
  nvp : ℝ
  cohSoft : Int
  phiSoft : Int
  psiSoft : Int
  Ce : Option ℝ
  phie : Option ℝ
  psie : Option ℝ
  reacSoft : Int
  reacPhase : Int
  cstv : Int
  pwlv : Int
  linv : Int
  gbsv : Int
  expv : Int
  dens : Int
  diagram : Int

/-- How reading ends. -/
inductive Out
  | ok
  | exit (code : Nat)
  /-- write behind the end of the arrays of `mat_prop` -/
  | oob
deriving DecidableEq

/-- The checks made while one phase is read (InputOutput.c:1283-1363), in their order.  Simplified: the
unknown flow law numbers, which end the run in FlowLaws.c, are in Model/FlowLaws.lean. -/
noncomputable def checkPhase (s : Config.Scale ℝ) (compressible : Int) (nph : Nat) (p : Phase) : Option Nat :=
  let C := p.C / s.S
  let phi := p.phi * Real.pi / 180
  let psi := p.psi * Real.pi / 180
  let Ce := cohesionEnd s p.Ce C
  let phie := angleEnd p.phie phi
  let psie := angleEnd p.psie psi
  let small := 1 / 10 * Real.pi / 180
  if 0 < psi ∧ compressible = 0 then some 1
  else if p.slim / s.S < C then some 1
  else if 10001 / 10000 < p.nvp then some 1
  else if 0 < p.psiSoft ∧ compressible = 0 then some 1
  else if p.cohSoft = 1 ∧ |Ce - C| < 1 / s.S then some 122
  else if p.phiSoft = 1 ∧ |phie - phi| < small then some 122
  else if p.psiSoft = 1 ∧ |psie - psi| < small then some 122
  else if (nph : Int) ≤ p.reacPhase ∧ p.reacSoft = 1 then some 13
  else if |p.cstv| + |p.pwlv| + |p.linv| + |p.gbsv| + |p.expv| = 0 then some 12
  else none

/-- Length of the arrays of `mat_prop` (mdoodz.h:130-152). -/
def maxPhases : Nat := 20

/-- One turn of the loop over the phases: the fields of phase `k` are written, then checked
(InputOutput.c:1258-1393). -/
noncomputable def phaseStep (s : Config.Scale ℝ) (compressible : Int) (nph : Nat) (ps : Nat → Phase) (o : Out)
    (k : Nat) : Out :=
  match o with
  | .ok => if maxPhases ≤ k then .oob
           else match checkPhase s compressible nph (ps k) with
             | some c => .exit c
             | none => .ok
  | o => o

/-- Loop over the phases (InputOutput.c:1258-1393). -/
noncomputable def readPhases (s : Config.Scale ℝ) (compressible : Int) (nph : Nat) (ps : Nat → Phase) : Out :=
  forUp nph .ok (phaseStep s compressible nph ps)

/-- Loop over the density models (InputOutput.c:1406-1475): `found` tells whether the file of the
one-dimensional diagram exists. -/
def readDiagram1 (found : Bool) (nph : Nat) (ps : Nat → Phase) (o : Out) : Out :=
  forUp nph o fun o k =>
    match o with
    | .ok => if (ps k).dens = 4 ∧ found = false then .exit 1 else .ok
    | o => o

/-- Check of the phase diagrams (InputOutput.c:1482-1493). -/
def readDiagram2 (nph : Nat) (ps : Nat → Phase) (o : Out) : Out :=
  forUp nph o fun o k =>
    match o with
    | .ok => if (ps k).dens = 2 ∧ (ps k).diagram = -1 then .exit 5 else .ok
    | o => o

/-- The part of `ReadInputFile` from the materials on (InputOutput.c:1257-1493). -/
noncomputable def readMaterials (s : Config.Scale ℝ) (compressible : Int) (found : Bool) (nph : Nat)
    (ps : Nat → Phase) : Out :=
  readDiagram2 nph ps (readDiagram1 found nph ps (readPhases s compressible nph ps))

end Verif.Units
