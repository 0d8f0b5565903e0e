import Mathlib.Algebra.Order.Field.Basic
import Mathlib.Data.Real.Basic
import Mathlib.Analysis.Real.Pi.Bounds

/-
Dimensions of the numbers a user writes in the input file, and what it means to store one in
characteristic units.  The user chooses a viscosity `eta`, a length `L`, a velocity `V` and a temperature
`T`; these fix the units of length, time, mass and temperature.
-/
namespace Verif.Spec.Units

/-- Meaning of a number of the input file. -/
inductive Kind
  /-- a quantity of dimension mass^m length^l time^t temperature^h, in SI units -/
  | si (m l t h : Int)
  /-- degrees; stored in radians -/
  | angle
  /-- degrees Celsius; stored as absolute temperature -/
  | celsius
  /-- a number kept as it is: ratios, exponents, tolerances (in characteristic units), decimal
  logarithms, activation energies and volumes (converted with the flow law), parameters of the user -/
  | number
deriving DecidableEq

namespace Kind
/-- dimension -/
abbrev length : Kind := .si 0 1 0 0
/-- dimension -/
abbrev time : Kind := .si 0 0 1 0
/-- dimension -/
abbrev rate : Kind := .si 0 0 (-1) 0
/-- dimension -/
abbrev velocity : Kind := .si 0 1 (-1) 0
/-- dimension -/
abbrev acceleration : Kind := .si 0 1 (-2) 0
/-- dimension -/
abbrev pressure : Kind := .si 1 (-1) (-2) 0
/-- dimension -/
abbrev viscosity : Kind := .si 1 (-1) (-1) 0
/-- dimension -/
abbrev density : Kind := .si 1 (-3) 0 0
/-- dimension -/
abbrev temperature : Kind := .si 0 0 0 1
/-- dimension -/
abbrev diffusivity : Kind := .si 0 2 (-1) 0
/-- dimension -/
abbrev heatCapacity : Kind := .si 0 2 (-2) (-1)
/-- dimension -/
abbrev conductivity : Kind := .si 1 1 (-3) (-1)
/-- dimension -/
abbrev heatProduction : Kind := .si 1 (-1) (-3) 0
/-- dimension -/
abbrev expansivity : Kind := .si 0 0 0 (-1)
/-- dimension -/
abbrev compressibility : Kind := .si (-1) 1 2 0
end Kind

/-- Unit of a dimension: with the velocity `V` the unit of time is `L/V`; a viscosity is a mass per length
and time, so that the unit of mass is `eta * L * (L/V)`. -/
noncomputable def unit (eta L V T : ℝ) (m l t h : Int) : ℝ :=
  (eta * L * (L / V)) ^ m * L ^ l * (L / V) ^ t * T ^ h

/-- The stored value `x` means the value `v` of the file. -/
def Means (eta L V T : ℝ) (x v : ℝ) : Kind → Prop
  | .si m l t h => x * unit eta L V T m l t h = v
  | .angle => x * 180 / Real.pi = v
  | .celsius => x * T - 273.15 = v
  | .number => x = v

/-- A documented parameter: its name, the field of the program that holds it, the value used when the file
does not give one, and its meaning. -/
structure Doc where
  name : String
  field : String
  dflt : ℚ
  kind : Kind
deriving DecidableEq

/-- Parameters of the model. -/
def modelDocs : List Doc := [
  ⟨"xmin", "model.xmin", -1, .length⟩,
  ⟨"xmax", "model.xmax", 1, .length⟩,
  ⟨"zmin", "model.zmin", -1, .length⟩,
  ⟨"zmax", "model.zmax", 1, .length⟩,
  ⟨"surf_baselev", "model.surf_baselev", 0, .length⟩,
  ⟨"surf_Winc", "model.surf_Winc", 0, .length⟩,
  ⟨"therm_perturb_x0", "model.therm_perturb_x0", 0, .length⟩,
  ⟨"therm_perturb_z0", "model.therm_perturb_z0", 0, .length⟩,
  ⟨"therm_perturb_rad_x", "model.therm_perturb_rad_x", 0, .length⟩,
  ⟨"therm_perturb_rad_z", "model.therm_perturb_rad_z", 0, .length⟩,
  ⟨"diffusion_length", "model.diffusion_length", 0, .length⟩,
  ⟨"dt", "model.dt", 0, .time⟩,
  ⟨"dt_max", "model.dt_max", 10 ^ 20, .time⟩,
  ⟨"dt_min", "model.dt_min", -10 ^ 20, .time⟩,
  ⟨"cooling_duration", "model.cooling_duration", 31557600 * 10 ^ 9, .time⟩,
  ⟨"min_eta", "model.min_eta", 10 ^ 18, .viscosity⟩,
  ⟨"max_eta", "model.max_eta", 10 ^ 24, .viscosity⟩,
  ⟨"bkg_strain_rate", "model.bkg_strain_rate", 1 / 10 ^ 30, .rate⟩,
  ⟨"bkg_div_rate", "model.bkg_div_rate", 0, .rate⟩,
  ⟨"bkg_pressure", "model.bkg_pressure", 0, .pressure⟩,
  ⟨"preload_sxxd", "model.preload_sxxd", 0, .pressure⟩,
  ⟨"preload_szzd", "model.preload_szzd", 0, .pressure⟩,
  ⟨"preload_sxz", "model.preload_sxz", 0, .pressure⟩,
  ⟨"Pn", "model.Pn", 500000000, .pressure⟩,
  ⟨"bkg_temperature", "model.bkg_temperature", 0, .temperature⟩,
  ⟨"therm_perturb_dT", "model.therm_perturb_dT", 0, .temperature⟩,
  ⟨"surf_diff", "model.surf_diff", 0, .diffusivity⟩,
  ⟨"surf_sedirate", "model.surf_sedirate", 0, .velocity⟩,
  ⟨"surf_Vinc", "model.surf_Vinc", 0, .velocity⟩,
  ⟨"gx", "model.gx", 0, .acceleration⟩,
  ⟨"gz", "model.gz", 0, .acceleration⟩,
  ⟨"Tmin", "model.Tmin", 100, .celsius⟩,
  ⟨"Tmax", "model.Tmax", 1000, .celsius⟩,
  ⟨"Courant", "model.Courant", 1 / 2, .number⟩,
  ⟨"dt_reduction_factor", "model.dt_reduction_factor", 1, .number⟩,
  ⟨"penalty", "model.penalty", 1000, .number⟩,
  ⟨"auto_penalty", "model.auto_penalty", 0, .number⟩,
  ⟨"lin_abs_div", "model.lin_abs_div", 1 / 10 ^ 9, .number⟩,
  ⟨"lin_rel_div", "model.lin_rel_div", 1 / 10 ^ 5, .number⟩,
  ⟨"lin_abs_mom", "model.lin_abs_mom", 1 / 10 ^ 9, .number⟩,
  ⟨"lin_rel_mom", "model.lin_rel_mom", 1 / 10 ^ 5, .number⟩,
  ⟨"Picard2Newton_tol", "Nmodel.Picard2Newton_tol", 1 / 10, .number⟩,
  ⟨"rel_tol_KSP", "model.rel_tol_KSP", 1 / 10 ^ 4, .number⟩,
  ⟨"nonlin_abs_mom", "Nmodel.nonlin_abs_mom", 1 / 10 ^ 6, .number⟩,
  ⟨"nonlin_abs_div", "Nmodel.nonlin_abs_div", 1 / 10 ^ 6, .number⟩,
  ⟨"nonlin_rel_mom", "Nmodel.nonlin_rel_mom", 1 / 10 ^ 6, .number⟩,
  ⟨"nonlin_rel_div", "Nmodel.nonlin_rel_div", 1 / 10 ^ 6, .number⟩,
  ⟨"eta_tol", "model.eta_tol", 10 ^ 11, .number⟩,
  ⟨"safe_dt_div", "model.safe_dt_div", 5, .number⟩,
  ⟨"line_search_min", "model.line_search_min", 0, .number⟩,
  ⟨"free_surface_stab", "model.free_surface_stab", 0, .number⟩,
  ⟨"act_vol_dis_ast", "model.act_vol_dis_ast", 0, .number⟩,
  ⟨"act_vol_dif_ast", "model.act_vol_dif_ast", 0, .number⟩,
  ⟨"melt_weak", "model.melt_weak", 0, .number⟩,
  ⟨"Emin", "model.Emin", -30, .number⟩,
  ⟨"Emax", "model.Emax", -4, .number⟩,
  ⟨"dmin", "model.dmin", -7, .number⟩,
  ⟨"dmax", "model.dmax", -2, .number⟩,
  ⟨"user0", "model.user0", 0, .number⟩,
  ⟨"user1", "model.user1", 0, .number⟩,
  ⟨"user2", "model.user2", 0, .number⟩,
  ⟨"user3", "model.user3", 0, .number⟩,
  ⟨"user4", "model.user4", 0, .number⟩,
  ⟨"user5", "model.user5", 0, .number⟩,
  ⟨"user6", "model.user6", 0, .number⟩,
  ⟨"user7", "model.user7", 0, .number⟩,
  ⟨"user8", "model.user8", 0, .number⟩,
  ⟨"user9", "model.user9", 0, .number⟩]

/-- Parameters of a material. -/
def materialDocs : List Doc := [
  ⟨"rho", "materials.rho", 2700, .density⟩,
  ⟨"drho", "materials.drho", 0, .density⟩,
  ⟨"G", "materials.G", 10 ^ 10, .pressure⟩,
  ⟨"sig_tens", "materials.sig_tens", 10 ^ 7, .pressure⟩,
  ⟨"sig1", "materials.sig1", 10 ^ 7, .pressure⟩,
  ⟨"dsig1", "materials.dsig1", 10 ^ 7, .pressure⟩,
  ⟨"C", "materials.C", 10 ^ 7, .pressure⟩,
  ⟨"Slim", "materials.Slim", 10 ^ 90, .pressure⟩,
  ⟨"tau0", "materials.tau0", 2000000, .pressure⟩,
  ⟨"Pr", "materials.Pr", 0, .pressure⟩,
  ⟨"dPr", "materials.dPr", 0, .pressure⟩,
  ⟨"Cp", "materials.Cp", 1000, .heatCapacity⟩,
  ⟨"k", "materials.k", 1 / 10 ^ 6, .conductivity⟩,
  ⟨"Qr", "materials.Qr", 1 / 10 ^ 30, .heatProduction⟩,
  ⟨"alp", "materials.alp", 0, .expansivity⟩,
  ⟨"bet", "materials.bet", 1 / 10 ^ 40, .compressibility⟩,
  ⟨"phi", "materials.phi", 30, .angle⟩,
  ⟨"psi", "materials.psi", 0, .angle⟩,
  ⟨"aniso_angle", "materials.aniso_angle", 90, .angle⟩,
  ⟨"eps0", "materials.eps0", 1 / 10 ^ 14, .rate⟩,
  ⟨"eta0", "materials.eta0", 10 ^ 20, .viscosity⟩,
  ⟨"gs_ref", "materials.gs_ref", 1 / 500, .length⟩,
  ⟨"tau_kin", "materials.tau_kin", 0, .time⟩,
  ⟨"k_chem", "materials.k_chem", 0, .diffusivity⟩,
  ⟨"transmutation_temperature", "materials.transmutation_temperature", 1300, .temperature⟩,
  ⟨"n_vp", "materials.n_vp", 1, .number⟩,
  ⟨"plss", "materials.pls_start", 1, .number⟩,
  ⟨"plse", "materials.pls_end", 2, .number⟩,
  ⟨"npwl", "materials.npwl", 1, .number⟩,
  ⟨"Qpwl", "materials.Qpwl", 0, .number⟩,
  ⟨"pref_pwl", "materials.pref_pwl", 1, .number⟩,
  ⟨"aniso_factor", "materials.aniso_factor", 1, .number⟩,
  ⟨"ani_fac_max", "materials.ani_fac_max", 1000, .number⟩,
  ⟨"axx", "materials.axx", 1, .number⟩,
  ⟨"azz", "materials.azz", 1, .number⟩,
  ⟨"ayy", "materials.ayy", 1, .number⟩]

/-- A set of material parameters that makes sense (values as in the file, SI and degrees): the stress limit
is not below the cohesion, dilation goes with compressibility, the overstress is not a power law, the values
before and after softening differ, a reaction has a product among the phases, there is a flow law, and a
density from a diagram has one. -/
structure Sane (compressible : Int) (nph : Nat) (C phi psi slim nvp : ℝ) (cohSoft phiSoft psiSoft : Int)
    (Ce phie psie : ℝ) (reacSoft reacPhase : Int) (laws : List Int) (dens diagram : Int) : Prop where
  limit : C ≤ slim
  dilation : 0 < psi ∨ 0 < psiSoft → compressible ≠ 0
  overstress : nvp ≤ 1.0001
  cohesion : cohSoft = 1 → 1 ≤ |Ce - C|
  friction : phiSoft = 1 → 1 / 10 ≤ |phie - phi|
  dilationDrop : psiSoft = 1 → 1 / 10 ≤ |psie - psi|
  product : reacSoft = 1 → reacPhase < nph
  flow : ∃ n ∈ laws, n ≠ 0
  diagram : dens = 2 → diagram ≠ -1

end Verif.Spec.Units
