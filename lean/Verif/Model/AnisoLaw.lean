import Verif.Model.ViscGrid
import Verif.Model.Anisotropy

/-
Anisotropic materials: the stress update of one phase, `ViscosityConciseAniso` (/repo/MDLIB/AnisotropyRoutines.c:80-345), the grid
of viscosities and stresses, `NonNewtonianViscosityGridAniso` (483-813), the anisotropy factor, `UpdateAnisoFactor`
(351-477), and the compressibility along a run (/repo/MDLIB/Main_DOODZ.c:332, 514).  Real arithmetic; `nan` stands for any value
that is not finite.
-/
namespace Verif.Point
open Verif

/-- Tensor as the triple used in Model/Anisotropy.lean. -/
def Tensor.triple (e : Tensor) : ℝ × ℝ × ℝ := (e.xx, e.zz, e.xz)
/-- See `Tensor.triple`. -/
def ofTriple (t : ℝ × ℝ × ℝ) : Tensor := ⟨t.1, t.2.1, t.2.2⟩

/-- The mechanisms active at the node (113-153, 183-189): no mixture of constant viscosities, no reaction, no grain
boundary sliding.  The grain size is left out of the prefactor of diffusion creep (138) and enters at 188. -/
noncomputable def creepAniso (v : Env) (m : Mat) (i : In) : LocalIter.Creep :=
  let T := clampT v i.T
  { el := if v.el then some (i.G * v.dt) else none
    cst := if m.cst then some m.eta0 else none
    pwl := if m.pwl then some (prefactor v m.pre T i.P i.d i.phi m.pwlLaw, m.pwlLaw.n) else none
    exp := if m.exp ∧ i.T < (1200 + 27315 / 100) / v.sT then some (peierls v T m.expLaw) else none
    lin := if m.lin then
        some (prefactor v 1 T i.P 1 i.phi m.linLaw, m.linLaw.n, m.linLaw.m) else none
    gbs := none
    d := i.d }

/-- How the iterations end. -/
inductive IterOut where
  | ok (eta tii : ℝ)
  | exit (code : Nat)
  | nan

/-- The visco-elastic iterations with `n` passes left (218-249).  The viscosity is updated before the test, so that the
one returned is a step ahead of the stress.  A strain rate of zero or a derivative of zero gives a viscosity that is not finite; in the
next pass the residual is not a number and the program ends with `exit(1)` (228). -/
noncomputable def iterAniso (c : LocalIter.Creep) (E tol : ℝ) : Nat → ℝ → ℝ → IterOut
  | 0, eta, tii => .ok eta tii
  | n + 1, eta, _ =>
    let r := LocalIter.residual c E eta
    let slope := LocalIter.slope c E eta
    if E = 0 ∨ slope = 0 then (if n = 0 then .nan else .exit 1)
    else if |r / E| < tol / 100 then .ok (eta - r / slope) (2 * eta * E)
    else if n = 0 ∧ tol < |r / E| then .exit 0
    else iterAniso c E tol n (eta - r / slope) (2 * eta * E)

/-- Initial guess (199-210) and iterations. -/
noncomputable def runAniso (c : LocalIter.Creep) (E tol huge : ℝ) : IterOut :=
  iterAniso c E tol 20 (LocalIter.guess c E huge) (2 * LocalIter.guess c E huge * E)

/-- Strain rate in the axes of the layers, for layers at `angle - 90` degrees (172-177, 556-559). -/
noncomputable def layerRate (angle : ℝ) (e : Tensor) : Tensor :=
  ofTriple (Aniso.rotate (Aniso.layerOf angle).1 (Aniso.layerOf angle).2 e.triple)

/-- Stress for an effective viscosity (255-258, 286-289, 295-298). -/
noncomputable def layerStress (angle eta ani : ℝ) (e : Tensor) : Tensor :=
  ofTriple (Aniso.localStress (Aniso.layerOf angle).1 (Aniso.layerOf angle).2 eta ani e.triple)

/-- Sine of the dilation angle, zero without elasticity (121). -/
noncomputable def sinDil (v : Env) (i : In) : ℝ := if v.el then Real.sin i.dil else 0

/-- Strength (157-170). -/
noncomputable def strengthAniso (m : Mat) (i : In) : ℝ :=
  if m.slim < i.C * Real.cos i.fric + i.P * Real.sin i.fric then m.slim
  else i.C * Real.cos i.fric + i.P * Real.sin i.fric

/-- The material yields (263, 271). -/
def Yields (m : Mat) (i : In) (tii : ℝ) : Prop := m.plast = true ∧ 1 / 10 ^ 17 < tii - strengthAniso m i

/-- Denominator of the plastic rate (158, 275); the bulk modulus is `1/beta`, also where compressibility is zero. -/
noncomputable def plasticDenom (v : Env) (m : Mat) (i : In) (etaVe : ℝ) : ℝ :=
  etaVe + m.etaVp + 1 / i.beta * v.dt * sinDil v i * Real.sin i.fric

open Classical in
/-- Plastic rate (265, 275). -/
noncomputable def plasticRate (v : Env) (m : Mat) (i : In) (etaVe tii : ℝ) : ℝ :=
  if Yields m i tii then (tii - strengthAniso m i) / plasticDenom v m i etaVe else 0

open Classical in
/-- The part after the iterations (254-344).  An infinite bulk modulus makes the corrected pressure, and without dilation also
the viscosity, not a number (158, 275-277).  With no dissipative mechanism the viscosity returned is infinite (329). -/
noncomputable def finishAniso (v : Env) (m : Mat) (c : LocalIter.Creep) (i : In) (angle ani : ℝ) (cell : Bool)
    (E etaVe tii : ℝ) : Res :=
  let g := plasticRate v m i etaVe tii
  let kdt := 1 / i.beta * v.dt
  let tiic := tii - g * etaVe
  let pc := i.P + kdt * sinDil v i * g
  let etaVep := if Yields m i tii then tiic / 2 / E else etaVe
  let etaEl := if v.el then i.G * v.dt else 10 ^ 20
  let inv := inverse c i.d (powerRate c.exp tii) (powerRate c.pwl tii) (linRate c tii)
    (if Yields m i tii then some (tiic / g) else none)
  if Yields m i tii ∧ (i.beta = 0 ∨ plasticDenom v m i etaVe = 0 ∨ tiic = 0) then .nan
  else if inv = 0 then .nan
  else .ok
    { eta := 1 / inv
      etaVE := etaVep
      T := layerStress angle etaVep ani i.E
      eIIel := if v.el then tiic * tiic / (4 * etaEl * etaEl) else 0
      eIIpl := g / 2
      eIIcst := cstRate c tii
      eIIpwl := powerRate c.pwl tii
      eIIexp := powerRate c.exp tii
      eIIlin := linRate c tii
      eIIgbs := 0
      d1 := i.d
      overS := m.etaVp * g
      pcorr := pc
      divEl := -(pc - i.P0) / kdt
      divPl := g * sinDil v i
      wTot := if cell then tiic * tiic / etaVe else 0
      wEl := if cell then tiic * tiic / etaEl else 0
      wDiss := if cell then tiic * tiic * inv else 0 }

/-- `ViscosityConciseAniso` (80-345), with `post_process == 1`. -/
noncomputable def updateAniso (v : Env) (m : Mat) (i : In) (angle ani : ℝ) (cell : Bool) : Res :=
  if m.lin = true ∧ 0 < m.linLaw.m ∧ i.d < 1 / 10 ^ 13 / v.sL then .exit 1
  else
    let c := creepAniso v m i
    let E := invariant (layerRate angle i.E)
    match runAniso c E (1 / 10 ^ 11) (10 ^ 100 / v.sEta) with
    | .exit code => .exit code
    | .nan => .nan
    | .ok etaVe tii => finishAniso v m c i angle ani cell E etaVe tii

/-- A node of the anisotropic grid: `angle`, director functions `d1`, `d2`, anisotropy factor `ani` (553-574, 710-720). -/
structure ANode extends Node where
  angle : ℝ
  d1 : ℝ
  d2 : ℝ
  ani : ℝ

/-- Effective strain rate (550-574, 707-721). -/
noncomputable def ANode.eff (v : Env) (k : ANode) : Tensor :=
  if v.elastic then ofTriple (Rheo.effective k.e.triple k.old.triple k.d1 k.d2 (1 - 1 / k.ani) (v.dt * k.mu)) else k.e

/-- Arguments of the update of a phase (585, 743). -/
noncomputable def ANode.input (v : Env) (k : ANode) : In := { k.toNode.input v with E := k.eff v }

/-- Final stress (677-684, 802-809). -/
noncomputable def ANode.stress (k : ANode) (eta : ℝ) (E : Tensor) : Tensor :=
  ofTriple (Aniso.gridStress k.d1 k.d2 eta k.ani E.triple)

/-- End of the treatment of a cell (639-684): without any phase the grain size is infinite and the program goes on; `exit(1)` where the
harmonic sum of the dissipative viscosity is zero. -/
noncomputable def ANode.closeCell (a : Mean) (k : ANode) (E : Tensor) (s : Stored) : Outcome Stored :=
  if a.isHarmonic = true ∧ s.etaPhys = 0 then .exit 1
  else if s.d = 0 then .nan
  else .ok { s with d := 1 / s.d, eta := a.close s.eta, etaPhys := a.close s.etaPhys, T := k.stress (a.close s.eta) E }

/-- A cell (509-685). -/
noncomputable def ANode.cell (v : Env) (a : Mean) (n : Nat) (m : Nat → Mat) (k : ANode) : Outcome Stored :=
  if k.air then .ok Stored.zero
  else
    match forUp n (.ok Stored.zero) (phaseStep a k.w fun p => updateAniso v (m p) (k.input v) k.angle k.ani true) with
    | .ok s => k.closeCell a (k.eff v) s
    | r => r

/-- End of the treatment of a vertex (776-809). -/
noncomputable def ANode.closeVertex (a : Mean) (k : ANode) (E : Tensor) (s : Stored) : Outcome Stored :=
  if a.isHarmonic = true ∧ s.etaPhys = 0 then .exit 1
  else .ok { Stored.zero with eta := a.close s.eta, etaPhys := a.close s.etaPhys, T := k.stress (a.close s.eta) E }

/-- A vertex (690-811). -/
noncomputable def ANode.vertex (v : Env) (a : Mean) (n : Nat) (m : Nat → Mat) (k : ANode) : Outcome Stored :=
  if k.air then .ok Stored.zero
  else
    match forUp n (.ok Stored.zero) (phaseStep a k.w fun p => updateAniso v (m p) (k.input v) k.angle k.ani false) with
    | .ok s => k.closeVertex a (k.eff v) s
    | r => r

/-- Density at a cell after the loop on phases, for `density_variations = 1` (542-544, 632-635): the density of a phase is
set to zero at 107 and never again. -/
noncomputable def ANode.density (n : Nat) (w : Nat → ℝ) : ℝ :=
  forUp n 0 fun s p => if 1 / 10 ^ 13 < |w p| then s + w p * 0 else s

/-! ### Anisotropy factor -/

/-- What a phase adds (380-391, 430-441): `strainDep` is `ani_fstrain` (any value but 0 and 1 adds nothing), `factor`
that of the input file, `amax` the largest one, `ar` the aspect ratio of finite strain. -/
noncomputable def factorTerm (a : Mean) (strainDep : Int) (w factor amax ar : ℝ) : ℝ :=
  (if strainDep = 0 then a.term w factor else 0)
  + (if strainDep = 1 then a.term w (Aniso.factorFromStrain ar amax) else 0)

/-- Factor at a cell or vertex (366-408, 419-458): zero in the air, `exit(1)` where the sum is zero. -/
noncomputable def factorAt (a : Mean) (n : Nat) (air : Bool) (w : Nat → ℝ) (strainDep : Nat → Int) (factor amax : Nat → ℝ)
    (ar : ℝ) : Outcome ℝ :=
  if air then .ok 0
  else
    let s := forUp n 0 fun s p => s + factorTerm a (strainDep p) (w p) (factor p) (amax p) ar
    if s = 0 then .exit 1 else .ok (a.close s)

/-- Periodic sides (466-475): both ends of each row of vertices get their mean; `Nx` vertices in a row. -/
noncomputable def factorPeriodic (Nx Nz : Nat) (f : Nat → ℝ) : Nat → ℝ :=
  forUp Nz f fun f l =>
    let av := 1 / 2 * (f (l * Nx + (Nx - 1)) + f (l * Nx))
    upd (upd f (l * Nx + (Nx - 1)) av) (l * Nx) av

/-! ### Compressibility and expansivity along a run -/

/-- Compressibility of a cell of rock (RheologyDensity.c:1299-1352): harmonic mean, `average = 1`. -/
noncomputable def cellBeta (n : Nat) (w beta : Nat → ℝ) : ℝ := 1 / forUp n 0 fun s p => s + w p * 1 / beta p

/-- Thermal expansivity of a cell of rock (RheologyDensity.c:1344). -/
def cellAlpha (n : Nat) (w alpha : Nat → ℝ) : ℝ := forUp n 0 fun s p => s + w p * alpha p

/-- A field made by `ShearModCompExpGrid` in time step `k` of a run, `now k` being the value made from the fractions of that step:
made before the first step of a new run (Main_DOODZ.c:332), in every step inside the block for `elastic == 1` (502-515), and zero from
the allocation at a restart (MemoryAllocFree.c:515-516, Main_DOODZ.c:402-408: the field is not in the breakpoint). -/
def fieldAt (elastic restart : Bool) (now : Nat → ℝ) : Nat → ℝ
  | 0 => if restart then 0 else now 0
  | k + 1 => if elastic then now (k + 1) else fieldAt elastic restart now k

end Verif.Point
