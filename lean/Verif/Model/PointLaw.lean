import Verif.Model.LocalIter
import Verif.Model.Rheology
import Verif.Model.FlowLaws
import Mathlib.Analysis.SpecialFunctions.Trigonometric.Basic

/-
The stress update of one phase at one node: `ViscosityConcise` (/repo/MDLIB/RheologyDensity.c:360-807), put together
from the local iterations (Model/LocalIter.lean), the return mapping (Model/Rheology.lean) and the flow laws
(Model/FlowLaws.lean).  Real arithmetic.  Phases with evolving grain size (`gs != 0`, 537-547, 571-582, 613-614)
are not modelled here.  The density returned (680-706) is `kineticDensity`; it does not act on the rest.
-/
namespace Verif.Point
open Verif

/-- Components `xx`, `zz`, `xz` of a symmetric tensor without trace; `yy = -(xx + zz)`. -/
@[ext] structure Tensor where
  xx : ℝ
  zz : ℝ
  xz : ℝ

/-- Second invariant (RheologyDensity.c:430-431, 744). -/
noncomputable def invariant (e : Tensor) : ℝ :=
  let yy := -(e.xx + e.zz)
  Real.sqrt (1 / 2 * (e.xx * e.xx + e.zz * e.zz + yy * yy) + e.xz * e.xz)

/-- Settings of the model and scales used by the update; `avg` is `diffuse_avg`, `mixing` is `diffuse_X`
(403-411), `tol` is `eta_tol`. -/
structure Env where
  elastic : Bool
  step0 : Bool
  dt : ℝ
  minEta : ℝ
  maxEta : ℝ
  tol : ℝ
  R : ℝ
  mixing : Bool
  avg : Int
  sE : ℝ
  sS : ℝ
  sT : ℝ
  sL : ℝ
  sEta : ℝ

/-- Parameters of one material (`materials->...[phase]`); a mechanism is on when its number is not zero
(444-452).  `mixWith` is the viscosity of `phase_two` when `phase_mix` is 1. -/
structure Mat where
  cst : Bool
  pwl : Bool
  exp : Bool
  lin : Bool
  gbs : Bool
  plast : Bool
  eta0 : ℝ
  mixWith : Option ℝ
  pre : ℝ
  pwlLaw : Flow.Law
  linLaw : Flow.Law
  gbsLaw : Flow.Law
  expLaw : Flow.Peierls
  slim : ℝ
  etaVp : ℝ
  nVp : ℝ
  gsRef : ℝ

/-- State of the node: shear modulus, temperature, pressure, grain size, melt fraction, composition, effective strain
rate, old stress, dilation angle, friction angle, cohesion, old pressure, compressibility (360). -/
structure In where
  G : ℝ
  T : ℝ
  P : ℝ
  d : ℝ
  phi : ℝ
  X0 : ℝ
  E : Tensor
  old : Tensor
  dil : ℝ
  fric : ℝ
  C : ℝ
  P0 : ℝ
  beta : ℝ

/-- What the update returns: dissipative viscosity (return value), effective viscosity `etaVE`, stress, strain rates of the
mechanisms, grain size, overstress, corrected pressure, elastic and plastic divergence, works. -/
structure Out where
  eta : ℝ
  etaVE : ℝ
  T : Tensor
  eIIel : ℝ
  eIIpl : ℝ
  eIIcst : ℝ
  eIIpwl : ℝ
  eIIexp : ℝ
  eIIlin : ℝ
  eIIgbs : ℝ
  d1 : ℝ
  overS : ℝ
  pcorr : ℝ
  divEl : ℝ
  divPl : ℝ
  wTot : ℝ
  wEl : ℝ
  wDiss : ℝ

/-- How the update ends: with a result, with `exit(code)`, or with a not-a-number. -/
inductive Res where
  | ok (o : Out)
  | exit (code : Nat)
  | nan

/-- Elasticity is off in the initialisation (455). -/
def Env.el (v : Env) : Bool := v.elastic && !v.step0

/-- Time step of the update (370-371). -/
noncomputable def Env.dtEff (v : Env) : ℝ := if v.step0 then 10 ^ 100 else v.dt

/-- Shear modulus, dilation angle and bulk modulus after the "visco-plastic limit" (397, 465). -/
noncomputable def moduli (v : Env) (i : In) : ℝ × ℝ × ℝ :=
  if v.el then (i.G, i.dil, 1 / i.beta) else (10, 0, 10 ^ 10)

/-- Temperature after the cut-off at zero Celsius (468). -/
noncomputable def clampT (v : Env) (T : ℝ) : ℝ := if T < 27315 / 100 / v.sT then 27315 / 100 / v.sT else T

/-- Strain rate invariant with its floor (431-432). -/
noncomputable def rate (v : Env) (e : Tensor) : ℝ :=
  if invariant e * v.sE < 1 / 10 ^ 30 then 1 / 10 ^ 30 / v.sE else invariant e

/-- Constant viscosity, possibly of a mixture (531-534). -/
noncomputable def constantViscosity (v : Env) (m : Mat) (X0 : ℝ) : ℝ :=
  match (if v.mixing then m.mixWith else none) with
  | none => m.eta0
  | some e2 =>
    if v.avg = 0 then X0 * m.eta0 + (1 - X0) * e2
    else if v.avg = 1 then (X0 / m.eta0 + (1 - X0) / e2)⁻¹
    else if v.avg = 2 then Real.exp (X0 * Real.log m.eta0 + (1 - X0) * Real.log e2)
    else m.eta0

/-- Prefactor of a power law (474, 482, 486). -/
noncomputable def prefactor (v : Env) (pre T P d phi : ℝ) (l : Flow.Law) : ℝ :=
  Dens.pureB pre l.F v.R T P l.V d l.m l.f l.r l.a phi ⟨l.n, l.A, l.Q⟩

/-- Exponent and prefactor of the Peierls law (489-493). -/
noncomputable def peierls (v : Env) (T : ℝ) (l : Flow.Peierls) : ℝ × ℝ :=
  let ST := l.Q / v.R / T * 2 * l.G * (1 - l.G)
  let arr := Real.exp (-l.Q / v.R / T * (1 - l.G) ^ 2)
  let N := ST + l.n
  (Flow.peierlsF N * ((l.G * l.S) ^ (ST / N) / (l.E * arr) ^ (1 / N)), N)

/-- The mechanisms active at the node (444-495, 530-551).  The Peierls law is only used below 1200 degrees
Celsius, tested before the cut-off at zero (447, 468); in the prefactor of diffusion creep the grain size is left
out (482) and enters at 549.  `huet` replaces prefactor and exponent of dislocation creep where a reaction
produces a second material (517-520), and is the identity elsewhere. -/
noncomputable def creep (v : Env) (m : Mat) (huet : ℝ × ℝ → ℝ × ℝ) (i : In) : LocalIter.Creep :=
  let T := clampT v i.T
  { el := if v.el then some ((moduli v i).1 * v.dtEff) else none
    cst := if m.cst then some (constantViscosity v m i.X0) else none
    pwl := if m.pwl then some (huet (prefactor v m.pre T i.P i.d i.phi m.pwlLaw, m.pwlLaw.n)) else none
    exp := if m.exp ∧ i.T < (1200 + 27315 / 100) / v.sT then some (peierls v T m.expLaw) else none
    lin := if m.lin then
        some (prefactor v 1 T i.P 1 i.phi m.linLaw, m.linLaw.n, m.linLaw.m) else none
    gbs := if m.gbs then some (prefactor v 1 T i.P i.d i.phi m.gbsLaw, m.gbsLaw.n) else none
    d := i.d }

/-- Strain rate of a power law at stress `t` (LocalIterationViscoElastic, 93-97; the prefactor of grain boundary
sliding is zero, see `LocalIter.rates`). -/
noncomputable def powerRate (o : Option (ℝ × ℝ)) (t : ℝ) : ℝ :=
  match o with
  | none => 0
  | some q => LocalIter.pref q.1 q.2 * t ^ q.2

/-- Strain rate of diffusion creep (96). -/
noncomputable def linRate (c : LocalIter.Creep) (t : ℝ) : ℝ :=
  match c.lin with
  | none => 0
  | some q => LocalIter.pref q.1 q.2.1 * t ^ q.2.1 * c.d ^ (-q.2.2)

/-- Strain rate of constant viscosity (92). -/
noncomputable def cstRate (c : LocalIter.Creep) (t : ℝ) : ℝ :=
  match c.cst with
  | none => 0
  | some e => t / 2 / e

/-- Viscosity of a power law at its own strain rate (731, 734). -/
noncomputable def powerInv (o : Option (ℝ × ℝ)) (e : ℝ) : ℝ :=
  match o with
  | none => 0
  | some q => 1 / (q.1 * e ^ (1 / q.2 - 1))

/-- Inverse viscosity of diffusion creep at its own strain rate and the grain size `d1`, which is the reference grain
size of the material (458, 732), not that of the node. -/
noncomputable def linInv (c : LocalIter.Creep) (d1 lin : ℝ) : ℝ :=
  match c.lin with
  | none => 0
  | some q => 1 / (q.1 * lin ^ (1 / q.2.1 - 1) * d1 ^ (q.2.2 / q.2.1))

/-- Inverse of the constant viscosity (757). -/
noncomputable def cstInv (c : LocalIter.Creep) : ℝ :=
  match c.cst with
  | none => 0
  | some e => 1 / e

/-- Sum of the inverse viscosities of the dissipative mechanisms (731-758); `pl` is the plastic viscosity.  Grain
boundary sliding is left out. -/
noncomputable def inverse (c : LocalIter.Creep) (d1 exp pwl lin : ℝ) (pl : Option ℝ) : ℝ :=
  powerInv c.exp exp + powerInv c.pwl pwl + linInv c d1 lin + cstInv c + pl.elim 0 (fun e => 1 / e)

/-- Arguments of the return mapping (617-660). -/
noncomputable def retPar (v : Env) (m : Mat) (i : In) (etaVe tii : ℝ) : Rheo.RetPar ℝ where
  tii := tii
  etaVe := etaVe
  etaVp0 := m.etaVp
  pw := fun x => x ^ (1 / m.nVp - 1)
  nvp := m.nVp
  P := i.P
  kdt := (moduli v i).2.2 * v.dtEff
  sinf := Real.sin i.fric
  sind := Real.sin (moduli v i).2.1
  tol := v.tol

/-- Strength (501-510). -/
noncomputable def strength (m : Mat) (i : In) : ℝ :=
  Rheo.yieldStress i.C (Real.cos i.fric) (Real.sin i.fric) i.P m.slim

/-- Plastic correction, if the material is plastic (624-677). -/
noncomputable def yielding (v : Env) (m : Mat) (i : In) (E etaVe tii : ℝ) : Rheo.Plastic ℝ :=
  if m.plast then
    Rheo.plastic (retPar v m i etaVe tii) (E ^ (1 / m.nVp - 1)) (1 / 10 ^ 17) (10 ^ 5 / v.sS) (strength m i)
  else { tii := tii, pc := i.P, gdot := 0, etaVp := m.etaVp, active := false }

/-- Plastic divergence of the last pass of the return mapping, from the pressure it gives, `Pc = P + K dt divp`
(646-647); the restart in tension (664-671) does not change it. -/
noncomputable def plasticDivergence (v : Env) (m : Mat) (i : In) (E etaVe tii : ℝ) : ℝ :=
  let q := retPar v m i etaVe tii
  if m.plast = true ∧ 1 / 10 ^ 17 < tii - strength m i then
    ((forUp 20 (Rheo.retInit q (E ^ (1 / m.nVp - 1)) (strength m i))
        (fun s _ => Rheo.retStep q (tii - strength m i) s)).pc - i.P) / q.kdt
  else 0

/-- Effective viscosity after the plastic correction (708-716). -/
noncomputable def effViscosity (pl : Rheo.Plastic ℝ) (E etaVe : ℝ) : ℝ :=
  if pl.active then pl.tii / (2 * E) else etaVe

/-- Inverse of the dissipative viscosity of all mechanisms (731-758); the plastic viscosity is `Tii/gdot` (715). -/
noncomputable def dissInverse (m : Mat) (c : LocalIter.Creep) (pl : Rheo.Plastic ℝ) (tii : ℝ) : ℝ :=
  inverse c m.gsRef (powerRate c.exp tii) (powerRate c.pwl tii) (linRate c tii)
    (if pl.active then some (pl.tii / pl.gdot) else none)

/-- The part after the local iterations (624-806), from the viscosity `etaVe` and the stress `tii` they return.
`cell` is `centroid == 1`; `post_process` is 1.  With no dissipative mechanism the viscosity is infinite and is
brought to the upper limit. -/
noncomputable def finish (v : Env) (m : Mat) (c : LocalIter.Creep) (i : In) (cell : Bool) (E etaVe tii : ℝ) : Res :=
  let pl := yielding v m i E etaVe tii
  let etaVE := effViscosity pl E etaVe
  let T : Tensor := ⟨2 * etaVE * i.E.xx, 2 * etaVE * i.E.zz, 2 * etaVE * i.E.xz⟩
  let cst := cstRate c tii
  let pwl := powerRate c.pwl tii
  let exp := powerRate c.exp tii
  let lin := linRate c tii
  let etaEl := (moduli v i).1 * v.dtEff
  let kdt := (moduli v i).2.2 * v.dtEff
  let inv := dissInverse m c pl tii
  let eta := if inv = 0 then v.maxEta else Rheo.limiter v.minEta v.maxEta (1 / inv)
  let wDiss := pl.tii * pl.tii * inv
  if pl.active = true ∧ pl.tii = 0 then .nan
  else if cell = true ∧ wDiss < 0 then .exit 1
  else .ok
    { eta := eta
      etaVE := Rheo.limiter v.minEta v.maxEta etaVE
      T := T
      eIIel := if v.el then
          invariant ⟨(T.xx - i.old.xx) / 2 / etaEl, (T.zz - i.old.zz) / 2 / etaEl, (T.xz - i.old.xz) / 2 / etaEl⟩
        else 0
      eIIpl := if pl.active then pl.gdot / 2 else 0
      eIIcst := cst
      eIIpwl := pwl
      eIIexp := exp
      eIIlin := lin
      eIIgbs := 0
      d1 := m.gsRef
      overS := pl.etaVp * pl.gdot
      pcorr := pl.pc
      divEl := -(pl.pc - i.P0) / kdt
      divPl := plasticDivergence v m i E etaVe tii
      wTot := if cell then pl.tii * pl.tii / etaVe else 0
      wEl := if cell then pl.tii * pl.tii / etaEl else 0
      wDiss := if cell then wDiss else 0 }

/-- Time scale of the reaction kinetics (691-699): `dG` is the affinity looked up at the old temperature and
pressure, `tau` the time scale of the material. -/
noncomputable def kineticTime (kin : Int) (tau k S Q R T dG : ℝ) : ℝ :=
  if kin = 9 then
    (if 0 < dG then
      Real.log (1 - 6666666 / 10000000) * (-2 * S * (k * T * (Real.exp (-Q / R / T) * (1 - Real.exp (-dG / R / T)))))⁻¹
     else 0)
  else tau

/-- Density with kinetics (688-705): `rho0`, `rhoEq` are the equilibrium densities at old and new pressure and
temperature. -/
noncomputable def kineticDensity (kin : Int) (tau dt rho0 rhoEq : ℝ) : ℝ :=
  if kin = 9 ∨ kin = 1 then 1 / (tau + dt) * (tau * rho0 + dt * rhoEq) else rhoEq

/-- `ViscosityConcise` for a phase of constant grain size (360-807): `exit(1)` for diffusion creep with a grain
size of zero (478-481), `exit(0)` when the local iterations fail (106-108). -/
noncomputable def update (v : Env) (m : Mat) (huet : ℝ × ℝ → ℝ × ℝ) (i : In) (cell : Bool) : Res :=
  if m.lin = true ∧ 0 < m.linLaw.m ∧ i.d < 1 / 10 ^ 13 / v.sL then .exit 1
  else
    let c := creep v m huet i
    let E := rate v i.E
    match LocalIter.run c E (1 / 10 ^ 11) (10 ^ 100 / v.sEta) with
    | .failed => .exit 0
    | .zeroSlope => .nan
    | .ok etaVe tii => finish v m c i cell E etaVe tii

end Verif.Point
