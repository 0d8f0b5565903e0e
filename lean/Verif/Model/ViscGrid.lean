import Verif.Model.PointLaw
import Verif.Model.Basic

/-
Viscosity and stress on the grid: `NonNewtonianViscosityGrid` (/repo/MDLIB/RheologyDensity.c:813-1100), on top of the
update of one phase at one node (Model/PointLaw.lean).  Real arithmetic.  The interpolation of temperature, pressure,
grain size and melt fraction to the vertices (832-836) is `GridField.centroidsToVertices`; here the values at the node are given.
Left out: `VE_n` (always zero), the viscosities per phase (`phase_eta_n`, kept for the Jacobian), the fields of the
chemical reaction (`X_n`, `X_s`, `div_u_r`) and the density (`rho_n`, see `kineticDensity`).
-/
namespace Verif.Point
open Verif

/-- The three averages of the viscosity (`eta_average` 0, 1, 2; 900-917).  Any other value leaves the viscosity at zero and is
not modelled. -/
inductive Mean where
  | arithmetic
  | harmonic
  | geometric

/-- What is known at one node: flag of the air, fractions of the phases, elastic modulus and other fields, strain rate,
old stress. -/
structure Node where
  air : Bool
  w : Nat → ℝ
  mu : ℝ
  T : ℝ
  P : ℝ
  d : ℝ
  phi : ℝ
  X : ℝ
  e : Tensor
  old : Tensor
  dil : ℝ
  fric : ℝ
  C : ℝ
  P0 : ℝ
  beta : ℝ

/-- Effective strain rate (878-883, 1018-1023); `el` follows the switch of the user, also in the initialisation step. -/
noncomputable def Node.eff (v : Env) (k : Node) : Tensor :=
  let el : ℝ := if v.elastic then 1 else 0
  let eta_e := if v.elastic then v.dt * k.mu else 1
  ⟨k.e.xx + el * k.old.xx / eta_e / 2, k.e.zz + el * k.old.zz / eta_e / 2, k.e.xz + el * k.old.xz / eta_e / 2⟩

/-- Arguments of the update of a phase (897, 1036). -/
noncomputable def Node.input (v : Env) (k : Node) : In where
  G := k.mu
  T := k.T
  P := k.P
  d := k.d
  phi := k.phi
  X0 := k.X
  E := k.eff v
  old := k.old
  dil := k.dil
  fric := k.fric
  C := k.C
  P0 := k.P0
  beta := k.beta

/-- What is stored at one node.  At vertices only viscosities and stress are stored. -/
structure Stored where
  eta : ℝ
  etaPhys : ℝ
  T : Tensor
  eIIel : ℝ
  eIIpl : ℝ
  eIIcst : ℝ
  eIIpwl : ℝ
  eIIexp : ℝ
  eIIlin : ℝ
  eIIgbs : ℝ
  d : ℝ
  pcorr : ℝ
  divEl : ℝ
  divPl : ℝ
  wTot : ℝ
  wEl : ℝ
  wDiss : ℝ
  overS : ℝ

/-- Values before the loop on phases, and at nodes in the air (848-870, 1006-1011). -/
def Stored.zero : Stored :=
  ⟨0, 0, ⟨0, 0, 0⟩, 0, 0, 0, 0, 0, 0, 0, 0, 0, 0, 0, 0, 0, 0, 0⟩

/-- What is added for the viscosity of a phase (900-917, 1039-1052). -/
noncomputable def Mean.term (a : Mean) (w x : ℝ) : ℝ :=
  match a with
  | .arithmetic => w * x
  | .harmonic => w * 1 / x
  | .geometric => w * Real.log x

/-- Adding one phase (900-953). -/
noncomputable def addPhase (a : Mean) (w : ℝ) (o : Out) (s : Stored) : Stored where
  eta := s.eta + a.term w o.etaVE
  etaPhys := s.etaPhys + a.term w o.eta
  T := s.T
  eIIel := s.eIIel + w * o.eIIel
  eIIpl := s.eIIpl + w * o.eIIpl
  eIIcst := s.eIIcst + w * o.eIIcst
  eIIpwl := s.eIIpwl + w * o.eIIpwl
  eIIexp := s.eIIexp + w * o.eIIexp
  eIIlin := s.eIIlin + w * o.eIIlin
  eIIgbs := s.eIIgbs + w * o.eIIgbs
  d := s.d + w * 1 / o.d1
  pcorr := s.pcorr + w * o.pcorr
  divEl := s.divEl + w * o.divEl
  divPl := s.divPl + w * o.divPl
  wTot := s.wTot + w * o.wTot
  wEl := s.wEl + w * o.wEl
  wDiss := s.wDiss + w * o.wDiss
  overS := s.overS + w * o.overS

/-- Outcome at a node or of the grid: a value, `exit(code)`, or a not-a-number. -/
inductive Outcome (α : Type) where
  | ok (a : α)
  | exit (code : Nat)
  | nan

/-- One turn of the loop on phases (886-954, 1029-1054); fractions up to `1e-13` are skipped. -/
noncomputable def phaseStep (a : Mean) (w : Nat → ℝ) (r : Nat → Res) (s : Outcome Stored) (p : Nat) : Outcome Stored :=
  match s with
  | .ok x =>
    if 1 / 10 ^ 13 < |w p| then
      match r p with
      | .ok o => .ok (addPhase a (w p) o x)
      | .exit c => .exit c
      | .nan => .nan
    else .ok x
  | s => s

/-- From the sum to the viscosity (965-967, 984-987, 1056-1058, 1074-1077). -/
noncomputable def Mean.close (a : Mean) (s : ℝ) : ℝ :=
  match a with
  | .arithmetic => s
  | .harmonic => 1 / s
  | .geometric => Real.exp s

/-- A harmonic sum of zero gives an infinite viscosity, and the program stops (969-983, 1059-1072). -/
def Mean.isHarmonic : Mean → Bool
  | .harmonic => true
  | _ => false

/-- The stress at the node (989-992, 1079-1082). -/
noncomputable def nodeStress (eta : ℝ) (E : Tensor) : Tensor := ⟨2 * eta * E.xx, 2 * eta * E.zz, 2 * eta * E.xz⟩

/-- End of the treatment of a cell (957-992): `exit(345)` if the sum for the grain size is zero, "cell went empty"; `exit(1)` if the
harmonic sum of the dissipative viscosity is zero. -/
noncomputable def closeCell (a : Mean) (E : Tensor) (s : Stored) : Outcome Stored :=
  if s.d = 0 then .exit 345
  else if a.isHarmonic = true ∧ s.etaPhys = 0 then .exit 1
  else .ok { s with d := 1 / s.d, eta := a.close s.eta, etaPhys := a.close s.etaPhys
                    T := nodeStress (a.close s.eta) E }

/-- A cell (842-993): `n` phases, materials `m`, reactions `huet`. -/
noncomputable def cellNode (v : Env) (a : Mean) (n : Nat) (m : Nat → Mat) (huet : Nat → ℝ × ℝ → ℝ × ℝ) (k : Node) :
    Outcome Stored :=
  if k.air then .ok Stored.zero
  else
    match forUp n (.ok Stored.zero) (phaseStep a k.w fun p => update v (m p) (huet p) (k.input v) true) with
    | .ok s => closeCell a (k.eff v) s
    | r => r

/-- End of the treatment of a vertex (1055-1082): only viscosities and stress are stored. -/
noncomputable def closeVertex (a : Mean) (E : Tensor) (s : Stored) : Outcome Stored :=
  if a.isHarmonic = true ∧ s.etaPhys = 0 then .exit 1
  else .ok { Stored.zero with eta := a.close s.eta, etaPhys := a.close s.etaPhys, T := nodeStress (a.close s.eta) E }

/-- A vertex (1001-1084). -/
noncomputable def vertexNode (v : Env) (a : Mean) (n : Nat) (m : Nat → Mat) (huet : Nat → ℝ × ℝ → ℝ × ℝ) (k : Node) :
    Outcome Stored :=
  if k.air then .ok Stored.zero
  else
    match forUp n (.ok Stored.zero) (phaseStep a k.w fun p => update v (m p) (huet p) (k.input v) false) with
    | .ok s => closeVertex a (k.eff v) s
    | r => r

/-- One turn of the loop on nodes (839-994, 1001-1085): the node `c` is computed from its own data and stored at its own
place; the loop ends with the program.  The index is `c = k + l*Ncx` with `k`, `l` from the tables `kp`, `lp`,
that is, the counter itself. -/
def nodeStep (f : Node → Outcome Stored) (nodes : Nat → Node) (s : Outcome (Nat → Stored)) (c : Nat) :
    Outcome (Nat → Stored) :=
  match s with
  | .ok a =>
    match f (nodes c) with
    | .ok x => .ok (upd a c x)
    | .exit code => .exit code
    | .nan => .nan
  | s => s

/-- The loop on the cells or on the vertices (839-994, 1001-1085). -/
def nodeLoop (f : Node → Outcome Stored) (count : Nat) (nodes : Nat → Node) (old : Nat → Stored) :
    Outcome (Nat → Stored) :=
  forUp count (.ok old) (nodeStep f nodes)

/-- Viscosity and stress at cells and vertices (813-1100). -/
noncomputable def viscosityGrid (v : Env) (a : Mean) (n : Nat) (m : Nat → Mat) (huet : Nat → ℝ × ℝ → ℝ × ℝ)
    (ncells nverts : Nat) (cells verts : Nat → Node) (oldC oldV : Nat → Stored) :
    Outcome ((Nat → Stored) × (Nat → Stored)) :=
  match nodeLoop (cellNode v a n m huet) ncells cells oldC with
  | .ok c =>
    match nodeLoop (vertexNode v a n m huet) nverts verts oldV with
    | .ok s => .ok (c, s)
    | .exit code => .exit code
    | .nan => .nan
  | .exit code => .exit code
  | .nan => .nan

end Verif.Point
