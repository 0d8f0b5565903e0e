import Verif.Model.Numbering
import Verif.Model.Assembly
import Mathlib.Algebra.Order.Field.Basic

/-
Implicit heat equation, `EnergyDirectSolve` (/repo/MDLIB/ThermalRoutines.c:72-494), the thermal part of
`SetBCs` (/repo/MDLIB/Setup.c:627-697) and `ChemicalDirectSolve` (/repo/MDLIB/ChemicalRoutines.c:72-406),
whose assembly is the same.  Cartesian coordinates only (`polar == 0`).
-/
namespace Verif.Heat
open Verif

variable {K : Type*} [Field K] [LinearOrder K]

/-- Inputs of the assembly.  `tt` is `BCt.type` (cells), `te`/`ve` are `BCT_exp.type`/`.val` (cells with one
ring of ghosts), `cap` is `rho_n*Cp` (one for the chemical solver), `mink` the smallest entry of `kx`
(ThermalRoutines.c:103; uninitialised in the chemical solver). -/
structure Par (K : Type*) where
  ncx : Nat
  ncz : Nat
  dx : K
  dz : K
  dt : K
  tt : Nat → Int
  te : Nat → Int
  ve : Nat → K
  kx : Nat → K
  kz : Nat → K
  cap : Nat → K
  mink : K

/-- `c2` (ThermalRoutines.c:188). -/
def Par.cell (p : Par K) (k l : Nat) : Nat := k + l * p.ncx
/-- `c0`, index in the extended arrays (ThermalRoutines.c:186). -/
def Par.ext (p : Par K) (k l : Nat) : Nat := (k + 1) + (l + 1) * (p.ncx + 2)
/-- `AW`, `AE` (ThermalRoutines.c:187, 198-199; `nx = ncx+1`). -/
def Par.AW (p : Par K) (k l : Nat) : K := p.kx (k + (l + 1) * (p.ncx + 1))
def Par.AE (p : Par K) (k l : Nat) : K := p.kx (k + (l + 1) * (p.ncx + 1) + 1)
/-- `AS`, `AN` (ThermalRoutines.c:189, 200-201; `nxvz = ncx+2`). -/
def Par.AS (p : Par K) (k l : Nat) : K := p.kz (k + l * (p.ncx + 2) + 1)
def Par.AN (p : Par K) (k l : Nat) : K := p.kz (k + l * (p.ncx + 2) + 1 + (p.ncx + 2))
/-- `one_dx_dx`, `one_dz_dz` (ThermalRoutines.c:92-93). -/
def Par.odx (p : Par K) : K := 1 / p.dx / p.dx
def Par.odz (p : Par K) : K := 1 / p.dz / p.dz

/-- `ks` (ThermalRoutines.c:229-233). -/
def Par.ks (p : Par K) (k l : Nat) : K :=
  let s := 1 / 4 * (p.AE k l + p.AW k l + p.AN k l + p.AS k l)
  if s < p.mink then p.mink else s

/-- `EvalNumEqTemp` (ThermalRoutines.c:39-55): equation numbers and number of equations. -/
def Par.num (p : Par K) : NumSt :=
  forGrid p.ncx p.ncz { eqn := fun _ => 0, inc := 0 } (numBody (fun t => t != 30) p.tt)

/-- Side inside the box (ThermalRoutines.c:236-290): neighbour `nb` (extended index), conductivity `a`,
`od` the inverse squared spacing; updates of `val` and `bbc[eqn]`. -/
def side (p : Par K) (k l nb : Nat) (a od : K) (s : K × K) : K × K :=
  if p.te nb ≠ 30 then (s.1 + a * od, s.2)
  else if p.te (p.ext k l) = 1 then
    (s.1 + 2 * p.ks k l * od, s.2 + 2 * p.ks k l * od * p.ve (p.ext k l))
  else s

/-- Prescribed temperature on a side of the box (ThermalRoutines.c:294-317): ghost node `g`. -/
def dirichlet (p : Par K) (g : Nat) (a od : K) (s : K × K) : K × K :=
  if p.te g = 1 then (s.1 + 2 * a * od, s.2 + 2 * a * od * p.ve g) else s

/-- Centre coefficient and boundary contribution `bbc[eqn]` of a cell (ThermalRoutines.c:226-317). -/
def centre (p : Par K) (k l : Nat) : K × K :=
  let c0 := p.ext k l
  let w := p.ncx + 2
  let s : K × K := (p.cap (p.cell k l) / p.dt, 0)
  let s := if 0 < l then side p k l (c0 - w) (p.AS k l) p.odz s else s
  let s := if 0 < k ∨ (k = 0 ∧ p.te (c0 - 1) = -2) then side p k l (c0 - 1) (p.AW k l) p.odx s else s
  let s := if k + 1 < p.ncx ∨ (k + 1 = p.ncx ∧ p.te (c0 + 1) = -2) then
    side p k l (c0 + 1) (p.AE k l) p.odx s else s
  let s := if l + 1 < p.ncz then side p k l (c0 + w) (p.AN k l) p.odz s else s
  let s := if l = 0 then dirichlet p (c0 - w) (p.AS k l) p.odz s else s
  let s := if l = 0 ∧ p.te (c0 - w) = 0 then (s.1, s.2 + -1 / p.dx * p.ve (c0 - w)) else s
  let s := if k = 0 then dirichlet p (c0 - 1) (p.AW k l) p.odx s else s
  let s := if k + 1 = p.ncx then dirichlet p (c0 + 1) (p.AE k l) p.odx s else s
  if l + 1 = p.ncz then dirichlet p (c0 + w) (p.AN k l) p.odz s else s

/-- One matrix row in the order of the `AddCoeffThermal` calls (ThermalRoutines.c:203-374); the first component
is the cell whose equation number becomes the column. -/
def row (p : Par K) (k l : Nat) : List (Nat × K) :=
  let c0 := p.ext k l
  let c2 := p.cell k l
  let w := p.ncx + 2
  (if 0 < l ∧ p.te (c0 - w) ≠ 30 then [(c2 - p.ncx, -1 * p.AS k l * p.odz)] else []) ++
  (if p.te (c0 + 1) = -2 ∧ k + 1 = p.ncx then [(c2 - (p.ncx - 1), -1 * p.AE k l * p.odx)] else []) ++
  (if 0 < k ∧ p.te (c0 - 1) ≠ 30 then [(c2 - 1, -1 * p.AW k l * p.odx)] else []) ++
  [(c2, (centre p k l).1)] ++
  (if k + 1 < p.ncx ∧ p.te (c0 + 1) ≠ 30 then [(c2 + 1, -1 * p.AE k l * p.odx)] else []) ++
  (if p.te (c0 - 1) = -2 ∧ k = 0 then [(c2 + (p.ncx - 1), -1 * p.AW k l * p.odx)] else []) ++
  (if l + 1 < p.ncz ∧ p.te (c0 + w) ≠ 30 then [(c2 + p.ncx, -1 * p.AN k l * p.odz)] else [])

/-- Cells for which a row is made (ThermalRoutines.c:191). -/
def Par.active (p : Par K) (c : Nat) : Bool := p.te (p.ext (c % p.ncx) (c / p.ncx)) != 30

/-- The compressed matrix (ThermalRoutines.c:183-380): loop over the cells, then `Ic[neq] = nnzc`.  `junk`
holds the content of the fresh arrays `J`, `A` (`Ic` is zeroed). -/
def matrix (p : Par K) (junk : ThBuf K) : ThBuf K :=
  let s := forUp (p.ncx * p.ncz) { junk with I := fun _ => 0, nnz := 0 }
    (assembleRow p.active (fun c => (p.num.eqn c).toNat)
      fun c => (row p (c % p.ncx) (c / p.ncx)).map fun e => (p.num.eqn e.1, e.2))
  { s with I := upd s.I p.num.inc s.nnz }

/-- Heat sources per unit volume (ThermalRoutines.c:155-167): radiogenic, dissipation (`shear_heating == 1`),
adiabatic (`adiab_heating` 1 or 2; the two formulas are the parameters `ha1`, `ha2`). -/
structure Src (K : Type*) where
  Qr : Nat → K
  Wdiss : Nat → K
  shear : Int
  adiab : Int
  ha1 : (Nat → K) → Nat → K
  ha2 : (Nat → K) → Nat → K

def Src.at (s : Src K) (T : Nat → K) (c : Nat) : K :=
  let b := 1 * s.Qr c
  let b := if s.shear = 1 then b + s.Wdiss c else b
  let ha := if s.adiab = 2 then s.ha2 T c else if s.adiab = 1 then s.ha1 T c else 0
  if 0 < s.adiab then b + ha else b

/-- Right-hand side at equation `e` (ThermalRoutines.c:141-169, 401): the cell with that number writes
`rho*Cp*T/dt` plus sources, then `bbc` is added.  Written per cell. -/
def rhs (p : Par K) (src : Src K) (T : Nat → K) (c : Nat) : K :=
  (p.cap c * T c / p.dt + src.at T c) + (centre p (c % p.ncx) (c / p.ncx)).2

/-- Extraction of the temperature (ThermalRoutines.c:412-431); `none` is `exit(1)` for a negative temperature.
`air` is `zeroC/scaling.T`. -/
def extract (p : Par K) (x : Nat → K) (air : K) (T : Nat → K) : Option (Nat → K) :=
  if (List.range (p.ncx * p.ncz)).all fun c => !p.active c || decide (0 ≤ x (p.num.eqn c).toNat) then
    some fun c => if c < p.ncx * p.ncz then (if p.active c then x (p.num.eqn c).toNat else air) else T c
  else none

/-! ### Chemical diffusion -/

/-- Cells for which `ChemicalDirectSolve` makes a row: it tests the cell array (ChemicalRoutines.c:165), where
`EnergyDirectSolve` tests the extended one. -/
def Par.activeChem (p : Par K) (c : Nat) : Bool := p.tt c != 30

/-- The chemical diffusion matrix (ChemicalRoutines.c:156-373): same stencil, with `cap = 1`, `kc_x`, `kc_z`,
`BCC_exp`, `BCc`. -/
def matrixChem (p : Par K) (junk : ThBuf K) : ThBuf K :=
  let s := forUp (p.ncx * p.ncz) { junk with I := fun _ => 0, nnz := 0 }
    (assembleRow p.activeChem (fun c => (p.num.eqn c).toNat)
      fun c => (row p (c % p.ncx) (c / p.ncx)).map fun e => (p.num.eqn e.1, e.2))
  { s with I := upd s.I p.num.inc s.nnz }

/-- Right-hand side of the chemical solve (ChemicalRoutines.c:132-147, 399). -/
def rhsChem (p : Par K) (X : Nat → K) (c : Nat) : K :=
  1 * X c / p.dt + (centre p (c % p.ncx) (c / p.ncx)).2

/-! ### Boundary tags -/

/-- Boundary sides handed to the user callback. -/
inductive Pos where
  | W | E | S | N | freeSurface

/-- One cell of the thermal loop of `SetBCs` (Setup.c:627-697): `cb pos k l` is the type and value the callback returns.
State: `BCT_exp.type`, `.val`. -/
def setBCT1 (ncx ncz : Nat) (tt : Nat → Int) (cb : Pos → Nat → Nat → Int × K)
    (s : (Nat → Int) × (Nat → K)) (k l : Nat) : (Nat → Int) × (Nat → K) :=
  let c := k + l * ncx
  let c1 := (k + 1) + (l + 1) * (ncx + 2)
  let set (pos : Pos) (i : Nat) (s : (Nat → Int) × (Nat → K)) : (Nat → Int) × (Nat → K) :=
    (upd s.1 i (cb pos k l).1, upd s.2 i (cb pos k l).2)
  let s := (upd s.1 c1 (tt c), s.2)
  if tt c ≠ 30 then
    let s := if k = 0 then set .W (c1 - 1) s else s
    let s := if k + 1 = ncx then set .E (c1 + 1) s else s
    let s := if l = 0 then set .S (c1 - (ncx + 2)) s else s
    let s := if l + 1 = ncz then set .N (c1 + (ncx + 2)) s else s
    if l + 1 < ncz ∧ (tt c = -1 ∨ tt c = 1 ∨ tt c = 0) ∧ tt (c + ncx) = 30 then set .freeSurface c1 s else s
  else s

/-- The thermal loop of `SetBCs` (Setup.c:627-697), with a callback present. -/
def setBCT (ncx ncz : Nat) (tt : Nat → Int) (cb : Pos → Nat → Nat → Int × K)
    (s : (Nat → Int) × (Nat → K)) : (Nat → Int) × (Nat → K) :=
  forUp ncz s fun s l => forUp ncx s fun s k => setBCT1 ncx ncz tt cb s k l

end Verif.Heat
