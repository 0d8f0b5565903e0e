import Verif.Model.Basic
import Mathlib.Algebra.Order.Field.Basic

/-
Finite-difference rows of the Stokes operator (Picard, isotropic routines):
/repo/MDLIB/StokesAssemblyDecoupled.c  AddCoeff3 44-54, Xmomentum_InnerNodesDecoupled 60-210,
Zmomentum_InnerNodesDecoupled 560-723, Continuity_InnerNodesDecoupled 1088-1143, and
/repo/MDLIB/RheologyDensity.c  StrainRateComponents 1661-1757.

Arrays are functions on `Int`, so that what the C code reads outside an array is simply an
arbitrary value of the function.
-/
namespace Verif

variable {K : Type*}

/-- The parts of `grid` and `params` read by the Stokes stencils (include/mdoodz.h). -/
structure SMesh (K : Type*) where
  Nx : Nat
  Nz : Nat
  dx : K
  dz : K
  /-- BCu.type, BCv.type, BCp.type, BCg.type -/
  tu : Int → Int
  tv : Int → Int
  tp : Int → Int
  tg : Int → Int
  /-- BCu.val, BCv.val, BCp.val -/
  bu : Int → K
  bv : Int → K
  bp : Int → K
  /-- D11_n, D22_n, D33_s -/
  D11 : Int → K
  D22 : Int → K
  D33 : Int → K
  /-- rho_n, gx, gz -/
  rho : Int → K
  gx : Int → K
  gz : Int → K
  /-- model.out_of_plane, model.compressible, free_surface_stab > 0 -/
  oop : Bool
  comp : Bool
  stab : Bool
  /-- free_surface_stab, dt -/
  theta : K
  dt : K

/-- Node of a stencil; indices are C `int` expressions. -/
inductive SNode where
  | u (i : Int)
  | v (i : Int)
  | p (i : Int)
deriving DecidableEq

/-- Tag of a stencil node. -/
def SMesh.tag (m : SMesh K) : SNode → Int
  | .u i => m.tu i
  | .v i => m.tv i
  | .p i => m.tp i

/-- Boundary value stored for a stencil node. -/
def SMesh.val (m : SMesh K) : SNode → K
  | .u i => m.bu i
  | .v i => m.bv i
  | .p i => m.bp i

/-- The tags whose contribution goes to the right-hand side, StokesAssemblyDecoupled.c:46. -/
def prescribed (t : Int) : Bool := t == 0 || t == 31 || t == 11 || t == 13

section
variable [Field K]

/-- C `double` flag set to 0 or 1 by an `if`. -/
def flag (b : Bool) : K := if b then 1 else 0

/-- State of one matrix row under construction: appended (column, coefficient) pairs and the
row's accumulated right-hand side `RHS[eqn]`. -/
structure RowSt (K : Type*) where
  entries : List (Int × K)
  rhs : K

/-- `AddCoeff3`, StokesAssemblyDecoupled.c:44-54. `eqn` gives the column number of a node. -/
def addCoeff3 (m : SMesh K) (eqn : SNode → Int) (s : RowSt K) (e : SNode × K) : RowSt K :=
  if prescribed (m.tag e.1) then { s with rhs := s.rhs - e.2 * m.val e.1 }
  else { s with entries := s.entries ++ [(eqn e.1, e.2)] }

/-- A row: successive `AddCoeff3` calls; `bbc` starts at zero (AllocMat uses calloc,
SparseTools.c). -/
def buildRow (m : SMesh K) (eqn : SNode → Int) (st : List (SNode × K)) : RowSt K :=
  st.foldl (addCoeff3 m eqn) ⟨[], 0⟩

/-- Guarded call `if (Set) AddCoeff3(...)`, e.g. StokesAssemblyDecoupled.c:162-174. -/
def guarded (b : Bool) (n : SNode) (a : K) : List (SNode × K) := if b then [(n, a)] else []

/-! ### x-momentum -/

/-- Inputs of the x-momentum coefficient formulas. -/
structure XIn (K : Type*) where
  dx : K
  dz : K
  D11W : K
  D11E : K
  D33N : K
  D33S : K
  inW : K
  inE : K
  inS : K
  inN : K
  RegS : K
  RegN : K
  DirS : K
  DirN : K
  DirSW : K
  DirNW : K
  DirSE : K
  DirNE : K
  SW : K
  SE : K
  OOP : K
  comp : K

/-- The eleven coefficients of an x-momentum row. -/
structure XCoef (K : Type*) where
  uW : K
  uC : K
  uE : K
  uS : K
  uN : K
  vSW : K
  vSE : K
  vNW : K
  vNE : K
  pW : K
  pE : K

/-- Coefficient formulas, StokesAssemblyDecoupled.c:124-134, transcribed literally
(`SW` = SxxBCW, `SE` = SxxBCE). -/
def xCoef (i : XIn K) : XCoef K where
  uW := (1/3)*i.D11W*i.inW*(1 - i.SW)*(i.OOP*i.comp*i.inW - 3)/i.dx^2
  uC := -(1/6)*(i.SE*(2*i.D11W*i.dz^2*i.inW*(i.OOP*i.comp*i.inW - 3) - 3*i.dx^2*(i.D33N*i.inN*(2*i.DirN + i.RegN) + i.D33S*i.inS*(2*i.DirS + i.RegS))) + i.SW*(2*i.D11E*i.dz^2*i.inE*(i.OOP*i.comp*i.inE - 3) - 3*i.dx^2*(i.D33N*i.inN*(2*i.DirN + i.RegN) + i.D33S*i.inS*(2*i.DirS + i.RegS))) + 2*(3*i.dx^2*(i.D33N*i.inN*(2*i.DirN + i.RegN) + i.D33S*i.inS*(2*i.DirS + i.RegS)) - i.dz^2*(i.D11E*i.inE*(i.OOP*i.comp*i.inE - 3) + i.D11W*i.inW*(i.OOP*i.comp*i.inW - 3)))*(i.SE + i.SW - 1))/(i.dx^2*i.dz^2)
  uE := (1/3)*i.D11E*i.inE*(1 - i.SE)*(i.OOP*i.comp*i.inE - 3)/i.dx^2
  uS := (1/2)*i.D33S*i.RegS*i.inS*(i.SE + i.SW - 2)/i.dz^2
  uN := (1/2)*i.D33N*i.RegN*i.inN*(i.SE + i.SW - 2)/i.dz^2
  vSW := (1/6)*(-3*i.D33S*i.SW*i.inS*(2*i.DirSE*i.SE - i.SE - i.SW + 1) + i.SE*(2*i.D11W*i.OOP*i.comp*i.inW^2 - 3*i.D33S*i.inS*(2*i.DirSE*i.SE - i.SE - i.SW + 1)) - 2*(i.D11W*i.OOP*i.comp*i.inW^2 - 3*i.D33S*i.inS*(2*i.DirSE*i.SE - i.SE - i.SW + 1))*(i.SE + i.SW - 1))/(i.dx*i.dz)
  vSE := (1/6)*(3*i.D33S*i.SE*i.inS*(2*i.DirSW*i.SW - i.SE - i.SW + 1) - i.SW*(2*i.D11E*i.OOP*i.comp*i.inE^2 - 3*i.D33S*i.inS*(2*i.DirSW*i.SW - i.SE - i.SW + 1)) + 2*(i.D11E*i.OOP*i.comp*i.inE^2 - 3*i.D33S*i.inS*(2*i.DirSW*i.SW - i.SE - i.SW + 1))*(i.SE + i.SW - 1))/(i.dx*i.dz)
  vNW := (1/6)*(3*i.D33N*i.SW*i.inN*(2*i.DirNE*i.SE - i.SE - i.SW + 1) - i.SE*(2*i.D11W*i.OOP*i.comp*i.inW^2 - 3*i.D33N*i.inN*(2*i.DirNE*i.SE - i.SE - i.SW + 1)) + 2*(i.D11W*i.OOP*i.comp*i.inW^2 - 3*i.D33N*i.inN*(2*i.DirNE*i.SE - i.SE - i.SW + 1))*(i.SE + i.SW - 1))/(i.dx*i.dz)
  vNE := (1/6)*(-3*i.D33N*i.SE*i.inN*(2*i.DirNW*i.SW - i.SE - i.SW + 1) + i.SW*(2*i.D11E*i.OOP*i.comp*i.inE^2 - 3*i.D33N*i.inN*(2*i.DirNW*i.SW - i.SE - i.SW + 1)) - 2*(i.D11E*i.OOP*i.comp*i.inE^2 - 3*i.D33N*i.inN*(2*i.DirNW*i.SW - i.SE - i.SW + 1))*(i.SE + i.SW - 1))/(i.dx*i.dz)
  pW := (i.SW - 1)/i.dx
  pE := (1 - i.SE)/i.dx

/-- Stencil indices of an x-momentum row, StokesAssemblyDecoupled.c:73-98, with
`c1 = k + l*nx`, `c2 = k-1 + (l-1)*ncx`, `c3 = k + l*nxvz` (1407-1408). -/
structure XIdx where
  C : Int
  W : Int
  E : Int
  S : Int
  N : Int
  vSW : Int
  vSE : Int
  vNW : Int
  vNE : Int
  pW : Int
  pE : Int
  gN : Int
  gS : Int

/-- StokesAssemblyDecoupled.c:73-98 (periodic re-direction 93-98). -/
def xIdx (m : SMesh K) (k l : Int) : XIdx :=
  let nx : Int := m.Nx
  let nxvz := nx + 1
  let ncx := nx - 1
  let c1 := k + l * nx
  let c2 := k - 1 + (l - 1) * ncx
  let c3 := k + l * nxvz
  let per := m.tu c1 == -2
  { C := c1
    W := if per then c1 + nx - 2 else c1 - 1
    E := c1 + 1
    S := c1 - nx
    N := c1 + nx
    vSW := if per then c3 - 2 else c3 - nxvz
    vSE := c3 - nxvz + 1
    vNW := if per then c3 + nxvz - 2 else c3
    vNE := c3 + 1
    pW := if per then c2 + ncx else c2
    pE := c2 + 1
    gN := c1
    gS := c1 - nx }

/-- Flags and material coefficients of an x-momentum row, StokesAssemblyDecoupled.c:64-121. -/
def xIn (m : SMesh K) (k l : Int) : XIn K :=
  let nx : Int := m.Nx
  let nxvz := nx + 1
  let c1 := k + l * nx
  let c3 := k + l * nxvz
  let i := xIdx m k l
  { dx := m.dx
    dz := m.dz
    D11W := m.D11 i.pW
    D11E := m.D11 i.pE
    D33N := m.D33 i.gN
    D33S := m.D33 i.gS
    inW := flag (m.tp i.pW == -1)
    inE := flag (m.tp i.pE == -1)
    inS := flag (m.tg i.gS != 30)
    inN := flag (m.tg i.gN != 30)
    RegS := flag (m.tu i.S != 13 && m.tu i.S != 11)
    RegN := flag (m.tu i.N != 13 && m.tu i.N != 11)
    DirS := flag (m.tu i.S == 11)
    DirN := flag (m.tu i.N == 11)
    DirSW := flag (m.tv (c3 - nxvz) == 11)
    DirNW := flag (m.tv c3 == 11)
    DirSE := flag (m.tv (c3 - nxvz + 1) == 11)
    DirNE := flag (m.tv (c3 + 1) == 11)
    SW := flag (k == 0 && m.tu c1 == 2)
    SE := flag (k == nx - 1 && m.tu c1 == 2)
    OOP := if m.oop then 3/2 else 1
    comp := flag m.comp }

variable [LinearOrder K]

/-- Free-surface stabilisation added to the diagonal of an x-row,
StokesAssemblyDecoupled.c:137-143. -/
def xCorr (m : SMesh K) (k l : Int) (uC : K) : K :=
  let nx : Int := m.Nx
  let c2 := k - 1 + (l - 1) * (nx - 1)
  if m.stab then
    let drhodx := (m.rho (c2 + 1) - m.rho c2) * (1 / m.dx)
    let c := m.theta * m.dt * m.gx (k + l * nx) * drhodx
    if uC + c < 0 then 0 else c
  else 0

/-- Velocity part of the x-momentum row at column `k`, row `l`:
StokesAssemblyDecoupled.c:145-174 (block A). -/
def xStencil (m : SMesh K) (k l : Int) : List (SNode × K) :=
  let nx : Int := m.Nx
  let i := xIdx m k l
  let a := xCoef (xIn m k l)
  let vol := m.dx * m.dz
  let per := m.tu i.C == -2
  let west := decide (k > 0) || per
  let east := decide (k < nx - 1) || per
  guarded (m.tu i.S != 30) (.u i.S) (a.uS * vol) ++
  guarded (m.tu i.W != 30 && west) (.u i.W) (a.uW * vol) ++
  guarded (m.tu i.C != 30) (.u i.C) ((a.uC + xCorr m k l a.uC) * vol) ++
  guarded (m.tu i.E != 30 && east) (.u i.E) (a.uE * vol) ++
  guarded (m.tu i.N != 30) (.u i.N) (a.uN * vol) ++
  guarded (m.tv i.vSW != 30 && west) (.v i.vSW) (a.vSW * vol) ++
  guarded (m.tv i.vSE != 30 && east) (.v i.vSE) (a.vSE * vol) ++
  guarded (m.tv i.vNW != 30 && west) (.v i.vNW) (a.vNW * vol) ++
  guarded (m.tv i.vNE != 30 && east) (.v i.vNE) (a.vNE * vol)

/-- Pressure part of the x-momentum row (block B), StokesAssemblyDecoupled.c:177-178. -/
def xStencilP (m : SMesh K) (k l : Int) : List (SNode × K) :=
  let nx : Int := m.Nx
  let i := xIdx m k l
  let a := xCoef (xIn m k l)
  let vol := m.dx * m.dz
  let per := m.tu i.C == -2
  let west := decide (k > 0) || per
  let east := decide (k < nx - 1) || per
  guarded (m.tp i.pW != 30 && west) (.p i.pW) (a.pW * vol) ++
  guarded (m.tp i.pE != 30 && east) (.p i.pE) (a.pE * vol)

/-- Residual of the x-momentum row, StokesAssemblyDecoupled.c:181-206. `sxxd`, `sxz`, `pc` are the
stress and corrected pressure arrays, `b` the body force, `u` the velocity. -/
def xResidual (m : SMesh K) (sxxd sxz pc : Int → K) (b : K) (u : Int → K) (k l : Int) : K :=
  let i := xIdx m k l
  let q := xIn m k l
  let corr := xCorr m k l (xCoef q).uC
  let FReg := (sxxd i.pE - sxxd i.pW) / m.dx - (pc i.pE - pc i.pW) / m.dx +
    (sxz i.gN - sxz i.gS) / m.dz
  let SE1 := sxxd i.pE - pc i.pE
  let FW := ((SE1 - (2 * m.bu i.C - SE1)) / m.dx + (sxz i.gN - sxz i.gS) / m.dz) * (1/2)
  let SW2 := sxxd i.pW - pc i.pW
  let FE := (((2 * m.bu i.C - SW2) - SW2) / m.dx + (sxz i.gN - sxz i.gS) / m.dz) * (1/2)
  ((1 - q.SE - q.SW) * FReg + q.SW * FW + q.SE * FE + (b - corr * u i.C)) *
    -(m.dx * m.dz)

/-! ### z-momentum -/

/-- Inputs of the z-momentum coefficient formulas. -/
structure ZIn (K : Type*) where
  dx : K
  dz : K
  D22S : K
  D22N : K
  D33E : K
  D33W : K
  inW : K
  inE : K
  RegW : K
  RegE : K
  DirW : K
  DirE : K
  DirSW : K
  DirNW : K
  DirSE : K
  DirNE : K
  SS : K
  SN : K
  OOP : K
  comp : K

/-- The eleven coefficients of a z-momentum row. -/
structure ZCoef (K : Type*) where
  vW : K
  vC : K
  vE : K
  vS : K
  vN : K
  uSW : K
  uSE : K
  uNW : K
  uNE : K
  pS : K
  pN : K

/-- Coefficient formulas, StokesAssemblyDecoupled.c:624-634, transcribed literally
(`SS` = SzzBCS, `SN` = SzzBCN). -/
def zCoef (i : ZIn K) : ZCoef K where
  vW := (1/2)*i.D33W*i.RegW*i.inW*(i.SN + i.SS - 2)/i.dx^2
  vC := (1/6)*(-i.SN*(2*i.D22S*i.dx^2*(i.OOP*i.comp - 3) - 3*i.dz^2*(i.D33E*i.inE*(2*i.DirE + i.RegE) + i.D33W*i.inW*(2*i.DirW + i.RegW))) - i.SS*(2*i.D22N*i.dx^2*(i.OOP*i.comp - 3) - 3*i.dz^2*(i.D33E*i.inE*(2*i.DirE + i.RegE) + i.D33W*i.inW*(2*i.DirW + i.RegW))) + 2*(i.dx^2*(i.D22N + i.D22S)*(i.OOP*i.comp - 3) - 3*i.dz^2*(i.D33E*i.inE*(2*i.DirE + i.RegE) + i.D33W*i.inW*(2*i.DirW + i.RegW)))*(i.SN + i.SS - 1))/(i.dx^2*i.dz^2)
  vE := (1/2)*i.D33E*i.RegE*i.inE*(i.SN + i.SS - 2)/i.dx^2
  vS := (1/3)*i.D22S*(1 - i.SS)*(i.OOP*i.comp - 3)/i.dz^2
  vN := (1/3)*i.D22N*(1 - i.SN)*(i.OOP*i.comp - 3)/i.dz^2
  uSW := (1/6)*(-3*i.D33W*i.SS*i.inW*(2*i.DirNW*i.SN - i.SN - i.SS + 1) + i.SN*(2*i.D22S*i.OOP*i.comp - 3*i.D33W*i.inW*(2*i.DirNW*i.SN - i.SN - i.SS + 1)) - 2*(i.D22S*i.OOP*i.comp - 3*i.D33W*i.inW*(2*i.DirNW*i.SN - i.SN - i.SS + 1))*(i.SN + i.SS - 1))/(i.dx*i.dz)
  uSE := (1/6)*(3*i.D33E*i.SS*i.inE*(2*i.DirNE*i.SN - i.SN - i.SS + 1) - i.SN*(2*i.D22S*i.OOP*i.comp - 3*i.D33E*i.inE*(2*i.DirNE*i.SN - i.SN - i.SS + 1)) + 2*(i.D22S*i.OOP*i.comp - 3*i.D33E*i.inE*(2*i.DirNE*i.SN - i.SN - i.SS + 1))*(i.SN + i.SS - 1))/(i.dx*i.dz)
  uNW := (1/6)*(3*i.D33W*i.SN*i.inW*(2*i.DirSW*i.SS - i.SN - i.SS + 1) - i.SS*(2*i.D22N*i.OOP*i.comp - 3*i.D33W*i.inW*(2*i.DirSW*i.SS - i.SN - i.SS + 1)) + 2*(i.D22N*i.OOP*i.comp - 3*i.D33W*i.inW*(2*i.DirSW*i.SS - i.SN - i.SS + 1))*(i.SN + i.SS - 1))/(i.dx*i.dz)
  uNE := (1/6)*(-3*i.D33E*i.SN*i.inE*(2*i.DirSE*i.SS - i.SN - i.SS + 1) + i.SS*(2*i.D22N*i.OOP*i.comp - 3*i.D33E*i.inE*(2*i.DirSE*i.SS - i.SN - i.SS + 1)) - 2*(i.D22N*i.OOP*i.comp - 3*i.D33E*i.inE*(2*i.DirSE*i.SS - i.SN - i.SS + 1))*(i.SN + i.SS - 1))/(i.dx*i.dz)
  pS := (i.SS - 1)/i.dz
  pN := (1 - i.SN)/i.dz

/-- Stencil indices of a z-momentum row, StokesAssemblyDecoupled.c:573-593. -/
structure ZIdx where
  C : Int
  W : Int
  E : Int
  S : Int
  N : Int
  uSW : Int
  uSE : Int
  uNW : Int
  uNE : Int
  pS : Int
  pN : Int
  gE : Int
  gW : Int

/-- StokesAssemblyDecoupled.c:573-593 with `c1 = k + l*nx`, `c2 = k-1 + (l-1)*ncx` (1472-1473). -/
def zIdx (m : SMesh K) (k l : Int) : ZIdx :=
  let nx : Int := m.Nx
  let nxvz := nx + 1
  let ncx := nx - 1
  let c1 := k + l * nx
  let c2 := k - 1 + (l - 1) * ncx
  let c3 := k + l * nxvz
  { C := c3
    W := if m.tv (c3 - 1) == -12 && k == 1 then c3 + nxvz - 3 else c3 - 1
    E := if m.tv (c3 + 1) == -12 && k == nxvz - 2 then c3 - nxvz + 3 else c3 + 1
    S := c3 - nxvz
    N := c3 + nxvz
    uSW := c1 - 1
    uSE := c1
    uNW := c1 + nx - 1
    uNE := c1 + nx
    pS := c2
    pN := c2 + ncx
    gE := c1
    gW := c1 - 1 }

/-- Flags and material coefficients of a z-momentum row, StokesAssemblyDecoupled.c:564-621. -/
def zIn (m : SMesh K) (k l : Int) : ZIn K :=
  let nx : Int := m.Nx
  let nz : Int := m.Nz
  let c1 := k + l * nx
  let i := zIdx m k l
  { dx := m.dx
    dz := m.dz
    D22S := m.D22 i.pS
    D22N := m.D22 i.pN
    D33E := m.D33 i.gE
    D33W := m.D33 i.gW
    inW := flag (m.tg i.gW != 30)
    inE := flag (m.tg i.gE != 30)
    RegW := flag (m.tv i.W != 13 && m.tv i.W != 11)
    RegE := flag (m.tv i.E != 13 && m.tv i.E != 11)
    DirW := flag (m.tv i.W == 11)
    DirE := flag (m.tv i.E == 11)
    DirSW := flag (m.tu (c1 - 1) == 11)
    DirNW := flag (m.tu (c1 + nx - 1) == 11)
    DirSE := flag (m.tu c1 == 11)
    DirNE := flag (m.tu (c1 + nx) == 11)
    SS := flag (l == 0 && m.tv i.C == 2)
    SN := flag (l == nz - 1 && m.tv i.C == 2)
    OOP := if m.oop then 3/2 else 1
    comp := flag m.comp }

/-- Free-surface stabilisation of a z-row, StokesAssemblyDecoupled.c:644-650. -/
def zCorr (m : SMesh K) (k l : Int) (a : ZCoef K) : K :=
  let nx : Int := m.Nx
  let ncx := nx - 1
  let c2 := k - 1 + (l - 1) * ncx
  if m.stab then
    let drhodz := (m.rho (c2 + ncx) - m.rho c2) * (1 / m.dz)
    let c := m.theta * m.dt * m.gz (k + l * (nx + 1)) * drhodz
    if a.vC + c < 0 ∨ a.vC + c < a.vW ∨ a.vC + c < a.vE then 0 else c
  else 0

/-- Velocity part of the z-momentum row (block A), StokesAssemblyDecoupled.c:652-681. -/
def zStencil (m : SMesh K) (k l : Int) : List (SNode × K) :=
  let nz : Int := m.Nz
  let i := zIdx m k l
  let a := zCoef (zIn m k l)
  let vol := m.dx * m.dz
  let south := decide (l > 0)
  let north := decide (l < nz - 1)
  guarded (m.tu i.uSW != 30 && south) (.u i.uSW) (a.uSW * vol) ++
  guarded (m.tu i.uSE != 30 && south) (.u i.uSE) (a.uSE * vol) ++
  guarded (m.tu i.uNW != 30 && north) (.u i.uNW) (a.uNW * vol) ++
  guarded (m.tu i.uNE != 30 && north) (.u i.uNE) (a.uNE * vol) ++
  guarded (m.tv i.S != 30 && south) (.v i.S) (a.vS * vol) ++
  guarded (m.tv i.W != 30) (.v i.W) (a.vW * vol) ++
  guarded (m.tv i.C != 30) (.v i.C) ((a.vC + zCorr m k l a) * vol) ++
  guarded (m.tv i.E != 30) (.v i.E) (a.vE * vol) ++
  guarded (m.tv i.N != 30 && north) (.v i.N) (a.vN * vol)

/-- Pressure part of the z-momentum row (block B), StokesAssemblyDecoupled.c:684-685. -/
def zStencilP (m : SMesh K) (k l : Int) : List (SNode × K) :=
  let nz : Int := m.Nz
  let i := zIdx m k l
  let a := zCoef (zIn m k l)
  let vol := m.dx * m.dz
  guarded (m.tp i.pS != 30 && decide (l > 0)) (.p i.pS) (a.pS * vol) ++
  guarded (m.tp i.pN != 30 && decide (l < nz - 1)) (.p i.pN) (a.pN * vol)

/-- Residual of the z-momentum row, StokesAssemblyDecoupled.c:689-713. -/
def zResidual (m : SMesh K) (szzd sxz pc : Int → K) (b : K) (v : Int → K) (k l : Int) : K :=
  let i := zIdx m k l
  let q := zIn m k l
  let corr := zCorr m k l (zCoef q)
  let FReg := (szzd i.pN - szzd i.pS) / m.dz - (pc i.pN - pc i.pS) / m.dz +
    (sxz i.gE - sxz i.gW) / m.dx
  let SN1 := szzd i.pN - pc i.pN
  let FS := ((SN1 - (2 * m.bv i.C - SN1)) / m.dz + (sxz i.gE - sxz i.gW) / m.dx) * (1/2)
  let SS2 := szzd i.pS - pc i.pS
  let FN := (((2 * m.bv i.C - SS2) - SS2) / m.dz + (sxz i.gE - sxz i.gW) / m.dx) * (1/2)
  ((1 - q.SS - q.SN) * FReg + q.SS * FS + q.SN * FN + (b - corr * v i.C)) * -(m.dx * m.dz)

omit [LinearOrder K]

/-! ### continuity -/

/-- Continuity row (block C) of cell column `k`, row `l`: StokesAssemblyDecoupled.c:1110-1124, with
`c1 = k + (l+1)*nx`, `c3 = k + l*nxvz + 1` (1533-1534). -/
def cStencil (m : SMesh K) (k l : Int) : List (SNode × K) :=
  let nx : Int := m.Nx
  let nxvz := nx + 1
  let c1 := k + (l + 1) * nx
  let c3 := k + l * nxvz + 1
  let oopf : K := if m.oop then 3/2 else 1
  let vol := m.dx * m.dz
  guarded (m.tu c1 != 13) (.u c1) (-(1 / m.dx) * oopf * vol) ++
  guarded (m.tu (c1 + 1) != 13) (.u (c1 + 1)) ((1 / m.dx) * oopf * vol) ++
  guarded (m.tv c3 != 13) (.v c3) (-(1 / m.dz) * oopf * vol) ++
  guarded (m.tv (c3 + nxvz) != 13) (.v (c3 + nxvz)) ((1 / m.dz) * oopf * vol)

/-! ### strain rates -/

/-- Column and row of a flattened index on a grid with `n` columns (GridRoutines.c:541-584). -/
def colOf (n : Int) (c : Int) : Int := c % n
def rowOf (n : Int) (c : Int) : Int := c / n

/-- div_u, RheologyDensity.c:1680-1697. -/
def divU (m : SMesh K) (u v : Int → K) (c : Int) : K :=
  let nx : Int := m.Nx
  let k := colOf (nx - 1) c
  let l := rowOf (nx - 1) c
  let c1 := k + l * nx
  let c2 := k + l * (nx + 1)
  if m.tp c ≠ 30 ∧ m.tp c ≠ 31 then
    let dvxdx := (u (c1 + 1 + nx) - u (c1 + nx)) / m.dx
    let dvzdz := (v (c2 + nx + 1 + 1) - v (c2 + 1)) / m.dz
    let dvydy := flag m.oop * (1/2) * (dvxdx + dvzdz)
    dvxdx + dvzdz + dvydy
  else 0

/-- exxd, RheologyDensity.c:1692-1700. -/
def exxd (m : SMesh K) (u v : Int → K) (c : Int) : K :=
  let nx : Int := m.Nx
  let k := colOf (nx - 1) c
  let l := rowOf (nx - 1) c
  let c1 := k + l * nx
  if m.tp c ≠ 30 ∧ m.tp c ≠ 31 then
    (u (c1 + 1 + nx) - u (c1 + nx)) / m.dx - flag m.comp * 1 / 3 * divU m u v c
  else 0

/-- ezzd, RheologyDensity.c:1692-1701. -/
def ezzd (m : SMesh K) (u v : Int → K) (c : Int) : K :=
  let nx : Int := m.Nx
  let k := colOf (nx - 1) c
  let l := rowOf (nx - 1) c
  let c2 := k + l * (nx + 1)
  if m.tp c ≠ 30 ∧ m.tp c ≠ 31 then
    (v (c2 + nx + 1 + 1) - v (c2 + 1)) / m.dz - flag m.comp * 1 / 3 * divU m u v c
  else 0

/-- exz at a vertex, RheologyDensity.c:1706-1725. -/
def exz (m : SMesh K) (u v : Int → K) (c : Int) : K :=
  let nx : Int := m.Nx
  let k := colOf nx c
  let l := rowOf nx c
  let c1 := k + l * nx
  let c2 := k + l * (nx + 1)
  if m.tg c1 ≠ 30 then
    (1/2) * ((u (c1 + nx) - u c1) / m.dz + (v (c2 + 1) - v c2) / m.dx)
  else 0

end
end Verif
