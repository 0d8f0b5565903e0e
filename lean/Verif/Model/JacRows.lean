import Verif.Model.Stencil

/-
Rows of the momentum equations in the Newton linearisation (/repo/MDLIB/StokesAssemblyDecoupled.c
Xjacobian_InnerNodesDecoupled3 217-555, Zjacobian_InnerNodesDecoupled3 730-1082, and the loops of
BuildJacobianOperatorDecoupled 1803-2150 that call them).
-/
namespace Verif

variable {K : Type*}

/-- The mesh of `SMesh` with the other tangent operators (`D12_n`, `D13_n`, `D14_n`, `D21_n`, `D23_n`, `D24_n`
in cells, `D31_s`, `D32_s`, `D34_s` at vertices; include/mdoodz-private.h) and `model.periodic_x`. -/
structure JMesh (K : Type*) extends SMesh K where
  (D12 D13 D14 D21 D23 D24 D31 D32 D34 : Int → K)
  per : Bool

section
variable [Field K]

/-- Inputs of the coefficient formulas of an x-row (StokesAssemblyDecoupled.c:217-377). -/
structure XJIn (K : Type*) where
  (D11E D11W D12E D12W D13E D13W D14E D14W D31N D31S D32N D32S D33N D33S D34N D34S OOP comp dx : K)
  (dz inE inN inNEE inNEc inNEv inNWW inNWc inNWv inNv inS inSEE inSEc inSEv inSWW inSWc inSWv : K)
  (inSv inW wN wS : K)

/-- Coefficients of an x-row. -/
structure XJCoef (K : Type*) where
  (uW uC uE uS uN vSW vSE vNW vNE uSW uSE uNW uNE vSWW vSEE vNWW vNEE vSSW vSSE vNNW vNNE pW pE : K)
  (pSW pSE pNW pNE : K)

/-- Coefficient formulas of an x-row, StokesAssemblyDecoupled.c:379-405, transcribed literally (`OOP` =
`out_of_plane`, `1/dx` = `one_dx`). -/
def xjCoef (i : XJIn K) : XJCoef K where
  uW := (1/3)*(-(3/4)*i.D13W*i.dx*(i.inN*i.inNWv - i.inS*i.inSWv) + i.dx*i.inW*(-i.D31N*i.wN*(i.comp*i.OOP - 3) + i.D31S*i.wS*(i.comp*i.OOP - 3) - i.D32N*i.comp*i.OOP*i.wN + i.D32S*i.comp*i.OOP*i.wS) + i.dz*i.inW*(i.D11W*(i.comp*i.OOP - 3) + i.D12W*i.comp*i.OOP))/(i.dx^2*i.dz)
  uC := (1/3)*(i.dx*(3*i.dx*(i.D33N*i.inN^2*i.inNv + i.D33S*i.inS^2*i.inSv) + i.dz*(i.inE - i.inW)*(-i.D31N*i.wN*(i.comp*i.OOP - 3) + i.D31S*i.wS*(i.comp*i.OOP - 3) - i.D32N*i.comp*i.OOP*i.wN + i.D32S*i.comp*i.OOP*i.wS)) - i.dz*((3/4)*i.dx*(-i.D13E + i.D13W)*(i.inN^2*i.inNv - i.inS^2*i.inSv) + i.dz*(i.D11E*i.inE*(i.comp*i.OOP - 3) + i.D11W*i.inW*(i.comp*i.OOP - 3) + i.D12E*i.comp*i.inE*i.OOP + i.D12W*i.comp*i.inW*i.OOP)))/(i.dx^2*i.dz^2)
  uE := (1/3)*((3/4)*i.D13E*i.dx*(i.inN*i.inNEv - i.inS*i.inSEv) + i.dx*i.inE*(i.D31N*i.wN*(i.comp*i.OOP - 3) - i.D31S*i.wS*(i.comp*i.OOP - 3) + i.D32N*i.comp*i.OOP*i.wN - i.D32S*i.comp*i.OOP*i.wS) + i.dz*i.inE*(i.D11E*(i.comp*i.OOP - 3) + i.D12E*i.comp*i.OOP))/(i.dx^2*i.dz)
  uS := (-i.D33S*i.dx*i.inS^2*i.inSv + (1/4)*i.dz*i.inS^2*i.inSv*(i.D13E - i.D13W) + (1/3)*i.dz*i.wS*(i.inSEc - i.inSWc)*(i.D31S*(i.comp*i.OOP - 3) + i.D32S*i.comp*i.OOP))/(i.dx*i.dz^2)
  uN := (-i.D33N*i.dx*i.inN^2*i.inNv + (1/4)*i.dz*i.inN^2*i.inNv*(-i.D13E + i.D13W) - 1/3*i.dz*i.wN*(i.inNEc - i.inNWc)*(i.D31N*(i.comp*i.OOP - 3) + i.D32N*i.comp*i.OOP))/(i.dx*i.dz^2)
  vSW := (1/3)*(-i.dx*(3*i.D33S*i.dz*i.inS*i.inSv + i.dx*(i.D31N*i.comp*i.inW*i.OOP*i.wN + i.D31S*i.comp*i.OOP*i.wS*(i.inSWc - i.inW) + i.D32N*i.inW*i.wN*(i.comp*i.OOP - 3) + i.D32S*i.wS*(i.inSWc - i.inW)*(i.comp*i.OOP - 3))) + i.dz*(i.dx*i.inW*(i.D11W*i.comp*i.OOP + i.D12W*(i.comp*i.OOP - 3)) + (3/4)*i.dz*(i.D13E*i.inS*i.inSv - i.D13W*(i.inS*i.inSv - i.inSWW*i.inSWv))))/(i.dx^2*i.dz^2)
  vSE := (1/3)*(i.dx*(3*i.D33S*i.dz*i.inS*i.inSv + i.dx*(-i.D31N*i.comp*i.inE*i.OOP*i.wN + i.D31S*i.comp*i.OOP*i.wS*(i.inE - i.inSEc) - i.D32N*i.inE*i.wN*(i.comp*i.OOP - 3) + i.D32S*i.wS*(i.inE - i.inSEc)*(i.comp*i.OOP - 3))) - i.dz*(i.dx*i.inE*(i.D11E*i.comp*i.OOP + i.D12E*(i.comp*i.OOP - 3)) + (3/4)*i.dz*(i.D13E*(i.inS*i.inSv - i.inSEE*i.inSEv) - i.D13W*i.inS*i.inSv)))/(i.dx^2*i.dz^2)
  vNW := (1/3)*(i.dx*(3*i.D33N*i.dz*i.inN*i.inNv - i.dx*(i.D31N*i.comp*i.OOP*i.wN*(i.inNWc - i.inW) + i.D31S*i.comp*i.inW*i.OOP*i.wS + i.D32N*i.wN*(i.inNWc - i.inW)*(i.comp*i.OOP - 3) + i.D32S*i.inW*i.wS*(i.comp*i.OOP - 3))) - i.dz*(i.dx*i.inW*(i.D11W*i.comp*i.OOP + i.D12W*(i.comp*i.OOP - 3)) + (3/4)*i.dz*(-i.D13E*i.inN*i.inNv + i.D13W*(i.inN*i.inNv - i.inNWW*i.inNWv))))/(i.dx^2*i.dz^2)
  vNE := (1/3)*(-i.dx*(3*i.D33N*i.dz*i.inN*i.inNv + i.dx*(-i.D31N*i.comp*i.OOP*i.wN*(i.inE - i.inNEc) + i.D31S*i.comp*i.inE*i.OOP*i.wS - i.D32N*i.wN*(i.inE - i.inNEc)*(i.comp*i.OOP - 3) + i.D32S*i.inE*i.wS*(i.comp*i.OOP - 3))) + i.dz*(i.dx*i.inE*(i.D11E*i.comp*i.OOP + i.D12E*(i.comp*i.OOP - 3)) + (3/4)*i.dz*(-i.D13E*(i.inN*i.inNv - i.inNEE*i.inNEv) + i.D13W*i.inN*i.inNv)))/(i.dx^2*i.dz^2)
  uSW := (1/3)*(-(3/4)*i.D13W*i.inS*i.inSWv + i.D31S*i.inSWc*i.wS*(i.comp*i.OOP - 3) + i.D32S*i.comp*i.inSWc*i.OOP*i.wS)/(i.dx*i.dz)
  uSE := (1/3)*((3/4)*i.D13E*i.inS*i.inSEv - i.D31S*i.inSEc*i.wS*(i.comp*i.OOP - 3) - i.D32S*i.comp*i.inSEc*i.OOP*i.wS)/(i.dx*i.dz)
  uNW := (1/3)*((3/4)*i.D13W*i.inN*i.inNWv - i.D31N*i.inNWc*i.wN*(i.comp*i.OOP - 3) - i.D32N*i.comp*i.inNWc*i.OOP*i.wN)/(i.dx*i.dz)
  uNE := (1/3)*(-(3/4)*i.D13E*i.inN*i.inNEv + i.D31N*i.inNEc*i.wN*(i.comp*i.OOP - 3) + i.D32N*i.comp*i.inNEc*i.OOP*i.wN)/(i.dx*i.dz)
  vSWW := -(1/4)*i.D13W*i.inSWW*i.inSWv/i.dx^2
  vSEE := -(1/4)*i.D13E*i.inSEE*i.inSEv/i.dx^2
  vNWW := -(1/4)*i.D13W*i.inNWW*i.inNWv/i.dx^2
  vNEE := -(1/4)*i.D13E*i.inNEE*i.inNEv/i.dx^2
  vSSW := (1/3)*i.inSWc*i.wS*(i.D31S*i.comp*i.OOP + i.D32S*(i.comp*i.OOP - 3))/i.dz^2
  vSSE := (1/3)*i.inSEc*i.wS*(i.D31S*i.comp*i.OOP + i.D32S*(i.comp*i.OOP - 3))/i.dz^2
  vNNW := (1/3)*i.inNWc*i.wN*(i.D31N*i.comp*i.OOP + i.D32N*(i.comp*i.OOP - 3))/i.dz^2
  vNNE := (1/3)*i.inNEc*i.wN*(i.D31N*i.comp*i.OOP + i.D32N*(i.comp*i.OOP - 3))/i.dz^2
  pW := -i.inW*(1/i.dx) + i.inW*(i.D14W*i.dz + i.dx*(-i.D34N*i.inN*i.wN + i.D34S*i.inS*i.wS))/(i.dx*i.dz)
  pE := i.inE*(1/i.dx) + i.inE*(-i.D14E*i.dz + i.dx*(-i.D34N*i.inN*i.wN + i.D34S*i.inS*i.wS))/(i.dx*i.dz)
  pSW := i.D34S*i.inS*i.inSWc*i.wS/i.dz
  pSE := i.D34S*i.inS*i.inSEc*i.wS/i.dz
  pNW := -i.D34N*i.inN*i.inNWc*i.wN/i.dz
  pNE := -i.D34N*i.inN*i.inNEc*i.wN/i.dz

/-- Inputs of the coefficient formulas of a z-row (StokesAssemblyDecoupled.c:730-891). -/
structure ZJIn (K : Type*) where
  (D21N D21S D22N D22S D23N D23S D24N D24S D31E D31W D32E D32W D33E D33W D34E D34W OOP comp dx : K)
  (dz inE inEv inN inNEc inNEv inNNE inNNW inNWc inNWv inS inSEc inSEv inSSE inSSW inSWc inSWv : K)
  (inW inWv wE wW : K)

/-- Coefficients of a z-row. -/
structure ZJCoef (K : Type*) where
  (vW vC vE vS vN uSW uSE uNW uNE vSW vSE vNW vNE uSWW uSEE uNWW uNEE uSSW uSSE uNNW uNNE pS pN : K)
  (pSW pSE pNW pNE : K)

/-- Coefficient formulas of a z-row, StokesAssemblyDecoupled.c:894-920, transcribed literally. -/
def zjCoef (i : ZJIn K) : ZJCoef K where
  vW := (-i.D33W*i.dz*i.inW^2*i.inWv + (1/4)*i.dx*i.inW^2*i.inWv*(i.D23N*i.inN - i.D23S*i.inS) + (1/3)*i.dx*i.wW*(i.inNWc - i.inSWc)*(i.D31W*i.comp*i.OOP + i.D32W*(i.comp*i.OOP - 3)))/(i.dx^2*i.dz)
  vC := (1/3)*(-i.dx*(i.dx*(i.D21N*i.comp*i.inN*i.OOP + i.D21S*i.comp*i.inS*i.OOP + i.D22N*i.inN*(i.comp*i.OOP - 3) + i.D22S*i.inS*(i.comp*i.OOP - 3)) + (3/4)*i.dz*(-i.D23N*i.inN + i.D23S*i.inS)*(i.inE^2*i.inEv - i.inW^2*i.inWv)) + i.dz*(i.dx*(i.inN - i.inS)*(-i.D31E*i.comp*i.OOP*i.wE + i.D31W*i.comp*i.OOP*i.wW - i.D32E*i.wE*(i.comp*i.OOP - 3) + i.D32W*i.wW*(i.comp*i.OOP - 3)) + 3*i.dz*(i.D33E*i.inE^2*i.inEv + i.D33W*i.inW^2*i.inWv)))/(i.dx^2*i.dz^2)
  vE := (-i.D33E*i.dz*i.inE^2*i.inEv + (1/4)*i.dx*i.inE^2*i.inEv*(-i.D23N*i.inN + i.D23S*i.inS) - 1/3*i.dx*i.wE*(i.inNEc - i.inSEc)*(i.D31E*i.comp*i.OOP + i.D32E*(i.comp*i.OOP - 3)))/(i.dx^2*i.dz)
  vS := (1/3)*i.inS*(-(3/4)*i.D23S*i.dz*(i.inE*i.inSEv - i.inSWv*i.inW) + i.dx*(i.D21S*i.comp*i.OOP + i.D22S*(i.comp*i.OOP - 3)) + i.dz*(-i.D31E*i.comp*i.OOP*i.wE + i.D31W*i.comp*i.OOP*i.wW - i.D32E*i.wE*(i.comp*i.OOP - 3) + i.D32W*i.wW*(i.comp*i.OOP - 3)))/(i.dx*i.dz^2)
  vN := (1/3)*i.inN*((3/4)*i.D23N*i.dz*(i.inE*i.inNEv - i.inNWv*i.inW) + i.dx*(i.D21N*i.comp*i.OOP + i.D22N*(i.comp*i.OOP - 3)) + i.dz*(i.D31E*i.comp*i.OOP*i.wE - i.D31W*i.comp*i.OOP*i.wW + i.D32E*i.wE*(i.comp*i.OOP - 3) - i.D32W*i.wW*(i.comp*i.OOP - 3)))/(i.dx*i.dz^2)
  uSW := (1/3)*(i.dx*((3/4)*i.dx*(i.D23N*i.inN*i.inW*i.inWv + i.D23S*i.inS*(i.inSSW*i.inSWv - i.inW*i.inWv)) + i.dz*i.inS*(i.D21S*(i.comp*i.OOP - 3) + i.D22S*i.comp*i.OOP)) - i.dz*(3*i.D33W*i.dx*i.inW*i.inWv + i.dz*(i.D31E*i.inS*i.wE*(i.comp*i.OOP - 3) - i.D31W*i.wW*(i.inS - i.inSWc)*(i.comp*i.OOP - 3) + i.D32E*i.comp*i.inS*i.OOP*i.wE - i.D32W*i.comp*i.OOP*i.wW*(i.inS - i.inSWc))))/(i.dx^2*i.dz^2)
  uSE := (1/3)*(-i.dx*((3/4)*i.dx*(-i.D23N*i.inE*i.inEv*i.inN + i.D23S*i.inS*(i.inE*i.inEv - i.inSEv*i.inSSE)) + i.dz*i.inS*(i.D21S*(i.comp*i.OOP - 3) + i.D22S*i.comp*i.OOP)) + i.dz*(3*i.D33E*i.dx*i.inE*i.inEv + i.dz*(i.D31E*i.wE*(i.inS - i.inSEc)*(i.comp*i.OOP - 3) - i.D31W*i.inS*i.wW*(i.comp*i.OOP - 3) + i.D32E*i.comp*i.OOP*i.wE*(i.inS - i.inSEc) - i.D32W*i.comp*i.inS*i.OOP*i.wW)))/(i.dx^2*i.dz^2)
  uNW := (1/3)*(i.dx*((3/4)*i.dx*(i.D23N*i.inN*(i.inNNW*i.inNWv - i.inW*i.inWv) + i.D23S*i.inS*i.inW*i.inWv) - i.dz*i.inN*(i.D21N*(i.comp*i.OOP - 3) + i.D22N*i.comp*i.OOP)) + i.dz*(3*i.D33W*i.dx*i.inW*i.inWv + i.dz*(-i.D31E*i.inN*i.wE*(i.comp*i.OOP - 3) + i.D31W*i.wW*(i.inN - i.inNWc)*(i.comp*i.OOP - 3) - i.D32E*i.comp*i.inN*i.OOP*i.wE + i.D32W*i.comp*i.OOP*i.wW*(i.inN - i.inNWc))))/(i.dx^2*i.dz^2)
  uNE := (1/3)*(i.dx*((3/4)*i.dx*(-i.D23N*i.inN*(i.inE*i.inEv - i.inNEv*i.inNNE) + i.D23S*i.inE*i.inEv*i.inS) + i.dz*i.inN*(i.D21N*(i.comp*i.OOP - 3) + i.D22N*i.comp*i.OOP)) - i.dz*(3*i.D33E*i.dx*i.inE*i.inEv + i.dz*(-i.D31E*i.wE*(i.inN - i.inNEc)*(i.comp*i.OOP - 3) + i.D31W*i.inN*i.wW*(i.comp*i.OOP - 3) - i.D32E*i.comp*i.OOP*i.wE*(i.inN - i.inNEc) + i.D32W*i.comp*i.inN*i.OOP*i.wW)))/(i.dx^2*i.dz^2)
  vSW := (1/3)*(-(3/4)*i.D23S*i.inS*i.inSWv*i.inW + i.D31W*i.comp*i.inSWc*i.OOP*i.wW + i.D32W*i.inSWc*i.wW*(i.comp*i.OOP - 3))/(i.dx*i.dz)
  vSE := (1/3)*((3/4)*i.D23S*i.inE*i.inS*i.inSEv - i.D31E*i.comp*i.inSEc*i.OOP*i.wE - i.D32E*i.inSEc*i.wE*(i.comp*i.OOP - 3))/(i.dx*i.dz)
  vNW := (1/3)*((3/4)*i.D23N*i.inN*i.inNWv*i.inW - i.D31W*i.comp*i.inNWc*i.OOP*i.wW - i.D32W*i.inNWc*i.wW*(i.comp*i.OOP - 3))/(i.dx*i.dz)
  vNE := (1/3)*(-(3/4)*i.D23N*i.inE*i.inN*i.inNEv + i.D31E*i.comp*i.inNEc*i.OOP*i.wE + i.D32E*i.inNEc*i.wE*(i.comp*i.OOP - 3))/(i.dx*i.dz)
  uSWW := (1/3)*i.inSWc*i.wW*(i.D31W*(i.comp*i.OOP - 3) + i.D32W*i.comp*i.OOP)/i.dx^2
  uSEE := (1/3)*i.inSEc*i.wE*(i.D31E*(i.comp*i.OOP - 3) + i.D32E*i.comp*i.OOP)/i.dx^2
  uNWW := (1/3)*i.inNWc*i.wW*(i.D31W*(i.comp*i.OOP - 3) + i.D32W*i.comp*i.OOP)/i.dx^2
  uNEE := (1/3)*i.inNEc*i.wE*(i.D31E*(i.comp*i.OOP - 3) + i.D32E*i.comp*i.OOP)/i.dx^2
  uSSW := -(1/4)*i.D23S*i.inS*i.inSSW*i.inSWv/i.dz^2
  uSSE := -(1/4)*i.D23S*i.inS*i.inSEv*i.inSSE/i.dz^2
  uNNW := -(1/4)*i.D23N*i.inN*i.inNNW*i.inNWv/i.dz^2
  uNNE := -(1/4)*i.D23N*i.inN*i.inNEv*i.inNNE/i.dz^2
  pS := -i.inS*(1/i.dz) + (i.inS*(i.D24S*i.dx + i.dz*(-i.D34E*i.inE*i.wE + i.D34W*i.inW*i.wW))/(i.dx*i.dz))
  pN := i.inN*(1/i.dz) + (i.inN*(-i.D24N*i.dx + i.dz*(-i.D34E*i.inE*i.wE + i.D34W*i.inW*i.wW))/(i.dx*i.dz))
  pSW := (i.D34W*i.inSWc*i.inW*i.wW/i.dx)
  pSE := (-i.D34E*i.inE*i.inSEc*i.wE/i.dx)
  pNW := (i.D34W*i.inNWc*i.inW*i.wW/i.dx)
  pNE := (-i.D34E*i.inE*i.inNEc*i.wE/i.dx)

/-- Weight of an average from the number of contributions (`if (w > 1) w = 1/w`, 373-377, 888-891). -/
def jw [LinearOrder K] (w : K) : K := if 1 < w then 1 / w else w

/-- Stencil indices of an x-row. -/
structure XJIdx where
  (C W E S N SW SE NW NE : Int)
  (vSW vSE vNW vNE vSWW vSEE vNWW vNEE vNNW vSSW vNNE vSSE : Int)
  (pW pE pSW pSE pNW pNE : Int)
  (gN gS gSW gSE gNW gNE : Int)

/-- StokesAssemblyDecoupled.c:241-310.  The periodic ends of the outer `v` nodes (279-282) are taken before the
redirection of a periodic row (284-293), the two side cases of the outer vertices after it (295-303). -/
def xjIdx (m : SMesh K) (k l : Int) : XJIdx :=
  let nx : Int := m.Nx
  let nz : Int := m.Nz
  let nxvz := nx + 1
  let ncx := nx - 1
  let c1 := k + l * nx
  let c2 := k - 1 + (l - 1) * ncx
  let c3 := k + l * nxvz
  let per := m.tu c1 == -2
  let W := if per then c1 + nx - 2 else c1 - 1
  let vSW0 := c3 - nxvz
  let vNW0 := c3
  let vSW := if per then c3 - 2 else vSW0
  let vNW := if per then c3 + nxvz - 2 else vNW0
  let vSE := c3 - nxvz + 1
  let vNE := c3 + 1
  let pW := if per then c2 + ncx else c2
  let pE := c2 + 1
  let gN := c1
  let gS := c1 - nx
  { C := c1, W := W, E := c1 + 1, S := c1 - nx, N := c1 + nx
    SW := if per then W - nx else c1 - nx - 1
    SE := c1 - nx + 1
    NW := if per then W + nx else c1 + nx - 1
    NE := c1 + nx + 1
    vSW := vSW, vSE := vSE, vNW := vNW, vNE := vNE
    vSWW := if per then vSW - 1 else if l > 1 ∧ m.tv (vSW0 - 1) = -12 then vSW0 + (nx - 2) else vSW0 - 1
    vNWW := if per then vNW - 1 else if l < nz - 1 ∧ m.tv (vNW0 - 1) = -12 then vNW0 + (nx - 2) else vNW0 - 1
    vSEE := if l > 1 ∧ m.tv (vSE + 1) = -12 then vSE - (nx - 2) else vSE + 1
    vNEE := if l < nz - 1 ∧ m.tv (vNE + 1) = -12 then vNE - (nx - 2) else vNE + 1
    vNNW := vNW + nxvz
    vSSW := vSW - nxvz
    vNNE := vNE + nxvz
    vSSE := vSE - nxvz
    pW := pW, pE := pE
    pSW := pW - ncx, pSE := pE - ncx, pNW := pW + ncx, pNE := pE + ncx
    gN := gN, gS := gS
    gSW := if k = 0 then gS else if per then gS + nx else gS - 1
    gNW := if k = 0 then gN else if per then gN + nx else gN - 1
    gSE := if k = nx - 1 then gS else gS + 1
    gNE := if k = nx - 1 then gN else gN + 1 }

/-- Flags, weights and operators of an x-row, StokesAssemblyDecoupled.c:306-377.  `comp` is 1 whatever
`model.compressible` is (1820-1822). -/
def xjIn [LinearOrder K] (m : JMesh K) (k l : Int) : XJIn K :=
  let nx : Int := m.Nx
  let nzvx : Int := m.Nz + 1
  let i := xjIdx m.toSMesh k l
  let inW := flag (m.tp i.pW == -1)
  let inE := flag (m.tp i.pE == -1)
  let inSWc := flag (decide (l > 1) && m.tp i.pSW == -1)
  let inSEc := flag (decide (l > 1) && m.tp i.pSE == -1)
  let inNWc := flag (decide (l < nzvx - 2) && m.tp i.pNW == -1)
  let inNEc := flag (decide (l < nzvx - 2) && m.tp i.pNE == -1)
  let west := decide (k > 0) || (k == 0 && (m.tv i.vSW == -1 || m.tv i.vSW == 0))
  let east := decide (k < nx - 1) || (k == nx - 1 && (m.tv i.vSE == -1 || m.tv i.vSE == 0))
  { D11E := m.D11 i.pE, D12E := m.D12 i.pE, D13E := m.D13 i.pE, D14E := m.D14 i.pE
    D11W := m.D11 i.pW, D12W := m.D12 i.pW, D13W := m.D13 i.pW, D14W := m.D14 i.pW
    D31N := m.D31 i.gN, D32N := m.D32 i.gN, D33N := m.D33 i.gN, D34N := m.D34 i.gN
    D31S := m.D31 i.gS, D32S := m.D32 i.gS, D33S := m.D33 i.gS, D34S := m.D34 i.gS
    OOP := if m.oop then 3/2 else 1
    comp := 1
    dx := m.dx, dz := m.dz
    inW := inW, inE := inE
    inS := flag (m.tu i.S != 30 && m.tu i.S != 13)
    inN := flag (m.tu i.N != 30 && m.tu i.N != 13)
    inSv := flag (m.tg i.gS != 30)
    inNv := flag (m.tg i.gN != 30)
    inSWc := inSWc, inSEc := inSEc, inNWc := inNWc, inNEc := inNEc
    inSWv := flag (west && m.tg i.gSW != 30)
    inNWv := flag (west && m.tg i.gNW != 30)
    inSEv := flag (east && m.tg i.gSE != 30)
    inNEv := flag (east && m.tg i.gNE != 30)
    inSWW := flag (m.tv i.vSWW == -1)
    inNWW := flag (m.tv i.vNWW == -1)
    inSEE := flag (m.tv i.vSEE == -1)
    inNEE := flag (m.tv i.vNEE == -1)
    wS := jw (inW + inE + inSWc + inSEc)
    wN := jw (inW + inE + inNWc + inNEc) }

/-- Stabilisation of the diagonal of an x-row, StokesAssemblyDecoupled.c:409-415: what is added to `uC`. -/
def xjCorr [LinearOrder K] (m : SMesh K) (k l : Int) (uC : K) : K :=
  let nx : Int := m.Nx
  let c2 := k - 1 + (l - 1) * (nx - 1)
  if m.stab then
    let drhodx := (m.rho (c2 + 1) - m.rho c2) * (1 / m.dx)
    let c := m.theta * m.dt * m.gx (k + l * nx) * drhodx
    if uC + c > 0 then c else 0
  else 0

/-- Velocity part of an x-row (block A), StokesAssemblyDecoupled.c:417-503. -/
def xJac [LinearOrder K] (m : JMesh K) (k l : Int) : List (SNode × K) :=
  let nx : Int := m.Nx
  let nz : Int := m.Nz
  let i := xjIdx m.toSMesh k l
  let a := xjCoef (xjIn m k l)
  let vol := m.dx * m.dz
  let per := m.tu i.C == -2
  let west := decide (k > 0) || per
  let east := decide (k < nx - 1) || per
  let uC := a.uC + xjCorr m.toSMesh k l a.uC
  let uC := if m.tu i.S = 11 then uC - a.uS else uC
  let uC := if m.tu i.N = 11 then uC - a.uN else uC
  let uW := if m.tu i.SW = 11 then a.uW - a.uSW else a.uW
  let uE := if m.tu i.SE = 11 then a.uE - a.uSE else a.uE
  let uW := if m.tu i.NW = 11 then uW - a.uNW else uW
  let uE := if m.tu i.NE = 11 then uE - a.uNE else uE
  let vNW := if m.tv i.vNWW = 11 then a.vNW - a.vNWW else a.vNW
  let vNE := if m.tv i.vNEE = 11 then a.vNE - a.vNEE else a.vNE
  let vSW := if m.tv i.vSWW = 11 then a.vSW - a.vSWW else a.vSW
  let vSE := if m.tv i.vSEE = 11 then a.vSE - a.vSEE else a.vSE
  let ww (t : Int) := decide (k > 1) || ((k == 0 || k == 1) && t == -1)
  let ee (t : Int) := decide (k < nx - 2) || ((k == nx - 2 || k == nx - 1) && t == -1)
  guarded (m.tu i.SW != 30 && west) (.u i.SW) (a.uSW * vol) ++
  guarded (m.tu i.S != 30) (.u i.S) (a.uS * vol) ++
  guarded (m.tu i.SE != 30 && east) (.u i.SE) (a.uSE * vol) ++
  guarded (m.tu i.W != 30 && west) (.u i.W) (uW * vol) ++
  guarded (m.tu i.C != 30) (.u i.C) (uC * vol) ++
  guarded (m.tu i.E != 30 && east) (.u i.E) (uE * vol) ++
  guarded (m.tu i.NW != 30 && west) (.u i.NW) (a.uNW * vol) ++
  guarded (m.tu i.N != 30) (.u i.N) (a.uN * vol) ++
  guarded (m.tu i.NE != 30 && east) (.u i.NE) (a.uNE * vol) ++
  guarded (decide (l > 1) && m.tv i.vSSW != 30) (.v i.vSSW) (a.vSSW * vol) ++
  guarded (decide (l > 1) && m.tv i.vSSE != 30) (.v i.vSSE) (a.vSSE * vol) ++
  guarded (ww (m.tv i.vSWW) && m.tv i.vSWW != 30) (.v i.vSWW) (a.vSWW * vol) ++
  guarded (m.tv i.vSW != 30 && west) (.v i.vSW) (vSW * vol) ++
  guarded (m.tv i.vSE != 30 && east) (.v i.vSE) (vSE * vol) ++
  guarded (ee (m.tv i.vSEE) && m.tv i.vSEE != 30) (.v i.vSEE) (a.vSEE * vol) ++
  guarded (ww (m.tv i.vNWW) && m.tv i.vNWW != 30) (.v i.vNWW) (a.vNWW * vol) ++
  guarded (m.tv i.vNW != 30 && west) (.v i.vNW) (vNW * vol) ++
  guarded (m.tv i.vNE != 30 && east) (.v i.vNE) (vNE * vol) ++
  guarded (ee (m.tv i.vNEE) && m.tv i.vNEE != 30) (.v i.vNEE) (a.vNEE * vol) ++
  guarded (decide (l < nz - 1) && m.tv i.vNNW != 30) (.v i.vNNW) (a.vNNW * vol) ++
  guarded (decide (l < nz - 1) && m.tv i.vNNE != 30) (.v i.vNNE) (a.vNNE * vol)

/-- Pressure part of an x-row (block B), StokesAssemblyDecoupled.c:507-522. -/
def xJacP [LinearOrder K] (m : JMesh K) (k l : Int) : List (SNode × K) :=
  let nx : Int := m.Nx
  let nz : Int := m.Nz
  let i := xjIdx m.toSMesh k l
  let a := xjCoef (xjIn m k l)
  let vol := m.dx * m.dz
  let per := m.tu i.C == -2
  let west := decide (k > 0) || per
  let east := decide (k < nx - 1) || per
  guarded (decide (l > 1) && m.tp i.pSW != 30) (.p i.pSW) (a.pSW * vol) ++
  guarded (decide (l > 1) && m.tp i.pSE != 30) (.p i.pSE) (a.pSE * vol) ++
  guarded (m.tp i.pW != 30 && west) (.p i.pW) (a.pW * vol) ++
  guarded (m.tp i.pE != 30 && east) (.p i.pE) (a.pE * vol) ++
  guarded (decide (l < nz - 1) && m.tp i.pNW != 30) (.p i.pNW) (a.pNW * vol) ++
  guarded (decide (l < nz - 1) && m.tp i.pNE != 30) (.p i.pNE) (a.pNE * vol)

/-- Stencil indices of a z-row. -/
structure ZJIdx where
  (C W E S N SW SE NW NE : Int)
  (uNW uNE uSW uSE uNWW uNEE uSWW uSEE uNNW uNNE uSSW uSSE : Int)
  (pS pN pSW pSE pNW pNE : Int)
  (gW gE gSW gSE gNW gNE : Int)

/-- StokesAssemblyDecoupled.c:752-816. -/
def zjIdx (m : SMesh K) (k l : Int) : ZJIdx :=
  let nx : Int := m.Nx
  let nxvz := nx + 1
  let ncx := nx - 1
  let c1 := k + l * nx
  let c2 := k - 1 + (l - 1) * ncx
  let c3 := k + l * nxvz
  let pw := k == 1 && m.tv (c3 - 1) == -12
  let pe := k == nx - 1 && m.tv (c3 + 1) == -12
  let W := if pw then c3 + nxvz - 3 else c3 - 1
  let E := if pe then c3 - nxvz + 3 else c3 + 1
  let S := c3 - nxvz
  let N := c3 + nxvz
  let uNW := c1 + nx - 1
  let uNE := c1 + nx
  let uSW := c1 - 1
  let uSE := c1
  let pS := c2
  let pN := c2 + ncx
  { C := c3, W := W, E := E, S := S, N := N
    SW := if pw then W - nxvz else S - 1
    SE := if pe then E - nxvz else S + 1
    NW := if pw then W + nxvz else N - 1
    NE := if pe then E + nxvz else N + 1
    uNW := uNW, uNE := uNE, uSW := uSW, uSE := uSE
    uNWW := if pw then uNW + (nx - 2) else uNW - 1
    uSWW := if pw then uSW + (nx - 2) else uSW - 1
    uNEE := if pe then uNE - (nx - 2) else uNE + 1
    uSEE := if pe then uSE - (nx - 2) else uSE + 1
    uNNW := uNW + nx, uNNE := uNE + nx, uSSW := uSW - nx, uSSE := uSE - nx
    pS := pS, pN := pN
    pSW := if pw then pS + (ncx - 1) else pS - 1
    pNW := if pw then pN + (ncx - 1) else pN - 1
    pSE := if pe then pS - (ncx - 1) else pS + 1
    pNE := if pe then pN - (ncx - 1) else pN + 1
    gW := c1 - 1, gE := c1
    gSW := c1 - 1 - nx, gNW := c1 - 1 + nx, gSE := c1 - nx, gNE := c1 + nx }

/-- Flags, weights and operators of a z-row, StokesAssemblyDecoupled.c:819-891; `comp` as in `xjIn`. -/
def zjIn [LinearOrder K] (m : JMesh K) (k l : Int) : ZJIn K :=
  let nxvz : Int := m.Nx + 1
  let nz : Int := m.Nz
  let i := zjIdx m.toSMesh k l
  let inS := flag (m.tp i.pS == -1)
  let inN := flag (m.tp i.pN == -1)
  let west := decide (k > 1) || (k == 1 && m.tv i.W == -1)
  let east := decide (k < nxvz - 2) || (k == nxvz - 2 && m.tv i.E == -1)
  let inSWc := flag (west && m.tp i.pSW == -1)
  let inNWc := flag (west && m.tp i.pNW == -1)
  let inSEc := flag (east && m.tp i.pSE == -1)
  let inNEc := flag (east && m.tp i.pNE == -1)
  { D31W := m.D31 i.gW, D32W := m.D32 i.gW, D33W := m.D33 i.gW, D34W := m.D34 i.gW
    D31E := m.D31 i.gE, D32E := m.D32 i.gE, D33E := m.D33 i.gE, D34E := m.D34 i.gE
    D21S := m.D21 i.pS, D22S := m.D22 i.pS, D23S := m.D23 i.pS, D24S := m.D24 i.pS
    D21N := m.D21 i.pN, D22N := m.D22 i.pN, D23N := m.D23 i.pN, D24N := m.D24 i.pN
    OOP := if m.oop then 3/2 else 1
    comp := 1
    dx := m.dx, dz := m.dz
    inS := inS, inN := inN
    inW := flag (m.tv i.W != 30 && m.tv i.W != 13)
    inE := flag (m.tv i.E != 30 && m.tv i.E != 13)
    inWv := flag (m.tg i.gW != 30)
    inEv := flag (m.tg i.gE != 30)
    inSWc := inSWc, inNWc := inNWc, inSEc := inSEc, inNEc := inNEc
    inSWv := flag (decide (l > 0) && m.tg i.gSW != 30)
    inSEv := flag (decide (l > 0) && m.tg i.gSE != 30)
    inNWv := flag (decide (l < nz - 1) && m.tg i.gNW != 30)
    inNEv := flag (decide (l < nz - 1) && m.tg i.gNE != 30)
    inSSW := flag (m.tu i.uSSW == -1 || m.per)
    inSSE := flag (m.tu i.uSSE == -1 || m.per)
    inNNW := flag (m.tu i.uNNW == -1 || m.per)
    inNNE := flag (m.tu i.uNNE == -1 || m.per)
    wE := jw (inN + inS + inNEc + inSEc)
    wW := jw (inN + inS + inNWc + inSWc) }

/-- Stabilisation of the diagonal of a z-row, StokesAssemblyDecoupled.c:922-929. -/
def zjCorr [LinearOrder K] (m : SMesh K) (k l : Int) (vC : K) : K :=
  let nx : Int := m.Nx
  let ncx := nx - 1
  let c2 := k - 1 + (l - 1) * ncx
  if m.stab then
    let drhodz := (m.rho (c2 + ncx) - m.rho c2) * (1 / m.dz)
    let c := m.theta * m.dt * m.gz (k + l * (nx + 1)) * drhodz
    if vC + c < 0 then 0 else c
  else 0

/-- Velocity part of a z-row (block A), StokesAssemblyDecoupled.c:931-1008. -/
def zJac [LinearOrder K] (m : JMesh K) (k l : Int) : List (SNode × K) :=
  let nx : Int := m.Nx
  let nz : Int := m.Nz
  let c1 := k + l * nx
  let i := zjIdx m.toSMesh k l
  let a := zjCoef (zjIn m k l)
  let vol := m.dx * m.dz
  let south := decide (l > 0)
  let north := decide (l < nz - 1)
  let vC := a.vC + zjCorr m.toSMesh k l a.vC
  let vC := if m.tv i.W = 11 then vC - a.vW else vC
  let vC := if m.tv i.E = 11 then vC - a.vE else vC
  let vW := if m.tv i.SW = 11 then a.vW - a.vSW else a.vW
  let vE := if m.tv i.SE = 11 then a.vE - a.vSE else a.vE
  let vW := if m.tv i.NW = 11 then vW - a.vNW else vW
  let vE := if m.tv i.NE = 11 then vE - a.vNE else vE
  let uNW := if m.tu i.uNNW = 11 then a.uNW - a.uNNW else a.uNW
  let uNE := if m.tu i.uNNE = 11 then a.uNE - a.uNNE else a.uNE
  let uSW := if m.tu i.uSSW = 11 then a.uSW - a.uSSW else a.uSW
  let uSE := if m.tu i.uSSE = 11 then a.uSE - a.uSSE else a.uSE
  let ww (t : Int) := decide (k > 1) || (k == 1 && t == -1)
  let ee (t : Int) := decide (k < nx - 1) || (k == nx - 1 && t == -1)
  guarded (m.tu i.uSSW != 30) (.u i.uSSW) (a.uSSW * vol) ++
  guarded (m.tu i.uSSE != 30) (.u i.uSSE) (a.uSSE * vol) ++
  guarded (ww (m.tu i.uSWW) && m.tu i.uSWW != 30) (.u i.uSWW) (a.uSWW * vol) ++
  guarded (m.tu i.uSW != 30) (.u i.uSW) (uSW * vol) ++
  guarded (m.tu i.uSE != 30) (.u i.uSE) (uSE * vol) ++
  guarded (ee (m.tu i.uSEE) && m.tu (c1 + 1) != 30) (.u i.uSEE) (a.uSEE * vol) ++
  guarded (ww (m.tu i.uNWW) && m.tu (c1 + nx - 2) != 30) (.u i.uNWW) (a.uNWW * vol) ++
  guarded (m.tu i.uNW != 30) (.u i.uNW) (uNW * vol) ++
  guarded (m.tu i.uNE != 30) (.u i.uNE) (uNE * vol) ++
  guarded (ee (m.tu i.uNEE) && m.tu i.uNEE != 30) (.u i.uNEE) (a.uNEE * vol) ++
  guarded (m.tu i.uNNW != 30) (.u i.uNNW) (a.uNNW * vol) ++
  guarded (m.tu i.uNNE != 30) (.u i.uNNE) (a.uNNE * vol) ++
  guarded (m.tv i.SW != 30 && south) (.v i.SW) (a.vSW * vol) ++
  guarded (m.tv i.S != 30 && south) (.v i.S) (a.vS * vol) ++
  guarded (m.tv i.SE != 30 && south) (.v i.SE) (a.vSE * vol) ++
  guarded (m.tv i.W != 30) (.v i.W) (vW * vol) ++
  guarded (m.tv i.C != 30) (.v i.C) (vC * vol) ++
  guarded (m.tv i.E != 30) (.v i.E) (vE * vol) ++
  guarded (m.tv i.NW != 30 && north) (.v i.NW) (a.vNW * vol) ++
  guarded (m.tv i.N != 30 && north) (.v i.N) (a.vN * vol) ++
  guarded (m.tv i.NE != 30 && north) (.v i.NE) (a.vNE * vol)

/-- Pressure part of a z-row (block B), StokesAssemblyDecoupled.c:1012-1051. -/
def zJacP [LinearOrder K] (m : JMesh K) (k l : Int) : List (SNode × K) :=
  let nx : Int := m.Nx
  let i := zjIdx m.toSMesh k l
  let a := zjCoef (zjIn m k l)
  let vol := m.dx * m.dz
  let west := decide (k > 1) || (k == 1 && m.per)
  let east := decide (k < nx - 1) || (k == nx - 1 && m.per)
  guarded (west && m.tp i.pSW != 30) (.p i.pSW) (a.pSW * vol) ++
  guarded (m.tp i.pS != 30 && m.tp i.pN != 30) (.p i.pS) (a.pS * vol) ++
  guarded (east && m.tp i.pSE != 30) (.p i.pSE) (a.pSE * vol) ++
  guarded (west && m.tp i.pNW != 30) (.p i.pNW) (a.pNW * vol) ++
  guarded (m.tp i.pS != 30 && m.tp i.pN != 30) (.p i.pN) (a.pN * vol) ++
  guarded (east && m.tp i.pNE != 30) (.p i.pNE) (a.pNE * vol)

/-- What the loop over `u` nodes puts into the row of an unknown node (tags -1, 2, -2; BuildJacobianOperatorDecoupled
1929-1957, the rows of stress sides being commented out). -/
def jacRowX [LinearOrder K] (m : JMesh K) (k l : Int) : List (SNode × K) :=
  let nx : Int := m.Nx
  let nzvx : Int := m.Nz + 1
  (if l > 0 ∧ l < nzvx - 1 ∧ k > 0 ∧ k < nx - 1 then xJac m k l ++ xJacP m k l else []) ++
  (if k = 0 ∧ m.tu (k + l * nx) = -2 then xJac m k l ++ xJacP m k l else [])

/-- The same for `v` nodes (tags -1, 2; BuildJacobianOperatorDecoupled 1999-2032). -/
def jacRowZ [LinearOrder K] (m : JMesh K) (k l : Int) : List (SNode × K) :=
  let nxvz : Int := m.Nx + 1
  let nz : Int := m.Nz
  if k > 0 ∧ k < nxvz - 1 ∧ l > 0 ∧ l < nz - 1 then zJac m k l ++ zJacP m k l else []

end
end Verif
