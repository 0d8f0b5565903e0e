import Verif.Model.JacRows
import Verif.Spec.Stress
import Verif.Props.Stencil
import Mathlib.Tactic.FieldSimp
import Mathlib.Tactic.Ring

/- Rows of the Newton matrix. -/
namespace Verif
variable {K : Type*} [Field K]

/-- Values a row is applied to. -/
structure XVals (K : Type*) where
  (uW uC uE uS uN vSW vSE vNW vNE uSW uSE uNW uNE vSWW vSEE vNWW vNEE vSSW vSSE vNNW vNNE : K)
  (pW pE pSW pSE pNW pNE : K)

/-- An x-row applied to values. -/
def xjRow (a : XJCoef K) (x : XVals K) : K :=
  a.uW * x.uW + a.uC * x.uC + a.uE * x.uE + a.uS * x.uS + a.uN * x.uN
  + a.vSW * x.vSW + a.vSE * x.vSE + a.vNW * x.vNW + a.vNE * x.vNE
  + a.uSW * x.uSW + a.uSE * x.uSE + a.uNW * x.uNW + a.uNE * x.uNE
  + a.vSWW * x.vSWW + a.vSEE * x.vSEE + a.vNWW * x.vNWW + a.vNEE * x.vNEE
  + a.vSSW * x.vSSW + a.vSSE * x.vSSE + a.vNNW * x.vNNW + a.vNNE * x.vNNE
  + a.pW * x.pW + a.pE * x.pE + a.pSW * x.pSW + a.pSE * x.pSE + a.pNW * x.pNW + a.pNE * x.pNE

/-- The coefficients of an x-row, for arbitrary flags and weights. -/
theorem xjCoef_identity [CharZero K] (i : XJIn K) (x : XVals K) (hx : i.dx ≠ 0) (hz : i.dz ≠ 0) :
    let c := i.comp * i.OOP / 3
    let gN := i.inNv * i.inN * (i.inN * (x.uN - x.uC) / i.dz + (x.vNE - x.vNW) / i.dx)
    let gS := i.inSv * i.inS * (i.inS * (x.uC - x.uS) / i.dz + (x.vSE - x.vSW) / i.dx)
    let gNE := i.inNEv * (i.inN * (x.uNE - x.uE) / i.dz + i.inNEE * (x.vNEE - x.vNE) / i.dx)
    let gSE := i.inSEv * (i.inS * (x.uE - x.uSE) / i.dz + i.inSEE * (x.vSEE - x.vSE) / i.dx)
    let gNW := i.inNWv * (i.inN * (x.uNW - x.uW) / i.dz + i.inNWW * (x.vNW - x.vNWW) / i.dx)
    let gSW := i.inSWv * (i.inS * (x.uW - x.uSW) / i.dz + i.inSWW * (x.vSW - x.vSWW) / i.dx)
    let ex := fun du dv => du / i.dx - c * (du / i.dx + dv / i.dz)
    let ez := fun du dv => dv / i.dz - c * (du / i.dx + dv / i.dz)
    let uE := x.uE - x.uC
    let uW := x.uC - x.uW
    let vE := x.vNE - x.vSE
    let vW := x.vNW - x.vSW
    let uNE := x.uNE - x.uN
    let uNW := x.uN - x.uNW
    let vNE := x.vNNE - x.vNE
    let vNW := x.vNNW - x.vNW
    let uSE := x.uSE - x.uS
    let uSW := x.uS - x.uSW
    let vSE := x.vSE - x.vSSE
    let vSW := x.vSW - x.vSSW
    let sE := i.inE * (i.D11E * ex uE vE + i.D12E * ez uE vE) + i.D13E * ((gN + gS + gNE + gSE) / 4) + i.inE * i.D14E * x.pE
    let sW := i.inW * (i.D11W * ex uW vW + i.D12W * ez uW vW) + i.D13W * ((gN + gS + gNW + gSW) / 4) + i.inW * i.D14W * x.pW
    let sN := i.D33N * gN + i.wN * (i.D31N * (i.inE * ex uE vE + i.inW * ex uW vW + i.inNEc * ex uNE vNE + i.inNWc * ex uNW vNW)
      + i.D32N * (i.inE * ez uE vE + i.inW * ez uW vW + i.inNEc * ez uNE vNE + i.inNWc * ez uNW vNW)
      + i.inN * i.D34N * (i.inE * x.pE + i.inW * x.pW + i.inNEc * x.pNE + i.inNWc * x.pNW))
    let sS := i.D33S * gS + i.wS * (i.D31S * (i.inE * ex uE vE + i.inW * ex uW vW + i.inSEc * ex uSE vSE + i.inSWc * ex uSW vSW)
      + i.D32S * (i.inE * ez uE vE + i.inW * ez uW vW + i.inSEc * ez uSE vSE + i.inSWc * ez uSW vSW)
      + i.inS * i.D34S * (i.inE * x.pE + i.inW * x.pW + i.inSEc * x.pSE + i.inSWc * x.pSW))
    xjRow (xjCoef i) x = -((sE - sW) / i.dx - (i.inE * x.pE - i.inW * x.pW) / i.dx + (sN - sS) / i.dz) := by
  intro c gN gS gNE gSE gNW gSW ex ez uE uW vE vW uNE uNW vNE vNW uSE uSW vSE vSW sE sW sN sS
  simp only [xjRow, xjCoef, c, gN, gS, gNE, gSE, gNW, gSW, ex, ez, uE, uW, vE, vW, uNE, uNW, vNE, vNW, uSE, uSW, vSE, vSW,
    sE, sW, sN, sS]
  field_simp
  ring

/-- Values a z-row is applied to. -/
structure ZVals (K : Type*) where
  (vW vC vE vS vN uSW uSE uNW uNE vSW vSE vNW vNE uSWW uSEE uNWW uNEE uSSW uSSE uNNW uNNE : K)
  (pS pN pSW pSE pNW pNE : K)

/-- A z-row applied to values. -/
def zjRow (a : ZJCoef K) (x : ZVals K) : K :=
  a.vW * x.vW + a.vC * x.vC + a.vE * x.vE + a.vS * x.vS + a.vN * x.vN
  + a.uSW * x.uSW + a.uSE * x.uSE + a.uNW * x.uNW + a.uNE * x.uNE
  + a.vSW * x.vSW + a.vSE * x.vSE + a.vNW * x.vNW + a.vNE * x.vNE
  + a.uSWW * x.uSWW + a.uSEE * x.uSEE + a.uNWW * x.uNWW + a.uNEE * x.uNEE
  + a.uSSW * x.uSSW + a.uSSE * x.uSSE + a.uNNW * x.uNNW + a.uNNE * x.uNNE
  + a.pS * x.pS + a.pN * x.pN + a.pSW * x.pSW + a.pSE * x.pSE + a.pNW * x.pNW + a.pNE * x.pNE

/-- The coefficients of a z-row, for arbitrary flags and weights. -/
theorem zjCoef_identity [CharZero K] (i : ZJIn K) (x : ZVals K) (hx : i.dx ≠ 0) (hz : i.dz ≠ 0) :
    let c := i.comp * i.OOP / 3
    let gE := i.inEv * i.inE * (i.inE * (x.vE - x.vC) / i.dx + (x.uNE - x.uSE) / i.dz)
    let gW := i.inWv * i.inW * (i.inW * (x.vC - x.vW) / i.dx + (x.uNW - x.uSW) / i.dz)
    let gNE := i.inNEv * (i.inE * (x.vNE - x.vN) / i.dx + i.inNNE * (x.uNNE - x.uNE) / i.dz)
    let gSE := i.inSEv * (i.inE * (x.vSE - x.vS) / i.dx + i.inSSE * (x.uSE - x.uSSE) / i.dz)
    let gNW := i.inNWv * (i.inW * (x.vN - x.vNW) / i.dx + i.inNNW * (x.uNNW - x.uNW) / i.dz)
    let gSW := i.inSWv * (i.inW * (x.vS - x.vSW) / i.dx + i.inSSW * (x.uSW - x.uSSW) / i.dz)
    let ex := fun du dv => du / i.dx - c * (du / i.dx + dv / i.dz)
    let ez := fun du dv => dv / i.dz - c * (du / i.dx + dv / i.dz)
    let uN := x.uNE - x.uNW
    let uS := x.uSE - x.uSW
    let vN := x.vN - x.vC
    let vS := x.vC - x.vS
    let uNE := x.uNEE - x.uNE
    let uSE := x.uSEE - x.uSE
    let vNE := x.vNE - x.vE
    let vSE := x.vE - x.vSE
    let uNW := x.uNW - x.uNWW
    let uSW := x.uSW - x.uSWW
    let vNW := x.vNW - x.vW
    let vSW := x.vW - x.vSW
    let sN := i.inN * (i.D21N * ex uN vN + i.D22N * ez uN vN + i.D23N * ((gE + gW + gNE + gNW) / 4) + i.D24N * x.pN)
    let sS := i.inS * (i.D21S * ex uS vS + i.D22S * ez uS vS + i.D23S * ((gE + gW + gSE + gSW) / 4) + i.D24S * x.pS)
    let sE := i.D33E * gE + i.wE * (i.D31E * (i.inN * ex uN vN + i.inS * ex uS vS + i.inNEc * ex uNE vNE + i.inSEc * ex uSE vSE)
      + i.D32E * (i.inN * ez uN vN + i.inS * ez uS vS + i.inNEc * ez uNE vNE + i.inSEc * ez uSE vSE)
      + i.inE * i.D34E * (i.inN * x.pN + i.inS * x.pS + i.inNEc * x.pNE + i.inSEc * x.pSE))
    let sW := i.D33W * gW + i.wW * (i.D31W * (i.inN * ex uN vN + i.inS * ex uS vS + i.inNWc * ex uNW vNW + i.inSWc * ex uSW vSW)
      + i.D32W * (i.inN * ez uN vN + i.inS * ez uS vS + i.inNWc * ez uNW vNW + i.inSWc * ez uSW vSW)
      + i.inW * i.D34W * (i.inN * x.pN + i.inS * x.pS + i.inNWc * x.pNW + i.inSWc * x.pSW))
    zjRow (zjCoef i) x = -((sN - sS) / i.dz - (i.inN * x.pN - i.inS * x.pS) / i.dz + (sE - sW) / i.dx) := by
  intro c gE gW gNE gSE gNW gSW ex ez uN uS vN vS uNE uSE vNE vSE uNW uSW vNW vSW sN sS sE sW
  simp only [zjRow, zjCoef, c, gE, gW, gNE, gSE, gNW, gSW, ex, ez, uN, uS, vN, vS, uNE, uSE, vNE, vSE, uNW, uSW, vNW, vSW,
    sE, sW, sN, sS]
  field_simp
  ring

end Verif
