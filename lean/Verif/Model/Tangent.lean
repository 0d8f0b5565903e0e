import Verif.Model.Rheology
import Verif.Model.Anisotropy

/-
Tangent operators of the stress law (/repo/MDLIB/StokesRoutines.c RheologicalOperators 73-370) and the
finite differences they are built from (/repo/MDLIB/FD_Jacobian.c).
-/
namespace Verif.Tan
open Verif

section
variable {K : Type*} [Field K]

/-- The state a stress depends on: strain rates `Exx`, `Ezz`, engineering shear rate `Gxz = 2 Exz` and
pressure (StokesRoutines.c:296-310). -/
structure Pt (K : Type*) where
  (xx zz g p : K)

/-- Derivatives with respect to the four entries of the state, in the same order. -/
structure Grad (K : Type*) where
  (xx zz g p : K)

/-- Operators of a cell: `D11_n..D14_n`, `D21_n..D24_n`. -/
structure CellOp (K : Type*) where
  (D1 D2 : Grad K)

/-- Cell operators of the Picard linearisation (StokesRoutines.c:97-121; air 159-164 gives zeros). -/
def cellPicard (air : Bool) (eta ani d1 d2 : K) : CellOp K :=
  let a := 1 - 1 / ani
  if air then ⟨⟨0, 0, 0, 0⟩, ⟨0, 0, 0, 0⟩⟩
  else ⟨⟨2 * eta - 2 * a * d1 * eta, 2 * a * d1 * eta, -2 * a * d2 * eta, 0⟩,
        ⟨2 * a * d1 * eta, 2 * eta - 2 * a * d1 * eta, 2 * a * d2 * eta, 0⟩⟩

/-- Vertex operators of the Picard linearisation, `D31_s..D34_s` (StokesRoutines.c:173-197; air 236-240). -/
def vertPicard (air : Bool) (eta ani d1 d2 : K) : Grad K :=
  let a := 1 - 1 / ani
  if air then ⟨0, 0, 0, 0⟩
  else ⟨-2 * a * d2 * eta, 2 * a * d2 * eta, eta + 2 * a * (d1 - 1 / 2) * eta, 0⟩

/-- Cell operators of the Newton linearisation (StokesRoutines.c:293-330; air 332-338).  `E` is the
effective state, `de`, `dd`, `da` the derivatives of viscosity, plastic divergence and anisotropy
factor, `kdt` is `K*dt` (zero for an incompressible model, 277-278).  Without anisotropy the code sets
`aniS_vep = d1 = d2 = 0` and `ani_vep = 1` (262-263, 280-282), which is `ani = 1`, `d1 = d2 = 0` here. -/
def cellNewton (air : Bool) (eta ani d1 d2 kdt : K) (E : Pt K) (de dd da : Grad K) : CellOp K :=
  let a := 1 - 1 / ani
  let e2 := eta / (ani * ani)
  let Dxx := E.xx * (1 - a * d1) + E.zz * a * d1 - E.g * a * d2
  let Dzz := E.zz * (1 - a * d1) + E.xx * a * d1 + E.g * a * d2
  let Axx := -E.xx * d1 * e2 + E.zz * d1 * e2 - E.g * d2 * e2
  let Azz := E.xx * d1 * e2 - E.zz * d1 * e2 + E.g * d2 * e2
  if air then ⟨⟨0, 0, 0, 0⟩, ⟨0, 0, 0, 0⟩⟩
  else
  ⟨⟨2 * (1 - a * d1) * eta + 2 * de.xx * Dxx - kdt * dd.xx + 2 * da.xx * Axx,
    2 * a * d1 * eta + 2 * de.zz * Dxx - kdt * dd.zz + 2 * da.zz * Axx,
    -2 * a * d2 * eta + 2 * de.g * Dxx - kdt * dd.g + 2 * da.g * Axx,
    2 * de.p * Dxx - kdt * dd.p + 2 * da.p * Axx⟩,
   ⟨2 * a * d1 * eta + 2 * de.xx * Dzz - kdt * dd.xx + 2 * da.xx * Azz,
    2 * (1 - a * d1) * eta + 2 * de.zz * Dzz - kdt * dd.zz + 2 * da.zz * Azz,
    2 * a * d2 * eta + 2 * de.g * Dzz - kdt * dd.g + 2 * da.g * Azz,
    2 * de.p * Dzz - kdt * dd.p + 2 * da.p * Azz⟩⟩

/-- Vertex operators of the Newton linearisation (StokesRoutines.c:343-362; air 364-368). -/
def vertNewton (air : Bool) (eta ani d1 d2 : K) (E : Pt K) (de da : Grad K) : Grad K :=
  let a := 1 - 1 / ani
  let e2 := eta / (ani * ani)
  let Dxz := -E.xx * a * d2 + E.zz * a * d2 + E.g * (a * (d1 - 1 / 2) + 1 / 2)
  let Axz := -E.xx * d2 * e2 + E.zz * d2 * e2 + E.g * e2 * (d1 - 1 / 2)
  if air then ⟨0, 0, 0, 0⟩
  else
  ⟨-2 * a * d2 * eta + 2 * de.xx * Dxz + 2 * da.xx * Axz,
   2 * a * d2 * eta + 2 * de.zz * Dxz + 2 * da.zz * Axz,
   (2 * a * (d1 - 1 / 2) + 1) * eta + 2 * de.g * Dxz + 2 * da.g * Axz,
   2 * de.p * Dxz + 2 * da.p * Axz⟩
end

section
variable {K : Type*} [Field K] [LinearOrder K]

/-- `model->eta_average` (mdoodz.h: ARITHMETIC 0, HARMONIC 1, GEOMETRIC 2). -/
inductive Avg where
  | arithmetic | harmonic | geometric

/-- What `ViscosityConcise` returns for a phase at a perturbed state and the phase loop uses: `eta_vep`,
`div_pl`, `rho` (FD_Jacobian.c:66-67).  All other arguments of the call are the same in the two calls
of a difference. -/
structure Law (K : Type*) where
  (eta divp rho : Nat → K)

/-- Accumulators `detadE`, `ddivpdE`, `danidE`, `drhodP`. -/
structure Acc (K : Type*) where
  (eta divp ani rho : K)

/-- `PhaseRheologyLoop_v1` (FD_Jacobian.c:45-92): `cen` is `is_centroid` (0 vertex, 1 cell, 2 cell with
varied pressure), `w` the fractions of the phases, `ref` the viscosities stored by the last rheology
update (`phase_eta`). -/
def phaseLoop (av : Avg) (cen : Nat) (sign denom minf : K) (n : Nat) (w ref : Nat → K) (L : Law K) (s : Acc K) : Acc K :=
  let aniVep : K := 1
  forUp n s fun s p =>
    if minf < |w p| then
      { eta := match av with
          | .arithmetic => s.eta + sign * w p * L.eta p / denom
          | .harmonic => s.eta + sign * w p * L.eta p / denom / ref p ^ 2
          | .geometric => s.eta + sign * w p * L.eta p / denom / ref p
        ani := s.ani + sign * w p * aniVep / denom
        divp := if 0 < cen then s.divp + sign * w p * L.divp p / denom else s.divp
        rho := if cen = 2 then s.rho + sign * w p * L.rho p / denom else s.rho }
    else s

/-- Size of a perturbation (FD_Jacobian.c:99-103, 213-217). -/
def pert (tol x : K) : K := tol * |x| + tol / 10 ^ 10

/-- A pair of calls, one for each sign (e.g. FD_Jacobian.c:108-125), starting from the zeroed
accumulators of the caller (StokesRoutines.c:303-306), and the factor applied at the end
(FD_Jacobian.c:195-206, 309-320); `etaN` is the averaged viscosity stored on the grid. -/
def difference (av : Avg) (cen : Nat) (denom minf : K) (n : Nat) (w ref : Nat → K) (etaN : K) (Lp Lm : Law K) : Acc K :=
  let s := phaseLoop av cen 1 denom minf n w ref Lp ⟨0, 0, 0, 0⟩
  let s := phaseLoop av cen (-1) denom minf n w ref Lm s
  match av with
  | .arithmetic => s
  | .harmonic => { s with eta := s.eta * etaN ^ 2 }
  | .geometric => { s with eta := s.eta * etaN }

/-- The rheology of the phases as a function of `Exx`, `Ezz`, `Exz`, `P`. -/
abbrev PhaseLaw (K : Type*) := K → K → K → K → Law K

/-- The four differences of `DerivativesOnTheFly_n` (`cell = true`, FD_Jacobian.c:97-207, `tol = 1e-5`) and
of `DerivativesOnTheFly_s` (`cell = false`, 211-321, `tol = 1e-7`): derivatives with respect to `Exx`, `Ezz`,
`Gxz` (denominator `4 pert`, the shear rate itself being varied by `pert`) and `P`. -/
def derivatives (cell : Bool) (av : Avg) (tol minf : K) (n : Nat) (w ref : Nat → K) (etaN : K) (F : PhaseLaw K)
    (xx zz xz p : K) : Acc K × Acc K × Acc K × Acc K :=
  let c1 := if cell then 1 else 0
  let c2 := if cell then 2 else 0
  let hxx := pert tol xx
  let hzz := pert tol zz
  let hxz := pert tol xz
  let hp := pert tol p
  (difference av c1 (2 * hxx) minf n w ref etaN (F (xx + hxx) zz xz p) (F (xx - hxx) zz xz p),
   difference av c1 (2 * hzz) minf n w ref etaN (F xx (zz + hzz) xz p) (F xx (zz - hzz) xz p),
   difference av c1 (4 * hxz) minf n w ref etaN (F xx zz (xz + hxz) p) (F xx zz (xz - hxz) p),
   difference av c2 (2 * hp) minf n w ref etaN (F xx zz xz (p + hp)) (F xx zz xz (p - hp)))

end
end Verif.Tan
