import Verif.Prelude
import Verif.Model.Basic
import Mathlib.Algebra.Order.Field.Basic
import Mathlib.Analysis.SpecialFunctions.Log.Basic

/-
Local rheology (/repo/MDLIB/RheologyDensity.c): strain softening, plastic return mapping, phase
averages of viscosity, effective visco-elastic strain rate.
-/
namespace Verif.Rheo
open Verif

section
variable {K : Type*} [Field K] [LinearOrder K]

/-! ### Softening -/

/-- Piecewise linear softening of one strength parameter (RheologyDensity.c:1149-1172): `v0`, `v1`
initial and final value, `s0`, `s1` the softening window, `soft` the switch of that parameter.  The
three `if` are separate statements in the code. -/
def softenLinear (soft : Bool) (v0 v1 s0 s1 strain : K) : K :=
  let f := v0
  let f := if strain < s0 then (if soft then v0 else f) else f
  let f := if s1 ≤ strain then (if soft then v1 else f) else f
  if s0 ≤ strain ∧ strain < s1 then (if soft then v0 + (v1 - v0) / (s1 - s0) * strain else f) else f

/-- Error-function softening of one parameter (RheologyDensity.c:1121-1147); `erfc` is a parameter. -/
def softenErf (erfc : K → K) (soft : Bool) (v0 v1 s0 s1 strain : K) : K :=
  if soft then
    let dstrain := s1 - s0
    let mu := 1 / 2 * (s1 + s0)
    let d := v0 - v1
    let f := v0 - d / 2 * erfc (-(strain - mu) / dstrain) - v1
    let f0 := v0 - d / 2 * erfc (-(0 - mu) / dstrain) - v1
    f * d / f0 + v1
  else v0

/-! ### Yield stress and return mapping -/

/-- Yield stress with the von Mises cut-off (RheologyDensity.c:503-511). -/
def yieldStress (C cosf sinf P slim : K) : K :=
  let t := C * cosf + P * sinf
  if slim < t then slim else t

/-- Variables of the return mapping (RheologyDensity.c:624-670). -/
structure Ret (K : Type*) where
  gdot : K
  tyield : K
  pc : K
  etaVp : K
  tiic : K
  f : K
  stop : Bool

/-- Parameters of the return mapping: trial stress, visco-elastic viscosity, reference
visco-plastic viscosity, `pw x = x^(1/n_vp-1)`, `nvp`, pressure, `K*dt`, sines of friction and dilation
angle, tolerance. -/
structure RetPar (K : Type*) where
  tii : K
  etaVe : K
  etaVp0 : K
  pw : K → K
  nvp : K
  P : K
  kdt : K
  sinf : K
  sind : K
  tol : K

/-- One pass of the Newton loop (RheologyDensity.c:641-660); `F0` is the trial yield function. -/
def retStep (q : RetPar K) (F0 : K) (s : Ret K) : Ret K :=
  if s.stop then s
  else
    let dQdP := -q.sind
    let divp := -s.gdot * dQdP
    let pc := q.P + q.kdt * divp
    let etaVp := q.etaVp0 * q.pw |s.gdot|
    let tyield := s.tyield + s.gdot * etaVp
    let tiic := q.tii - q.etaVe * s.gdot
    let f := tiic - tyield
    let res := |f|
    if res < q.tol ∨ res / F0 < q.tol then
      { gdot := s.gdot, tyield := tyield, pc := pc, etaVp := etaVp, tiic := tiic, f := f, stop := true }
    else
      let dF := -q.etaVe - etaVp / q.nvp - q.kdt * q.sinf * q.sind
      { gdot := s.gdot - f / dF, tyield := tyield, pc := pc, etaVp := etaVp, tiic := tiic, f := f,
        stop := false }

/-- State before the loop (RheologyDensity.c:632-637); `pwE = Eii^(1/n_vp-1)`. -/
def retInit (q : RetPar K) (pwE tyield : K) : Ret K :=
  let F := q.tii - tyield
  let etaVp := q.etaVp0 * pwE
  { gdot := F / (q.etaVe + etaVp + q.kdt * q.sinf * q.sind)
    tyield := tyield, pc := q.P, etaVp := etaVp, tiic := 0, f := F, stop := false }

/-- Result of the plastic correction: effective stress, corrected pressure, plastic multiplier rate,
visco-plastic viscosity, and whether plasticity was active (RheologyDensity.c:617-676). -/
structure Plastic (K : Type*) where
  tii : K
  pc : K
  gdot : K
  etaVp : K
  active : Bool

/-- The plastic part of `ViscosityConcise` (RheologyDensity.c:617-676), `nitmax = 20`; `eps` is
`1e-17` and `tmin` the minimum stress `1e5/scaling->S` taken in tension. -/
def plastic (q : RetPar K) (pwE eps tmin tyield : K) : Plastic K :=
  if eps < q.tii - tyield then
    let s := forUp 20 (retInit q pwE tyield) (fun s _ => retStep q (q.tii - tyield) s)
    if s.tiic < 0 then
      { tii := tmin, pc := q.P, gdot := (q.tii - tmin) / q.etaVe, etaVp := s.etaVp, active := true }
    else { tii := s.tiic, pc := s.pc, gdot := s.gdot, etaVp := s.etaVp, active := true }
  else { tii := q.tii, pc := q.P, gdot := 0, etaVp := q.etaVp0, active := false }

/-- Viscosity limiter at the end of `ViscosityConcise` (RheologyDensity.c:784-800). -/
def limiter (lo hi eta : K) : K :=
  let e := if hi < eta then hi else eta
  if e < lo then lo else e

/-! ### Phase averages -/

/-- Arithmetic and harmonic phase averages (RheologyDensity.c:893-911, 960-963, 1040-1057): phases
whose fraction is at most `minf` are skipped; fractions `w`, viscosities `eta`. -/
def avgArith (minf : K) (n : Nat) (w eta : Nat → K) : K :=
  forUp n 0 fun s p => if minf < |w p| then s + w p * eta p else s

/-- See `avgArith` (RheologyDensity.c:903-906, 961-962). -/
def avgHarm (minf : K) (n : Nat) (w eta : Nat → K) : K :=
  1 / forUp n 0 fun s p => if minf < |w p| then s + w p * 1 / eta p else s

/-! ### Effective strain rate -/

/-- `EffectiveStrainRate` with elasticity (RheologyDensity.c:46-69): total strain rate
components from strain rate `e`, old stress `T`, director functions `d1`, `d2`, anisotropy
parameter `a` and elastic viscosity `eta`. -/
def effective (e T : K × K × K) (d1 d2 a eta : K) : K × K × K :=
  let Da11 := 2 - 2 * a * d1
  let Da12 := 2 * a * d1
  let Da13 := -2 * a * d2
  let Da22 := 2 - 2 * a * d1
  let Da23 := 2 * a * d2
  let Da33 := 1 + 2 * a * (d1 - 1 / 2)
  let a11 := Da33 * Da22 - Da23 ^ 2
  let a12 := Da13 * Da23 - Da33 * Da12
  let a13 := Da12 * Da23 - Da13 * Da22
  let a22 := Da33 * Da11 - Da13 ^ 2
  let a23 := Da12 * Da13 - Da11 * Da23
  let a33 := Da11 * Da22 - Da12 ^ 2
  let det := Da11 * a11 + Da12 * a12 + Da13 * a13
  (e.1 + (a11 / det * T.1 + a12 / det * T.2.1 + a13 / det * T.2.2) / eta,
   e.2.1 + (a12 / det * T.1 + a22 / det * T.2.1 + a23 / det * T.2.2) / eta,
   e.2.2 + (a13 / det * T.1 + a23 / det * T.2.1 + a33 / det * T.2.2) / eta / 2)

end

/-- Geometric phase average (RheologyDensity.c:907-911, 985-988). -/
noncomputable def avgGeom (minf : ℝ) (n : Nat) (w eta : Nat → ℝ) : ℝ :=
  Real.exp (forUp n 0 fun s p => if minf < |w p| then s + w p * Real.log (eta p) else s)

end Verif.Rheo
