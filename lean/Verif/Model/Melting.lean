import Verif.Prelude
import Verif.Model.Basic
import Mathlib.Analysis.SpecialFunctions.Exp
import Mathlib.Algebra.Order.Floor.Ring

/-
Partial melting (/repo/MDLIB/MeltingRoutines.c) and table look-ups (/repo/MDLIB/RheologyDensity.c).
-/
namespace Verif.Melt
open Verif

/-- Solidus in K at pressure `p` in MPa for a melting model (MeltingRoutines.c:56-110); `t` is the
temperature, which serves as solidus and liquidus of unknown models (line 51).  In model 11 the
comma of `20,200` is a comma operator: the term read is `20` (line 82); in model 41 the quadratic term
is divided by, not multiplied with, the squared pressure (line 106). -/
noncomputable def solidus (m : Int) (p t : ℝ) : ℝ :=
  if m = 1 then 600 + 273.15
  else if m = 10 then
    if 1600 < p then 935 + 0.0035 * p + 0.0000062 * p ^ 2 else 973 - 70400 / (p + 354) + 77800000 / (p + 354) ^ 2
  else if m = 11 then if 1200 < p then 831 + 0.06 * p else 889 - 17900 / (p + 54) + 20
  else if m = 40 then
    if 10000 < p then 2212 + 0.030819 * (p - 10000) else 1394 + 0.132899 * p - 0.000005014 * p ^ 2
  else if m = 41 then
    if 10000 < p then 2212 + 0.030819 * (p - 10000) else 1394 + 0.132899 * p - 0.000005014 / p ^ 2
  else t

/-- Liquidus (MeltingRoutines.c:59, 72, 84, 96, 108). -/
noncomputable def liquidus (m : Int) (p t : ℝ) : ℝ :=
  if m = 1 then 1200 + 273.15
  else if m = 10 then 1423 + 0.105 * p
  else if m = 11 then 1262 + 0.09 * p
  else if m = 40 then 2073 + 0.114 * p
  else if m = 41 then 2073 + 0.114 * p
  else t

/-- Curvature of the melting law (MeltingRoutines.c:52, 61). -/
noncomputable def curvature (m : Int) (sT : ℝ) : ℝ := if m = 1 then -0.1 else 1e-7 / (1 / sT)

/-- Solidus kept at least 100 K below the liquidus (MeltingRoutines.c:120-123). -/
noncomputable def capped (ts tl : ℝ) : ℝ := if tl - 100 < ts then tl - 100 else ts

/-- `PartialMelting`, melt fraction only (MeltingRoutines.c:44-134): pressure, temperature, old
fraction, kinetic time, time step, model, scales of stress and temperature. -/
noncomputable def melt (P T phi0 tk dt : ℝ) (m : Int) (sS sT : ℝ) : ℝ :=
  if 0 < m ∧ 1e-13 < T ∧ 1e-13 < P then
    let p := P / 1e6 * sS
    let t := T * sT
    let tl := liquidus m p t
    if 0 < tl then
      let ts := capped (solidus m p t) tl
      let a := curvature m sT
      let eq := (Real.exp (a * t) - Real.exp (a * ts)) / (Real.exp (a * tl) - Real.exp (a * ts))
      let phi := dt / (tk + dt) * eq + tk / (tk + dt) * phi0
      let phi := if phi < 0 then 0 else phi
      if 1 < phi then 1 else phi
    else 0
  else 0

/-- `MeltFractionGrid`, one cell (MeltingRoutines.c:146-156): phase fractions `w`, melting models `m`
and kinetic times `tk` per phase. -/
noncomputable def meltCell (n : Nat) (w : Nat → ℝ) (m : Nat → Int) (tk : Nat → ℝ) (P T phi0 dt sS sT : ℝ) : ℝ :=
  forUp n (0 : ℝ) fun s p => if 1e-13 < |w p| then s + w p * melt P T phi0 (tk p) dt (m p) sS sT else s

/-- Effective heat capacity of one cell (MeltingRoutines.c:163-219): `flag0` is the pressure flag of cell
zero, which the code tests in every cell; `cp` the heat capacities and `ql` the latent heats of the
phases. -/
noncomputable def heatCapacity (flag0 : Int) (n : Nat) (w cp ql : Nat → ℝ) (m : Nat → Int) (tk : Nat → ℝ)
    (P T phi0 dt sS sT : ℝ) : ℝ :=
  forUp n (0 : ℝ) fun s p =>
    if 1e-13 < |w p| then
      if flag0 ≠ 30 ∧ flag0 ≠ 31 then
        let phi := melt P T phi0 (tk p) dt (m p) sS sT
        let cpm := if 1e-13 < phi then
            let pert := T * 1e-6
            ql p * ((melt P (T + pert) phi0 (tk p) dt (m p) sS sT - melt P (T - pert) phi0 (tk p) dt (m p) sS sT)
              / (2 * pert))
          else 0
        s + w p * (cp p + cpm)
      else s
    else s

section
variable {K : Type*} [Field K] [LinearOrder K] [FloorRing K]

/-- Value used for the look-up, moved inside the table (RheologyDensity.c:1601-1602, 1630-1633). -/
def inside (lo hi d x : K) : K :=
  let x := if x < lo then lo + 1 / 100 * d else x
  if hi < x then hi - 1 / 100 * d else x

/-- Lower index and its weight (RheologyDensity.c:1604-1608, 1635-1644). -/
def lower (lo hi d x : K) : Int := ⌈(inside lo hi d x - lo) / d⌉ - 1

/-- See `lower`. -/
def weight (lo hi d x : K) : K := 1 - (inside lo hi d x - (lo + (lower lo hi d x : K) * d)) / d

/-- `ItpRho1D` (RheologyDensity.c:1597-1612): `tab` is the memory the table pointer addresses, by
signed index. -/
def lookup1 (n : Nat) (lo hi : K) (tab : Int → K) (x : K) : K :=
  let d := (hi - lo) / ((n : K) - 1)
  let i := lower lo hi d x
  let w := weight lo hi d x
  w * tab i + (1 - w) * tab (i + 1)

/-- Table entries `lookup1` reads (RheologyDensity.c:1610). -/
def reads1 (n : Nat) (lo hi x : K) : List Int :=
  let i := lower lo hi ((hi - lo) / ((n : K) - 1)) x
  [i, i + 1]

/-- `Interpolate2Ddata` (RheologyDensity.c:1618-1654). -/
def lookup2 (nT nP : Nat) (Tlo Thi Plo Phi : K) (tab : Int → K) (T P : K) : K :=
  let dT := (Thi - Tlo) / ((nT : K) - 1)
  let dP := (Phi - Plo) / ((nP : K) - 1)
  let iT := lower Tlo Thi dT T
  let iP := lower Plo Phi dP P
  let wT := weight Tlo Thi dT T
  let wP := weight Plo Phi dP P
  0 + (1 - wT) * (1 - wP) * tab (iT + (iP + 1) * nT + 1) + wT * (1 - wP) * tab (iT + (iP + 1) * nT)
    + (1 - wT) * wP * tab (iT + iP * nT + 1) + wT * wP * tab (iT + iP * nT)

/-- Table entries `lookup2` reads (RheologyDensity.c:1645-1653). -/
def reads2 (nT nP : Nat) (Tlo Thi Plo Phi T P : K) : List Int :=
  let iT := lower Tlo Thi ((Thi - Tlo) / ((nT : K) - 1)) T
  let iP := lower Plo Phi ((Phi - Plo) / ((nP : K) - 1)) P
  [iT + (iP + 1) * nT + 1, iT + (iP + 1) * nT, iT + iP * nT + 1, iT + iP * nT]

end
end Verif.Melt
