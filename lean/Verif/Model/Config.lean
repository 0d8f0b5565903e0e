import Mathlib.Algebra.Field.Basic
import Mathlib.Algebra.Order.Field.Basic
import Mathlib.Algebra.Order.Floor.Defs
import Mathlib.Data.Int.Notation

/-
Derived quantities of the input: characteristic scales (`ScaleMe`, /repo/MDLIB/InputOutput.c:
1681-1695) and the switches that `ReadInputFile` overrides after reading
(InputOutput.c:1031, 1141-1145, 1225-1236).
-/
namespace Verif.Config

/-- The scale structure (`scale`, mdoodz.h; filled at InputOutput.c:1053-1059 and in `ScaleMe`). -/
structure Scale (K : Type*) where
  eta : K
  L : K
  V : K
  T : K
  t : K
  a : K
  E : K
  S : K
  m : K
  rho : K
  F : K
  J : K
  W : K
  Cp : K
  k : K
  rhoE : K

/-- `ScaleMe` (InputOutput.c:1681-1695); `pow(x, 2.0)` is the square. -/
def scaleMe {K : Type*} [Field K] (eta L V T : K) : Scale K :=
  let t := L / V
  let a := V / t
  let E := 1 / t
  let S := eta / t
  let m := S * L * t ^ 2
  let rho := m / L ^ 3
  let F := m * L / t ^ 2
  let J := m * L ^ 2 / t ^ 2
  let W := J / t
  let Cp := J / m / T
  let k := W / L / T
  let rhoE := J / m * rho
  { eta, L, V, T, t, a, E, S, m, rho, F, J, W, Cp, k, rhoE }

/-- The switches that are read and then adjusted (InputOutput.c:1029-1031, 1096, 1108-1148). -/
@[ext] structure Switches where
  istep : Int
  irestart : Int
  interpStencil : Int
  shearStyle : Int
  periodicX : Int
  anisotropy : Int
  finiteStrain : Int
  newton : Int
  picard2Newton : Int
  lineSearch : Int
  linSolver : Int
  deriving DecidableEq, Repr

/-- A start at step 0 is not a restart (InputOutput.c:1031). -/
def fixRestart (s : Switches) : Switches := if s.istep = 0 then { s with irestart := 0 } else s

/-- Simple shear is periodic (InputOutput.c:1226). -/
def fixSimple (s : Switches) : Switches := if s.shearStyle = 1 then { s with periodicX := 1 } else s

/-- Pure shear is not periodic (InputOutput.c:1227). -/
def fixPure (s : Switches) : Switches := if s.shearStyle = 0 then { s with periodicX := 0 } else s

/-- Anisotropy tracks finite strain (InputOutput.c:1228). -/
def fixAniso (s : Switches) : Switches :=
  if s.anisotropy = 1 then { s with finiteStrain := 1 } else s

/-- Picard runs do not switch to Newton (InputOutput.c:1231). -/
def fixPicard (s : Switches) : Switches := if s.newton = 0 then { s with picard2Newton := 0 } else s

/-- Newton runs use line search (InputOutput.c:1232). -/
def fixNewton (s : Switches) : Switches := if s.newton = 1 then { s with lineSearch := 1 } else s

/-- Choice of the linear solver (InputOutput.c:1233-1236). -/
def fixSolver (s : Switches) : Switches :=
  if s.linSolver = 0 ∨ s.newton = 1 ∨ s.anisotropy = 1 then { s with linSolver := 2 } else s

/-- The adjustments made by `ReadInputFile` in their order (InputOutput.c:1031, 1225-1236); `none`
is `exit(1)` for an unknown interpolation stencil. -/
def resolve (s : Switches) : Option Switches :=
  let s := fixRestart s
  if s.interpStencil ≠ 1 ∧ s.interpStencil ≠ 9 then none
  else some (fixSolver (fixNewton (fixPicard (fixAniso (fixPure (fixSimple s))))))

/-- Number of markers announced, `(Nx-1)*(Nz-1)*Nx_part*Nz_part` (InputOutput.c:1144). Simplified:
no 32-bit overflow. -/
def nbPart (Nx Nz NxP NzP : Int) : Int := (Nx - 1) * (Nz - 1) * NxP * NzP

/-- Capacity of the marker arrays, `Nb_part_max = 4.1*Nb_part` truncated to an integer
(InputOutput.c:1145). Simplified: exact arithmetic. -/
def nbPartMax (K : Type*) [Field K] [LinearOrder K] [FloorRing K] (nb : Int) : Int :=
  let x : K := 41 / 10 * (nb : K)
  if x < 0 then ⌈x⌉ else ⌊x⌋

end Verif.Config
