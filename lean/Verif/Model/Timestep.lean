import Verif.Prelude
import Verif.Model.Basic
import Mathlib.Algebra.Order.Floor.Semiring

/-
Time step selection, advection sub-stepping, nonlinear loop and model clock
(AdvectionRoutines.c:513-683, Main_DOODZ.c:435-459, 650-870, 1013-1176).
-/
namespace Verif.Time
open Verif

variable {K : Type*} [Field K] [LinearOrder K] [IsStrictOrderedRing K]

/-- Macro `MAXV` (mdoodz-private.h). -/
def maxV (a b : K) : K := if a ≥ b then a else b
/-- Macro `MINV` (mdoodz-private.h). -/
def minV (a b : K) : K := if a ≤ b then a else b

/-- Velocity scan of `EvaluateCourantCriterion` (AdvectionRoutines.c:574-580 and 582-588): running
maximum and minimum over all nodes, both starting from zero, column by column. -/
def velScan (ncol nrow : Nat) (V : Nat → K) : K × K :=
  forUp ncol (0, 0) fun s k => forUp nrow s fun s l =>
    (maxV s.1 (V (k + l * ncol)), minV s.2 (V (k + l * ncol)))

/-- Parameters read by `EvaluateCourantCriterion` (members of `params`; `dtReac` is
`model.user1/scaling.t/model.dt_reduction_factor`, line 569-570). -/
structure StepParams (K : Type*) where
  Nx : Nat
  Nz : Nat
  constantDt : Int
  elastic : Int
  surfaceProcesses : Int
  chemicalDiffusion : Int
  courant : K
  dx : K
  dz : K
  surfVinc : K
  dtReac : K
  dt0 : K
  dtStart : K
  dtMin : K
  dtMax : K

/-- Largest speed (AdvectionRoutines.c:605-608). -/
def vmax (P : StepParams K) (Vx Vz : Nat → K) : K :=
  let sx := velScan P.Nx (P.Nz + 1) Vx
  let sz := velScan (P.Nx + 1) P.Nz Vz
  let vM := maxV |sx.1| |sz.1|
  let vm := maxV |sx.2| |sz.2|
  maxV |vM| |vm|

/-- Division of a positive number by a speed in floating point: infinite (`none`) for zero speed
(AdvectionRoutines.c:623, 628). -/
def divSpeed (a b : K) : Option K := if b = 0 then none else some (a / b)

/-- Growth factor (AdvectionRoutines.c:615-620). -/
def growth (P : StepParams K) : K := if P.elastic = 1 then 5 / 4 else 2

/-- Courant step cut at `fact*dt0` (AdvectionRoutines.c:623-636); `v` is the largest speed. -/
def dtCourant (P : StepParams K) (v : K) : K :=
  let cap := growth P * P.dt0
  match divSpeed (P.courant * minV P.dx P.dz) |v| with
  | none => cap
  | some d => if d > cap then cap else d

/-- Limitation by surface processes (AdvectionRoutines.c:627-630, 642-645). -/
def dtSurface (P : StepParams K) (dt : K) : K :=
  if P.surfaceProcesses > 0 then
    match divSpeed (P.courant * minV P.dx P.dz) |P.surfVinc| with
    | none => dt
    | some s => if s < dt then s else dt
  else dt

/-- Limitation by chemical reaction (AdvectionRoutines.c:649-653). -/
def dtChemical (P : StepParams K) (dt : K) : K :=
  if P.chemicalDiffusion = 1 ∧ P.dtReac < dt then P.dtReac else dt

/-- Reset when the step is huge or nothing moves (AdvectionRoutines.c:656-660). -/
def dtRest (P : StepParams K) (v dt : K) : K :=
  if dt > 10 ^ 30 ∨ v < 1 / 10 ^ 30 then P.dtStart else dt

/-- The two final clamps, upper bound first (AdvectionRoutines.c:663-670). -/
def dtClamp (P : StepParams K) (dt : K) : K :=
  let d := if dt > P.dtMax then P.dtMax else dt
  if d < P.dtMin then P.dtMin else d

/-- `EvaluateCourantCriterion` (AdvectionRoutines.c:563-683): returned value of `model->dt`.
Printing and the unused thermal limit (lines 590-600) are left out. -/
def evaluateCourant (P : StepParams K) (Vx Vz : Nat → K) : K :=
  if P.constantDt = 0 then
    let v := vmax P Vx Vz
    dtClamp P (dtRest P v (dtChemical P (dtSurface P (dtCourant P v))))
  else P.dtStart

/-- `DefineInitialTimestep` (AdvectionRoutines.c:513-545): initial step limited by the smallest
Maxwell time over the vertices not in air (`air k` is `BCg.type[k] == 30`); only the returned `dt`.
`big` is the literal `1e100`. -/
def initialDt (elastic constantDt : Int) (n : Nat) (air : Nat → Bool) (eta mu : Nat → K) (big dt : K) :
    K :=
  if elastic = 1 ∧ constantDt ≠ 1 then
    let m := forUp n big fun m k => if !air k then (if eta k / mu k < m then eta k / mu k else m) else m
    if m < dt then m else dt
  else dt

/-- Result of splitting advection: the list of sub-steps taken and the value `model.dt` has
afterwards. -/
structure Split (K : Type*) where
  steps : List K
  dtAfter : K

/-- Advection sub-stepping (Main_DOODZ.c:1019-1036 and 1041, 1176): `dtSolve` is the step of the
mechanical solve, `dtAdv` the step returned by `EvaluateCourantCriterion`. -/
def advectionSplit [FloorSemiring K] (dtSolve dtAdv : K) : Split K :=
  if dtAdv < 95 / 100 * dtSolve then
    let nsub := ⌈dtSolve / dtAdv⌉₊
    { steps := List.replicate nsub (dtSolve / (nsub : K)), dtAfter := dtSolve }
  else { steps := [dtSolve], dtAfter := dtSolve }

/-- Switches and tolerances of the nonlinear loop (members of `params` and `Nparams`). -/
structure LoopCfg (K : Type*) where
  nitMax : Nat
  maxNumStag : Nat
  safeMode : Int
  elastic : Int
  safeDtDiv : K
  absMom : K
  absDiv : K
  relMom : K
  relDiv : K

/-- Three residual norms. -/
structure Res (K : Type*) where
  x : K
  z : K
  p : K

/-- State of the nonlinear loop: `nit`, `nstag`, current `dt`, number of residual evaluations so
far, last residuals and residuals of the first iteration of the current cycle. -/
structure LoopState (K : Type*) where
  nit : Nat
  nstag : Nat
  dt : K
  evals : Nat
  res : Res K
  res0 : Res K

/-- How the loop is left. `limit` = loop condition false, `stagnated` = `break` after stagnation,
`exitStag` = `exit(0)` at Main_DOODZ.c:835. -/
inductive Leave where
  | converged
  | stagnated
  | limit
  | exitStag
  deriving DecidableEq

/-- `r/r0 < tol` in floating point (false when `r0 = 0`). -/
def relOk (r r0 tol : K) : Prop := r0 ≠ 0 ∧ r / r0 < tol

/-- Convergence test (Main_DOODZ.c:794). -/
def convTest (c : LoopCfg K) (r r0 : Res K) : Prop :=
  (r.x < c.absMom ∨ relOk r.x r0.x c.relMom) ∧ (r.z < c.absMom ∨ relOk r.z r0.z c.relMom) ∧
    (r.p < c.absDiv ∨ relOk r.p r0.p c.relDiv)

open Classical in
/-- One pass of the nonlinear loop (Main_DOODZ.c:675-842). `r` are the residuals returned by
`EvaluateStokesResidualDecoupled`, `stag` the stagnation flag left by the solve and line search. -/
noncomputable def loopBody (c : LoopCfg K) (r : Res K) (stag : Bool) (s : LoopState K) :
    LoopState K × Option Leave :=
  let res0 := if s.nit = 0 then r else s.res0
  let s := { s with evals := s.evals + 1, res := r, res0 := res0 }
  if convTest c r res0 then (s, some .converged)
  else if stag = true ∧ c.safeMode ≤ 0 then (s, some .stagnated)
  else if stag = true ∧ c.elastic = 1 ∧ c.safeMode = 1 then
    let s := { s with dt := s.dt / c.safeDtDiv, nstag := s.nstag + 1 }
    if s.nstag = c.maxNumStag then (s, some .exitStag) else ({ s with nit := 0 }, none)
  else ({ s with nit := s.nit + 1 }, none)

/-- The `while` loop (Main_DOODZ.c:675): `fuel` bounds the number of passes in the model only (the
theorems show that a computed amount of fuel always suffices).  `orc n` gives the residuals and the
stagnation flag of the `n`-th evaluation. -/
noncomputable def loop (c : LoopCfg K) (orc : Nat → Res K × Bool) :
    Nat → LoopState K → Option (LoopState K × Leave)
  | 0, s => if s.nit ≤ c.nitMax ∧ s.nstag < c.maxNumStag then none else some (s, .limit)
  | fuel + 1, s =>
    if s.nit ≤ c.nitMax ∧ s.nstag < c.maxNumStag then
      match loopBody c (orc s.evals).1 (orc s.evals).2 s with
      | (s', some l) => some (s', l)
      | (s', none) => loop c orc fuel s'
    else some (s, .limit)

/-- Does the run go on after the loop?  `exit(0)` inside the loop, or `exit(1)` in the residual
report when `nit_max` was reached in safe mode and the absolute tolerances are not met
(Main_DOODZ.c:861-871). -/
def continues (c : LoopCfg K) (s : LoopState K) (l : Leave) : Prop :=
  l ≠ .exitStag ∧
  ¬ (c.safeMode = 1 ∧ c.nitMax ≤ s.nit ∧
      ¬ (s.res.x < c.absMom ∧ s.res.z < c.absMom ∧ s.res.p < c.absDiv))

/-- Clock of the time loop. -/
structure Clock (K : Type*) where
  dt : K
  dt0 : K
  time : K

/-- One time step as seen by the clock (Main_DOODZ.c:450-458, 819, 1019-1176): the step is chosen
(`chosen`, any value returned by `EvaluateCourantCriterion`), added to the time at once, divided by
`div` for every stagnation restart, then used for advection.  Returns the new clock and the
sub-steps over which markers were advected (`advSplit`). -/
def clockStep (div : K) (chosen : K) (restarts : Nat) (advSplit : K → Split K) (c : Clock K) :
    Clock K × List K :=
  let dt := forUp restarts chosen fun dt _ => dt / div
  let a := advSplit dt
  ({ dt := a.dtAfter, dt0 := chosen, time := c.time + chosen }, a.steps)

/-- The time loop (Main_DOODZ.c:435): one entry per step = (chosen step, number of stagnation
restarts, Courant-limited step found before advection). -/
def clockRun [FloorSemiring K] (div : K) (hist : List (K × Nat × K)) (c : Clock K) :
    Clock K × List K :=
  hist.foldl (fun s h =>
    let r := clockStep div h.1 h.2.1 (fun dt => advectionSplit dt h.2.2) s.1
    (r.1, s.2 ++ r.2)) (c, [])

end Verif.Time
