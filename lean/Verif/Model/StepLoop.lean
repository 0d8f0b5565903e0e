import Verif.Model.StepUpdate
import Verif.Model.SurfaceFlow
import Verif.Model.ApplyBC
import Verif.Model.Timestep
import Verif.Model.GridFields

/-
The mechanical part of a time step with its fields: InitialiseSolutionFields (/repo/MDLIB/GridRoutines.c:331-408) followed by the
nonlinear loop and the final update (/repo/MDLIB/Main_DOODZ.c:631-871).  The solver (line 802: assembly is in Model/Stencil.lean,
factorisation in Model/Krylov.lean and Model/Powell.lean, line search in Model/LineSearch.lean) is a parameter: what is proved
here holds for every solver.  Isotropic case without Jacobian; output files, messages and memory are left out.
-/
namespace Verif.StepFlow
open Verif

/-- `InitialiseSolutionFields` (GridRoutines.c:331-408): the three loops (Model/SurfaceFlow.lean), then ApplyBC (406).  `first` is
`step == 0`, `E`, `D`, `P` are bkg_strain_rate, bkg_div_rate and bkg_pressure, `x`, `z`, `zu` the coordinates of the vertices and of
the rows of Vx nodes, `V` the values BCu.val, BCv.val, `f` the fields before.  What lies outside the arrays counts as zero. -/
noncomputable def initialFields (S : Setting) (first : Bool) (E D P : ℝ) (x z zu : Nat → ℝ) (V : BCVals ℝ) (f : LS.Fields) : LS.Fields :=
  let s : SFlow.Start ℝ := ⟨S.m.Nx, S.m.Nz, first, S.per, E, D, P, x, z, zu⟩
  let t : Tags := ⟨fun i => S.m.tu i, fun i => S.m.tv i, fun i => S.m.tp i⟩
  let g := applyBC S.m.Nx S.m.Nz t V ⟨s.uLoop t.u V.u f.u, s.vLoop t.v V.v f.v, s.pLoop t.p f.p⟩
  { u := fun i => if i < (S.m.Nz + 1) * S.m.Nx then g.u i else 0
    v := fun i => if i < S.m.Nz * (S.m.Nx + 1) then g.v i else 0
    p := fun i => if i < (S.m.Nz - 1) * (S.m.Nx - 1) then g.p i else 0 }

/-- The fields with which the time loop begins (Main_DOODZ.c:214, 273-277): InitialiseSolutionFields at step 0, then the lithostatic pressure in p_in
(ComputeLithostaticPressure with mode 1, Model/GridFields.lean; `rho` is the density of the cells). -/
noncomputable def runStart (S : Setting) (E D P : ℝ) (x z zu : Nat → ℝ) (V : BCVals ℝ) (rho : Nat → ℝ) (f : LS.Fields) : LS.Fields :=
  { initialFields S true E D P x z zu V f with
    p := fun i => if i < (S.m.Nz - 1) * (S.m.Nx - 1) then GridField.lithostatic (S.m.Nx - 1) (S.m.Nz - 1) (fun i => S.m.tp i) S.body.gz S.m.dz P rho i else 0 }

/-- The setting with another time step: `model.dt`, which safe mode shortens in the middle of a step (Main_DOODZ.c:819). -/
noncomputable def Setting.withDt (S : Setting) (dt : ℝ) : Setting :=
  { S with env := { S.env with dt := dt }, m := { S.m with dt := dt } }

/-- Where the loop stands: counters, time step and residuals (Model/Timestep.lean), the fields u_in, v_in, p_in, and the mesh. -/
structure Progress where
  s : Time.LoopState ℝ
  f : LS.Fields
  t : Mech

/-- How a pass ends: with another pass, with the loop left, with `exit(code)`, or with an undefined number. -/
inductive PassEnd where
  | go (P : Progress)
  | leave (P : Progress) (l : Time.Leave)
  | exit (code : Nat)
  | nan

/-- A solve with line search (SolveStokesDefectDecoupled, Main_DOODZ.c:802-803): from the fields and the mesh it makes the new fields and the new
mesh and says whether it stagnated.  The number is that of the evaluations so far. -/
abbrev Solver := Nat → LS.Fields → Mech → LS.Fields × Mech × Bool

/-- One pass of the nonlinear loop (Main_DOODZ.c:712-841): update, assembly and residual (`pass`), the norms (`none`: `exit(122)`,
StokesRoutines.c:911-917), the convergence test, otherwise a solve; after a stagnation in safe mode the fields are those the step started with
(825-827). -/
noncomputable def passOnce (S : Setting) (norms : Rows → Option (ℝ × ℝ × ℝ)) (c : Time.LoopCfg ℝ) (start : LS.Fields) (solve : Solver) (P : Progress) : PassEnd :=
  match pass (S.withDt P.s.dt) P.f P.t with
  | .exit k => .exit k
  | .nan => .nan
  | .ok (o, R) =>
    match norms R with
    | none => .exit 122
    | some r =>
      let y := solve P.s.evals P.f o
      match Time.loopBody c ⟨r.1, r.2.1, r.2.2⟩ y.2.2 P.s with
      | (s, some .converged) => .leave ⟨s, P.f, o⟩ .converged
      | (_, some .exitStag) => .exit 0
      | (s, some l) => .leave ⟨s, y.1, y.2.1⟩ l
      | (s, none) => .go ⟨s, if s.nstag = P.s.nstag then y.1 else start, y.2.1⟩

/-- The loop (Main_DOODZ.c:675-842); `fuel` bounds the number of passes in the model only. -/
noncomputable def passes (S : Setting) (norms : Rows → Option (ℝ × ℝ × ℝ)) (c : Time.LoopCfg ℝ) (start : LS.Fields) (solve : Solver) : Nat → Progress → Option PassEnd
  | 0, P => if P.s.nit ≤ c.nitMax ∧ P.s.nstag < c.maxNumStag then none else some (.leave P .limit)
  | fuel + 1, P =>
    if P.s.nit ≤ c.nitMax ∧ P.s.nstag < c.maxNumStag then
      match passOnce S norms c start solve P with
      | .go P' => passes S norms c start solve fuel P'
      | r => some r
    else some (.leave P .limit)

/-- What a step leaves: fields, mesh, and the state of the loop. -/
structure StepEnd where
  f : LS.Fields
  o : Mech
  s : Time.LoopState ℝ

open Classical in
/-- The mechanical part of a time step (Main_DOODZ.c:631-871): start fields, loop, final update (850-851), residual report, which may end the run
(861-871).  `f`, `t` are fields and mesh left by the step before, `r` what the residuals held.  `none`: the fuel did not suffice. -/
noncomputable def mechStep (S : Setting) (norms : Rows → Option (ℝ × ℝ × ℝ)) (c : Time.LoopCfg ℝ) (solve : Solver) (first : Bool) (E D P : ℝ) (x z zu : Nat → ℝ)
    (V : BCVals ℝ) (r : Time.Res ℝ) (fuel : Nat) (f : LS.Fields) (t : Mech) : Option (Point.Outcome StepEnd) :=
  let f0 := initialFields S first E D P x z zu V f
  match passes S norms c f0 solve fuel ⟨⟨0, 0, S.env.dt, 0, r, r⟩, f0, t⟩ with
  | none => none
  | some (.exit k) => some (.exit k)
  | some .nan => some .nan
  | some (.go _) => none
  | some (.leave Q l) =>
    match finishStep (S.withDt Q.s.dt) Q.f Q.t with
    | .exit k => some (.exit k)
    | .nan => some .nan
    | .ok (f', o) => if Time.continues c Q.s l then some (.ok ⟨f', o, Q.s⟩) else some (.exit 1)

end Verif.StepFlow
