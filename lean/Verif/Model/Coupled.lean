import Verif.Model.Powell
import Verif.Model.Config

/-
Model of the two Stokes solvers of /repo/MDLIB/Solvers.c not covered by `Model/Powell`: the coupled Krylov
solver `KSPStokesDecoupled` (1441-1960, `lin_solver = 1`) and the iterations of
`DirectStokesDecoupledComp` (681-935, `lin_solver = -1`); of the vector both start from,
`BuildInitialSolutions` (/repo/MDLIB/SparseTools.c:149-187); and of the choice of the solver in
`SolveStokesDefectDecoupled` (/repo/MDLIB/StokesRoutines.c:799-824).

Simplifications: as in `Model/Krylov` and `Model/Powell`.  Both solvers run in Picard mode only (the input
reader replaces the solver number otherwise, InputOutput.c:1233-1236), hence the Jacobian blocks handed to
`KSPStokesDecoupled` are the Picard blocks (Main_DOODZ.c:803).  The diagonals `D1` and `D` are parameters;
their construction is in `Model/Powell`.
-/
namespace Verif.Coupled

open Matrix Ksp PH

variable {n m : Nat}

/-! ### `KSPStokesDecoupled` -/

/-- `M = [A, B; C, D1]`, two horizontal and one vertical concatenation (Solvers.c:1757-1763). -/
def coupled (A : Matrix (Fin n) (Fin n) ℝ) (B : Matrix (Fin n) (Fin (m + 1)) ℝ)
    (C : Matrix (Fin (m + 1)) (Fin n) ℝ) (D1 : Fin (m + 1) → ℝ) :
    Matrix (Fin (n + (m + 1))) (Fin (n + (m + 1))) ℝ :=
  fun i => Fin.addCases (fun i j => Fin.addCases (A i) (B i) j)
    (fun i j => Fin.addCases (C i) (diagonal D1 i) j) i

/-- First part of a concatenated vector (Solvers.c:1792-1797). -/
def velPart (r : Vec (n + (m + 1))) : Vec n := fun i => r (Fin.castAdd (m + 1) i)

/-- Second part of a concatenated vector (Solvers.c:1798-1802). -/
def presPart (r : Vec (n + (m + 1))) : Vec (m + 1) := fun j => r (Fin.natAdd n j)

/-- Preconditioner (Solvers.c:1792-1821); `solve` is the substitution with the factorised matrix. -/
def blockPrec (C : Matrix (Fin (m + 1)) (Fin n) ℝ) (D : Fin (m + 1) → ℝ) (solve : Vec n → Vec n)
    (r : Vec (n + (m + 1))) : Vec (n + (m + 1)) :=
  let fu := velPart r
  let fp := presPart r
  let pdum := diagonal D *ᵥ fp
  let fu := fu - gradOf C *ᵥ pdum
  let u := solve fu
  let p := diagonal D *ᵥ fp
  let pdum := C *ᵥ u
  let p := p - diagonal D *ᵥ pdum
  Fin.append u p

/-- `restart` of this solver (Solvers.c:1706). -/
def restart20 : Nat := 20

/-- The loop `while ( success == 0 && its < max_it )` (Solvers.c:1786-1875) with cycles of twenty
directions; the body of a cycle is that of `kspgcr`, line by line.  Every pass adds at least one to `its`,
so `fuel = max_it` passes are enough. -/
noncomputable def loop20 {N : Nat} (M : Matrix (Fin N) (Fin N) ℝ) (prec : Vec N → Vec N) (thr : ℝ)
    (maxIt : Nat) : Nat → Ksp.St N → Option (Bool × Ksp.St N)
  | 0, st => some (false, st)
  | fuel + 1, st =>
    if st.its < maxIt then
      match cycle M prec thr restart20 0 st with
      | none => none
      | some (ok, st') =>
        if ok then some (true, { st' with its := st'.its + 1 })
        else loop20 M prec thr maxIt fuel { st' with its := st'.its + 1 }
    else some (false, st)

/-- `max_it` (Solvers.c:1707). -/
def maxIt : Nat := 1000

/-- The iteration of `KSPStokesDecoupled` from the start vector `[u0; p0]` with right-hand side `[bu; bp]`
(Solvers.c:1738-1875).  `none`: a zero norm was divided by and every unknown is not a number. -/
noncomputable def kspIterate (A : Matrix (Fin n) (Fin n) ℝ) (B : Matrix (Fin n) (Fin (m + 1)) ℝ)
    (C : Matrix (Fin (m + 1)) (Fin n) ℝ) (D1 D : Fin (m + 1) → ℝ) (solve : Vec n → Vec n) (eps : ℝ)
    (bu u0 : Vec n) (bp p0 : Vec (m + 1)) : Option (Bool × Ksp.St (n + (m + 1))) :=
  let M := coupled A B C D1
  let b := Fin.append bu bp
  let x := Fin.append u0 p0
  loop20 M (blockPrec C D solve) (eps * norm2 (Ksp.start M b x).f) maxIt maxIt (Ksp.start M b x)

/-- What the caller gets: velocity and pressure parts of the solution (Solvers.c:1880-1893), whether or not
the tolerance was met. -/
noncomputable def kspStokes (A : Matrix (Fin n) (Fin n) ℝ) (B : Matrix (Fin n) (Fin (m + 1)) ℝ)
    (C : Matrix (Fin (m + 1)) (Fin n) ℝ) (D1 D : Fin (m + 1) → ℝ) (solve : Vec n → Vec n) (eps : ℝ)
    (bu u0 : Vec n) (bp p0 : Vec (m + 1)) : Option (Vec n × Vec (m + 1)) :=
  (kspIterate A B C D1 D solve eps bu u0 bp p0).map fun r => (velPart r.2.x, presPart r.2.x)

/-! ### `DirectStokesDecoupledComp` -/

/-- Continuity residual (Solvers.c:897-899). -/
def compFp (C : Matrix (Fin (m + 1)) (Fin n) ℝ) (D1 : Fin (m + 1) → ℝ) (bp : Vec (m + 1))
    (s : Vec n × Vec (m + 1)) : Vec (m + 1) :=
  bp - C *ᵥ s.1 - diagonal D1 *ᵥ s.2

/-- One iteration: residuals, velocity correction, pressure correction (Solvers.c:894-922). -/
def compStep (A : Matrix (Fin n) (Fin n) ℝ) (C : Matrix (Fin (m + 1)) (Fin n) ℝ) (D1 D : Fin (m + 1) → ℝ)
    (solve : Vec n → Vec n) (bu : Vec n) (bp : Vec (m + 1)) (s : Vec n × Vec (m + 1)) :
    Vec n × Vec (m + 1) :=
  let fu := bu - A *ᵥ s.1 - gradOf C *ᵥ s.2
  let fp := compFp C D1 bp s
  let pdum := diagonal D *ᵥ fp
  let udum := fu - gradOf C *ᵥ pdum
  let du := solve udum
  let pdum := fp - C *ᵥ du
  let dp := diagonal D *ᵥ pdum
  (s.1 + du, s.2 + dp)

/-- Velocity and pressure after `k` iterations without the stopping test. -/
def compIter (A : Matrix (Fin n) (Fin n) ℝ) (C : Matrix (Fin (m + 1)) (Fin n) ℝ) (D1 D : Fin (m + 1) → ℝ)
    (solve : Vec n → Vec n) (bu : Vec n) (bp : Vec (m + 1)) (s : Vec n × Vec (m + 1)) :
    Nat → Vec n × Vec (m + 1)
  | 0 => s
  | k + 1 => compStep A C D1 D solve bu bp (compIter A C D1 D solve bu bp s k)

/-- Early exit (Solvers.c:906). -/
def compStop (absDiv relDiv : ℝ) (k : Nat) (maxdiv maxdiv0 : ℝ) : Prop :=
  1 < k ∧ (|maxdiv| < absDiv ∨ ratioLt maxdiv maxdiv0 relDiv)

open Classical in
/-- The loop (Solvers.c:891-933): `left` iterations remain, `k` have been made; the maxima start
undefined, here with any values. -/
noncomputable def compLoop (A : Matrix (Fin n) (Fin n) ℝ) (C : Matrix (Fin (m + 1)) (Fin n) ℝ)
    (D1 D : Fin (m + 1) → ℝ) (solve : Vec n → Vec n) (absDiv relDiv : ℝ) (bu : Vec n) (bp : Vec (m + 1)) :
    Nat → Nat → Vec n × Vec (m + 1) → ℝ → ℝ → (Vec n × Vec (m + 1)) × ℝ × ℝ
  | 0, _, s, m0, mx => (s, m0, mx)
  | left + 1, k, s, m0, _ =>
    let mx := maxVal (compFp C D1 bp s)
    let m0 := if k = 0 then mx else m0
    if compStop absDiv relDiv k mx m0 then (s, m0, mx)
    else compLoop A C D1 D solve absDiv relDiv bu bp left (k + 1) (compStep A C D1 D solve bu bp s) m0 mx

open Classical in
/-- `DirectStokesDecoupledComp` from `[u0; p0]`, twenty iterations at most; `none` is `exit(1)`
(Solvers.c:688, 872-937). -/
noncomputable def compStokes (A : Matrix (Fin n) (Fin n) ℝ) (C : Matrix (Fin (m + 1)) (Fin n) ℝ)
    (D1 D : Fin (m + 1) → ℝ) (solve : Vec n → Vec n) (absDiv relDiv : ℝ) (bu u0 : Vec n)
    (bp p0 : Vec (m + 1)) : Option (Vec n × Vec (m + 1)) :=
  let r := compLoop A C D1 D solve absDiv relDiv bu bp 20 0 (u0, p0) 0 0
  if absDiv < |r.2.2| ∧ ratioGt r.2.2 r.2.1 relDiv then none else some r.1

/-! ### The vector both start from -/

/-- Tags of velocity nodes that are not unknowns (SparseTools.c:157, 168). -/
def unknownV (t : Int) : Bool := t != 0 && t != 30 && t != 13 && t != 11 && t != -12

/-- Tags of pressure nodes that are not unknowns (SparseTools.c:180). -/
def unknownP (t : Int) : Bool := t != 0 && t != 30 && t != 31

/-- One of the three loops: the values of the unknowns are stored one after another; two nested loops over
rows and columns run through the nodes in the order of their numbers (SparseTools.c:154-162, 165-173,
177-185). -/
def gather {α : Type} (nodes : Nat) (unknown : Nat → Bool) (value : Nat → α) (s : (Nat → α) × Nat) :
    (Nat → α) × Nat :=
  forUp nodes s fun s kk => if unknown kk then (upd s.1 s.2 (value kk), s.2 + 1) else s

/-- Start velocities, `BuildInitialSolutions` (SparseTools.c:149-173).  `uIn` is what lies at and behind the
array `mesh->u_in`, which has `Nx*(Nz+1)` entries; the vertical velocities are taken from it too
(line 169). -/
def startU {α : Type} (Nx Nz : Nat) (tagU tagV : Nat → Int) (uIn : Nat → α) (u0 : Nat → α) : Nat → α :=
  (gather ((Nx + 1) * Nz) (fun kk => unknownV (tagV kk)) uIn
    (gather (Nx * (Nz + 1)) (fun kk => unknownV (tagU kk)) uIn (u0, 0))).1

/-- Start pressures (SparseTools.c:175-186). -/
def startP {α : Type} (Nx Nz : Nat) (tagP : Nat → Int) (pIn : Nat → α) (p0 : Nat → α) : Nat → α :=
  (gather ((Nx - 1) * (Nz - 1)) (fun kk => unknownP (tagP kk)) pIn (p0, 0)).1

/-! ### Choice of the solver -/

/-- The routines that can be called. -/
inductive Solver
  | direct | krylov | killer | comp
  deriving DecidableEq, Repr

/-- The solver called for a number, if any (StokesRoutines.c:808-811). -/
def chosen (linSolver : Int) : Option Solver :=
  if linSolver = 0 then some .direct else
  if linSolver = 1 then some .krylov else
  if linSolver = 2 then some .killer else
  if linSolver = -1 then some .comp else none

/-- The correction vector: zeros, overwritten by the solver called (StokesRoutines.c:804-811). -/
def correction {α : Type} [Zero α] (linSolver : Int) (result : Solver → Nat → α) : Nat → α :=
  match chosen linSolver with
  | some s => result s
  | none => fun _ => 0

end Verif.Coupled
