import Verif.Model.Krylov
import Mathlib.Data.Matrix.Diagonal
import Mathlib.Data.Finset.Lattice.Fold

/-
Model of the segregated Stokes solvers of /repo/MDLIB/Solvers.c: `DirectStokesDecoupled` (321-672,
`lin_solver = 0`), the pressure blocks of `DirectStokesDecoupledComp` (723-735, `lin_solver = -1`) and
of `KSPStokesDecoupled` (1482-1502, `lin_solver = 1`), and `KillerSolver` (1046-1433, `lin_solver = 2`,
the default).

Simplifications: real arithmetic; matrices are entries, not compressed columns; velocity unknowns are
`Fin n`, pressure unknowns `Fin (m+1)` (there is at least one, otherwise `MinMaxArrayVal` reads outside
its array); `MinMaxArrayVal` is the maximum (that it is one under every schedule is proved with the
reductions); the Cholesky substitution of the direct solver is a function `solve`.
-/
namespace Verif.PH

open Matrix Ksp

/-! ### Pressure blocks -/

/-- Diagonals of `D1cm0` (pressure block), `Dcm0` (its inverse or the penalty) and
`whos_incompressible`, each starting as the identity (Solvers.c:1078-1080). -/
structure Blocks where
  D1 : Nat → ℝ
  D : Nat → ℝ
  W : Nat → ℝ

/-- What the loop over the cells reads: tags, equation numbers `eqn_p - neq`, the compressible flag, the
compressibilities, density and its pressure derivative, `density_variations`, time step, cell volume,
scaling of the pressure equations and the penalty `gamma / celvol`. -/
structure Cells where
  ncell : Nat
  tag : Nat → Int
  eqn : Nat → Nat
  comp : Nat → Int
  bet : Nat → ℝ
  rho : Nat → ℝ
  drhodp : Nat → ℝ
  volChange : Int
  dt : ℝ
  celvol : ℝ
  d : Nat → ℝ
  penalty : ℝ

/-- Body of the loop of `KillerSolver` (Solvers.c:1087-1102). -/
noncomputable def killerCell (c : Cells) (s : Blocks) (k : Nat) : Blocks :=
  if c.tag k ≠ 30 ∧ c.tag k ≠ 31 then
    let i := c.eqn k
    let D1 := if c.comp k = 0 then upd s.D1 i (s.D1 i * 0) else s.D1
    let D1 := if c.comp k = 1 ∧ c.volChange = 0 then upd D1 i (c.bet k / c.dt * c.celvol * c.d i * c.d i)
      else D1
    let D1 := if c.comp k = 1 ∧ c.volChange = 1 then
      upd D1 i (c.drhodp k / (c.rho k * c.dt) * c.celvol * c.d i * c.d i) else D1
    let D := if c.comp k = 0 then upd s.D i (s.D i * c.penalty) else s.D
    let D := if c.comp k = 1 then upd D i (1 / D1 i) else D
    let W := if c.comp k = 1 then upd s.W i (s.W i * 0) else s.W
    ⟨D1, D, W⟩
  else s

/-- The three diagonals of `KillerSolver` (Solvers.c:1077-1103); one thread, the iterations touch
different entries. -/
noncomputable def killerBlocks (c : Cells) : Blocks :=
  forUp c.ncell ⟨fun _ => 1, fun _ => 1, fun _ => 1⟩ (killerCell c)

/-- Body of the loop of `DirectStokesDecoupledComp` (Solvers.c:725-734): the scaling is read at the cell
number `k` (line 729), and so is the block to invert (line 732), although both are stored by
equation.  The array to invert has `neq` entries; `junk` is what lies behind it.  (The loop of
`KSPStokesDecoupled`, 1487-1500, has the second mistake only.) -/
noncomputable def compCell (c : Cells) (neq : Nat) (junk : Nat → ℝ) (s : Blocks) (k : Nat) : Blocks :=
  if c.tag k ≠ 30 ∧ c.tag k ≠ 31 then
    let i := c.eqn k
    let D1 := if c.comp k = 0 then upd s.D1 i (s.D1 i * 0) else s.D1
    let D1 := if c.comp k = 1 then upd D1 i (c.bet k / c.dt * c.celvol * c.d k * c.d k) else D1
    let D := if c.comp k = 0 then upd s.D i (s.D i * c.penalty) else s.D
    let D := if c.comp k = 1 then upd D i (1 / (if k < neq then D1 k else junk k)) else D
    ⟨D1, D, s.W⟩
  else s

/-- The diagonals of `DirectStokesDecoupledComp` (Solvers.c:705-735), run by one thread. -/
noncomputable def compBlocks (c : Cells) (neq : Nat) (junk : Nat → ℝ) : Blocks :=
  forUp c.ncell ⟨fun _ => 1, fun _ => 1, fun _ => 1⟩ (compCell c neq junk)

/-! ### Schur complement and factorisation -/

variable {n m : Nat}

/-- `L = A - B*(D*C)` (Solvers.c:436-453, 1172-1182). -/
def schur (A : Matrix (Fin n) (Fin n) ℝ) (B : Matrix (Fin n) (Fin (m + 1)) ℝ) (D : Fin (m + 1) → ℝ)
    (C : Matrix (Fin (m + 1)) (Fin n) ℝ) : Matrix (Fin n) (Fin n) ℝ :=
  A - B * (diagonal D * C)

/-- The matrix that is factorised: `cholmod_copy(Lcm, -1, 1, &c)` keeps the lower triangle and declares
the matrix symmetric (Solvers.c:471, 1215). -/
def lowerSym (L : Matrix (Fin n) (Fin n) ℝ) : Matrix (Fin n) (Fin n) ℝ :=
  fun i j => if j ≤ i then L i j else L j i

/-- `MinMaxArrayVal(f, .., &min, &max)`: the maximum, with its sign (MiscFunctions.c:340-372). -/
noncomputable def maxVal (f : Vec (m + 1)) : ℝ := Finset.univ.sup' Finset.univ_nonempty f

/-- C comparison `a/b < r` for doubles: a quotient by zero is an infinity or not-a-number. -/
def ratioLt (a b r : ℝ) : Prop := (b ≠ 0 ∧ a / b < r) ∨ (b = 0 ∧ a < 0)

/-- C comparison `a/b > r` for doubles. -/
def ratioGt (a b r : ℝ) : Prop := (b ≠ 0 ∧ r < a / b) ∨ (b = 0 ∧ 0 < a)

/-! ### `DirectStokesDecoupled` -/

/-- The gradient used by the direct solver: not the assembled one but `-C'` (Solvers.c:440-445). -/
def gradOf (C : Matrix (Fin (m + 1)) (Fin n) ℝ) : Matrix (Fin n) (Fin (m + 1)) ℝ := -Cᵀ

/-- One Powell-Hestenes iteration of the direct solver (Solvers.c:526-538). -/
def directStep (C : Matrix (Fin (m + 1)) (Fin n) ℝ) (D : Fin (m + 1) → ℝ) (solve : Vec n → Vec n)
    (bu : Vec n) (bp : Vec (m + 1)) (p : Vec (m + 1)) : Vec n × Vec (m + 1) :=
  let pdum := diagonal D *ᵥ bp
  let udum := bu - gradOf C *ᵥ p
  let udum := udum - gradOf C *ᵥ pdum
  let u := solve udum
  let pdum := bp - C *ᵥ u
  (u, p + diagonal D *ᵥ pdum)

/-- Velocity and pressure after `k` iterations of the direct solver (Solvers.c:524-567, without the
stopping test). -/
def directIter (C : Matrix (Fin (m + 1)) (Fin n) ℝ) (D : Fin (m + 1) → ℝ) (solve : Vec n → Vec n)
    (bu : Vec n) (bp : Vec (m + 1)) (u0 : Vec n) (p0 : Vec (m + 1)) : Nat → Vec n × Vec (m + 1)
  | 0 => (u0, p0)
  | k + 1 => directStep C D solve bu bp (directIter C D solve bu bp u0 p0 k).2

/-! ### `KillerSolver` -/

/-- The Jacobian blocks and the Picard divergence (Solvers.c:1116-1138). -/
structure Sys (n m : Nat) where
  A : Matrix (Fin n) (Fin n) ℝ
  B : Matrix (Fin n) (Fin (m + 1)) ℝ
  C : Matrix (Fin (m + 1)) (Fin n) ℝ
  Cpicard : Matrix (Fin (m + 1)) (Fin n) ℝ
  D1 : Fin (m + 1) → ℝ
  D : Fin (m + 1) → ℝ
  W : Fin (m + 1) → ℝ

/-- The tolerances and iteration limits read by the solver. -/
structure Tol where
  absDiv : ℝ
  relDiv : ℝ
  absMom : ℝ
  relMom : ℝ
  relKsp : ℝ
  maxKsp : Nat
  maxPH : Nat

/-- Unknowns and residuals of an iteration, the maxima and their first values (Solvers.c:1250-1310). -/
structure St (n m : Nat) where
  u : Vec (n + 1)
  p : Vec (m + 1)
  fu : Vec (n + 1)
  fp : Vec (m + 1)
  maxdiv : ℝ
  maxru : ℝ
  maxdiv0 : ℝ
  maxru0 : ℝ

/-- Momentum residual (Solvers.c:1299-1301). -/
def momRes (S : Sys n m) (bu : Vec n) (u : Vec n) (p : Vec (m + 1)) : Vec n :=
  bu - S.A *ᵥ u - S.B *ᵥ p

/-- Continuity residual (Solvers.c:1303-1305). -/
def contRes (S : Sys n m) (bp : Vec (m + 1)) (u : Vec n) (p : Vec (m + 1)) : Vec (m + 1) :=
  bp - S.C *ᵥ u - diagonal S.D1 *ᵥ p

/-- The matrix of the velocity solve (`Kcm`, Solvers.c:1177, 1182). -/
def velMatrix (S : Sys n m) : Matrix (Fin n) (Fin n) ℝ := schur S.A S.B S.D S.Cpicard

/-- Right-hand side of the velocity solve (Solvers.c:1282-1286). -/
def velRhs (S : Sys n m) (bu : Vec n) (bp p : Vec (m + 1)) : Vec n :=
  bu - S.B *ᵥ (diagonal S.D *ᵥ bp) - S.B *ᵥ (diagonal S.W *ᵥ p)

/-- Pressure update (Solvers.c:1293-1296). -/
def newPressure (S : Sys n m) (bp : Vec (m + 1)) (u : Vec n) (p : Vec (m + 1)) : Vec (m + 1) :=
  p + diagonal S.D *ᵥ (bp - S.C *ᵥ u - diagonal S.D1 *ᵥ p)

/-- One iteration of `KillerSolver` (Solvers.c:1281-1310); `none` when the Krylov solver has produced
not-a-number. -/
noncomputable def killerStep (S : Sys (n + 1) m) (prec : Vec (n + 1) → Vec (n + 1)) (t : Tol)
    (bu : Vec (n + 1)) (bp : Vec (m + 1)) (k : Nat) (s : St n m) : Option (St n m) :=
  match kspgcr (velMatrix S) prec (velRhs S bu bp s.p) s.u t.relKsp t.maxKsp with
  | none => none
  | some (_, r) =>
    let u := r.x
    let p := newPressure S bp u s.p
    let fu := momRes S bu u p
    let fp := contRes S bp u p
    some
      { u := u, p := p, fu := fu, fp := fp
        maxdiv := maxVal fp, maxru := maxVal fu
        maxdiv0 := if k = 0 then maxVal fp else s.maxdiv0
        maxru0 := if k = 0 then maxVal fu else s.maxru0 }

/-- Early exit (Solvers.c:1313). -/
def converged (t : Tol) (k : Nat) (s : St n m) : Prop :=
  1 < k ∧ (|s.maxdiv| < t.absDiv ∨ ratioLt s.maxdiv s.maxdiv0 t.relDiv) ∧
    (|s.maxru| < t.absMom ∨ ratioLt s.maxru s.maxru0 t.relMom)

open Classical in
/-- The Powell-Hestenes loop (Solvers.c:1279-1314): `lft` iterations may still be made. -/
noncomputable def killerLoop (S : Sys (n + 1) m) (prec : Vec (n + 1) → Vec (n + 1)) (t : Tol)
    (bu : Vec (n + 1)) (bp : Vec (m + 1)) : Nat → Nat → St n m → Option (St n m)
  | 0, _, s => some s
  | lft + 1, k, s =>
    match killerStep S prec t bu bp k s with
    | none => none
    | some s' => if converged t k s' then some s' else killerLoop S prec t bu bp lft (k + 1) s'

/-- Outcome of the solver: the program stops, not-a-number, or a solution is handed back. -/
inductive Out (n m : Nat) where
  | exit
  | nan
  | solution (s : St n m)

/-- Final check: the program stops if both conditions hold (Solvers.c:1317-1320). -/
def rejected (t : Tol) (s : St n m) : Prop := t.absDiv < |s.maxdiv| ∧ ratioGt s.maxdiv s.maxdiv0 t.relDiv

/-- Zero start (`cholmod_zeros`, Solvers.c:1253-1260); the maxima are uninitialised (`junk`,
Solvers.c:1054, 1251). -/
def startSt (bu : Vec (n + 1)) (bp : Vec (m + 1)) (junk : ℝ) : St n m :=
  { u := 0, p := 0, fu := bu, fp := bp, maxdiv := junk, maxru := junk, maxdiv0 := junk, maxru0 := junk }

open Classical in
/-- `KillerSolver` (Solvers.c:1246-1320) after the matrices have been prepared; not-a-number passes the
final check, as every comparison with it is false. -/
noncomputable def killerSolver (S : Sys (n + 1) m) (prec : Vec (n + 1) → Vec (n + 1)) (t : Tol)
    (bu : Vec (n + 1)) (bp : Vec (m + 1)) (junk : ℝ) : Out n m :=
  match killerLoop S prec t bu bp t.maxPH 0 (startSt bu bp junk) with
  | none => .nan
  | some s => if rejected t s then .exit else .solution s

end Verif.PH
